import Verif.Lemmas.HslGrey
import Verif.Props.BlendFloat

/-!
# The colours of the HSL modes
-/

namespace Ase

open F64 Spec.Hsl

/-! ## C76 -/

/-- The numbers that the four modes make into bytes. -/
def hslF (m : BlendMode) (back front : Color) : F64 × F64 × F64 :=
  let lum := luminosity (toF back.r) (toF back.g) (toF back.b)
  match m with
  | .hue =>
    let p := setSaturation (toF front.r) (toF front.g) (toF front.b) (saturation (toF back.r) (toF back.g) (toF back.b))
    setLuminocity p.1 p.2.1 p.2.2 lum
  | .saturation =>
    let p := setSaturation (toF back.r) (toF back.g) (toF back.b) (saturation (toF front.r) (toF front.g) (toF front.b))
    setLuminocity p.1 p.2.1 p.2.2 lum
  | .color => setLuminocity (toF front.r) (toF front.g) (toF front.b) lum
  | _ => setLuminocity (toF back.r) (toF back.g) (toF back.b) (luminosity (toF front.r) (toF front.g) (toF front.b))

/-- The colour a mode computes, before it is composited. -/
def hslColour (m : BlendMode) (back front : Color) : Color :=
  let byte := fun i => asU8 (toI32 (F64.mul (pick (hslF m back front) i) (.ofInt 255)))
  ⟨byte 0, byte 1, byte 2, asU8 (toI front.a * 255)⟩

theorem hsl_blend (m : BlendMode) (hm : Spec.isHsl m) (back front : Color) (plat : Plat) (o : UInt8)
    (hp : plat.debug = false) :
    Spec.blend plat m back front o = .ok (blenderU back front o (normalU back (hslColour m back front) o)) := by
  have key : ∀ (f : BlendFn), f back front o = Color.ofF64 plat (hslF m back front).1 (hslF m back front).2.1
        (hslF m back front).2.2 (toF front.a) >>= (fun c => normal plat back c o) →
      blender plat back front o f = .ok (blenderU back front o (normalU back (hslColour m back front) o)) := by
    intro f hf
    refine blender_eq _ _ _ _ _ _ fun _ => ?_
    rw [hf, Color.ofF64, ofI32_release plat hp, run_bind_ok, normal_eq, toI32_alpha]
    rfl
  cases m <;> try cases hm
  · exact key (hslHueBaseline plat) rfl
  · exact key (hslSaturationBaseline plat) rfl
  · exact key (hslColorBaseline plat) rfl
  · exact key (hslLuminosityBaseline plat) rfl

theorem near_source_sat (c d : Color) (i : Fin 3) :
    Near (pick (setSaturation (toF c.r) (toF c.g) (toF c.b) (saturation (toF d.r) (toF d.g) (toF d.b))) i)
      (setSatTies (channels c) (sat (channels d)) i) u := by
  obtain ⟨S, h1, h2, h3⟩ := near_saturation d
  rw [h2, show channels c = fun i => (chN c i : ℝ) from funext (channels_eq c)]
  exact near_setSat (near_pick c) h3 (chN_le c) h1 i

theorem near_hsl (m : BlendMode) (hm : Spec.isHsl m) (back front : Color) (hs : sat (source m back front) ≠ 0)
    (i : Fin 3) : Near (pick (hslF m back front) i) (colour m back front i) (10 ^ 9 * u) ∧ |colour m back front i| ≤ 2700 := by
  have hb := source_bounds m back front
  have h1 := source_spread m back front hs
  have hp : ∀ c i, Near (pick (toF c.r, toF c.g, toF c.b) i) (channels c i) u := fun c i => by
    rw [channels_eq]
    exact (near_pick c i).le u_pos.le
  cases m <;> try cases hm
  · exact near_setLum (near_source_sat front back) (near_lum back).1 (near_lum back).2.1 (near_lum back).2.2
      (fun i => (hb i).1) (fun i => (hb i).2) h1 i
  · exact near_setLum (near_source_sat back front) (near_lum back).1 (near_lum back).2.1 (near_lum back).2.2
      (fun i => (hb i).1) (fun i => (hb i).2) h1 i
  · exact near_setLum (hp front) (near_lum back).1 (near_lum back).2.1 (near_lum back).2.2
      (fun i => (hb i).1) (fun i => (hb i).2) h1 i
  · exact near_setLum (hp back) (near_lum front).1 (near_lum front).2.1 (near_lum front).2.2
      (fun i => (hb i).1) (fun i => (hb i).2) h1 i

theorem mixU_ne_zero (x y o : UInt8) (hx : x ≠ 0) (hy : y ≠ 0) : mixU x y o ≠ 0 := by
  have h := mixStep_between x y o
  have h1 := toI_pos hx
  have h2 := toI_pos hy
  intro h0
  have h3 := mixU_toI x y o
  rw [h0, show toI 0 = 0 from rfl] at h3
  rcases Int.le_total (toI x) (toI y) with h5 | h5
  · have := h.1 h5
    omega
  · have := h.2 h5
    omega

/-- Compositing when nothing is transparent. -/
theorem blenderU_mix_all (back front : Color) (o : UInt8) (p : Color) (hb : back.a ≠ 0) (hp : p.a ≠ 0)
    (ch : Color → UInt8) (hch : ch = Color.r ∨ ch = Color.g ∨ ch = Color.b ∨ ch = Color.a) :
    toI (ch (blenderU back front o p)) = Spec.mix
      (Spec.mix (toI (ch (normalU back front o))) (toI (ch p)) (toI back.a)) (toI (ch p))
      (Spec.times back.a.toNat (Spec.times front.a.toNat o.toNat)) := by
  have hn := normalU_alpha_ne back front o hb
  have h1 : ∀ (q : Color) (w : UInt8), q.a ≠ 0 →
      mergeU q p w = ⟨mixU q.r p.r w, mixU q.g p.g w, mixU q.b p.b w, mixU q.a p.a w⟩ := by
    intro q w hq
    unfold mergeU
    rw [if_neg (mixU_ne_zero _ _ _ hq hp), if_neg hq, if_neg hp]
  have h2 : ((Spec.times back.a.toNat (Spec.times front.a.toNat o.toNat) : Nat) : Int)
      = toI (timesU back.a (timesU front.a o)) := by rw [toI_timesU, timesU_toNat]
  unfold blenderU
  rw [if_pos hb, h1 _ _ hn, h1 _ _ (mixU_ne_zero _ _ _ hn hp), h2]
  rcases hch with rfl | rfl | rfl | rfl <;> simp only [mixU_mix]

/-- A colour without saturation. -/
theorem hsl_grey (m : BlendMode) (hm : Spec.isHsl m) (back front : Color) (hs : sat (source m back front) = 0) :
    ∃ (k : UInt8) (c : Color), target m back front = lum (channels c) ∧ ∀ i,
      pick (hslF m back front) i
        = pick (setLuminocity (toF k) (toF k) (toF k) (luminosity (toF c.r) (toF c.g) (toF c.b))) i := by
  cases m <;> try cases hm
  · refine ⟨0, back, rfl, fun i => ?_⟩
    have h := setSaturation_grey hs
    have h0 := h 0; have h1 := h 1; have h2 := h 2
    change (setSaturation _ _ _ _).1 = _ at h0
    change (setSaturation _ _ _ _).2.1 = _ at h1
    change (setSaturation _ _ _ _).2.2 = _ at h2
    unfold hslF
    dsimp only
    rw [h0, h1, h2]
    rfl
  · refine ⟨0, back, rfl, fun i => ?_⟩
    have h := setSaturation_grey hs
    have h0 := h 0; have h1 := h 1; have h2 := h 2
    change (setSaturation _ _ _ _).1 = _ at h0
    change (setSaturation _ _ _ _).2.1 = _ at h1
    change (setSaturation _ _ _ _).2.2 = _ at h2
    unfold hslF
    dsimp only
    rw [h0, h1, h2]
    rfl
  · refine ⟨front.r, back, rfl, fun i => ?_⟩
    obtain ⟨hg, hb⟩ := channels_grey hs
    unfold hslF
    dsimp only
    rw [hg, hb]
  · refine ⟨back.r, front, rfl, fun i => ?_⟩
    obtain ⟨hg, hb⟩ := channels_grey hs
    unfold hslF
    dsimp only
    rw [hg, hb]

/-- In a release build the four HSL modes compute a colour as follows, and composite it on a visible backdrop like the
colour of a separable mode.  Its alpha is 255 times the source's, modulo 256.  If the colour whose luminosity is set has
some saturation, each channel is 255 times what the formulas of the W3C give for channels from 0 to 255, up to an error of
1/20, cut off to an integer and reduced modulo 256.  If it has none, all channels are the same: 255 times the luminosity
(with the same error) if that is at most 1, and 0, 254 or 255 if it is at least 1.
Missing: the formulas should be used with channels from 0 to 1, and with `setSat` instead of `setSatTies`. -/
theorem C76_hsl_colour_partial (m : BlendMode) (hm : Spec.isHsl m) (back front : Color) :
    ∃ col : Color,
      (sat (source m back front) ≠ 0 → ∀ i, ∃ y : ℝ, |y - 255 * colour m back front i| ≤ 1 / 20 ∧
        channels col i = (truncate y % 256 : ℤ)) ∧
      (sat (source m back front) = 0 → col.g = col.r ∧ col.b = col.r ∧
        (target m back front ≤ 1 ∧ (∃ y : ℝ, |y - 255 * target m back front| ≤ 1 / 20 ∧ toI col.r = truncate y % 256) ∨
          1 ≤ target m back front ∧ col.r ∈ [0, 254, 255])) ∧
      toI col.a = toI front.a * 255 % 256 ∧
      ∀ (plat : Plat) (o : UInt8), plat.debug = false → back.a ≠ 0 →
        ∃ n p c, Spec.blend plat .normal back front o = .ok n ∧ Spec.blend plat .normal back col o = .ok p ∧
          Spec.blend plat m back front o = .ok c ∧
          ∀ ch : Color → UInt8, ch = Color.r ∨ ch = Color.g ∨ ch = Color.b ∨ ch = Color.a →
            toI (ch c) = Spec.mix (Spec.mix (toI (ch n)) (toI (ch p)) (toI back.a)) (toI (ch p))
              (Spec.times back.a.toNat (Spec.times front.a.toNat o.toNat)) := by
  refine ⟨hslColour m back front, fun hs i => ?_, fun hs => ?_, toI_asU8 _, fun plat o hp hb => ?_⟩
  · obtain ⟨h1, h2⟩ := near_hsl m hm back front hs i
    obtain ⟨y, hy, hy'⟩ := near_hslByte h1 h2
    refine ⟨y, hy, ?_⟩
    rw [← hy', channels_eq]
    simp only [toI]
    rw [Int.cast_natCast]
    fin_cases i <;> rfl
  · obtain ⟨k, c, h1, h2⟩ := hsl_grey m hm back front hs
    have h3 : ∀ i, asU8 (toI32 (F64.mul (pick (hslF m back front) i) (.ofInt 255)))
        = greyByte k (luminosity (toF c.r) (toF c.g) (toF c.b)) := fun i => by rw [h2, pick_grey]
    have hr : (hslColour m back front).r = greyByte k (luminosity (toF c.r) (toF c.g) (toF c.b)) := h3 0
    refine ⟨(h3 1).trans hr.symm, (h3 2).trans hr.symm, ?_⟩
    rw [hr, h1]
    exact greyByte_spec k c
  · exact ⟨_, _, _, blend_normal plat back front o, blend_normal plat back _ o, hsl_blend m hm back front plat o hp,
      blenderU_mix_all back front o _ hb (normalU_alpha_ne back _ o hb)⟩

/-- Both cases occur, the first one with a colour whose red and green channel are the same. -/
example : Spec.isHsl .hue ∧ sat (source .hue ⟨200, 100, 50, 255⟩ ⟨10, 10, 40, 128⟩) ≠ 0 ∧
    sat (source .color ⟨200, 100, 50, 255⟩ ⟨10, 10, 10, 128⟩) = 0 := by
  have h1 : UInt8.toNat 200 = 200 := rfl
  have h2 : UInt8.toNat 100 = 100 := rfl
  have h3 : UInt8.toNat 50 = 50 := rfl
  have h4 : UInt8.toNat 10 = 10 := rfl
  have h5 : UInt8.toNat 40 = 40 := rfl
  have h6 : ¬ (2 : Fin 3) = 0 := by decide
  have h7 : ¬ (2 : Fin 3) = 1 := by decide
  refine ⟨rfl, ?_, ?_⟩ <;>
  norm_num [source, setSatTies, setSat, least, most, sat, channels, h1, h2, h3, h4, h5, h6, h7]

/-- The formulas of the W3C, with channels from 0 to 1, give another colour: opaque black on opaque red at full opacity
gives red in all four modes, and by the formulas a channel of at most 77. -/
theorem C76_not_w3c (m : BlendMode) (hm : Spec.isHsl m) :
    ∃ back front : Color, back.a = 255 ∧ front.a = 255 ∧ 255 * w3c m back front 0 ≤ 77 ∧
      ∀ plat : Plat, plat.debug = false → ∃ c, Spec.blend plat m back front 255 = .ok c ∧ 254 ≤ c.r := by
  refine ⟨⟨255, 0, 0, 255⟩, ⟨0, 0, 0, 255⟩, rfl, rfl, ?_, fun plat hp => ?_⟩
  · have h1 : UInt8.toNat 255 = 255 := rfl
    have h2 : ¬ (2 : Fin 3) = 0 := by decide
    cases m <;> cases hm <;>
      norm_num [w3c, setLum, setSat, clip_eq, lowR, highR, lum, least, most, sat, channels, h1, h2]
  · obtain ⟨c, h1, h2⟩ := C50_release_no_effect m hm ⟨255, 0, 0, 255⟩ ⟨0, 0, 0, 255⟩ plat hp rfl rfl
    refine ⟨c, h1, ?_⟩
    have h3 := (h2 Color.r (.inl rfl)).1
    rw [UInt8.le_iff_toNat_le]
    simp only [toI] at h3
    have h4 : (255 : UInt8).toNat = 255 := rfl
    have h5 : (254 : UInt8).toNat = 254 := rfl
    omega

end Ase
