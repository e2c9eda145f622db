import Verif.Lemmas.SoftLight
import Verif.Props.Blend

/-!
# C47, C48, C50, C51: all separable modes, soft light and the HSL modes
-/

namespace Ase

/-! ## Soft light in closed form -/

/-- The soft light function on bytes. -/
def softU (b s : UInt8) : UInt8 := asU8 (blendSoftLight (toI b) (toI s))

theorem softU_spec (b s : UInt8) :
    toI (softU b s) = blendSoftLight (toI b) (toI s) ∧ Spec.SoftLight b.toNat s.toNat (softU b s).toNat := by
  obtain ⟨k, h1, h2, h3⟩ := softLight_spec (byte_le b) (byte_le s)
  have h4 : toI (softU b s) = k := by
    unfold softU
    simp only [toI] at *
    rw [h2]
    exact asU8_of_byte k ⟨by omega, by omega⟩
  refine ⟨?_, ?_⟩
  · rw [h4]
    exact h2.symm
  · have h5 : (softU b s).toNat = k := by
      simp only [toI] at h4
      omega
    rw [h5]
    exact h3

/-- The colour `soft_light_baseline` passes to `normal`. -/
def softColor (back front : Color) : Color :=
  ⟨softU back.r front.r, softU back.g front.g, softU back.b back.b, front.a⟩

theorem softLightBaseline_eq (plat : Plat) (back front : Color) (o : UInt8) :
    softLightBaseline plat back front o = .ok (normalU back (softColor back front) o) := by
  have h : ∀ b s : UInt8, 0 ≤ blendSoftLight (toI b) (toI s) ∧ blendSoftLight (toI b) (toI s) ≤ 255 := by
    intro b s
    rw [← (softU_spec b s).1]
    exact ⟨toI_nonneg _, toI_le _⟩
  unfold softLightBaseline
  dsimp only
  rw [ofI32_eq plat _ _ _ _ (h _ _) (h _ _) (h _ _) ⟨toI_nonneg _, toI_le _⟩, run_bind_ok, normal_eq, asU8_toI]
  rfl

theorem blend_softLight (plat : Plat) (back front : Color) (o : UInt8) :
    Spec.blend plat .softLight back front o
      = .ok (blenderU back front o (normalU back (softColor back front) o)) := by
  simp only [Spec.blend, blendModeToBlendFn, run_pure, run_bind_ok]
  exact blender_eq _ _ _ _ _ _ fun _ => softLightBaseline_eq plat back front o

/-! ## C47: no panics, the same result in both build profiles -/

/-- The separable modes: all known modes except the four HSL modes. -/
def Spec.isSeparable (m : BlendMode) : Bool := Spec.isKnown m && !Spec.isHsl m

/-- Every separable mode gives a colour for all colours and opacities, the same one in every build profile. -/
theorem C47_total (m : BlendMode) (hm : Spec.isSeparable m) (back front : Color) (o : UInt8) :
    ∃ c, ∀ plat, Spec.blend plat m back front o = .ok c := by
  have key : ∀ f, Spec.channelFn m = some f → ∃ c, ∀ plat, Spec.blend plat m back front o = .ok c := by
    intro f hf
    refine ⟨modeU f back front o, fun plat => ?_⟩
    obtain ⟨g, h1, h2⟩ := mode_eq plat m f hf
    rw [Spec.blend, h1, run_bind_ok, h2]
  cases m
  case softLight => exact ⟨_, fun plat => blend_softLight plat back front o⟩
  case unknown => cases hm
  case hue => cases hm
  case saturation => cases hm
  case color => cases hm
  case luminosity => cases hm
  all_goals exact key _ rfl

example : Spec.isSeparable .softLight ∧
    Spec.blend ⟨true, 0⟩ .softLight ⟨200, 100, 50, 255⟩ ⟨100, 200, 0, 255⟩ 255 = .ok ⟨191, 134, 26, 255⟩ := by
  decide +kernel

/-! ## C51: soft light -/

/-- Soft light applies the exactly rounded soft light function to (backdrop, source) for red and green, but for blue it
applies it to (backdrop, backdrop).  On opaque colours at full opacity that is the result; in general the colour found
this way is composited as in C56.  Missing: the blue channel, see `C51_blue_ignores_source`. -/
theorem C51_soft_light_partial (plat : Plat) (back front : Color) (o : UInt8) :
    ∃ col : Color, Spec.SoftLight back.r.toNat front.r.toNat col.r.toNat ∧
      Spec.SoftLight back.g.toNat front.g.toNat col.g.toNat ∧
      Spec.SoftLight back.b.toNat back.b.toNat col.b.toNat ∧ col.a = front.a ∧
      (back.a = 255 → front.a = 255 → o = 255 → Spec.blend plat .softLight back front o = .ok col) ∧
      (back.a ≠ 0 → ∃ n p c, Spec.blend plat .normal back front o = .ok n ∧
        Spec.blend plat .normal back col o = .ok p ∧
        Spec.blend plat .softLight back front o = .ok c ∧ c.a = n.a ∧
        ∀ ch : Color → UInt8, ch = Color.r ∨ ch = Color.g ∨ ch = Color.b →
          toI (ch c) = Spec.mix (Spec.mix (toI (ch n)) (toI (ch p)) (toI back.a)) (toI (ch p))
            (Spec.times back.a.toNat (Spec.times front.a.toNat o.toNat))) := by
  refine ⟨softColor back front, (softU_spec _ _).2, (softU_spec _ _).2, (softU_spec _ _).2, rfl, ?_, ?_⟩
  · rintro hb hf rfl
    have ha : (softColor back front).a ≠ 0 := by
      rw [show (softColor back front).a = front.a from rfl, hf]
      decide
    rw [blend_softLight, blenderU, if_pos (by rw [hb]; decide),
      normalU_opaque back _ (show (softColor back front).a = 255 from hf), hb, mergeU_255 _ _ ha, mergeU_self _ _ ha]
  · intro hb
    have h5 := normalU_alpha back front (softColor back front) o rfl
    have h6 := blenderU_mix back front o (normalU back (softColor back front) o) hb h5
    exact ⟨_, _, _, blend_normal plat back front o, blend_normal plat back _ o, blend_softLight plat back front o,
      h6.1.trans h5, h6.2⟩

/-- The same two channel values give different results in red and in blue: soft light of the backdrop value 100 and
the source value 200 is 134 in the red and green channels and 87 in the blue one. -/
theorem C51_blue_ignores_source :
    (∀ plat, Spec.blend plat .softLight ⟨100, 100, 100, 255⟩ ⟨200, 200, 200, 255⟩ 255 = .ok ⟨134, 134, 87, 255⟩) ∧
    (∀ plat back front front', back.a = 255 → front.a = 255 → front'.a = 255 → front.r = front'.r → front.g = front'.g →
      Spec.blend plat .softLight back front 255 = Spec.blend plat .softLight back front' 255) := by
  have key : ∀ (back front : Color), back.a = 255 → front.a = 255 →
      blenderU back front 255 (normalU back (softColor back front) 255) = softColor back front := by
    intro back front hb hf
    have ha : (softColor back front).a ≠ 0 := by
      rw [show (softColor back front).a = front.a from rfl, hf]
      decide
    rw [blenderU, if_pos (by rw [hb]; decide),
      normalU_opaque back _ (show (softColor back front).a = 255 from hf), hb, mergeU_255 _ _ ha, mergeU_self _ _ ha]
  refine ⟨fun plat => ?_, fun plat back front front' hb hf hf' hr hg => ?_⟩
  · rw [blend_softLight, key _ _ rfl rfl]
    decide +kernel
  · rw [blend_softLight, blend_softLight, key _ _ hb hf, key _ _ hb hf']
    simp only [softColor, hr, hg, hf, hf']

/-! ## C50: the HSL modes -/

theorem alpha_scaled : ∀ a : Fin 256,
    F64.toI32 (F64.mul (.ofInt (a.val : Int)) (.ofInt 255)) = (a.val : Int) * 255 := by
  decide +kernel

theorem toI32_alpha (a : UInt8) : F64.toI32 (F64.mul (toF a) (.ofInt 255)) = toI a * 255 :=
  alpha_scaled ⟨a.toNat, a.toNat_lt⟩

theorem debugAssert_cases (plat : Plat) (c : Bool) :
    debugAssert plat c = .ok () ∨ debugAssert plat c = .panic .debugAssertFailed := by
  unfold debugAssert
  split
  · exact .inr rfl
  · exact .inl rfl

theorem ofI32_panics (plat : Plat) (hp : plat.debug = true) (r g b a : Int) (ha : 255 < a) :
    Color.ofI32 plat r g b a = .panic .debugAssertFailed := by
  have h : debugAssert plat (isByte a) = .panic .debugAssertFailed := by
    have : isByte a = false := by simp only [isByte, decide_eq_false_iff_not]; omega
    simp [debugAssert, hp, this]
  unfold Color.ofI32
  rcases debugAssert_cases plat (isByte r) with h1 | h1 <;> rw [h1]
  · rcases debugAssert_cases plat (isByte g) with h2 | h2 <;> rw [run_bind_ok, h2]
    · rcases debugAssert_cases plat (isByte b) with h3 | h3 <;> rw [run_bind_ok, h3]
      · rw [run_bind_ok, h]
        rfl
      · rfl
    · rfl
  · rfl

theorem ofI32_release (plat : Plat) (hp : plat.debug = false) (r g b a : Int) :
    Color.ofI32 plat r g b a = .ok ⟨asU8 r, asU8 g, asU8 b, asU8 a⟩ := by
  have h : ∀ c, debugAssert plat c = .ok () := by simp [debugAssert, hp]
  simp only [Color.ofI32, h, run_bind_ok, run_pure]

/-- All four HSL modes end in the same way: some numbers for red, green and blue, and the source's alpha. -/
theorem hsl_shape (m : BlendMode) (hm : Spec.isHsl m) (back front : Color) :
    ∃ r g b : F64, ∀ plat o, Spec.blend plat m back front o = blender plat back front o
      fun back' front' o' => if back' = back ∧ front' = front then
        Color.ofF64 plat r g b (toF front.a) >>= fun c => normal plat back c o' else .panic .explicitPanic := by
  have key : ∀ (r g b : F64) (f : Plat → BlendFn), (∀ plat o, f plat back front o
        = Color.ofF64 plat r g b (toF front.a) >>= fun c => normal plat back c o) →
      ∃ r g b : F64, ∀ plat o, blender plat back front o (f plat) = blender plat back front o
        fun back' front' o' => if back' = back ∧ front' = front then
          Color.ofF64 plat r g b (toF front.a) >>= fun c => normal plat back c o' else .panic .explicitPanic := by
    intro r g b f hf
    refine ⟨r, g, b, fun plat o => ?_⟩
    unfold blender
    simp only [hf, and_self, if_true]
  cases m <;> first | cases hm | skip
  · exact key _ _ _ (fun plat => hslHueBaseline plat) fun plat o => rfl
  · exact key _ _ _ (fun plat => hslSaturationBaseline plat) fun plat o => rfl
  · exact key _ _ _ (fun plat => hslColorBaseline plat) fun plat o => rfl
  · exact key _ _ _ (fun plat => hslLuminosityBaseline plat) fun plat o => rfl

/-- The four HSL modes in a release build. -/
theorem hsl_release (m : BlendMode) (hm : Spec.isHsl m) (back front : Color) :
    ∃ r g b : UInt8, ∀ plat o, plat.debug = false → Spec.blend plat m back front o
      = .ok (blenderU back front o (normalU back ⟨r, g, b, asU8 (toI front.a * 255)⟩ o)) := by
  obtain ⟨r, g, b, h⟩ := hsl_shape m hm back front
  refine ⟨asU8 (F64.mul r (.ofInt 255)).toI32, asU8 (F64.mul g (.ofInt 255)).toI32,
    asU8 (F64.mul b (.ofInt 255)).toI32, fun plat o hp => ?_⟩
  rw [h]
  refine blender_eq _ _ _ _ _ _ fun _ => ?_
  rw [if_pos ⟨rfl, rfl⟩, Color.ofF64, ofI32_release plat hp, run_bind_ok, normal_eq, toI32_alpha]

/-- In a debug build each HSL mode panics on every visible backdrop and every source with alpha 2 or more; in a release
build it never panics. -/
theorem C50_debug_panics (m : BlendMode) (hm : Spec.isHsl m) (back front : Color) (o : UInt8) (hb : back.a ≠ 0)
    (hf : 2 ≤ front.a) (plat : Plat) (hp : plat.debug = true) :
    Spec.blend plat m back front o = .panic .debugAssertFailed := by
  obtain ⟨r, g, b, h⟩ := hsl_shape m hm back front
  rw [h]
  refine blender_panic _ _ _ _ _ _ hb ?_
  rw [if_pos ⟨rfl, rfl⟩, Color.ofF64, ofI32_panics plat hp]
  · rfl
  · rw [toI32_alpha]
    have : (2 : UInt8).toNat ≤ front.a.toNat := UInt8.le_iff_toNat_le.1 hf
    have h2 : (2 : UInt8).toNat = 2 := rfl
    simp only [toI]
    omega

example : Spec.isHsl .luminosity ∧
    Spec.blend ⟨true, 0⟩ .luminosity ⟨1, 2, 3, 255⟩ ⟨10, 20, 30, 255⟩ 255 = .panic .debugAssertFailed := by
  decide +kernel

/-- In a release build an HSL mode never panics, and blending an opaque source onto an opaque backdrop gives an opaque
colour.  Missing: debug builds (see `C50_debug_panics`). -/
theorem C50_release_partial (m : BlendMode) (hm : Spec.isHsl m) (back front : Color) (o : UInt8) (plat : Plat)
    (hp : plat.debug = false) :
    ∃ c, Spec.blend plat m back front o = .ok c ∧ (back.a = 255 → front.a = 255 → o = 255 → c.a = 255) := by
  obtain ⟨r, g, b, h⟩ := hsl_release m hm back front
  refine ⟨_, h plat o hp, ?_⟩
  rintro hb hf rfl
  have h1 : (normalU back front 255).a = 255 := by rw [normalU_opaque back front hf, hf]
  have h2 : (normalU back ⟨r, g, b, asU8 (toI front.a * 255)⟩ 255).a = 255 := by
    rw [hf, show asU8 (toI 255 * 255) = 1 by decide, normalU, hb, if_neg (by decide), if_neg (show ¬ (1 : UInt8) = 0 by decide)]
    show asU8 (overA 255 (timesU 1 255)) = 255
    decide
  rw [(blenderU_mix back front 255 _ (by rw [hb]; decide) (by rw [h1, h2])).1, h2]

example : Spec.isHsl .luminosity ∧
    Spec.blend ⟨false, 0⟩ .luminosity ⟨1, 2, 3, 255⟩ ⟨100, 20, 30, 255⟩ 255 = .ok ⟨1, 2, 3, 255⟩ := by
  decide +kernel

/-- In a release build an HSL mode of opaque colours hardly changes the backdrop: the source's alpha 255 becomes 1, so
no channel moves by more than one step. -/
theorem C50_release_no_effect (m : BlendMode) (hm : Spec.isHsl m) (back front : Color) (plat : Plat)
    (hp : plat.debug = false) (hb : back.a = 255) (hf : front.a = 255) :
    ∃ c, Spec.blend plat m back front 255 = .ok c ∧
      ∀ ch : Color → UInt8, ch = Color.r ∨ ch = Color.g ∨ ch = Color.b →
        toI (ch back) - 1 ≤ toI (ch c) ∧ toI (ch c) ≤ toI (ch back) + 1 := by
  obtain ⟨r, g, b, h⟩ := hsl_release m hm back front
  refine ⟨_, h plat 255 hp, ?_⟩
  have h1 : asU8 (toI front.a * 255) = 1 := by rw [hf]; decide
  have ha : (normalU back ⟨r, g, b, 1⟩ 255).a ≠ 0 := normalU_alpha_ne _ _ _ (by rw [hb]; decide)
  rw [h1, blenderU, if_pos (by rw [hb]; decide), hb, mergeU_255 _ _ ha, mergeU_self _ _ ha]
  have h2 : ∀ x y : UInt8, toI x - 1 ≤ toI (asU8 (overC x y (timesU 1 255) (overA back.a (timesU 1 255)))) ∧
      toI (asU8 (overC x y (timesU 1 255) (overA back.a (timesU 1 255)))) ≤ toI x + 1 := by
    intro x y
    rw [hb, show timesU 1 255 = 1 by decide, show overA 255 1 = 255 by decide]
    rw [asU8_of_byte _ (overC_byte x y 1 255 (by decide) (by decide))]
    have h3 := toI_nonneg x; have h4 := toI_le x; have h5 := toI_nonneg y; have h6 := toI_le y
    simp only [overC, show toI 1 = 1 from rfl, Int.mul_one]
    rcases Int.le_total (toI x) (toI y) with h7 | h7
    · rw [Int.tdiv_eq_ediv_of_nonneg (by omega)]
      omega
    · rw [show (toI y - toI x) = -(toI x - toI y) by omega, Int.neg_tdiv, Int.tdiv_eq_ediv_of_nonneg (by omega)]
      omega
  unfold normalU
  rw [if_neg (by rw [hb]; decide), if_neg (show ¬ (1 : UInt8) = 0 by decide)]
  rintro ch (rfl | rfl | rfl)
  · exact h2 _ _
  · exact h2 _ _
  · exact h2 _ _

example : Spec.isHsl .hue ∧
    Spec.blend ⟨false, 0⟩ .hue ⟨0, 255, 30, 255⟩ ⟨10, 20, 30, 255⟩ 255 = .ok ⟨0, 255, 30, 255⟩ := by
  decide +kernel

/-! ## C48: transparent sources -/

theorem blenderU_unchanged (back front : Color) (o : UInt8) (hb : back.a ≠ 0) (h : front.a = 0 ∨ o = 0)
    (col : Color) (hc : front.a = 0 → col.a = 0) : blenderU back front o (normalU back col o) = back := by
  have h1 : normalU back front o = back := by
    rcases h with h | rfl
    · exact normalU_clear_front back front o hb h
    · exact normalU_zero_opacity back front hb
  have h2 : normalU back col o = back := by
    rcases h with h | rfl
    · exact normalU_clear_front back col o hb (hc h)
    · exact normalU_zero_opacity back col hb
  rw [blenderU, if_pos hb, h1, h2, mergeU_self _ _ hb, mergeU_self _ _ hb]

/-- A fully transparent source, or zero opacity, leaves a visible backdrop unchanged, in every separable mode and, in
release builds, in the HSL modes.  (In debug builds those panic, see C50.) -/
theorem C48_transparent_source (plat : Plat) (m : BlendMode)
    (hm : Spec.isSeparable m ∨ (Spec.isHsl m ∧ plat.debug = false)) (back front : Color) (o : UInt8) (hb : back.a ≠ 0)
    (h : front.a = 0 ∨ o = 0) : Spec.blend plat m back front o = .ok back := by
  rcases hm with hm | ⟨hm, hp⟩
  · have key : ∀ f, Spec.channelFn m = some f → Spec.blend plat m back front o = .ok back := by
      intro f hf
      obtain ⟨g, h1, h2⟩ := mode_eq plat m f hf
      rw [Spec.blend, h1, run_bind_ok, h2, modeU_unchanged f back front o hb h]
    cases m
    case softLight => rw [blend_softLight, blenderU_unchanged back front o hb h (softColor back front) fun ha => ha]
    case unknown => cases hm
    case hue => cases hm
    case saturation => cases hm
    case color => cases hm
    case luminosity => cases hm
    all_goals exact key _ rfl
  · obtain ⟨r, g, b, h1⟩ := hsl_release m hm back front
    rw [h1 plat o hp, blenderU_unchanged back front o hb h _ fun ha => by rw [ha]; rfl]

example : Spec.isSeparable .softLight ∧ (Spec.isHsl .color ∧ (⟨false, 0⟩ : Plat).debug = false) ∧
    Spec.blend ⟨false, 0⟩ .color ⟨9, 8, 7, 6⟩ ⟨10, 20, 30, 40⟩ 0 = .ok ⟨9, 8, 7, 6⟩ := by
  decide +kernel

end Ase
