import Verif.Lemmas.BlendModes

/-!
# C45, C46, C48, C49, C56: the integer blend modes
-/

namespace Ase

/-! ## C45: exactly rounded arithmetic -/

/-- Products and quotients of channel values are exactly rounded, without overflow.  Interpolation from `back` to `src`
is exactly rounded upwards (`back ≤ src`); downwards it may be off the exact value by `128/255` instead of `127/255`, so
it is nearest except for ties it cannot resolve (see `C45_interpolation_not_nearest`). -/
theorem C45_arithmetic_partial (plat : Plat) :
    (∀ a b : UInt8, ∃ r : UInt8, mul8 plat (toI a) (toI b) = .ok r ∧ Spec.Nearest (toI a * toI b) 255 (toI r)) ∧
    (∀ a b : UInt8, a < b → ∃ r : UInt8, div8 plat (toI a) (toI b) = .ok r ∧
      Spec.Nearest (toI a * 255) (toI b) (toI r)) ∧
    (∀ back src o : UInt8, ∃ r : UInt8, blend8 plat back src o = .ok r ∧
      toI r = Spec.mix (toI back) (toI src) (toI o) ∧
      (back ≤ src → Spec.Nearest (255 * toI back + (toI src - toI back) * toI o) 255 (toI r)) ∧
      -256 ≤ 2 * (255 * toI back + (toI src - toI back) * toI o - 255 * toI r) ∧
      2 * (255 * toI back + (toI src - toI back) * toI o - 255 * toI r) ≤ 254) := by
  refine ⟨fun a b => ⟨_, mul8_eq plat a b, ?_⟩, fun a b h => ?_, fun back src o => ⟨_, blend8_eq plat back src o, ?_⟩⟩
  · rw [toI_timesU]
    simp only [Spec.Nearest, Spec.times, Spec.roundDiv, toI]
    have h : ((a.toNat : Int) * (b.toNat : Int)) = ((a.toNat * b.toNat : Nat) : Int) := by simp
    rw [h]
    omega
  · have h1 : a.toNat < b.toNat := UInt8.lt_iff_toNat_lt.1 h
    refine ⟨_, div8_eq plat a.toNat b.toNat h1 (byte_le b), ?_⟩
    rw [toI_ofNat _ (roundDiv_le _ _ h1)]
    simp only [Spec.Nearest, roundDiv_eq, toI]
    have h2 := Nat.div_add_mod (a.toNat * 255 + b.toNat / 2) b.toNat
    have h3 := Nat.mod_lt (a.toNat * 255 + b.toNat / 2) (show 0 < b.toNat by omega)
    have h4 : ((b.toNat : Int) * (((a.toNat * 255 + b.toNat / 2) / b.toNat : Nat) : Int))
        = ((b.toNat * ((a.toNat * 255 + b.toNat / 2) / b.toNat) : Nat) : Int) := by simp
    rw [h4]
    generalize b.toNat * ((a.toNat * 255 + b.toNat / 2) / b.toNat) = p at h2
    omega
  · refine ⟨mixU_mix back src o, ?_⟩
    rw [mixU_toI]
    have h := scale_between (toI src - toI back) (toI o) (toI_nonneg o) (toI_le o)
    have h1 := toI_nonneg back; have h2 := toI_le back; have h3 := toI_nonneg src; have h4 := toI_le src
    simp only [Spec.Nearest, mixStep, UInt8.le_iff_toNat_le]
    have h5 : (back.toNat ≤ src.toNat) ↔ toI back ≤ toI src := by simp only [toI]; omega
    rw [h5]
    generalize (toI src - toI back) * toI o = p at h
    have h6 : -65025 ≤ p ∧ p ≤ 65025 := by
      rcases Int.le_total (toI back) (toI src) with h5 | h5
      · have := h.1 (by omega); omega
      · have := h.2 (by omega); omega
    refine ⟨fun hle => ?_, ?_⟩
    · have := h.1 (by omega)
      omega
    · omega

example : (3 : UInt8) < 200 ∧ mul8 ⟨true, 0⟩ (toI 100) (toI 200) = .ok 78
    ∧ div8 ⟨true, 0⟩ (toI 3) (toI 200) = .ok 4 ∧ blend8 ⟨true, 0⟩ 10 20 128 = .ok 15 := by decide +kernel

/-- Interpolation is not always the nearest integer: from 128 towards 0 with opacity 1/255 the exact value is
127.498…, the result is 128. -/
theorem C45_interpolation_not_nearest (plat : Plat) :
    blend8 plat 128 0 1 = .ok 128 ∧
      ¬ Spec.Nearest (255 * toI 128 + (toI 0 - toI 128) * toI 1) 255 (toI 128) := by
  refine ⟨?_, by unfold Spec.Nearest; decide⟩
  rw [blend8_eq]
  exact congrArg _ (by decide)

/-! ## C46: normal blending -/

theorem blend_normal (plat : Plat) (back front : Color) (o : UInt8) :
    Spec.blend plat .normal back front o = .ok (normalU back front o) := normal_eq plat back front o

theorem normalU_channel (back front : Color) (o : UInt8) (hb : back.a ≠ 0) (hf : front.a ≠ 0) (x y : UInt8) :
    (toI x ≤ toI y → toI x ≤ toI (asU8 (overC x y (timesU front.a o) (overA back.a (timesU front.a o)))) ∧
      toI (asU8 (overC x y (timesU front.a o) (overA back.a (timesU front.a o)))) ≤ toI y) ∧
    (toI y ≤ toI x → toI y ≤ toI (asU8 (overC x y (timesU front.a o) (overA back.a (timesU front.a o)))) ∧
      toI (asU8 (overC x y (timesU front.a o) (overA back.a (timesU front.a o)))) ≤ toI x) := by
  have h1 := overA_bounds back.a (timesU front.a o)
  have h2 := toI_pos hb
  have h3 := overC_byte x y (timesU front.a o) _ h1.2.1 (by omega)
  rw [asU8_of_byte _ h3]
  exact overC_between x y _ _ h1.2.1 (by omega)

/-- `z` lies between `x` and `y`. -/
def Spec.Between (x y z : UInt8) : Prop := min x.toNat y.toNat ≤ z.toNat ∧ z.toNat ≤ max x.toNat y.toNat

/-- Normal blending never panics and gives a colour `c` such that: an opaque source at full opacity replaces the
backdrop; a transparent source or zero opacity leaves a visible backdrop unchanged; over a fully transparent backdrop
the source remains, with its alpha scaled; otherwise every channel is the backdrop's moved towards the source's by the
fraction (source alpha) / (result alpha), rounded towards the backdrop; every channel lies between backdrop and source;
the result alpha is the source-over alpha `1 - (1 - backdrop) (1 - source)`, at least each of the two. -/
theorem C46_normal (plat : Plat) (back front : Color) (o : UInt8) :
    ∃ c, Spec.blend plat .normal back front o = .ok c ∧
      (front.a = 255 → o = 255 → c = front) ∧
      (back.a ≠ 0 → (front.a = 0 ∨ o = 0) → c = back) ∧
      (back.a = 0 → c.r = front.r ∧ c.g = front.g ∧ c.b = front.b ∧ c.a.toNat = Spec.times front.a.toNat o.toNat) ∧
      (back.a ≠ 0 →
        let fa := Spec.times front.a.toNat o.toNat
        let channel := fun b s : UInt8 => toI b + ((toI s - toI b) * fa).tdiv (toI c.a)
        toI c.r = channel back.r front.r ∧ toI c.g = channel back.g front.g ∧ toI c.b = channel back.b front.b) ∧
      (back.a ≠ 0 →
        Spec.Between back.r front.r c.r ∧ Spec.Between back.g front.g c.g ∧ Spec.Between back.b front.b c.b) ∧
      c.a.toNat = Spec.screen back.a.toNat (Spec.times front.a.toNat o.toNat) ∧
      back.a ≤ c.a ∧ Spec.times front.a.toNat o.toNat ≤ c.a.toNat := by
  have hfa := timesU_toNat front.a o
  have hov := overA_bounds back.a (timesU front.a o)
  have hal : (normalU back front o).a.toNat = Spec.screen back.a.toNat (Spec.times front.a.toNat o.toNat)
      ∧ toI (normalU back front o).a = overA back.a (timesU front.a o) := by
    have hs : overA back.a (timesU front.a o)
        = ((Spec.screen back.a.toNat (Spec.times front.a.toNat o.toNat) : Nat) : Int) := by
      have h2 := screen_le back.a.toNat (timesU front.a o).toNat (byte_le _) (byte_le _)
      simp only [overA, toI_timesU, Spec.screen]
      rw [hfa] at h2
      simp only [toI, hfa] at *
      omega
    have h3 : toI (normalU back front o).a = overA back.a (timesU front.a o) := by
      unfold normalU
      split
      · next h =>
        simp only [overA, h, zero_timesU, show toI 0 = 0 from rfl]
        omega
      · split
        · next h =>
          simp only [overA, h, zero_timesU, timesU_zero, show toI 0 = 0 from rfl]
          omega
        · exact asU8_of_byte _ ⟨by have := toI_nonneg back.a; omega, hov.2.2⟩
    refine ⟨?_, h3⟩
    rw [hs] at h3
    simp only [toI] at h3
    omega
  refine ⟨_, blend_normal plat back front o, ?_, ?_, ?_, ?_, ?_, hal.1, ?_, ?_⟩
  · rintro h rfl
    exact normalU_opaque back front h
  · rintro hb (hf | rfl)
    · exact normalU_clear_front back front o hb hf
    · exact normalU_zero_opacity back front hb
  · intro hb
    simp only [normalU, if_pos hb, true_and, timesU_toNat]
  · intro hb
    dsimp only
    rw [hal.2, show ((Spec.times front.a.toNat o.toNat : Nat) : Int) = toI (timesU front.a o) from
      (toI_timesU _ _).symm]
    have h2 := toI_pos hb
    have h3 : ∀ x y : UInt8, toI (asU8 (overC x y (timesU front.a o) (overA back.a (timesU front.a o))))
        = toI x + ((toI y - toI x) * toI (timesU front.a o)).tdiv (overA back.a (timesU front.a o)) := fun x y =>
      asU8_of_byte _ (overC_byte x y _ _ hov.2.1 (by omega))
    unfold normalU
    rw [if_neg hb]
    split
    · next hf => simp [hf, zero_timesU, show toI 0 = 0 from rfl]
    · exact ⟨h3 _ _, h3 _ _, h3 _ _⟩
  · intro hb
    by_cases hf : front.a = 0
    · rw [normalU_clear_front back front o hb hf]
      simp only [Spec.Between]
      omega
    · have h := normalU_channel back front o hb hf
      have key : ∀ x y : UInt8,
          Spec.Between x y (asU8 (overC x y (timesU front.a o) (overA back.a (timesU front.a o)))) := by
        intro x y
        have h1 := h x y
        simp only [toI] at h1
        simp only [Spec.Between]
        omega
      unfold normalU
      rw [if_neg hb, if_neg hf]
      exact ⟨key _ _, key _ _, key _ _⟩
  · rw [UInt8.le_iff_toNat_le]
    have := hal.2
    have := hov.1
    simp only [toI] at *
    omega
  · have := hal.2
    have := hov.2.1
    rw [toI_timesU] at this
    simp only [toI] at *
    omega

example : Spec.blend ⟨true, 0⟩ .normal ⟨10, 20, 30, 200⟩ ⟨100, 50, 0, 128⟩ 128 = .ok ⟨36, 28, 22, 214⟩ := by
  decide +kernel

/-! ## C48: transparency -/

/-- Over a fully transparent backdrop every known mode yields the source with its alpha scaled. -/
theorem C48_transparent_backdrop (plat : Plat) (m : BlendMode) (hm : Spec.isKnown m) (back front : Color) (o : UInt8)
    (hb : back.a = 0) :
    ∃ c, Spec.blend plat m back front o = .ok c ∧
      c.r = front.r ∧ c.g = front.g ∧ c.b = front.b ∧ Spec.Nearest (toI front.a * toI o) 255 (toI c.a) := by
  have h1 : Spec.blend plat m back front o = .ok (normalU back front o) := by
    have h2 : ∀ f : BlendFn, blender plat back front o f = .ok (normalU back front o) := by
      intro f
      unfold blender
      rw [if_neg (by simpa using hb), normal_eq]
    cases m
    case normal => exact normal_eq plat back front o
    case unknown => cases hm
    all_goals
      simp only [Spec.blend, blendModeToBlendFn, run_pure, run_bind_ok]
      exact h2 _
  refine ⟨_, h1, ?_⟩
  simp only [normalU, if_pos hb, true_and]
  obtain ⟨r, h3, h4⟩ := (C45_arithmetic_partial plat).1 front.a o
  rw [mul8_eq] at h3
  cases h3
  exact h4

example : Spec.isKnown .hue ∧ Spec.blend ⟨true, 0⟩ .hue ⟨1, 2, 3, 0⟩ ⟨10, 20, 30, 200⟩ 128 = .ok ⟨10, 20, 30, 100⟩ := by
  decide +kernel

theorem modeU_unchanged (f : Nat → Nat → Nat) (back front : Color) (o : UInt8) (hb : back.a ≠ 0)
    (h : front.a = 0 ∨ o = 0) : modeU f back front o = back := by
  have h1 : ∀ c : Color, c.a = front.a → normalU back c o = back := by
    intro c hc
    rcases h with h | rfl
    · exact normalU_clear_front back c o hb (by rw [hc, h])
    · exact normalU_zero_opacity back c hb
  unfold modeU blenderU
  rw [if_pos hb, h1 front rfl, h1 (chanU f back front) rfl, mergeU_self _ _ hb, mergeU_self _ _ hb]

/-! ## C49: opaque colours -/

theorem modeU_opaque (f : Nat → Nat → Nat) (back front : Color) (hb : back.a = 255) (hf : front.a = 255) :
    modeU f back front 255 = chanU f back front := by
  have ha : (chanU f back front).a ≠ 0 := by
    rw [show (chanU f back front).a = front.a from rfl, hf]
    decide
  unfold modeU blenderU
  rw [if_pos (by rw [hb]; decide), normalU_opaque back _ (show (chanU f back front).a = 255 from hf), hb,
    mergeU_255 _ _ ha, mergeU_self _ _ ha]

/-- On opaque colours at full opacity every mode that is computed channel by channel in integers gives exactly its
formula, with alpha 255. -/
theorem C49_opaque (plat : Plat) (m : BlendMode) (f : Nat → Nat → Nat) (hm : Spec.channelFn m = some f)
    (back front : Color) (hb : back.a = 255) (hf : front.a = 255) :
    ∃ c, Spec.blend plat m back front 255 = .ok c ∧ c.a = 255 ∧
      c.r.toNat = f back.r.toNat front.r.toNat ∧ c.g.toNat = f back.g.toNat front.g.toNat ∧
      c.b.toNat = f back.b.toNat front.b.toNat := by
  obtain ⟨g, h1, h2⟩ := mode_eq plat m f hm
  have h3 : ∀ x y : UInt8, (chU f x y).toNat = f x.toNat y.toNat := fun x y =>
    chU_toNat f x y (channelFn_le m f hm _ _ (byte_le x) (byte_le y))
  refine ⟨chanU f back front, ?_, hf, h3 _ _, h3 _ _, h3 _ _⟩
  rw [Spec.blend, h1, run_bind_ok, h2, modeU_opaque f back front hb hf]

example : Spec.channelFn .colorBurn = some Spec.colorBurn ∧
    Spec.blend ⟨true, 0⟩ .colorBurn ⟨200, 100, 255, 255⟩ ⟨100, 200, 0, 255⟩ 255 = .ok ⟨115, 57, 255, 255⟩ := by
  refine ⟨rfl, by decide +kernel⟩

/-! ## C56: colours and opacities in general -/

theorem normalU_alpha (back front front' : Color) (o : UInt8) (h : front'.a = front.a) :
    (normalU back front' o).a = (normalU back front o).a := by
  unfold normalU
  rw [h]
  split
  · rfl
  · split <;> rfl

theorem normalU_alpha_ne (back front : Color) (o : UInt8) (hb : back.a ≠ 0) : (normalU back front o).a ≠ 0 := by
  obtain ⟨c, h1, _, _, _, _, _, _, h2, _⟩ := C46_normal ⟨false, 0⟩ back front o
  rw [blend_normal] at h1
  cases h1
  intro h3
  rw [h3, UInt8.le_iff_toNat_le] at h2
  exact hb (UInt8.toNat_inj.1 (by have : (0 : UInt8).toNat = 0 := rfl; omega))

/-- What `blender` makes of the normal result `n` and the result `p` of the mode. -/
theorem blenderU_mix (back front : Color) (o : UInt8) (p : Color) (hb : back.a ≠ 0)
    (hp : p.a = (normalU back front o).a) :
    (blenderU back front o p).a = p.a ∧
    ∀ ch : Color → UInt8, ch = Color.r ∨ ch = Color.g ∨ ch = Color.b →
      toI (ch (blenderU back front o p)) = Spec.mix
        (Spec.mix (toI (ch (normalU back front o))) (toI (ch p)) (toI back.a)) (toI (ch p))
        (Spec.times back.a.toNat (Spec.times front.a.toNat o.toNat)) := by
  have hn := normalU_alpha_ne back front o hb
  have hpa : p.a ≠ 0 := by rw [hp]; exact hn
  unfold blenderU
  rw [if_pos hb]
  have h1 : ∀ (q : Color) (w : UInt8), q.a = p.a →
      mergeU q p w = ⟨mixU q.r p.r w, mixU q.g p.g w, mixU q.b p.b w, p.a⟩ := by
    intro q w hq
    unfold mergeU
    rw [hq, mixU_self, if_neg hpa, if_neg hpa, if_neg hpa]
  rw [h1 (normalU back front o) back.a hp.symm, h1]
  case a => rfl
  refine ⟨rfl, ?_⟩
  have h2 : ((Spec.times back.a.toNat (Spec.times front.a.toNat o.toNat) : Nat) : Int)
      = toI (timesU back.a (timesU front.a o)) := by rw [toI_timesU, timesU_toNat]
  rw [h2]
  rintro ch (rfl | rfl | rfl) <;> simp only [mixU_mix]

/-- For every colours and opacity, each mode computed channel by channel gives the alpha of normal blending.  Its
colour is interpolated twice, first by the backdrop's alpha and then by the product of all three opacities, between the
normal result and the result of normal blending with the source colour replaced by the mode's formula. -/
theorem C56_composite (plat : Plat) (m : BlendMode) (f : Nat → Nat → Nat) (hm : Spec.channelFn m = some f)
    (back front col : Color) (o : UInt8) (hb : back.a ≠ 0)
    (hr : col.r.toNat = f back.r.toNat front.r.toNat) (hg : col.g.toNat = f back.g.toNat front.g.toNat)
    (hbl : col.b.toNat = f back.b.toNat front.b.toNat) (ha : col.a = front.a) :
    ∃ n p c, Spec.blend plat .normal back front o = .ok n ∧ Spec.blend plat .normal back col o = .ok p ∧
      Spec.blend plat m back front o = .ok c ∧ c.a = n.a ∧
      ∀ ch : Color → UInt8, ch = Color.r ∨ ch = Color.g ∨ ch = Color.b →
        toI (ch c) = Spec.mix (Spec.mix (toI (ch n)) (toI (ch p)) (toI back.a)) (toI (ch p))
          (Spec.times back.a.toNat (Spec.times front.a.toNat o.toNat)) := by
  obtain ⟨g, h1, h2⟩ := mode_eq plat m f hm
  have h3 : ∀ x y : UInt8, (chU f x y).toNat = f x.toNat y.toNat := fun x y =>
    chU_toNat f x y (channelFn_le m f hm _ _ (byte_le x) (byte_le y))
  have h4 : chanU f back front = col := by
    cases col
    simp only [chanU, Color.mk.injEq]
    exact ⟨UInt8.toNat_inj.1 (by rw [h3]; exact hr.symm), UInt8.toNat_inj.1 (by rw [h3]; exact hg.symm),
      UInt8.toNat_inj.1 (by rw [h3]; exact hbl.symm), ha.symm⟩
  have h5 := normalU_alpha back front col o ha
  have h6 := blenderU_mix back front o (normalU back col o) hb h5
  refine ⟨_, _, _, blend_normal plat back front o, blend_normal plat back col o, ?_, h6.1.trans h5, h6.2⟩
  rw [Spec.blend, h1, run_bind_ok, h2, modeU, h4]

example : Spec.channelFn .multiply = some Spec.multiply ∧ (⟨200, 100, 50, 200⟩ : Color).a ≠ 0
    ∧ (78 : UInt8).toNat = Spec.multiply (200 : UInt8).toNat (100 : UInt8).toNat
    ∧ Spec.blend ⟨true, 0⟩ .multiply ⟨200, 100, 50, 200⟩ ⟨100, 200, 0, 128⟩ 255 = .ok ⟨134, 97, 22, 228⟩ := by
  refine ⟨rfl, by decide, by decide, by decide +kernel⟩

end Ase
