import Verif.Lemmas.Blend

/-!
# The per-channel functions and the integer blend modes
-/

namespace Ase

/-- Apply a channel function to two bytes. -/
def chU (f : Nat → Nat → Nat) (b s : UInt8) : UInt8 := UInt8.ofNat (f b.toNat s.toNat)

theorem chU_toNat (f : Nat → Nat → Nat) (b s : UInt8) (h : f b.toNat s.toNat ≤ 255) :
    (chU f b s).toNat = f b.toNat s.toNat := by
  simp only [chU, UInt8.toNat_ofNat']
  omega

theorem toI_ofNat (n : Nat) (h : n ≤ 255) : toI (UInt8.ofNat n) = n := by
  simp only [toI, UInt8.toNat_ofNat']
  omega

theorem wrapI32_ok (n : Int) (h : -2147483648 ≤ n ∧ n ≤ 2147483647) : wrapI32 n = n := by
  simp only [wrapI32]
  omega

theorem mul8_nat (plat : Plat) (a b : Nat) (ha : a ≤ 255) (hb : b ≤ 255) :
    mul8 plat a b = .ok (UInt8.ofNat (Spec.times a b)) := by
  have h := mul8_eq plat (UInt8.ofNat a) (UInt8.ofNat b)
  rw [toI_ofNat a ha, toI_ofNat b hb] at h
  rw [h, timesU, UInt8.toNat_ofNat', UInt8.toNat_ofNat', Nat.mod_eq_of_lt (by omega), Nat.mod_eq_of_lt (by omega)]

theorem toI_times (a b : Nat) (ha : a ≤ 255) (hb : b ≤ 255) : toI (UInt8.ofNat (Spec.times a b)) = Spec.times a b :=
  toI_ofNat _ (by have := times_le_left a b hb; omega)

theorem screen_le (a b : Nat) (ha : a ≤ 255) (hb : b ≤ 255) :
    Spec.times a b ≤ a + b ∧ Spec.screen a b ≤ 255 := by
  have h1 := times_le_left a b hb
  have h := overA_bounds (UInt8.ofNat a) (UInt8.ofNat b)
  simp only [overA, toI_timesU, toI_ofNat a ha, toI_ofNat b hb, UInt8.toNat_ofNat'] at h
  rw [Nat.mod_eq_of_lt (by omega), Nat.mod_eq_of_lt (by omega)] at h
  simp only [Spec.screen]
  omega

theorem blendScreen_nat (plat : Plat) (a b : Nat) (ha : a ≤ 255) (hb : b ≤ 255) :
    blendScreen plat a b = .ok (UInt8.ofNat (Spec.screen a b)) := by
  have h := screen_le a b ha hb
  have h1 := toI_times a b ha hb
  simp only [blendScreen, mul8_nat plat a b ha hb]
  rw [i32Op_ok _ _ (by omega), run_bind_ok, run_bind_ok, h1, i32Op_ok _ _ (by omega), run_bind_ok, run_pure]
  exact congrArg _ (asU8_eq _ _ (by simp only [Spec.screen]; omega))

theorem hardLight_le (b s : Nat) (hb : b ≤ 255) (hs : s ≤ 255) : Spec.hardLight b s ≤ 255 := by
  simp only [Spec.hardLight, Spec.multiply]
  split
  · have := times_le_left b (2 * s) (by omega); omega
  · exact (screen_le b (2 * s - 255) hb (by omega)).2

theorem blendHardLight_nat (plat : Plat) (b s : Nat) (hb : b ≤ 255) (hs : s ≤ 255) :
    blendHardLight plat b s = .ok (UInt8.ofNat (Spec.hardLight b s)) := by
  simp only [blendHardLight, Spec.hardLight, Spec.multiply, blendMultiply]
  rw [wrapI32_ok _ (by omega)]
  by_cases h : s < 128
  · rw [if_pos (by omega), if_pos h]
    have := mul8_nat plat b (2 * s) hb (by omega)
    rw [← this]
    rfl
  · rw [if_neg (by omega), if_neg h, i32Op_ok _ _ (by omega), run_bind_ok]
    rw [show 2 * (s : Int) - 255 = ((2 * s - 255 : Nat) : Int) by omega]
    exact blendScreen_nat plat b (2 * s - 255) hb (by omega)

theorem colorDodge_le (b s : Nat) : Spec.colorDodge b s ≤ 255 := by
  simp only [Spec.colorDodge]
  split
  · omega
  · split
    · omega
    · exact roundDiv_le _ _ (by omega)

theorem blendColorDodge_nat (plat : Plat) (b s : Nat) (hb : b ≤ 255) (hs : s ≤ 255) :
    blendColorDodge plat b s = .ok (UInt8.ofNat (Spec.colorDodge b s)) := by
  simp only [blendColorDodge, Spec.colorDodge]
  by_cases h : b = 0
  · subst h; rfl
  · rw [if_neg (by omega), if_neg h, i32Op_ok _ _ (by omega), run_bind_ok]
    by_cases h2 : b ≥ 255 - s
    · rw [if_pos (by omega), if_pos h2]; rfl
    · rw [if_neg (by omega), if_neg h2, ← div8_eq plat b (255 - s) (by omega) (by omega)]
      congr 1
      omega

theorem colorBurn_le (b s : Nat) : Spec.colorBurn b s ≤ 255 := by
  simp only [Spec.colorBurn]
  split
  · omega
  · split <;> omega

theorem blendColorBurn_nat (plat : Plat) (b s : Nat) (hb : b ≤ 255) (hs : s ≤ 255) :
    blendColorBurn plat b s = .ok (UInt8.ofNat (Spec.colorBurn b s)) := by
  simp only [blendColorBurn, Spec.colorBurn]
  by_cases h : b = 255
  · subst h; rfl
  · rw [if_neg (by omega), if_neg h, i32Op_ok _ _ (by omega), run_bind_ok]
    by_cases h2 : 255 - b ≥ s
    · rw [if_pos (by omega), if_pos h2]; rfl
    · have h3 := roundDiv_le (255 - b) s (by omega)
      have h4 := div8_eq plat (255 - b) s (by omega) (by omega)
      rw [show ((255 - b : Nat) : Int) = 255 - (b : Int) by omega] at h4
      rw [if_neg (by omega), if_neg h2, h4, run_bind_ok]
      generalize Spec.roundDiv ((255 - b) * 255) s = q at h3
      have h5 : UInt8.ofNat q ≤ 255 := by
        rw [UInt8.le_iff_toNat_le, UInt8.toNat_ofNat']
        simp only [show (255 : UInt8).toNat = 255 from rfl]
        omega
      simp only [u8Sub, h5, if_true]
      congr 1
      apply UInt8.toNat_inj.1
      rw [UInt8.toNat_sub_of_le _ _ h5, UInt8.toNat_ofNat', UInt8.toNat_ofNat']
      simp only [show (255 : UInt8).toNat = 255 from rfl]
      omega

theorem divide_le (b s : Nat) : Spec.divide b s ≤ 255 := by
  simp only [Spec.divide]
  split
  · omega
  · split
    · omega
    · exact roundDiv_le _ _ (by omega)

theorem blendDivide_nat (plat : Plat) (b s : Nat) (hs : s ≤ 255) :
    blendDivide plat b s = .ok (UInt8.ofNat (Spec.divide b s)) := by
  simp only [blendDivide, Spec.divide]
  by_cases h : b = 0
  · subst h; rfl
  · rw [if_neg (by omega), if_neg h]
    by_cases h2 : b ≥ s
    · rw [if_pos (by omega), if_pos h2]; rfl
    · rw [if_neg (by omega), if_neg h2, ← div8_eq plat b s (by omega) (by omega)]

theorem blendDifference_nat (plat : Plat) (b s : Nat) (hb : b ≤ 255) (hs : s ≤ 255) :
    blendDifference plat b s = .ok (UInt8.ofNat (Spec.difference b s)) := by
  simp only [blendDifference, Spec.difference]
  rw [i32Op_ok _ _ (by omega), run_bind_ok, run_pure]
  exact congrArg _ (asU8_eq _ _ (by omega))

theorem exclusion_le (b s : Nat) (hb : b ≤ 255) (hs : s ≤ 255) :
    2 * Spec.times b s ≤ b + s ∧ Spec.exclusion b s ≤ 255 := by
  have h1 := times_le_left b s hs
  have h2 := times_le_right b s hb
  have h3 := screen_le b s hb hs
  simp only [Spec.exclusion, Spec.screen] at *
  omega

theorem blendExclusion_nat (plat : Plat) (b s : Nat) (hb : b ≤ 255) (hs : s ≤ 255) :
    blendExclusion plat b s = .ok (UInt8.ofNat (Spec.exclusion b s)) := by
  have h := exclusion_le b s hb hs
  have h1 := toI_times b s hb hs
  have h2 := times_le_left b s hs
  simp only [blendExclusion, mul8_nat plat b s hb hs]
  rw [run_bind_ok, i32Op_ok _ _ (by omega), run_bind_ok, h1, i32Op_ok _ _ (by omega), run_bind_ok,
    i32Op_ok _ _ (by omega), run_bind_ok, run_pure]
  exact congrArg _ (asU8_eq _ _ (by simp only [Spec.exclusion]; omega))

/-- The colour the channel function `f` makes of two colours. -/
def chanU (f : Nat → Nat → Nat) (back front : Color) : Color :=
  ⟨chU f back.r front.r, chU f back.g front.g, chU f back.b front.b, front.a⟩

theorem blendChannel_eq (plat : Plat) (g : Int → Int → Run UInt8) (f : Nat → Nat → Nat)
    (h : ∀ b s : UInt8, g (toI b) (toI s) = .ok (chU f b s)) (back front : Color) (o : UInt8) :
    blendChannel plat back front o g = .ok (normalU back (chanU f back front) o) := by
  simp only [blendChannel, h, run_bind_ok, normal_eq, chanU]

theorem additionBaseline_eq (plat : Plat) (back front : Color) (o : UInt8) :
    additionBaseline plat back front o = .ok (normalU back (chanU Spec.addition back front) o) := by
  have h1 := byte_le back.r; have h2 := byte_le back.g; have h3 := byte_le back.b
  have h4 := byte_le front.r; have h5 := byte_le front.g; have h6 := byte_le front.b; have h7 := byte_le front.a
  have key : ∀ x y : UInt8, asU8 (min (toI x + toI y) 255) = chU Spec.addition x y := by
    intro x y
    exact asU8_eq _ _ (by simp only [toI, Spec.addition]; omega)
  simp only [additionBaseline, chanU]
  rw [i32Op_ok _ _ (by simp only [toI]; omega), run_bind_ok, i32Op_ok _ _ (by simp only [toI]; omega), run_bind_ok,
    i32Op_ok _ _ (by simp only [toI]; omega), run_bind_ok,
    ofI32_eq _ _ _ _ _ (by simp only [toI]; omega) (by simp only [toI]; omega) (by simp only [toI]; omega)
      (by simp only [toI]; omega), run_bind_ok, key, key, key, asU8_toI, normal_eq]

theorem subtractBaseline_eq (plat : Plat) (back front : Color) (o : UInt8) :
    subtractBaseline plat back front o = .ok (normalU back (chanU Spec.subtract back front) o) := by
  have h1 := byte_le back.r; have h2 := byte_le back.g; have h3 := byte_le back.b
  have h4 := byte_le front.r; have h5 := byte_le front.g; have h6 := byte_le front.b; have h7 := byte_le front.a
  have key : ∀ x y : UInt8, asU8 (max (toI x - toI y) 0) = chU Spec.subtract x y := by
    intro x y
    exact asU8_eq _ _ (by simp only [toI, Spec.subtract]; omega)
  simp only [subtractBaseline, chanU]
  rw [i32Op_ok _ _ (by simp only [toI]; omega), run_bind_ok, i32Op_ok _ _ (by simp only [toI]; omega), run_bind_ok,
    i32Op_ok _ _ (by simp only [toI]; omega), run_bind_ok,
    ofI32_eq _ _ _ _ _ (by simp only [toI]; omega) (by simp only [toI]; omega) (by simp only [toI]; omega)
      (by simp only [toI]; omega), run_bind_ok, key, key, key, asU8_toI, normal_eq]

/-- The result of an integer mode. -/
def modeU (f : Nat → Nat → Nat) (back front : Color) (o : UInt8) : Color :=
  blenderU back front o (normalU back (chanU f back front) o)

theorem blenderU_normal (back front : Color) (o : UInt8) :
    modeU (fun _ s => s) back front o = normalU back front o := by
  have h : chanU (fun _ s => s) back front = front := by
    simp only [chanU, chU, UInt8.ofNat_toNat]
  unfold modeU blenderU
  rw [h]
  by_cases hb : back.a = 0
  · simp [hb]
  · rw [if_pos hb]
    have ha : (normalU back front o).a ≠ 0 := by
      unfold normalU
      rw [if_neg hb]
      split
      · exact hb
      · intro h1
        have h2 := overA_bounds back.a (timesU front.a o)
        have h3 := toI_pos hb
        have h4 := asU8_of_byte (overA back.a (timesU front.a o)) (by omega)
        rw [show asU8 (overA back.a (timesU front.a o)) = 0 from h1] at h4
        have : toI 0 = 0 := rfl
        omega
    rw [mergeU_self _ _ ha, mergeU_self _ _ ha]

/-- Every mode computed channel by channel in integers, in closed form. -/
theorem mode_eq (plat : Plat) (m : BlendMode) (f : Nat → Nat → Nat) (h : Spec.channelFn m = some f) :
    ∃ g, blendModeToBlendFn plat m = .ok g ∧ ∀ back front o, g back front o = .ok (modeU f back front o) := by
  have ch : ∀ (g : Int → Int → Run UInt8), (∀ b s : UInt8, g (toI b) (toI s) = .ok (chU f b s)) →
      ∀ back front o, blender plat back front o (fun b f o => blendChannel plat b f o g)
        = .ok (modeU f back front o) := by
    intro g hg back front o
    exact blender_eq _ _ _ _ _ _ fun _ => blendChannel_eq plat g f hg back front o
  cases m <;> simp only [Spec.channelFn, Option.some.injEq, reduceCtorEq] at h <;> subst h
  · exact ⟨_, rfl, fun back front o => by rw [blenderU_normal]; exact normal_eq plat back front o⟩
  · exact ⟨_, rfl, ch _ fun b s => mul8_nat plat b.toNat s.toNat (byte_le b) (byte_le s)⟩
  · exact ⟨_, rfl, ch _ fun b s => blendScreen_nat plat b.toNat s.toNat (byte_le b) (byte_le s)⟩
  · exact ⟨_, rfl, ch _ fun b s => blendHardLight_nat plat s.toNat b.toNat (byte_le s) (byte_le b)⟩
  · exact ⟨_, rfl, ch _ fun b s => congrArg _ (asU8_eq _ _ (by simp only [toI, Spec.darken]; omega))⟩
  · exact ⟨_, rfl, ch _ fun b s => congrArg _ (asU8_eq _ _ (by simp only [toI, Spec.lighten]; omega))⟩
  · exact ⟨_, rfl, ch _ fun b s => blendColorDodge_nat plat b.toNat s.toNat (byte_le b) (byte_le s)⟩
  · exact ⟨_, rfl, ch _ fun b s => blendColorBurn_nat plat b.toNat s.toNat (byte_le b) (byte_le s)⟩
  · exact ⟨_, rfl, ch _ fun b s => blendHardLight_nat plat b.toNat s.toNat (byte_le b) (byte_le s)⟩
  · exact ⟨_, rfl, ch _ fun b s => blendDifference_nat plat b.toNat s.toNat (byte_le b) (byte_le s)⟩
  · exact ⟨_, rfl, ch _ fun b s => blendExclusion_nat plat b.toNat s.toNat (byte_le b) (byte_le s)⟩
  · exact ⟨_, rfl, fun back front o => blender_eq _ _ _ _ _ _ fun _ => additionBaseline_eq plat back front o⟩
  · exact ⟨_, rfl, fun back front o => blender_eq _ _ _ _ _ _ fun _ => subtractBaseline_eq plat back front o⟩
  · exact ⟨_, rfl, ch _ fun b s => blendDivide_nat plat b.toNat s.toNat (byte_le s)⟩

/-- The channel functions stay within a byte. -/
theorem channelFn_le (m : BlendMode) (f : Nat → Nat → Nat) (h : Spec.channelFn m = some f) (b s : Nat) (hb : b ≤ 255)
    (hs : s ≤ 255) : f b s ≤ 255 := by
  cases m <;> simp only [Spec.channelFn, Option.some.injEq, reduceCtorEq] at h <;> subst h
  · exact hs
  · have := times_le_left b s hs; simp only [Spec.multiply]; omega
  · exact (screen_le b s hb hs).2
  · exact hardLight_le s b hs hb
  · simp only [Spec.darken]; omega
  · simp only [Spec.lighten]; omega
  · exact colorDodge_le b s
  · exact colorBurn_le b s
  · exact hardLight_le b s hb hs
  · simp only [Spec.difference]; omega
  · exact (exclusion_le b s hb hs).2
  · simp only [Spec.addition]; omega
  · simp only [Spec.subtract]; omega
  · exact divide_le b s

end Ase
