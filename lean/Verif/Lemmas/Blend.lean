import Verif.Spec.Blend

/-!
# The blend functions as pure functions on bytes
-/

namespace Ase

theorem run_bind_ok {α β : Type} (a : α) (f : α → Run β) : ((Outcome.ok a : Run α) >>= f) = f a := rfl
theorem run_pure {α : Type} (a : α) : (pure a : Run α) = .ok a := rfl

theorem i32Op_ok (plat : Plat) (n : Int) (h : -2147483648 ≤ n ∧ n ≤ 2147483647) : i32Op plat n = .ok n := by
  simp [i32Op, inI32, h]

theorem i32Div_ok (a b : Int) (hb : 0 < b) (ha : -2147483648 ≤ a ∧ a ≤ 2147483647) :
    i32Div a b = .ok (a.tdiv b) := by
  have h : inI32 (a.tdiv b) = true := by
    simp only [inI32, decide_eq_true_eq]
    rcases Int.le_total 0 a with h0 | h0
    · have := Int.tdiv_nonneg h0 (Int.le_of_lt hb)
      have := Int.tdiv_le_self b h0
      omega
    · obtain ⟨c, rfl⟩ : ∃ c, a = -c := ⟨-a, by omega⟩
      have h1 : 0 ≤ c := by omega
      rw [Int.neg_tdiv]
      have := Int.tdiv_nonneg h1 (Int.le_of_lt hb)
      have := Int.tdiv_le_self b h1
      omega
  have h2 : b ≠ 0 := by omega
  simp [i32Div, h, h2]

theorem toI_nonneg (x : UInt8) : 0 ≤ toI x := by simp [toI]
theorem toI_le (x : UInt8) : toI x ≤ 255 := by have := x.toNat_lt; simp only [toI]; omega
theorem toI_inj {x y : UInt8} (h : toI x = toI y) : x = y := UInt8.toNat_inj.1 (by simp only [toI] at h; omega)

theorem asU8_of_byte (n : Int) (h : 0 ≤ n ∧ n ≤ 255) : toI (asU8 n) = n := by
  simp only [toI, asU8, UInt8.toNat_ofNat']
  omega

theorem asU8_toI (x : UInt8) : asU8 (toI x) = x := by
  apply toI_inj
  rw [asU8_of_byte _ ⟨toI_nonneg x, toI_le x⟩]

theorem asU8_eq (n : Int) (k : Nat) (h : n = k) : asU8 n = UInt8.ofNat k := by
  subst h
  apply UInt8.toNat_inj.1
  simp only [asU8, UInt8.toNat_ofNat']
  omega

theorem mul_bytes_le (a b : UInt8) : a.toNat * b.toNat ≤ 65025 := by
  have h1 : a.toNat ≤ 255 := by have := a.toNat_lt; omega
  have h2 : b.toNat ≤ 255 := by have := b.toNat_lt; omega
  exact Nat.mul_le_mul h1 h2

theorem times_le_left (a b : Nat) (hb : b ≤ 255) : Spec.times a b ≤ a := by
  have : a * b ≤ a * 255 := Nat.mul_le_mul_left a hb
  simp only [Spec.times, Spec.roundDiv]
  omega

theorem times_le_right (a b : Nat) (ha : a ≤ 255) : Spec.times a b ≤ b := by
  have : a * b ≤ 255 * b := Nat.mul_le_mul_right b ha
  simp only [Spec.times, Spec.roundDiv]
  omega

theorem byte_le (a : UInt8) : a.toNat ≤ 255 := by have := a.toNat_lt; omega

/-- `times` on bytes. -/
def timesU (a b : UInt8) : UInt8 := UInt8.ofNat (Spec.times a.toNat b.toNat)

theorem timesU_toNat (a b : UInt8) : (timesU a b).toNat = Spec.times a.toNat b.toNat := by
  have := times_le_left a.toNat b.toNat (byte_le b)
  have := byte_le a
  simp only [timesU, UInt8.toNat_ofNat']
  omega

theorem mul8_eq (plat : Plat) (a b : UInt8) : mul8 plat (toI a) (toI b) = .ok (timesU a b) := by
  have hp := mul_bytes_le a b
  have hm : toI a * toI b = ((a.toNat * b.toNat : Nat) : Int) := by simp [toI]
  simp only [mul8, hm, timesU, Spec.times, Spec.roundDiv]
  generalize a.toNat * b.toNat = p at hp
  rw [i32Op_ok _ _ (by omega), run_bind_ok, i32Op_ok _ _ (by omega), run_bind_ok, i32Op_ok _ _ (by omega),
    run_bind_ok, run_pure]
  exact congrArg _ (asU8_eq _ _ (by omega))

/-! ## Division and interpolation -/

theorem roundDiv_eq (n d : Nat) : Spec.roundDiv n d = (n + d / 2) / d := by
  have h : 2 * n + d = (2 * n + d) := rfl
  simp only [Spec.roundDiv]
  rw [← Nat.div_div_eq_div_mul, show (2 * n + d) / 2 = n + d / 2 by omega]

theorem roundDiv_le (a b : Nat) (h : a < b) : Spec.roundDiv (a * 255) b ≤ 255 := by
  rw [roundDiv_eq]
  have : (a * 255 + b / 2) / b < 256 := by
    rw [Nat.div_lt_iff_lt_mul (by omega)]
    omega
  omega

theorem div8_eq (plat : Plat) (a b : Nat) (h : a < b) (hb : b ≤ 255) :
    div8 plat a b = .ok (UInt8.ofNat (Spec.roundDiv (a * 255) b)) := by
  have ht : ((b : Int)).tdiv 2 = ((b / 2 : Nat) : Int) := by
    rw [Int.tdiv_eq_ediv_of_nonneg (by omega)]; omega
  have hn : ((a : Int) * 255 + ((b / 2 : Nat) : Int)).tdiv b = ((Spec.roundDiv (a * 255) b : Nat) : Int) := by
    rw [Int.tdiv_eq_ediv_of_nonneg (by omega), roundDiv_eq]
    exact (Int.natCast_ediv (a * 255 + b / 2) b).symm
  simp only [div8]
  rw [i32Op_ok _ _ (by omega), run_bind_ok, i32Div_ok _ _ (by omega) (by omega), run_bind_ok, ht,
    i32Op_ok _ _ (by omega), run_bind_ok, i32Div_ok _ _ (by omega) (by omega), run_bind_ok, hn, run_pure]
  exact congrArg _ (asU8_eq _ _ rfl)

/-- The increment of `blend8`. -/
def mixStep (back src opacity : UInt8) : Int :=
  ((((toI src - toI back) * toI opacity + 128) / 256) + ((toI src - toI back) * toI opacity + 128)) / 256

/-- The result of `blend8`. -/
def mixU (back src opacity : UInt8) : UInt8 := asU8 (toI back + mixStep back src opacity)

theorem scale_between (d o : Int) (h0 : 0 ≤ o) (h1 : o ≤ 255) :
    (0 ≤ d → 0 ≤ d * o ∧ d * o ≤ 255 * d) ∧ (d ≤ 0 → 255 * d ≤ d * o ∧ d * o ≤ 0) := by
  constructor
  · intro hd
    have h2 := Int.mul_nonneg hd h0
    have h3 := Int.mul_le_mul_of_nonneg_left h1 hd
    omega
  · intro hd
    have h2 := Int.mul_nonneg (a := -d) (by omega) h0
    have h3 : -d * o ≤ -d * 255 := Int.mul_le_mul_of_nonneg_left h1 (by omega)
    rw [Int.neg_mul] at h2 h3
    omega

/-- The increment lies between zero and the difference. -/
theorem mixStep_between (back src o : UInt8) :
    (toI back ≤ toI src → 0 ≤ mixStep back src o ∧ mixStep back src o ≤ toI src - toI back) ∧
      (toI src ≤ toI back → toI src - toI back ≤ mixStep back src o ∧ mixStep back src o ≤ 0) := by
  have h := scale_between (toI src - toI back) (toI o) (toI_nonneg o) (toI_le o)
  have h1 := toI_nonneg back; have h2 := toI_le back; have h3 := toI_nonneg src; have h4 := toI_le src
  simp only [mixStep]
  generalize (toI src - toI back) * toI o = p at h
  constructor
  · intro hle
    have := h.1 (by omega)
    omega
  · intro hle
    have := h.2 (by omega)
    omega

theorem mixU_toI (back src o : UInt8) : toI (mixU back src o) = toI back + mixStep back src o := by
  have h := mixStep_between back src o
  have h1 := toI_nonneg back; have h2 := toI_le back; have h3 := toI_nonneg src; have h4 := toI_le src
  apply asU8_of_byte
  rcases Int.le_total (toI back) (toI src) with h5 | h5
  · have := h.1 h5; omega
  · have := h.2 h5; omega

theorem mixU_mix (back src o : UInt8) : toI (mixU back src o) = Spec.mix (toI back) (toI src) (toI o) := by
  have h := scale_between (toI src - toI back) (toI o) (toI_nonneg o) (toI_le o)
  have h1 := toI_nonneg back; have h2 := toI_le back; have h3 := toI_nonneg src; have h4 := toI_le src
  rw [mixU_toI]
  simp only [mixStep, Spec.mix]
  generalize (toI src - toI back) * toI o = p at h
  split
  · have := h.1 (by omega)
    omega
  · have := h.2 (by omega)
    omega

theorem blend8_eq (plat : Plat) (back src o : UInt8) : blend8 plat back src o = .ok (mixU back src o) := by
  have hb := mixStep_between back src o
  have h := scale_between (toI src - toI back) (toI o) (toI_nonneg o) (toI_le o)
  have h1 := toI_nonneg back; have h2 := toI_le back; have h3 := toI_nonneg src; have h4 := toI_le src
  simp only [blend8, mixU]
  simp only [mixStep] at hb ⊢
  rw [i32Op_ok _ _ (by omega), run_bind_ok]
  generalize (toI src - toI back) * toI o = p at h hb
  have h5 : -65025 ≤ p ∧ p ≤ 65025 := by
    rcases Int.le_total (toI back) (toI src) with h5 | h5
    · have := h.1 (by omega); omega
    · have := h.2 (by omega); omega
  rw [i32Op_ok _ _ (by omega), run_bind_ok, i32Op_ok _ _ (by omega), run_bind_ok, i32Op_ok _ _ (by omega),
    run_bind_ok, i32Op_ok _ _ (by omega), run_bind_ok, run_pure]

theorem mixU_self (x o : UInt8) : mixU x x o = x := by
  apply toI_inj
  have := mixStep_between x x o
  rw [mixU_toI]
  have := this.1 (Int.le_refl _)
  omega

theorem mixU_255 (back src : UInt8) : mixU back src 255 = src := by
  apply toI_inj
  have h1 := toI_nonneg back; have h2 := toI_le back; have h3 := toI_nonneg src; have h4 := toI_le src
  rw [mixU_toI]
  simp only [mixStep, show toI 255 = 255 from rfl]
  omega

theorem mixU_zero (back src : UInt8) : mixU back src 0 = back := by
  apply toI_inj
  rw [mixU_toI]
  simp only [mixStep, show toI 0 = 0 from rfl]
  omega

/-! ## Normal -/

/-- Result alpha of `normal`. -/
def overA (ba fa : UInt8) : Int := toI fa + toI ba - toI (timesU ba fa)

theorem toI_timesU (a b : UInt8) : toI (timesU a b) = Spec.times a.toNat b.toNat := by
  simp only [toI, timesU_toNat]

theorem overA_bounds (ba fa : UInt8) :
    toI ba ≤ overA ba fa ∧ toI fa ≤ overA ba fa ∧ overA ba fa ≤ 255 := by
  have h1 := times_le_left ba.toNat fa.toNat (byte_le fa)
  have h2 := times_le_right ba.toNat fa.toNat (byte_le ba)
  have h3 := byte_le ba
  have h4 := byte_le fa
  simp only [overA, toI_timesU]
  simp only [toI]
  refine ⟨by omega, by omega, ?_⟩
  -- (255 - ba) * (255 - fa) ≥ 0
  have h5 : ba.toNat * fa.toNat + 65025 ≥ 255 * (ba.toNat + fa.toNat) := by
    obtain ⟨x, hx⟩ : ∃ x, ba.toNat + x = 255 := ⟨255 - ba.toNat, by omega⟩
    obtain ⟨y, hy⟩ : ∃ y, fa.toNat + y = 255 := ⟨255 - fa.toNat, by omega⟩
    have h6 : (ba.toNat + x) * (fa.toNat + y) = 65025 := by rw [hx, hy]
    have h7 : ba.toNat * (fa.toNat + y) = ba.toNat * 255 := by rw [hy]
    have h8 : (ba.toNat + x) * fa.toNat = 255 * fa.toNat := by rw [hx]
    rw [Nat.mul_add] at h7
    rw [Nat.add_mul] at h8
    rw [Nat.add_mul, Nat.mul_add, Nat.mul_add] at h6
    omega
  simp only [Spec.times, Spec.roundDiv]
  omega

/-- Colour channel of `normal`. -/
def overC (back front : UInt8) (fa : UInt8) (ra : Int) : Int :=
  toI back + ((toI front - toI back) * toI fa).tdiv ra

theorem tdiv_between (d f r : Int) (h0 : 0 ≤ f) (h1 : f ≤ r) (hr : 0 < r) :
    (0 ≤ d → 0 ≤ (d * f).tdiv r ∧ (d * f).tdiv r ≤ d) ∧ (d ≤ 0 → d ≤ (d * f).tdiv r ∧ (d * f).tdiv r ≤ 0) := by
  have key : ∀ d : Int, 0 ≤ d → 0 ≤ (d * f).tdiv r ∧ (d * f).tdiv r ≤ d := by
    intro d hd
    have h2 := Int.mul_nonneg hd h0
    have h3 := Int.mul_le_mul_of_nonneg_left h1 hd
    refine ⟨Int.tdiv_nonneg h2 (by omega), ?_⟩
    rw [Int.tdiv_eq_ediv_of_nonneg h2]
    exact Int.ediv_le_of_le_mul hr h3
  refine ⟨key d, fun hd => ?_⟩
  have := key (-d) (by omega)
  rw [Int.neg_mul, Int.neg_tdiv] at this
  omega

theorem overC_between (back front fa : UInt8) (ra : Int) (h1 : toI fa ≤ ra) (hr : 0 < ra) :
    (toI back ≤ toI front → toI back ≤ overC back front fa ra ∧ overC back front fa ra ≤ toI front) ∧
      (toI front ≤ toI back → toI front ≤ overC back front fa ra ∧ overC back front fa ra ≤ toI back) := by
  have h := tdiv_between (toI front - toI back) (toI fa) ra (toI_nonneg fa) h1 hr
  simp only [overC]
  constructor
  · intro hle; have := h.1 (by omega); omega
  · intro hle; have := h.2 (by omega); omega

theorem overC_byte (back front fa : UInt8) (ra : Int) (h1 : toI fa ≤ ra) (hr : 0 < ra) :
    0 ≤ overC back front fa ra ∧ overC back front fa ra ≤ 255 := by
  have h := overC_between back front fa ra h1 hr
  have := toI_nonneg back; have := toI_le back; have := toI_nonneg front; have := toI_le front
  rcases Int.le_total (toI back) (toI front) with h5 | h5
  · have := h.1 h5; omega
  · have := h.2 h5; omega

theorem normalChannel_eq (plat : Plat) (back front fa : UInt8) (ra : Int) (h1 : toI fa ≤ ra) (hr : 0 < ra) :
    normalChannel plat (toI back) (toI front) (toI fa) ra = .ok (overC back front fa ra) := by
  have h := scale_between (toI front - toI back) (toI fa) (toI_nonneg fa) (toI_le fa)
  have hb := overC_byte back front fa ra h1 hr
  have := toI_nonneg back; have := toI_le back; have := toI_nonneg front; have := toI_le front
  have h5 : -65025 ≤ (toI front - toI back) * toI fa ∧ (toI front - toI back) * toI fa ≤ 65025 := by
    rcases Int.le_total (toI back) (toI front) with h5 | h5
    · have := h.1 (by omega); omega
    · have := h.2 (by omega); omega
  simp only [normalChannel]
  rw [i32Op_ok _ _ (by omega), run_bind_ok, i32Op_ok _ _ (by omega), run_bind_ok, i32Div_ok _ _ hr (by omega),
    run_bind_ok]
  exact i32Op_ok _ _ (by simp only [overC] at hb; omega)

theorem ofI32_eq (plat : Plat) (r g b a : Int) (hr : 0 ≤ r ∧ r ≤ 255) (hg : 0 ≤ g ∧ g ≤ 255) (hb : 0 ≤ b ∧ b ≤ 255)
    (ha : 0 ≤ a ∧ a ≤ 255) : Color.ofI32 plat r g b a = .ok ⟨asU8 r, asU8 g, asU8 b, asU8 a⟩ := by
  have h : ∀ n : Int, 0 ≤ n ∧ n ≤ 255 → debugAssert plat (isByte n) = .ok () := by
    intro n hn
    simp [debugAssert, isByte, hn]
  simp only [Color.ofI32, h _ hr, h _ hg, h _ hb, h _ ha, run_bind_ok, run_pure]

/-- The result of `normal`. -/
def normalU (back front : Color) (opacity : UInt8) : Color :=
  if back.a = 0 then ⟨front.r, front.g, front.b, timesU front.a opacity⟩
  else if front.a = 0 then back
  else
    let fa := timesU front.a opacity
    let ra := overA back.a fa
    ⟨asU8 (overC back.r front.r fa ra), asU8 (overC back.g front.g fa ra), asU8 (overC back.b front.b fa ra), asU8 ra⟩

theorem toI_pos {x : UInt8} (h : x ≠ 0) : 0 < toI x := by
  have h0 : x.toNat ≠ 0 := fun h1 => h (UInt8.toNat_inj.1 h1)
  simp only [toI]; omega

theorem normal_eq (plat : Plat) (back front : Color) (opacity : UInt8) :
    normal plat back front opacity = .ok (normalU back front opacity) := by
  unfold normal normalU
  split
  · rw [mul8_eq, run_bind_ok, run_pure]
  · next hb =>
    split
    · rfl
    · have h1 := overA_bounds back.a (timesU front.a opacity)
      have h2 := toI_pos hb
      have := toI_le (timesU front.a opacity); have := toI_nonneg (timesU front.a opacity); have := toI_le back.a
      rw [mul8_eq, run_bind_ok]
      dsimp only
      rw [i32Op_ok _ _ (by omega), run_bind_ok, mul8_eq, run_bind_ok,
        i32Op_ok _ _ (by simp only [overA] at h1; omega), run_bind_ok]
      rw [show toI (timesU front.a opacity) + toI back.a - toI (timesU back.a (timesU front.a opacity))
        = overA back.a (timesU front.a opacity) from rfl]
      rw [normalChannel_eq _ _ _ _ _ h1.2.1 (by omega), run_bind_ok,
        normalChannel_eq _ _ _ _ _ h1.2.1 (by omega), run_bind_ok,
        normalChannel_eq _ _ _ _ _ h1.2.1 (by omega), run_bind_ok]
      exact ofI32_eq _ _ _ _ _ (overC_byte _ _ _ _ h1.2.1 (by omega)) (overC_byte _ _ _ _ h1.2.1 (by omega))
        (overC_byte _ _ _ _ h1.2.1 (by omega)) (by omega)

/-! ## Merge and the blender -/

/-- The result of `merge`. -/
def mergeU (back front : Color) (opacity : UInt8) : Color :=
  if mixU back.a front.a opacity = 0 then ⟨0, 0, 0, 0⟩
  else if back.a = 0 then ⟨front.r, front.g, front.b, mixU back.a front.a opacity⟩
  else if front.a = 0 then ⟨back.r, back.g, back.b, mixU back.a front.a opacity⟩
  else ⟨mixU back.r front.r opacity, mixU back.g front.g opacity, mixU back.b front.b opacity,
    mixU back.a front.a opacity⟩

theorem merge_eq (plat : Plat) (back front : Color) (opacity : UInt8) :
    merge plat back front opacity = .ok (mergeU back front opacity) := by
  unfold merge mergeU
  simp only [blend8_eq, run_bind_ok, run_pure]
  by_cases h1 : back.a = 0 <;> by_cases h2 : front.a = 0 <;>
    simp only [h1, h2, if_true, if_false, run_bind_ok] <;> split <;> rfl

/-- The result of `blender` once the mode's own colour is known. -/
def blenderU (back front : Color) (opacity : UInt8) (blend : Color) : Color :=
  if back.a ≠ 0 then
    mergeU (mergeU (normalU back front opacity) blend back.a) blend (timesU back.a (timesU front.a opacity))
  else normalU back front opacity

theorem blender_eq (plat : Plat) (back front : Color) (opacity : UInt8) (f : BlendFn) (c : Color)
    (h : back.a ≠ 0 → f back front opacity = .ok c) :
    blender plat back front opacity f = .ok (blenderU back front opacity c) := by
  unfold blender blenderU
  by_cases hb : back.a = 0
  · simp only [hb, ne_eq, not_true_eq_false, if_false, normal_eq]
  · simp only [hb, ne_eq, not_false_eq_true, if_true, normal_eq, run_bind_ok, h hb, merge_eq, mul8_eq]

theorem blender_panic (plat : Plat) (back front : Color) (opacity : UInt8) (f : BlendFn) (k : Panic)
    (hb : back.a ≠ 0) (h : f back front opacity = .panic k) :
    blender plat back front opacity f = .panic k := by
  unfold blender
  simp only [hb, ne_eq, not_false_eq_true, if_true, normal_eq, run_bind_ok, h]
  rfl

theorem mergeU_self (c : Color) (o : UInt8) (h : c.a ≠ 0) : mergeU c c o = c := by
  simp [mergeU, mixU_self, h]

theorem mergeU_255 (b c : Color) (h : c.a ≠ 0) : mergeU b c 255 = c := by
  unfold mergeU
  simp only [mixU_255, h, if_false]
  split <;> rfl

theorem normalU_clear_front (back front : Color) (o : UInt8) (hb : back.a ≠ 0) (hf : front.a = 0) :
    normalU back front o = back := by simp [normalU, hb, hf]

theorem timesU_zero (a : UInt8) : timesU a 0 = 0 := by
  apply UInt8.toNat_inj.1
  rw [timesU_toNat]
  simp [Spec.times, Spec.roundDiv]

theorem zero_timesU (a : UInt8) : timesU 0 a = 0 := by
  apply UInt8.toNat_inj.1
  rw [timesU_toNat]
  simp [Spec.times, Spec.roundDiv]

theorem timesU_255 (a : UInt8) : timesU a 255 = a := by
  apply UInt8.toNat_inj.1
  rw [timesU_toNat]
  simp only [Spec.times, Spec.roundDiv, show (255 : UInt8).toNat = 255 from rfl]
  omega

theorem timesU_comm (a b : UInt8) : timesU a b = timesU b a := by
  simp only [timesU, Spec.times, Nat.mul_comm]

theorem normalU_zero_opacity (back front : Color) (hb : back.a ≠ 0) : normalU back front 0 = back := by
  unfold normalU
  rw [if_neg hb]
  split
  · rfl
  · simp only [timesU_zero, overC, overA, show toI 0 = 0 from rfl, Int.mul_zero, Int.zero_tdiv, Int.add_zero,
      Int.zero_add, Int.sub_zero, asU8_toI]

theorem normalU_opaque (back front : Color) (hf : front.a = 255) : normalU back front 255 = front := by
  unfold normalU
  by_cases hb : back.a = 0
  · rw [if_pos hb, timesU_255]
  · rw [if_neg hb, if_neg (by rw [hf]; decide)]
    have h1 : overA back.a (timesU front.a 255) = 255 := by
      simp only [timesU_255, hf, overA, show toI 255 = 255 from rfl]
      omega
    have h2 : ∀ x y : UInt8, asU8 (overC x y (timesU front.a 255) 255) = y := by
      intro x y
      have : overC x y (timesU front.a 255) 255 = toI y := by
        simp only [timesU_255, hf, overC, show toI 255 = 255 from rfl]
        rw [Int.mul_tdiv_cancel _ (by omega)]
        omega
      rw [this, asU8_toI]
    simp only [h1, h2]
    rw [show asU8 255 = front.a by rw [hf]; rfl]

end Ase
