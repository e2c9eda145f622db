import Verif.Lemmas.Ieee

/-!
# C115: the arithmetic of Soft Light and the modes on hue, saturation and luminosity is that of IEEE 754
-/

namespace Ase

open Spec Spec.Ieee

/-- **C115 (sum).** The sum of two finite numbers is the exact sum, rounded. -/
theorem C115_add (x y : F64) (hx : IsFinite x) (hy : IsFinite y) : Rounded (value x + value y) (x.add y) := by
  match x, y, hx, hy with
  | .fin s m e, .fin s' m' e', _, _ => exact F64.add_rounded s s' m m' e e'

/-- **C115 (difference).** -/
theorem C115_sub (x y : F64) (hx : IsFinite x) (hy : IsFinite y) : Rounded (value x - value y) (x.sub y) := by
  match x, y, hx, hy with
  | .fin s m e, .fin s' m' e', _, _ =>
    have := F64.add_rounded s (!s') m m' e e'
    have hv : value (.fin (!s') m' e') = -value (.fin s' m' e') := by cases s' <;> simp [value]
    rw [hv, ← sub_eq_add_neg] at this
    exact this

/-- **C115 (product).** -/
theorem C115_mul (x y : F64) (hx : IsFinite x) (hy : IsFinite y) : Rounded (value x * value y) (x.mul y) := by
  match x, y, hx, hy with
  | .fin s m e, .fin s' m' e', _, _ => exact F64.mul_rounded s s' m m' e e'

/-- **C115 (quotient).** -/
theorem C115_div (x y : F64) (hx : IsFinite x) (hy : IsFinite y) (h : value y ≠ 0) :
    Rounded (value x / value y) (x.div y) := by
  match x, y, hx, hy with
  | .fin s m e, .fin s' m' e', _, _ =>
    refine F64.div_rounded s s' m m' e e' ?_
    rintro rfl
    simp [value] at h

/-- **C115 (root).** -/
theorem C115_sqrt (x : F64) (hx : IsFinite x) (h : 0 ≤ value x) : Rounded (√(value x)) x.sqrt := by
  match x, hx with
  | .fin s m e, hx =>
    by_cases hm : m = 0
    · subst hm
      simp only [F64.sqrt, if_pos]
      rw [show value (.fin s 0 e) = 0 by simp [value], Real.sqrt_zero]
      exact F64.rounded_zero s
    · cases s
      · exact F64.sqrt_rounded m e hx.1 hm
      · exfalso
        have h1 : (0 : ℝ) < m := by exact_mod_cast Nat.pos_of_ne_zero hm
        have h2 := mul_pos h1 (F64.two_zpow_pos e)
        simp only [value, if_true] at h
        linarith

/-- **C115 (integers and literals).** Integers are converted, and literals read, as the nearest number. -/
theorem C115_constants (k : ℤ) (n d : ℕ) (hd : 0 < d) : Rounded k (F64.ofInt k) ∧ Rounded (n / d) (F64.lit n d) := by
  constructor
  · have := F64.round_rounded (decide (k < 0)) (n := k.natAbs) (d := 1) (by norm_num)
    rw [Nat.cast_one, div_one, F64.sgn_natAbs] at this
    exact this
  · have := F64.round_rounded false (n := n) hd
    rwa [show F64.sgn false = 1 from rfl, one_mul] at this

/-- **C115 (one result).** A real number other than 0 is rounded to one number only, and 0 to one of the two zeros. -/
theorem C115_one (v : ℝ) (r r' : F64) (h : Rounded v r) (h' : Rounded v r') :
    (v ≠ 0 → r = r') ∧ (v = 0 → ∃ s, r = .fin s 0 (-1074)) := by
  refine ⟨fun hv => F64.rounded_unique hv h h', ?_⟩
  rintro rfl
  match r, h with
  | .inf s, ⟨h1, _⟩ =>
    rw [abs_zero, F64.big] at h1
    exact absurd h1 (not_le.2 (mul_pos (by norm_num) (F64.two_zpow_pos _)))
  | .fin s m e, ⟨_, hf, _, _, hc⟩ =>
    have h1 := (hc (.fin false 0 (-1074)) ⟨by norm_num, by omega, by omega, .inr rfl⟩).1
    rw [show value (.fin false 0 (-1074)) = 0 by simp [value], sub_self, abs_zero, zero_sub, abs_neg] at h1
    have h2 : value (.fin s m e) = 0 := abs_eq_zero.1 (le_antisymm h1 (abs_nonneg _))
    have hp := (F64.two_zpow_pos e).ne'
    have h3 : m = 0 := by
      cases s <;> simpa [value, hp] using h2
    subst h3
    refine ⟨s, ?_⟩
    have : e = -1074 := by
      have := hf.2.2.2
      omega
    rw [this]

/-- **C115 (signs of zeros).** A sum that is 0 is `-0.0` only if both numbers have a minus sign; products and quotients have
the sign of the product of signs; the root of a zero is that zero. -/
theorem C115_zeros (x y : F64) (hx : IsFinite x) (hy : IsFinite y) :
    (value x + value y = 0 → x.add y = .fin (sign x && sign y) 0 (-1074)) ∧
    sign (x.mul y) = (sign x != sign y) ∧ (value y ≠ 0 → sign (x.div y) = (sign x != sign y)) ∧
    (value x = 0 → x.sqrt = x) := by
  have hsign : ∀ s n d, sign (F64.round s n d) = s := by
    intro s n d
    unfold F64.round
    split
    · rfl
    · dsimp only
      split <;> split <;> rfl
  match x, y, hx, hy with
  | .fin s m e, .fin s' m' e', hx, _ =>
    refine ⟨fun h => ?_, hsign _ _ _, fun h => ?_, fun h => ?_⟩
    · have h1 := F64.mant_val s m (show min e e' ≤ e by omega)
      have h2 := F64.mant_val s' m' (show min e e' ≤ e' by omega)
      rw [F64.value_eq, F64.value_eq, ← h1, ← h2, ← add_mul] at h
      have h3 := (mul_eq_zero.1 h).resolve_right (F64.two_zpow_pos _).ne'
      have h4 : F64.mant s m e (min e e') + F64.mant s' m' e' (min e e') = 0 := by exact_mod_cast h3
      unfold F64.add
      dsimp only
      rw [if_pos h4]
      rfl
    · have : m' ≠ 0 := by
        rintro rfl
        simp [value] at h
      unfold F64.div
      dsimp only
      rw [if_neg this]
      exact hsign _ _ _
    · have hp := (F64.two_zpow_pos e).ne'
      have h3 : m = 0 := by
        cases s <;> simpa [value, hp] using h
      subst h3
      have : e = -1074 := by
        have := hx.2.2.2
        omega
      subst this
      simp [F64.sqrt]

/-- **C115 (special numbers).** NaN goes through all operations; the other rules on infinities and division by 0. -/
theorem C115_special (x : F64) (s s' : Bool) (hx : IsFinite x) :
    (∀ y, F64.nan.add y = .nan ∧ y.add .nan = .nan ∧ F64.nan.sub y = .nan ∧ y.sub .nan = .nan ∧ F64.nan.mul y = .nan ∧
      y.mul .nan = .nan ∧ F64.nan.div y = .nan ∧ y.div .nan = .nan) ∧ F64.nan.sqrt = .nan ∧
    ((F64.inf s).add x = .inf s ∧ x.add (.inf s) = .inf s ∧ (F64.inf s).add (.inf s) = .inf s ∧
      (F64.inf s).add (.inf !s) = .nan) ∧
    ((F64.inf s).sub x = .inf s ∧ x.sub (.inf s) = .inf !s ∧ (F64.inf s).sub (.inf s) = .nan ∧
      (F64.inf s).sub (.inf !s) = .inf s) ∧
    ((F64.inf s).mul (.inf s') = .inf (s != s') ∧
      (value x ≠ 0 → (F64.inf s).mul x = .inf (s != sign x) ∧ x.mul (.inf s) = .inf (sign x != s)) ∧
      (value x = 0 → (F64.inf s).mul x = .nan ∧ x.mul (.inf s) = .nan)) ∧
    ((F64.inf s).div (.inf s') = .nan ∧ (F64.inf s).div x = .inf (s != sign x) ∧
      x.div (.inf s) = .fin (sign x != s) 0 (-1074) ∧
      ∀ z, IsFinite z → value z = 0 → x.div z = if value x = 0 then .nan else .inf (sign x != sign z)) ∧
    (F64.inf false).sqrt = .inf false ∧ (F64.inf true).sqrt = .nan ∧ (value x < 0 → x.sqrt = .nan) := by
  have zero : ∀ (s : Bool) (m : ℕ) (e : ℤ), value (.fin s m e) = 0 ↔ m = 0 := by
    intro s m e
    have hp := (F64.two_zpow_pos e).ne'
    cases s <;> simp [value, hp]
  match x, hx with
  | .fin t m e, hx =>
    refine ⟨fun y => ?_, rfl, ⟨rfl, rfl, ?_, ?_⟩, ⟨rfl, rfl, ?_, ?_⟩, ⟨rfl, fun h => ?_, fun h => ?_⟩,
      ⟨rfl, rfl, rfl, fun z hz h => ?_⟩, rfl, rfl, fun h => ?_⟩
    · cases y <;> exact ⟨rfl, rfl, rfl, rfl, rfl, rfl, rfl, rfl⟩
    · simp [F64.add]
    · simp [F64.add]
    · simp [F64.sub, F64.neg, F64.add]
    · simp [F64.sub, F64.neg, F64.add]
    · rw [ne_eq, zero] at h
      simp [F64.mul, h, sign]
    · rw [zero] at h
      simp [F64.mul, h]
    · match z, hz with
      | .fin t' m' e', _ =>
        rw [zero] at h
        subst h
        simp [F64.div, zero, sign]
    · have hm : m ≠ 0 := fun hm => (ne_of_lt h) ((zero t m e).2 hm)
      cases t
      · exfalso
        have h2 := mul_nonneg (Nat.cast_nonneg (α := ℝ) m) (F64.two_zpow_pos e).le
        simp [value] at h
        linarith
      · simp [F64.sqrt, hm]

/-- **C115 (comparison).** Finite numbers are compared by value, infinities are beyond them, and nothing is less than or
greater than NaN. -/
theorem C115_compare (x y : F64) (hx : IsFinite x) (hy : IsFinite y) (z : F64) :
    (x.lt y = true ↔ value x < value y) ∧ (x.le y = true ↔ value x ≤ value y) ∧
    (F64.inf true).lt x = true ∧ x.lt (.inf false) = true ∧ (F64.inf false).lt x = false ∧ x.lt (.inf true) = false ∧
    F64.nan.lt z = false ∧ z.lt .nan = false ∧ F64.nan.le z = false ∧ z.le .nan = false := by
  match x, y, hx, hy with
  | .fin s m e, .fin s' m' e', _, _ =>
    refine ⟨?_, ?_, rfl, rfl, rfl, rfl, ?_, ?_, ?_, ?_⟩
    · rw [F64.value_eq, F64.value_eq]
      exact F64.lt_iff s s' m m' e e'
    · rw [F64.value_eq, F64.value_eq, ← not_lt, ← F64.lt_iff s' s m' m e' e]
      simp [F64.le]
    all_goals cases z <;> rfl

/-- **C115 (minimum and maximum).** They are one of the numbers and not above (below) the other one, and the other one
beside NaN. -/
theorem C115_extremes (x y : F64) (hx : IsFinite x) (hy : IsFinite y) (z : F64) :
    (x.min y = x ∨ x.min y = y) ∧ value (x.min y) = min (value x) (value y) ∧
    (x.max y = x ∨ x.max y = y) ∧ value (x.max y) = max (value x) (value y) ∧
    z.min .nan = z ∧ F64.nan.min z = z ∧ z.max .nan = z ∧ F64.nan.max z = z := by
  have hlt := (C115_compare x y hx hy z).1
  have hlt' := (C115_compare y x hy hx z).1
  match x, y, hx, hy with
  | .fin s m e, .fin s' m' e', _, _ =>
    have e1 : (F64.fin s m e).min (.fin s' m' e') = if (F64.fin s' m' e').lt (.fin s m e) = true then .fin s' m' e' else .fin s m e := rfl
    have e2 : (F64.fin s m e).max (.fin s' m' e') = if (F64.fin s m e).lt (.fin s' m' e') = true then .fin s' m' e' else .fin s m e := rfl
    refine ⟨?_, ?_, ?_, ?_, ?_, ?_, ?_, ?_⟩
    · rw [e1]; split <;> simp
    · rw [e1]
      split
      · next h => rw [min_eq_right (hlt'.1 h).le]
      · next h => rw [min_eq_left (not_lt.1 fun hc => h (hlt'.2 hc))]
    · rw [e2]; split <;> simp
    · rw [e2]
      split
      · next h => rw [max_eq_right (hlt.1 h).le]
      · next h => rw [max_eq_left (not_lt.1 fun hc => h (hlt.2 hc))]
    all_goals cases z <;> rfl

/-- **C115 (casts).** `x as i32` and `x as u32` leave out what is behind the point, and take the nearest limit if the
result does not fit; NaN becomes 0. -/
theorem C115_cast (x : F64) (hx : IsFinite x) :
    x.toI32 = max (-2 ^ 31) (min (2 ^ 31 - 1) (truncate (value x))) ∧
    x.toU32 = max 0 (min (2 ^ 32 - 1) (truncate (value x))) ∧
    F64.nan.toI32 = 0 ∧ F64.nan.toU32 = 0 ∧ (F64.inf false).toI32 = 2 ^ 31 - 1 ∧ (F64.inf true).toI32 = -2 ^ 31 ∧
    (F64.inf false).toU32 = 2 ^ 32 - 1 ∧ (F64.inf true).toU32 = 0 := by
  match x, hx with
  | .fin s m e, _ =>
    have hfl : ⌊(m : ℝ) * 2 ^ e⌋ = ((m * 2 ^ e.toNat / 2 ^ (-e).toNat : ℕ) : ℤ) := by
      rw [F64.two_zpow, ← mul_div_assoc]
      have : ((m : ℝ) * 2 ^ e.toNat / 2 ^ (-e).toNat) = ((m * 2 ^ e.toNat : ℕ) : ℝ) / ((2 ^ (-e).toNat : ℕ) : ℝ) := by
        push_cast
        rfl
      rw [this, Int.floor_div_natCast, Int.floor_natCast]
      rfl
    have hp := mul_nonneg (Nat.cast_nonneg (α := ℝ) m) (F64.two_zpow_pos e).le
    have key : truncate (value (.fin s m e)) = if s then -((m * 2 ^ e.toNat / 2 ^ (-e).toNat : ℕ) : ℤ)
        else ((m * 2 ^ e.toNat / 2 ^ (-e).toNat : ℕ) : ℤ) := by
      cases s
      · simp only [value, truncate, Bool.false_eq_true, if_false, one_mul]
        rw [if_neg (not_lt.2 hp), hfl]
      · simp only [value, truncate, if_true]
        rw [neg_one_mul, Int.ceil_neg, Int.floor_neg, hfl]
        split
        · rfl
        · next h =>
          have h0 : (m : ℝ) * 2 ^ e = 0 := by linarith
          rw [← hfl, h0]
          simp
    refine ⟨?_, ?_, rfl, rfl, rfl, rfl, rfl, rfl⟩
    · rw [key, F64.toI32, F64.toIntSat]
      generalize (if s = true then -((m * 2 ^ e.toNat / 2 ^ (-e).toNat : ℕ) : ℤ)
        else ((m * 2 ^ e.toNat / 2 ^ (-e).toNat : ℕ) : ℤ)) = n
      split
      · omega
      · split <;> omega
    · rw [key, F64.toU32, F64.toIntSat]
      generalize (if s = true then -((m * 2 ^ e.toNat / 2 ^ (-e).toNat : ℕ) : ℤ)
        else ((m * 2 ^ e.toNat / 2 ^ (-e).toNat : ℕ) : ℤ)) = n
      split
      · omega
      · split <;> omega

/-- The operations of the model, those of Rust's `f64`. -/
def C115_arith : Arith := ⟨F64.add, F64.sub, F64.mul, F64.div, F64.sqrt, F64.min, F64.max⟩

/-- **C115 (all rules).** The operations that blending uses obey all rules of the standard. -/
theorem C115_ieee : IsIeee C115_arith where
  nan x := (C115_special (.fin false 0 (-1074)) false false ⟨by norm_num, by omega, by omega, .inr rfl⟩).1 x
  nan_sqrt := rfl
  add x y hx hy := ⟨C115_add x y hx hy, fun h => by
    change sign (x.add y) = _
    rw [(C115_zeros x y hx hy).1 h]
    rfl⟩
  add_inf x s hx := by
    have := (C115_special x s s hx).2.2.1
    exact ⟨this.1, this.2.1⟩
  inf_add_inf s := by simp [C115_arith, F64.add]
  sub x y hx hy := ⟨C115_sub x y hx hy, fun h => by
    match x, y, hx, hy with
    | .fin s m e, .fin s' m' e', hx, hy =>
      have hv : value (.fin (!s') m' e') = -value (.fin s' m' e') := by cases s' <;> simp [value]
      rw [sub_eq_add_neg, ← hv] at h
      change sign ((F64.fin s m e).add (.fin (!s') m' e')) = _
      rw [(C115_zeros (.fin s m e) (.fin (!s') m' e') hx hy).1 h]
      rfl⟩
  sub_inf x s hx := by
    have := (C115_special x s s hx).2.2.2.1
    exact ⟨this.1, this.2.1⟩
  inf_sub_inf s := by simp [C115_arith, F64.sub, F64.neg, F64.add]
  mul x y hx hy := ⟨C115_mul x y hx hy, (C115_zeros x y hx hy).2.1⟩
  mul_inf x s hx h := (C115_special x s s hx).2.2.2.2.1.2.1 h
  zero_mul_inf x s hx h := (C115_special x s s hx).2.2.2.2.1.2.2 h
  inf_mul_inf _ _ := rfl
  div x y hx hy h := ⟨C115_div x y hx hy h, (C115_zeros x y hx hy).2.2.1 h⟩
  div_zero x y hx hy h0 h := by
    have := (C115_special x false false hx).2.2.2.2.2.1.2.2.2 y hy h
    rwa [if_neg h0] at this
  zero_div_zero x y hx hy h0 h := by
    have := (C115_special x false false hx).2.2.2.2.2.1.2.2.2 y hy h
    rwa [if_pos h0] at this
  div_inf x s hx := by
    have := (C115_special x s s hx).2.2.2.2.2.1
    exact ⟨this.2.1, this.2.2.1⟩
  inf_div_inf _ _ := rfl
  sqrt x hx h := ⟨C115_sqrt x hx h, fun h0 => by
    change sign x.sqrt = _
    rw [(C115_zeros x x hx hx).2.2.2 h0]⟩
  sqrt_neg x hx h := (C115_special x false false hx).2.2.2.2.2.2.2.2 h
  sqrt_inf := ⟨rfl, rfl⟩
  min x y hx hy := by
    have := C115_extremes x y hx hy x
    exact ⟨this.1, this.2.1⟩
  max x y hx hy := by
    have := C115_extremes x y hx hy x
    exact ⟨this.2.2.1, this.2.2.2.1⟩
  min_nan x := by cases x <;> exact ⟨rfl, rfl⟩
  max_nan x := by cases x <;> exact ⟨rfl, rfl⟩
  min_inf x h := by
    rcases x with _ | (_ | _) | _
    · exact absurd rfl h
    all_goals exact ⟨rfl, rfl, rfl, rfl⟩
  max_inf x h := by
    rcases x with _ | (_ | _) | _
    · exact absurd rfl h
    all_goals exact ⟨rfl, rfl, rfl, rfl⟩

/-- **C115 (no choice).** Two arithmetics that obey the rules of the standard are the same, and lead to numbers
only: the standard leaves nothing to the machine. -/
theorem C115_determined (A B : Arith) (hA : IsIeee A) (hB : IsIeee B) (x y : F64) (hx : Number x) (hy : Number y) :
    (A.add x y = B.add x y ∧ A.sub x y = B.sub x y ∧ A.mul x y = B.mul x y ∧ A.div x y = B.div x y ∧ A.sqrt x = B.sqrt x) ∧
    Number (A.add x y) ∧ Number (A.sub x y) ∧ Number (A.mul x y) ∧ Number (A.div x y) ∧ Number (A.sqrt x) := by
  have one : ∀ {v : ℝ} {r r' : F64}, Rounded v r → Rounded v r' → (v = 0 → sign r = sign r') → r = r' := by
    intro v r r' h h' hs
    by_cases hv : v = 0
    · obtain ⟨s, e⟩ := (C115_one v r r' h h').2 hv
      obtain ⟨s', e'⟩ := (C115_one v r' r h' h).2 hv
      have := hs hv
      rw [e, e'] at this ⊢
      rw [show s = s' from this]
    · exact (C115_one v r r' h h').1 hv
  have num : ∀ {v : ℝ} {r : F64}, Rounded v r → Number r := by
    intro v r h
    match r, h with
    | .inf _, _ => trivial
    | .fin _ _ _, h => exact h.2.1
  have hN : ∀ r : F64, r = .nan ∨ (∃ s, r = .inf s) ∨ ∃ s m e, r = .fin s m e := by
    intro r
    cases r <;> simp
  have hzero : ∀ s, Number (.fin s 0 (-1074)) := fun s => ⟨by norm_num, by omega, by omega, .inr rfl⟩
  have root : A.sqrt x = B.sqrt x ∧ Number (A.sqrt x) := by
    rcases hN x with rfl | ⟨s, rfl⟩ | ⟨s, m, e, rfl⟩
    · rw [hA.nan_sqrt, hB.nan_sqrt]
      exact ⟨rfl, trivial⟩
    · cases s
      · rw [hA.sqrt_inf.1, hB.sqrt_inf.1]
        exact ⟨rfl, trivial⟩
      · rw [hA.sqrt_inf.2, hB.sqrt_inf.2]
        exact ⟨rfl, trivial⟩
    · replace hx : IsFinite (.fin s m e) := hx
      rcases lt_or_ge (value (.fin s m e)) 0 with h | h
      · rw [hA.sqrt_neg _ hx h, hB.sqrt_neg _ hx h]
        exact ⟨rfl, trivial⟩
      · have a := hA.sqrt _ hx h
        have b := hB.sqrt _ hx h
        refine ⟨one a.1 b.1 fun h0 => ?_, num a.1⟩
        have h1 := (Real.sqrt_eq_zero h).1 h0
        rw [a.2 h1, b.2 h1]
  suffices H : (A.add x y = B.add x y ∧ A.sub x y = B.sub x y ∧ A.mul x y = B.mul x y ∧ A.div x y = B.div x y) ∧
      Number (A.add x y) ∧ Number (A.sub x y) ∧ Number (A.mul x y) ∧ Number (A.div x y) by
    exact ⟨⟨H.1.1, H.1.2.1, H.1.2.2.1, H.1.2.2.2, root.1⟩, H.2.1, H.2.2.1, H.2.2.2.1, H.2.2.2.2, root.2⟩
  rcases hN x with rfl | ⟨s, rfl⟩ | ⟨s, m, e, rfl⟩
  · obtain ⟨a1, -, a2, -, a3, -, a4, -⟩ := hA.nan y
    obtain ⟨b1, -, b2, -, b3, -, b4, -⟩ := hB.nan y
    rw [a1, a2, a3, a4, b1, b2, b3, b4]
    exact ⟨⟨rfl, rfl, rfl, rfl⟩, trivial, trivial, trivial, trivial⟩
  · rcases hN y with rfl | ⟨s', rfl⟩ | ⟨s', m', e', rfl⟩
    · obtain ⟨-, a1, -, a2, -, a3, -, a4⟩ := hA.nan (.inf s)
      obtain ⟨-, b1, -, b2, -, b3, -, b4⟩ := hB.nan (.inf s)
      rw [a1, a2, a3, a4, b1, b2, b3, b4]
      exact ⟨⟨rfl, rfl, rfl, rfl⟩, trivial, trivial, trivial, trivial⟩
    · rw [hA.inf_mul_inf, hB.inf_mul_inf, hA.inf_div_inf, hB.inf_div_inf]
      by_cases h : s' = s
      · subst h
        rw [(hA.inf_add_inf s').1, (hB.inf_add_inf s').1, (hA.inf_sub_inf s').1, (hB.inf_sub_inf s').1]
        exact ⟨⟨rfl, rfl, rfl, rfl⟩, trivial, trivial, trivial, trivial⟩
      · have : s' = !s := by cases s <;> cases s' <;> simp_all
        subst this
        rw [(hA.inf_add_inf s).2, (hB.inf_add_inf s).2, (hA.inf_sub_inf s).2, (hB.inf_sub_inf s).2]
        exact ⟨⟨rfl, rfl, rfl, rfl⟩, trivial, trivial, trivial, trivial⟩
    · replace hy : IsFinite (.fin s' m' e') := hy
      rw [(hA.add_inf _ s hy).1, (hB.add_inf _ s hy).1, (hA.sub_inf _ s hy).1, (hB.sub_inf _ s hy).1,
        (hA.div_inf _ s hy).1, (hB.div_inf _ s hy).1]
      by_cases h : value (.fin s' m' e') = 0
      · rw [(hA.zero_mul_inf _ s hy h).1, (hB.zero_mul_inf _ s hy h).1]
        exact ⟨⟨rfl, rfl, rfl, rfl⟩, trivial, trivial, trivial, trivial⟩
      · rw [(hA.mul_inf _ s hy h).1, (hB.mul_inf _ s hy h).1]
        exact ⟨⟨rfl, rfl, rfl, rfl⟩, trivial, trivial, trivial, trivial⟩
  · replace hx : IsFinite (.fin s m e) := hx
    rcases hN y with rfl | ⟨s', rfl⟩ | ⟨s', m', e', rfl⟩
    · obtain ⟨-, a1, -, a2, -, a3, -, a4⟩ := hA.nan (.fin s m e)
      obtain ⟨-, b1, -, b2, -, b3, -, b4⟩ := hB.nan (.fin s m e)
      rw [a1, a2, a3, a4, b1, b2, b3, b4]
      exact ⟨⟨rfl, rfl, rfl, rfl⟩, trivial, trivial, trivial, trivial⟩
    · rw [(hA.add_inf _ s' hx).2, (hB.add_inf _ s' hx).2, (hA.sub_inf _ s' hx).2, (hB.sub_inf _ s' hx).2,
        (hA.div_inf _ s' hx).2, (hB.div_inf _ s' hx).2]
      by_cases h : value (.fin s m e) = 0
      · rw [(hA.zero_mul_inf _ s' hx h).2, (hB.zero_mul_inf _ s' hx h).2]
        exact ⟨⟨rfl, rfl, rfl, rfl⟩, trivial, trivial, trivial, hzero _⟩
      · rw [(hA.mul_inf _ s' hx h).2, (hB.mul_inf _ s' hx h).2]
        exact ⟨⟨rfl, rfl, rfl, rfl⟩, trivial, trivial, trivial, hzero _⟩
    · replace hy : IsFinite (.fin s' m' e') := hy
      have a1 := hA.add _ _ hx hy
      have b1 := hB.add _ _ hx hy
      have a2 := hA.sub _ _ hx hy
      have b2 := hB.sub _ _ hx hy
      have a3 := hA.mul _ _ hx hy
      have b3 := hB.mul _ _ hx hy
      have hdiv : A.div (.fin s m e) (.fin s' m' e') = B.div (.fin s m e) (.fin s' m' e') ∧
          Number (A.div (.fin s m e) (.fin s' m' e')) := by
        by_cases h : value (.fin s' m' e') = 0
        · by_cases h0 : value (.fin s m e) = 0
          · rw [hA.zero_div_zero _ _ hx hy h0 h, hB.zero_div_zero _ _ hx hy h0 h]
            exact ⟨rfl, trivial⟩
          · rw [hA.div_zero _ _ hx hy h0 h, hB.div_zero _ _ hx hy h0 h]
            exact ⟨rfl, trivial⟩
        · have a := hA.div _ _ hx hy h
          have b := hB.div _ _ hx hy h
          exact ⟨one a.1 b.1 fun _ => by rw [a.2, b.2], num a.1⟩
      exact ⟨⟨one a1.1 b1.1 fun h => by rw [a1.2 h, b1.2 h], one a2.1 b2.1 fun h => by rw [a2.2 h, b2.2 h],
        one a3.1 b3.1 fun _ => by rw [a3.2, b3.2], hdiv.1⟩, num a1.1, num a2.1, num a3.1, hdiv.2⟩

section Examples

/-- The largest number that is not infinite. -/
def C115_largest : F64 := .fin false (2 ^ 53 - 1) 971
/-- The smallest number above 0. -/
def C115_smallest : F64 := .fin false 1 (-1074)

example : IsFinite C115_largest ∧ IsFinite C115_smallest ∧ IsFinite (F64.ofInt 3) ∧ value (F64.ofInt 3) ≠ 0 := by
  refine ⟨⟨by norm_num, by norm_num, by norm_num, .inl (by norm_num)⟩, ⟨by norm_num, by norm_num, by norm_num, .inr rfl⟩, ?_, ?_⟩
  · rw [show F64.ofInt 3 = .fin false 6755399441055744 (-51) by decide +kernel]
    exact ⟨by norm_num, by norm_num, by norm_num, .inl (by norm_num)⟩
  · rw [show F64.ofInt 3 = .fin false 6755399441055744 (-51) by decide +kernel]
    simp [value]

/-- 1/3 is rounded down, 2/3 up; 0.1 + 0.2 is not 0.3; 2⁵³ + 1 goes to the even neighbour 2⁵³, and 2⁵³ + 3 to 2⁵³ + 4. -/
example : (F64.ofInt 1).div (F64.ofInt 3) = .fin false 6004799503160661 (-54) ∧
    (F64.ofInt 2).div (F64.ofInt 3) = .fin false 6004799503160661 (-53) ∧
    (F64.lit 1 10).add (F64.lit 2 10) = .fin false 5404319552844596 (-54) ∧
    F64.lit 3 10 = .fin false 5404319552844595 (-54) ∧
    F64.ofInt (2 ^ 53 + 1) = F64.ofInt (2 ^ 53) ∧ F64.ofInt (2 ^ 53 + 3) = F64.ofInt (2 ^ 53 + 4) := by decide +kernel

/-- Too large and too small results; roots; signs of zeros. -/
example : C115_largest.add C115_largest = .inf false ∧ C115_largest.add (F64.ofInt 1) = C115_largest ∧
    C115_smallest.div (F64.ofInt 2) = .fin false 0 (-1074) ∧ (C115_smallest.mul (F64.ofInt 3)).div (F64.ofInt 2) = .fin false 2 (-1074) ∧
    (F64.ofInt 2).sqrt = .fin false 6369051672525773 (-52) ∧ (F64.ofInt 4).sqrt = F64.ofInt 2 ∧
    (F64.ofInt 1).sub (F64.ofInt 1) = .fin false 0 (-1074) := by decide +kernel

/-- Casts leave out what is behind the point, on both sides of 0. -/
example : (F64.lit 29 10).toI32 = 2 ∧ ((F64.ofInt 0).sub (F64.lit 29 10)).toI32 = -2 ∧
    ((F64.ofInt 0).sub (F64.lit 29 10)).toU32 = 0 ∧ C115_largest.toI32 = 2147483647 := by decide +kernel

end Examples

end Ase
