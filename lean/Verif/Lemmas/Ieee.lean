import Verif.Lemmas.F64Real
import Verif.Spec.Ieee

/-!
# Rounding to the nearest number
-/

namespace Ase.F64

open Spec Spec.Ieee

theorem value_eq (x : F64) : value x = val x := by
  cases x <;> simp [value, val, sgn]

/-- `q` is the integer nearest to `t`, the even one if there are two. -/
def Even (t : ℝ) (q : ℕ) : Prop := |t - q| ≤ 1 / 2 ∧ (|t - q| = 1 / 2 → q % 2 = 0)

/-- What `round` does in the end. -/
def finish (s : Bool) (q : ℕ) (e : ℤ) : F64 :=
  if q = 2 ^ 53 then
    if e + 1 > 971 then inf s else fin s (2 ^ 52) (e + 1)
  else if e > 971 then inf s else fin s q e

theorem tiesToEven_even {a b : ℕ} (hb : 0 < b) : Even ((a : ℝ) / b) (tiesToEven (a / b) (a % b) b) := by
  have h := (tiesToEven_spec (a := a) hb).1
  rw [abs_sub_comm] at h
  refine ⟨h, fun ht => ?_⟩
  have hbr : (0 : ℝ) < b := by exact_mod_cast hb
  have hdm : (a : ℝ) = b * (a / b : ℕ) + (a % b : ℕ) := by exact_mod_cast (Nat.div_add_mod a b).symm
  have hq : (a : ℝ) / b = (a / b : ℕ) + (a % b : ℕ) / b := by
    rw [hdm]
    field_simp
  have hr : (a % b : ℕ) < b := Nat.mod_lt _ hb
  have h1 : ((a % b : ℕ) : ℝ) / b < 1 := by rw [div_lt_one hbr]; exact_mod_cast hr
  have h0 : (0 : ℝ) ≤ ((a % b : ℕ) : ℝ) / b := by positivity
  have half : ((a % b : ℕ) : ℝ) / b = 1 / 2 → 2 * (a % b) = b := by
    intro h
    rw [div_eq_div_iff hbr.ne' (by norm_num)] at h
    have : (((a % b) * 2 : ℕ) : ℝ) = ((1 * b : ℕ) : ℝ) := by push_cast; linarith
    have := Nat.cast_injective this
    omega
  rw [hq] at ht
  unfold tiesToEven at ht ⊢
  split
  · next h2 =>
    rw [if_pos h2] at ht
    push_cast at ht
    rw [abs_of_neg (by linarith)] at ht
    have := half (by linarith)
    omega
  · next h2 =>
    rw [if_neg h2] at ht
    rw [add_sub_cancel_left, abs_of_nonneg h0] at ht
    have := half ht
    omega

theorem round_finish (neg : Bool) {n d : ℕ} (hn : n ≠ 0) (hd : 0 < d) :
    ∃ (L : ℤ) (q : ℕ), (2 : ℝ) ^ L ≤ n / d ∧ (n : ℝ) / d < 2 ^ (L + 1) ∧
      Even ((n : ℝ) / d / 2 ^ (Max.max (L - 52) (-1074))) q ∧ round neg n d = finish neg q (Max.max (L - 52) (-1074)) := by
  obtain ⟨hlo, hup⟩ := ilog_spec (Nat.pos_of_ne_zero hn) hd
  refine ⟨ilog n d, tiesToEven (n * 2 ^ (-(Max.max (ilog n d - 52) (-1074))).toNat /
      (d * 2 ^ (Max.max (ilog n d - 52) (-1074)).toNat))
    (n * 2 ^ (-(Max.max (ilog n d - 52) (-1074))).toNat % (d * 2 ^ (Max.max (ilog n d - 52) (-1074)).toNat))
    (d * 2 ^ (Max.max (ilog n d - 52) (-1074)).toNat), hlo, hup, ?_, ?_⟩
  rotate_left
  · unfold round finish
    rw [if_neg hn]
  · generalize Max.max (ilog n d - 52) (-1074 : ℤ) = e
    have hdr : (0 : ℝ) < d := by exact_mod_cast hd
    have hb : 0 < d * 2 ^ e.toNat := by positivity
    have hab : ((n * 2 ^ (-e).toNat : ℕ) : ℝ) / (d * 2 ^ e.toNat : ℕ) = n / d / 2 ^ e := by
      rw [two_zpow]
      push_cast
      field_simp
    rw [← hab]
    exact tiesToEven_even hb

/-- The integer nearest to `t` is nearer than any other one. -/
theorem Even.nearest {t : ℝ} {q : ℕ} (h : Even t q) (j : ℤ) :
    |t - q| ≤ |t - j| ∧ (|t - q| = |t - j| → (j : ℝ) = q ∨ q % 2 = 0) := by
  by_cases hj : j = q
  · subst hj
    simp
  · have h1 : (1 : ℝ) ≤ |(j : ℝ) - q| := by
      have : (1 : ℤ) ≤ |j - q| := Int.one_le_abs (by omega)
      have : ((1 : ℤ) : ℝ) ≤ ((|j - q| : ℤ) : ℝ) := by exact_mod_cast this
      push_cast at this
      exact this
    have h2 : |(j : ℝ) - q| ≤ |t - j| + |t - q| := by
      rw [show (j : ℝ) - q = (t - q) - (t - j) by ring]
      have := abs_sub (t - q) (t - j)
      linarith
    have h3 := h.1
    refine ⟨by linarith, fun h4 => .inr (h.2 (by linarith))⟩

/-- Of the numbers of 53 bits none is nearer. -/
theorem nearest {v : ℝ} {L e : ℤ} (hL : (2 : ℝ) ^ L ≤ v) (he : e = Max.max (L - 52) (-1074)) {q : ℕ}
    (hq : Even (v / 2 ^ e) q) (k : ℤ) (e' : ℤ) (hk : |k| < 2 ^ 53) (he' : -1074 ≤ e') :
    |v - q * 2 ^ e| ≤ |v - k * 2 ^ e'| ∧ (|v - q * 2 ^ e| = |v - k * 2 ^ e'| → (k : ℝ) * 2 ^ e' = q * 2 ^ e ∨ q % 2 = 0) := by
  have hp := two_zpow_pos e
  have scale : ∀ c : ℝ, |v - c * 2 ^ e| = |v / 2 ^ e - c| * 2 ^ e := by
    intro c
    rw [show v - c * 2 ^ e = (v / 2 ^ e - c) * 2 ^ e by field_simp, abs_mul, abs_of_pos hp]
  have hc : (k : ℝ) * 2 ^ e' = k * 2 ^ (e' - e) * 2 ^ e := by
    rw [mul_assoc, ← zpow_add₀ (by norm_num), sub_add_cancel]
  rw [hc, scale, scale]
  by_cases h : e ≤ e'
  · have hj : (k : ℝ) * 2 ^ (e' - e) = ((k * 2 ^ (e' - e).toNat : ℤ) : ℝ) := by
      push_cast
      rw [← zpow_natCast, Int.toNat_of_nonneg (by omega)]
    rw [hj]
    obtain ⟨h1, h2⟩ := hq.nearest (k * 2 ^ (e' - e).toNat)
    refine ⟨mul_le_mul_of_nonneg_right h1 hp.le, fun h3 => ?_⟩
    rcases h2 (mul_right_cancel₀ hp.ne' h3) with h4 | h4
    · exact .inl (by rw [h4])
    · exact .inr h4
  · have e1 : L = e + 52 := by omega
    have ht : (2 : ℝ) ^ (52 : ℕ) ≤ v / 2 ^ e := by
      rw [le_div_iff₀ hp, ← zpow_natCast, ← zpow_add₀ (by norm_num)]
      refine le_trans (le_of_eq ?_) hL
      congr 1
      push_cast
      omega
    have hk1 : (k : ℝ) * 2 ^ (e' - e) < 2 ^ (52 : ℕ) := by
      have a1 : (k : ℝ) < 2 ^ 53 := by
        have : k < 2 ^ 53 := lt_of_le_of_lt (le_abs_self k) hk
        exact_mod_cast this
      have a2 : (2 : ℝ) ^ (e' - e) ≤ 2 ^ (-1 : ℤ) := zpow_le_zpow_right₀ (by norm_num) (by omega)
      have a3 := two_zpow_pos (e' - e)
      have a4 : (2 : ℝ) ^ (-1 : ℤ) = 1 / 2 := by norm_num
      rw [a4] at a2
      calc (k : ℝ) * 2 ^ (e' - e) < 2 ^ 53 * 2 ^ (e' - e) := mul_lt_mul_of_pos_right a1 a3
        _ ≤ 2 ^ 53 * (1 / 2) := mul_le_mul_of_nonneg_left a2 (by norm_num)
        _ = 2 ^ 52 := by norm_num
    have h1 := (hq.nearest (2 ^ 52)).1
    rw [show (((2 : ℤ) ^ 52 : ℤ) : ℝ) = 2 ^ (52 : ℕ) by norm_num] at h1
    rw [abs_of_nonneg (show (0 : ℝ) ≤ v / 2 ^ e - 2 ^ 52 by linarith)] at h1
    rw [abs_of_nonneg (show (0 : ℝ) ≤ v / 2 ^ e - k * 2 ^ (e' - e) by linarith)]
    have h2 : |v / 2 ^ e - q| < v / 2 ^ e - k * 2 ^ (e' - e) := by linarith
    have h3 := mul_lt_mul_of_pos_right h2 hp
    exact ⟨h3.le, fun h => absurd h (ne_of_lt h3)⟩

theorem sgn_abs (s : Bool) (v z : ℝ) : |sgn s * v - z| = |v - sgn s * z| := by
  have : sgn s * v - z = sgn s * (v - sgn s * z) := by
    rw [mul_sub, ← mul_assoc (sgn s) (sgn s), sgn_sq, one_mul]
  rw [this, abs_mul, abs_sgn, one_mul]

theorem big : (2 : ℝ) ^ 1024 - 2 ^ 970 = (2 ^ 53 - 1 / 2) * 2 ^ (971 : ℤ) := by
  have h1 : (2 : ℝ) ^ (971 : ℤ) = 2 * 2 ^ 970 := by
    rw [show (971 : ℤ) = ((970 + 1 : ℕ) : ℤ) by norm_num, zpow_natCast, pow_succ, mul_comm]
  have h2 : (2 : ℝ) ^ 1024 = 2 ^ 54 * 2 ^ 970 := by rw [← pow_add]
  rw [h1, h2]
  generalize (2 : ℝ) ^ 970 = z
  ring

/-- Rounding the significand to an integer is rounding. -/
theorem finish_rounded {v : ℝ} {L e : ℤ} (hL : (2 : ℝ) ^ L ≤ v) (hU : v < 2 ^ (L + 1)) (he : e = Max.max (L - 52) (-1074))
    {q : ℕ} (hq : Even (v / 2 ^ e) q) (s : Bool) : Rounded (sgn s * v) (finish s q e) := by
  have hp := two_zpow_pos e
  have hv : 0 < v := lt_of_lt_of_le (two_zpow_pos L) hL
  have habs : |sgn s * v| = v := by rw [abs_mul, abs_sgn, one_mul, abs_of_pos hv]
  have hneg : s = true ↔ sgn s * v < 0 := by
    cases s
    · simp only [sgn, Bool.false_eq_true, false_iff, not_lt, if_false]
      linarith
    · simp only [sgn, if_true, true_iff]
      linarith
  have ht : v / 2 ^ e < 2 ^ 53 := by
    rw [div_lt_iff₀ hp]
    calc v < 2 ^ (L + 1) := hU
      _ ≤ 2 ^ (e + 53) := zpow_le_zpow_right₀ (by norm_num) (by omega)
      _ = 2 ^ 53 * 2 ^ e := by rw [zpow_add₀ (by norm_num), mul_comm]; norm_num
  have hq1 := abs_le.1 hq.1
  have hq53 : q ≤ 2 ^ 53 := by
    by_contra hc
    have : ((2 ^ 53 + 1 : ℕ) : ℝ) ≤ q := by exact_mod_cast Nat.lt_of_not_le hc
    push_cast at this
    linarith
  have hq52 : e ≠ -1074 → 2 ^ 52 ≤ q := by
    intro h
    have h52 : (2 : ℝ) ^ (52 : ℕ) ≤ v / 2 ^ e := by
      rw [le_div_iff₀ hp, ← zpow_natCast, ← zpow_add₀ (by norm_num)]
      refine le_trans (le_of_eq ?_) hL
      congr 1
      push_cast
      omega
    by_contra hc
    have : ((q + 1 : ℕ) : ℝ) ≤ ((2 ^ 52 : ℕ) : ℝ) := Nat.cast_le.2 (by omega)
    push_cast at this
    linarith
  have close : ∀ y, IsFinite y → |sgn s * v - sgn s * (q * 2 ^ e)| ≤ |sgn s * v - value y| ∧
      (|sgn s * v - sgn s * (q * 2 ^ e)| = |sgn s * v - value y| → value y = sgn s * (q * 2 ^ e) ∨ q % 2 = 0) := by
    intro y hy
    match y, hy with
    | .fin s' m' e', ⟨a1, a2, _, _⟩ =>
      have hz : ∃ k : ℤ, |k| < 2 ^ 53 ∧ sgn s * value (.fin s' m' e') = k * 2 ^ e' := by
        refine ⟨if s = s' then m' else -m', ?_, ?_⟩
        · split
          · rw [abs_of_nonneg (by omega)]; exact_mod_cast a1
          · rw [abs_neg, abs_of_nonneg (by omega)]; exact_mod_cast a1
        · rw [value_eq, val]
          cases s <;> cases s' <;> simp [sgn]
      obtain ⟨k, hk, hz⟩ := hz
      obtain ⟨n1, n2⟩ := nearest hL he hq k e' hk a2
      rw [sgn_abs, sgn_abs, ← mul_assoc, sgn_sq, one_mul, hz]
      refine ⟨n1, fun h => ?_⟩
      rcases n2 h with h | h
      · left
        rw [← hz] at h
        rw [← h, ← mul_assoc, sgn_sq, one_mul]
      · exact .inr h
  have hve : v = v / 2 ^ e * 2 ^ e := by field_simp
  unfold finish
  by_cases h53 : q = 2 ^ 53
  · rw [if_pos h53]
    have hqr : (q : ℝ) = 2 ^ 53 := by rw [h53]; norm_num
    by_cases h1 : e + 1 > 971
    · rw [if_pos h1]
      refine ⟨?_, hneg⟩
      rw [habs, big, hve]
      have : (2 : ℝ) ^ (971 : ℤ) ≤ 2 ^ e := zpow_le_zpow_right₀ (by norm_num) (by omega)
      exact mul_le_mul (by linarith) this (two_zpow_pos _).le (by positivity)
    · rw [if_neg h1]
      have hval : value (.fin s (2 ^ 52) (e + 1)) = sgn s * (q * 2 ^ e) := by
        rw [value_eq, val, hqr, zpow_add₀ (by norm_num)]
        push_cast
        ring
      refine ⟨?_, ⟨by norm_num, by omega, by omega, .inl (Nat.le_refl _)⟩, ?_, fun h => hneg.2 h, ?_⟩
      · rw [habs, big, hve]
        have : (2 : ℝ) ^ e ≤ 2 ^ (970 : ℤ) := zpow_le_zpow_right₀ (by norm_num) (by omega)
        have h4 : ∀ z : ℝ, 0 < z → 2 ^ 53 * z < (2 ^ 53 - 1 / 2) * (2 * z) := fun z hz => by norm_num; linarith
        calc v / 2 ^ e * 2 ^ e ≤ 2 ^ 53 * 2 ^ (970 : ℤ) := mul_le_mul ht.le this hp.le (by norm_num)
          _ < (2 ^ 53 - 1 / 2) * (2 * 2 ^ (970 : ℤ)) := h4 _ (two_zpow_pos _)
          _ = (2 ^ 53 - 1 / 2) * 2 ^ (971 : ℤ) := by
            rw [show (971 : ℤ) = 1 + 970 by norm_num, zpow_add₀ (by norm_num), zpow_one]
      · intro h
        cases s
        · rfl
        · have := hneg.1 rfl
          linarith
      · intro y hy
        rw [hval]
        exact ⟨(close y hy).1, fun _ => .inr (by norm_num)⟩
  · rw [if_neg h53]
    by_cases h1 : e > 971
    · rw [if_pos h1]
      refine ⟨?_, hneg⟩
      rw [habs, big]
      have h52 := hq52 (by omega)
      have : (2 : ℝ) ^ (972 : ℤ) ≤ 2 ^ e := zpow_le_zpow_right₀ (by norm_num) (by omega)
      have h3 : (2 : ℝ) ^ (1024 : ℤ) ≤ 2 ^ L := zpow_le_zpow_right₀ (by norm_num) (by omega)
      refine le_trans ?_ (le_trans h3 hL)
      have h4 : ∀ z : ℝ, 0 < z → (2 ^ 53 - 1 / 2) * z ≤ 2 ^ 53 * z := fun z hz => by norm_num; linarith
      rw [show (1024 : ℤ) = 53 + 971 by norm_num, zpow_add₀ (by norm_num), show (2 : ℝ) ^ (53 : ℤ) = 2 ^ 53 by norm_num]
      exact h4 _ (two_zpow_pos _)
    · rw [if_neg h1]
      have hval : value (.fin s q e) = sgn s * (q * 2 ^ e) := by rw [value_eq, val]
      refine ⟨?_, ⟨by omega, by omega, by omega, ?_⟩, ?_, fun h => hneg.2 h, ?_⟩
      · rw [habs, big, hve]
        have h2 : v / 2 ^ e < 2 ^ 53 - 1 / 2 := by
          have h3 : q ≤ 2 ^ 53 - 1 := by omega
          have h4 : ((q + 1 : ℕ) : ℝ) ≤ ((2 ^ 53 : ℕ) : ℝ) := Nat.cast_le.2 (by omega)
          push_cast at h4
          by_contra hc
          push Not at hc
          have h5 : |v / 2 ^ e - q| = 1 / 2 := by
            rw [abs_of_nonneg (by linarith)]
            linarith
          have h6 := hq.2 h5
          have h7 : ((q + 1 : ℕ) : ℝ) = ((2 ^ 53 : ℕ) : ℝ) := by push_cast; linarith
          have h8 := Nat.cast_injective h7
          omega
        have h3 : (2 : ℝ) ^ e ≤ 2 ^ (971 : ℤ) := zpow_le_zpow_right₀ (by norm_num) (by omega)
        calc v / 2 ^ e * 2 ^ e < (2 ^ 53 - 1 / 2) * 2 ^ e := mul_lt_mul_of_pos_right h2 hp
          _ ≤ _ := mul_le_mul_of_nonneg_left h3 (by norm_num)
      · by_cases h2 : e = -1074
        · exact .inr h2
        · exact .inl (hq52 h2)
      · intro h
        cases s
        · rfl
        · have := hneg.1 rfl
          linarith
      · intro y hy
        rw [hval]
        exact close y hy

theorem round_rounded (neg : Bool) {n d : ℕ} (hd : 0 < d) : Rounded (sgn neg * (n / d)) (round neg n d) := by
  by_cases hn : n = 0
  · subst hn
    simp only [round, if_pos, Nat.cast_zero, zero_div, mul_zero]
    refine ⟨?_, ⟨by norm_num, by omega, by omega, .inr rfl⟩, fun h => absurd h (lt_irrefl _), fun h => absurd h (lt_irrefl _),
      fun y _ => ⟨?_, fun _ => .inr rfl⟩⟩
    · rw [abs_zero, big]
      exact mul_pos (by norm_num) (two_zpow_pos _)
    · simp [value]
  · obtain ⟨L, q, h1, h2, h3, h4⟩ := round_finish neg hn hd
    rw [h4]
    exact finish_rounded h1 h2 rfl h3 neg

theorem roundScaled_rounded (neg : Bool) {n d : ℕ} (hd : 0 < d) (e : ℤ) :
    Rounded (sgn neg * (n / d * 2 ^ e)) (roundScaled neg n d e) := by
  have heq : ((n * 2 ^ e.toNat : ℕ) : ℝ) / (d * 2 ^ (-e).toNat : ℕ) = n / d * 2 ^ e := by
    rw [two_zpow]
    push_cast
    have : (0 : ℝ) < d := by exact_mod_cast hd
    field_simp
  rw [← heq]
  exact round_rounded neg (by positivity)

theorem rounded_zero (s : Bool) : Rounded 0 (fin s 0 (-1074)) := by
  have := round_rounded s (n := 0) (d := 1) (by norm_num)
  simpa [round] using this

theorem sgn_natAbs (n : ℤ) : sgn (decide (n < 0)) * (n.natAbs : ℝ) = n := by
  have h1 : ((n.natAbs : ℕ) : ℝ) = |(n : ℝ)| := by
    rw [← Int.cast_abs, Nat.cast_natAbs]
  rw [h1]
  by_cases hn : n < 0
  · have : (n : ℝ) < 0 := by exact_mod_cast hn
    rw [decide_eq_true hn, abs_of_neg this]
    simp [sgn]
  · have : (0 : ℝ) ≤ n := by exact_mod_cast not_lt.1 hn
    rw [decide_eq_false hn, abs_of_nonneg this]
    simp [sgn]

theorem add_rounded (s s' : Bool) (m m' : ℕ) (e e' : ℤ) :
    Rounded (value (fin s m e) + value (fin s' m' e')) (add (fin s m e) (fin s' m' e')) := by
  have h1 := mant_val s m (show Min.min e e' ≤ e by omega)
  have h2 := mant_val s' m' (show Min.min e e' ≤ e' by omega)
  rw [value_eq, value_eq, ← h1, ← h2, ← add_mul]
  unfold add
  dsimp only
  generalize mant s m e (Min.min e e') = a
  generalize mant s' m' e' (Min.min e e') = b
  split
  · next h =>
    have : (a : ℝ) + b = 0 := by exact_mod_cast h
    rw [this, zero_mul]
    exact rounded_zero _
  · have := roundScaled_rounded (decide (a + b < 0)) (n := (a + b).natAbs) (d := 1) (by norm_num) (Min.min e e')
    rw [Nat.cast_one, div_one, ← mul_assoc, sgn_natAbs] at this
    push_cast at this
    exact this

theorem mul_rounded (s s' : Bool) (m m' : ℕ) (e e' : ℤ) :
    Rounded (value (fin s m e) * value (fin s' m' e')) (mul (fin s m e) (fin s' m' e')) := by
  have := roundScaled_rounded (s != s') (n := m * m') (d := 1) (by norm_num) (e + e')
  rw [Nat.cast_one, div_one, sgn_mul, zpow_add₀ (by norm_num)] at this
  push_cast at this
  rw [value_eq, value_eq, val, val, show sgn s * (m * (2 : ℝ) ^ e) * (sgn s' * (m' * 2 ^ e')) =
    sgn s * sgn s' * (m * m' * (2 ^ e * 2 ^ e')) by ring]
  exact this

theorem div_rounded (s s' : Bool) (m m' : ℕ) (e e' : ℤ) (h : m' ≠ 0) :
    Rounded (value (fin s m e) / value (fin s' m' e')) (div (fin s m e) (fin s' m' e')) := by
  have := roundScaled_rounded (s != s') (n := m) (d := m') (Nat.pos_of_ne_zero h) (e - e')
  rw [sgn_mul, zpow_sub₀ (by norm_num)] at this
  have hs : sgn s' ≠ 0 := by cases s' <;> norm_num [sgn]
  have hm : (m' : ℝ) ≠ 0 := by exact_mod_cast h
  have hp := (two_zpow_pos e').ne'
  rw [value_eq, value_eq, val, val, show sgn s * (m * (2 : ℝ) ^ e) / (sgn s' * (m' * 2 ^ e')) =
    sgn s * sgn s' * (m / m' * (2 ^ e / 2 ^ e')) by
      rw [div_eq_iff (by positivity)]
      field_simp
      rw [pow_two, sgn_sq]
      ring]
  unfold div
  dsimp only
  rw [if_neg h]
  exact this

/-- Between two integers, far enough from the last digit, rounding does not change. -/
theorem even_between {r : ℕ} {ρ : ℝ} {j L e : ℤ} (hr : 2 ^ 64 ≤ r) (h1 : r < ρ) (h2 : ρ < r + 1)
    (hL : (2 : ℝ) ^ L ≤ (r + 1 / 2) * 2 ^ j) (hU : (r + 1 / 2) * (2 : ℝ) ^ j < 2 ^ (L + 1)) (he : L - 52 ≤ e) {q : ℕ}
    (hq : Even ((r + 1 / 2) * 2 ^ j / 2 ^ e) q) :
    (2 : ℝ) ^ L ≤ ρ * 2 ^ j ∧ ρ * (2 : ℝ) ^ j < 2 ^ (L + 1) ∧ Even (ρ * 2 ^ j / 2 ^ e) q := by
  have hp := two_zpow_pos j
  have hrr : (2 : ℝ) ^ (64 : ℕ) ≤ r := by exact_mod_cast hr
  have hlj : j + 64 ≤ L := by
    by_contra hc
    have a1 : (2 : ℝ) ^ (L + 1) ≤ 2 ^ (((64 : ℕ) : ℤ) + j) := zpow_le_zpow_right₀ (by norm_num) (by push_cast; omega)
    rw [zpow_add₀ (by norm_num) ((64 : ℕ) : ℤ) j, zpow_natCast] at a1
    have a2 := mul_le_mul_of_nonneg_right hrr hp.le
    have a3 : (r + 1 / 2) * (2 : ℝ) ^ j = r * 2 ^ j + 1 / 2 * 2 ^ j := by ring
    linarith
  obtain ⟨k, hk⟩ : ∃ k : ℕ, L = k + j := ⟨(L - j).toNat, by omega⟩
  obtain ⟨i, hi⟩ : ∃ i : ℕ, e = i + 1 + j := ⟨(e - j - 1).toNat, by omega⟩
  have p1 : (2 : ℝ) ^ L = ((2 ^ k : ℕ) : ℝ) * 2 ^ j := by
    rw [hk, zpow_add₀ (by norm_num), zpow_natCast]; norm_num
  have p2 : (2 : ℝ) ^ (L + 1) = ((2 ^ (k + 1) : ℕ) : ℝ) * 2 ^ j := by
    rw [hk, show (k : ℤ) + j + 1 = ((k + 1 : ℕ) : ℤ) + j by push_cast; ring, zpow_add₀ (by norm_num), zpow_natCast]; norm_num
  have p3 : (2 : ℝ) ^ e = 2 * ((2 ^ i : ℕ) : ℝ) * 2 ^ j := by
    rw [hi, show (i : ℤ) + 1 + j = ((i + 1 : ℕ) : ℤ) + j by push_cast; ring, zpow_add₀ (by norm_num), zpow_natCast, pow_succ]
    push_cast
    ring
  rw [p1] at hL ⊢
  rw [p2] at hU ⊢
  rw [p3] at hq ⊢
  have hL' := le_of_mul_le_mul_right hL hp
  have hU' := lt_of_mul_lt_mul_right hU hp.le
  have hH : (0 : ℝ) < ((2 ^ i : ℕ) : ℝ) := by positivity
  have hdiv : ∀ c : ℝ, c * 2 ^ j / (2 * ((2 ^ i : ℕ) : ℝ) * 2 ^ j) = c / (2 * ((2 ^ i : ℕ) : ℝ)) := by
    intro c
    rw [mul_div_mul_right _ _ hp.ne']
  rw [hdiv] at hq ⊢
  generalize 2 ^ k = P at *
  generalize 2 ^ (k + 1) = P' at *
  generalize 2 ^ i = H at *
  have i1 : P ≤ r := by
    have : (P : ℝ) < r + 1 := by linarith
    have : P < r + 1 := by exact_mod_cast this
    omega
  have i2 : r + 1 ≤ P' := by
    have : (r : ℝ) < P' := by linarith
    have : r < P' := by exact_mod_cast this
    omega
  have i1' : (P : ℝ) ≤ r := by exact_mod_cast i1
  have i2' : (r : ℝ) + 1 ≤ P' := by exact_mod_cast i2
  have hq1 := abs_le.1 hq.1
  have i3 : (r : ℝ) + 1 ≤ 2 * H * q + H := by
    have a1 : (r + 1 / 2 : ℝ) / (2 * H) ≤ q + 1 / 2 := by linarith
    rw [div_le_iff₀ (by positivity)] at a1
    have a2 : (r : ℝ) < ((2 * H * q + H : ℕ) : ℝ) := by push_cast; linarith
    have a3 : r < 2 * H * q + H := by exact_mod_cast a2
    have a4 : ((r + 1 : ℕ) : ℝ) ≤ ((2 * H * q + H : ℕ) : ℝ) := Nat.cast_le.2 a3
    push_cast at a4
    linarith
  have i4 : 2 * (H : ℝ) * q ≤ r + H := by
    have a1 : (q - 1 / 2 : ℝ) ≤ (r + 1 / 2) / (2 * H) := by linarith
    rw [le_div_iff₀ (by positivity)] at a1
    have a2 : ((2 * H * q : ℕ) : ℝ) < ((r + H + 1 : ℕ) : ℝ) := by push_cast; linarith
    have a3 : 2 * H * q < r + H + 1 := by exact_mod_cast a2
    have a4 : ((2 * H * q : ℕ) : ℝ) ≤ ((r + H : ℕ) : ℝ) := Nat.cast_le.2 (by omega)
    push_cast at a4
    linarith
  have i5 : |ρ / (2 * H) - q| < 1 / 2 := by
    rw [abs_lt]
    constructor
    · rw [lt_sub_iff_add_lt, lt_div_iff₀ (by positivity)]
      linarith
    · rw [sub_lt_iff_lt_add, div_lt_iff₀ (by positivity)]
      linarith
  exact ⟨mul_le_mul_of_nonneg_right (by linarith) hp.le, mul_lt_mul_of_pos_right (by linarith) hp, i5.le,
    fun h => absurd h i5.ne⟩

theorem sqrt_rounded (m : ℕ) (e : ℤ) (hm : m < 2 ^ 53) (hm0 : m ≠ 0) :
    Rounded (√(value (fin false m e))) (sqrt (fin false m e)) := by
  have hval : val (fin false m e) = m * 2 ^ e := by simp [val, sgn]
  rw [value_eq, hval]
  unfold sqrt
  dsimp only
  rw [if_neg hm0, if_neg (by decide)]
  generalize hk : (if e % 2 = 0 then 128 else 129 : ℕ) = k
  have hk2 : (k = 128 ∧ e % 2 = 0) ∨ (k = 129 ∧ e % 2 = 1) := by
    split at hk
    · left; omega
    · right; omega
  have hkle : k ≤ 129 := by omega
  have hkge : 128 ≤ k := by omega
  generalize hn : m * 2 ^ k = n
  have hnlt : n < 2 ^ 92 * 2 ^ 92 := by
    rw [← hn]
    calc m * 2 ^ k < 2 ^ 53 * 2 ^ k := by
          exact Nat.mul_lt_mul_of_pos_right hm (by positivity)
      _ ≤ 2 ^ 53 * 2 ^ 129 := Nat.mul_le_mul_left _ (Nat.pow_le_pow_right (by norm_num) hkle)
      _ ≤ _ := by norm_num
  have hnge : 2 ^ 64 * 2 ^ 64 ≤ n := by
    rw [← hn]
    calc 2 ^ 64 * 2 ^ 64 = 1 * 2 ^ 128 := by norm_num
      _ ≤ m * 2 ^ k := Nat.mul_le_mul (Nat.pos_of_ne_zero hm0) (Nat.pow_le_pow_right (by norm_num) hkge)
  obtain ⟨r1, r2⟩ := isqrt_spec n 92 0 (by omega) (by simpa using hnlt)
  generalize isqrt n 92 0 = r at r1 r2
  have hr : 2 ^ 64 ≤ r := by
    by_contra hc
    have : (r + 1) * (r + 1) ≤ 2 ^ 64 * 2 ^ 64 := Nat.mul_le_mul (by omega) (by omega)
    omega
  obtain ⟨j, hj⟩ : ∃ j : ℤ, e - k = 2 * j := ⟨(e - k) / 2, by omega⟩
  have hj' : (e - (k : ℤ)) / 2 = j := by omega
  rw [hj']
  have hroot : √((m : ℝ) * 2 ^ e) = √(n : ℝ) * 2 ^ j := by
    have : (m : ℝ) * 2 ^ e = n * (2 ^ j) ^ 2 := by
      rw [← hn, ← zpow_natCast ((2 : ℝ) ^ j), ← zpow_mul, show e = (k : ℤ) + j * ((2 : ℕ) : ℤ) by push_cast; omega,
        zpow_add₀ (by norm_num), zpow_natCast]
      push_cast
      ring
    rw [this, Real.sqrt_mul (by positivity), Real.sqrt_sq (two_zpow_pos _).le]
  rw [hroot]
  have hhalf : (2 : ℝ) ^ (j - 1) = 2 ^ j / 2 := by rw [zpow_sub₀ (by norm_num), zpow_one]
  by_cases hex : r * r = n
  · rw [if_pos hex]
    have := roundScaled_rounded false (n := 2 * r + 0) (d := 1) (by norm_num) (j - 1)
    have hs : √(n : ℝ) = r := by
      rw [← hex]
      push_cast
      exact Real.sqrt_mul_self (by positivity)
    rw [hs]
    rw [show sgn false = 1 from rfl, one_mul, hhalf] at this
    push_cast at this
    rw [show ((2 * (r : ℝ) + 0) / 1 * (2 ^ j / 2)) = r * 2 ^ j by ring] at this
    exact this
  · rw [if_neg hex]
    have hr1 : (r : ℝ) < √n := by
      rw [Real.lt_sqrt (by positivity), pow_two]
      exact_mod_cast lt_of_le_of_ne r1 hex
    have hr2 : √(n : ℝ) < r + 1 := by
      rw [Real.sqrt_lt' (by positivity), pow_two]
      exact_mod_cast r2
    have heq : (((2 * r + 1) * 2 ^ (j - 1).toNat : ℕ) : ℝ) / (1 * 2 ^ (-(j - 1)).toNat : ℕ) = (r + 1 / 2) * 2 ^ j := by
      have := two_zpow (j - 1)
      push_cast
      rw [one_mul, mul_div_assoc, ← this, hhalf]
      ring
    unfold roundScaled
    obtain ⟨L, q, h1, h2, h3, h4⟩ := round_finish false (n := (2 * r + 1) * 2 ^ (j - 1).toNat)
      (d := 1 * 2 ^ (-(j - 1)).toNat) (by positivity) (by positivity)
    rw [heq] at h1 h2 h3
    obtain ⟨k1, k2, k3⟩ := even_between hr hr1 hr2 h1 h2 (by omega) h3
    rw [h4]
    have := finish_rounded k1 k2 rfl k3 false
    rwa [show sgn false = 1 from rfl, one_mul] at this

/-! ## There is one nearest number -/

theorem gap {m m' : ℕ} {e e' : ℤ} (hf : m < 2 ^ 53 ∧ -1074 ≤ e ∧ e ≤ 971 ∧ (2 ^ 52 ≤ m ∨ e = -1074))
    (hf' : m' < 2 ^ 53 ∧ -1074 ≤ e' ∧ e' ≤ 971 ∧ (2 ^ 52 ≤ m' ∨ e' = -1074)) (h : (m : ℝ) * 2 ^ e < m' * 2 ^ e')
    (hm' : m' % 2 = 0) (hm : m % 2 = 0) : ((m + 1 : ℕ) : ℝ) * 2 ^ e < m' * 2 ^ e' := by
  have hp := two_zpow_pos e
  by_cases he : e ≤ e'
  · obtain ⟨k, rfl⟩ : ∃ k : ℕ, e' = k + e := ⟨(e' - e).toNat, by omega⟩
    rw [zpow_add₀ (by norm_num), zpow_natCast, ← mul_assoc] at h ⊢
    have h1 := lt_of_mul_lt_mul_right h hp.le
    have h2 : m < m' * 2 ^ k := by exact_mod_cast h1
    have h3 : m' * 2 ^ k % 2 = 0 := by rw [Nat.mul_mod, hm']; simp
    have h4 : m + 1 < m' * 2 ^ k := by omega
    refine mul_lt_mul_of_pos_right ?_ hp
    exact_mod_cast h4
  · exfalso
    have h1 : 2 ^ 52 ≤ m := by omega
    have h2 : (2 : ℝ) ^ 52 ≤ m := by exact_mod_cast h1
    have h3 : (m' : ℝ) < 2 ^ 53 := by exact_mod_cast hf'.1
    have h4 : (2 : ℝ) ^ (e' + 1) ≤ 2 ^ e := zpow_le_zpow_right₀ (by norm_num) (by omega)
    rw [zpow_add₀ (by norm_num), zpow_one] at h4
    have h5 := mul_le_mul_of_nonneg_right h2 hp.le
    have h6 := mul_lt_mul_of_pos_right h3 (two_zpow_pos e')
    have h7 := mul_le_mul_of_nonneg_left h4 (show (0 : ℝ) ≤ 2 ^ 52 by positivity)
    have h8 : (2 : ℝ) ^ 52 * (2 ^ e' * 2) = 2 ^ 53 * 2 ^ e' := by ring
    linarith

theorem form_unique {m m' : ℕ} {e e' : ℤ} (hf : m < 2 ^ 53 ∧ -1074 ≤ e ∧ e ≤ 971 ∧ (2 ^ 52 ≤ m ∨ e = -1074))
    (hf' : m' < 2 ^ 53 ∧ -1074 ≤ e' ∧ e' ≤ 971 ∧ (2 ^ 52 ≤ m' ∨ e' = -1074)) (h : (m : ℝ) * 2 ^ e = m' * 2 ^ e') :
    m = m' ∧ e = e' := by
  have key : ∀ {m m' : ℕ} {e e' : ℤ}, (m < 2 ^ 53 ∧ -1074 ≤ e ∧ e ≤ 971 ∧ (2 ^ 52 ≤ m ∨ e = -1074)) →
      (m' < 2 ^ 53 ∧ -1074 ≤ e' ∧ e' ≤ 971 ∧ (2 ^ 52 ≤ m' ∨ e' = -1074)) → (m : ℝ) * 2 ^ e = m' * 2 ^ e' → e ≤ e' →
      m = m' ∧ e = e' := by
    intro m m' e e' hf hf' h he
    obtain ⟨k, rfl⟩ : ∃ k : ℕ, e' = k + e := ⟨(e' - e).toNat, by omega⟩
    rw [zpow_add₀ (by norm_num), zpow_natCast, ← mul_assoc] at h
    have h1 := mul_right_cancel₀ (two_zpow_pos e).ne' h
    have h2 : m = m' * 2 ^ k := by exact_mod_cast h1
    cases k with
    | zero => simpa using h2
    | succ k =>
      exfalso
      have h3 : 2 ^ 52 ≤ m' := by push_cast at hf'; omega
      have h4 : 2 ^ 52 * 2 ≤ m' * 2 ^ (k + 1) := Nat.mul_le_mul h3 (by rw [pow_succ]; have := Nat.one_le_two_pow (n := k); omega)
      omega
  rcases le_total e e' with he | he
  · exact key hf hf' h he
  · obtain ⟨h1, h2⟩ := key hf' hf h.symm he
    exact ⟨h1.symm, h2.symm⟩

theorem rounded_unique {v : ℝ} (hv : v ≠ 0) {r r' : F64} (h : Rounded v r) (h' : Rounded v r') : r = r' := by
  match r, r', h, h' with
  | .inf s, .inf s', ⟨_, h2⟩, ⟨_, h2'⟩ =>
    congr 1
    rw [Bool.eq_iff_iff, h2, h2']
  | .inf _, .fin .., ⟨h1, _⟩, ⟨h1', _⟩ => exact absurd h1 (not_le.2 h1')
  | .fin .., .inf _, ⟨h1, _⟩, ⟨h1', _⟩ => exact absurd h1' (not_le.2 h1)
  | .fin s m e, .fin s' m' e', ⟨_, hf, p1, n1, c1⟩, ⟨_, hf', p2, n2, c2⟩ =>
    have hs : s = s' := by
      rcases lt_or_gt_of_ne hv with h | h
      · rw [n1 h, n2 h]
      · rw [p1 h, p2 h]
    subst hs
    have k1 := c1 _ hf'
    have k2 := c2 _ hf
    have heq := le_antisymm k1.1 k2.1
    have pos : ∀ (m : ℕ) (e : ℤ), |v - value (.fin s m e)| = |(|v|) - m * 2 ^ e| := by
      intro m e
      have hv2 : v = sgn s * |v| := by
        rcases lt_or_gt_of_ne hv with h | h
        · rw [n1 h, abs_of_neg h]; simp [sgn]
        · rw [p1 h, abs_of_pos h]; simp [sgn]
      rw [value_eq, val]
      conv => lhs; rw [hv2]
      rw [← mul_sub, abs_mul, abs_sgn, one_mul]
    by_cases hval : (m : ℝ) * 2 ^ e = m' * 2 ^ e'
    · obtain ⟨rfl, rfl⟩ := form_unique hf hf' hval
      rfl
    · exfalso
      have hval' : value (.fin s m e) ≠ value (.fin s m' e') := by
        rw [value_eq, value_eq, val, val]
        intro h
        have hs : sgn s ≠ 0 := by cases s <;> norm_num [sgn]
        exact hval (mul_left_cancel₀ hs h)
      have e1 : m % 2 = 0 := (k1.2 heq).resolve_left fun h => hval' h.symm
      have e2 : m' % 2 = 0 := (k2.2 heq.symm).resolve_left hval'
      rw [pos, pos] at heq
      have key : ∀ {m m' : ℕ} {e e' : ℤ}, (m < 2 ^ 53 ∧ -1074 ≤ e ∧ e ≤ 971 ∧ (2 ^ 52 ≤ m ∨ e = -1074)) →
          (m' < 2 ^ 53 ∧ -1074 ≤ e' ∧ e' ≤ 971 ∧ (2 ^ 52 ≤ m' ∨ e' = -1074)) → m % 2 = 0 → m' % 2 = 0 →
          |(|v|) - m * 2 ^ e| = |(|v|) - m' * 2 ^ e'| → (m : ℝ) * 2 ^ e < m' * 2 ^ e' →
          (∀ y, IsFinite y → |v - value (.fin s m e)| ≤ |v - value y|) → False := by
        intro m m' e e' hf hf' e1 e2 heq hlt hc
        have g := gap hf hf' hlt e2 e1
        have h1 := hc (.fin s (m + 1) e) ⟨by omega, hf.2.1, hf.2.2.1, by omega⟩
        rw [pos, pos] at h1
        have g0 : (m : ℝ) * 2 ^ e < ((m + 1 : ℕ) : ℝ) * 2 ^ e :=
          mul_lt_mul_of_pos_right (by push_cast; linarith) (two_zpow_pos e)
        generalize ((m + 1 : ℕ) : ℝ) * 2 ^ e = z at *
        generalize (m : ℝ) * 2 ^ e = x at *
        generalize (m' : ℝ) * 2 ^ e' = y at *
        rcases abs_eq_abs.1 heq with h2 | h2
        · linarith
        · have h3 : |(|v|) - x| = (y - x) / 2 := by
            rw [abs_of_nonneg (by linarith)]
            linarith
          have h4 : |(|v|) - z| < (y - x) / 2 := by
            rw [abs_lt]
            constructor <;> linarith
          linarith
      rcases lt_or_gt_of_ne hval with h | h
      · exact key hf hf' e1 e2 heq h fun y hy => (c1 y hy).1
      · exact key hf' hf e2 e1 heq.symm h fun y hy => (c2 y hy).1

end Ase.F64
