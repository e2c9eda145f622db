import Verif.Lemmas.F64Exact

/-! # Relative rounding errors -/

namespace Ase.F64

/-- Rounding a number that is neither too small nor too large: the relative error, and a bound for the exponent. -/
theorem round_rel (neg : Bool) {n d : ℕ} (hn : 0 < n) (hd : 0 < d) (hlo' : (2 : ℝ) ^ (-900 : ℤ) ≤ n / d)
    (hle : (n : ℝ) / d ≤ 2 ^ (900 : ℤ)) :
    ∃ m e, round neg n d = fin neg m e ∧ m < 2 ^ 53 ∧ |(m : ℝ) * 2 ^ e - n / d| ≤ n / d * 2 ^ (-52 : ℤ) ∧
      (n : ℝ) / d < 2 ^ (e + 53) := by
  unfold round
  rw [if_neg hn.ne']
  obtain ⟨hlo, hup⟩ := ilog_spec hn hd
  have hl : ilog n d ≤ 900 := by
    by_contra hc
    have h1 : (2 : ℝ) ^ (901 : ℤ) ≤ 2 ^ ilog n d := zpow_le_zpow_right₀ (by norm_num) (by omega)
    have h2 : (2 : ℝ) ^ (900 : ℤ) < 2 ^ (901 : ℤ) := zpow_lt_zpow_right₀ (by norm_num) (by omega)
    exact absurd (h2.trans_le (h1.trans (hlo.trans hle))) (lt_irrefl _)
  have hl' : -901 ≤ ilog n d := by
    by_contra hc
    have h1 : (2 : ℝ) ^ (ilog n d + 1) ≤ 2 ^ (-901 : ℤ) := zpow_le_zpow_right₀ (by norm_num) (by omega)
    have h2 : (2 : ℝ) ^ (-901 : ℤ) < 2 ^ (-900 : ℤ) := zpow_lt_zpow_right₀ (by norm_num) (by omega)
    exact absurd (hup.trans_le (h1.trans (h2.le.trans hlo'))) (lt_irrefl _)
  dsimp only
  have he : Max.max (ilog n d - 52) (-1074 : ℤ) = ilog n d - 52 := by omega
  rw [he]
  generalize he : ilog n d - 52 = e
  have he2 : ilog n d + 1 ≤ e + 53 := by omega
  have hdr : (0 : ℝ) < d := by exact_mod_cast hd
  have hb : 0 < d * 2 ^ e.toNat := by positivity
  have hab : ((n * 2 ^ (-e).toNat : ℕ) : ℝ) / (d * 2 ^ e.toNat : ℕ) = n / d / 2 ^ e := by
    rw [two_zpow]
    push_cast
    field_simp
  have hte := tiesToEven_spec (a := n * 2 ^ (-e).toNat) hb
  rw [hab] at hte
  have hlt : (n : ℝ) / d < 2 ^ (e + 53) := hup.trans_le (zpow_le_zpow_right₀ (by norm_num) he2)
  have hdivlt : n * 2 ^ (-e).toNat / (d * 2 ^ e.toNat) < 2 ^ 53 := by
    rw [Nat.div_lt_iff_lt_mul hb]
    have : ((n * 2 ^ (-e).toNat : ℕ) : ℝ) / (d * 2 ^ e.toNat : ℕ) < 2 ^ 53 := by
      rw [hab, div_lt_iff₀ (two_zpow_pos e)]
      calc (n : ℝ) / d < 2 ^ (e + 53) := hlt
        _ = 2 ^ 53 * 2 ^ e := by rw [zpow_add₀ (by norm_num), mul_comm]; norm_num
    rw [div_lt_iff₀ (by exact_mod_cast hb)] at this
    exact_mod_cast this
  generalize tiesToEven (n * 2 ^ (-e).toNat / (d * 2 ^ e.toNat)) (n * 2 ^ (-e).toNat % (d * 2 ^ e.toNat))
    (d * 2 ^ e.toNat) = q at hte
  have herr : |(q : ℝ) * 2 ^ e - n / d| ≤ n / d * 2 ^ (-52 : ℤ) := by
    have hp := two_zpow_pos e
    have : (q : ℝ) * 2 ^ e - n / d = (q - n / d / 2 ^ e) * 2 ^ e := by field_simp
    rw [this, abs_mul, abs_of_pos hp]
    calc |(q : ℝ) - n / d / 2 ^ e| * 2 ^ e ≤ 1 / 2 * 2 ^ e := by
          exact mul_le_mul_of_nonneg_right hte.1 hp.le
      _ ≤ 2 ^ e := by linarith
      _ = 2 ^ ilog n d * 2 ^ (-52 : ℤ) := by rw [← he, ← zpow_add₀ (by norm_num)]; rfl
      _ ≤ n / d * 2 ^ (-52 : ℤ) := mul_le_mul_of_nonneg_right hlo (two_zpow_pos _).le
  split
  · next hq =>
    rw [if_neg (by omega)]
    refine ⟨_, _, rfl, by norm_num, ?_, hlt.trans_le (zpow_le_zpow_right₀ (by norm_num) (by omega))⟩
    rw [hq] at herr
    rw [zpow_add₀ (by norm_num)]
    push_cast at herr ⊢
    rw [show (4503599627370496 : ℝ) * (2 ^ e * 2 ^ (1 : ℤ)) = 9007199254740992 * 2 ^ e by rw [zpow_one]; ring]
    exact herr
  · next hq =>
    rw [if_neg (by omega)]
    refine ⟨q, e, rfl, ?_, herr, hlt⟩
    have := hte.2
    omega

/-- `x` is `a` with a small relative error, and its last place is not much smaller. -/
def Rel (x : F64) (a : ℝ) : Prop :=
  ∃ s m e, x = fin s m e ∧ m < 2 ^ 53 ∧ |val x - a| ≤ |a| * 2 ^ (-52 : ℤ) ∧ |a| < 2 ^ (e + 53)

theorem roundScaled_rel (neg : Bool) {n d : ℕ} {e : ℤ} (hd : 0 < d) (hlo : (2 : ℝ) ^ (-900 : ℤ) ≤ n / d * 2 ^ e)
    (hle : (n : ℝ) / d * 2 ^ e ≤ 2 ^ (900 : ℤ)) : Rel (roundScaled neg n d e) (sgn neg * (n / d * 2 ^ e)) := by
  have heq : ((n * 2 ^ e.toNat : ℕ) : ℝ) / (d * 2 ^ (-e).toNat : ℕ) = n / d * 2 ^ e := by
    rw [two_zpow]
    push_cast
    have : (d : ℝ) ≠ 0 := by exact_mod_cast hd.ne'
    field_simp
  have hv0 : 0 < (n : ℝ) / d * 2 ^ e := (two_zpow_pos _).trans_le hlo
  have hn : 0 < n := by
    rcases Nat.eq_zero_or_pos n with h | h
    · rw [h] at hv0
      simp at hv0
    · exact h
  obtain ⟨m, e', h1, h2, h3, h4⟩ := round_rel neg (n := n * 2 ^ e.toNat) (d := d * 2 ^ (-e).toNat) (by positivity)
    (by positivity) (by rw [heq]; exact hlo) (by rw [heq]; exact hle)
  rw [heq] at h3 h4
  refine ⟨neg, m, e', h1, h2, ?_, ?_⟩
  · rw [roundScaled, h1, val, ← mul_sub, abs_mul, abs_mul, abs_sgn, one_mul, one_mul, abs_of_pos hv0]
    exact h3
  · rw [abs_mul, abs_sgn, one_mul, abs_of_pos hv0]
    exact h4

theorem rel_add {s s' : Bool} {m m' : ℕ} {e e' : ℤ} {a : ℝ} (ha : a = val (fin s m e) + val (fin s' m' e'))
    (hlo : (2 : ℝ) ^ (-900 : ℤ) ≤ |a|) (hle : |a| ≤ 2 ^ (900 : ℤ)) : Rel (add (fin s m e) (fin s' m' e')) a := by
  have hv : ((mant s m e (Min.min e e') + mant s' m' e' (Min.min e e') : ℤ) : ℝ) * 2 ^ (Min.min e e') = a := by
    rw [Int.cast_add, add_mul, mant_val _ _ (by omega), mant_val _ _ (by omega), ha]
  unfold add
  dsimp only
  change Rel (if mant s m e (Min.min e e') + mant s' m' e' (Min.min e e') = 0 then _ else _) _
  generalize mant s m e (Min.min e e') + mant s' m' e' (Min.min e e') = n at *
  have hn : n ≠ 0 := by
    rintro rfl
    rw [← hv, Int.cast_zero, zero_mul, abs_zero] at hlo
    exact absurd hlo (not_le.2 (two_zpow_pos _))
  rw [if_neg hn]
  have h4 := sgn_natAbs n
  have h5 : ((n.natAbs : ℕ) : ℝ) / (1 : ℕ) * 2 ^ (Min.min e e') = |a| := by
    rw [Nat.cast_one, div_one, Nat.cast_natAbs, Int.cast_abs, ← hv, abs_mul, abs_of_pos (two_zpow_pos _)]
  have := roundScaled_rel (decide (n < 0)) (n := n.natAbs) (d := 1) (e := Min.min e e') (by norm_num)
    (by rw [h5]; exact hlo) (by rw [h5]; exact hle)
  rw [Nat.cast_one, div_one, ← mul_assoc, h4, hv] at this
  exact this

theorem rel_mul {s s' : Bool} {m m' : ℕ} {e e' : ℤ} {a : ℝ} (ha : a = val (fin s m e) * val (fin s' m' e'))
    (hlo : (2 : ℝ) ^ (-900 : ℤ) ≤ |a|) (hle : |a| ≤ 2 ^ (900 : ℤ)) : Rel (mul (fin s m e) (fin s' m' e')) a := by
  have hv : sgn (s != s') * (((m * m' : ℕ) : ℝ) / (1 : ℕ) * 2 ^ (e + e')) = a := by
    rw [sgn_mul, ha, val, val, zpow_add₀ (by norm_num)]
    push_cast
    ring
  have habs : ((m * m' : ℕ) : ℝ) / (1 : ℕ) * 2 ^ (e + e') = |a| := by
    rw [← hv, abs_mul, abs_sgn, one_mul, abs_of_nonneg (mul_nonneg (by positivity) (two_zpow_pos _).le)]
  have := roundScaled_rel (s != s') (n := m * m') (d := 1) (e := e + e') (by norm_num)
    (by rw [habs]; exact hlo) (by rw [habs]; exact hle)
  rw [hv] at this
  exact this

theorem rel_div {s s' : Bool} {m m' : ℕ} {e e' : ℤ} {a : ℝ} (hy : val (fin s' m' e') ≠ 0)
    (ha : a = val (fin s m e) / val (fin s' m' e'))
    (hlo : (2 : ℝ) ^ (-900 : ℤ) ≤ |a|) (hle : |a| ≤ 2 ^ (900 : ℤ)) : Rel (div (fin s m e) (fin s' m' e')) a := by
  have hm' : m' ≠ 0 := by
    rintro rfl
    simp [val] at hy
  have hv : sgn (s != s') * ((m : ℝ) / m' * 2 ^ (e - e')) = a := by
    rw [sgn_mul, ha, val, val, zpow_sub₀ (by norm_num)]
    have hm'r : (m' : ℝ) ≠ 0 := by exact_mod_cast hm'
    have h2e := (two_zpow_pos e').ne'
    rcases s' with _ | _
    · simp only [sgn]
      field_simp
      simp
    · simp only [sgn]
      field_simp
      simp
  have habs : (m : ℝ) / m' * 2 ^ (e - e') = |a| := by
    rw [← hv, abs_mul, abs_sgn, one_mul, abs_of_nonneg (mul_nonneg (by positivity) (two_zpow_pos _).le)]
  unfold div
  dsimp only
  rw [if_neg hm']
  have := roundScaled_rel (s != s') (n := m) (d := m') (e := e - e') (Nat.pos_of_ne_zero hm')
    (by rw [habs]; exact hlo) (by rw [habs]; exact hle)
  rw [hv] at this
  exact this

/-- Two numbers differ by at least the smaller last place, or not at all. -/
theorem val_gap (s s' : Bool) (m m' : ℕ) {e e' f : ℤ} (he : f ≤ e) (he' : f ≤ e')
    (h : val (fin s m e) ≠ val (fin s' m' e')) : (2 : ℝ) ^ f ≤ |val (fin s m e) - val (fin s' m' e')| := by
  rw [← mant_val s m he, ← mant_val s' m' he'] at h ⊢
  rw [← sub_mul, ← Int.cast_sub, abs_mul, abs_of_pos (two_zpow_pos f), ← Int.cast_abs]
  have h1 : (1 : ℤ) ≤ |mant s m e f - mant s' m' e' f| := by
    apply Int.one_le_abs
    intro h0
    apply h
    rw [sub_eq_zero.1 h0]
  have h2 : (1 : ℝ) ≤ (|mant s m e f - mant s' m' e' f| : ℤ) := by exact_mod_cast h1
  exact le_mul_of_one_le_left (two_zpow_pos f).le h2

end Ase.F64
