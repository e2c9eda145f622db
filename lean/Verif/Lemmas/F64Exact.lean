import Verif.Lemmas.F64Real

/-! # Integers in `f64` arithmetic: sums, differences and products below `2^53` are exact -/

namespace Ase.F64

theorem round_exact (neg : Bool) {n d N : ℕ} (hd : 0 < d) (h : n = N * d) (hN : N < 2 ^ 53) :
    ∃ m e, round neg n d = fin neg m e ∧ m < 2 ^ 53 ∧ (m : ℝ) * 2 ^ e = N := by
  unfold round
  split
  · next h0 =>
    refine ⟨0, -1074, rfl, by norm_num, ?_⟩
    have : N = 0 := by
      rw [h0] at h
      rcases Nat.mul_eq_zero.1 h.symm with h | h
      · exact h
      · omega
    simp [this]
  · next hn =>
    obtain ⟨hlo, hup⟩ := ilog_spec (Nat.pos_of_ne_zero hn) hd
    have hdr : (0 : ℝ) < d := by exact_mod_cast hd
    have hq : (n : ℝ) / d = N := by
      rw [h]
      push_cast
      field_simp
    rw [hq] at hlo hup
    have hl : ilog n d ≤ 52 := by
      by_contra hc
      have h1 : (2 : ℝ) ^ (53 : ℤ) ≤ 2 ^ ilog n d := zpow_le_zpow_right₀ (by norm_num) (by omega)
      have h2 : (N : ℝ) < 2 ^ 53 := by exact_mod_cast hN
      have h3 : (2 : ℝ) ^ (53 : ℤ) = 2 ^ 53 := by norm_num
      linarith
    have hl0 : 0 ≤ ilog n d := by
      by_contra hc
      have h1 : (2 : ℝ) ^ (ilog n d + 1) ≤ 2 ^ (0 : ℤ) := zpow_le_zpow_right₀ (by norm_num) (by omega)
      have h2 : 1 ≤ N := by
        rcases Nat.eq_zero_or_pos N with h2 | h2
        · rw [h2, Nat.zero_mul] at h
          exact absurd h hn
        · exact h2
      have h3 : (1 : ℝ) ≤ N := by exact_mod_cast h2
      rw [zpow_zero] at h1
      linarith
    dsimp only
    have he : Max.max (ilog n d - 52) (-1074 : ℤ) = ilog n d - 52 := by omega
    rw [he]
    obtain ⟨k, hk⟩ := Int.eq_ofNat_of_zero_le (show 0 ≤ -(ilog n d - 52) by omega)
    have hk' : ilog n d - 52 = -(k : ℤ) := by omega
    have ht : (ilog n d - 52).toNat = 0 := by omega
    have ht' : (-(ilog n d - 52)).toNat = k := by omega
    have hdiv : n * 2 ^ k / (d * 2 ^ 0) = N * 2 ^ k := by
      rw [h, pow_zero, Nat.mul_one, show N * d * 2 ^ k = N * 2 ^ k * d by ring, Nat.mul_div_cancel _ hd]
    have hmod : n * 2 ^ k % (d * 2 ^ 0) = 0 := by
      rw [h, pow_zero, Nat.mul_one, show N * d * 2 ^ k = N * 2 ^ k * d by ring, Nat.mul_mod_left]
    rw [ht, ht', hdiv, hmod]
    have hb : 0 < d * 2 ^ 0 := by positivity
    have hte : tiesToEven (N * 2 ^ k) 0 (d * 2 ^ 0) = N * 2 ^ k := by
      unfold tiesToEven
      rw [if_neg]
      simp at hb ⊢
      omega
    rw [hte]
    have hlt : N * 2 ^ k < 2 ^ 53 := by
      have h1 : (N : ℝ) * 2 ^ k < 2 ^ 53 := by
        calc (N : ℝ) * 2 ^ k < 2 ^ (ilog n d + 1) * 2 ^ k := by gcongr
          _ = 2 ^ (53 : ℤ) := by
            rw [← zpow_natCast, ← zpow_add₀ (by norm_num)]
            congr 1
            omega
          _ = 2 ^ 53 := by norm_num
      exact_mod_cast h1
    rw [if_neg (by omega), if_neg (by omega)]
    refine ⟨_, _, rfl, hlt, ?_⟩
    rw [hk', zpow_neg, zpow_natCast]
    push_cast
    field_simp

theorem near_roundScaled_exact (neg : Bool) {n d N : ℕ} {e : ℤ} (hd : 0 < d) (h : (n : ℝ) / d * 2 ^ e = N)
    (hN : N < 2 ^ 53) : Near (roundScaled neg n d e) (sgn neg * N) 0 := by
  have hdr : (0 : ℝ) < d := by exact_mod_cast hd
  have heq : n * 2 ^ e.toNat = N * (d * 2 ^ (-e).toNat) := by
    have : (n : ℝ) * 2 ^ e.toNat = N * (d * 2 ^ (-e).toNat) := by
      rw [← h, two_zpow]
      field_simp
    exact_mod_cast this
  obtain ⟨m, e', h1, h2, h3⟩ := round_exact neg (d := d * 2 ^ (-e).toNat) (by positivity) heq hN
  refine ⟨neg, m, e', h1, h2, ?_⟩
  rw [roundScaled, h1, val, h3]
  simp

theorem sgn_natAbs (n : ℤ) : sgn (decide (n < 0)) * (n.natAbs : ℝ) = n := by
  have h1 : ((n.natAbs : ℕ) : ℝ) = |(n : ℝ)| := by rw [← Int.cast_abs, Nat.cast_natAbs]
  rw [h1]
  by_cases hn : n < 0
  · have : (n : ℝ) < 0 := by exact_mod_cast hn
    rw [decide_eq_true hn, abs_of_neg this]
    simp [sgn]
  · have : (0 : ℝ) ≤ n := by exact_mod_cast not_lt.1 hn
    rw [decide_eq_false hn, abs_of_nonneg this]
    simp [sgn]

theorem near_ofInt_exact {n : ℤ} (h : n.natAbs < 2 ^ 53) : Near (ofInt n) n 0 := by
  obtain ⟨m, e, h1, h2, h3⟩ := round_exact (decide (n < 0)) (d := 1) (by norm_num) (Nat.mul_one _).symm h
  refine ⟨_, m, e, h1, h2, ?_⟩
  rw [ofInt, h1, val, h3, sgn_natAbs]
  simp

theorem Near.exact {x : F64} {a : ℝ} (h : Near x a 0) : val x = a := by
  obtain ⟨_, _, _, _, _, h⟩ := h
  exact sub_eq_zero.1 (abs_eq_zero.1 (le_antisymm h (abs_nonneg _)))

theorem near_add_exact {x y : F64} {a b : ℤ} (hx : Near x a 0) (hy : Near y b 0) (h : (a + b).natAbs < 2 ^ 53) :
    Near (add x y) ((a + b : ℤ) : ℝ) 0 := by
  have hxv := hx.exact
  have hyv := hy.exact
  obtain ⟨s, m, e, rfl, hm, _⟩ := hx
  obtain ⟨s', m', e', rfl, hm', _⟩ := hy
  have hv : ((mant s m e (Min.min e e') + mant s' m' e' (Min.min e e') : ℤ) : ℝ) * 2 ^ (Min.min e e')
      = ((a + b : ℤ) : ℝ) := by
    rw [Int.cast_add, add_mul, mant_val _ _ (by omega), mant_val _ _ (by omega), hxv, hyv]
    push_cast
    ring
  unfold add
  dsimp only
  change Near (if mant s m e (Min.min e e') + mant s' m' e' (Min.min e e') = 0 then _ else _) _ _
  generalize mant s m e (Min.min e e') + mant s' m' e' (Min.min e e') = n at *
  split
  · next h0 =>
    refine ⟨_, _, _, rfl, by norm_num, ?_⟩
    rw [← hv, h0]
    simp [val]
  · have hp := two_zpow_pos (Min.min e e')
    have habs : ((n.natAbs : ℕ) : ℝ) / (1 : ℕ) * 2 ^ (Min.min e e') = ((a + b).natAbs : ℕ) := by
      rw [Nat.cast_one, div_one, Nat.cast_natAbs, Nat.cast_natAbs, Int.cast_abs, Int.cast_abs, ← hv, abs_mul,
        abs_of_pos hp]
    have h1 := near_roundScaled_exact (decide (n < 0)) (by norm_num) habs h
    refine h1.mono ?_
    have h2 : decide (n < 0) = decide (a + b < 0) := by
      apply decide_eq_decide.2
      have h3 : (n : ℝ) < 0 ↔ ((a + b : ℤ) : ℝ) < 0 := by
        rw [← hv]
        constructor
        · intro h; exact mul_neg_of_neg_of_pos h hp
        · intro h
          by_contra hc
          have := mul_nonneg (not_lt.1 hc) hp.le
          linarith
      constructor
      · intro h4; exact_mod_cast h3.1 (by exact_mod_cast h4)
      · intro h4; exact_mod_cast h3.2 (by exact_mod_cast h4)
    rw [h2, sgn_natAbs]
    simp

theorem near_sub_exact {x y : F64} {a b : ℤ} (hx : Near x a 0) (hy : Near y b 0) (h : (a - b).natAbs < 2 ^ 53) :
    Near (sub x y) ((a - b : ℤ) : ℝ) 0 := by
  have h1 : Near (neg y) ((-b : ℤ) : ℝ) 0 := by
    rw [Int.cast_neg]
    exact near_neg hy
  have := near_add_exact hx h1 h
  rw [show a + -b = a - b from rfl] at this
  exact this

theorem near_mul_exact {x y : F64} {a b : ℤ} (hx : Near x a 0) (hy : Near y b 0) (h : (a * b).natAbs < 2 ^ 53) :
    Near (mul x y) ((a * b : ℤ) : ℝ) 0 := by
  have hxv := hx.exact
  have hyv := hy.exact
  obtain ⟨s, m, e, rfl, hm, _⟩ := hx
  obtain ⟨s', m', e', rfl, hm', _⟩ := hy
  have hv : sgn (s != s') * (((m * m' : ℕ) : ℝ) / (1 : ℕ) * 2 ^ (e + e')) = ((a * b : ℤ) : ℝ) := by
    rw [Int.cast_mul, ← hxv, ← hyv, sgn_mul, val, val, zpow_add₀ (by norm_num)]
    push_cast
    ring
  have habs : ((m * m' : ℕ) : ℝ) / (1 : ℕ) * 2 ^ (e + e') = ((a * b).natAbs : ℕ) := by
    rw [Nat.cast_natAbs, Int.cast_abs, ← hv, abs_mul, abs_sgn, one_mul,
      abs_of_nonneg (mul_nonneg (by positivity) (two_zpow_pos _).le)]
  unfold mul
  dsimp only
  refine (near_roundScaled_exact (s != s') (by norm_num) habs h).mono ?_
  rw [← habs, hv]
  simp

end Ase.F64
