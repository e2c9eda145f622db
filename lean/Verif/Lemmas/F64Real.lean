import Mathlib.Analysis.Real.Sqrt
import Mathlib.Tactic.Linarith
import Mathlib.Tactic.NormNum
import Mathlib.Tactic.Positivity
import Mathlib.Tactic.FieldSimp
import Mathlib.Tactic.Ring
import Verif.Model.F64

/-!
# The `f64` operations as approximations of real arithmetic

For numbers up to `2^K` in size, every operation differs from the exact one by at most `2^(K-53)` (half a unit in the
last place of a number just below `2^(K+1)`).  The theorems without `K` in their name are the case `K = 10`.
-/

namespace Ase.F64

/-- The sign as a number. -/
noncomputable def sgn (s : Bool) : ℝ := if s then -1 else 1

/-- The real value of a finite number. -/
noncomputable def val : F64 → ℝ
  | fin s m e => sgn s * (m * (2 : ℝ) ^ e)
  | _ => 0

theorem sgn_mul (s s' : Bool) : sgn (s != s') = sgn s * sgn s' := by
  cases s <;> cases s' <;> simp [sgn]

theorem abs_sgn (s : Bool) : |sgn s| = 1 := by cases s <;> simp [sgn]

theorem sgn_sq (s : Bool) : sgn s * sgn s = 1 := by cases s <;> simp [sgn]

theorem two_zpow (k : ℤ) : (2 : ℝ) ^ k = (2 ^ k.toNat : ℝ) / (2 ^ (-k).toNat : ℝ) := by
  rcases le_total 0 k with h | h
  · obtain ⟨n, rfl⟩ := Int.eq_ofNat_of_zero_le h
    simp
  · obtain ⟨n, hn⟩ := Int.eq_ofNat_of_zero_le (Int.neg_nonneg.2 h)
    have : k = -(n : ℤ) := by omega
    subst this
    simp

theorem two_zpow_pos (k : ℤ) : (0 : ℝ) < 2 ^ k := zpow_pos (by norm_num) k

theorem ilog_spec {n d : ℕ} (hn : 0 < n) (hd : 0 < d) :
    (2 : ℝ) ^ ilog n d ≤ n / d ∧ (n : ℝ) / d < 2 ^ (ilog n d + 1) := by
  have hdr : (0 : ℝ) < d := by exact_mod_cast hd
  have h1 : (2 : ℝ) ^ n.log2 ≤ n := by exact_mod_cast Nat.log2_self_le (by omega)
  have h2 : (n : ℝ) < 2 ^ (n.log2 + 1) := by exact_mod_cast Nat.lt_log2_self
  have h3 : (2 : ℝ) ^ d.log2 ≤ d := by exact_mod_cast Nat.log2_self_le (by omega)
  have h4 : (d : ℝ) < 2 ^ (d.log2 + 1) := by exact_mod_cast Nat.lt_log2_self
  have hup : (n : ℝ) / d < 2 ^ ((n.log2 : ℤ) - d.log2 + 1) := by
    rw [div_lt_iff₀ hdr, show (n.log2 : ℤ) - d.log2 + 1 = ((n.log2 + 1 : ℕ) : ℤ) - ((d.log2 : ℕ) : ℤ) by push_cast; ring,
      zpow_sub₀ (by norm_num), zpow_natCast, zpow_natCast, div_mul_eq_mul_div, lt_div_iff₀ (by positivity)]
    calc (n : ℝ) * 2 ^ d.log2 < 2 ^ (n.log2 + 1) * 2 ^ d.log2 := by gcongr
      _ ≤ 2 ^ (n.log2 + 1) * d := by gcongr
  have hlo : (2 : ℝ) ^ ((n.log2 : ℤ) - d.log2 - 1) ≤ n / d := by
    rw [le_div_iff₀ hdr, show (n.log2 : ℤ) - d.log2 - 1 = ((n.log2 : ℕ) : ℤ) - ((d.log2 + 1 : ℕ) : ℤ) by push_cast; ring,
      zpow_sub₀ (by norm_num), zpow_natCast, zpow_natCast, div_mul_eq_mul_div, div_le_iff₀ (by positivity)]
    calc (2 : ℝ) ^ n.log2 * d ≤ n * d := by gcongr
      _ ≤ n * 2 ^ (d.log2 + 1) := by gcongr
  unfold ilog
  dsimp only
  generalize hk : (n.log2 : ℤ) - (d.log2 : ℤ) = k at *
  have hcmp : (n * 2 ^ (-k).toNat < d * 2 ^ k.toNat) ↔ (n : ℝ) / d < 2 ^ k := by
    rw [two_zpow, div_lt_div_iff₀ hdr (by positivity), mul_comm (2 ^ k.toNat : ℝ)]
    norm_cast
  split
  · next h =>
    rw [sub_add_cancel]
    exact ⟨hlo, hcmp.1 h⟩
  · next h => exact ⟨not_lt.1 fun hc => h (hcmp.2 hc), hup⟩

theorem tiesToEven_spec {a b : ℕ} (hb : 0 < b) :
    |(tiesToEven (a / b) (a % b) b : ℝ) - a / b| ≤ 1 / 2 ∧ tiesToEven (a / b) (a % b) b ≤ a / b + 1 := by
  have hbr : (0 : ℝ) < b := by exact_mod_cast hb
  have hdm : (a : ℝ) = b * (a / b : ℕ) + (a % b : ℕ) := by exact_mod_cast (Nat.div_add_mod a b).symm
  have hq : (a : ℝ) / b = (a / b : ℕ) + (a % b : ℕ) / b := by
    rw [hdm]
    field_simp
  have hr : (a % b : ℕ) < b := Nat.mod_lt _ hb
  rw [hq]
  unfold tiesToEven
  have h0 : (0 : ℝ) ≤ ((a % b : ℕ) : ℝ) / b := by positivity
  have h1 : ((a % b : ℕ) : ℝ) / b < 1 := by rw [div_lt_one hbr]; exact_mod_cast hr
  split
  · next h =>
    refine ⟨?_, le_refl _⟩
    have : (1 : ℝ) / 2 ≤ ((a % b : ℕ) : ℝ) / b := by
      rw [div_le_div_iff₀ (by norm_num) hbr]
      have : b ≤ 2 * (a % b) := by omega
      have : (b : ℝ) ≤ 2 * (a % b : ℕ) := by exact_mod_cast this
      linarith
    push_cast
    rw [abs_le]
    constructor <;> linarith
  · next h =>
    refine ⟨?_, Nat.le_succ _⟩
    have : ((a % b : ℕ) : ℝ) / b ≤ 1 / 2 := by
      rw [div_le_div_iff₀ hbr (by norm_num)]
      have : 2 * (a % b) ≤ b := by omega
      have : 2 * ((a % b : ℕ) : ℝ) ≤ b := by exact_mod_cast this
      linarith
    rw [abs_le]
    constructor <;> linarith

/-- Half a unit in the last place of a number just below `2 ^ (K + 1)`. -/
noncomputable def ulp (K : ℕ) : ℝ := 2 ^ ((K : ℤ) - 53)

theorem ulp_pos (K : ℕ) : 0 < ulp K := two_zpow_pos _

/-- Rounding is to within half a unit in the last place. -/
theorem round_spec (neg : Bool) {n d K : ℕ} (hK : K ≤ 1000) (hd : 0 < d) (hle : (n : ℝ) / d ≤ 2 ^ K) :
    ∃ m e, round neg n d = fin neg m e ∧ m < 2 ^ 53 ∧ |(m : ℝ) * 2 ^ e - n / d| ≤ ulp K := by
  unfold round
  split
  · next h => exact ⟨0, -1074, rfl, by norm_num, by subst h; simpa using (ulp_pos K).le⟩
  · next hn =>
    obtain ⟨hlo, hup⟩ := ilog_spec (Nat.pos_of_ne_zero hn) hd
    have hl : ilog n d ≤ K := by
      by_contra hc
      have h1 : (2 : ℝ) ^ ((K : ℤ) + 1) ≤ 2 ^ ilog n d := zpow_le_zpow_right₀ (by norm_num) (by omega)
      have h2 : (2 : ℝ) ^ (K : ℤ) < 2 ^ ((K : ℤ) + 1) := zpow_lt_zpow_right₀ (by norm_num) (by omega)
      rw [zpow_natCast] at h2
      linarith
    dsimp only
    generalize he : Max.max (ilog n d - 52) (-1074 : ℤ) = e
    have he1 : e ≤ (K : ℤ) - 52 := by omega
    have he2 : ilog n d + 1 ≤ e + 53 := by omega
    have hdr : (0 : ℝ) < d := by exact_mod_cast hd
    have hb : 0 < d * 2 ^ e.toNat := by positivity
    have hab : ((n * 2 ^ (-e).toNat : ℕ) : ℝ) / (d * 2 ^ e.toNat : ℕ) = n / d / 2 ^ e := by
      rw [two_zpow]
      push_cast
      field_simp
    have hte := tiesToEven_spec (a := n * 2 ^ (-e).toNat) hb
    rw [hab] at hte
    have hdivlt : n * 2 ^ (-e).toNat / (d * 2 ^ e.toNat) < 2 ^ 53 := by
      rw [Nat.div_lt_iff_lt_mul hb]
      have : ((n * 2 ^ (-e).toNat : ℕ) : ℝ) / (d * 2 ^ e.toNat : ℕ) < 2 ^ 53 := by
        rw [hab, div_lt_iff₀ (two_zpow_pos e)]
        calc (n : ℝ) / d < 2 ^ (ilog n d + 1) := hup
          _ ≤ 2 ^ (e + 53) := zpow_le_zpow_right₀ (by norm_num) he2
          _ = 2 ^ 53 * 2 ^ e := by rw [zpow_add₀ (by norm_num), mul_comm]; norm_num
      rw [div_lt_iff₀ (by exact_mod_cast hb)] at this
      exact_mod_cast this
    generalize tiesToEven (n * 2 ^ (-e).toNat / (d * 2 ^ e.toNat)) (n * 2 ^ (-e).toNat % (d * 2 ^ e.toNat))
      (d * 2 ^ e.toNat) = q at hte
    have herr : |(q : ℝ) * 2 ^ e - n / d| ≤ ulp K := by
      have hp := two_zpow_pos e
      have : (q : ℝ) * 2 ^ e - n / d = (q - n / d / 2 ^ e) * 2 ^ e := by field_simp
      rw [this, abs_mul, abs_of_pos hp]
      calc |(q : ℝ) - n / d / 2 ^ e| * 2 ^ e ≤ 1 / 2 * 2 ^ e := by
            exact mul_le_mul_of_nonneg_right hte.1 hp.le
        _ ≤ 1 / 2 * 2 ^ ((K : ℤ) - 52) := by
            exact mul_le_mul_of_nonneg_left (zpow_le_zpow_right₀ (by norm_num) he1) (by norm_num)
        _ = ulp K := by
            rw [ulp, show (K : ℤ) - 52 = (K : ℤ) - 53 + 1 by ring, zpow_add₀ (by norm_num)]
            norm_num
            ring
    split
    · next hq =>
      rw [if_neg (by omega)]
      refine ⟨_, _, rfl, by norm_num, ?_⟩
      rw [hq] at herr
      rw [zpow_add₀ (by norm_num)]
      push_cast at herr ⊢
      rw [show (4503599627370496 : ℝ) * (2 ^ e * 2 ^ (1 : ℤ)) = 9007199254740992 * 2 ^ e by rw [zpow_one]; ring]
      exact herr
    · next hq =>
      rw [if_neg (by omega)]
      refine ⟨q, e, rfl, ?_, herr⟩
      have := hte.2
      omega

/-- `x` is a finite number within `ε` of `a`. -/
def Near (x : F64) (a ε : ℝ) : Prop := ∃ s m e, x = fin s m e ∧ m < 2 ^ 53 ∧ |val x - a| ≤ ε

/-- The unit of error for numbers up to 1024. -/
noncomputable def u : ℝ := 2 ^ (-43 : ℤ)

theorem u_pos : 0 < u := two_zpow_pos _

theorem ulp_ten : ulp 10 = u := by norm_num [ulp, u]

theorem near_roundK (neg : Bool) {n d K : ℕ} (hK : K ≤ 1000) (hd : 0 < d) (hle : (n : ℝ) / d ≤ 2 ^ K) :
    Near (round neg n d) (sgn neg * (n / d)) (ulp K) := by
  obtain ⟨m, e, h1, h2, h3⟩ := round_spec neg hK hd hle
  refine ⟨neg, m, e, h1, h2, ?_⟩
  rw [h1, val, ← mul_sub, abs_mul, abs_sgn, one_mul]
  exact h3

theorem near_round (neg : Bool) {n d : ℕ} (hd : 0 < d) (hle : (n : ℝ) / d ≤ 1024) :
    Near (round neg n d) (sgn neg * (n / d)) u := by
  rw [← ulp_ten]
  exact near_roundK neg (by norm_num) hd (by norm_num; exact hle)

theorem near_roundScaledK (neg : Bool) {n d K : ℕ} {e : ℤ} (hK : K ≤ 1000) (hd : 0 < d)
    (hle : (n : ℝ) / d * 2 ^ e ≤ 2 ^ K) : Near (roundScaled neg n d e) (sgn neg * (n / d * 2 ^ e)) (ulp K) := by
  have heq : ((n * 2 ^ e.toNat : ℕ) : ℝ) / (d * 2 ^ (-e).toNat : ℕ) = n / d * 2 ^ e := by
    rw [two_zpow]
    push_cast
    have : (0 : ℝ) < d := by exact_mod_cast hd
    field_simp
  have := near_roundK neg (n := n * 2 ^ e.toNat) (d := d * 2 ^ (-e).toNat) hK (by positivity) (by rw [heq]; exact hle)
  rw [heq] at this
  exact this

theorem near_roundScaled (neg : Bool) {n d : ℕ} {e : ℤ} (hd : 0 < d) (hle : (n : ℝ) / d * 2 ^ e ≤ 1024) :
    Near (roundScaled neg n d e) (sgn neg * (n / d * 2 ^ e)) u := by
  rw [← ulp_ten]
  exact near_roundScaledK neg (by norm_num) hd (by norm_num; exact hle)

theorem Near.mono {x : F64} {a b ε δ : ℝ} (h : Near x a ε) (hd : |a - b| + ε ≤ δ) : Near x b δ := by
  obtain ⟨s, m, e, h1, h2, h3⟩ := h
  refine ⟨s, m, e, h1, h2, ?_⟩
  calc |val x - b| = |(val x - a) + (a - b)| := by ring_nf
    _ ≤ |val x - a| + |a - b| := abs_add_le _ _
    _ ≤ δ := by linarith

theorem Near.abs_le {x : F64} {a ε : ℝ} (h : Near x a ε) : |val x| ≤ |a| + ε := by
  obtain ⟨s, m, e, h1, h2, h3⟩ := h
  calc |val x| = |(val x - a) + a| := by ring_nf
    _ ≤ |val x - a| + |a| := abs_add_le _ _
    _ ≤ |a| + ε := by linarith

theorem near_ofInt {n : ℤ} (h : |(n : ℝ)| ≤ 1024) : Near (ofInt n) n u := by
  have h1 : ((n.natAbs : ℕ) : ℝ) = |(n : ℝ)| := by
    rw [← Int.cast_abs, Nat.cast_natAbs]
  have := near_round (decide (n < 0)) (n := n.natAbs) (d := 1) (by norm_num) (by rw [Nat.cast_one, div_one, h1]; exact h)
  rw [Nat.cast_one, div_one, h1] at this
  refine this.mono ?_
  have : sgn (decide (n < 0)) * |(n : ℝ)| = n := by
    by_cases hn : n < 0
    · have : (n : ℝ) < 0 := by exact_mod_cast hn
      rw [decide_eq_true hn, abs_of_neg this]
      simp [sgn]
    · have : (0 : ℝ) ≤ n := by exact_mod_cast not_lt.1 hn
      rw [decide_eq_false hn, abs_of_nonneg this]
      simp [sgn]
  rw [this]
  simp

theorem mant_val (s : Bool) (m : ℕ) {e f : ℤ} (h : f ≤ e) : (mant s m e f : ℝ) * 2 ^ f = val (fin s m e) := by
  have : (2 : ℝ) ^ e = 2 ^ (e - f).toNat * 2 ^ f := by
    rw [← zpow_natCast, ← zpow_add₀ (by norm_num)]
    congr 1
    omega
  unfold mant val
  dsimp only
  rw [this]
  cases s
  · simp [sgn]
    ring
  · simp [sgn]
    ring

theorem near_addK {x y : F64} {a b ε δ : ℝ} {K : ℕ} (hK : K ≤ 1000) (hx : Near x a ε) (hy : Near y b δ)
    (h : |a + b| + ε + δ ≤ 2 ^ K) : Near (add x y) (a + b) (ε + δ + ulp K) := by
  obtain ⟨s, m, e, rfl, hm, h1⟩ := hx
  obtain ⟨s', m', e', rfl, hm', h2⟩ := hy
  have hv : ∀ f : ℤ, f = Min.min e e' → ((mant s m e f + mant s' m' e' f : ℤ) : ℝ) * 2 ^ f
      = val (fin s m e) + val (fin s' m' e') := by
    intro f hf
    rw [Int.cast_add, add_mul, mant_val _ _ (by omega), mant_val _ _ (by omega)]
  have herr : |val (fin s m e) + val (fin s' m' e') - (a + b)| ≤ ε + δ := by
    calc |val (fin s m e) + val (fin s' m' e') - (a + b)|
        = |(val (fin s m e) - a) + (val (fin s' m' e') - b)| := by ring_nf
      _ ≤ _ := (abs_add_le _ _).trans (by linarith)
  have habs : |val (fin s m e) + val (fin s' m' e')| ≤ 2 ^ K := by
    calc |val (fin s m e) + val (fin s' m' e')|
        = |(val (fin s m e) + val (fin s' m' e') - (a + b)) + (a + b)| := by ring_nf
      _ ≤ _ := (abs_add_le _ _).trans (by linarith)
  have hv := hv _ rfl
  unfold add
  dsimp only
  change Near (if mant s m e (Min.min e e') + mant s' m' e' (Min.min e e') = 0 then _ else _) _ _
  generalize mant s m e (Min.min e e') + mant s' m' e' (Min.min e e') = n at *
  split
  · next h0 =>
    refine ⟨_, _, _, rfl, by norm_num, ?_⟩
    rw [h0] at hv
    have hu := ulp_pos K
    have : val (fin (s && s') 0 (-1074)) = val (fin s m e) + val (fin s' m' e') := by
      rw [← hv]
      simp [val]
    rw [this]
    linarith
  · next h0 =>
    have h3 : ((n.natAbs : ℕ) : ℝ) = |(n : ℝ)| := by rw [← Int.cast_abs, Nat.cast_natAbs]
    have h4 : sgn (decide (n < 0)) * |(n : ℝ)| = n := by
      by_cases hn : n < 0
      · have : (n : ℝ) < 0 := by exact_mod_cast hn
        rw [decide_eq_true hn, abs_of_neg this]
        simp [sgn]
      · have : (0 : ℝ) ≤ n := by exact_mod_cast not_lt.1 hn
        rw [decide_eq_false hn, abs_of_nonneg this]
        simp [sgn]
    have h5 : |(n : ℝ)| * 2 ^ (Min.min e e') = |(n : ℝ) * 2 ^ (Min.min e e')| := by
      rw [abs_mul, abs_of_pos (two_zpow_pos _)]
    have := near_roundScaledK (decide (n < 0)) (n := n.natAbs) (d := 1) (e := Min.min e e') hK (by norm_num) (by
      rw [Nat.cast_one, div_one, h3, h5, hv]
      exact habs)
    rw [Nat.cast_one, div_one, h3, ← mul_assoc, h4, hv] at this
    exact this.mono (by linarith)

theorem near_add {x y : F64} {a b ε δ : ℝ} (hx : Near x a ε) (hy : Near y b δ) (h : |a + b| + ε + δ ≤ 1024) :
    Near (add x y) (a + b) (ε + δ + u) := by
  rw [← ulp_ten]
  exact near_addK (by norm_num) hx hy (by norm_num; exact h)

theorem near_neg {x : F64} {a ε : ℝ} (hx : Near x a ε) : Near (neg x) (-a) ε := by
  obtain ⟨s, m, e, rfl, hm, h1⟩ := hx
  refine ⟨!s, m, e, rfl, hm, ?_⟩
  have : val (neg (fin s m e)) = -val (fin s m e) := by cases s <;> simp [neg, val, sgn]
  rw [this, show -val (fin s m e) - -a = -(val (fin s m e) - a) by ring, abs_neg]
  exact h1

theorem near_subK {x y : F64} {a b ε δ : ℝ} {K : ℕ} (hK : K ≤ 1000) (hx : Near x a ε) (hy : Near y b δ)
    (h : |a - b| + ε + δ ≤ 2 ^ K) : Near (sub x y) (a - b) (ε + δ + ulp K) := by
  rw [sub_eq_add_neg]
  exact near_addK hK hx (near_neg hy) (by rw [← sub_eq_add_neg]; exact h)

theorem near_sub {x y : F64} {a b ε δ : ℝ} (hx : Near x a ε) (hy : Near y b δ) (h : |a - b| + ε + δ ≤ 1024) :
    Near (sub x y) (a - b) (ε + δ + u) := by
  rw [sub_eq_add_neg]
  exact near_add hx (near_neg hy) (by rw [← sub_eq_add_neg]; exact h)

theorem near_mulK {x y : F64} {a b ε δ A B : ℝ} {K : ℕ} (hK : K ≤ 1000) (hx : Near x a ε) (hy : Near y b δ)
    (ha : |a| ≤ A) (hb : |b| ≤ B) (hε : 0 ≤ ε) (h : (A + ε) * (B + δ) ≤ 2 ^ K) :
    Near (mul x y) (a * b) (ε * (B + δ) + A * δ + ulp K) := by
  have hxa := hx.abs_le
  have hyb := hy.abs_le
  obtain ⟨s, m, e, rfl, hm, h1⟩ := hx
  obtain ⟨s', m', e', rfl, hm', h2⟩ := hy
  have hv : sgn (s != s') * (((m * m' : ℕ) : ℝ) / (1 : ℕ) * 2 ^ (e + e')) = val (fin s m e) * val (fin s' m' e') := by
    rw [sgn_mul, val, val, zpow_add₀ (by norm_num)]
    push_cast
    ring
  have hle : |val (fin s m e) * val (fin s' m' e')| ≤ 2 ^ K := by
    rw [abs_mul]
    calc |val (fin s m e)| * |val (fin s' m' e')| ≤ (A + ε) * (B + δ) := by
          apply mul_le_mul (by linarith) (by linarith) (abs_nonneg _)
          have := abs_nonneg a
          linarith
      _ ≤ 2 ^ K := h
  have habs : ((m * m' : ℕ) : ℝ) / (1 : ℕ) * 2 ^ (e + e') = |val (fin s m e) * val (fin s' m' e')| := by
    rw [← hv, abs_mul, abs_sgn, one_mul, abs_of_nonneg (mul_nonneg (by positivity) (two_zpow_pos _).le)]
  unfold mul
  dsimp only
  have := near_roundScaledK (s != s') (n := m * m') (d := 1) (e := e + e') hK (by norm_num) (by rw [habs]; exact hle)
  rw [hv] at this
  refine this.mono ?_
  have e1 : val (fin s m e) * val (fin s' m' e') - a * b
      = (val (fin s m e) - a) * val (fin s' m' e') + a * (val (fin s' m' e') - b) := by ring
  have : |val (fin s m e) * val (fin s' m' e') - a * b| ≤ ε * (B + δ) + A * δ := by
    rw [e1]
    refine (abs_add_le _ _).trans ?_
    rw [abs_mul, abs_mul]
    have h3 : |val (fin s m e) - a| * |val (fin s' m' e')| ≤ ε * (B + δ) :=
      mul_le_mul h1 (by linarith) (abs_nonneg _) hε
    have h4 : |a| * |val (fin s' m' e') - b| ≤ A * δ := by
      apply mul_le_mul ha h2 (abs_nonneg _)
      exact (abs_nonneg a).trans ha
    linarith
  linarith

theorem near_mul {x y : F64} {a b ε δ A B : ℝ} (hx : Near x a ε) (hy : Near y b δ) (ha : |a| ≤ A) (hb : |b| ≤ B)
    (hε : 0 ≤ ε) (_hδ : 0 ≤ δ) (h : (A + ε) * (B + δ) ≤ 1024) : Near (mul x y) (a * b) (ε * (B + δ) + A * δ + u) := by
  rw [← ulp_ten]
  exact near_mulK (by norm_num) hx hy ha hb hε (by norm_num; exact h)

/-- Division, if the divisor is bounded away from zero. -/
theorem near_divK {x y : F64} {a c ε δ γ Q : ℝ} {K : ℕ} (hK : K ≤ 1000) (hx : Near x a ε) (hy : Near y c δ)
    (hγ : γ ≤ |c|) (hδγ : δ < γ) (hQ : |a / c| ≤ Q) (hε : 0 ≤ ε) (hδ : 0 ≤ δ)
    (h : Q + (ε + Q * δ) / (γ - δ) ≤ 2 ^ K) : Near (div x y) (a / c) ((ε + Q * δ) / (γ - δ) + ulp K) := by
  obtain ⟨s, m, e, rfl, hm, h2⟩ := hx
  obtain ⟨s', m', e', rfl, hmy, h3⟩ := hy
  have hγδ : 0 < γ - δ := by linarith
  have hyabs : γ - δ ≤ |val (fin s' m' e')| := by
    have h4 := abs_sub_abs_le_abs_sub c (val (fin s' m' e'))
    rw [abs_sub_comm] at h4
    linarith
  have hy0 : val (fin s' m' e') ≠ 0 := by
    intro h0
    rw [h0, abs_zero] at hyabs
    linarith
  have hc0 : c ≠ 0 := by
    intro h0
    rw [h0, abs_zero] at hγ
    linarith
  have hm' : m' ≠ 0 := by
    rintro rfl
    simp [val] at hy0
  have hv : sgn (s != s') * ((m : ℝ) / m' * 2 ^ (e - e')) = val (fin s m e) / val (fin s' m' e') := by
    rw [sgn_mul, val, val, zpow_sub₀ (by norm_num)]
    have hm'r : (m' : ℝ) ≠ 0 := by exact_mod_cast hm'
    have h2e := (two_zpow_pos e').ne'
    rcases s' with _ | _
    · simp only [sgn]
      field_simp
      simp
    · simp only [sgn]
      field_simp
      simp
  have herr : |val (fin s m e) / val (fin s' m' e') - a / c| ≤ (ε + Q * δ) / (γ - δ) := by
    have e1 : val (fin s m e) / val (fin s' m' e') - a / c
        = ((val (fin s m e) - a) - a / c * (val (fin s' m' e') - c)) / val (fin s' m' e') := by
      field_simp
      ring
    rw [e1, abs_div]
    have h4 : |(val (fin s m e) - a) - a / c * (val (fin s' m' e') - c)| ≤ ε + Q * δ := by
      refine (abs_sub _ _).trans (add_le_add h2 ?_)
      rw [abs_mul]
      exact mul_le_mul hQ h3 (abs_nonneg _) ((abs_nonneg _).trans hQ)
    have hQ0 : 0 ≤ Q := (abs_nonneg _).trans hQ
    exact div_le_div₀ (by positivity) h4 hγδ hyabs
  have hle : |val (fin s m e) / val (fin s' m' e')| ≤ 2 ^ K := by
    have h4 := abs_sub_abs_le_abs_sub (val (fin s m e) / val (fin s' m' e')) (a / c)
    linarith
  have habs : (m : ℝ) / m' * 2 ^ (e - e') = |val (fin s m e) / val (fin s' m' e')| := by
    rw [← hv, abs_mul, abs_sgn, one_mul, abs_of_nonneg (mul_nonneg (by positivity) (two_zpow_pos _).le)]
  unfold div
  dsimp only
  rw [if_neg hm']
  have := near_roundScaledK (s != s') (n := m) (d := m') (e := e - e') hK (Nat.pos_of_ne_zero hm') (by rw [habs]; exact hle)
  rw [hv] at this
  exact this.mono (by linarith)

/-- Division by a number that is given exactly. -/
theorem near_div {x : F64} {a ε c : ℝ} (hx : Near x a ε) {s' : Bool} {m' : ℕ} {e' : ℤ} (hm' : m' ≠ 0)
    (hc : val (fin s' m' e') = c) (h1 : 1 ≤ |c|) (h : |a| + ε ≤ 1024) : Near (div x (fin s' m' e')) (a / c) (ε + u) := by
  have hxa := hx.abs_le
  obtain ⟨s, m, e, rfl, hm, h2⟩ := hx
  have hc0 : c ≠ 0 := by intro h; rw [h] at h1; norm_num at h1
  have hv : sgn (s != s') * ((m : ℝ) / m' * 2 ^ (e - e')) = val (fin s m e) / c := by
    rw [← hc, sgn_mul, val, val, zpow_sub₀ (by norm_num)]
    have hm'r : (m' : ℝ) ≠ 0 := by exact_mod_cast hm'
    have hs' : sgn s' ≠ 0 := by intro h; have := sgn_sq s'; rw [h] at this; norm_num at this
    have h2e := (two_zpow_pos e').ne'
    rcases s' with _ | _
    · simp only [sgn]
      field_simp
      simp
    · simp only [sgn]
      field_simp
      simp
  have hle : |val (fin s m e) / c| ≤ 1024 := by
    rw [abs_div]
    exact (div_le_self (abs_nonneg _) h1).trans (by linarith)
  have habs : (m : ℝ) / m' * 2 ^ (e - e') = |val (fin s m e) / c| := by
    rw [← hv, abs_mul, abs_sgn, one_mul, abs_of_nonneg (mul_nonneg (by positivity) (two_zpow_pos _).le)]
  unfold div
  dsimp only
  rw [if_neg hm']
  have := near_roundScaled (s != s') (n := m) (d := m') (e := e - e') (Nat.pos_of_ne_zero hm') (by rw [habs]; exact hle)
  rw [hv] at this
  refine this.mono ?_
  have : |val (fin s m e) / c - a / c| ≤ ε := by
    rw [← sub_div, abs_div]
    exact (div_le_self (abs_nonneg _) h1).trans h2
  linarith

theorem isqrt_spec (n : ℕ) : ∀ k r, r * r ≤ n → n < (r + 2 ^ k) * (r + 2 ^ k) →
    isqrt n k r * isqrt n k r ≤ n ∧ n < (isqrt n k r + 1) * (isqrt n k r + 1) := by
  intro k
  induction k with
  | zero => intro r h1 h2; exact ⟨h1, by simpa [isqrt] using h2⟩
  | succ k ih =>
    intro r h1 h2
    rw [isqrt]
    split
    · next h =>
      refine ih _ h ?_
      rw [show r + 2 ^ k + 2 ^ k = r + 2 ^ (k + 1) by rw [pow_succ]; ring]
      exact h2
    · next h => exact ih _ h1 (not_le.1 h)

theorem near_sqrt {x : F64} {a ε : ℝ} (hx : Near x a ε) (ha : 1 / 4 ≤ a) (ha1 : a ≤ 1) (hε : ε ≤ 1 / 8) :
    Near (sqrt x) (√a) (2 * ε + 2 * u) := by
  obtain ⟨s, m, e, rfl, hm, h1⟩ := hx
  rw [abs_le] at h1
  have hv0 : 0 < val (fin s m e) := by linarith
  have hv2 : val (fin s m e) ≤ 2 := by linarith
  have hs : s = false := by
    cases s
    · rfl
    · exfalso
      simp only [val, sgn, if_true] at hv0
      have : (0 : ℝ) ≤ m * 2 ^ e := mul_nonneg (by positivity) (two_zpow_pos _).le
      linarith
  subst hs
  have hm0 : m ≠ 0 := by
    rintro rfl
    simp [val] at hv0
  have hval : val (fin false m e) = m * 2 ^ e := by simp [val, sgn]
  have he : e ≤ 1 := by
    by_contra hc
    have h2 : (2 : ℝ) ^ (2 : ℤ) ≤ 2 ^ e := zpow_le_zpow_right₀ (by norm_num) (by omega)
    have h3 : (1 : ℝ) ≤ m := by exact_mod_cast Nat.pos_of_ne_zero hm0
    have h4 : (2 : ℝ) ^ e ≤ m * 2 ^ e := le_mul_of_one_le_left (two_zpow_pos _).le h3
    norm_num at h2
    rw [hval] at hv2
    linarith
  rw [hval] at h1 hv0 hv2
  unfold sqrt
  dsimp only
  rw [if_neg hm0, if_neg (by decide)]
  generalize hk : (if e % 2 = 0 then 128 else 129 : ℕ) = k
  have hk2 : (k = 128 ∧ e % 2 = 0) ∨ (k = 129 ∧ e % 2 = 1) := by
    split at hk
    · left; omega
    · right; omega
  have hkle : k ≤ 129 := by omega
  generalize hn : m * 2 ^ k = n
  have hnlt : n < 2 ^ 92 * 2 ^ 92 := by
    rw [← hn]
    calc m * 2 ^ k < 2 ^ 53 * 2 ^ k := by
          exact Nat.mul_lt_mul_of_pos_right hm (by positivity)
      _ ≤ 2 ^ 53 * 2 ^ 129 := Nat.mul_le_mul_left _ (Nat.pow_le_pow_right (by norm_num) hkle)
      _ ≤ _ := by norm_num
  obtain ⟨r1, r2⟩ := isqrt_spec n 92 0 (by omega) (by simpa using hnlt)
  generalize isqrt n 92 0 = r at r1 r2
  obtain ⟨j, hj⟩ : ∃ j : ℤ, e - k = 2 * j := ⟨(e - k) / 2, by omega⟩
  have hj' : (e - (k : ℤ)) / 2 = j := by omega
  rw [hj']
  have hjle : j ≤ -63 := by omega
  generalize hst : (if r * r = n then 0 else 1 : ℕ) = st
  have hroot : √((m : ℝ) * 2 ^ e) = √(n : ℝ) * 2 ^ j := by
    have : (m : ℝ) * 2 ^ e = n * (2 ^ j) ^ 2 := by
      rw [← hn, ← zpow_natCast ((2 : ℝ) ^ j), ← zpow_mul, show e = (k : ℤ) + j * ((2 : ℕ) : ℤ) by push_cast; omega,
        zpow_add₀ (by norm_num), zpow_natCast]
      push_cast
      ring
    rw [this, Real.sqrt_mul (by positivity), Real.sqrt_sq (two_zpow_pos _).le]
  have hr1 : (r : ℝ) ≤ √n := by
    apply Real.le_sqrt_of_sq_le
    rw [pow_two]
    exact_mod_cast r1
  have hr2 : √(n : ℝ) < r + 1 := by
    rw [Real.sqrt_lt' (by positivity), pow_two]
    exact_mod_cast r2
  have happ : |((2 * r + st : ℕ) : ℝ) / (1 : ℕ) * 2 ^ (j - 1) - √((m : ℝ) * 2 ^ e)| ≤ u := by
    rw [hroot, zpow_sub₀ (by norm_num), zpow_one]
    have : |((2 * r + st : ℕ) : ℝ) / (1 : ℕ) * (2 ^ j / 2) - √(n : ℝ) * 2 ^ j|
        = |(2 * r + st - 2 * √(n : ℝ))| / 2 * 2 ^ j := by
      have e1 : ((2 * r + st : ℕ) : ℝ) / (1 : ℕ) * (2 ^ j / 2) - √(n : ℝ) * 2 ^ j
          = (2 * r + st - 2 * √(n : ℝ)) / 2 * 2 ^ j := by
        push_cast
        ring
      rw [e1, abs_mul, abs_div, abs_of_pos (two_zpow_pos j), abs_two]
    rw [this]
    have hd : |(2 * (r : ℝ) + st - 2 * √(n : ℝ))| ≤ 2 := by
      have : st ≤ 1 := by rw [← hst]; split <;> omega
      have h0 : (st : ℝ) ≤ 1 := by exact_mod_cast this
      have h0' : (0 : ℝ) ≤ st := by positivity
      rw [abs_le]
      constructor <;> linarith
    calc |(2 * (r : ℝ) + st - 2 * √(n : ℝ))| / 2 * 2 ^ j ≤ 1 * 2 ^ j := by
          apply mul_le_mul_of_nonneg_right _ (two_zpow_pos _).le
          linarith
      _ ≤ u := by
          rw [one_mul, u]
          exact zpow_le_zpow_right₀ (by norm_num) (by omega)
  have hsq : |√((m : ℝ) * 2 ^ e) - √a| ≤ 2 * ε := by
    have h3 : (1 / 2 : ℝ) ≤ √a := by
      apply Real.le_sqrt_of_sq_le
      norm_num
      linarith
    have h4 := Real.sqrt_nonneg ((m : ℝ) * 2 ^ e)
    have h5 := Real.mul_self_sqrt hv0.le
    have h6 := Real.mul_self_sqrt (show 0 ≤ a by linarith)
    generalize √((m : ℝ) * 2 ^ e) = p at *
    generalize √a = q at *
    have h7 : |p - q| * (p + q) ≤ ε := by
      rw [← abs_of_nonneg (show 0 ≤ p + q by linarith), ← abs_mul, abs_le]
      constructor <;> nlinarith
    have := abs_nonneg (p - q)
    nlinarith
  have hsmall : √a ≤ 1 := by
    rw [Real.sqrt_le_left (by norm_num)]
    linarith
  have hu1 : u ≤ 1 := by
    rw [u]
    calc (2 : ℝ) ^ (-43 : ℤ) ≤ 2 ^ (0 : ℤ) := zpow_le_zpow_right₀ (by norm_num) (by norm_num)
      _ = 1 := by norm_num
  have h0 := Real.sqrt_nonneg a
  have hfin := near_roundScaled false (n := 2 * r + st) (d := 1) (e := j - 1) (by norm_num) (by
    rw [abs_le] at happ hsq
    linarith)
  refine hfin.mono ?_
  rw [show sgn false = 1 from rfl, one_mul]
  rw [abs_le] at happ hsq
  have : |((2 * r + st : ℕ) : ℝ) / (1 : ℕ) * 2 ^ (j - 1) - √a| ≤ 2 * ε + u := by
    rw [abs_le]
    constructor <;> linarith
  linarith

theorem lt_iff (s s' : Bool) (m m' : ℕ) (e e' : ℤ) :
    lt (fin s m e) (fin s' m' e') = true ↔ val (fin s m e) < val (fin s' m' e') := by
  rw [← mant_val s m (show Min.min e e' ≤ e by omega), ← mant_val s' m' (show Min.min e e' ≤ e' by omega),
    mul_lt_mul_iff_left₀ (two_zpow_pos _), lt]
  simp only [decide_eq_true_eq, Int.cast_lt]

theorem le_true {x : F64} {a ε c : ℝ} (hx : Near x a ε) {s' : Bool} {m' : ℕ} {e' : ℤ} (hc : val (fin s' m' e') = c)
    (h : a + ε ≤ c) : le x (fin s' m' e') = true := by
  obtain ⟨s, m, e, rfl, hm, h1⟩ := hx
  rw [abs_le] at h1
  have := lt_iff s' s m' m e' e
  unfold le
  rw [Bool.not_eq_true', Bool.eq_false_iff, ne_eq, this, hc]
  linarith

theorem le_false {x : F64} {a ε c : ℝ} (hx : Near x a ε) {s' : Bool} {m' : ℕ} {e' : ℤ} (hc : val (fin s' m' e') = c)
    (h : c < a - ε) : le x (fin s' m' e') = false := by
  obtain ⟨s, m, e, rfl, hm, h1⟩ := hx
  rw [abs_le] at h1
  have := lt_iff s' s m' m e' e
  unfold le
  rw [Bool.not_eq_false', this, hc]
  linarith

theorem toU32_eq {x : F64} {a ε : ℝ} (hx : Near x a ε) {k : ℕ} (hk : k ≤ 4294967295) (h1 : k ≤ a - ε)
    (h2 : a + ε < k + 1) : toU32 x = k := by
  obtain ⟨s, m, e, rfl, hm, h3⟩ := hx
  rw [abs_le] at h3
  have hp := two_zpow_pos e
  have hv1 : (k : ℝ) ≤ val (fin s m e) := by linarith
  have hv2 : val (fin s m e) < k + 1 := by linarith
  have hfloor : ∀ k' : ℕ, (k' : ℝ) ≤ m * 2 ^ e → (m : ℝ) * 2 ^ e < k' + 1 → m * 2 ^ e.toNat / 2 ^ (-e).toNat = k' := by
    intro k' ha hb
    rw [two_zpow, ← mul_div_assoc] at ha hb
    rw [le_div_iff₀ (by positivity)] at ha
    rw [div_lt_iff₀ (by positivity)] at hb
    have ha' : k' * 2 ^ (-e).toNat ≤ m * 2 ^ e.toNat := by exact_mod_cast ha
    have hb' : m * 2 ^ e.toNat < (k' + 1) * 2 ^ (-e).toNat := by exact_mod_cast hb
    apply le_antisymm
    · rw [← Nat.lt_succ_iff, Nat.div_lt_iff_lt_mul (by positivity)]
      exact hb'
    · rw [Nat.le_div_iff_mul_le (by positivity)]
      exact ha'
  have hn : (if s then -((m * 2 ^ e.toNat / 2 ^ (-e).toNat : ℕ) : ℤ) else ((m * 2 ^ e.toNat / 2 ^ (-e).toNat : ℕ) : ℤ)) = k := by
    cases s
    · simp only [val, sgn, Bool.false_eq_true, if_false, one_mul] at hv1 hv2 ⊢
      rw [hfloor k hv1 hv2]
    · simp only [val, sgn, if_true] at hv1 hv2 ⊢
      have h0 : (0 : ℝ) ≤ m * 2 ^ e := mul_nonneg (by positivity) hp.le
      have hk0 : (0 : ℝ) ≤ k := by positivity
      have hk0' : k = 0 := by
        have : (k : ℝ) ≤ 0 := by linarith
        exact_mod_cast le_antisymm this hk0
      have hz : m * 2 ^ e.toNat / 2 ^ (-e).toNat = 0 := hfloor 0 (by simpa using h0) (by
        subst hk0'
        simp at hv1 ⊢
        linarith)
      rw [hz, hk0']
      rfl
  unfold toU32 toIntSat
  dsimp only
  rw [hn, if_neg (by omega), if_neg (by omega)]

end Ase.F64
