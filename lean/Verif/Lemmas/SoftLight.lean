import Verif.Lemmas.F64Real
import Verif.Model.Blend
import Verif.Spec.SoftLight
import Mathlib.Tactic.LinearCombination
import Mathlib.Algebra.Order.Floor.Semiring

/-!
# The soft light function is exactly rounded

The floating point result is within `8162 * 2^-43` of the exact value, and the exact value is never closer than `2^-28` to
a number where rounding changes.
-/

namespace Ase

open F64

theorem u_eq : u = 1 / 8796093022208 := by
  rw [u]
  norm_num

theorem near_exact {x : F64} {s : Bool} {m : ℕ} {e : ℤ} {c : ℝ} (hx : x = .fin s m e) (hm : m < 2 ^ 53)
    (hc : val (.fin s m e) = c) : Near x c 0 :=
  ⟨s, m, e, hx, hm, by rw [hx, hc]; simp⟩

theorem ofInt_255 : F64.ofInt 255 = .fin false 8972014882652160 (-45) := by decide +kernel
theorem ofInt_16 : F64.ofInt 16 = .fin false 4503599627370496 (-48) := by decide +kernel
theorem ofInt_12 : F64.ofInt 12 = .fin false 6755399441055744 (-49) := by decide +kernel
theorem ofInt_4 : F64.ofInt 4 = .fin false 4503599627370496 (-50) := by decide +kernel
theorem ofInt_2 : F64.ofInt 2 = .fin false 4503599627370496 (-51) := by decide +kernel
theorem ofInt_1 : F64.ofInt 1 = .fin false 4503599627370496 (-52) := by decide +kernel
theorem lit_half : F64.lit 1 2 = .fin false 4503599627370496 (-53) := by decide +kernel
theorem lit_quarter : F64.lit 1 4 = .fin false 4503599627370496 (-54) := by decide +kernel

theorem val_255 : val (.fin false 8972014882652160 (-45)) = 255 := by norm_num [val, sgn]
theorem val_half : val (.fin false 4503599627370496 (-53)) = 1 / 2 := by norm_num [val, sgn]
theorem val_quarter : val (.fin false 4503599627370496 (-54)) = 1 / 4 := by norm_num [val, sgn]

theorem near_255 : Near (.ofInt 255) 255 0 := near_exact ofInt_255 (by norm_num) val_255
theorem near_16 : Near (.ofInt 16) 16 0 := near_exact ofInt_16 (by norm_num) (by norm_num [val, sgn])
theorem near_12 : Near (.ofInt 12) 12 0 := near_exact ofInt_12 (by norm_num) (by norm_num [val, sgn])
theorem near_4 : Near (.ofInt 4) 4 0 := near_exact ofInt_4 (by norm_num) (by norm_num [val, sgn])
theorem near_2 : Near (.ofInt 2) 2 0 := near_exact ofInt_2 (by norm_num) (by norm_num [val, sgn])
theorem near_1 : Near (.ofInt 1) 1 0 := near_exact ofInt_1 (by norm_num) (by norm_num [val, sgn])
theorem near_half : Near (.lit 1 2) (1 / 2) 0 := near_exact lit_half (by norm_num) val_half

theorem near_byte {b : ℕ} (hb : b ≤ 255) : Near (F64.div (.ofInt b) (.ofInt 255)) (b / 255) (2 * u) := by
  have hb' : (b : ℝ) ≤ 255 := by exact_mod_cast hb
  have hb0 : (0 : ℝ) ≤ b := by positivity
  have h1 : Near (.ofInt b) b u := by
    have := near_ofInt (n := b) (by rw [Int.cast_natCast, abs_of_nonneg hb0]; linarith)
    rwa [Int.cast_natCast] at this
  rw [ofInt_255]
  refine (near_div h1 (by norm_num) val_255 (by norm_num) ?_).mono ?_
  · rw [abs_of_nonneg hb0, u_eq]
    linarith
  · rw [sub_self, abs_zero]
    linarith

theorem softLightD_bounds {B : ℝ} (h0 : 0 ≤ B) (h1 : B ≤ 1) : 0 ≤ Spec.softLightD B - B ∧ Spec.softLightD B ≤ 1 := by
  unfold Spec.softLightD
  split
  · next h =>
    constructor
    · nlinarith [sq_nonneg (B - 3 / 8), mul_nonneg h0 (sq_nonneg (B - 3 / 8))]
    · nlinarith [sq_nonneg B, mul_nonneg h0 h0, mul_nonneg (mul_nonneg h0 h0) h0]
  · constructor
    · have := Real.mul_self_sqrt h0
      have h2 := Real.sqrt_nonneg B
      have h3 : √B ≤ 1 := by rw [Real.sqrt_le_left (by norm_num)]; linarith
      nlinarith
    · rw [Real.sqrt_le_left (by norm_num)]; linarith

theorem softLight_bounds {B S : ℝ} (h0 : 0 ≤ B) (h1 : B ≤ 1) (s0 : 0 ≤ S) (s1 : S ≤ 1) : 0 ≤ Spec.softLight B S ∧ Spec.softLight B S ≤ 1 := by
  obtain ⟨d0, d1⟩ := softLightD_bounds h0 h1
  unfold Spec.softLight
  split
  · next h =>
    have hb : 0 ≤ B * (1 - B) := mul_nonneg h0 (by linarith)
    constructor
    · nlinarith
    · nlinarith
  · next h =>
    push Not at h
    constructor
    · nlinarith
    · nlinarith

theorem near_softLight {b s : ℕ} (hb : b ≤ 255) (hs : s ≤ 255) : ∃ x, Near x (255 * Spec.softLight (b / 255) (s / 255) + 1 / 2)
    (8162 * u) ∧ blendSoftLight b s = wrapI32 (toU32 x) := by
  have hbr : (b : ℝ) ≤ 255 := by exact_mod_cast hb
  have hsr : (s : ℝ) ≤ 255 := by exact_mod_cast hs
  have hu := u_eq
  have hup := u_pos
  have nb := near_byte hb
  have ns := near_byte hs
  have hB : (4 * b ≤ 255 → (b : ℝ) / 255 ≤ 63 / 255) ∧ (¬ 4 * b ≤ 255 → 64 / 255 ≤ (b : ℝ) / 255) := by
    constructor
    · intro h
      have : b ≤ 63 := by omega
      have : (b : ℝ) ≤ 63 := by exact_mod_cast this
      linarith
    · intro h
      have : 64 ≤ b := by omega
      have : (64 : ℝ) ≤ b := by exact_mod_cast this
      linarith
  have hS : (2 * s ≤ 255 → (s : ℝ) / 255 ≤ 127 / 255) ∧ (¬ 2 * s ≤ 255 → 128 / 255 ≤ (s : ℝ) / 255) := by
    constructor
    · intro h
      have : s ≤ 127 := by omega
      have : (s : ℝ) ≤ 127 := by exact_mod_cast this
      linarith
    · intro h
      have : 128 ≤ s := by omega
      have : (128 : ℝ) ≤ s := by exact_mod_cast this
      linarith
  have hB0 : (0 : ℝ) ≤ b / 255 := by positivity
  have hB1 : (b : ℝ) / 255 ≤ 1 := by linarith
  have hS0 : (0 : ℝ) ≤ s / 255 := by positivity
  have hS1 : (s : ℝ) / 255 ≤ 1 := by linarith
  unfold blendSoftLight
  dsimp only
  generalize F64.div (.ofInt (b : ℤ)) (.ofInt 255) = xb at nb ⊢
  generalize F64.div (.ofInt (s : ℤ)) (.ofInt 255) = xs at ns ⊢
  generalize hBe : (b : ℝ) / 255 = B at *
  generalize hSe : (s : ℝ) / 255 = S at *
  have aB : |B| ≤ 1 := by rw [abs_of_nonneg hB0]; exact hB1
  have aS : |S| ≤ 1 := by rw [abs_of_nonneg hS0]; exact hS1
  -- d
  have nd : Near (if F64.le xb (.lit 1 4) then
      F64.mul (F64.add (F64.mul (F64.sub (F64.mul (.ofInt 16) xb) (.ofInt 12)) xb) (.ofInt 4)) xb
    else F64.sqrt xb) (Spec.softLightD B) (18 * u) := by
    by_cases h : 4 * b ≤ 255
    · have h1 := hB.1 h
      have hq : |B| ≤ 1 / 4 := by rw [abs_of_nonneg hB0]; linarith
      rw [lit_quarter, le_true nb val_quarter (by rw [hu]; linarith), if_pos rfl, Spec.softLightD, if_pos (by linarith)]
      have n1 : Near (F64.mul (.ofInt 16) xb) (16 * B) (33 * u) :=
        (near_mul near_16 nb (A := 16) (by norm_num) hq le_rfl (by linarith) (by rw [hu]; norm_num)).mono (by
          rw [sub_self, abs_zero]; linarith)
      have n2 : Near (F64.sub (F64.mul (.ofInt 16) xb) (.ofInt 12)) (16 * B - 12) (34 * u) :=
        (near_sub n1 near_12 (by rw [abs_of_nonpos (by linarith), hu]; linarith)).mono (by
          rw [sub_self, abs_zero]; linarith)
      have n3 : Near (F64.mul (F64.sub (F64.mul (.ofInt 16) xb) (.ofInt 12)) xb) ((16 * B - 12) * B) (34 * u) :=
        (near_mul n2 nb (A := 12) (by rw [abs_of_nonpos (by linarith)]; linarith) hq (by linarith) (by linarith)
          (by rw [hu]; norm_num)).mono (by rw [sub_self, abs_zero, hu]; norm_num)
      have hm : -3 ≤ (16 * B - 12) * B ∧ (16 * B - 12) * B ≤ 0 := by
        constructor
        · nlinarith
        · nlinarith
      have n4 : Near (F64.add (F64.mul (F64.sub (F64.mul (.ofInt 16) xb) (.ofInt 12)) xb) (.ofInt 4))
          ((16 * B - 12) * B + 4) (35 * u) :=
        (near_add n3 near_4 (by rw [abs_of_nonneg (by linarith), hu]; linarith)).mono (by
          rw [sub_self, abs_zero]; linarith)
      exact (near_mul n4 nb (A := 4) (by rw [abs_of_nonneg (by linarith)]; linarith) hq (by linarith) (by linarith)
          (by rw [hu]; norm_num)).mono (by rw [sub_self, abs_zero, hu]; norm_num)
    · have h1 := hB.2 h
      rw [lit_quarter, le_false nb val_quarter (by rw [hu]; linarith), if_neg (by decide), Spec.softLightD,
        if_neg (by linarith)]
      exact (near_sqrt nb (by linarith) hB1 (by rw [hu]; norm_num)).mono (by rw [sub_self, abs_zero]; linarith)
  generalize (if F64.le xb (.lit 1 4) then
      F64.mul (F64.add (F64.mul (F64.sub (F64.mul (.ofInt 16) xb) (.ofInt 12)) xb) (.ofInt 4)) xb
    else F64.sqrt xb) = xd at nd ⊢
  have n2s : Near (F64.mul (.ofInt 2) xs) (2 * S) (5 * u) :=
    (near_mul near_2 ns (A := 2) (by norm_num) aS le_rfl (by linarith) (by rw [hu]; norm_num)).mono (by
      rw [sub_self, abs_zero]; linarith)
  obtain ⟨d0, d1⟩ := softLightD_bounds hB0 hB1
  have nr : Near (if F64.le xs (.lit 1 2) then
      F64.sub xb (F64.mul (F64.mul (F64.sub (.ofInt 1) (F64.mul (.ofInt 2) xs)) xb) (F64.sub (.ofInt 1) xb))
    else
      F64.add xb (F64.mul (F64.sub (F64.mul (.ofInt 2) xs) (.ofInt 1)) (F64.sub xd xb))) (Spec.softLight B S) (32 * u) := by
    by_cases h : 2 * s ≤ 255
    · have h1 := hS.1 h
      rw [lit_half, le_true ns val_half (by rw [hu]; linarith), if_pos rfl, Spec.softLight, if_pos (by linarith)]
      have n1 : Near (F64.sub (.ofInt 1) (F64.mul (.ofInt 2) xs)) (1 - 2 * S) (6 * u) :=
        (near_sub near_1 n2s (by rw [abs_of_nonneg (by linarith), hu]; linarith)).mono (by
          rw [sub_self, abs_zero]; linarith)
      have a1 : |1 - 2 * S| ≤ 1 := by rw [abs_of_nonneg (by linarith)]; linarith
      have n2 : Near (F64.mul (F64.sub (.ofInt 1) (F64.mul (.ofInt 2) xs)) xb) ((1 - 2 * S) * B) (10 * u) :=
        (near_mul n1 nb a1 aB (by linarith) (by linarith) (by rw [hu]; norm_num)).mono (by
          rw [sub_self, abs_zero, hu]; norm_num)
      have n3 : Near (F64.sub (.ofInt 1) xb) (1 - B) (3 * u) :=
        (near_sub near_1 nb (by rw [abs_of_nonneg (by linarith), hu]; linarith)).mono (by
          rw [sub_self, abs_zero]; linarith)
      have a2 : |(1 - 2 * S) * B| ≤ 1 := by
        rw [abs_mul]
        exact mul_le_one₀ a1 (abs_nonneg _) aB
      have a3 : |1 - B| ≤ 1 := by rw [abs_of_nonneg (by linarith)]; linarith
      have n4 : Near (F64.mul (F64.mul (F64.sub (.ofInt 1) (F64.mul (.ofInt 2) xs)) xb) (F64.sub (.ofInt 1) xb))
          ((1 - 2 * S) * B * (1 - B)) (15 * u) :=
        (near_mul n2 n3 a2 a3 (by linarith) (by linarith) (by rw [hu]; norm_num)).mono (by
          rw [sub_self, abs_zero, hu]; norm_num)
      have hr := softLight_bounds hB0 hB1 hS0 hS1
      rw [Spec.softLight, if_pos (by linarith)] at hr
      exact (near_sub nb n4 (by rw [abs_of_nonneg hr.1, hu]; linarith)).mono (by
        rw [sub_self, abs_zero]; linarith)
    · have h1 := hS.2 h
      rw [lit_half, le_false ns val_half (by rw [hu]; linarith), if_neg (by decide), Spec.softLight, if_neg (by linarith)]
      have n1 : Near (F64.sub (F64.mul (.ofInt 2) xs) (.ofInt 1)) (2 * S - 1) (6 * u) :=
        (near_sub n2s near_1 (by rw [abs_of_nonneg (by linarith), hu]; linarith)).mono (by
          rw [sub_self, abs_zero]; linarith)
      have a1 : |2 * S - 1| ≤ 1 := by rw [abs_of_nonneg (by linarith)]; linarith
      have n2 : Near (F64.sub xd xb) (Spec.softLightD B - B) (21 * u) :=
        (near_sub nd nb (by rw [abs_of_nonneg d0, hu]; linarith)).mono (by
          rw [sub_self, abs_zero]; linarith)
      have a2 : |Spec.softLightD B - B| ≤ 1 := by rw [abs_of_nonneg d0]; linarith
      have n3 : Near (F64.mul (F64.sub (F64.mul (.ofInt 2) xs) (.ofInt 1)) (F64.sub xd xb))
          ((2 * S - 1) * (Spec.softLightD B - B)) (29 * u) :=
        (near_mul n1 n2 a1 a2 (by linarith) (by linarith) (by rw [hu]; norm_num)).mono (by
          rw [sub_self, abs_zero, hu]; norm_num)
      have hr := softLight_bounds hB0 hB1 hS0 hS1
      rw [Spec.softLight, if_neg (by linarith)] at hr
      exact (near_add nb n3 (by rw [abs_of_nonneg hr.1, hu]; linarith)).mono (by
        rw [sub_self, abs_zero]; linarith)
  refine ⟨_, ?_, rfl⟩
  have hr := softLight_bounds hB0 hB1 hS0 hS1
  have n1 := near_mul nr near_255 (A := 1) (B := 255) (by rw [abs_of_nonneg hr.1]; exact hr.2) (by norm_num)
    (by linarith) le_rfl (by rw [hu]; norm_num)
  have n2 := near_add n1 near_half (by rw [abs_of_nonneg (by linarith), hu]; linarith)
  refine n2.mono ?_
  rw [mul_comm (Spec.softLight B S) 255, sub_self, abs_zero]
  linarith

/-! ## The distance to the next rounding boundary -/

theorem odd_gap {N D : ℤ} (hD : 0 < D) (hodd : N % 2 = 1) : 1 / (D : ℝ) ≤ |(N : ℝ) / D| := by
  have h1 : (1 : ℤ) ≤ |N| := Int.one_le_abs (by omega)
  have h2 : (1 : ℝ) ≤ |(N : ℝ)| := by exact_mod_cast h1
  have hDr : (0 : ℝ) < D := by exact_mod_cast hD
  rw [abs_div, abs_of_pos hDr]
  exact div_le_div_of_nonneg_right h2 hDr.le

theorem sqrt_gap {q p : ℤ} (hq0 : 0 ≤ q) (hqM : q ≤ 130050 ^ 2) (hq2 : q % 2 = 0) (hp2 : p % 2 = 1) :
    (1 / 390150 : ℝ) ≤ |√(q : ℝ) - p| := by
  have hq0r : (0 : ℝ) ≤ q := by exact_mod_cast hq0
  have hs0 := Real.sqrt_nonneg (q : ℝ)
  have hsq := Real.mul_self_sqrt hq0r
  have hsM : √(q : ℝ) ≤ 130050 := by
    rw [Real.sqrt_le_left (by norm_num)]
    exact_mod_cast hqM
  have hne : 1 ≤ |q - p * p| := by
    apply Int.one_le_abs
    intro h
    have h1 : q = p * p := by omega
    have h2 : (p * p) % 2 = 1 := by rw [Int.mul_emod, hp2]; rfl
    omega
  have hner : (1 : ℝ) ≤ |(q : ℝ) - p * p| := by exact_mod_cast hne
  have hfac : (q : ℝ) - p * p = (√(q : ℝ) - p) * (√(q : ℝ) + p) := by
    linear_combination -hsq
  generalize √(q : ℝ) = r at *
  rw [hfac, abs_mul] at hner
  have hd0 := abs_nonneg (r - p)
  rcases le_total (|r + (p : ℝ)|) 390150 with h | h
  · rw [div_le_iff₀ (by norm_num)]
    nlinarith
  · -- then p is far from r
    have : 1 ≤ |r - (p : ℝ)| := by
      rcases le_total 0 (r + (p : ℝ)) with h0 | h0
      · rw [abs_of_nonneg h0] at h
        rw [abs_of_nonpos (by linarith)]
        linarith
      · rw [abs_of_nonpos h0] at h
        rw [abs_of_nonneg (by linarith)]
        linarith
    linarith

theorem softLight_gap {b s : ℕ} (hb : b ≤ 255) (hs : s ≤ 255) (j : ℤ) :
    (1 / 2 ^ 28 : ℝ) ≤ |255 * Spec.softLight (b / 255) (s / 255) + 1 / 2 - j| := by
  by_cases h : 2 * s ≤ 255
  · have h1 : (s : ℝ) / 255 ≤ 1 / 2 := by
      have : (2 * s : ℝ) ≤ 255 := by exact_mod_cast h
      linarith
    rw [Spec.softLight, if_pos h1]
    have e : 255 * ((b : ℝ) / 255 - (1 - 2 * (s / 255)) * (b / 255) * (1 - b / 255)) + 1 / 2 - j
        = ((2 * (65025 * b - (255 - 2 * s) * b * (255 - b)) + 65025 - 130050 * j : ℤ) : ℝ) / (130050 : ℤ) := by
      push_cast
      field_simp
      ring
    rw [e]
    refine le_trans ?_ (odd_gap (by norm_num) ?_)
    · norm_num
    · generalize (65025 * (b : ℤ) - (255 - 2 * s) * b * (255 - b)) = w
      omega
  · have h1 : ¬ (s : ℝ) / 255 ≤ 1 / 2 := by
      have : (255 : ℝ) < 2 * s := by exact_mod_cast not_le.1 h
      linarith
    rw [Spec.softLight, if_neg h1]
    by_cases h2 : 4 * b ≤ 255
    · have h3 : (b : ℝ) / 255 ≤ 1 / 4 := by
        have : (4 * b : ℝ) ≤ 255 := by exact_mod_cast h2
        linarith
      rw [Spec.softLightD, if_pos h3]
      have e : 255 * ((b : ℝ) / 255 + (2 * (s / 255) - 1) * (((16 * (b / 255) - 12) * (b / 255) + 4) * (b / 255) - b / 255))
            + 1 / 2 - j
          = ((2 * (16581375 * b + (2 * s - 255) * ((16 * b * b - 3060 * b + 260100) * b - 65025 * b)) + 16581375
              - 33162750 * j : ℤ) : ℝ) / (33162750 : ℤ) := by
        push_cast
        field_simp
        ring
      rw [e]
      refine le_trans ?_ (odd_gap (by norm_num) ?_)
      · norm_num
      · generalize (16581375 * (b : ℤ) + (2 * s - 255) * ((16 * b * b - 3060 * b + 260100) * b - 65025 * b)) = w
        omega
    · have h3 : ¬ (b : ℝ) / 255 ≤ 1 / 4 := by
        have : (255 : ℝ) < 4 * b := by exact_mod_cast not_le.1 h2
        linarith
      rw [Spec.softLightD, if_neg h3]
      have hsr : (s : ℝ) ≤ 255 := by exact_mod_cast hs
      have hbr : (b : ℝ) ≤ 255 := by exact_mod_cast hb
      have ht : (0 : ℝ) ≤ 2 * s - 255 := by
        have : (255 : ℝ) < 2 * s := by exact_mod_cast not_le.1 h
        linarith
      have hroot : √(((4 * (2 * s - 255) * (2 * s - 255) * 255 * b : ℤ)) : ℝ) = 2 * (2 * s - 255) * (255 * √((b : ℝ) / 255)) := by
        have : (((4 * (2 * s - 255) * (2 * s - 255) * 255 * b : ℤ)) : ℝ) = (2 * (2 * s - 255) * 255) ^ 2 * (b / 255) := by
          push_cast
          field_simp
          ring
        rw [this, Real.sqrt_mul (sq_nonneg _), Real.sqrt_sq (by nlinarith)]
        ring
      have e : 255 * ((b : ℝ) / 255 + (2 * (s / 255) - 1) * (√((b : ℝ) / 255) - b / 255)) + 1 / 2 - j
          = (√(((4 * (2 * s - 255) * (2 * s - 255) * 255 * b : ℤ)) : ℝ)
            - ((510 * j - 255 - 510 * b + 2 * (2 * s - 255) * b : ℤ) : ℝ)) / 510 := by
        rw [hroot]
        push_cast
        field_simp
        ring
      rw [e, abs_div]
      have := sqrt_gap (q := 4 * (2 * s - 255) * (2 * s - 255) * 255 * b)
        (p := 510 * j - 255 - 510 * b + 2 * (2 * s - 255) * b) (by
          have h4 : (0 : ℤ) ≤ 2 * s - 255 := by omega
          positivity) (by
          have h4 : (0 : ℤ) ≤ 2 * s - 255 := by omega
          have h5 : (2 * s - 255 : ℤ) ≤ 255 := by omega
          have h6 : (b : ℤ) ≤ 255 := by omega
          have h7 : (2 * s - 255 : ℤ) * (2 * s - 255) ≤ 255 * 255 := mul_le_mul h5 h5 h4 (by norm_num)
          have h8 : (2 * s - 255 : ℤ) * (2 * s - 255) * b ≤ 255 * 255 * 255 :=
            mul_le_mul h7 h6 (by positivity) (by norm_num)
          nlinarith) (by
          rw [show (4 * (2 * s - 255) * (2 * s - 255) * 255 * b : ℤ) = 2 * (2 * (2 * s - 255) * (2 * s - 255) * 255 * b) by ring]
          exact Int.mul_emod_right 2 _) (by
          rw [show (2 * (2 * s - 255) * b : ℤ) = 2 * ((2 * s - 255) * b) by ring]
          generalize ((2 * s - 255) * b : ℤ) = w
          omega)
      rw [abs_of_pos (show (0 : ℝ) < 510 by norm_num), le_div_iff₀ (by norm_num)]
      refine le_trans ?_ this
      norm_num

/-- The soft light function on bytes: a byte, and exactly the rounded value. -/
theorem softLight_spec {b s : ℕ} (hb : b ≤ 255) (hs : s ≤ 255) :
    ∃ k : ℕ, k ≤ 255 ∧ blendSoftLight b s = k ∧ Spec.SoftLight b s k := by
  obtain ⟨x, hx, he⟩ := near_softLight hb hs
  have hbr : (b : ℝ) ≤ 255 := by exact_mod_cast hb
  have hsr : (s : ℝ) ≤ 255 := by exact_mod_cast hs
  have hb0 : (0 : ℝ) ≤ b := by positivity
  have hs0 : (0 : ℝ) ≤ s := by positivity
  have hr := softLight_bounds (B := (b : ℝ) / 255) (S := (s : ℝ) / 255) (by positivity) (by linarith) (by positivity) (by linarith)
  have hgap := softLight_gap hb hs
  have hv0 : 0 ≤ 255 * Spec.softLight (b / 255) (s / 255) + 1 / 2 := by linarith
  have hk1 := Nat.floor_le hv0
  have hk2 := Nat.lt_floor_add_one (255 * Spec.softLight ((b : ℝ) / 255) (s / 255) + 1 / 2)
  have hk3 : ⌊255 * Spec.softLight ((b : ℝ) / 255) (s / 255) + 1 / 2⌋₊ ≤ 255 := by
    rw [← Nat.lt_succ_iff, Nat.floor_lt hv0]
    push_cast
    linarith
  generalize ⌊255 * Spec.softLight ((b : ℝ) / 255) (s / 255) + 1 / 2⌋₊ = k at hk1 hk2 hk3
  have g1 := hgap k
  have g2 := hgap (k + 1)
  push_cast at g1 g2
  rw [abs_of_nonneg (by linarith)] at g1
  rw [abs_of_nonpos (by linarith)] at g2
  refine ⟨k, hk3, ?_, ?_⟩
  · have hu := u_eq
    rw [he, toU32_eq hx (k := k) (by omega) (by rw [hu]; norm_num at g1 ⊢; linarith) (by rw [hu]; norm_num at g2 ⊢; linarith)]
    unfold wrapI32
    omega
  · exact ⟨by linarith, by linarith⟩

end Ase
