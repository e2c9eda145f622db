import Mathlib.Tactic.IntervalCases
import Verif.Lemmas.F64Rel
import Verif.Lemmas.Hsl

/-!
# The HSL modes and colours without saturation

The code then divides a difference that is zero up to rounding by itself.
-/

namespace Ase

open F64 Spec.Hsl

theorem exp_add {x y : F64} {a b ε δ : ℝ} (hx : Near x a ε) (hy : Near y b δ) (h : 1 + ε + δ ≤ a + b)
    (h' : a + b + ε + δ ≤ 1024) : ∃ s m e, F64.add x y = fin s m e ∧ -60 ≤ e := by
  obtain ⟨s, m, e, rfl, _, h1⟩ := hx
  obtain ⟨s', m', e', rfl, _, h2⟩ := hy
  rw [abs_le] at h1 h2
  obtain ⟨c, hc⟩ : ∃ c, c = val (fin s m e) + val (fin s' m' e') := ⟨_, rfl⟩
  have hc1 : 1 ≤ c := by linarith
  have hc2 : c ≤ 1024 := by linarith
  have habs : |c| = c := abs_of_nonneg (by linarith)
  have hb1 : (2 : ℝ) ^ (-900 : ℤ) ≤ 2 ^ (0 : ℤ) := zpow_le_zpow_right₀ (by norm_num) (by norm_num)
  have hb2 : (2 : ℝ) ^ (10 : ℤ) ≤ 2 ^ (900 : ℤ) := zpow_le_zpow_right₀ (by norm_num) (by norm_num)
  rw [zpow_zero] at hb1
  have hb3 : (2 : ℝ) ^ (10 : ℤ) = 1024 := by norm_num
  obtain ⟨t, k, f, h3, _, _, h4⟩ := rel_add hc (by rw [habs]; exact hb1.trans hc1)
    (by rw [habs]; exact hc2.trans (hb3 ▸ hb2))
  refine ⟨t, k, f, h3, ?_⟩
  by_contra hf
  rw [habs] at h4
  have h5 : (2 : ℝ) ^ (f + 53) ≤ 2 ^ (0 : ℤ) := zpow_le_zpow_right₀ (by norm_num) (by omega)
  rw [zpow_zero] at h5
  linarith

/-- A rounding error, multiplied and divided by itself. -/
theorem near_noise {D w : F64} {d W : ℝ} (hD : Rel D d) (hd : (2 : ℝ) ^ (-60 : ℤ) ≤ |d|) (hd' : |d| ≤ 1)
    (hw : Near w W (29 * u)) (hW : 1 / 100 ≤ |W|) (hW' : |W| ≤ 255) :
    Near (F64.div (F64.mul D w) D) W (31 * u) := by
  have hu := u_pos
  have hu1 := u_small
  norm_num at hu1
  have hu2 : (2 : ℝ) ^ (-52 : ℤ) = u / 512 := by norm_num [u]
  have hb1 : (2 : ℝ) ^ (-900 : ℤ) ≤ 2 ^ (-80 : ℤ) := zpow_le_zpow_right₀ (by norm_num) (by norm_num)
  have hb2 : (2 : ℝ) ^ (10 : ℤ) ≤ 2 ^ (900 : ℤ) := zpow_le_zpow_right₀ (by norm_num) (by norm_num)
  have hb3 : (2 : ℝ) ^ (10 : ℤ) = 1024 := by norm_num
  rw [hb3] at hb2
  obtain ⟨s, m, e, rfl, _, hD1, _⟩ := hD
  obtain ⟨s', m', e', rfl, _, hw1⟩ := hw
  rw [hu2] at hD1
  obtain ⟨x, hx⟩ : ∃ x, x = val (fin s m e) := ⟨_, rfl⟩
  obtain ⟨v, hv⟩ : ∃ v, v = val (fin s' m' e') := ⟨_, rfl⟩
  rw [← hx] at hD1
  rw [← hv] at hw1
  have hsmall : |d| * (u / 512) ≤ |d| / 1000 := by
    rw [div_eq_mul_inv |d| 1000]
    apply mul_le_mul_of_nonneg_left _ (abs_nonneg _)
    norm_num
    linarith
  have hx1 : |d| / 2 ≤ |x| := by
    have := abs_sub_abs_le_abs_sub d x
    rw [abs_sub_comm] at this
    have := abs_nonneg d
    linarith
  have hx2 : |x| ≤ 2 := by
    have := abs_sub_abs_le_abs_sub x d
    linarith
  have hv1 : 9 / 1000 ≤ |v| := by
    have := abs_sub_abs_le_abs_sub W v
    rw [abs_sub_comm] at this
    linarith
  have hv2 : |v| ≤ 256 := by
    have := abs_sub_abs_le_abs_sub v W
    linarith
  have hd0 : (2 : ℝ) ^ (-80 : ℤ) ≤ |x| * |v| := by
    calc (2 : ℝ) ^ (-80 : ℤ) ≤ 2 ^ (-60 : ℤ) / 2 * (9 / 1000) := by norm_num
      _ ≤ |x| * |v| := mul_le_mul ((div_le_div_of_nonneg_right hd (by norm_num)).trans hx1) hv1 (by norm_num) (abs_nonneg _)
  have hx0 : 0 < |x| := by
    have := two_zpow_pos (-60)
    linarith
  -- the product
  have hP := rel_mul (s := s) (m := m) (e := e) (s' := s') (m' := m') (e' := e') (a := x * v) (by rw [hx, hv])
    (by rw [abs_mul]; exact hb1.trans hd0) (by
      rw [abs_mul]
      calc |x| * |v| ≤ 2 * 256 := mul_le_mul hx2 hv2 (abs_nonneg _) (by norm_num)
        _ ≤ 1024 := by norm_num
        _ ≤ _ := hb2)
  obtain ⟨s₂, m₂, e₂, hP0, _, hP1, _⟩ := hP
  rw [hP0] at hP1 ⊢
  rw [hu2, abs_mul] at hP1
  obtain ⟨p, hp⟩ : ∃ p, p = val (fin s₂ m₂ e₂) := ⟨_, rfl⟩
  rw [← hp] at hP1
  have hx0' : x ≠ 0 := abs_pos.1 hx0
  have hq1 : |p / x - v| ≤ |v| * (u / 512) := by
    have e1 : p / x - v = (p - x * v) / x := by field_simp
    rw [e1, abs_div, div_le_iff₀ hx0]
    linarith
  have hq2 : |p / x| ≤ 257 := by
    have h1 := abs_sub_abs_le_abs_sub (p / x) v
    have h2 : |v| * (u / 512) ≤ 256 * (u / 512) := mul_le_mul_of_nonneg_right hv2 (by positivity)
    linarith
  have hq3 : 1 / 1000 ≤ |p / x| := by
    have h1 := abs_sub_abs_le_abs_sub v (p / x)
    rw [abs_sub_comm] at h1
    have h2 : |v| * (u / 512) ≤ 256 * (u / 512) := mul_le_mul_of_nonneg_right hv2 (by positivity)
    linarith
  have hQ := rel_div (s := s₂) (m := m₂) (e := e₂) (s' := s) (m' := m) (e' := e) (a := p / x) (by rw [← hx]; exact hx0')
    (by rw [hx, hp]) (by
      refine hb1.trans (le_trans ?_ hq3)
      norm_num) (hq2.trans (le_trans (by norm_num) hb2))
  obtain ⟨s₃, m₃, e₃, hQ0, hQm, hQ1, _⟩ := hQ
  refine ⟨s₃, m₃, e₃, hQ0, hQm, ?_⟩
  rw [hQ0] at hQ1 ⊢
  rw [hu2] at hQ1
  have h1 : |p / x| * (u / 512) ≤ 257 * (u / 512) := mul_le_mul_of_nonneg_right hq2 (by positivity)
  have h2 : |v| * (u / 512) ≤ 256 * (u / 512) := mul_le_mul_of_nonneg_right hv2 (by positivity)
  rw [abs_le] at hQ1 hq1 hw1 ⊢
  constructor <;> linarith

theorem toI32_noise {Y l : F64} {L : ℝ} (hY : Near Y L (20 * u)) (hl : Near l L (28 * u))
    (hYe : ∃ s m e, Y = fin s m e ∧ -60 ≤ e) (hle : ∃ s m e, l = fin s m e ∧ -60 ≤ e) (hL : 101 / 100 ≤ L)
    (hL' : L ≤ 255) (n : ℤ)
    (hn : n = toI32 (F64.mul (F64.add l (F64.div (F64.mul (F64.sub Y l) (F64.sub (.ofInt 1) l)) (F64.sub Y l)))
      (.ofInt 255))) : n = 0 ∨ n = 254 ∨ n = 255 := by
  have hu := u_pos
  have hu1 := u_small
  norm_num at hu1
  have ho1 : Near (.ofInt 1) 1 0 := by simpa using near_ofInt_exact (n := 1) (by norm_num)
  have h255 : Near (.ofInt 255) 255 0 := by simpa using near_ofInt_exact (n := 255) (by norm_num)
  have hW' : |1 - L| ≤ 255 := by rw [abs_le]; constructor <;> linarith
  have hW : 1 / 100 ≤ |1 - L| := by rw [abs_of_neg (by linarith)]; linarith
  have hw := (near_sub ho1 hl (by linarith)).le (show _ ≤ 29 * u by linarith)
  obtain ⟨s, m, e, hY0, he⟩ := hYe
  obtain ⟨s', m', e', hl0, he'⟩ := hle
  by_cases hval : val (fin s m e) = val (fin s' m' e')
  · left
    have hsub : ∃ t, F64.sub Y l = fin t 0 (-1074) := by
      rw [hY0, hl0]
      refine ⟨s && !s', ?_⟩
      unfold F64.sub F64.neg F64.add
      dsimp only
      rw [if_pos]
      have hv : ((mant s m e (Min.min e e') + mant (!s') m' e' (Min.min e e') : ℤ) : ℝ) * 2 ^ (Min.min e e') = 0 := by
        rw [Int.cast_add, add_mul, mant_val _ _ (by omega), mant_val _ _ (by omega), hval]
        cases s' <;> simp [val, sgn]
      have := (mul_eq_zero.1 hv).resolve_right (two_zpow_pos _).ne'
      exact_mod_cast this
    obtain ⟨t, ht⟩ := hsub
    obtain ⟨s₁, m₁, e₁, hw0, _⟩ := hw
    rw [hn, ht, hw0, hl0]
    simp [F64.mul, F64.div, F64.add, roundScaled, F64.round, toI32, toIntSat]
  · right
    have hd := val_gap s s' m m' he he' hval
    have hd' : |val (fin s m e) - val (fin s' m' e')| ≤ 1 := by
      obtain ⟨_, _, _, _, _, h1⟩ := hY
      obtain ⟨_, _, _, _, _, h2⟩ := hl
      rw [hY0] at h1
      rw [hl0] at h2
      rw [abs_le] at h1 h2 ⊢
      constructor <;> linarith
    have hb1 : (2 : ℝ) ^ (-900 : ℤ) ≤ 2 ^ (-60 : ℤ) := zpow_le_zpow_right₀ (by norm_num) (by norm_num)
    have hb2 : (2 : ℝ) ^ (0 : ℤ) ≤ 2 ^ (900 : ℤ) := zpow_le_zpow_right₀ (by norm_num) (by norm_num)
    rw [zpow_zero] at hb2
    have hR : Rel (F64.sub Y l) (val (fin s m e) - val (fin s' m' e')) := by
      rw [hY0, hl0]
      refine rel_add (s' := !s') ?_ (hb1.trans hd) (hd'.trans hb2)
      cases s' <;> simp [val, sgn, sub_eq_add_neg]
    have hQ := near_noise hR hd hd' hw hW hW'
    have hsum := near_add hl hQ (by rw [show L + (1 - L) = 1 by ring, abs_one]; linarith)
    rw [show L + (1 - L) = 1 by ring] at hsum
    have hmul := near_mulK (K := 10) (A := 1) (B := 255) (by norm_num) hsum h255 (by simp) (by norm_num) (by positivity)
      (by norm_num; linarith)
    rw [ulp_ten] at hmul
    have hab := hmul.abs_le
    obtain ⟨s₁, m₁, e₁, h0, _, h1⟩ := hmul
    rw [h0] at hn h1 hab
    rw [toI32_val (hab.trans (by norm_num; linarith))] at hn
    rw [abs_le] at h1
    have hlo : (254 : ℝ) ≤ val (fin s₁ m₁ e₁) := by linarith
    have hhi : val (fin s₁ m₁ e₁) < 256 := by linarith
    rw [truncate, if_pos (by linarith)] at hn
    have h5 : 254 ≤ n := by rw [hn, Int.le_floor]; exact_mod_cast hlo
    have h6 : n < 256 := by rw [hn, Int.floor_lt]; exact_mod_cast hhi
    omega

/-- What becomes of a grey. -/
def greyInt (k : UInt8) (t : F64) : Int :=
  toI32 (F64.mul (setLuminocity (toF k) (toF k) (toF k) t).1 (.ofInt 255))

/-- The same as a byte. -/
def greyByte (k : UInt8) (t : F64) : UInt8 := asU8 (greyInt k t)

theorem pick_greyInt (k : UInt8) (t : F64) (i : Fin 3) :
    toI32 (F64.mul (pick (setLuminocity (toF k) (toF k) (toF k) t) i) (.ofInt 255)) = greyInt k t := by
  have h : ∀ j, pick (setLuminocity (toF k) (toF k) (toF k) t) j = (setLuminocity (toF k) (toF k) (toF k) t).1 := by
    have key : ∀ Y j, pick (clipColor Y Y Y) j = pick (clipColor Y Y Y) 0 := fun Y j => by
      rw [pick_clip, pick_clip]
      unfold pick
      fin_cases j <;> rfl
    intro j
    unfold setLuminocity
    dsimp only
    rw [key]
    rfl
  rw [h]
  rfl

theorem pick_grey (k : UInt8) (t : F64) (i : Fin 3) :
    asU8 (toI32 (F64.mul (pick (setLuminocity (toF k) (toF k) (toF k) t) i) (.ofInt 255))) = greyByte k t :=
  congrArg asU8 (pick_greyInt k t i)

theorem grey_black : ∀ k : Fin 256, greyInt (UInt8.ofNat k.val) (luminosity (toF 0) (toF 0) (toF 0)) = 0 := by
  decide +kernel

theorem grey_one : ∀ k : Fin 256, greyInt (UInt8.ofNat k.val) (luminosity (toF 1) (toF 1) (toF 1)) ∈ [0, 254, 255] := by
  decide +kernel

theorem hundred (r g b : ℕ) (h : 30 * r + 59 * g + 11 * b = 100) : r = 1 ∧ g = 1 ∧ b = 1 := by
  have hr : r ≤ 3 := by omega
  have hg : g ≤ 1 := by omega
  interval_cases r <;> interval_cases g <;> omega

/-- What the luminosity of a grey is set to decides what becomes of it. -/
theorem greyInt_spec (k : UInt8) (c : Color) :
    (lum (channels c) ≤ 1 ∧ ∃ y : ℝ, |y - 255 * lum (channels c)| ≤ 1 / 20 ∧
      greyInt k (luminosity (toF c.r) (toF c.g) (toF c.b)) = truncate y) ∨
    (1 ≤ lum (channels c) ∧ greyInt k (luminosity (toF c.r) (toF c.g) (toF c.b)) ∈ [0, 254, 255]) := by
  have hu := u_pos
  have hu1 := u_small
  norm_num at hu1
  have hk : UInt8.ofNat (⟨k.toNat, k.toNat_lt⟩ : Fin 256).val = k := UInt8.ofNat_toNat
  obtain ⟨N, hN⟩ : ∃ N : ℕ, N = 30 * c.r.toNat + 59 * c.g.toNat + 11 * c.b.toNat := ⟨_, rfl⟩
  have hL : lum (channels c) = N / 100 := by
    rw [hN]
    have h2 : ¬ (2 : Fin 3) = 0 := by decide
    have h3 : ¬ (2 : Fin 3) = 1 := by decide
    simp only [lum, channels, if_true, h2, h3, if_false, one_ne_zero]
    push_cast
    ring
  have e0 : ∀ x : UInt8, x.toNat = 0 → x = 0 := fun x hx => UInt8.toNat_inj.1 hx
  have e1 : ∀ x : UInt8, x.toNat = 1 → x = 1 := fun x hx => UInt8.toNat_inj.1 hx
  rcases Nat.eq_zero_or_pos N with h0 | h0
  · left
    rw [e0 c.r (by omega), e0 c.g (by omega), e0 c.b (by omega), hL, h0]
    refine ⟨by norm_num, 0, by norm_num, ?_⟩
    have := grey_black ⟨k.toNat, k.toNat_lt⟩
    rw [hk] at this
    rw [this]
    simp [truncate]
  by_cases h100 : N = 100
  · right
    obtain ⟨q1, q2, q3⟩ := hundred _ _ _ (hN.symm.trans h100)
    rw [e1 c.r q1, e1 c.g q2, e1 c.b q3, hL, h100]
    refine ⟨by norm_num, ?_⟩
    have := grey_one ⟨k.toNat, k.toNat_lt⟩
    rw [hk] at this
    exact this
  obtain ⟨ht, hL0, hL1⟩ := near_lum c
  rw [hL] at ht hL0 hL1 ⊢
  obtain ⟨L, hLL⟩ : ∃ L : ℝ, L = (N : ℝ) / 100 := ⟨_, rfl⟩
  rw [← hLL] at ht hL0 hL1 ⊢
  generalize luminosity (toF c.r) (toF c.g) (toF c.b) = t at ht ⊢
  have hX := near_toF k
  have hk0 : (0 : ℝ) ≤ k.toNat := Nat.cast_nonneg _
  have hk1 : (k.toNat : ℝ) ≤ 255 := by
    have := k.toNat_lt
    exact_mod_cast (by omega : k.toNat ≤ 255)
  have hlx := near_luminosity (c := fun _ => (k.toNat : ℝ)) hX hX hX (fun _ => by rw [abs_of_nonneg hk0]; linarith)
    (by norm_num)
  have el : ∀ x : ℝ, lum (fun _ => x) = x := fun x => by unfold lum; ring
  rw [el] at hlx
  have hsub := near_sub ht hlx (by
    have : |L - k.toNat| ≤ 255 := by rw [abs_le]; constructor <;> linarith
    linarith)
  have hY' := near_add hX hsub (by
    rw [show (k.toNat : ℝ) + (L - k.toNat) = L by ring, abs_of_nonneg hL0]
    linarith)
  rw [show (k.toNat : ℝ) + (L - k.toNat) = L by ring] at hY'
  obtain ⟨Y, hYdef⟩ : ∃ Y, Y = F64.add (toF k) (F64.sub t (luminosity (toF k) (toF k) (toF k))) := ⟨_, rfl⟩
  rw [← hYdef] at hY'
  have hY := hY'.le (show _ ≤ 20 * u by linarith)
  have hparts := near_lumParts (c := fun _ => L) hY hY hY (fun _ => by rw [abs_of_nonneg hL0]; linarith) (by linarith)
  rw [el] at hparts
  have hl := hparts.2.2.le (show _ ≤ 28 * u by linarith)
  have hbyte : greyInt k t = toI32 (F64.mul (highF (luminosity Y Y Y) Y (lowF (luminosity Y Y Y) Y Y))
      (.ofInt 255)) := by
    have hmin : F64.min Y (F64.min Y Y) = Y := by
      obtain ⟨s, m, e, h, _⟩ := hY
      rw [h]
      simp only [F64.min, ite_self]
    have hmax : F64.max Y (F64.max Y Y) = Y := by
      obtain ⟨s, m, e, h, _⟩ := hY
      rw [h]
      simp only [F64.max, ite_self]
    unfold greyInt setLuminocity
    dsimp only
    rw [← hYdef, clipColor_eq]
    dsimp only
    rw [hmin, hmax]
  have hz : Near (.ofInt 0) 0 0 := by simpa using near_ofInt_exact (n := 0) (by norm_num)
  have ho : Near (.ofInt 1) 1 0 := by simpa using near_ofInt_exact (n := 1) (by norm_num)
  have hLpos : 1 / 100 ≤ L := by
    rw [hLL]
    have : (1 : ℝ) ≤ N := by exact_mod_cast h0
    linarith
  have hlow : lowF (luminosity Y Y Y) Y Y = Y := by
    unfold lowF
    rw [if_neg]
    intro h
    have := (lt_near hY hz).1 h
    linarith
  rw [hbyte, hlow]
  by_cases hlt : N < 100
  · left
    have hL99 : L ≤ 99 / 100 := by
      rw [hLL]
      have : (N : ℝ) ≤ 99 := by exact_mod_cast (by omega : N ≤ 99)
      linarith
    refine ⟨by linarith, ?_⟩
    have hhigh : highF (luminosity Y Y Y) Y Y = Y := by
      unfold highF
      rw [if_neg]
      intro h
      have := (lt_near ho hY).1 h
      linarith
    rw [hhigh]
    exact near_hslInt (hY.le (by linarith)) (by rw [abs_of_nonneg hL0]; linarith)
  · right
    have hL101 : 101 / 100 ≤ L := by
      rw [hLL]
      have : (101 : ℝ) ≤ N := by exact_mod_cast (by omega : 101 ≤ N)
      linarith
    refine ⟨by linarith, ?_⟩
    have hhigh : highF (luminosity Y Y Y) Y Y = F64.add (luminosity Y Y Y) (F64.div (F64.mul (F64.sub Y (luminosity Y Y Y))
        (F64.sub (.ofInt 1) (luminosity Y Y Y))) (F64.sub Y (luminosity Y Y Y))) := by
      unfold highF
      rw [if_pos]
      by_contra h
      have := (lt_near ho hY).2 (by simpa using h)
      linarith
    have hYe : ∃ s m e, Y = fin s m e ∧ -60 ≤ e := by
      rw [hYdef]
      exact exp_add hX hsub (by linarith) (by linarith)
    have hle : ∃ s m e, luminosity Y Y Y = fin s m e ∧ -60 ≤ e :=
      exp_add hparts.1 hparts.2.1 (by linarith) (by linarith)
    rw [hhigh]
    rcases toI32_noise hY hl hYe hle hL101 hL1 _ rfl with h | h | h <;> rw [h] <;> decide

theorem greyByte_spec (k : UInt8) (c : Color) :
    (lum (channels c) ≤ 1 ∧ ∃ y : ℝ, |y - 255 * lum (channels c)| ≤ 1 / 20 ∧
      toI (greyByte k (luminosity (toF c.r) (toF c.g) (toF c.b))) = truncate y % 256) ∨
    (1 ≤ lum (channels c) ∧ greyByte k (luminosity (toF c.r) (toF c.g) (toF c.b)) ∈ [0, 254, 255]) := by
  unfold greyByte
  rcases greyInt_spec k c with ⟨h, y, hy, h1⟩ | ⟨h, h1⟩
  · exact .inl ⟨h, y, hy, by rw [toI_asU8, h1]⟩
  · refine .inr ⟨h, ?_⟩
    simp only [List.mem_cons, List.not_mem_nil, or_false] at h1
    rcases h1 with h1 | h1 | h1 <;> rw [h1] <;> decide

/-! ## When there is no saturation -/

theorem sub_self_zero (x : UInt8) : F64.sub (toF x) (toF x) = .ofInt 0 := by
  obtain ⟨s, m, e, h, _⟩ := near_toF x
  rw [h]
  have : mant s m e (Min.min e e) + mant (!s) m e (Min.min e e) = 0 := by
    unfold mant
    cases s <;> simp
  unfold F64.sub F64.neg F64.add
  dsimp only
  rw [if_pos this]
  cases s <;> rfl

theorem sat_zero {c : Colour} (h : sat c = 0) (i j : Fin 3) : c i = c j := by
  have h1 := least_le c i; have h2 := least_le c j
  have h3 := le_most c i; have h4 := le_most c j
  unfold sat at h
  linarith

theorem channels_grey {c : Color} (h : sat (channels c) = 0) : c.g = c.r ∧ c.b = c.r := by
  have h1 := sat_zero h 1 0
  have h2 := sat_zero h 2 0
  have h3 : ¬ (2 : Fin 3) = 0 := by decide
  have h4 : ¬ (2 : Fin 3) = 1 := by decide
  simp only [channels, if_true, h3, h4, if_false, one_ne_zero, Nat.cast_inj] at h1 h2
  exact ⟨UInt8.toNat_inj.1 h1, UInt8.toNat_inj.1 h2⟩

/-- The difference of two bytes is not a negative zero. -/
theorem sub_sign {a b : UInt8} (h : b.toNat ≤ a.toNat) : ∃ m e, F64.sub (toF a) (toF b) = fin false m e := by
  have hf : ∀ x : UInt8, ∃ m e, toF x = fin false m e := fun x => by
    obtain ⟨m, e, h1, _⟩ := round_exact false (n := x.toNat) (d := 1) (N := x.toNat) (by norm_num) (by simp)
      (by have := x.toNat_lt; omega)
    refine ⟨m, e, ?_⟩
    unfold toF ofInt toI
    rw [decide_eq_false (by omega), Int.natAbs_natCast]
    exact h1
  obtain ⟨m, e, ha⟩ := hf a
  obtain ⟨m', e', hb⟩ := hf b
  have hva := (near_toF a).exact
  have hvb := (near_toF b).exact
  obtain ⟨s₁, m₁, e₁, h1, _⟩ := near_sub_exact (x := toF a) (y := toF b) (a := (a.toNat : ℤ)) (b := (b.toNat : ℤ))
    (by simpa using near_toF a) (by simpa using near_toF b) (by have := a.toNat_lt; omega)
  rw [h1]
  refine ⟨m₁, e₁, ?_⟩
  congr 1
  rw [ha] at h1 hva
  rw [hb] at h1 hvb
  unfold F64.sub F64.neg F64.add at h1
  dsimp only [Bool.not_false] at h1
  have hv : ((mant false m e (Min.min e e') + mant true m' e' (Min.min e e') : ℤ) : ℝ) * 2 ^ (Min.min e e')
      = (a.toNat : ℝ) - b.toNat := by
    rw [Int.cast_add, add_mul, mant_val _ _ (by omega), mant_val _ _ (by omega), hva, ← hvb]
    simp [val, sgn]
    ring
  change (if mant false m e (Min.min e e') + mant true m' e' (Min.min e e') = 0 then _ else _) = _ at h1
  simp only [Bool.not_false] at h1
  generalize mant false m e (Min.min e e') + mant true m' e' (Min.min e e') = n at h1 hv
  have hn : ¬ n < 0 := by
    intro hn
    have h2 : (n : ℝ) < 0 := by exact_mod_cast hn
    have h3 := mul_neg_of_neg_of_pos h2 (two_zpow_pos (Min.min e e'))
    have h4 : (b.toNat : ℝ) ≤ a.toNat := by exact_mod_cast h
    linarith
  split at h1
  · injection h1 with h2
    exact h2.symm
  · rw [decide_eq_false hn] at h1
    unfold roundScaled F64.round at h1
    split at h1
    · injection h1 with h2
      exact h2.symm
    · dsimp only at h1
      split at h1
      · split at h1
        · cases h1
        · injection h1 with h2
          exact h2.symm
      · split at h1
        · cases h1
        · injection h1 with h2
          exact h2.symm

theorem saturation_grey {c : Color} (h : sat (channels c) = 0) :
    saturation (toF c.r) (toF c.g) (toF c.b) = .ofInt 0 := by
  obtain ⟨hg, hb⟩ := channels_grey h
  rw [hg, hb]
  have hmin : F64.min (toF c.r) (F64.min (toF c.r) (toF c.r)) = toF c.r := by
    obtain ⟨s, m, e, h, _⟩ := near_toF c.r
    rw [h]
    simp only [F64.min, ite_self]
  have hmax : F64.max (toF c.r) (F64.max (toF c.r) (toF c.r)) = toF c.r := by
    obtain ⟨s, m, e, h, _⟩ := near_toF c.r
    rw [h]
    simp only [F64.max, ite_self]
  rw [saturation, hmin, hmax, sub_self_zero]

/-- A colour that gets the same channels everywhere gets zeros. -/
theorem setSaturation_grey {c d : Color} (h : sat (setSatTies (channels c) (sat (channels d))) = 0) (i : Fin 3) :
    pick (setSaturation (toF c.r) (toF c.g) (toF c.b) (saturation (toF d.r) (toF d.g) (toF d.b))) i = .ofInt 0 := by
  obtain ⟨mn, mid, mx, hsort⟩ : ∃ mn mid mx, sortN (chN c 0) (chN c 1) (chN c 2) = (mn, mid, mx) := ⟨_, _, _, rfl⟩
  have hspec := sortN_spec (chN c) mn mid mx hsort
  have hp := near_pick c
  have hsort' : staticSort3Orig (toF c.r) (toF c.g) (toF c.b) = (mn, mid, mx) :=
    (sort_nat (hp 0) (hp 1) (hp 2)).trans hsort
  have hch := channels_eq c
  have hleast : least (channels c) = chN c mn := by
    refine le_antisymm (hch mn ▸ least_le (channels c) mn) ?_
    obtain ⟨j, hj⟩ := least_mem (channels c)
    rw [← hj, hch]
    exact_mod_cast (hspec j).1
  have hmost : most (channels c) = chN c mx := by
    refine le_antisymm ?_ (hch mx ▸ le_most (channels c) mx)
    obtain ⟨j, hj⟩ := most_mem (channels c)
    rw [← hj, hch]
    exact_mod_cast (hspec j).2.1
  have htie : ∀ i, ((i = 0 ∧ channels c 0 = channels c 1 ∧ channels c 1 ≤ channels c 2) ∨
      (i = 1 ∧ channels c 1 = channels c 2 ∧ channels c 2 < channels c 0)) ↔ Tie (chN c) i := fun i => by
    unfold Tie
    simp only [hch, Nat.cast_inj, Nat.cast_le, Nat.cast_lt]
  have hval : ∀ i, setSatTies (channels c) (sat (channels d)) i = 0 := fun i => by
    rw [sat_zero h i mn]
    unfold setSatTies
    rw [if_neg fun hc => ((hspec mn).2.2.2 ((htie mn).1 hc)).1 rfl, setSat, hleast, hch, sub_self, zero_mul, zero_div]
  have hT : Tie (chN c) i → pick (toF c.r, toF c.g, toF c.b) i = .ofInt 0 := fun ht => by
    have h1 := hval i
    unfold setSatTies at h1
    rw [if_pos ((htie i).2 ht), hch] at h1
    have h2 : chN c i = 0 := by exact_mod_cast h1
    have e0 : ∀ x : UInt8, x.toNat = 0 → toF x = .ofInt 0 := fun x hx => by
      rw [show x = 0 from UInt8.toNat_inj.1 hx]
      rfl
    fin_cases i
    · exact e0 _ h2
    · exact e0 _ h2
    · exact e0 _ h2
  rw [pick_setSaturation _ _ _ _ mn mid mx hsort', lt_nat (hp mn) (hp mx)]
  by_cases h1 : i = mn
  · rw [if_pos h1]
  rw [if_neg h1]
  have hrest : i ≠ mx → i ≠ mid → pick (toF c.r, toF c.g, toF c.b) i = .ofInt 0 := fun h2 h3 =>
    hT ((hspec i).2.2.1 ⟨h1, h3, h2⟩)
  by_cases hlt : chN c mn < chN c mx
  · rw [if_pos (by simpa using hlt)]
    have hS : sat (channels d) = 0 := by
      have h2 := hval mx
      unfold setSatTies at h2
      have hlt' : (chN c mn : ℝ) < chN c mx := by exact_mod_cast hlt
      rw [if_neg fun hc => ((hspec mx).2.2.2 ((htie mx).1 hc)).2.2 rfl, setSat, hleast, hmost, hch,
        mul_div_cancel_left₀ _ (sub_ne_zero.2 hlt'.ne')] at h2
      exact h2
    rw [saturation_grey hS]
    by_cases h2 : i = mx
    · rw [if_pos h2]
    rw [if_neg h2]
    by_cases h3 : i = mid
    · rw [if_pos h3]
      have hpc : ∀ j, ∃ x : UInt8, pick (toF c.r, toF c.g, toF c.b) j = toF x ∧ x.toNat = chN c j := fun j => by
        fin_cases j
        · exact ⟨c.r, rfl, rfl⟩
        · exact ⟨c.g, rfl, rfl⟩
        · exact ⟨c.b, rfl, rfl⟩
      obtain ⟨x, hx, hx'⟩ := hpc mid
      obtain ⟨y, hy, hy'⟩ := hpc mn
      obtain ⟨z, hz, hz'⟩ := hpc mx
      rw [hx, hy, hz]
      obtain ⟨m₁, e₁, q1⟩ := sub_sign (a := x) (b := y) (by have := (hspec mid).1; omega)
      obtain ⟨m₂, e₂, q2⟩ := sub_sign (a := z) (b := y) (by omega)
      have hm₂ : m₂ ≠ 0 := by
        rintro rfl
        have q3 := (near_sub_exact (x := toF z) (y := toF y) (a := (z.toNat : ℤ)) (b := (y.toNat : ℤ))
          (by simpa using near_toF z) (by simpa using near_toF y) (by have := z.toNat_lt; omega)).exact
        rw [q2] at q3
        have q4 : ((z.toNat : ℤ) - y.toNat : ℤ) = 0 := by
          have : (((z.toNat : ℤ) - y.toNat : ℤ) : ℝ) = 0 := by rw [← q3]; simp [val]
          exact_mod_cast this
        omega
      rw [q1, q2]
      have hzero : F64.ofInt 0 = fin false 0 (-1074) := rfl
      rw [hzero]
      simp [F64.mul, F64.div, roundScaled, F64.round, hm₂]
    · rw [if_neg h3]
      exact hrest h2 h3
  · rw [if_neg (by simpa using hlt)]
    by_cases h2 : i = mx
    · rw [if_pos h2]
    rw [if_neg h2]
    by_cases h3 : i = mid
    · rw [if_pos h3]
    · rw [if_neg h3]
      exact hrest h2 h3

end Ase
