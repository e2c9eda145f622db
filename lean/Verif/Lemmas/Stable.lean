import Verif.Spec.Stable
import Verif.Lemmas.Channels

/-!
# Blending two similar channels
-/

namespace Ase

open Spec

theorem normalC_shift {b b' s s' : UInt8} (ba sa o : UInt8) {k : Int} (hb : toI b' ≤ toI b + k)
    (hs : toI s' ≤ toI s + k) : toI (normalC b' ba s' sa o) ≤ toI (normalC b ba s sa o) + k := by
  unfold normalC
  by_cases h0 : ba = 0
  · rw [if_pos h0, if_pos h0]; exact hs
  · by_cases h1 : sa = 0
    · rw [if_neg h0, if_neg h0, if_pos h1, if_pos h1]; exact hb
    · rw [if_neg h0, if_neg h0, if_neg h1, if_neg h1]
      have h2 := overA_bounds ba (timesU sa o)
      have h3 := toI_pos h0
      have h4 := overC_byte b s (timesU sa o) _ h2.2.1 (by omega)
      have h5 := overC_byte b' s' (timesU sa o) _ h2.2.1 (by omega)
      rw [asU8_of_byte _ h4, asU8_of_byte _ h5]
      have hf := toI_nonneg (timesU sa o)
      generalize overA ba (timesU sa o) = ra at *
      unfold overC
      generalize toI (timesU sa o) = fa at *
      generalize toI b = b at *
      generalize toI b' = b' at *
      generalize toI s = s at *
      generalize toI s' = s' at *
      have k1 : (s' - b') * fa ≤ (s - b) * fa + (b + k - b') * ra := by
        have e1 : (s - b + (b + k - b')) * fa = (s - b) * fa + (b + k - b') * fa := Int.add_mul _ _ _
        have e2 := Int.mul_le_mul_of_nonneg_right (show s' - b' ≤ s - b + (b + k - b') by omega) hf
        have e3 := Int.mul_le_mul_of_nonneg_left h2.2.1 (show 0 ≤ b + k - b' by omega)
        omega
      have k2 := tdiv_mono (r := ra) (by omega) k1
      have k3 := tdiv_add (x := (s - b) * fa) (k := b + k - b') (r := ra) (by omega) (by omega)
      omega

theorem mix_shift {x x' y y' o k : Int} (hx : x' ≤ x + k) (hy : y' ≤ y + k) (h0 : 0 ≤ o) (h1 : o ≤ 255) :
    mix x' y' o ≤ mix x y o + k := by
  have h := mix_mono hx hy h0 h1
  have e : mix (x + k) (y + k) o = mix x y o + k := by
    unfold mix
    rw [show y + k - (x + k) = y - x by omega]
    by_cases h2 : x ≤ y
    · rw [if_pos h2, if_pos (by omega)]; omega
    · rw [if_neg h2, if_neg (by omega)]; omega
  omega

theorem stepC_shift (g : UInt8 → UInt8 → UInt8) {b b' s s' : UInt8} (ba sa o : UInt8) {k : Int}
    (hb : toI b' ≤ toI b + k) (hs : toI s' ≤ toI s + k) (hg : toI (g b' s') ≤ toI (g b s) + k) :
    stepC g b' ba s' sa o ≤ stepC g b ba s sa o + k := by
  unfold stepC
  by_cases h0 : ba = 0
  · rw [if_pos h0, if_pos h0]; exact hs
  · rw [if_neg h0, if_neg h0]
    have h1 := normalC_shift ba sa o hb hs
    have h2 := normalC_shift ba sa o hb hg
    have h3 := times_le_left ba.toNat (times sa.toNat o.toNat)
      (by have := times_le_left sa.toNat o.toNat (byte_le o); have := byte_le sa; omega)
    have := byte_le ba
    exact mix_shift (mix_shift h1 h2 (toI_nonneg _) (toI_le _)) h2 (by omega) (by omega)

/-! ## The formulas -/

theorem times_shift {b b' s s' d e : Nat} (hb : b' ≤ b + d) (hs : s' ≤ s + e) (h1 : b' ≤ 255) (h2 : s ≤ 255) :
    times b' s' ≤ times b s + (d + e) := by
  have k1 : times b' s ≤ times b s + d := by
    rcases Nat.le_total b b' with h | h
    · have := times_step b b' s h h2; omega
    · have := times_mono (s := s) (s' := s) h (Nat.le_refl _); omega
  have k2 : times b' s' ≤ times b' s + e := by
    rcases Nat.le_total s s' with h | h
    · have := times_step s s' b' h h1
      rw [times_comm s', times_comm s] at this
      omega
    · have := times_mono (b := b') (b' := b') (Nat.le_refl _) h; omega
  omega

theorem screen_shift {b b' s s' d e : Nat} (hb : b' ≤ b + d) (hs : s' ≤ s + e) (h1 : b ≤ 255) (h2 : s ≤ 255)
    (h3 : b' ≤ 255) (h4 : s' ≤ 255) : screen b' s' ≤ screen b s + (d + e) := by
  have k1 := screen_mono (b := b') (b' := max b b') (s := s') (s' := max s s') (by omega) (by omega) (by omega) (by omega)
  have k2 := times_mono (b := b) (b' := max b b') (s := s) (s' := max s s') (by omega) (by omega)
  have k3 := times_le_left b s h2
  unfold screen at *
  omega

theorem exclusion_shift {b b' s s' d e : Nat} (hb : b' ≤ b + d) (hb' : b ≤ b' + d) (hs : s' ≤ s + e) (hs' : s ≤ s' + e)
    (h1 : b ≤ 255) (h2 : s ≤ 255) (h3 : b' ≤ 255) (h4 : s' ≤ 255) : exclusion b' s' ≤ exclusion b s + (d + e) := by
  have left : ∀ b b' s d : Nat, b' ≤ b + d → b ≤ b' + d → b ≤ 255 → b' ≤ 255 → s ≤ 255 →
      exclusion b' s ≤ exclusion b s + d := by
    intro b b' s d hb hb' h1 h3 h2
    have k1 := (exclusion_le b s h1 h2).1
    unfold exclusion
    rcases Nat.le_total b b' with h | h
    · have := times_mono (s := s) (s' := s) h (Nat.le_refl _); omega
    · have := times_step b' b s h h2; omega
  have comm : ∀ b s : Nat, exclusion b s = exclusion s b := by
    intro b s
    unfold exclusion
    rw [times_comm, Nat.add_comm]
  have k1 := left b b' s d hb hb' h1 h3 h2
  have k2 := left s s' b' e hs hs' h2 h4 h3
  rw [comm s', comm s] at k2
  omega

theorem hardLight_shift {b b' s s' d e : Nat} (hb : b' ≤ b + d) (hs : s' ≤ s + e) (h1 : b ≤ 255) (h2 : s ≤ 255)
    (h3 : b' ≤ 255) (h4 : s' ≤ 255) : hardLight b' s' ≤ hardLight b s + (d + 2 * e) := by
  have k1 : hardLight b' s ≤ hardLight b s + d := by
    unfold hardLight multiply
    by_cases h : s < 128
    · rw [if_pos h, if_pos h]
      exact times_shift (e := 0) hb (by omega) h3 (by omega)
    · rw [if_neg h, if_neg h]
      exact screen_shift (e := 0) hb (by omega) h1 (by omega) h3 (by omega)
  have k2 : hardLight b' s' ≤ hardLight b' s + 2 * e := by
    rcases Nat.le_total s' s with h | h
    · have := hardLight_mono (Nat.le_refl b') h h3 h2
      omega
    · unfold hardLight multiply
      by_cases h5 : s' < 128
      · rw [if_pos h5, if_pos (by omega)]
        have := times_shift (b := b') (b' := b') (s := 2 * s) (s' := 2 * s') (d := 0) (e := 2 * e) (Nat.le_refl _) (by omega)
          h3 (by omega)
        omega
      · rw [if_neg h5]
        by_cases h6 : s < 128
        · rw [if_pos h6]
          have e1 : times b' 255 = b' := by
            rw [times, roundDiv_eq]
            omega
          have e2 := times_shift (b := b') (b' := b') (s := 2 * s) (s' := 255) (d := 0) (e := 255 - 2 * s) (Nat.le_refl _)
            (by omega) h3 (by omega)
          rw [e1] at e2
          unfold screen
          omega
        · rw [if_neg h6]
          have := screen_shift (b := b') (b' := b') (s := 2 * s - 255) (s' := 2 * s' - 255) (d := 0) (e := 2 * e)
            (Nat.le_refl _) (by omega) h3 (by omega) h3 (by omega)
          omega
  omega

theorem channelFn_shift (m : BlendMode) (hm : gentle m = true) (f : Nat → Nat → Nat) (hf : channelFn m = some f)
    {b b' s s' d e : Nat} (hb : b' ≤ b + d) (hb' : b ≤ b' + d) (hs : s' ≤ s + e) (hs' : s ≤ s' + e)
    (h1 : b ≤ 255) (h2 : s ≤ 255) (h3 : b' ≤ 255) (h4 : s' ≤ 255) : f b' s' ≤ f b s + drift m d e := by
  cases m <;> simp only [gentle, reduceCtorEq] at hm <;> simp only [channelFn, Option.some.injEq, reduceCtorEq] at hf <;>
    subst hf <;> simp only [drift]
  · omega
  · exact times_shift hb hs h3 h2
  · exact screen_shift hb hs h1 h2 h3 h4
  · have := hardLight_shift hs hb h2 h1 h4 h3
    unfold overlay
    omega
  · simp only [darken]; omega
  · simp only [lighten]; omega
  · exact hardLight_shift hb hs h1 h2 h3 h4
  · simp only [difference]; omega
  · exact exclusion_shift hb hb' hs hs' h1 h2 h3 h4
  · simp only [addition]; omega
  · simp only [subtract]; omega

theorem drift_ge (m : BlendMode) (d e : Nat) : d ≤ drift m d e ∧ e ≤ drift m d e := by
  unfold drift
  split <;> omega

/-! ### Soft light -/

theorem softLightD_gentle {b b' : ℝ} (h0 : 1 / 4 ≤ b) (h : b ≤ b') : softLightD b' - softLightD b ≤ b' - b := by
  have val : ∀ x : ℝ, 1 / 4 ≤ x → softLightD x = √x := by
    intro x hx
    unfold softLightD
    split
    · next h1 =>
      have : x = (1 / 2) ^ 2 := by norm_num; linarith
      rw [this, Real.sqrt_sq (by norm_num)]
      norm_num
    · rfl
  rw [val b h0, val b' (by linarith)]
  have h1 : (1 / 2 : ℝ) ≤ √b := Real.le_sqrt_of_sq_le (by norm_num; linarith)
  have h2 := Real.sqrt_le_sqrt h
  have h3 := Real.mul_self_sqrt (show 0 ≤ b by linarith)
  have h4 := Real.mul_self_sqrt (show 0 ≤ b' by linarith)
  nlinarith

theorem softLightD_steep {b b' : ℝ} (h0 : 0 ≤ b) (h : b ≤ b') : softLightD b' - softLightD b ≤ 4 * (b' - b) := by
  have low : ∀ x y : ℝ, 0 ≤ x → x ≤ y → y ≤ 1 / 4 → softLightD y - softLightD x ≤ 4 * (y - x) := by
    intro x y hx hxy hy
    unfold softLightD
    rw [if_pos hy, if_pos (by linarith)]
    have : 0 ≤ (y - x) * (12 * (x + y) - 16 * (x * x + x * y + y * y)) :=
      mul_nonneg (by linarith) (by nlinarith)
    nlinarith
  by_cases h1 : b' ≤ 1 / 4
  · exact low b b' h0 h h1
  · by_cases h2 : b ≤ 1 / 4
    · have k1 := low b (1 / 4) h0 h2 (le_refl _)
      have k2 := softLightD_gentle (le_refl (1 / 4)) (show 1 / 4 ≤ b' by linarith)
      linarith
    · have := softLightD_gentle (show 1 / 4 ≤ b by linarith) h
      linarith

theorem softLightD_above {b : ℝ} (h0 : 0 ≤ b) : softLightD b - b ≤ 1 / 4 := by
  unfold softLightD
  split
  · next h => nlinarith [mul_nonneg (show 0 ≤ 1 - b by linarith) (sq_nonneg (4 * b - 1)), mul_nonneg h0 (sq_nonneg (4 * b - 1))]
  · nlinarith [Real.mul_self_sqrt h0, sq_nonneg (√b - 1 / 2)]

theorem softLight_back {b b' s : ℝ} (h0 : 0 ≤ b) (hb : b ≤ b') (h1 : b' ≤ 1) (k0 : 0 ≤ s) (k1 : s ≤ 1) :
    Spec.softLight b' s - Spec.softLight b s ≤ 4 * (b' - b) ∧
    (s ≤ b → Spec.softLight b' s - Spec.softLight b s ≤ 2 * (b' - b)) := by
  unfold Spec.softLight
  by_cases h2 : s ≤ 1 / 2
  · rw [if_pos h2, if_pos h2]
    have e : 0 ≤ (b' - b) * (1 + (1 - 2 * s) * (1 - b - b')) := mul_nonneg (by linarith) (by nlinarith)
    have e2 : b' - (1 - 2 * s) * b' * (1 - b') - (b - (1 - 2 * s) * b * (1 - b)) ≤ 2 * (b' - b) := by nlinarith
    exact ⟨by linarith, fun _ => e2⟩
  · rw [if_neg h2, if_neg h2]
    push Not at h2
    constructor
    · have := softLightD_steep h0 hb
      nlinarith [mul_le_mul_of_nonneg_left this (show 0 ≤ 2 * s - 1 by linarith)]
    · intro h3
      have := softLightD_gentle (show 1 / 4 ≤ b by linarith) hb
      nlinarith [mul_le_mul_of_nonneg_left this (show 0 ≤ 2 * s - 1 by linarith)]

theorem softLight_front {b s s' : ℝ} (h0 : 0 ≤ b) (hs : s ≤ s') :
    Spec.softLight b s' - Spec.softLight b s ≤ (s' - s) / 2 := by
  have k1 := softLightD_above h0
  have k2 : b * (1 - b) ≤ 1 / 4 := by nlinarith [sq_nonneg (b - 1 / 2)]
  unfold Spec.softLight
  by_cases h2 : s' ≤ 1 / 2
  · rw [if_pos h2, if_pos (by linarith)]
    nlinarith [mul_le_mul_of_nonneg_left k2 (show 0 ≤ s' - s by linarith)]
  · rw [if_neg h2]
    push Not at h2
    have e2 := mul_le_mul_of_nonneg_left k1 (show 0 ≤ 2 * s' - 1 by linarith)
    by_cases h3 : s ≤ 1 / 2
    · rw [if_pos h3]
      have e1 := mul_le_mul_of_nonneg_left k2 (show 0 ≤ 1 - 2 * s by linarith)
      nlinarith
    · rw [if_neg h3]
      nlinarith [mul_le_mul_of_nonneg_left k1 (show 0 ≤ s' - s by linarith)]

theorem softU_real (b s : UInt8) : (softU b s).toNat - 1 / 2 ≤ 255 * Spec.softLight (b.toNat / 255 : ℝ) (s.toNat / 255) ∧
    255 * Spec.softLight (b.toNat / 255 : ℝ) (s.toNat / 255) < (softU b s).toNat + 1 / 2 := (softU_spec b s).2

theorem channel_real (x : UInt8) : (0 : ℝ) ≤ x.toNat / 255 ∧ (x.toNat : ℝ) / 255 ≤ 1 := by
  have : (x.toNat : ℝ) ≤ 255 := by exact_mod_cast byte_le x
  exact ⟨by positivity, by linarith⟩

theorem softU_shift {b b' s s' : UInt8} {d e : Nat} (hb : b'.toNat ≤ b.toNat + d) (hs : s'.toNat ≤ s.toNat + e) :
    (softU b' s').toNat ≤ (softU b s).toNat + (4 * d + (e + 1) / 2) := by
  have key : ∀ b b' s s' : UInt8, b ≤ b' → s ≤ s' → b'.toNat ≤ b.toNat + d → s'.toNat ≤ s.toNat + e →
      (softU b' s').toNat ≤ (softU b s).toNat + (4 * d + (e + 1) / 2) := by
    intro b b' s s' h1 h2 hb hs
    rw [UInt8.le_iff_toNat_le] at h1 h2
    have r1 : (b.toNat : ℝ) ≤ b'.toNat := by exact_mod_cast h1
    have r2 : (s.toNat : ℝ) ≤ s'.toNat := by exact_mod_cast h2
    have r3 : (b'.toNat : ℝ) ≤ b.toNat + d := by exact_mod_cast hb
    have r4 : (s'.toNat : ℝ) ≤ s.toNat + e := by exact_mod_cast hs
    have k1 := (softLight_back (channel_real b).1 (show (b.toNat / 255 : ℝ) ≤ b'.toNat / 255 by linarith)
      (channel_real b').2 (channel_real s).1 (channel_real s).2).1
    have k2 := softLight_front (channel_real b').1 (show (s.toNat / 255 : ℝ) ≤ s'.toNat / 255 by linarith)
    have k3 := (softU_real b s).2
    have k4 := (softU_real b' s').1
    have : (2 * (softU b' s').toNat : ℝ) < 2 * (softU b s).toNat + 2 + 8 * d + e := by linarith
    have : 2 * (softU b' s').toNat < 2 * (softU b s).toNat + 2 + 8 * d + e := by exact_mod_cast this
    omega
  have upper : ∀ x y : UInt8, ∃ z : UInt8, x ≤ z ∧ y ≤ z ∧ (z = x ∨ z = y) := by
    intro x y
    simp only [UInt8.le_iff_toNat_le]
    rcases Nat.le_total x.toNat y.toNat with h | h
    · exact ⟨y, h, Nat.le_refl _, .inr rfl⟩
    · exact ⟨x, Nat.le_refl _, h, .inl rfl⟩
  obtain ⟨c, c1, c2, c3⟩ := upper b b'
  obtain ⟨r, r1, r2, r3⟩ := upper s s'
  have k1 := key b c s r c1 r1 (by rcases c3 with rfl | rfl <;> omega) (by rcases r3 with rfl | rfl <;> omega)
  have k2 := UInt8.le_iff_toNat_le.1 (softU_mono c2 r2)
  omega

theorem softU_twice {b b' : UInt8} {d : Nat} (hb : b'.toNat ≤ b.toNat + d) :
    (softU b' b').toNat ≤ (softU b b).toNat + 4 * d := by
  rcases Nat.le_total b'.toNat b.toNat with h | h
  · have := UInt8.le_iff_toNat_le.1 (softU_mono (UInt8.le_iff_toNat_le.2 h) (UInt8.le_iff_toNat_le.2 h))
    omega
  · have r1 : (b.toNat : ℝ) ≤ b'.toNat := by exact_mod_cast h
    have r3 : (b'.toNat : ℝ) ≤ b.toNat + d := by exact_mod_cast hb
    have hb2 : (b.toNat / 255 : ℝ) ≤ b'.toNat / 255 := by linarith
    have k1 := (softLight_back (channel_real b).1 hb2 (channel_real b').2 (channel_real b).1 (channel_real b).2).2 (le_refl _)
    have k2 := softLight_front (channel_real b').1 hb2
    have k3 := (softU_real b b).2
    have k4 := (softU_real b' b').1
    have : (2 * (softU b' b').toNat : ℝ) < 2 * (softU b b).toNat + 2 + 5 * d := by linarith
    have : 2 * (softU b' b').toNat < 2 * (softU b b).toNat + 2 + 5 * d := by exact_mod_cast this
    omega

theorem stepC_within (m : BlendMode) (hm : gentle m = true) (ch : Color → UInt8) {b b' s s' : UInt8} (ba sa o : UInt8)
    {d e : Nat} (hb : Within d b b') (hs : Within e s s') :
    stepC (modeG m ch) b' ba s' sa o ≤ stepC (modeG m ch) b ba s sa o + drift m d e := by
  have k := drift_ge m d e
  have hb2 := hb.2
  have hs2 := hs.2
  refine stepC_shift _ ba sa o (by simp only [toI]; omega) (by simp only [toI]; omega) ?_
  cases hf : channelFn m with
  | some f =>
    have hg := channelFn_shift m hm f hf hb.2 hb.1 hs.2 hs.1 (byte_le b) (byte_le s) (byte_le b') (byte_le s')
    have l1 := channelFn_le m f hf _ _ (byte_le b) (byte_le s)
    have l2 := channelFn_le m f hf _ _ (byte_le b') (byte_le s')
    rw [modeG, hf]
    simp only [toI]
    rw [chU_toNat _ _ _ l1, chU_toNat _ _ _ l2]
    omega
  | none =>
    have hm : m = .softLight := by
      cases m <;> first | rfl | (simp [channelFn] at hf; done) | (simp [gentle] at hm; done)
    subst hm
    rw [modeG, hf]
    simp only [toI, drift]
    have k1 := softU_shift hb2 hs2
    have k2 := softU_twice hb2
    split <;> (try dsimp only) <;> omega

/-- What holds of two pixels with a bound, when each pair of related strokes passes on a new bound, holds with the last
bound after all strokes. -/
theorem fold_bound (plat : Plat) (R : Nat → Color → Color → Prop) (S : Stroke → Stroke → Prop) (next : Stroke → Nat → Nat)
    (step : ∀ k s s' c c' d d', S s s' → R k c c' → blend plat s.mode c s.color s.opacity = .ok d →
      blend plat s'.mode c' s'.color s'.opacity = .ok d' → R (next s k) d d')
    {ss ss' : List Stroke} (hs : List.Forall₂ S ss ss') {k : Nat} {c c' d d' : Color} (hc : R k c c')
    (h : ss.foldl (fun (r : Run Color) s => r.bind fun c => blend plat s.mode c s.color s.opacity) (.ok c) = .ok d)
    (h' : ss'.foldl (fun (r : Run Color) s => r.bind fun c => blend plat s.mode c s.color s.opacity) (.ok c') = .ok d') :
    R (ss.foldl (fun k s => next s k) k) d d' := by
  have stuck : ∀ (ss : List Stroke) (k : Panic), ss.foldl (fun (r : Run Color) s =>
      r.bind fun c => blend plat s.mode c s.color s.opacity) (.panic k) = .panic k := by
    intro ss k
    induction ss with
    | nil => rfl
    | cons s ss ih => exact ih
  have first : ∀ (s : Stroke) (ss : List Stroke) (c d : Color), (s :: ss).foldl (fun (r : Run Color) s =>
      r.bind fun c => blend plat s.mode c s.color s.opacity) (.ok c) = .ok d →
      ∃ c1, blend plat s.mode c s.color s.opacity = .ok c1 ∧
        ss.foldl (fun (r : Run Color) s => r.bind fun c => blend plat s.mode c s.color s.opacity) (.ok c1) = .ok d := by
    intro s ss c d h
    rw [List.foldl_cons] at h
    cases hb : blend plat s.mode c s.color s.opacity with
    | err e => exact nomatch e
    | panic k =>
      have : (Outcome.bind (.ok c) fun c => blend plat s.mode c s.color s.opacity) = .panic k := hb
      rw [this, stuck] at h
      cases h
    | ok c1 =>
      have : (Outcome.bind (.ok c) fun c => blend plat s.mode c s.color s.opacity) = .ok c1 := hb
      rw [this] at h
      exact ⟨c1, rfl, h⟩
  induction hs generalizing k c c' with
  | nil =>
    cases h
    cases h'
    exact hc
  | cons hss _ ih =>
    obtain ⟨c1, h1, h2⟩ := first _ _ _ _ h
    obtain ⟨c1', h1', h2'⟩ := first _ _ _ _ h'
    exact ih (step _ _ _ _ _ _ _ hss hc h1 h1') h2 h2'

end Ase
