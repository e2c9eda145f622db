import Verif.Spec.Channels
import Verif.Props.Alpha

/-!
# Blending one channel
-/

namespace Ase

open Spec

/-- One channel of `normal`. -/
def normalC (b ba s sa o : UInt8) : UInt8 :=
  if ba = 0 then s else if sa = 0 then b else asU8 (overC b s (timesU sa o) (overA ba (timesU sa o)))

theorem normalU_channelC (back front : Color) (o : UInt8) (ch : Color → UInt8) (hch : IsChannel ch) :
    ch (normalU back front o) = normalC (ch back) back.a (ch front) front.a o := by
  unfold normalU normalC
  rcases hch with rfl | rfl | rfl <;> split <;> first | rfl | (split <;> rfl)

/-- One channel of a mode that computes channels from `g`. -/
def stepC (g : UInt8 → UInt8 → UInt8) (b ba s sa o : UInt8) : Int :=
  if ba = 0 then toI s else
    mix (mix (toI (normalC b ba s sa o)) (toI (normalC b ba (g b s) sa o)) (toI ba)) (toI (normalC b ba (g b s) sa o))
      (times ba.toNat (times sa.toNat o.toNat))

/-- The channel function of a mode. -/
def modeG (m : BlendMode) (ch : Color → UInt8) : UInt8 → UInt8 → UInt8 :=
  match channelFn m with
  | some f => chU f
  | none => if ch ⟨0, 0, 1, 0⟩ = 1 then fun b _ => softU b b else softU

theorem blender_step (back front col : Color) (o : UInt8) (hc : col.a = front.a) (ch : Color → UInt8) (hch : IsChannel ch)
    (g : UInt8 → UInt8 → UInt8) (hg : ch col = g (ch back) (ch front)) :
    toI (ch (blenderU back front o (normalU back col o))) = stepC g (ch back) back.a (ch front) front.a o := by
  unfold stepC
  by_cases hb : back.a = 0
  · rw [if_pos hb, blenderU, if_neg (by simpa using hb), normalU_channelC _ _ _ _ hch, normalC, if_pos hb]
  · rw [if_neg hb, (blenderU_mix back front o _ hb (normalU_alpha back front col o hc)).2 ch hch,
      normalU_channelC _ _ _ _ hch, normalU_channelC _ _ _ _ hch, hc, hg]

theorem blend_step (plat : Plat) (m : BlendMode) (hm : isHsl m = false) (back front c : Color) (o : UInt8)
    (h : blend plat m back front o = .ok c) (ch : Color → UInt8) (hch : IsChannel ch) :
    toI (ch c) = stepC (modeG m ch) (ch back) back.a (ch front) front.a o := by
  cases hf : channelFn m with
  | some f =>
    obtain ⟨g, h1, h2⟩ := mode_eq plat m f hf
    rw [blend, h1, run_bind_ok, h2, modeU] at h
    cases h
    refine blender_step back front (chanU f back front) o rfl ch hch _ ?_
    rw [modeG, hf]
    rcases hch with rfl | rfl | rfl <;> rfl
  | none =>
    cases m <;> first | (simp [isHsl] at hm; done) | (simp [channelFn] at hf; done) | skip
    · rw [blend_softLight] at h
      cases h
      refine blender_step back front (softColor back front) o rfl ch hch _ ?_
      rcases hch with rfl | rfl | rfl <;> rfl
    · cases h

/-! ## Monotony -/

theorem tdiv_mono {x y r : Int} (hr : 0 < r) (h : x ≤ y) : x.tdiv r ≤ y.tdiv r := by
  rcases Int.le_total 0 x with h0 | h0
  · rw [Int.tdiv_eq_ediv_of_nonneg h0, Int.tdiv_eq_ediv_of_nonneg (by omega)]
    exact Int.ediv_le_ediv hr h
  · rcases Int.le_total 0 y with h1 | h1
    · refine Int.le_trans (b := 0) ?_ (Int.tdiv_nonneg h1 (by omega))
      have := Int.tdiv_nonneg (a := -x) (b := r) (by omega) (by omega)
      rw [Int.neg_tdiv] at this
      omega
    · have := Int.ediv_le_ediv hr (show -y ≤ -x by omega)
      rw [← Int.tdiv_eq_ediv_of_nonneg (by omega), ← Int.tdiv_eq_ediv_of_nonneg (by omega), Int.neg_tdiv,
        Int.neg_tdiv] at this
      omega

theorem tdiv_add {x k r : Int} (hr : 0 < r) (hk : 0 ≤ k) : (x + k * r).tdiv r ≤ x.tdiv r + k := by
  have h5 := Int.mul_nonneg hk (Int.le_of_lt hr)
  rcases Int.le_total 0 x with h0 | h0
  · rw [Int.tdiv_eq_ediv_of_nonneg h0, Int.tdiv_eq_ediv_of_nonneg (by omega), Int.add_mul_ediv_right _ _ (by omega)]
  · have e1 : x.tdiv r = -((-x) / r) := by
      rw [← Int.tdiv_eq_ediv_of_nonneg (by omega), Int.neg_tdiv, Int.neg_neg]
    rcases Int.le_total 0 (x + k * r) with h6 | h6
    · rw [Int.tdiv_eq_ediv_of_nonneg h6, Int.add_mul_ediv_right _ _ (by omega), e1]
      have h7 := Int.ediv_mul_le x (b := r) (by omega)
      have h8 := Int.ediv_mul_le (-x) (b := r) (by omega)
      have h9 : (x / r + -x / r) * r ≤ 0 * r := by rw [Int.add_mul]; omega
      have := Int.le_of_mul_le_mul_right h9 hr
      omega
    · have e2 : (x + k * r).tdiv r = -((-(x + k * r)) / r) := by
        rw [← Int.tdiv_eq_ediv_of_nonneg (by omega), Int.neg_tdiv, Int.neg_neg]
      have e3 : -(x + k * r) = -x + (-k) * r := by rw [Int.neg_mul]; omega
      rw [e1, e2, e3, Int.add_mul_ediv_right _ _ (by omega)]
      omega

theorem toI_le_iff {a b : UInt8} : toI a ≤ toI b ↔ a ≤ b := by
  rw [UInt8.le_iff_toNat_le, toI, toI]
  omega

theorem normalC_mono {b b' s s' : UInt8} (ba sa o : UInt8) (hb : b ≤ b') (hs : s ≤ s') :
    normalC b ba s sa o ≤ normalC b' ba s' sa o := by
  unfold normalC
  by_cases h0 : ba = 0
  · rw [if_pos h0, if_pos h0]; exact hs
  · by_cases h1 : sa = 0
    · rw [if_neg h0, if_neg h0, if_pos h1, if_pos h1]; exact hb
    · rw [if_neg h0, if_neg h0, if_neg h1, if_neg h1]
      have h2 := overA_bounds ba (timesU sa o)
      have h3 := toI_pos h0
      have h4 := overC_byte b s (timesU sa o) _ h2.2.1 (by omega)
      have h5 := overC_byte b' s' (timesU sa o) _ h2.2.1 (by omega)
      rw [← toI_le_iff, asU8_of_byte _ h4, asU8_of_byte _ h5]
      rw [← toI_le_iff] at hb hs
      have hf := toI_nonneg (timesU sa o)
      generalize overA ba (timesU sa o) = ra at *
      unfold overC
      generalize toI (timesU sa o) = fa at *
      generalize toI b = b at *
      generalize toI b' = b' at *
      generalize toI s = s at *
      generalize toI s' = s' at *
      have k1 : (s - b) * fa ≤ (s' - b') * fa + (b' - b) * ra := by
        have e1 : (s - b) * fa = (s - b') * fa + (b' - b) * fa := by rw [← Int.add_mul]; congr 1; omega
        have e2 := Int.mul_le_mul_of_nonneg_right (show s - b' ≤ s' - b' by omega) hf
        have e3 := Int.mul_le_mul_of_nonneg_left h2.2.1 (show 0 ≤ b' - b by omega)
        omega
      have k2 := tdiv_mono (r := ra) (by omega) k1
      have k3 := tdiv_add (x := (s' - b') * fa) (k := b' - b) (r := ra) (by omega) (by omega)
      omega

theorem mix_mono {x x' y y' o : Int} (hx : x ≤ x') (hy : y ≤ y') (h0 : 0 ≤ o) (h1 : o ≤ 255) :
    mix x y o ≤ mix x' y' o := by
  have below : ∀ a b : Int, b ≤ a → mix a b o ≤ a := by
    intro a b h
    have := (scale_between (b - a) o h0 h1).2 (by omega)
    unfold mix
    split <;> omega
  have above : ∀ a b : Int, a ≤ b → a ≤ mix a b o := by
    intro a b h
    have := (scale_between (b - a) o h0 h1).1 (by omega)
    unfold mix
    split <;> omega
  have left : ∀ a a' b : Int, a ≤ a' → mix a b o ≤ mix a' b o := by
    intro a a' b h
    have e1 : (b - a) * o = (b - a') * o + (a' - a) * o := by rw [← Int.add_mul]; congr 1; omega
    have e2 := (scale_between (a' - a) o h0 h1).1 (by omega)
    unfold mix
    split <;> split <;> omega
  have right : ∀ a b b' : Int, b ≤ b' → mix a b o ≤ mix a b' o := by
    intro a b b' h
    rcases Int.lt_or_le b a with h2 | h2
    · rcases Int.lt_or_le b' a with h3 | h3
      · have e1 : (b' - a) * o = (b - a) * o + (b' - b) * o := by rw [← Int.add_mul]; congr 1; omega
        have e2 := (scale_between (b' - b) o h0 h1).1 (by omega)
        unfold mix
        rw [if_neg (by omega), if_neg (by omega)]
        omega
      · exact Int.le_trans (below _ _ (by omega)) (above _ _ h3)
    · have e1 : (b' - a) * o = (b - a) * o + (b' - b) * o := by rw [← Int.add_mul]; congr 1; omega
      have e2 := (scale_between (b' - b) o h0 h1).1 (by omega)
      unfold mix
      rw [if_pos h2, if_pos (by omega)]
      omega
  exact Int.le_trans (left _ _ _ hx) (right _ _ _ hy)

theorem times_mono {b b' s s' : Nat} (hb : b ≤ b') (hs : s ≤ s') : times b s ≤ times b' s' := by
  have := Nat.mul_le_mul hb hs
  simp only [times, roundDiv_eq]
  exact Nat.div_le_div_right (by omega)

theorem times_step (b b' s : Nat) (hb : b ≤ b') (hs : s ≤ 255) : times b' s + b ≤ times b s + b' := by
  have h1 := Nat.mul_le_mul_left (b' - b) hs
  have e : b' * s = b * s + (b' - b) * s := by rw [← Nat.add_mul]; congr 1; omega
  simp only [times, roundDiv_eq, e]
  omega

theorem times_comm (b s : Nat) : times b s = times s b := by rw [times, times, Nat.mul_comm]

theorem screen_mono {b b' s s' : Nat} (hb : b ≤ b') (hs : s ≤ s') (h1 : b' ≤ 255) (h2 : s' ≤ 255) :
    screen b s ≤ screen b' s' := by
  have k1 := times_step b b' s hb (by omega)
  have k2 := times_step s s' b' hs h1
  rw [times_comm s', times_comm s] at k2
  have k3 := times_le_left b s (by omega)
  have k4 := times_le_left b' s' h2
  unfold screen
  omega

theorem roundDiv_mono {n n' d d' : Nat} (hn : n ≤ n') (hd : d' ≤ d) (h0 : 0 < d') : roundDiv n d ≤ roundDiv n' d' := by
  rw [roundDiv_eq, roundDiv_eq]
  have h1 := Nat.div_mul_le_self (n + d / 2) d
  rw [Nat.le_div_iff_mul_le h0]
  generalize (n + d / 2) / d = q at h1 ⊢
  rcases Nat.eq_zero_or_pos q with rfl | hq
  · omega
  · obtain ⟨k, rfl⟩ : ∃ k, d = d' + k := ⟨d - d', by omega⟩
    rw [Nat.mul_add] at h1
    have := Nat.le_mul_of_pos_left k hq
    omega

theorem multiply_le_screen (b s t : Nat) (hb : b ≤ 255) (hs : s ≤ 255) : times b s ≤ screen b t := by
  have h1 := times_le_left b s hs
  have h2 := times_le_right b t hb
  unfold screen
  omega

theorem hardLight_mono {b b' s s' : Nat} (hb : b ≤ b') (hs : s ≤ s') (h1 : b' ≤ 255) (h2 : s' ≤ 255) :
    hardLight b s ≤ hardLight b' s' := by
  unfold hardLight multiply
  by_cases h3 : s' < 128
  · rw [if_pos h3, if_pos (by omega)]
    exact times_mono hb (by omega)
  · rw [if_neg h3]
    by_cases h4 : s < 128
    · rw [if_pos h4]
      exact Nat.le_trans (times_mono hb (Nat.le_refl _)) (multiply_le_screen _ _ _ h1 (by omega))
    · rw [if_neg h4]
      exact screen_mono hb (by omega) h1 (by omega)

theorem channelFn_mono (m : BlendMode) (hm : rising m = true) (f : Nat → Nat → Nat) (hf : channelFn m = some f)
    {b b' s s' : Nat} (hb : b ≤ b') (hs : s ≤ s') (h1 : b' ≤ 255) (h2 : s' ≤ 255) : f b s ≤ f b' s' := by
  cases m <;> simp only [rising, reduceCtorEq] at hm <;> simp only [channelFn, Option.some.injEq, reduceCtorEq] at hf <;> subst hf
  · exact hs
  · exact times_mono hb hs
  · exact screen_mono hb hs h1 h2
  · exact hardLight_mono hs hb h2 h1
  · unfold darken; omega
  · unfold lighten; omega
  · unfold colorDodge
    by_cases h3 : b = 0
    · rw [if_pos h3]; exact Nat.zero_le _
    · rw [if_neg h3, if_neg (show ¬ b' = 0 by omega)]
      by_cases h4 : b ≥ 255 - s
      · rw [if_pos h4, if_pos (by omega)]
      · rw [if_neg h4]
        split
        · exact roundDiv_le _ _ (by omega)
        · exact roundDiv_mono (by omega) (by omega) (by omega)
  · unfold colorBurn
    by_cases h3 : b' = 255
    · rw [if_pos h3]
      split
      · exact Nat.le_refl _
      · split <;> omega
    · rw [if_neg h3, if_neg (show ¬ b = 255 by omega)]
      by_cases h4 : 255 - b ≥ s
      · rw [if_pos h4]; exact Nat.zero_le _
      · rw [if_neg h4, if_neg (by omega)]
        have := roundDiv_mono (n := (255 - b') * 255) (n' := (255 - b) * 255) (d := s') (d' := s) (by omega) hs (by omega)
        omega
  · exact hardLight_mono hb hs h1 h2
  · unfold addition; omega

/-! ### Soft light -/

theorem softLightD_mono {b b' : ℝ} (h0 : 0 ≤ b) (h : b ≤ b') : softLightD b ≤ softLightD b' := by
  have key : ∀ x y : ℝ, x ≤ y → ((16 * x - 12) * x + 4) * x ≤ ((16 * y - 12) * y + 4) * y := by
    intro x y h
    have h1 : 0 ≤ (y - x) * (16 * (x * x + x * y + y * y) - 12 * (x + y) + 4) := by
      refine mul_nonneg (by linarith) ?_
      nlinarith [sq_nonneg (x + y - 1 / 2), sq_nonneg (x - y)]
    nlinarith
  unfold softLightD
  by_cases h1 : b' ≤ 1 / 4
  · rw [if_pos h1, if_pos (by linarith)]
    exact key b b' h
  · rw [if_neg h1]
    have h2 : (1 / 2 : ℝ) ≤ √b' := Real.le_sqrt_of_sq_le (by norm_num; linarith)
    by_cases h3 : b ≤ 1 / 4
    · rw [if_pos h3]
      have := key b (1 / 4) h3
      linarith
    · rw [if_neg h3]
      exact Real.sqrt_le_sqrt h

theorem softLight_mono {b b' s s' : ℝ} (h0 : 0 ≤ b) (hb : b ≤ b') (h1 : b' ≤ 1) (k0 : 0 ≤ s) (hs : s ≤ s') (k1 : s' ≤ 1) :
    Spec.softLight b s ≤ Spec.softLight b' s' := by
  have hd := softLightD_bounds h0 (by linarith)
  refine le_trans (b := Spec.softLight b s') ?_ ?_
  · have hbb : 0 ≤ b * (1 - b) := mul_nonneg h0 (by linarith)
    unfold Spec.softLight
    by_cases h2 : s' ≤ 1 / 2
    · rw [if_pos h2, if_pos (by linarith)]
      nlinarith
    · rw [if_neg h2]
      by_cases h3 : s ≤ 1 / 2
      · rw [if_pos h3]
        have e1 : 0 ≤ (1 - 2 * s) * b * (1 - b) := by
          rw [mul_assoc]
          exact mul_nonneg (by linarith) hbb
        have e2 : 0 ≤ (2 * s' - 1) * (softLightD b - b) := mul_nonneg (by linarith) hd.1
        linarith
      · rw [if_neg h3]
        nlinarith [hd.1]
  · unfold Spec.softLight
    by_cases h2 : s' ≤ 1 / 2
    · rw [if_pos h2, if_pos h2]
      have e : 0 ≤ (b' - b) * (1 - (1 - 2 * s') * (1 - b - b')) := by
        refine mul_nonneg (by linarith) ?_
        nlinarith
      nlinarith
    · rw [if_neg h2, if_neg h2]
      have := softLightD_mono h0 hb
      nlinarith

theorem softU_mono {b b' s s' : UInt8} (hb : b ≤ b') (hs : s ≤ s') : softU b s ≤ softU b' s' := by
  have h1 := (softU_spec b s).2
  have h2 := (softU_spec b' s').2
  unfold SoftLight Rounded at h1 h2
  rw [UInt8.le_iff_toNat_le] at *
  have e : ∀ x : UInt8, (0 : ℝ) ≤ (x.toNat : ℝ) / 255 ∧ (x.toNat : ℝ) / 255 ≤ 1 := by
    intro x
    have : (x.toNat : ℝ) ≤ 255 := by exact_mod_cast byte_le x
    exact ⟨by positivity, by linarith⟩
  have hb' : (b.toNat : ℝ) / 255 ≤ (b'.toNat : ℝ) / 255 := by
    have : (b.toNat : ℝ) ≤ b'.toNat := by exact_mod_cast hb
    linarith
  have hs' : (s.toNat : ℝ) / 255 ≤ (s'.toNat : ℝ) / 255 := by
    have : (s.toNat : ℝ) ≤ s'.toNat := by exact_mod_cast hs
    linarith
  have h3 := softLight_mono (e b).1 hb' (e b').2 (e s).1 hs' (e s').2
  have h4 : ((softU b s).toNat : ℝ) < (softU b' s').toNat + 1 := by linarith [h1.1, h2.2]
  have : (softU b s).toNat < (softU b' s').toNat + 1 := by exact_mod_cast h4
  omega

theorem modeG_mono (m : BlendMode) (hm : rising m = true) (ch : Color → UInt8) {b b' s s' : UInt8} (hb : b ≤ b')
    (hs : s ≤ s') : modeG m ch b s ≤ modeG m ch b' s' := by
  rw [modeG]
  cases hf : channelFn m with
  | some f =>
    dsimp only
    rw [UInt8.le_iff_toNat_le, chU_toNat f _ _ (channelFn_le m f hf _ _ (byte_le _) (byte_le _)),
      chU_toNat f _ _ (channelFn_le m f hf _ _ (byte_le _) (byte_le _))]
    exact channelFn_mono m hm f hf (UInt8.le_iff_toNat_le.1 hb) (UInt8.le_iff_toNat_le.1 hs) (byte_le _) (byte_le _)
  | none =>
    dsimp only
    split
    · exact softU_mono hb hb
    · exact softU_mono hb hs

theorem stepC_mono (m : BlendMode) (hm : rising m = true) (ch : Color → UInt8) {b b' s s' : UInt8} (ba sa o : UInt8)
    (hb : b ≤ b') (hs : s ≤ s') : stepC (modeG m ch) b ba s sa o ≤ stepC (modeG m ch) b' ba s' sa o := by
  have hg := modeG_mono m hm ch hb hs
  unfold stepC
  split
  · exact toI_le_iff.2 hs
  · have h1 := toI_le_iff.2 (normalC_mono ba sa o hb hs)
    have h2 := toI_le_iff.2 (normalC_mono ba sa o hb hg)
    have h3 := times_le_left ba.toNat (times sa.toNat o.toNat) ((times_le_left _ _ (byte_le _)).trans (byte_le _))
    have h4 := byte_le ba
    exact mix_mono (mix_mono h1 h2 (toI_nonneg _) (toI_le _)) h2 (by omega) (by omega)

end Ase
