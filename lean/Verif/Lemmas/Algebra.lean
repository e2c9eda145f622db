import Verif.Spec.Algebra
import Verif.Lemmas.Channels

/-!
# Laws of the channel formulas
-/

namespace Ase

open Spec

theorem mix_full (x y : Int) : mix x y 255 = y := by
  unfold mix
  split <;> omega

theorem mix_same (x o : Int) : mix x x o = x := by
  unfold mix
  rw [if_pos (Int.le_refl _), Int.sub_self, Int.zero_mul]
  omega

theorem times_zero_left (b : Nat) : times 0 b = 0 := by
  simp only [times, roundDiv_eq, Nat.zero_mul]

theorem times_full_left (b : Nat) : times 255 b = b := by
  simp only [times, roundDiv_eq]
  omega

/-- From `b` towards `v` by `w / 255`, rounded towards `b`. -/
def toward (b v w : Int) : Int := b + ((v - b) * w).tdiv 255

theorem toward_same (b w : Int) : toward b b w = b := by simp [toward]

theorem toward_full (b v : Int) : toward b v 255 = v := by
  unfold toward
  rw [Int.mul_tdiv_cancel _ (by decide)]
  omega

theorem toward_negative (b v w : Int) : toward (255 - b) (255 - v) w = 255 - toward b v w := by
  unfold toward
  have : (255 - v - (255 - b)) * w = -((v - b) * w) := by rw [← Int.neg_mul]; congr 1; omega
  rw [this, Int.neg_tdiv]
  omega

/-- Painting on an opaque pixel: the channel moves from the old value towards the value of the mode. -/
theorem blend_opaqueG (plat : Plat) (m : BlendMode) (hm : isHsl m = false)
    (back front c : Color) (o : UInt8) (hb : back.a = 255) (h : blend plat m back front o = .ok c) :
    c.a = 255 ∧ ∀ ch, IsChannel ch → toI (ch c) =
      toward (toI (ch back)) (toI (modeG m ch (ch back) (ch front))) (times front.a.toNat o.toNat) := by
  refine ⟨?_, ?_⟩
  · have := blend_alpha plat m hm back front c o h
    rw [hb] at this
    have h2 := times_full_left (times front.a.toNat o.toNat)
    apply UInt8.toNat_inj.1
    rw [this, screen]
    change 255 + _ - times 255 _ = 255
    omega
  · intro ch hch
    have h1 := blend_step plat m hm back front c o h ch hch
    rw [h1, stepC, hb, if_neg (by decide)]
    have e : toI 255 = 255 := rfl
    rw [e, mix_full, mix_same, normalC, if_neg (by decide)]
    by_cases h0 : front.a = 0
    · rw [if_pos h0, h0]
      change _ = toward _ _ (times 0 _ : Nat)
      rw [times_zero_left]
      simp [toward]
    · rw [if_neg h0]
      have h2 := overA_bounds 255 (timesU front.a o)
      have h3 : overA 255 (timesU front.a o) = 255 := by
        have : toI 255 = 255 := rfl
        omega
      rw [h3] at h2 ⊢
      rw [asU8_of_byte _ (overC_byte _ _ _ _ h2.2.1 (by decide)), overC, toI_timesU, toward]

/-- The same for the modes computed in integers, with their formulas. -/
theorem blend_opaque (plat : Plat) (m : BlendMode) (f : Nat → Nat → Nat) (hf : channelFn m = some f)
    (back front c : Color) (o : UInt8) (hb : back.a = 255) (h : blend plat m back front o = .ok c) :
    c.a = 255 ∧ ∀ ch, IsChannel ch → toI (ch c) =
      toward (toI (ch back)) (f (ch back).toNat (ch front).toNat) (times front.a.toNat o.toNat) := by
  have hm : isHsl m = false := by
    cases m <;> first | rfl | (cases hf)
  obtain ⟨h1, h2⟩ := blend_opaqueG plat m hm back front c o hb h
  refine ⟨h1, fun ch hch => ?_⟩
  rw [h2 ch hch, modeG, hf]
  simp only [toI, chU_toNat f _ _ (channelFn_le m f hf _ _ (byte_le _) (byte_le _))]

/-! ## Neutral values -/

theorem channelFn_neutral (m : BlendMode) (v : UInt8) (hv : neutral m = some v) :
    ∃ f, channelFn m = some f ∧ ∀ b, b ≤ 255 → f b v.toNat = b := by
  have t0 : ∀ b, times b 0 = 0 := fun b => by rw [times_comm, times_zero_left]
  have t1 : ∀ b, times b 255 = b := fun b => by rw [times_comm, times_full_left]
  have r1 : ∀ b, roundDiv (b * 255) 255 = b := fun b => t1 b
  cases m <;> simp only [neutral, Option.some.injEq, reduceCtorEq] at hv <;> subst hv <;>
    refine ⟨_, rfl, fun b hb => ?_⟩
  · exact t1 b
  · change b + 0 - times b 0 = b
    rw [t0]; omega
  · change min b 255 = b
    omega
  · change max b 0 = b
    omega
  · change colorDodge b 0 = b
    unfold colorDodge
    rw [Nat.sub_zero, r1]
    split
    · omega
    · split <;> omega
  · change colorBurn b 255 = b
    unfold colorBurn
    rw [r1]
    split
    · omega
    · split <;> omega
  · change max b 0 - min b 0 = b
    omega
  · change b + 0 - 2 * times b 0 = b
    rw [t0]; omega
  · change min (b + 0) 255 = b
    omega
  · change b - 0 = b
    omega
  · change divide b 255 = b
    unfold divide
    rw [r1]
    split
    · omega
    · split <;> omega

/-! ## Negatives -/

theorem times_negative (b s : Nat) (hb : b ≤ 255) (hs : s ≤ 255) :
    times (255 - b) (255 - s) = 255 - screen b s := by
  have h1 := times_le_left b s hs
  have h2 : (255 - b) * (255 - s) + 255 * (b + s) = 255 * 255 + b * s := by
    obtain ⟨b', hb'⟩ : ∃ b', 255 = b + b' := ⟨255 - b, by omega⟩
    obtain ⟨s', hs'⟩ : ∃ s', 255 = s + s' := ⟨255 - s, by omega⟩
    have e1 : 255 - b = b' := by omega
    have e2 : 255 - s = s' := by omega
    rw [e1, e2]
    have e3 : 255 * s = b * s + b' * s := by rw [← Nat.add_mul, ← hb']
    have e4 : 255 * b' = s * b' + s' * b' := by rw [← Nat.add_mul, ← hs']
    rw [Nat.mul_comm b' s, Nat.mul_comm s b'] at *
    have e5 := Nat.mul_comm s' b'
    omega
  unfold screen
  simp only [times, roundDiv_eq] at *
  omega

theorem hardLight_negative (b s : Nat) (hb : b ≤ 255) (hs : s ≤ 255) :
    hardLight (255 - b) (255 - s) = 255 - hardLight b s := by
  unfold hardLight multiply
  by_cases h : s < 128
  · rw [if_neg (by omega), if_pos h]
    have := times_negative (255 - b) (2 * (255 - s) - 255) (by omega) (by omega)
    have e1 : 255 - (255 - b) = b := by omega
    have e2 : 255 - (2 * (255 - s) - 255) = 2 * s := by omega
    rw [e1, e2] at this
    have h2 := times_le_left (255 - b) (2 * (255 - s) - 255) (by omega)
    have h3 := times_le_right (255 - b) (2 * (255 - s) - 255) (by omega)
    have h4 := channelFn_le .screen _ rfl (255 - b) (2 * (255 - s) - 255) (by omega) (by omega)
    omega
  · rw [if_pos (by omega), if_neg h]
    have := times_negative b (2 * s - 255) hb (by omega)
    have e : 2 * (255 - s) = 255 - (2 * s - 255) := by omega
    rw [e, this]

theorem colorBurn_divide (b s : Nat) (hb : b ≤ 255) : colorBurn b s = 255 - divide (255 - b) s := by
  unfold colorBurn divide
  by_cases h : b = 255
  · rw [if_pos h, if_pos (by omega)]
  · rw [if_neg h, if_neg (show ¬ 255 - b = 0 by omega)]
    by_cases h2 : 255 - b ≥ s
    · rw [if_pos h2, if_pos h2]
    · rw [if_neg h2, if_neg h2]

theorem colorDodge_divide (b s : Nat) : colorDodge b s = divide b (255 - s) := rfl

theorem channelFn_dual (m m' : BlendMode) (h : dual m = some m') :
    ∃ f f', channelFn m = some f ∧ channelFn m' = some f' ∧
      ∀ b s, b ≤ 255 → s ≤ 255 → f' (255 - b) (255 - s) = 255 - f b s := by
  cases m <;> simp only [dual, Option.some.injEq, reduceCtorEq] at h <;> subst h <;>
    refine ⟨_, _, rfl, rfl, fun b s hb hs => ?_⟩
  · rfl
  · have := times_negative (255 - b) (255 - s) (by omega) (by omega)
    have e1 : 255 - (255 - b) = b := by omega
    have e2 : 255 - (255 - s) = s := by omega
    rw [e1, e2] at this
    have h2 := times_le_left (255 - b) (255 - s) (by omega)
    have h3 := times_le_right (255 - b) (255 - s) (by omega)
    have h4 := channelFn_le .screen _ rfl (255 - b) (255 - s) (by omega) (by omega)
    unfold multiply
    omega
  · exact times_negative b s hb hs
  · exact hardLight_negative s b hs hb
  · unfold darken lighten; omega
  · unfold darken lighten; omega
  · rw [colorBurn_divide _ _ (by omega), colorDodge_divide]
    congr 2
    omega
  · rw [colorBurn_divide _ _ hb, colorDodge_divide]
    have := divide_le (255 - b) s
    have e : 255 - (255 - s) = s := by omega
    rw [e]
    omega
  · exact hardLight_negative b s hb hs

theorem channelFn_reverse (m m' : BlendMode) (h : reverse m = some m') :
    ∃ f f', channelFn m = some f ∧ channelFn m' = some f' ∧
      ∀ b s, b ≤ 255 → s ≤ 255 → f' (255 - b) s = 255 - f b s := by
  cases m <;> simp only [reverse, Option.some.injEq, reduceCtorEq] at h <;> subst h <;>
    refine ⟨_, _, rfl, rfl, fun b s hb hs => ?_⟩
  · rw [colorBurn_divide _ _ hb]
    have := divide_le (255 - b) s
    omega
  · unfold addition subtract; omega
  · unfold addition subtract; omega
  · rw [colorBurn_divide _ _ (by omega)]
    congr 2
    omega

/-! ## Order -/

theorem channelFn_unordered (m : BlendMode) (h : unordered m = true) :
    ∃ f, channelFn m = some f ∧ ∀ b s s', b ≤ 255 → f (f b s) s' = f (f b s') s := by
  cases m <;> simp only [unordered, reduceCtorEq] at h <;> refine ⟨_, rfl, fun b s s' hb => ?_⟩
  · unfold darken; omega
  · unfold lighten; omega
  · unfold addition; omega
  · unfold subtract; omega

theorem channelFn_symmetric (m : BlendMode) (h : symmetric m = true) :
    ∃ f, channelFn m = some f ∧ ∀ b s, f b s = f s b := by
  cases m <;> simp only [symmetric, reduceCtorEq] at h <;> refine ⟨_, rfl, fun b s => ?_⟩
  · exact times_comm b s
  · unfold screen; rw [times_comm b s]; omega
  · unfold darken; omega
  · unfold lighten; omega
  · unfold difference; omega
  · unfold exclusion; rw [times_comm b s]; omega
  · unfold addition; omega

/-! ## Darkening and lightening -/

theorem toward_between (b v w : Int) (h0 : 0 ≤ w) (h1 : w ≤ 255) :
    (b ≤ v → b ≤ toward b v w) ∧ (v ≤ b → toward b v w ≤ b) := by
  have := tdiv_between (v - b) w 255 h0 h1 (by decide)
  unfold toward
  omega

theorem divide_ge (b s : Nat) (hb : b ≤ 255) (hs : s ≤ 255) : b ≤ divide b s := by
  unfold divide
  split
  · omega
  · split
    · omega
    · next h1 h2 =>
      rw [roundDiv_eq, Nat.le_div_iff_mul_le (by omega)]
      exact Nat.le_trans (Nat.mul_le_mul_left b hs) (Nat.le_add_right _ _)

theorem channelFn_darkening (m : BlendMode) (h : darkening m = true) :
    ∃ f, channelFn m = some f ∧ ∀ b s, b ≤ 255 → s ≤ 255 → f b s ≤ b := by
  cases m <;> simp only [darkening, reduceCtorEq] at h <;> refine ⟨_, rfl, fun b s hb hs => ?_⟩
  · exact times_le_left b s hs
  · exact Nat.min_le_left b s
  · rw [colorBurn_divide b s hb]
    have := divide_ge (255 - b) s (by omega) hs
    omega
  · exact Nat.sub_le b s

theorem channelFn_lightening (m : BlendMode) (h : lightening m = true) :
    ∃ f, channelFn m = some f ∧ ∀ b s, b ≤ 255 → s ≤ 255 → b ≤ f b s := by
  cases m <;> simp only [lightening, reduceCtorEq] at h <;> refine ⟨_, rfl, fun b s hb hs => ?_⟩
  · have := times_le_right b s hb
    unfold screen
    omega
  · exact Nat.le_max_left b s
  · rw [colorDodge_divide]
    exact divide_ge b (255 - s) hb (Nat.sub_le _ _)
  · unfold addition; omega
  · exact divide_ge b s hb hs

theorem mix_between (x y o lo hi : Int) (h0 : 0 ≤ o) (h1 : o ≤ 255) (hx : lo ≤ x ∧ x ≤ hi) (hy : lo ≤ y ∧ y ≤ hi) :
    lo ≤ mix x y o ∧ mix x y o ≤ hi := by
  have e1 := mix_mono (x := lo) (x' := x) (y := lo) (y' := y) hx.1 hy.1 h0 h1
  have e2 := mix_mono (x := x) (x' := hi) (y := y) (y' := hi) hx.2 hy.2 h0 h1
  rw [mix_same] at e1 e2
  exact ⟨e1, e2⟩

theorem normalC_between (b ba s sa o lo hi : UInt8) (hb : lo ≤ b ∧ b ≤ hi) (hs : lo ≤ s ∧ s ≤ hi) :
    lo ≤ normalC b ba s sa o ∧ normalC b ba s sa o ≤ hi := by
  have e1 := normalC_mono ba sa o hb.1 hs.1
  have e2 := normalC_mono ba sa o hb.2 hs.2
  have same : ∀ x : UInt8, normalC x ba x sa o = x := by
    intro x
    unfold normalC
    split
    · rfl
    · split
      · rfl
      · simp [overC, asU8_toI]
  rw [same] at e1 e2
  exact ⟨e1, e2⟩

theorem stepC_between (g : UInt8 → UInt8 → UInt8) (b ba s sa o lo hi : UInt8) (hb : lo ≤ b ∧ b ≤ hi)
    (hs : lo ≤ s ∧ s ≤ hi) (hg : lo ≤ g b s ∧ g b s ≤ hi) :
    toI lo ≤ stepC g b ba s sa o ∧ stepC g b ba s sa o ≤ toI hi := by
  unfold stepC
  have k : ∀ x : UInt8, lo ≤ x ∧ x ≤ hi → toI lo ≤ toI x ∧ toI x ≤ toI hi :=
    fun x h => ⟨toI_le_iff.2 h.1, toI_le_iff.2 h.2⟩
  split
  · exact k _ hs
  · have n1 := k _ (normalC_between b ba s sa o lo hi hb hs)
    have n2 := k _ (normalC_between b ba (g b s) sa o lo hi hb hg)
    have t := times_le_left ba.toNat (times sa.toNat o.toNat)
      (Nat.le_trans (times_le_left _ _ (byte_le _)) (byte_le _))
    have := byte_le ba
    refine mix_between _ _ _ _ _ (Int.natCast_nonneg _) (by omega) ?_ n2
    exact mix_between _ _ _ _ _ (toI_nonneg _) (toI_le _) n1 n2

end Ase
