import Verif.Spec.Accuracy
import Verif.Props.Blend
import Mathlib.Tactic.Linarith
import Mathlib.Tactic.Ring
import Mathlib.Tactic.FieldSimp
import Mathlib.Tactic.Positivity

/-!
# How far the integer formulas are from the exact ones
-/

namespace Ase

open Spec

theorem roundDiv_near (n d : Nat) (hd : 0 < d) : |((roundDiv n d : Nat) : ℚ) - n / d| ≤ 1 / 2 := by
  rw [roundDiv_eq]
  have h1 := Nat.div_add_mod (n + d / 2) d
  have h2 := Nat.mod_lt (n + d / 2) hd
  generalize (n + d / 2) / d = q at h1 ⊢
  generalize (n + d / 2) % d = r at h1 h2
  have h3 : 2 * (d * q) ≤ 2 * n + d := by omega
  have h4 : 2 * n ≤ 2 * (d * q) + d := by omega
  have h5 : (2 * (d * q) : ℚ) ≤ 2 * n + d := by exact_mod_cast h3
  have h6 : (2 * n : ℚ) ≤ 2 * (d * q) + d := by exact_mod_cast h4
  have hd' : (0 : ℚ) < d := by exact_mod_cast hd
  rw [abs_le]
  constructor
  · have : (n : ℚ) / d ≤ q + 1 / 2 := by
      rw [div_le_iff₀ hd']; nlinarith
    linarith
  · have : (q : ℚ) - 1 / 2 ≤ (n : ℚ) / d := by
      rw [le_div_iff₀ hd']; nlinarith
    linarith

theorem times_near (b s : Nat) : |((times b s : Nat) : ℚ) - 255 * ((b / 255) * (s / 255))| ≤ 1 / 2 := by
  have := roundDiv_near (b * s) 255 (by decide)
  rw [times]
  have e : (255 : ℚ) * ((b / 255) * (s / 255)) = ((b * s : Nat) : ℚ) / ((255 : Nat) : ℚ) := by
    push_cast; field_simp
  rw [e]
  exact this

theorem screen_cast (b s : Nat) (hs : s ≤ 255) : ((screen b s : Nat) : ℚ) = b + s - times b s := by
  have := times_le_left b s hs
  rw [screen, Nat.cast_sub (by omega)]
  push_cast
  ring

theorem screen_near (b s : Nat) (hs : s ≤ 255) :
    |((screen b s : Nat) : ℚ) - 255 * Exact.screen (b / 255) (s / 255)| ≤ 1 / 2 := by
  have h := times_near b s
  rw [screen_cast b s hs, Exact.screen]
  rw [abs_le] at h ⊢
  constructor <;> linarith [h.1, h.2]

theorem hardLight_near (b s : Nat) (hs : s ≤ 255) :
    |((hardLight b s : Nat) : ℚ) - 255 * Exact.hardLight (b / 255) (s / 255)| ≤ 1 / 2 := by
  unfold hardLight Exact.hardLight
  by_cases h : s < 128
  · have h' : (s : ℚ) ≤ 127 := by exact_mod_cast (by omega : s ≤ 127)
    rw [if_pos h, if_pos (by rw [div_le_div_iff₀ (by norm_num) (by norm_num)]; linarith)]
    have := times_near b (2 * s)
    rw [multiply, Exact.multiply]
    rw [show (2 : ℚ) * (s / 255) = ((2 * s : Nat) : ℚ) / 255 by push_cast; ring]
    exact this
  · have h' : (128 : ℚ) ≤ s := by exact_mod_cast (by omega : 128 ≤ s)
    rw [if_neg h, if_neg (by rw [div_le_div_iff₀ (by norm_num) (by norm_num)]; linarith)]
    have := screen_near b (2 * s - 255) (by omega)
    rw [show (2 : ℚ) * (s / 255) - 1 = ((2 * s - 255 : Nat) : ℚ) / 255 by
      rw [Nat.cast_sub (by omega)]; push_cast; ring]
    exact this

theorem two_times_le (b s : Nat) (hb : b ≤ 255) (hs : s ≤ 255) : 2 * times b s ≤ b + s := by
  have := times_le_left b s hs
  have := times_le_right b s hb
  omega

/-- Every integer formula is at most 1 away from the exact one. -/
theorem channel_near (m : BlendMode) (f : Nat → Nat → Nat) (hm : channelFn m = some f) (b s : Nat) (hb : b ≤ 255)
    (hs : s ≤ 255) : |((f b s : Nat) : ℚ) - 255 * Exact.channel m (b / 255) (s / 255)| ≤
      if m = .normal then 0 else 1 := by
  have hb' : (b : ℚ) ≤ 255 := by exact_mod_cast hb
  have hs' : (s : ℚ) ≤ 255 := by exact_mod_cast hs
  have hb0 : (0 : ℚ) ≤ b := by positivity
  have hs0 : (0 : ℚ) ≤ s := by positivity
  have half : ∀ {x : ℚ}, |x| ≤ 1 / 2 → |x| ≤ 1 := fun h => h.trans (by norm_num)
  have zero : ∀ {x : ℚ}, x = 0 → |x| ≤ 1 := fun h => by rw [h, abs_zero]; norm_num
  cases m <;> simp only [channelFn, Option.some.injEq, reduceCtorEq] at hm <;> subst hm <;>
    simp only [reduceCtorEq, if_true, if_false, Exact.channel]
  · rw [show (255 : ℚ) * (s / 255) = s by ring, sub_self, abs_zero]
  · exact half (times_near b s)
  · exact half (screen_near b s hs)
  · exact half (hardLight_near s b hb)
  · apply zero
    unfold darken
    rcases Nat.le_total b s with h | h
    · have h' : (b : ℚ) ≤ s := by exact_mod_cast h
      rw [Nat.min_eq_left h, min_eq_left (by linarith)]
      ring
    · have h' : (s : ℚ) ≤ b := by exact_mod_cast h
      rw [Nat.min_eq_right h, min_eq_right (by linarith)]
      ring
  · apply zero
    unfold lighten
    rcases Nat.le_total b s with h | h
    · have h' : (b : ℚ) ≤ s := by exact_mod_cast h
      rw [Nat.max_eq_right h, max_eq_right (by linarith)]
      ring
    · have h' : (s : ℚ) ≤ b := by exact_mod_cast h
      rw [Nat.max_eq_left h, max_eq_left (by linarith)]
      ring
  · -- color dodge
    unfold colorDodge
    by_cases h0 : b = 0
    · subst h0; simp
    · have hbp : (0 : ℚ) < b := by exact_mod_cast Nat.pos_of_ne_zero h0
      have hne : (b : ℚ) / 255 ≠ 0 := by positivity
      rw [if_neg h0, if_neg hne]
      by_cases h1 : b ≥ 255 - s
      · rw [if_pos h1]
        apply zero
        have h1' : (255 : ℚ) ≤ b + s := by exact_mod_cast (by omega : 255 ≤ b + s)
        split
        · norm_num
        · next h2 =>
          have h3 : (s : ℚ) / 255 < 1 := lt_of_le_of_ne (by rw [div_le_one (by norm_num)]; exact hs') h2
          rw [min_eq_left]
          · norm_num
          · rw [le_div_iff₀ (by linarith)]
            linarith
      · rw [if_neg h1]
        have h1' : (b : ℚ) + s < 255 := by exact_mod_cast (by omega : b + s < 255)
        have h3 : (s : ℚ) / 255 < 1 := by rw [div_lt_one (by norm_num)]; linarith
        rw [if_neg h3.ne, min_eq_right (by rw [div_le_one (by linarith)]; linarith)]
        have := roundDiv_near (b * 255) (255 - s) (by omega)
        refine half ?_
        rw [Nat.cast_sub (by omega)] at this
        push_cast at this
        have h4 : (0 : ℚ) < 255 - s := by linarith
        rwa [show (255 : ℚ) * (b / 255 / (1 - s / 255)) = b * 255 / (255 - s) by
          have : (1 : ℚ) - s / 255 = (255 - s) / 255 := by ring
          rw [this]; field_simp]
  · -- color burn
    unfold colorBurn
    by_cases h0 : b = 255
    · subst h0; norm_num
    · have hbp : (b : ℚ) < 255 := by exact_mod_cast (by omega : b < 255)
      have hne : (b : ℚ) / 255 ≠ 1 := by
        rw [ne_eq, div_eq_iff (by norm_num)]
        linarith
      rw [if_neg h0, if_neg hne]
      by_cases h1 : 255 - b ≥ s
      · rw [if_pos h1]
        apply zero
        have h1' : (s : ℚ) + b ≤ 255 := by exact_mod_cast (by omega : s + b ≤ 255)
        split
        · norm_num
        · next h2 =>
          have h3 : (0 : ℚ) < s / 255 := lt_of_le_of_ne (by positivity) (Ne.symm h2)
          rw [min_eq_left]
          · norm_num
          · rw [le_div_iff₀ h3]
            linarith
      · rw [if_neg h1]
        have h1' : (255 : ℚ) < s + b := by exact_mod_cast (by omega : 255 < s + b)
        have h3 : (0 : ℚ) < s := by linarith
        rw [if_neg (by positivity), min_eq_right (by rw [div_le_one (by positivity)]; linarith)]
        have h5 : roundDiv ((255 - b) * 255) s ≤ 255 := roundDiv_le _ _ (by omega)
        have := roundDiv_near ((255 - b) * 255) s (by omega)
        refine half ?_
        rw [Nat.cast_sub h5]
        rw [Nat.cast_mul, Nat.cast_sub (by omega)] at this
        push_cast at this ⊢
        rw [abs_sub_comm] at this
        rwa [show (255 : ℚ) - (roundDiv ((255 - b) * 255) s : Nat) - 255 * (1 - (1 - b / 255) / (s / 255)) =
          (255 - b) * 255 / s - (roundDiv ((255 - b) * 255) s : Nat) by field_simp; ring]
  · exact half (hardLight_near b s hs)
  · apply zero
    unfold difference
    rcases Nat.le_total b s with h | h
    · have h' : (b : ℚ) ≤ s := by exact_mod_cast h
      rw [Nat.max_eq_right h, Nat.min_eq_left h, Nat.cast_sub h, abs_of_nonpos (by linarith)]
      ring
    · have h' : (s : ℚ) ≤ b := by exact_mod_cast h
      rw [Nat.max_eq_left h, Nat.min_eq_right h, Nat.cast_sub h, abs_of_nonneg (by linarith)]
      ring
  · have h := times_near b s
    rw [exclusion, Nat.cast_sub (two_times_le b s hb hs)]
    push_cast
    rw [abs_le] at h ⊢
    constructor <;> linarith [h.1, h.2]
  · apply zero
    unfold addition
    rcases Nat.le_total (b + s) 255 with h | h
    · have h' : (b : ℚ) + s ≤ 255 := by exact_mod_cast h
      rw [Nat.min_eq_left h, min_eq_right (by linarith)]
      push_cast; ring
    · have h' : (255 : ℚ) ≤ b + s := by exact_mod_cast h
      rw [Nat.min_eq_right h, min_eq_left (by linarith)]
      norm_num
  · apply zero
    unfold subtract
    rcases Nat.le_total s b with h | h
    · have h' : (s : ℚ) ≤ b := by exact_mod_cast h
      rw [Nat.cast_sub h, max_eq_right (by linarith)]
      ring
    · have h' : (b : ℚ) ≤ s := by exact_mod_cast h
      rw [Nat.sub_eq_zero_of_le h, max_eq_left (by linarith)]
      norm_num
  · -- divide
    unfold divide
    by_cases h0 : b = 0
    · subst h0; simp
    · have hbp : (0 : ℚ) < b := by exact_mod_cast Nat.pos_of_ne_zero h0
      have hne : (b : ℚ) / 255 ≠ 0 := by positivity
      rw [if_neg h0, if_neg hne]
      by_cases h1 : b ≥ s
      · rw [if_pos h1]
        apply zero
        have h1' : (s : ℚ) ≤ b := by exact_mod_cast h1
        split
        · norm_num
        · next h2 =>
          have h3 : (0 : ℚ) < s / 255 := lt_of_le_of_ne (by positivity) (Ne.symm h2)
          rw [min_eq_left]
          · norm_num
          · rw [le_div_iff₀ h3]
            linarith
      · rw [if_neg h1]
        have h1' : (b : ℚ) < s := by exact_mod_cast (by omega : b < s)
        have h3 : (0 : ℚ) < s := by linarith
        rw [if_neg (by positivity), min_eq_right (by rw [div_le_one (by positivity)]; linarith)]
        have := roundDiv_near (b * 255) s (by omega)
        refine half ?_
        push_cast at this
        rwa [show (255 : ℚ) * (b / 255 / (s / 255)) = b * 255 / s by field_simp]

/-- Interpolating with a rounded weight and cutting off the fraction. -/
theorem over_near (b x a o : Nat) (hb : b ≤ 255) (hx : x ≤ 255) :
    |(((b : Int) + (((x : Int) - b) * (times a o : Nat)).tdiv 255 : Int) : ℚ) -
      (b + ((x : ℚ) - b) * ((a / 255) * (o / 255)))| ≤ 3 / 2 := by
  have h1 := times_near a o
  generalize times a o = fa at h1
  generalize hd : (x : Int) - b = d
  have hd' : ((d : Int) : ℚ) = (x : ℚ) - b := by rw [← hd]; push_cast; ring
  rw [← hd']
  have hd1 : |(d : ℚ)| ≤ 255 := by
    rw [hd', abs_le]
    have hb' : (b : ℚ) ≤ 255 := by exact_mod_cast hb
    have hs' : (x : ℚ) ≤ 255 := by exact_mod_cast hx
    have hb0 : (0 : ℚ) ≤ b := by positivity
    have hs0 : (0 : ℚ) ≤ x := by positivity
    constructor <;> linarith
  have h2 := Int.mul_tdiv_add_tmod (d * fa) 255
  have h3 : |(Int.tmod (d * fa) 255)| < 255 := by
    rw [abs_lt]
    constructor
    · have := Int.lt_tmod_of_pos (d * fa) (show (0 : Int) < 255 by decide); omega
    · exact Int.tmod_lt_of_pos _ (by decide)
  generalize (d * fa).tdiv 255 = q at h2 ⊢
  generalize (d * fa).tmod 255 = r at h2 h3
  have h2' : (255 : ℚ) * q + r = d * fa := by exact_mod_cast h2
  have h3' : |(r : ℚ)| ≤ 254 := by
    have : |r| ≤ 254 := by omega
    exact_mod_cast this
  have e : (((b : Int) + q : Int) : ℚ) - (b + (d : ℚ) * ((a / 255) * (o / 255))) =
      (d : ℚ) / 255 * (fa - 255 * ((a / 255) * (o / 255))) - r / 255 := by
    push_cast
    have : (q : ℚ) = (d * fa - r) / 255 := by rw [eq_div_iff (by norm_num)]; linarith
    rw [this]; ring
  rw [e]
  refine (abs_sub _ _).trans ?_
  rw [abs_mul, abs_div, abs_div, abs_of_pos (by norm_num : (0 : ℚ) < 255)]
  have h4 : |(d : ℚ)| / 255 * |(fa : ℚ) - 255 * ((a / 255) * (o / 255))| ≤ 1 * (1 / 2) := by
    refine mul_le_mul ?_ h1 (abs_nonneg _) (by norm_num)
    rw [div_le_one (by norm_num)]
    exact hd1
  have h5 : |(r : ℚ)| / 255 ≤ 254 / 255 := by
    rw [div_le_div_iff_of_pos_right (by norm_num)]
    exact h3'
  linarith

end Ase
