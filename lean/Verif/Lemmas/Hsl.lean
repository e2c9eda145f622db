import Mathlib.Tactic.FinCases
import Verif.Lemmas.F64Exact
import Verif.Spec.Hsl

/-! # The arithmetic of the HSL modes and its rounding errors -/

namespace Ase

open F64 Spec.Hsl

/-! ## Real numbers -/

theorem least_le (c : Colour) (i : Fin 3) : least c ≤ c i := by
  unfold least
  fin_cases i <;> simp

theorem le_most (c : Colour) (i : Fin 3) : c i ≤ most c := by
  unfold most
  fin_cases i <;> simp

theorem least_mem (c : Colour) : ∃ i, c i = least c := by
  unfold least
  rcases min_choice (c 0) (min (c 1) (c 2)) with h | h
  · exact ⟨0, h.symm⟩
  · rcases min_choice (c 1) (c 2) with h' | h'
    · exact ⟨1, by rw [h, h']⟩
    · exact ⟨2, by rw [h, h']⟩

theorem most_mem (c : Colour) : ∃ i, c i = most c := by
  unfold most
  rcases max_choice (c 0) (max (c 1) (c 2)) with h | h
  · exact ⟨0, h.symm⟩
  · rcases max_choice (c 1) (c 2) with h' | h'
    · exact ⟨1, by rw [h, h']⟩
    · exact ⟨2, by rw [h, h']⟩

/-- The luminosity is well between the extremes. -/
theorem lum_between (c : Colour) :
    11 / 100 * (most c - least c) ≤ lum c - least c ∧ 11 / 100 * (most c - least c) ≤ most c - lum c := by
  have a0 := least_le c 0; have a1 := least_le c 1; have a2 := least_le c 2
  have b0 := le_most c 0; have b1 := le_most c 1; have b2 := le_most c 2
  constructor
  · obtain ⟨i, hi⟩ := most_mem c
    rw [← hi]
    unfold lum
    fin_cases i <;> simp only [Fin.zero_eta, Fin.mk_one, Fin.reduceFinMk] at * <;> linarith
  · obtain ⟨i, hi⟩ := least_mem c
    rw [← hi]
    unfold lum
    fin_cases i <;> simp only [Fin.zero_eta, Fin.mk_one, Fin.reduceFinMk] at * <;> linarith

/-! ## Units of error -/

theorem u_small : u ≤ 1 / 10 ^ 12 := by norm_num [u]

theorem u_sq : u * u ≤ u / 10 ^ 12 := by
  have := mul_le_mul_of_nonneg_left u_small u_pos.le
  linarith

theorem ulp_values : ulp 0 = u / 1024 ∧ ulp 8 = u / 4 ∧ ulp 9 = u / 2 ∧ ulp 16 = 64 * u ∧ ulp 12 = 4 * u ∧
    ulp 17 = 128 * u ∧ ulp 20 = 1024 * u := by
  norm_num [ulp, u]

theorem near_lit {n d : ℕ} (hd : 0 < d) (h : (n : ℝ) / d ≤ 1) : Near (lit n d) (n / d) (u / 1024) := by
  have := near_roundK false (K := 0) (by norm_num) hd (by simpa using h)
  rw [ulp_values.1, show sgn false = 1 from rfl, one_mul] at this
  exact this

theorem F64.Near.le {x : F64} {a ε δ : ℝ} (h : Near x a ε) (hd : ε ≤ δ) : Near x a δ := h.mono (by simpa using hd)

theorem F64.Near.nonneg {x : F64} {a ε : ℝ} (h : Near x a ε) : 0 ≤ ε := by
  obtain ⟨_, _, _, _, _, h⟩ := h
  exact (abs_nonneg _).trans h

theorem near_min {x y : F64} {a b ε : ℝ} (hx : Near x a ε) (hy : Near y b ε) : Near (F64.min x y) (min a b) ε := by
  obtain ⟨s, m, e, rfl, hm, h1⟩ := hx
  obtain ⟨s', m', e', rfl, hm', h2⟩ := hy
  have hlt := lt_iff s' s m' m e' e
  unfold F64.min
  dsimp only
  rw [abs_le] at h1 h2
  by_cases h : lt (fin s' m' e') (fin s m e) = true
  · rw [if_pos h]
    have h3 := hlt.1 h
    refine ⟨_, _, _, rfl, hm', abs_le.2 ?_⟩
    rcases min_choice a b with h4 | h4
    · have := min_le_right a b
      rw [h4] at this ⊢
      constructor <;> linarith
    · rw [h4]
      exact h2
  · rw [if_neg h]
    have h3 := not_lt.1 fun hc => h (hlt.2 hc)
    refine ⟨_, _, _, rfl, hm, abs_le.2 ?_⟩
    rcases min_choice a b with h4 | h4
    · rw [h4]
      exact h1
    · have := min_le_left a b
      rw [h4] at this ⊢
      constructor <;> linarith

theorem near_max {x y : F64} {a b ε : ℝ} (hx : Near x a ε) (hy : Near y b ε) : Near (F64.max x y) (max a b) ε := by
  obtain ⟨s, m, e, rfl, hm, h1⟩ := hx
  obtain ⟨s', m', e', rfl, hm', h2⟩ := hy
  have hlt := lt_iff s s' m m' e e'
  unfold F64.max
  dsimp only
  rw [abs_le] at h1 h2
  by_cases h : lt (fin s m e) (fin s' m' e') = true
  · rw [if_pos h]
    have h3 := hlt.1 h
    refine ⟨_, _, _, rfl, hm', abs_le.2 ?_⟩
    rcases max_choice a b with h4 | h4
    · have := le_max_right a b
      rw [h4] at this ⊢
      constructor <;> linarith
    · rw [h4]
      exact h2
  · rw [if_neg h]
    have h3 := not_lt.1 fun hc => h (hlt.2 hc)
    refine ⟨_, _, _, rfl, hm, abs_le.2 ?_⟩
    rcases max_choice a b with h4 | h4
    · rw [h4]
      exact h1
    · have := le_max_left a b
      rw [h4] at this ⊢
      constructor <;> linarith

/-- What a comparison tells about the numbers. -/
theorem lt_near {x y : F64} {a b ε δ : ℝ} (hx : Near x a ε) (hy : Near y b δ) :
    (lt x y = true → a < b + (ε + δ)) ∧ (lt x y = false → b ≤ a + (ε + δ)) := by
  obtain ⟨s, m, e, rfl, hm, h1⟩ := hx
  obtain ⟨s', m', e', rfl, hm', h2⟩ := hy
  rw [abs_le] at h1 h2
  have hlt := lt_iff s s' m m' e e'
  constructor
  · intro h
    have := hlt.1 h
    linarith
  · intro h
    have : ¬ val (fin s m e) < val (fin s' m' e') := fun hc => by rw [hlt.2 hc] at h; cases h
    linarith

theorem lt_exact {x y : F64} {a b : ℝ} (hx : Near x a 0) (hy : Near y b 0) : lt x y = decide (a < b) := by
  have hxv := hx.exact
  have hyv := hy.exact
  obtain ⟨s, m, e, rfl, hm, h1⟩ := hx
  obtain ⟨s', m', e', rfl, hm', h2⟩ := hy
  rw [Bool.eq_iff_iff, lt_iff, hxv, hyv, decide_eq_true_iff]

/-! ## Luminosity -/

theorem near_lumParts {r g b : F64} {c : Colour} {ε : ℝ} (hr : Near r (c 0) ε) (hg : Near g (c 1) ε)
    (hb : Near b (c 2) ε) (hc : ∀ i, |c i| ≤ 512) (hε : ε ≤ 1) :
    Near (F64.add (F64.mul (.lit 3 10) r) (F64.mul (.lit 59 100) g)) (3 / 10 * c 0 + 59 / 100 * c 1) (ε + 5 * u) ∧
      Near (F64.mul (.lit 11 100) b) (11 / 100 * c 2) (ε + 2 * u) ∧
      Near (luminosity r g b) (lum c) (ε + 8 * u) := by
  have hu := u_pos
  have hu1 := u_small
  have hu2 := u_sq
  have hε0 := hr.nonneg
  have hp : ∀ {x : F64} {a : ℝ} (n d : ℕ) (w : ℝ), 0 < d → (n : ℝ) / d = w → 0 ≤ w → w ≤ 3 / 5 → Near x a ε → |a| ≤ 512 →
      Near (mul (lit n d) x) (w * a) (w * ε + 17 / 10 * u) := by
    intro x a n d w hd hw hw0 hw1 hx ha
    have h2 := near_lit (n := n) hd (by rw [hw]; linarith)
    rw [hw] at h2
    have h4 := near_mulK (K := 10) (by norm_num) h2 hx (abs_of_nonneg hw0).le ha (by positivity) (by
      calc (w + u / 1024) * (512 + ε) ≤ 1 * 513 := by
            apply mul_le_mul _ _ _ _ <;> norm_num at hu1 ⊢ <;> linarith
        _ ≤ 2 ^ 10 := by norm_num)
    refine h4.le ?_
    rw [ulp_ten]
    have : u / 1024 * (512 + ε) ≤ u / 1024 * 513 := by
      apply mul_le_mul_of_nonneg_left _ (by positivity)
      linarith
    linarith
  have h0 := hp 3 10 (3 / 10) (by norm_num) (by norm_num) (by norm_num) (by norm_num) hr (hc 0)
  have h1 := hp 59 100 (59 / 100) (by norm_num) (by norm_num) (by norm_num) (by norm_num) hg (hc 1)
  have h2 := hp 11 100 (11 / 100) (by norm_num) (by norm_num) (by norm_num) (by norm_num) hb (hc 2)
  have c0 := abs_le.1 (hc 0); have c1 := abs_le.1 (hc 1); have c2 := abs_le.1 (hc 2)
  norm_num at hu1
  have h3 := near_add h0 h1 (by
    have : |3 / 10 * c 0 + 59 / 100 * c 1| ≤ 500 := by rw [abs_le]; constructor <;> linarith
    linarith)
  have h4 := near_add h3 h2 (by
    have : |3 / 10 * c 0 + 59 / 100 * c 1 + 11 / 100 * c 2| ≤ 512 := by rw [abs_le]; constructor <;> linarith
    linarith)
  exact ⟨h3.le (by linarith), h2.le (by linarith), h4.le (by linarith)⟩

theorem near_luminosity {r g b : F64} {c : Colour} {ε : ℝ} (hr : Near r (c 0) ε) (hg : Near g (c 1) ε)
    (hb : Near b (c 2) ε) (hc : ∀ i, |c i| ≤ 512) (hε : ε ≤ 1) : Near (luminosity r g b) (lum c) (ε + 8 * u) :=
  (near_lumParts hr hg hb hc hε).2.2

/-! ## Clipping -/

/-- The first step of `clip_color` for one channel. -/
def lowF (lum mn x : F64) : F64 :=
  if F64.lt mn (.ofInt 0) then F64.add lum (F64.div (F64.mul (F64.sub x lum) lum) (F64.sub lum mn)) else x

/-- The second step. -/
def highF (lum mx x : F64) : F64 :=
  if F64.lt (.ofInt 1) mx then
    F64.add lum (F64.div (F64.mul (F64.sub x lum) (F64.sub (.ofInt 1) lum)) (F64.sub mx lum))
  else x

theorem clipColor_eq (r g b : F64) : clipColor r g b =
    let lum := luminosity r g b
    let mn := F64.min r (F64.min g b)
    let mx := F64.max r (F64.max g b)
    (highF lum mx (lowF lum mn r), highF lum mx (lowF lum mn g), highF lum mx (lowF lum mn b)) := by
  unfold clipColor lowF highF
  dsimp only
  split <;> split <;> rfl

noncomputable def lowR (l n x : ℝ) : ℝ := if n < 0 then l + (x - l) * l / (l - n) else x

noncomputable def highR (l m x : ℝ) : ℝ := if 1 < m then l + (x - l) * (1 - l) / (m - l) else x

theorem clip_eq (c : Colour) (i : Fin 3) : clip c i = highR (lum c) (most c) (lowR (lum c) (least c) (c i)) := by
  unfold clip lowR highR
  split <;> split <;> rfl

/-- The first step, with both branches compared. -/
theorem near_low {x lm mn : F64} {X l n d : ℝ} (hx : Near x X (20 * u)) (hl : Near lm l (28 * u))
    (hn : Near mn n (20 * u)) (hl0 : 0 ≤ l) (hl1 : l ≤ 255) (hd0 : 1 ≤ d) (hd1 : d ≤ 255) (hX : |X - l| ≤ d)
    (hln : 11 / 100 * d ≤ l - n) (hln' : l - n ≤ d) :
    Near (lowF lm mn x) (lowR l n X) (350000 * u) ∧ |lowR l n X - l| ≤ d := by
  have hu := u_pos
  have hu1 := u_small
  have hu2 := u_sq
  norm_num at hu1
  have hln0 : 0 < l - n := by linarith
  have hratio : |X - l| / (l - n) ≤ 10 := by
    rw [div_le_iff₀ hln0]
    linarith
  have hmis : |l + (X - l) * l / (l - n) - X| ≤ 10 * |n| := by
    have e1 : l + (X - l) * l / (l - n) - X = (X - l) / (l - n) * n := by
      field_simp
      ring
    rw [e1, abs_mul, abs_div, abs_of_pos hln0]
    exact mul_le_mul_of_nonneg_right hratio (abs_nonneg _)
  have hz := near_ofInt_exact (n := 0) (by norm_num)
  constructor
  · unfold lowF
    by_cases hb : lt mn (.ofInt 0) = true
    · rw [if_pos hb]
      have hn0 := (lt_near hn hz).1 hb
      push_cast at hn0
      have hfac : l / (l - n) ≤ 1 + 1 / 1000 := by
        rw [div_le_iff₀ hln0]
        linarith
      have hQ : |(X - l) * l / (l - n)| ≤ 256 := by
        rw [mul_div_assoc, abs_mul, abs_of_nonneg (div_nonneg hl0 hln0.le)]
        calc |X - l| * (l / (l - n)) ≤ 255 * (1 + 1 / 1000) :=
              mul_le_mul (by linarith) hfac (div_nonneg hl0 hln0.le) (by norm_num)
          _ ≤ 256 := by norm_num
      have h1 := near_sub hx hl (by linarith)
      have h2 := near_mulK (K := 16) (A := 255) (B := 255) (by norm_num) (h1.le (show _ ≤ 49 * u by linarith)) hl
        (by linarith) (by rw [abs_of_nonneg hl0]; exact hl1) (by positivity) (by nlinarith)
      have h3 := near_sub hl hn (by rw [abs_of_pos hln0]; linarith)
      have hdiv : (20000 * u + 256 * (49 * u)) / (11 / 100 - 49 * u) ≤ 300000 * u := by
        rw [div_le_iff₀ (by linarith)]
        nlinarith
      have h4 := near_divK (K := 10) (ε := 20000 * u) (δ := 49 * u) (γ := 11 / 100) (Q := 256) (by norm_num)
        (h2.le (by rw [ulp_values.2.2.2.1]; nlinarith)) (h3.le (by linarith)) (by rw [abs_of_pos hln0]; linarith)
        (by linarith) hQ (by positivity) (by positivity) (by norm_num at hdiv ⊢; linarith)
      rw [ulp_ten] at h4
      have h5 := near_add hl (h4.le (show _ ≤ 300001 * u by linarith)) (by
        have := abs_add_le l ((X - l) * l / (l - n))
        rw [abs_of_nonneg hl0] at this
        linarith)
      refine h5.mono ?_
      unfold lowR
      split
      · simp only [sub_self, abs_zero]
        linarith
      · next hc =>
        rw [abs_of_nonneg (not_lt.1 hc)] at hmis
        linarith
    · rw [if_neg hb]
      have hn0 := (lt_near hn hz).2 (by simpa using hb)
      push_cast at hn0
      refine hx.mono ?_
      unfold lowR
      split
      · next hc =>
        rw [abs_of_neg hc, abs_sub_comm] at hmis
        linarith
      · simp only [sub_self, abs_zero]
        linarith
  · unfold lowR
    split
    · next hn0 =>
      have e1 : l + (X - l) * l / (l - n) - l = (X - l) * (l / (l - n)) := by ring
      rw [e1, abs_mul, abs_of_nonneg (div_nonneg hl0 hln0.le)]
      have : l / (l - n) ≤ 1 := by
        rw [div_le_one hln0]
        linarith
      calc |X - l| * (l / (l - n)) ≤ |X - l| * 1 := mul_le_mul_of_nonneg_left this (abs_nonneg _)
        _ ≤ d := by linarith
    · exact hX

/-- The second step. -/
theorem near_high {x lm mx : F64} {X l m d : ℝ} (hx : Near x X (350000 * u)) (hl : Near lm l (28 * u))
    (hm : Near mx m (20 * u)) (hl0 : 0 ≤ l) (hl1 : l ≤ 255) (hd0 : 1 ≤ d) (hd1 : d ≤ 255) (hX : |X - l| ≤ d)
    (hlm : 11 / 100 * d ≤ m - l) (hlm' : m - l ≤ d) :
    Near (highF lm mx x) (highR l m X) (10 ^ 9 * u) ∧ |highR l m X| ≤ 2700 := by
  have hu := u_pos
  have hu1 := u_small
  have hu2 := u_sq
  norm_num at hu1
  have hlm0 : 0 < m - l := by linarith
  have hratio : |X - l| / (m - l) ≤ 10 := by
    rw [div_le_iff₀ hlm0]
    linarith
  have hratio' : |X - l| / (m - l) ≤ 92 / 10 := by
    rw [div_le_iff₀ hlm0]
    linarith
  have h1l : |1 - l| ≤ 255 := by rw [abs_le]; constructor <;> linarith
  have hmis : |l + (X - l) * (1 - l) / (m - l) - X| ≤ 10 * |1 - m| := by
    have e1 : l + (X - l) * (1 - l) / (m - l) - X = (X - l) / (m - l) * (1 - m) := by
      field_simp
      ring
    rw [e1, abs_mul, abs_div, abs_of_pos hlm0]
    exact mul_le_mul_of_nonneg_right hratio (abs_nonneg _)
  have hQ : |(X - l) * (1 - l) / (m - l)| ≤ 2400 := by
    have e1 : (X - l) * (1 - l) / (m - l) = (X - l) / (m - l) * (1 - l) := by ring
    rw [e1, abs_mul, abs_div, abs_of_pos hlm0]
    calc |X - l| / (m - l) * |1 - l| ≤ 92 / 10 * 255 :=
          mul_le_mul hratio' h1l (abs_nonneg _) (by norm_num)
      _ ≤ 2400 := by norm_num
  have hsum : |l + (X - l) * (1 - l) / (m - l)| ≤ 2655 := by
    have := abs_add_le l ((X - l) * (1 - l) / (m - l))
    rw [abs_of_nonneg hl0] at this
    linarith
  have ho := near_ofInt_exact (n := 1) (by norm_num)
  have ho1 : Near (.ofInt 1) 1 0 := by simpa using ho
  constructor
  · unfold highF
    by_cases hb : lt (.ofInt 1) mx = true
    · rw [if_pos hb]
      have hn0 := (lt_near ho1 hm).1 hb
      have h1 := near_sub hx hl (by linarith)
      have h1' := near_sub ho1 hl (by linarith)
      have h2 := near_mulK (K := 16) (A := 255) (B := 255) (by norm_num) (h1.le (show _ ≤ 350029 * u by linarith))
        (h1'.le (show _ ≤ 29 * u by linarith)) (by linarith) h1l (by positivity) (by nlinarith)
      have h3 := near_sub hm hl (by rw [abs_of_pos hlm0]; linarith)
      have hdiv : (90000000 * u + 2400 * (49 * u)) / (11 / 100 - 49 * u) ≤ 900000000 * u := by
        rw [div_le_iff₀ (by linarith)]
        nlinarith
      have h4 := near_divK (K := 12) (ε := 90000000 * u) (δ := 49 * u) (γ := 11 / 100) (Q := 2400) (by norm_num)
        (h2.le (by rw [ulp_values.2.2.2.1]; nlinarith)) (h3.le (by linarith)) (by rw [abs_of_pos hlm0]; linarith)
        (by linarith) hQ (by positivity) (by positivity) (by norm_num at hdiv ⊢; linarith)
      rw [ulp_values.2.2.2.2.1] at h4
      have h5 := near_addK (K := 12) (by norm_num) hl (h4.le (show _ ≤ 900000004 * u by linarith)) (by
        norm_num
        linarith)
      rw [ulp_values.2.2.2.2.1] at h5
      refine h5.mono ?_
      unfold highR
      split
      · simp only [sub_self, abs_zero]
        linarith
      · next hc =>
        have hm1 : |1 - m| ≤ 20 * u := by rw [abs_le]; constructor <;> linarith
        linarith
    · rw [if_neg hb]
      have hn0 := (lt_near ho1 hm).2 (by simpa using hb)
      refine hx.mono ?_
      unfold highR
      split
      · next hc =>
        have hm1 : |1 - m| ≤ 20 * u := by rw [abs_le]; constructor <;> linarith
        rw [abs_sub_comm] at hmis
        linarith
      · simp only [sub_self, abs_zero]
        linarith
  · unfold highR
    split
    · linarith
    · rw [abs_le] at hX ⊢
      constructor <;> linarith

/-- A component of a triple. -/
def pick (p : F64 × F64 × F64) (i : Fin 3) : F64 := if i = 0 then p.1 else if i = 1 then p.2.1 else p.2.2

theorem pick_map (f : F64 → F64) (r g b : F64) (i : Fin 3) : pick (f r, f g, f b) i = f (pick (r, g, b) i) := by
  unfold pick
  split
  · rfl
  · split <;> rfl

theorem pick_clip (r g b : F64) (i : Fin 3) : pick (clipColor r g b) i =
    highF (luminosity r g b) (F64.max r (F64.max g b))
      (lowF (luminosity r g b) (F64.min r (F64.min g b)) (pick (r, g, b) i)) := by
  rw [clipColor_eq]
  exact pick_map (fun x => highF _ _ (lowF _ _ x)) r g b i

theorem near_setLum {r g b t : F64} {c : Colour} {L : ℝ} (hr : ∀ i, Near (pick (r, g, b) i) (c i) u)
    (ht : Near t L (8 * u)) (hL0 : 0 ≤ L) (hL1 : L ≤ 255) (hc0 : ∀ i, 0 ≤ c i) (hc1 : ∀ i, c i ≤ 255)
    (hs : 1 ≤ sat c) (i : Fin 3) :
    Near (pick (setLuminocity r g b t) i) (setLum c L i) (10 ^ 9 * u) ∧ |setLum c L i| ≤ 2700 := by
  have hu := u_pos
  have hu1 := u_small
  norm_num at hu1
  have a0 := hc0 0; have a1 := hc0 1; have a2 := hc0 2
  have b0 := hc1 0; have b1 := hc1 1; have b2 := hc1 2
  have hl0 : 0 ≤ lum c := by unfold lum; linarith
  have hl1 : lum c ≤ 255 := by unfold lum; linarith
  have h1 := near_luminosity (hr 0) (hr 1) (hr 2) (fun i => by rw [abs_of_nonneg (hc0 i)]; linarith [hc1 i]) (by linarith)
  change Near (luminosity r g b) (lum c) (u + 8 * u) at h1
  have h2 := near_sub ht h1 (by
    have : |L - lum c| ≤ 255 := by rw [abs_le]; constructor <;> linarith
    linarith)
  obtain ⟨C, hC⟩ : ∃ C : Colour, C = fun i => c i + (L - lum c) := ⟨_, rfl⟩
  have hCi : ∀ i, C i = c i + (L - lum c) := fun i => by rw [hC]
  have hCb : ∀ i, |C i| ≤ 512 := fun i => by
    rw [hCi, abs_le]
    have := hc0 i; have := hc1 i
    constructor <;> linarith
  have h3 : ∀ i, Near (F64.add (pick (r, g, b) i) (F64.sub t (luminosity r g b))) (C i) (20 * u) := fun i => by
    have := near_add (hr i) h2 (by have := hCb i; rw [hCi] at this; linarith)
    rw [hCi]
    exact this.le (by linarith)
  have hlum : lum C = L := by
    unfold lum at *
    rw [hCi, hCi, hCi]
    ring
  have h4 := near_luminosity (h3 0) (h3 1) (h3 2) hCb (by linarith)
  rw [hlum] at h4
  have h5 : Near _ (least C) _ := near_min (h3 0) (near_min (h3 1) (h3 2))
  have h6 : Near _ (most C) _ := near_max (h3 0) (near_max (h3 1) (h3 2))
  have hd0 : 1 ≤ most C - least C := by
    obtain ⟨j, hj⟩ := most_mem c
    obtain ⟨k, hk⟩ := least_mem c
    unfold sat at hs
    have := le_most C j
    have := least_le C k
    rw [hCi] at *
    linarith
  have hd1 : most C - least C ≤ 255 := by
    obtain ⟨j, hj⟩ := most_mem C
    obtain ⟨k, hk⟩ := least_mem C
    rw [← hj, ← hk, hCi, hCi]
    linarith [hc0 k, hc1 j]
  obtain ⟨hb1, hb2⟩ := lum_between C
  rw [hlum] at hb1 hb2
  have hX : |C i - L| ≤ most C - least C := by
    have := least_le C i; have := le_most C i
    rw [abs_le]
    constructor <;> linarith
  have hlow := near_low (h3 i) (h4.le (by linarith)) h5 hL0 hL1 hd0 hd1 hX hb1 (by linarith)
  have hhigh := near_high hlow.1 (h4.le (by linarith)) h6 hL0 hL1 hd0 hd1 hlow.2 hb2 (by linarith)
  have e1 : setLum c L i = highR L (most C) (lowR L (least C) (C i)) := by
    unfold setLum
    rw [← hC, clip_eq, hlum]
  rw [e1]
  unfold setLuminocity
  dsimp only
  rw [pick_clip, pick_map fun x => F64.add x (F64.sub t (luminosity r g b))]
  exact hhigh

/-! ## Saturation -/

theorem near_toF (x : UInt8) : Near (toF x) (x.toNat : ℝ) 0 := by
  have h := near_ofInt_exact (n := toI x) (by have := x.toNat_lt; simp only [toI, Int.natAbs_natCast]; omega)
  simpa [toI, toF] using h

/-- The channels of a pixel as numbers. -/
def chN (c : Color) (i : Fin 3) : ℕ := if i = 0 then c.r.toNat else if i = 1 then c.g.toNat else c.b.toNat

theorem channels_eq (c : Color) (i : Fin 3) : channels c i = chN c i := by
  unfold channels chN
  split
  · rfl
  · split <;> rfl

theorem chN_le (c : Color) (i : Fin 3) : chN c i ≤ 255 := by
  have := c.r.toNat_lt; have := c.g.toNat_lt; have := c.b.toNat_lt
  unfold chN
  split
  · omega
  · split <;> omega

/-- The sort, on natural numbers. -/
def sortN (r g b : ℕ) : Fin 3 × Fin 3 × Fin 3 :=
  let mn : Fin 3 := if r < min g b then 0 else if g < b then 1 else 2
  let mx : Fin 3 := if max g b < r then 0 else if b < g then 1 else 2
  let mid : Fin 3 :=
    if g < r then if b < g then 1 else if b < r then 2 else 0
    else if b < g then if r < b then 2 else 0 else 1
  (mn, mid, mx)

theorem lt_nat {x y : F64} {a b : ℕ} (hx : Near x (a : ℝ) 0) (hy : Near y (b : ℝ) 0) : lt x y = decide (a < b) := by
  rw [lt_exact hx hy, decide_eq_decide]
  exact Nat.cast_lt

theorem sort_nat {r g b : F64} {a c d : ℕ} (hr : Near r (a : ℝ) 0) (hg : Near g (c : ℝ) 0) (hb : Near b (d : ℝ) 0) :
    staticSort3Orig r g b = sortN a c d := by
  have h1 : Near (F64.min g b) ((min c d : ℕ) : ℝ) 0 := by rw [Nat.cast_min]; exact near_min hg hb
  have h2 : Near (F64.max g b) ((max c d : ℕ) : ℝ) 0 := by rw [Nat.cast_max]; exact near_max hg hb
  unfold staticSort3Orig sortN
  rw [lt_nat hr h1, lt_nat h2 hr, lt_nat hg hb, lt_nat hb hg, lt_nat hg hr, lt_nat hb hr, lt_nat hr hb]
  simp only [decide_eq_true_eq]

/-- Red is left out, or green is. -/
def Tie (n : Fin 3 → ℕ) (i : Fin 3) : Prop := (i = 0 ∧ n 0 = n 1 ∧ n 1 ≤ n 2) ∨ (i = 1 ∧ n 1 = n 2 ∧ n 2 < n 0)

theorem sortN_spec (n : Fin 3 → ℕ) (mn mid mx : Fin 3) (h : sortN (n 0) (n 1) (n 2) = (mn, mid, mx)) (i : Fin 3) :
    n mn ≤ n i ∧ n i ≤ n mx ∧ ((i ≠ mn ∧ i ≠ mid ∧ i ≠ mx) ↔ Tie n i) := by
  unfold sortN at h
  rw [Nat.min_def, Nat.max_def] at h
  simp only [Prod.mk.injEq] at h
  obtain ⟨h1, h2, h3⟩ := h
  unfold Tie
  fin_cases i <;> simp only [Fin.zero_eta, Fin.mk_one, Fin.reduceFinMk] <;> split_ifs at h1 h2 h3 <;> subst h1 h2 h3 <;>
    simp <;> omega

theorem pick_setSaturation (r g b s : F64) (mn mid mx : Fin 3) (h : staticSort3Orig r g b = (mn, mid, mx)) (i : Fin 3) :
    pick (setSaturation r g b s) i =
      if i = mn then .ofInt 0
      else if F64.lt (pick (r, g, b) mn) (pick (r, g, b) mx) then
        if i = mx then s
        else if i = mid then F64.div (F64.mul (F64.sub (pick (r, g, b) mid) (pick (r, g, b) mn)) s)
          (F64.sub (pick (r, g, b) mx) (pick (r, g, b) mn))
        else pick (r, g, b) i
      else if i = mx then .ofInt 0 else if i = mid then .ofInt 0 else pick (r, g, b) i := by
  have hp : ∀ f : Fin 3 → F64, pick (f 0, f 1, f 2) i = f i := by
    intro f
    unfold pick
    fin_cases i <;> rfl
  unfold setSaturation
  rw [h]
  dsimp only
  rw [hp]
  change upd (if F64.lt (pick (r, g, b) mn) (pick (r, g, b) mx) then
      upd (upd (pick (r, g, b)) mid (F64.div (F64.mul (F64.sub (pick (r, g, b) mid) (pick (r, g, b) mn)) s)
        (F64.sub (pick (r, g, b) mx) (pick (r, g, b) mn)))) mx s
    else upd (upd (pick (r, g, b)) mid (.ofInt 0)) mx (.ofInt 0)) mn (.ofInt 0) i = _
  by_cases hlt : F64.lt (pick (r, g, b) mn) (pick (r, g, b) mx) = true
  · rw [if_pos hlt, if_pos hlt]
    rfl
  · rw [if_neg hlt, if_neg hlt]
    rfl

theorem near_setSat {r g b s : F64} {n : Fin 3 → ℕ} {S : ℕ} (hr : ∀ i, Near (pick (r, g, b) i) (n i : ℝ) 0)
    (hs : Near s (S : ℝ) 0) (hn : ∀ i, n i ≤ 255) (hS : S ≤ 255) (i : Fin 3) :
    Near (pick (setSaturation r g b s) i) (setSatTies (fun i => (n i : ℝ)) S i) u := by
  have hu := u_pos
  have hu1 := u_small
  norm_num at hu1
  obtain ⟨mn, mid, mx, hsort⟩ : ∃ mn mid mx, sortN (n 0) (n 1) (n 2) = (mn, mid, mx) := ⟨_, _, _, rfl⟩
  have hspec := sortN_spec n mn mid mx hsort
  have hsort' : staticSort3Orig r g b = (mn, mid, mx) := (sort_nat (hr 0) (hr 1) (hr 2)).trans hsort
  have hleast : least (fun i => (n i : ℝ)) = n mn := by
    refine le_antisymm (least_le (fun i => (n i : ℝ)) mn) ?_
    obtain ⟨j, hj⟩ := least_mem fun i => (n i : ℝ)
    rw [← hj]
    exact_mod_cast (hspec j).1
  have hmost : most (fun i => (n i : ℝ)) = n mx := by
    refine le_antisymm ?_ (le_most (fun i => (n i : ℝ)) mx)
    obtain ⟨j, hj⟩ := most_mem fun i => (n i : ℝ)
    rw [← hj]
    exact_mod_cast (hspec j).2.1
  have htie : ((i = 0 ∧ (n 0 : ℝ) = n 1 ∧ (n 1 : ℝ) ≤ n 2) ∨ (i = 1 ∧ (n 1 : ℝ) = n 2 ∧ (n 2 : ℝ) < n 0)) ↔ Tie n i := by
    unfold Tie
    simp only [Nat.cast_inj, Nat.cast_le, Nat.cast_lt]
  have hz : Near (.ofInt 0) 0 0 := by simpa using near_ofInt_exact (n := 0) (by norm_num)
  rw [pick_setSaturation r g b s mn mid mx hsort', lt_nat (hr mn) (hr mx)]
  unfold setSatTies setSat
  rw [hleast, hmost]
  dsimp only
  by_cases ht : Tie n i
  · rw [if_pos (htie.2 ht)]
    obtain ⟨t1, t2, t3⟩ := (hspec i).2.2.2 ht
    rw [if_neg t1, if_neg t2, if_neg t3, if_neg t3, if_neg t2, ite_self]
    exact (hr i).le hu.le
  · rw [if_neg fun h => ht (htie.1 h)]
    by_cases h1 : i = mn
    · rw [if_pos h1, h1, sub_self, zero_mul, zero_div]
      exact hz.le hu.le
    · rw [if_neg h1]
      by_cases hlt : n mn < n mx
      · have hlt' : (n mn : ℝ) < n mx := by exact_mod_cast hlt
        rw [if_pos (by simpa using hlt)]
        by_cases h2 : i = mx
        · rw [if_pos h2, h2, mul_div_cancel_left₀ _ (sub_ne_zero.2 hlt'.ne')]
          exact hs.le hu.le
        · rw [if_neg h2]
          have h3 : i = mid := by
            by_contra h3
            exact ht ((hspec i).2.2.1 ⟨h1, h3, h2⟩)
          rw [if_pos h3, h3]
          have hcast : ∀ j, Near (pick (r, g, b) j) ((n j : ℤ) : ℝ) 0 := fun j => by simpa using hr j
          have m1 := (hspec mid).1
          have m2 := (hspec mid).2.1
          have m3 := hn mx
          have e1 := near_sub_exact (hcast mid) (hcast mn) (by omega)
          have hs' : Near s ((S : ℤ) : ℝ) 0 := by simpa using hs
          have hprod : ((n mid : ℤ) - n mn) * S ≤ 255 * 255 :=
            mul_le_mul (by omega) (by omega) (by omega) (by norm_num)
          have hprod0 : 0 ≤ ((n mid : ℤ) - n mn) * S := mul_nonneg (by omega) (by omega)
          have e2 := near_mul_exact e1 hs' (by omega)
          have e3 := near_sub_exact (hcast mx) (hcast mn) (by omega)
          push_cast at e2 e3
          have hd1 : (1 : ℝ) ≤ n mx - n mn := by
            have : (n mn : ℝ) + 1 ≤ n mx := by exact_mod_cast hlt
            linarith
          have hQ : |((n mid : ℝ) - n mn) * S / (n mx - n mn)| ≤ 255 := by
            have m1' : (n mn : ℝ) ≤ n mid := by exact_mod_cast m1
            have m2' : (n mid : ℝ) ≤ n mx := by exact_mod_cast m2
            have hS' : (S : ℝ) ≤ 255 := by exact_mod_cast hS
            have hS0 : (0 : ℝ) ≤ S := Nat.cast_nonneg _
            rw [abs_of_nonneg (div_nonneg (mul_nonneg (by linarith) hS0) (by linarith)), div_le_iff₀ (by linarith)]
            nlinarith
          have e4 := near_divK (K := 8) (γ := 1) (Q := 255) (by norm_num) e2 e3 (by rw [abs_of_nonneg] <;> linarith)
            (by norm_num) hQ le_rfl le_rfl (by norm_num)
          refine e4.le ?_
          rw [ulp_values.2.1]
          norm_num
          linarith
      · rw [if_neg (by simpa using hlt)]
        have hall : (n i : ℝ) - n mn = 0 := by
          have h4 := hspec i
          have : n i = n mn := by omega
          rw [this, sub_self]
        rw [hall, zero_mul, zero_div]
        by_cases h2 : i = mx
        · rw [if_pos h2]
          exact hz.le hu.le
        · rw [if_neg h2, if_pos (by
            by_contra h3
            exact ht ((hspec i).2.2.1 ⟨h1, h3, h2⟩))]
          exact hz.le hu.le

theorem near_saturation (c : Color) :
    ∃ S : ℕ, S ≤ 255 ∧ sat (channels c) = S ∧ Near (saturation (toF c.r) (toF c.g) (toF c.b)) (S : ℝ) 0 := by
  have hr := near_toF c.r; have hg := near_toF c.g; have hb := near_toF c.b
  have h1 : Near (F64.max (toF c.r) (F64.max (toF c.g) (toF c.b)))
      ((max c.r.toNat (max c.g.toNat c.b.toNat) : ℕ) : ℝ) 0 := by
    push_cast
    exact near_max hr (near_max hg hb)
  have h2 : Near (F64.min (toF c.r) (F64.min (toF c.g) (toF c.b)))
      ((min c.r.toNat (min c.g.toNat c.b.toNat) : ℕ) : ℝ) 0 := by
    push_cast
    exact near_min hr (near_min hg hb)
  have hr' := c.r.toNat_lt; have hg' := c.g.toNat_lt; have hb' := c.b.toNat_lt
  obtain ⟨M, hM⟩ : ∃ M, M = max c.r.toNat (max c.g.toNat c.b.toNat) := ⟨_, rfl⟩
  obtain ⟨N, hN⟩ : ∃ N, N = min c.r.toNat (min c.g.toNat c.b.toNat) := ⟨_, rfl⟩
  have hMN : N ≤ M := by
    rw [hM, hN]
    exact (min_le_left _ _).trans (le_max_left _ _)
  have hM1 : M ≤ 255 := by
    rw [hM]
    exact max_le (by omega) (max_le (by omega) (by omega))
  refine ⟨M - N, by omega, ?_, ?_⟩
  · rw [Nat.cast_sub hMN, hM, hN]
    unfold sat most least channels
    push_cast
    rfl
  · rw [← hM] at h1
    rw [← hN] at h2
    have h3 := near_sub_exact (a := (M : ℤ)) (b := (N : ℤ)) (by simpa using h1) (by simpa using h2) (by omega)
    rw [show ((M - N : ℕ) : ℝ) = (((M : ℤ) - N : ℤ) : ℝ) by push_cast [Nat.cast_sub hMN]; rfl]
    exact h3

/-! ## The colours before their luminosity is set -/

theorem setSat_bounds (c : Colour) {s : ℝ} (hs : 0 ≤ s) (i : Fin 3) : 0 ≤ setSat c s i ∧ setSat c s i ≤ s := by
  unfold setSat
  have h1 := least_le c i
  have h2 := le_most c i
  rcases (h1.trans h2).eq_or_lt with h | h
  · rw [h, sub_self, div_zero]
    exact ⟨le_rfl, hs⟩
  · refine ⟨div_nonneg (mul_nonneg (by linarith) hs) (by linarith), ?_⟩
    rw [div_le_iff₀ (by linarith), mul_comm]
    exact mul_le_mul_of_nonneg_left (by linarith) hs

theorem setSatTies_bounds {n : Fin 3 → ℕ} {S : ℕ} (hn : ∀ i, n i ≤ 255) (hS : S ≤ 255) (i : Fin 3) :
    0 ≤ setSatTies (fun i => (n i : ℝ)) S i ∧ setSatTies (fun i => (n i : ℝ)) S i ≤ 255 := by
  unfold setSatTies
  split
  · exact ⟨Nat.cast_nonneg (n i), show (n i : ℝ) ≤ 255 by exact_mod_cast hn i⟩
  · have h := setSat_bounds (fun i => (n i : ℝ)) (s := S) (Nat.cast_nonneg _) i
    have hS' : (S : ℝ) ≤ 255 := by exact_mod_cast hS
    exact ⟨h.1, h.2.trans hS'⟩

theorem sat_int_of_values {c : Colour} (h : ∀ i, ∃ k : ℕ, c i = k) : ∃ k : ℤ, sat c = k := by
  obtain ⟨i, hi⟩ := most_mem c
  obtain ⟨j, hj⟩ := least_mem c
  obtain ⟨k, hk⟩ := h i
  obtain ⟨l, hl⟩ := h j
  exact ⟨(k : ℤ) - l, by rw [sat, ← hi, ← hj, hk, hl]; push_cast; rfl⟩

theorem sat_setSatTies (n : Fin 3 → ℕ) (S : ℕ) : ∃ k : ℤ, sat (setSatTies (fun i => (n i : ℝ)) S) = k := by
  obtain ⟨c, hc⟩ : ∃ c : Colour, c = fun i => (n i : ℝ) := ⟨_, rfl⟩
  have hmn : ∀ i, c i = least c → setSat c S i = 0 := fun i hi => by rw [setSat, hi, sub_self, zero_mul, zero_div]
  have hmx : ∀ i, c i = most c → ∃ k : ℕ, setSat c S i = k := fun i hi => by
    by_cases h : most c - least c = 0
    · exact ⟨0, by rw [setSat, h, div_zero, Nat.cast_zero]⟩
    · exact ⟨S, by rw [setSat, hi, mul_div_cancel_left₀ _ h]⟩
  rw [← hc]
  by_cases ht : (c 0 = c 1 ∧ c 1 ≤ c 2) ∨ (c 1 = c 2 ∧ c 2 < c 0)
  · refine sat_int_of_values fun i => ?_
    unfold setSatTies
    split
    · exact ⟨n i, by rw [hc]⟩
    · next hi =>
      rcases ht with ⟨h1, h2⟩ | ⟨h1, h2⟩
      · have hl : least c = c 1 := by unfold least; rw [h1, min_eq_left h2, min_self]
        have hm : most c = c 2 := by unfold most; rw [h1, max_eq_right h2, max_eq_right h2]
        fin_cases i
        · exact absurd (.inl ⟨rfl, h1, h2⟩) hi
        · exact ⟨0, by rw [Nat.cast_zero]; exact hmn 1 hl.symm⟩
        · exact hmx 2 hm.symm
      · have hl : least c = c 2 := by unfold least; rw [h1, min_self, min_eq_right h2.le]
        have hm : most c = c 0 := by unfold most; rw [h1, max_self, max_eq_left h2.le]
        fin_cases i
        · exact hmx 0 hm.symm
        · exact absurd (.inr ⟨rfl, h1, h2⟩) hi
        · exact ⟨0, by rw [Nat.cast_zero]; exact hmn 2 hl.symm⟩
  · have e : setSatTies c S = setSat c S := by
      funext i
      unfold setSatTies
      rw [if_neg]
      rintro (⟨_, h⟩ | ⟨_, h⟩)
      · exact ht (.inl h)
      · exact ht (.inr h)
    rw [e]
    obtain ⟨j, hj⟩ := least_mem c
    obtain ⟨k, hk⟩ := most_mem c
    obtain ⟨v, hv⟩ := hmx k hk
    have hb := setSat_bounds c (s := S) (Nat.cast_nonneg _)
    have h1 : least (setSat c S) = 0 := by
      refine le_antisymm ?_ ?_
      · rw [← hmn j hj]
        exact least_le _ _
      · obtain ⟨l, hl⟩ := least_mem (setSat c S)
        rw [← hl]
        exact (hb l).1
    have h2 : most (setSat c S) = setSat c S k := by
      refine le_antisymm ?_ (le_most _ _)
      obtain ⟨l, hl⟩ := most_mem (setSat c S)
      rw [← hl]
      unfold setSat
      have h3 := le_most c l
      have h4 := least_le c l
      rw [hk]
      have h5 : (0 : ℝ) ≤ S := Nat.cast_nonneg _
      exact div_le_div_of_nonneg_right (mul_le_mul_of_nonneg_right (by linarith) h5) (by linarith)
    exact ⟨v, by rw [sat, h1, h2, hv, sub_zero]; rfl⟩

theorem source_bounds (m : BlendMode) (back front : Color) (i : Fin 3) :
    0 ≤ source m back front i ∧ source m back front i ≤ 255 := by
  have key : ∀ c : Color, 0 ≤ channels c i ∧ channels c i ≤ 255 := fun c => by
    rw [channels_eq]
    exact ⟨Nat.cast_nonneg _, by exact_mod_cast chN_le c i⟩
  have key2 : ∀ c d : Color, 0 ≤ setSatTies (channels c) (sat (channels d)) i ∧
      setSatTies (channels c) (sat (channels d)) i ≤ 255 := fun c d => by
    obtain ⟨S, h1, h2, _⟩ := near_saturation d
    rw [h2, show channels c = fun i => (chN c i : ℝ) from funext (channels_eq c)]
    exact setSatTies_bounds (chN_le c) h1 i
  unfold source
  split
  · exact key2 _ _
  · exact key2 _ _
  · exact key _
  · exact key _

theorem source_spread (m : BlendMode) (back front : Color) (h : sat (source m back front) ≠ 0) :
    1 ≤ sat (source m back front) := by
  have h0 : 0 ≤ sat (source m back front) := by
    have h1 := least_le (source m back front) 0
    have h2 := le_most (source m back front) 0
    unfold sat
    linarith
  have key : ∀ c : Color, ∃ k : ℤ, sat (channels c) = k := fun c =>
    sat_int_of_values fun i => ⟨_, channels_eq c i⟩
  have key2 : ∀ c d : Color, ∃ k : ℤ, sat (setSatTies (channels c) (sat (channels d))) = k := fun c d => by
    obtain ⟨S, h1, h2, _⟩ := near_saturation d
    rw [h2, show channels c = fun i => (chN c i : ℝ) from funext (channels_eq c)]
    exact sat_setSatTies _ _
  have hint : ∃ k : ℤ, sat (source m back front) = k := by
    unfold source
    split
    · exact key2 _ _
    · exact key2 _ _
    · exact key _
    · exact key _
  obtain ⟨k, hk⟩ := hint
  rw [hk] at h h0 ⊢
  have h3 : k ≠ 0 := fun h3 => h (by rw [h3, Int.cast_zero])
  have h4 : 0 ≤ k := by exact_mod_cast h0
  exact_mod_cast (by omega : 1 ≤ k)

/-! ## Back to bytes -/

theorem toI32_val {s : Bool} {m : ℕ} {e : ℤ} (h : |val (fin s m e)| ≤ 2 ^ 30) :
    toI32 (fin s m e) = truncate (val (fin s m e)) := by
  obtain ⟨q, hq⟩ : ∃ q : ℕ, q = m * 2 ^ e.toNat / 2 ^ (-e).toNat := ⟨_, rfl⟩
  have hv : val (fin false m e) = m * 2 ^ e := by simp [val, sgn]
  have hfl : ⌊(m : ℝ) * 2 ^ e⌋ = (q : ℤ) := by
    have hd : (0 : ℝ) < 2 ^ (-e).toNat := by positivity
    rw [two_zpow, ← mul_div_assoc, hq, Int.floor_eq_iff, le_div_iff₀ hd, div_lt_iff₀ hd]
    have h1 := Nat.div_mul_le_self (m * 2 ^ e.toNat) (2 ^ (-e).toNat)
    have h2 := Nat.lt_div_mul_add (a := m * 2 ^ e.toNat) (b := 2 ^ (-e).toNat) (by positivity)
    constructor
    · exact_mod_cast h1
    · rw [add_mul, one_mul]
      exact_mod_cast h2
  have h0 : 0 ≤ (m : ℝ) * 2 ^ e := mul_nonneg (Nat.cast_nonneg _) (two_zpow_pos e).le
  have habs : |val (fin s m e)| = m * 2 ^ e := by
    rw [val, abs_mul, abs_sgn, one_mul, abs_of_nonneg h0]
  rw [habs] at h
  have hq1 : (q : ℤ) ≤ 2 ^ 30 := by
    rw [← hfl]
    have := Int.floor_mono h
    refine this.trans ?_
    norm_num
  have hq0 : (0 : ℤ) ≤ q := Int.natCast_nonneg _
  unfold toI32 toIntSat
  dsimp only
  rw [← hq]
  cases s
  · simp only [Bool.false_eq_true, if_false]
    rw [if_neg (by omega), if_neg (by norm_num at hq1; omega), hv, truncate, if_pos h0, hfl]
  · have hv' : val (fin true m e) = -((m : ℝ) * 2 ^ e) := by simp [val, sgn]
    rw [if_pos rfl, if_neg (by norm_num at hq1; omega), if_neg (by omega), hv', truncate]
    split
    · next h1 =>
      have h2 : (m : ℝ) * 2 ^ e = 0 := by linarith
      rw [h2] at hfl ⊢
      rw [neg_zero, ← hfl]
      simp
    · rw [Int.ceil_neg, hfl]

theorem toI_asU8 (n : ℤ) : toI (asU8 n) = n % 256 := by
  have h1 := Int.emod_nonneg n (show (256 : ℤ) ≠ 0 by decide)
  have h2 := Int.emod_lt_of_pos n (show (0 : ℤ) < 256 by decide)
  unfold toI asU8
  rw [UInt8.toNat_ofNat_of_lt' (by simp [UInt8.size]; omega)]
  omega

/-- A channel of the colour, scaled and cut off. -/
theorem near_hslInt {x : F64} {a : ℝ} (hx : Near x a (10 ^ 9 * u)) (ha : |a| ≤ 2700) :
    ∃ y : ℝ, |y - 255 * a| ≤ 1 / 20 ∧ toI32 (F64.mul x (.ofInt 255)) = truncate y := by
  have hu := u_pos
  have hu1 : u ≤ 1 / (8 * 10 ^ 12) := by norm_num [u]
  norm_num at hu1
  have h255 : Near (.ofInt 255) 255 0 := by simpa using near_ofInt_exact (n := 255) (by norm_num)
  have h1 := near_mulK (K := 20) (A := 2700) (B := 255) (by norm_num) hx h255 ha (by norm_num) (by positivity) (by
    norm_num
    linarith)
  rw [ulp_values.2.2.2.2.2.2] at h1
  have h2 := h1.abs_le
  obtain ⟨s, m, e, hx', _, h3⟩ := h1
  rw [hx'] at h2 h3 ⊢
  refine ⟨val (fin s m e), ?_, ?_⟩
  · rw [mul_comm 255 a]
    refine h3.trans ?_
    norm_num
    linarith
  · rw [toI32_val]
    refine h2.trans ?_
    have : |a * 255| ≤ 2700 * 255 := by
      rw [abs_mul, abs_of_pos (show (0 : ℝ) < 255 by norm_num)]
      exact mul_le_mul_of_nonneg_right ha (by norm_num)
    norm_num
    linarith

theorem near_hslByte {x : F64} {a : ℝ} (hx : Near x a (10 ^ 9 * u)) (ha : |a| ≤ 2700) :
    ∃ y : ℝ, |y - 255 * a| ≤ 1 / 20 ∧ toI (asU8 (toI32 (F64.mul x (.ofInt 255)))) = truncate y % 256 := by
  obtain ⟨y, hy, h⟩ := near_hslInt hx ha
  exact ⟨y, hy, by rw [toI_asU8, h]⟩

theorem near_pick (c : Color) (i : Fin 3) : Near (pick (toF c.r, toF c.g, toF c.b) i) (chN c i : ℝ) 0 := by
  unfold pick chN
  fin_cases i
  · exact near_toF c.r
  · exact near_toF c.g
  · exact near_toF c.b

theorem near_lum (c : Color) :
    Near (luminosity (toF c.r) (toF c.g) (toF c.b)) (lum (channels c)) (8 * u) ∧ 0 ≤ lum (channels c) ∧
      lum (channels c) ≤ 255 := by
  have hb : ∀ i, 0 ≤ channels c i ∧ channels c i ≤ 255 := fun i => by
    rw [channels_eq]
    exact ⟨Nat.cast_nonneg _, by exact_mod_cast chN_le c i⟩
  have h := near_luminosity (c := channels c) (ε := 0) (near_toF c.r) (near_toF c.g) (near_toF c.b)
    (fun i => by rw [abs_of_nonneg (hb i).1]; linarith [(hb i).2]) (by norm_num)
  refine ⟨by simpa using h, ?_, ?_⟩ <;> unfold lum <;> linarith [(hb 0).1, (hb 1).1, (hb 2).1, (hb 0).2, (hb 1).2, (hb 2).2]

end Ase
