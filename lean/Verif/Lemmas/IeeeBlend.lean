import Verif.Model.BlendArith
import Verif.Props.Ieee

/-!
# Blending with any arithmetic that obeys the standard (C115)
-/

namespace Ase

open Spec.Ieee

variable {A : Arith} (hA : IsIeee A)

theorem Spec.Ieee.IsFinite.number {x : F64} (h : IsFinite x) : Number x := by
  match x, h with
  | .fin _ _ _, h => exact h

theorem number_cases {x : F64} (h : Number x) : x = .nan ∨ (∃ s, x = .inf s) ∨ IsFinite x := by
  match x, h with
  | .nan, _ => exact .inl rfl
  | .inf s, _ => exact .inr (.inl ⟨s, rfl⟩)
  | .fin _ _ _, h => exact .inr (.inr h)

/-- A number that is the result of an operation with the given arguments. -/
theorem number_ofInt (k : ℤ) : Number (F64.ofInt k) := by
  have := (C115_constants k 0 1 one_pos).1
  match F64.ofInt k, this with
  | .inf _, _ => trivial
  | .fin _ _ _, h => exact h.2.1

theorem number_lit (n d : ℕ) (hd : 0 < d) : Number (F64.lit n d) := by
  have := (C115_constants 0 n d hd).2
  match F64.lit n d, this with
  | .inf _, _ => trivial
  | .fin _ _ _, h => exact h.2.1

section
variable {x y : F64} (hx : Number x) (hy : Number y)
include hx hy

theorem number_add : Number (x.add y) := (C115_determined _ _ C115_ieee C115_ieee x y hx hy).2.1
theorem number_sub : Number (x.sub y) := (C115_determined _ _ C115_ieee C115_ieee x y hx hy).2.2.1
theorem number_mul : Number (x.mul y) := (C115_determined _ _ C115_ieee C115_ieee x y hx hy).2.2.2.1
theorem number_div : Number (x.div y) := (C115_determined _ _ C115_ieee C115_ieee x y hx hy).2.2.2.2.1

include hA
theorem arith_add : A.add x y = x.add y := (C115_determined _ _ hA C115_ieee x y hx hy).1.1
theorem arith_sub : A.sub x y = x.sub y := (C115_determined _ _ hA C115_ieee x y hx hy).1.2.1
theorem arith_mul : A.mul x y = x.mul y := (C115_determined _ _ hA C115_ieee x y hx hy).1.2.2.1
theorem arith_div : A.div x y = x.div y := (C115_determined _ _ hA C115_ieee x y hx hy).1.2.2.2.1
end

theorem number_sqrt {x : F64} (hx : Number x) : Number x.sqrt := (C115_determined _ _ C115_ieee C115_ieee x x hx hx).2.2.2.2.2
include hA in
theorem arith_sqrt {x : F64} (hx : Number x) : A.sqrt x = x.sqrt := (C115_determined _ _ hA C115_ieee x x hx hx).1.2.2.2.2

/-- The same number, or two zeros. -/
def SameButZero (x y : F64) : Prop := x = y ∨ (IsFinite x ∧ IsFinite y ∧ value x = 0 ∧ value y = 0)

theorem zero_form {x : F64} (hx : IsFinite x) (h : value x = 0) : x = .fin (sign x) 0 (-1074) := by
  match x, hx with
  | .fin s m e, hx =>
    have hp := (F64.two_zpow_pos e).ne'
    have h3 : m = 0 := by cases s <;> simpa [value, hp] using h
    subst h3
    have : e = -1074 := by
      have := hx.2.2.2
      omega
    subst this
    rfl

theorem lt_same {x x' y y' : F64} (h : SameButZero x x') (h' : SameButZero y y') (hx : Number x) (hy : Number y) :
    x.lt y = x'.lt y' := by
  have key : ∀ {x x' y : F64}, SameButZero x x' → Number y → x.lt y = x'.lt y ∧ y.lt x = y.lt x' := by
    intro x x' y h hy
    rcases h with rfl | ⟨h1, h2, h3, h4⟩
    · exact ⟨rfl, rfl⟩
    · rw [zero_form h1 h3, zero_form h2 h4]
      rcases number_cases hy with rfl | ⟨s, rfl⟩ | hy
      · exact ⟨rfl, rfl⟩
      · exact ⟨rfl, rfl⟩
      · have hz : ∀ s, IsFinite (.fin s 0 (-1074)) := fun s => ⟨by norm_num, by omega, by omega, .inr rfl⟩
        have hv : ∀ s, value (.fin s 0 (-1074)) = 0 := fun s => by simp [value]
        constructor
        · rw [Bool.eq_iff_iff, (C115_compare _ y (hz _) hy .nan).1, (C115_compare _ y (hz _) hy .nan).1, hv, hv]
        · rw [Bool.eq_iff_iff, (C115_compare y _ hy (hz _) .nan).1, (C115_compare y _ hy (hz _) .nan).1, hv, hv]
  have hx' : Number x' := by
    rcases h with rfl | h
    · exact hx
    · exact h.2.1.number
  rw [(key h hy).1, (key h' hx').2]

theorem same_value {x y : F64} (hx : IsFinite x) (hy : IsFinite y) (h : value x = value y) : SameButZero x y := by
  by_cases h0 : value x = 0
  · exact .inr ⟨hx, hy, h0, h ▸ h0⟩
  · left
    match x, y, hx, hy with
    | .fin s m e, .fin s' m' e', hx, hy =>
      have p : 0 ≤ (m : ℝ) * 2 ^ e := mul_nonneg (Nat.cast_nonneg _) (F64.two_zpow_pos e).le
      have p' : 0 ≤ (m' : ℝ) * 2 ^ e' := mul_nonneg (Nat.cast_nonneg _) (F64.two_zpow_pos e').le
      have hs : s = s' ∧ (m : ℝ) * 2 ^ e = m' * 2 ^ e' := by
        cases s <;> cases s' <;> simp only [value, Bool.false_eq_true, if_false, if_true] at h h0 ⊢
        · exact ⟨trivial, by linarith⟩
        · exact absurd (by linarith : (1 : ℝ) * (m * 2 ^ e) = 0) h0
        · exact absurd (by linarith : (-1 : ℝ) * (m * 2 ^ e) = 0) h0
        · exact ⟨trivial, by linarith⟩
      obtain ⟨rfl, hv⟩ := hs
      obtain ⟨rfl, rfl⟩ := F64.form_unique hx hy hv
      rfl

theorem SameButZero.number {x y : F64} (h : SameButZero x y) (hy : Number y) : Number x := by
  rcases h with rfl | h
  · exact hy
  · exact h.1.number

theorem SameButZero.symm {x y : F64} (h : SameButZero x y) : SameButZero y x := by
  rcases h with rfl | h
  · exact .inl rfl
  · exact .inr ⟨h.2.1, h.1, h.2.2.2, h.2.2.1⟩

theorem SameButZero.trans {x y z : F64} (h : SameButZero x y) (h' : SameButZero y z) : SameButZero x z := by
  rcases h with rfl | h
  · exact h'
  · rcases h' with rfl | h'
    · exact .inr h
    · exact .inr ⟨h.1, h'.2.1, h.2.2.1, h'.2.2.2⟩

/-- Something other than 0 is the same. -/
theorem SameButZero.eq {x y : F64} (h : SameButZero x y) (h0 : IsFinite x → value x ≠ 0) : x = y := by
  rcases h with rfl | h
  · rfl
  · exact absurd h.2.2.1 (h0 h.1)

theorem number_min {x y : F64} (hx : Number x) (hy : Number y) : Number (x.min y) := by
  cases x <;> cases y <;> simp only [F64.min] <;> first | assumption | (split <;> assumption)

theorem number_max {x y : F64} (hx : Number x) (hy : Number y) : Number (x.max y) := by
  cases x <;> cases y <;> simp only [F64.max] <;> first | assumption | (split <;> assumption)

include hA in
theorem arith_min {x y : F64} (hx : Number x) (hy : Number y) : SameButZero (A.min x y) (x.min y) := by
  have hI := C115_ieee
  rcases number_cases hx with rfl | ⟨s, rfl⟩ | hfx
  · rw [(hA.min_nan y).2]; exact .inl (hI.min_nan y).2.symm
  · rcases number_cases hy with rfl | ⟨s', rfl⟩ | hfy
    · rw [(hA.min_nan _).1]; exact .inl (hI.min_nan _).1.symm
    · cases s
      · rw [(hA.min_inf (.inf s') (by simp)).2.2.2]; exact .inl (hI.min_inf (.inf s') (by simp)).2.2.2.symm
      · rw [(hA.min_inf (.inf s') (by simp)).2.1]; exact .inl (hI.min_inf (.inf s') (by simp)).2.1.symm
    · have hn : y ≠ .nan := by rintro rfl; exact hfy
      cases s
      · rw [(hA.min_inf y hn).2.2.2]; exact .inl (hI.min_inf y hn).2.2.2.symm
      · rw [(hA.min_inf y hn).2.1]; exact .inl (hI.min_inf y hn).2.1.symm
  · have hn : x ≠ .nan := by rintro rfl; exact hfx
    rcases number_cases hy with rfl | ⟨s', rfl⟩ | hfy
    · rw [(hA.min_nan _).1]; exact .inl (hI.min_nan _).1.symm
    · cases s'
      · rw [(hA.min_inf x hn).2.2.1]; exact .inl (hI.min_inf x hn).2.2.1.symm
      · rw [(hA.min_inf x hn).1]; exact .inl (hI.min_inf x hn).1.symm
    · have a := hA.min x y hfx hfy
      have b := hI.min x y hfx hfy
      have fin : ∀ {z : F64}, z = x ∨ z = y → IsFinite z := by
        rintro z (rfl | rfl) <;> assumption
      exact same_value (fin a.1) (fin b.1) (a.2.trans b.2.symm)

include hA in
theorem arith_max {x y : F64} (hx : Number x) (hy : Number y) : SameButZero (A.max x y) (x.max y) := by
  have hI := C115_ieee
  rcases number_cases hx with rfl | ⟨s, rfl⟩ | hfx
  · rw [(hA.max_nan y).2]; exact .inl (hI.max_nan y).2.symm
  · rcases number_cases hy with rfl | ⟨s', rfl⟩ | hfy
    · rw [(hA.max_nan _).1]; exact .inl (hI.max_nan _).1.symm
    · cases s
      · rw [(hA.max_inf (.inf s') (by simp)).2.1]; exact .inl (hI.max_inf (.inf s') (by simp)).2.1.symm
      · rw [(hA.max_inf (.inf s') (by simp)).2.2.2]; exact .inl (hI.max_inf (.inf s') (by simp)).2.2.2.symm
    · have hn : y ≠ .nan := by rintro rfl; exact hfy
      cases s
      · rw [(hA.max_inf y hn).2.1]; exact .inl (hI.max_inf y hn).2.1.symm
      · rw [(hA.max_inf y hn).2.2.2]; exact .inl (hI.max_inf y hn).2.2.2.symm
  · have hn : x ≠ .nan := by rintro rfl; exact hfx
    rcases number_cases hy with rfl | ⟨s', rfl⟩ | hfy
    · rw [(hA.max_nan _).1]; exact .inl (hI.max_nan _).1.symm
    · cases s'
      · rw [(hA.max_inf x hn).1]; exact .inl (hI.max_inf x hn).1.symm
      · rw [(hA.max_inf x hn).2.2.1]; exact .inl (hI.max_inf x hn).2.2.1.symm
    · have a := hA.max x y hfx hfy
      have b := hI.max x y hfx hfy
      have fin : ∀ {z : F64}, z = x ∨ z = y → IsFinite z := by
        rintro z (rfl | rfl) <;> assumption
      exact same_value (fin a.1) (fin b.1) (a.2.trans b.2.symm)

/-- The second argument may be another zero. -/
theorem min_same {x y y' : F64} (hx : Number x) (hy : Number y) (h : SameButZero y y') : SameButZero (x.min y) (x.min y') := by
  rcases h with rfl | h
  · exact .inl rfl
  · have hlt := lt_same (x := y) (x' := y') (y := x) (y' := x) (.inr h) (.inl rfl) hy hx
    match y, y', h with
    | .fin s m e, .fin s' m' e', h =>
      match x with
      | .nan => exact .inr h
      | .inf t =>
        change SameButZero (if F64.lt _ _ = true then _ else _) (if F64.lt _ _ = true then _ else _)
        rw [hlt]
        split
        · exact .inr h
        · exact .inl rfl
      | .fin t n k =>
        change SameButZero (if F64.lt _ _ = true then _ else _) (if F64.lt _ _ = true then _ else _)
        rw [hlt]
        split
        · exact .inr h
        · exact .inl rfl

theorem max_same {x y y' : F64} (hx : Number x) (hy : Number y) (h : SameButZero y y') : SameButZero (x.max y) (x.max y') := by
  rcases h with rfl | h
  · exact .inl rfl
  · have hlt := lt_same (x := x) (x' := x) (y := y) (y' := y') (.inl rfl) (.inr h) hx hy
    match y, y', h with
    | .fin s m e, .fin s' m' e', h =>
      match x with
      | .nan => exact .inr h
      | .inf t =>
        change SameButZero (if F64.lt _ _ = true then _ else _) (if F64.lt _ _ = true then _ else _)
        rw [hlt]
        split
        · exact .inr h
        · exact .inl rfl
      | .fin t n k =>
        change SameButZero (if F64.lt _ _ = true then _ else _) (if F64.lt _ _ = true then _ else _)
        rw [hlt]
        split
        · exact .inr h
        · exact .inl rfl

section
variable {r g b : F64} (hr : Number r) (hg : Number g) (hb : Number b)
include hA hr hg hb

theorem arith_min3 : SameButZero (A.min r (A.min g b)) (r.min (g.min b)) := by
  have h := arith_min hA hg hb
  have hn := h.number (number_min hg hb)
  exact (arith_min hA hr hn).trans (min_same hr hn h)

theorem arith_max3 : SameButZero (A.max r (A.max g b)) (r.max (g.max b)) := by
  have h := arith_max hA hg hb
  have hn := h.number (number_max hg hb)
  exact (arith_max hA hr hn).trans (max_same hr hn h)

theorem luminosityA_eq : luminosityA A r g b = luminosity r g b := by
  unfold luminosityA luminosity
  have l1 := number_lit 3 10 (by norm_num)
  have l2 := number_lit 59 100 (by norm_num)
  have l3 := number_lit 11 100 (by norm_num)
  rw [arith_mul hA l1 hr, arith_mul hA l2 hg, arith_mul hA l3 hb,
    arith_add hA (number_mul l1 hr) (number_mul l2 hg),
    arith_add hA (number_add (number_mul l1 hr) (number_mul l2 hg)) (number_mul l3 hb)]

omit hA in
theorem number_luminosity : Number (luminosity r g b) := by
  have l1 := number_lit 3 10 (by norm_num)
  have l2 := number_lit 59 100 (by norm_num)
  have l3 := number_lit 11 100 (by norm_num)
  exact number_add (number_add (number_mul l1 hr) (number_mul l2 hg)) (number_mul l3 hb)

theorem staticSort3OrigA_eq : staticSort3OrigA A r g b = staticSort3Orig r g b := by
  unfold staticSort3OrigA staticSort3Orig
  have h1 := arith_min hA hg hb
  have h2 := arith_max hA hg hb
  rw [lt_same (.inl rfl) h1 hr (h1.number (number_min hg hb)), lt_same h2 (.inl rfl) (h2.number (number_max hg hb)) hr]

theorem clipColorA_eq : clipColorA A r g b = clipColor r g b := by
  unfold clipColorA clipColor
  rw [luminosityA_eq hA hr hg hb]
  have hl := number_luminosity hr hg hb
  have h0 := number_ofInt 0
  have h1 := number_ofInt 1
  have hmn := arith_min3 hA hr hg hb
  have hmx := arith_max3 hA hr hg hb
  have nmn := number_min hr (number_min hg hb)
  have nmx := number_max hr (number_max hg hb)
  generalize luminosity r g b = lum at *
  generalize A.min r (A.min g b) = mn at *
  generalize A.max r (A.max g b) = mx at *
  generalize r.min (g.min b) = mn' at *
  generalize r.max (g.max b) = mx' at *
  have e1 := lt_same hmn (.inl rfl) (hmn.number nmn) h0
  have e2 := lt_same (.inl rfl) hmx h1 (hmx.number nmx)
  have upper : F64.lt (.ofInt 1) mx' = true → ∀ x, Number x →
      A.add lum (A.div (A.mul (A.sub x lum) (A.sub (.ofInt 1) lum)) (A.sub mx lum)) =
        F64.add lum (F64.div (F64.mul (F64.sub x lum) (F64.sub (.ofInt 1) lum)) (F64.sub mx' lum)) := by
    intro hlt x hx
    have hm : mx' = mx := hmx.symm.eq fun hf h => by
      have : F64.lt (.ofInt 1) mx' = false := by
        rw [zero_form hf h]
        cases sign mx' <;> decide +kernel
      rw [this] at hlt
      cases hlt
    rw [← hm, arith_sub hA hx hl, arith_sub hA h1 hl, arith_sub hA nmx hl,
      arith_mul hA (number_sub hx hl) (number_sub h1 hl),
      arith_div hA (number_mul (number_sub hx hl) (number_sub h1 hl)) (number_sub nmx hl),
      arith_add hA hl (number_div (number_mul (number_sub hx hl) (number_sub h1 hl)) (number_sub nmx hl))]
  have lower : F64.lt mn' (.ofInt 0) = true → ∀ x, Number x →
      A.add lum (A.div (A.mul (A.sub x lum) lum) (A.sub lum mn)) =
        F64.add lum (F64.div (F64.mul (F64.sub x lum) lum) (F64.sub lum mn')) ∧
      Number (F64.add lum (F64.div (F64.mul (F64.sub x lum) lum) (F64.sub lum mn'))) := by
    intro hlt x hx
    have hm : mn' = mn := hmn.symm.eq fun hf h => by
      have : F64.lt mn' (.ofInt 0) = false := by
        rw [zero_form hf h]
        cases sign mn' <;> decide +kernel
      rw [this] at hlt
      cases hlt
    have hn := number_add hl (number_div (number_mul (number_sub hx hl) hl) (number_sub hl nmn))
    refine ⟨?_, hn⟩
    rw [← hm, arith_sub hA hx hl, arith_sub hA hl nmn, arith_mul hA (number_sub hx hl) hl,
      arith_div hA (number_mul (number_sub hx hl) hl) (number_sub hl nmn),
      arith_add hA hl (number_div (number_mul (number_sub hx hl) hl) (number_sub hl nmn))]
  dsimp only
  rw [e1, e2]
  by_cases c1 : F64.lt mn' (.ofInt 0) = true
  · have k := lower c1
    by_cases c2 : F64.lt (.ofInt 1) mx' = true
    · have u := upper c2
      simp only [c1, c2, if_true, (k r hr).1, (k g hg).1, (k b hb).1, u _ (k r hr).2, u _ (k g hg).2, u _ (k b hb).2]
    · simp only [c1, c2, if_true, Bool.false_eq_true, if_false, (k r hr).1, (k g hg).1, (k b hb).1]
  · by_cases c2 : F64.lt (.ofInt 1) mx' = true
    · have u := upper c2
      simp only [c1, c2, if_true, Bool.false_eq_true, if_false, u r hr, u g hg, u b hb]
    · simp only [c1, c2, Bool.false_eq_true, if_false]

theorem setLuminocityA_eq {lum : F64} (hlum : Number lum) : setLuminocityA A r g b lum = setLuminocity r g b lum := by
  unfold setLuminocityA setLuminocity
  have hl := number_luminosity hr hg hb
  have hd := number_sub hlum hl
  rw [luminosityA_eq hA hr hg hb, arith_sub hA hlum hl]
  dsimp only
  rw [arith_add hA hr hd, arith_add hA hg hd, arith_add hA hb hd,
    clipColorA_eq hA (number_add hr hd) (number_add hg hd) (number_add hb hd)]

theorem setSaturationA_eq {sat : F64} (hs : Number sat) :
    setSaturationA A r g b sat = setSaturation r g b sat ∧ Number (setSaturation r g b sat).1 ∧
      Number (setSaturation r g b sat).2.1 ∧ Number (setSaturation r g b sat).2.2 := by
  unfold setSaturationA setSaturation
  rw [staticSort3OrigA_eq hA hr hg hb]
  have hc : ∀ i : Fin 3, Number ((fun i : Fin 3 => if i = 0 then r else if i = 1 then g else b) i) := by
    intro i
    dsimp only
    split
    · exact hr
    · split
      · exact hg
      · exact hb
  have h0 := number_ofInt 0
  have hupd : ∀ {col : Fin 3 → F64} (i : Fin 3) {x : F64}, (∀ j, Number (col j)) → Number x → ∀ j, Number (upd col i x j) := by
    intro col i x hcol hx j
    unfold upd
    split
    · exact hx
    · exact hcol j
  generalize (fun i : Fin 3 => if i = 0 then r else if i = 1 then g else b) = col at *
  obtain ⟨mn, mid, mx⟩ := staticSort3Orig r g b
  dsimp only
  have n1 := number_mul (number_sub (hc mid) (hc mn)) hs
  have n2 := number_sub (hc mx) (hc mn)
  have hdiv := number_div n1 n2
  have e : A.div (A.mul (A.sub (col mid) (col mn)) sat) (A.sub (col mx) (col mn)) =
      F64.div (F64.mul (F64.sub (col mid) (col mn)) sat) (F64.sub (col mx) (col mn)) := by
    rw [arith_sub hA (hc mid) (hc mn), arith_sub hA (hc mx) (hc mn), arith_mul hA (number_sub (hc mid) (hc mn)) hs,
      arith_div hA n1 n2]
  rw [e]
  have key : ∀ j, Number (upd (if (col mn).lt (col mx) = true then
      upd (upd col mid (F64.div (F64.mul (F64.sub (col mid) (col mn)) sat) (F64.sub (col mx) (col mn)))) mx sat
      else upd (upd col mid (F64.ofInt 0)) mx (F64.ofInt 0)) mn (F64.ofInt 0) j) := by
    refine hupd _ (fun j => ?_) h0
    split
    · exact hupd _ (hupd _ hc hdiv) hs j
    · exact hupd _ (hupd _ hc h0) h0 j
  exact ⟨rfl, key 0, key 1, key 2⟩
end

/-- A byte is a finite number without a sign. -/
theorem toF_spec (x : UInt8) : IsFinite (toF x) ∧ sign (toF x) = false := by
  have : ∀ n, n < 256 → (match F64.ofInt (n : ℕ) with
      | .fin s m e => decide (s = false ∧ m < 2 ^ 53 ∧ -1074 ≤ e ∧ e ≤ 971 ∧ (2 ^ 52 ≤ m ∨ e = -1074))
      | _ => false) = true := by decide +kernel
  have h := this x.toNat (UInt8.toNat_lt x)
  unfold toF toI
  split at h
  · next s m e he =>
    rw [he]
    have := of_decide_eq_true h
    exact ⟨this.2, this.1⟩
  · cases h

theorem SameButZero.eq_of_sign {x y : F64} (h : SameButZero x y) (hs : sign x = sign y) : x = y := by
  rcases h with rfl | h
  · rfl
  · rw [zero_form h.1 h.2.2.1, zero_form h.2.1 h.2.2.2, hs]

/-- The number is finite and has no sign. -/
def Plus (x : F64) : Prop := IsFinite x ∧ sign x = false

include hA in
theorem arith_min_plus {x y : F64} (hx : Plus x) (hy : Plus y) : A.min x y = x.min y ∧ Plus (x.min y) := by
  have a := (hA.min x y hx.1 hy.1).1
  have b := (C115_ieee.min x y hx.1 hy.1).1
  have pl : ∀ {z : F64}, z = x ∨ z = y → Plus z := by
    rintro z (rfl | rfl) <;> assumption
  exact ⟨(arith_min hA hx.1.number hy.1.number).eq_of_sign ((pl a).2.trans (pl b).2.symm), pl b⟩

include hA in
theorem arith_max_plus {x y : F64} (hx : Plus x) (hy : Plus y) : A.max x y = x.max y ∧ Plus (x.max y) := by
  have a := (hA.max x y hx.1 hy.1).1
  have b := (C115_ieee.max x y hx.1 hy.1).1
  have pl : ∀ {z : F64}, z = x ∨ z = y → Plus z := by
    rintro z (rfl | rfl) <;> assumption
  exact ⟨(arith_max hA hx.1.number hy.1.number).eq_of_sign ((pl a).2.trans (pl b).2.symm), pl b⟩

include hA in
theorem saturationA_eq (r g b : UInt8) : saturationA A (toF r) (toF g) (toF b) = saturation (toF r) (toF g) (toF b) ∧
    Number (saturation (toF r) (toF g) (toF b)) := by
  unfold saturationA saturation
  obtain ⟨e1, p1⟩ := arith_min_plus hA (toF_spec g) (toF_spec b)
  obtain ⟨e2, p2⟩ := arith_min_plus hA (toF_spec r) p1
  obtain ⟨e3, p3⟩ := arith_max_plus hA (toF_spec g) (toF_spec b)
  obtain ⟨e4, p4⟩ := arith_max_plus hA (toF_spec r) p3
  rw [e1, e2, e3, e4, arith_sub hA p4.1.number p2.1.number]
  exact ⟨rfl, number_sub p4.1.number p2.1.number⟩

theorem number_clip {r g b : F64} (hr : Number r) (hg : Number g) (hb : Number b) :
    Number (clipColor r g b).1 ∧ Number (clipColor r g b).2.1 ∧ Number (clipColor r g b).2.2 := by
  unfold clipColor
  have hl := number_luminosity hr hg hb
  have h1 := number_ofInt 1
  have nmn := number_min hr (number_min hg hb)
  have nmx := number_max hr (number_max hg hb)
  generalize luminosity r g b = lum at *
  generalize r.min (g.min b) = mn at *
  generalize r.max (g.max b) = mx at *
  have upper : ∀ {x}, Number x → Number (F64.add lum (F64.div (F64.mul (F64.sub x lum) (F64.sub (.ofInt 1) lum)) (F64.sub mx lum))) :=
    fun hx => number_add hl (number_div (number_mul (number_sub hx hl) (number_sub h1 hl)) (number_sub nmx hl))
  have lower : ∀ {x}, Number x → Number (F64.add lum (F64.div (F64.mul (F64.sub x lum) lum) (F64.sub lum mn))) :=
    fun hx => number_add hl (number_div (number_mul (number_sub hx hl) hl) (number_sub hl nmn))
  dsimp only
  by_cases c1 : F64.lt mn (.ofInt 0) = true <;> by_cases c2 : F64.lt (.ofInt 1) mx = true <;>
    simp only [c1, c2, if_true, Bool.false_eq_true, if_false]
  · exact ⟨upper (lower hr), upper (lower hg), upper (lower hb)⟩
  · exact ⟨lower hr, lower hg, lower hb⟩
  · exact ⟨upper hr, upper hg, upper hb⟩
  · exact ⟨hr, hg, hb⟩

theorem number_setLum {r g b lum : F64} (hr : Number r) (hg : Number g) (hb : Number b) (hlum : Number lum) :
    Number (setLuminocity r g b lum).1 ∧ Number (setLuminocity r g b lum).2.1 ∧ Number (setLuminocity r g b lum).2.2 := by
  have hd := number_sub hlum (number_luminosity hr hg hb)
  exact number_clip (number_add hr hd) (number_add hg hd) (number_add hb hd)

include hA in
theorem ofF64A_eq (plat : Plat) {r g b a : F64} (hr : Number r) (hg : Number g) (hb : Number b) (ha : Number a) :
    Color.ofF64A A plat r g b a = Color.ofF64 plat r g b a := by
  unfold Color.ofF64A Color.ofF64
  have h := number_ofInt 255
  rw [arith_mul hA hr h, arith_mul hA hg h, arith_mul hA hb h, arith_mul hA ha h]

include hA in
theorem blendSoftLightA_eq (b s : ℤ) : blendSoftLightA A b s = blendSoftLight b s := by
  unfold blendSoftLightA blendSoftLight
  have n := number_ofInt
  have n4 := number_lit 1 4 (by norm_num)
  have n2 := number_lit 1 2 (by norm_num)
  rw [arith_div hA (n b) (n 255), arith_div hA (n s) (n 255)]
  have hb := number_div (n b) (n 255)
  have hs := number_div (n s) (n 255)
  generalize (F64.ofInt b).div (F64.ofInt 255) = b at *
  generalize (F64.ofInt s).div (F64.ofInt 255) = s at *
  dsimp only
  have hd : ∃ d, Number d ∧
      (if F64.le b (.lit 1 4) then A.mul (A.add (A.mul (A.sub (A.mul (.ofInt 16) b) (.ofInt 12)) b) (.ofInt 4)) b else A.sqrt b) = d ∧
      (if F64.le b (.lit 1 4) then F64.mul (F64.add (F64.mul (F64.sub (F64.mul (.ofInt 16) b) (.ofInt 12)) b) (.ofInt 4)) b else F64.sqrt b) = d := by
    split
    · refine ⟨_, ?_, ?_, rfl⟩
      · exact number_mul (number_add (number_mul (number_sub (number_mul (n 16) hb) (n 12)) hb) (n 4)) hb
      · rw [arith_mul hA (n 16) hb, arith_sub hA (number_mul (n 16) hb) (n 12),
          arith_mul hA (number_sub (number_mul (n 16) hb) (n 12)) hb,
          arith_add hA (number_mul (number_sub (number_mul (n 16) hb) (n 12)) hb) (n 4),
          arith_mul hA (number_add (number_mul (number_sub (number_mul (n 16) hb) (n 12)) hb) (n 4)) hb]
    · exact ⟨_, number_sqrt hb, arith_sqrt hA hb, rfl⟩
  obtain ⟨d, nd, e1, e2⟩ := hd
  rw [e1, e2]
  have h2s := number_mul (n 2) hs
  rw [arith_mul hA (n 2) hs, arith_sub hA (n 1) h2s, arith_mul hA (number_sub (n 1) h2s) hb, arith_sub hA (n 1) hb,
    arith_mul hA (number_mul (number_sub (n 1) h2s) hb) (number_sub (n 1) hb),
    arith_sub hA hb (number_mul (number_mul (number_sub (n 1) h2s) hb) (number_sub (n 1) hb)),
    arith_sub hA h2s (n 1), arith_sub hA nd hb, arith_mul hA (number_sub h2s (n 1)) (number_sub nd hb),
    arith_add hA hb (number_mul (number_sub h2s (n 1)) (number_sub nd hb))]
  have hr : Number (if F64.le s (.lit 1 2) then
      F64.sub b (F64.mul (F64.mul (F64.sub (.ofInt 1) (F64.mul (.ofInt 2) s)) b) (F64.sub (.ofInt 1) b))
      else F64.add b (F64.mul (F64.sub (F64.mul (.ofInt 2) s) (.ofInt 1)) (F64.sub d b))) := by
    split
    · exact number_sub hb (number_mul (number_mul (number_sub (n 1) h2s) hb) (number_sub (n 1) hb))
    · exact number_add hb (number_mul (number_sub h2s (n 1)) (number_sub nd hb))
  rw [arith_mul hA hr (n 255), arith_add hA (number_mul hr (n 255)) n2]

end Ase
