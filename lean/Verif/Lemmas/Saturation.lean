import Verif.Model.Saturation
import Verif.Props.Ieee
import Verif.Lemmas.HslGrey

/-!
# Lemmas about the two sorts of `set_saturation` (C117)
-/

namespace Ase

open Spec.Ieee (value IsFinite sign)
open F64 (Near)
open Spec.Hsl

/-! ## Arithmetic on small natural numbers is exact -/

/-- A natural number. -/
abbrev nat (n : ℕ) : F64 := .ofInt n

theorem nat_near {n : ℕ} (h : n < 2 ^ 53) : Near (nat n) n 0 := by
  have := F64.near_ofInt_exact (n := n) (by omega)
  simpa using this

theorem nat_rounded (n : ℕ) : Spec.Ieee.Rounded n (nat n) := by
  have := (C115_constants n 0 1 (by norm_num)).1
  simpa using this

theorem nat_value {n : ℕ} (h : n < 2 ^ 53) : value (nat n) = n := by
  rw [F64.value_eq]
  exact (nat_near h).exact

theorem finite_of {v : ℝ} {x : F64} {a : ℝ} (h : Spec.Ieee.Rounded v x) (hn : Near x a 0) : IsFinite x := by
  obtain ⟨s, m, e, rfl, _⟩ := hn
  exact h.2.1

theorem nat_finite {n : ℕ} (h : n < 2 ^ 53) : IsFinite (nat n) := finite_of (nat_rounded n) (nat_near h)

theorem nat_sign (n : ℕ) : sign (nat n) = false := by
  have hsign : ∀ s n d, sign (F64.round s n d) = s := by
    intro s n d
    unfold F64.round
    split
    · rfl
    · dsimp only
      split <;> split <;> rfl
  unfold nat F64.ofInt
  rw [hsign, decide_eq_false (by omega)]

theorem eq_nat {n : ℕ} {x : F64} (h : Spec.Ieee.Rounded n x) (hs : n = 0 → sign x = false) : x = nat n := by
  by_cases hn : n = 0
  · subst hn
    rw [Nat.cast_zero] at h
    obtain ⟨s, rfl⟩ := (C115_one 0 x x h h).2 rfl
    have := hs rfl
    cases s
    · rfl
    · cases this
  · exact (C115_one n x (nat n) h (nat_rounded n)).1 (by exact_mod_cast hn)

theorem nat_sub {a b : ℕ} (h : b ≤ a) (ha : a < 2 ^ 53) : F64.sub (nat a) (nat b) = nat (a - b) := by
  have hf := nat_finite ha
  have hf' := nat_finite (lt_of_le_of_lt h ha)
  have h1 := C115_sub (nat a) (nat b) hf hf'
  rw [nat_value ha, nat_value (lt_of_le_of_lt h ha), ← Nat.cast_sub h] at h1
  refine eq_nat h1 fun h0 => ?_
  have := (C115_ieee.sub (nat a) (nat b) hf hf').2 (by
    rw [nat_value ha, nat_value (lt_of_le_of_lt h ha), ← Nat.cast_sub h, h0, Nat.cast_zero])
  rw [nat_sign, Bool.false_and] at this
  exact this

theorem nat_mul {a b : ℕ} (ha : a < 2 ^ 53) (hb : b < 2 ^ 53) : F64.mul (nat a) (nat b) = nat (a * b) := by
  have h1 := C115_mul (nat a) (nat b) (nat_finite ha) (nat_finite hb)
  rw [nat_value ha, nat_value hb, ← Nat.cast_mul] at h1
  refine eq_nat h1 fun h0 => ?_
  rw [(C115_zeros (nat a) (nat b) (nat_finite ha) (nat_finite hb)).2.1, nat_sign, nat_sign]
  rfl

theorem nat_div {a b : ℕ} (ha : a ≠ 0) (ha' : a < 2 ^ 53) (hab : a * b < 2 ^ 53) :
    F64.div (nat (a * b)) (nat a) = nat b := by
  have hv : value (nat a) ≠ 0 := by
    rw [nat_value ha']
    exact_mod_cast ha
  have h1 := C115_div (nat (a * b)) (nat a) (nat_finite hab) (nat_finite ha') hv
  rw [nat_value hab, nat_value ha', Nat.cast_mul, mul_div_cancel_left₀ _ (by exact_mod_cast ha)] at h1
  refine eq_nat h1 fun h0 => ?_
  rw [(C115_zeros _ _ (nat_finite hab) (nat_finite ha')).2.2.1 hv, nat_sign, nat_sign]
  rfl

theorem nat_lt {a b : ℕ} (ha : a < 2 ^ 53) (hb : b < 2 ^ 53) : F64.lt (nat a) (nat b) = decide (a < b) :=
  lt_nat (nat_near ha) (nat_near hb)

theorem nat_max {a b : ℕ} (ha : a < 2 ^ 53) (hb : b < 2 ^ 53) : F64.max (nat a) (nat b) = nat (max a b) := by
  obtain ⟨_, _, h1, h2, _⟩ := C115_extremes (nat a) (nat b) (nat_finite ha) (nat_finite hb) .nan
  rw [nat_value ha, nat_value hb] at h2
  rcases h1 with h1 | h1 <;> rw [h1] at h2 ⊢
  · rw [nat_value ha] at h2
    have : a = max a b := by exact_mod_cast h2
    rw [← this]
  · rw [nat_value hb] at h2
    have : b = max a b := by exact_mod_cast h2
    rw [← this]

theorem nat_min {a b : ℕ} (ha : a < 2 ^ 53) (hb : b < 2 ^ 53) : F64.min (nat a) (nat b) = nat (min a b) := by
  obtain ⟨h1, h2, _⟩ := C115_extremes (nat a) (nat b) (nat_finite ha) (nat_finite hb) .nan
  rw [nat_value ha, nat_value hb] at h2
  rcases h1 with h1 | h1 <;> rw [h1] at h2 ⊢
  · rw [nat_value ha] at h2
    have : a = min a b := by exact_mod_cast h2
    rw [← this]
  · rw [nat_value hb] at h2
    have : b = min a b := by exact_mod_cast h2
    rw [← this]

theorem toF_nat (x : UInt8) : toF x = nat x.toNat := rfl

theorem saturation_nat (c : Color) : ∃ S, S ≤ 255 ∧ saturation (toF c.r) (toF c.g) (toF c.b) = nat S := by
  have hr := c.r.toNat_lt; have hg := c.g.toNat_lt; have hb := c.b.toNat_lt
  refine ⟨max c.r.toNat (max c.g.toNat c.b.toNat) - min c.r.toNat (min c.g.toNat c.b.toNat), by omega, ?_⟩
  rw [saturation, toF_nat, toF_nat, toF_nat, nat_max (by omega) (by omega), nat_max (by omega) (by omega),
    nat_min (by omega) (by omega), nat_min (by omega) (by omega), nat_sub (by omega) (by omega)]

/-! ## What both sorts lead to -/

theorem setSaturationC_true (r g b s : F64) : setSaturationC true r g b s = setSaturation r g b s := rfl

/-- The sort that is used. -/
def sortC (compatible : Bool) (r g b : F64) : Fin 3 × Fin 3 × Fin 3 :=
  if compatible then staticSort3Orig r g b else staticSort3 r g b

theorem pick_setSaturationC (k : Bool) (r g b s : F64) (mn mid mx : Fin 3) (h : sortC k r g b = (mn, mid, mx)) (i : Fin 3) :
    pick (setSaturationC k r g b s) i =
      if i = mn then .ofInt 0
      else if F64.lt (pick (r, g, b) mn) (pick (r, g, b) mx) then
        if i = mx then s
        else if i = mid then F64.div (F64.mul (F64.sub (pick (r, g, b) mid) (pick (r, g, b) mn)) s)
          (F64.sub (pick (r, g, b) mx) (pick (r, g, b) mn))
        else pick (r, g, b) i
      else if i = mx then .ofInt 0 else if i = mid then .ofInt 0 else pick (r, g, b) i := by
  have hp : ∀ f : Fin 3 → F64, pick (f 0, f 1, f 2) i = f i := by
    intro f
    unfold pick
    fin_cases i <;> rfl
  unfold sortC at h
  unfold setSaturationC
  rw [h]
  dsimp only
  rw [hp]
  change upd (if F64.lt (pick (r, g, b) mn) (pick (r, g, b) mx) then
      upd (upd (pick (r, g, b)) mid (F64.div (F64.mul (F64.sub (pick (r, g, b) mid) (pick (r, g, b) mn)) s)
        (F64.sub (pick (r, g, b) mx) (pick (r, g, b) mn)))) mx s
    else upd (upd (pick (r, g, b)) mid (.ofInt 0)) mx (.ofInt 0)) mn (.ofInt 0) i = _
  by_cases hlt : F64.lt (pick (r, g, b) mn) (pick (r, g, b) mx) = true
  · rw [if_pos hlt, if_pos hlt]
    rfl
  · rw [if_neg hlt, if_neg hlt]
    rfl

/-- The channel `i` of the colour with the channels `n`, with the saturation `S`; `lo` and `hi` are the least and the
greatest channel. -/
def satChannel (n : Fin 3 → ℕ) (S lo hi : ℕ) (i : Fin 3) : F64 :=
  if n i = lo then nat 0 else if n i = hi then nat S else F64.div (nat ((n i - lo) * S)) (nat (hi - lo))

/-- Channels that the sort does not leave out do not depend on the sort. -/
theorem setSaturationC_channel (k : Bool) (n : Fin 3 → ℕ) (S : ℕ) (hn : ∀ i, n i ≤ 255) (hS : S ≤ 255) (mn mid mx : Fin 3)
    (h : sortC k (nat (n 0)) (nat (n 1)) (nat (n 2)) = (mn, mid, mx)) (hlo : ∀ i, n mn ≤ n i) (hhi : ∀ i, n i ≤ n mx)
    (i : Fin 3) (hi : i = mn ∨ i = mid ∨ i = mx) :
    pick (setSaturationC k (nat (n 0)) (nat (n 1)) (nat (n 2)) (nat S)) i = satChannel n S (n mn) (n mx) i := by
  have hp : ∀ j, pick (nat (n 0), nat (n 1), nat (n 2)) j = nat (n j) := by
    intro j
    unfold pick
    fin_cases j <;> rfl
  have hb : ∀ j, n j < 2 ^ 53 := fun j => by have := hn j; omega
  rw [pick_setSaturationC k _ _ _ _ mn mid mx h, hp, hp, hp, hp, nat_lt (hb _) (hb _)]
  unfold satChannel
  by_cases h1 : i = mn
  · rw [if_pos h1, h1, if_pos rfl]
    rfl
  rw [if_neg h1]
  by_cases hlt : n mn < n mx
  · rw [if_pos (by simpa using hlt)]
    by_cases h2 : i = mx
    · rw [if_pos h2, h2, if_neg (by omega), if_pos rfl]
    rw [if_neg h2]
    have h3 : i = mid := by tauto
    subst h3
    have a1 := hlo i; have a2 := hhi i; have a3 := hn mx
    have hm : (n i - n mn) * S ≤ 255 * 255 := Nat.mul_le_mul (by omega) hS
    rw [if_pos rfl, nat_sub a1 (hb _), nat_sub (hlo mx) (hb _), nat_mul (by omega) (by omega)]
    by_cases e1 : n i = n mn
    · rw [if_pos e1, e1, Nat.sub_self, Nat.zero_mul]
      exact nat_div (a := n mx - n mn) (b := 0) (by omega) (by omega) (by omega)
    rw [if_neg e1]
    by_cases e2 : n i = n mx
    · rw [if_pos e2, e2]
      exact nat_div (by omega) (by omega) (by rw [e2] at hm; omega)
    · rw [if_neg e2]
  · rw [if_neg (by simpa using hlt)]
    have a1 := hlo i; have a2 := hhi i
    rw [if_pos (by omega : n i = n mn)]
    by_cases h2 : i = mx
    · rw [if_pos h2]; rfl
    · rw [if_neg h2, if_pos (by tauto)]; rfl

theorem staticSort3_spec (n : Fin 3 → ℕ) (hn : ∀ i, n i < 2 ^ 53) (mn mid mx : Fin 3)
    (h : staticSort3 (nat (n 0)) (nat (n 1)) (nat (n 2)) = (mn, mid, mx)) (i : Fin 3) :
    n mn ≤ n i ∧ n i ≤ n mx ∧ (i = mn ∨ i = mid ∨ i = mx) := by
  have l01 := nat_lt (hn 0) (hn 1)
  have l02 := nat_lt (hn 0) (hn 2)
  have l12 := nat_lt (hn 1) (hn 2)
  have l10 := nat_lt (hn 1) (hn 0)
  have l20 := nat_lt (hn 2) (hn 0)
  have l21 := nat_lt (hn 2) (hn 1)
  unfold staticSort3 at h
  by_cases h01 : n 0 < n 1 <;> by_cases h02 : n 0 < n 2 <;> by_cases h12 : n 1 < n 2 <;>
    by_cases h10 : n 1 < n 0 <;> by_cases h20 : n 2 < n 0 <;> by_cases h21 : n 2 < n 1 <;>
    first
    | omega
    | (simp only [l01, l02, l12, l10, h01, h02, h12, h10, decide_true, decide_false, if_true, if_false,
        Bool.false_eq_true, Prod.mk.injEq] at h
       obtain ⟨rfl, rfl, rfl⟩ := h
       fin_cases i <;> simp <;> omega)

/-- With the other sort, the channel that Aseprite's sort leaves out is 0, and the others are the same. -/
theorem setSaturationC_false (n : Fin 3 → ℕ) (S : ℕ) (hn : ∀ i, n i ≤ 255) (hS : S ≤ 255) (i : Fin 3) :
    (Tie n i → pick (setSaturationC false (nat (n 0)) (nat (n 1)) (nat (n 2)) (nat S)) i = nat 0) ∧
    (¬ Tie n i → pick (setSaturationC false (nat (n 0)) (nat (n 1)) (nat (n 2)) (nat S)) i =
      pick (setSaturation (nat (n 0)) (nat (n 1)) (nat (n 2)) (nat S)) i) := by
  have hb : ∀ j, n j < 2 ^ 53 := fun j => by have := hn j; omega
  obtain ⟨a, b, c, hf⟩ : ∃ a b c, staticSort3 (nat (n 0)) (nat (n 1)) (nat (n 2)) = (a, b, c) := ⟨_, _, _, rfl⟩
  obtain ⟨a', b', c', ho⟩ : ∃ a b c, sortN (n 0) (n 1) (n 2) = (a, b, c) := ⟨_, _, _, rfl⟩
  have ho' : staticSort3Orig (nat (n 0)) (nat (n 1)) (nat (n 2)) = (a', b', c') :=
    (sort_nat (nat_near (hb 0)) (nat_near (hb 1)) (nat_near (hb 2))).trans ho
  have sf := staticSort3_spec n hb a b c hf
  have so := sortN_spec n a' b' c' ho
  have e1 : n a = n a' := le_antisymm (sf a').1 (so a).1
  have e2 : n c = n c' := le_antisymm (so c).2.1 (sf c').2.1
  have F := setSaturationC_channel false n S hn hS a b c hf (fun i => (sf i).1) (fun i => (sf i).2.1) i (sf i).2.2
  constructor
  · intro ht
    have : n i = n a := by
      have hh := fun j => (so j).1
      have h0 := sf 0; have h1 := sf 1; have h2 := sf 2
      have : n i ≤ n a := by
        rcases ht with ⟨rfl, t1, t2⟩ | ⟨rfl, t1, t2⟩ <;> (fin_cases a <;> simp <;> omega)
      exact le_antisymm this (sf i).1
    rw [F, satChannel, if_pos this]
  · intro ht
    have hi : i = a' ∨ i = b' ∨ i = c' := by
      by_contra hh
      exact ht ((so i).2.2.1 (by tauto))
    rw [F, ← setSaturationC_true, setSaturationC_channel true n S hn hS a' b' c' ho' (fun i => (so i).1) (fun i => (so i).2.1) i hi,
      e1, e2]

end Ase
