import Verif.Lemmas.Inflate
import Verif.Spec.Deflate

/-!
# The zlib decoder against the description of zlib streams
-/

namespace Ase.Zlib
open Spec.Deflate

/-! ## Bits -/

theorem lsb_eq (k v : Nat) : lsb k v = bitsOf k v := by
  induction k generalizing v with
  | zero => rfl
  | succ k ih =>
    rw [bitsOf, ← ih, lsb, lsb, List.range_succ_eq_map, List.map_cons, List.map_map]
    congr 1
    refine List.map_congr_left fun i _ => ?_
    exact Nat.testBit_add_one v i

theorem bits_eq (data : Bytes) : bits data = data.flatMap byteBits := rfl

/-- The number a word stands for, most significant bit first. -/
def val : List Bool → Nat
  | [] => 0
  | b :: w => b.toNat * 2 ^ w.length + val w

theorem val_lt (w : List Bool) : val w < 2 ^ w.length := by
  induction w with
  | nil => decide
  | cons b w ih =>
    have := Bool.toNat_le b
    rw [val, List.length_cons, Nat.pow_succ]
    have : b.toNat * 2 ^ w.length ≤ 1 * 2 ^ w.length := Nat.mul_le_mul_right _ this
    omega

theorem val_inj {w v : List Bool} (hl : w.length = v.length) (h : val w = val v) : w = v := by
  induction w generalizing v with
  | nil => exact (List.length_eq_zero_iff.1 hl.symm).symm
  | cons b w ih =>
    cases v with
    | nil => cases hl
    | cons c v =>
      simp only [List.length_cons, Nat.add_right_cancel_iff] at hl
      rw [val, val, hl] at h
      have h1 := val_lt w
      have h2 := val_lt v
      rw [hl] at h1
      cases b <;> cases c <;> simp only [Bool.toNat_false, Bool.toNat_true, Nat.zero_mul, Nat.one_mul, Nat.zero_add] at h
      · rw [ih hl h]
      · omega
      · omega
      · rw [ih hl (by omega)]

theorem msb_length (k v : Nat) : (msb k v).length = k := by simp [msb, lsb]

theorem msb_succ (k v : Nat) : msb (k + 1) v = v.testBit k :: msb k v := by
  simp [msb, lsb, List.range_succ]

theorem val_msb (k v : Nat) : val (msb k v) = v % 2 ^ k := by
  induction k with
  | zero => simp [msb, lsb, val, Nat.mod_one]
  | succ k ih =>
    rw [msb_succ, val, ih, msb_length, Nat.mod_pow_succ, Nat.toNat_testBit, Nat.mul_comm, Nat.add_comm]

theorem msb_iff (w : List Bool) (k v : Nat) (hv : v < 2 ^ k) : w = msb k v ↔ w.length = k ∧ val w = v := by
  constructor
  · rintro rfl
    exact ⟨msb_length _ _, by rw [val_msb, Nat.mod_eq_of_lt hv]⟩
  · rintro ⟨h1, h2⟩
    exact val_inj (by rw [h1, msb_length]) (by rw [h2, val_msb, Nat.mod_eq_of_lt hv])

/-! ## Huffman codes -/

/-- The smallest code of length `j + 1`, from the symbols by code length. -/
def first : List (List Nat) → Nat → Nat
  | [], _ => 0
  | _ :: _, 0 => 0
  | g :: gs, j + 1 => g.length * 2 ^ (j + 1) + first gs j

theorem symbol_run (gs : List (List Nat)) (c j i s : Nat) (g : List Nat) (hg : gs[j]? = some g) (hs : g[i]? = some s)
    (w : List Bool) (hw : w.length = j + 1) (hv : c * 2 ^ (j + 1) + val w = first gs j + i) (rest : List Bool) (r : Nat)
    (o : Bytes) : symbol gs c ⟨w ++ rest, r, o⟩ = .ok (s, ⟨rest, r, o⟩) := by
  induction gs generalizing c j w with
  | nil => cases hg
  | cons g' gs ih =>
    cases w with
    | nil => cases hw
    | cons b w =>
      simp only [List.length_cons, Nat.add_right_cancel_iff] at hw
      rw [symbol, bind_ok (show bit ⟨b :: w ++ rest, r, o⟩ = .ok (b, ⟨w ++ rest, r, o⟩) from rfl)]
      rw [val, hw] at hv
      cases j with
      | zero =>
        cases hg
        have : w = [] := List.length_eq_zero_iff.1 hw
        subst this
        simp only [first, val, Nat.pow_one, Nat.pow_zero, Nat.mul_one, Nat.add_zero, Nat.zero_add] at hv
        rw [show 2 * c + b.toNat = i by omega, hs]
        rfl
      | succ j =>
        have h1 := val_lt w
        rw [hw] at h1
        simp only [first] at hv
        have e : (2 * c + b.toNat) * 2 ^ (j + 1) + val w = g'.length * 2 ^ (j + 1) + (first gs j + i) := by
          have e1 : c * 2 ^ (j + 1 + 1) = 2 * c * 2 ^ (j + 1) := by rw [Nat.pow_succ 2 (j + 1), Nat.mul_comm 2 c, Nat.mul_assoc, Nat.mul_comm 2]
          rw [Nat.add_mul]
          omega
        have hge : g'.length ≤ 2 * c + b.toNat := by
          apply Nat.le_of_not_lt
          intro hlt
          have : (2 * c + b.toNat + 1) * 2 ^ (j + 1) ≤ g'.length * 2 ^ (j + 1) := Nat.mul_le_mul_right _ hlt
          rw [Nat.add_mul _ 1] at this
          omega
        rw [List.getElem?_eq_none hge]
        refine ih _ j hg w hw ?_
        have := Nat.mul_le_mul_right (2 ^ (j + 1)) hge
        rw [Nat.sub_mul]
        omega

theorem symbol_ok {gs : List (List Nat)} {c s : Nat} {st st' : St} (h : symbol gs c st = .ok (s, st')) :
    ∃ j g i w, gs[j]? = some g ∧ g[i]? = some s ∧ w.length = j + 1 ∧ c * 2 ^ (j + 1) + val w = first gs j + i ∧
      st = ⟨w ++ st'.bits, st'.room, st'.out⟩ := by
  induction gs generalizing c st with
  | nil => cases h
  | cons g gs ih =>
    obtain ⟨bs, r, o⟩ := st
    cases bs with
    | nil => cases h
    | cons b bs =>
      rw [symbol, bind_ok (show bit ⟨b :: bs, r, o⟩ = .ok (b, ⟨bs, r, o⟩) from rfl)] at h
      cases hg : g[2 * c + b.toNat]? with
      | some s' =>
        rw [hg] at h
        cases h
        refine ⟨0, g, _, [b], rfl, hg, rfl, ?_, rfl⟩
        simp [first, val]
        omega
      | none =>
        rw [hg] at h
        obtain ⟨j, g', i, w, h1, h2, h3, h4, h5⟩ := ih h
        have hge : g.length ≤ 2 * c + b.toNat := List.getElem?_eq_none_iff.1 hg
        cases h5
        refine ⟨j + 1, g', i, b :: w, h1, h2, by simp [h3], ?_, rfl⟩
        rw [val, h3, first]
        rw [Nat.sub_mul] at h4
        have e1 : c * 2 ^ (j + 1 + 1) = 2 * c * 2 ^ (j + 1) := by rw [Nat.pow_succ 2 (j + 1), Nat.mul_comm 2 c, Nat.mul_assoc, Nat.mul_comm 2]
        have := Nat.mul_le_mul_right (2 ^ (j + 1)) hge
        rw [Nat.add_mul] at h4 this
        omega

theorem first_succ (gs : List (List Nat)) (j : Nat) (g : List Nat) (hg : gs[j]? = some g) (hj : j + 1 < gs.length) :
    first gs (j + 1) = 2 * (first gs j + g.length) := by
  induction gs generalizing j with
  | nil => cases hg
  | cons g' gs ih =>
    cases j with
    | zero =>
      cases hg
      cases gs with
      | nil => simp at hj
      | cons _ _ => simp [first]; omega
    | succ j =>
      rw [first, ih j hg (by simpa using hj), first, Nat.pow_succ 2 (j + 1), ← Nat.mul_assoc]
      omega

/-- How many of the codes of the last length are taken. -/
def taken : List (List Nat) → Nat
  | [] => 0
  | g :: gs => g.length * 2 ^ gs.length + taken gs

theorem codesLeft_eq (gs : List (List Nat)) (n : Nat) :
    codesLeft gs n = if taken gs ≤ n * 2 ^ gs.length then some (n * 2 ^ gs.length - taken gs) else none := by
  induction gs generalizing n with
  | nil => simp [codesLeft, taken]
  | cons g gs ih =>
    rw [codesLeft, taken, List.length_cons, Nat.pow_succ]
    have e : n * (2 ^ gs.length * 2) = 2 * n * 2 ^ gs.length := by rw [Nat.mul_comm 2 n, Nat.mul_assoc, Nat.mul_comm 2]
    rw [e]
    split
    · next hlt =>
      rw [if_neg]
      have : (2 * n + 1) * 2 ^ gs.length ≤ g.length * 2 ^ gs.length := Nat.mul_le_mul_right _ hlt
      rw [Nat.add_mul] at this
      have := Nat.pow_pos (n := gs.length) (show 0 < 2 by decide)
      omega
    · next hge =>
      rw [ih, Nat.sub_mul]
      have := Nat.mul_le_mul_right (2 ^ gs.length) (Nat.le_of_not_lt hge)
      by_cases hc : taken gs ≤ 2 * n * 2 ^ gs.length - g.length * 2 ^ gs.length
      · rw [if_pos hc, if_pos (by omega)]
        congr 1
        omega
      · rw [if_neg hc, if_neg (by omega)]

theorem first_fits (gs : List (List Nat)) (n j : Nat) (g : List Nat) (hg : gs[j]? = some g)
    (h : taken gs ≤ n * 2 ^ gs.length) : first gs j + g.length ≤ n * 2 ^ (j + 1) := by
  have h' : (codesLeft gs n).isSome := by rw [codesLeft_eq, if_pos h]; rfl
  clear h
  induction gs generalizing j n with
  | nil => cases hg
  | cons g' gs ih =>
    rw [codesLeft] at h'
    split at h'
    · cases h'
    · next hge =>
      cases j with
      | zero => cases hg; simp [first]; omega
      | succ j =>
        have := ih (2 * n - g'.length) j hg h'
        rw [Nat.sub_mul] at this
        rw [first]
        have := Nat.mul_le_mul_right (2 ^ (j + 1)) (Nat.le_of_not_lt hge)
        have e1 : n * 2 ^ (j + 1 + 1) = 2 * n * 2 ^ (j + 1) := by rw [Nat.pow_succ 2 (j + 1), Nat.mul_comm 2 n, Nat.mul_assoc, Nat.mul_comm 2]
        omega

/-! ### The symbols by code length -/

/-- The symbols with code length `l`, numbered from `k`. -/
def having (lens : List Nat) (k l : Nat) : List Nat := ((lens.zipIdx k).filter fun p => p.1 = l).map (·.2)

theorem having_cons (a : Nat) (lens : List Nat) (k l : Nat) :
    having (a :: lens) k l = (if a = l then [k] else []) ++ having lens (k + 1) l := by
  unfold having
  rw [List.zipIdx_cons]
  by_cases h : a = l <;> simp [h]

theorem having_length (lens : List Nat) (k l : Nat) : (having lens k l).length = lens.count l := by
  induction lens generalizing k with
  | nil => rfl
  | cons a lens ih =>
    rw [having_cons, List.length_append, ih, List.count_cons]
    by_cases h : a = l <;> simp [h]; omega

theorem having_iff (lens : List Nat) (k l i s : Nat) :
    (having lens k l)[i]? = some s ↔ ∃ t, s = k + t ∧ lens[t]? = some l ∧ (lens.take t).count l = i := by
  induction lens generalizing k i with
  | nil => simp [having]
  | cons a lens ih =>
    rw [having_cons]
    by_cases h : a = l
    · subst h
      rw [if_pos rfl]
      cases i with
      | zero =>
        simp only [List.cons_append, List.nil_append, List.getElem?_cons_zero, Option.some.injEq]
        constructor
        · rintro rfl
          exact ⟨0, by simp⟩
        · rintro ⟨t, rfl, h1, h2⟩
          cases t with
          | zero => rfl
          | succ t => simp at h2
      | succ i =>
        simp only [List.cons_append, List.nil_append, List.getElem?_cons_succ, ih]
        constructor
        · rintro ⟨t, rfl, h1, h2⟩
          exact ⟨t + 1, by omega, by simpa using h1, by simp [h2]⟩
        · rintro ⟨t, rfl, h1, h2⟩
          cases t with
          | zero => simp at h2
          | succ t => exact ⟨t, by omega, by simpa using h1, by simpa using h2⟩
    · rw [if_neg h, List.nil_append, ih]
      constructor
      · rintro ⟨t, rfl, h1, h2⟩
        exact ⟨t + 1, by omega, by simpa using h1, by simp [h2, h]⟩
      · rintro ⟨t, rfl, h1, h2⟩
        cases t with
        | zero => simp [h] at h1
        | succ t => exact ⟨t, by omega, by simpa using h1, by simpa [h] using h2⟩

theorem groups_get (lens : List Nat) (j : Nat) : (groups lens)[j]? = if j < 15 then some (having lens 0 (j + 1)) else none := by
  unfold groups
  rw [List.getElem?_map]
  by_cases h : j < 15
  · rw [List.getElem?_range h, if_pos h]
    rfl
  · rw [if_neg h, List.getElem?_eq_none (by simpa using h)]
    rfl

theorem groups_length (lens : List Nat) : (groups lens).length = 15 := by simp [groups]

theorem first_groups (lens : List Nat) (j : Nat) (hj : j < 15) : first (groups lens) j = firstCode lens (j + 1) := by
  induction j with
  | zero => rfl
  | succ j ih =>
    rw [first_succ _ j (having lens 0 (j + 1)) (by rw [groups_get, if_pos (by omega)]) (by rw [groups_length]; exact hj),
      ih (by omega), having_length, firstCode.eq_2 lens (j + 1), if_neg (by omega)]

theorem taken_groups (lens : List Nat) :
    taken (groups lens) = ((List.range 15).map fun l => lens.count (l + 1) * 2 ^ (14 - l)).sum := by
  have h : ∀ l, ((lens.zipIdx.filter fun p => p.1 = l + 1).map (·.2)).length = lens.count (l + 1) :=
    fun l => having_length lens 0 (l + 1)
  simp only [groups, List.range, List.range.loop, List.map_cons, List.map_nil, taken, h, List.length_cons, List.length_nil,
    List.sum_cons, List.sum_nil]

theorem count_groups (lens : List Nat) :
    ((groups lens).map List.length).sum = ((List.range 15).map fun l => lens.count (l + 1)).sum := by
  congr 1
  unfold groups
  rw [List.map_map]
  exact List.map_congr_left fun l _ => having_length lens 0 (l + 1)

/-- The code words do not take more than there are. -/
def Fits (lens : List Nat) : Prop := taken (groups lens) ≤ 2 ^ 15

theorem taken_le (gs : List (List Nat)) : 2 * taken gs ≤ (gs.map List.length).sum * 2 ^ gs.length := by
  induction gs with
  | nil => simp [taken]
  | cons g gs ih =>
    rw [taken, List.map_cons, List.sum_cons, List.length_cons, Nat.pow_succ, Nat.add_mul, Nat.mul_add]
    have : (gs.map List.length).sum * (2 ^ gs.length * 2) = 2 * ((gs.map List.length).sum * 2 ^ gs.length) := by
      rw [← Nat.mul_assoc]; omega
    have : g.length * (2 ^ gs.length * 2) = 2 * (g.length * 2 ^ gs.length) := by
      rw [← Nat.mul_assoc]; omega
    omega

theorem usable_iff (lens : List Nat) : usable (groups lens) = true ↔ Usable lens := by
  have hle := taken_le (groups lens)
  unfold usable Usable
  rw [codesLeft_eq, groups_length, ← taken_groups, ← count_groups, Nat.one_mul]
  rw [groups_length] at hle
  by_cases h : taken (groups lens) ≤ 2 ^ 15
  · rw [if_pos h]
    by_cases h' : taken (groups lens) = 2 ^ 15
    · simp [h']
    · simp only [h', false_or]
      split
      · next h0 => cases h0
      · next h0 => simp only [Option.some.injEq] at h0; omega
      · simp
  · rw [if_neg h]
    simp only [Bool.false_eq_true, false_iff]
    rintro (h1 | h1)
    · omega
    · have := Nat.mul_le_mul_right (2 ^ 15) h1
      omega

theorem Usable.fits {lens : List Nat} (h : Usable lens) : Fits lens := by
  have hle := taken_le (groups lens)
  unfold Usable at h
  rw [← taken_groups, ← count_groups] at h
  rw [groups_length] at hle
  unfold Fits
  rcases h with h | h
  · omega
  · have := Nat.mul_le_mul_right (2 ^ 15) h
    omega

theorem symbol_codeword {lens : List Nat} (hf : Fits lens) {s : Nat} {w : List Bool} (h : Codeword lens s w)
    (rest : List Bool) (r : Nat) (o : Bytes) : symbol (groups lens) 0 ⟨w ++ rest, r, o⟩ = .ok (s, ⟨rest, r, o⟩) := by
  obtain ⟨l, h1, h2, h3, h4⟩ := h
  obtain ⟨j, rfl⟩ : ∃ j, l = j + 1 := ⟨l - 1, by omega⟩
  have hg : (groups lens)[j]? = some (having lens 0 (j + 1)) := by rw [groups_get, if_pos (by omega)]
  have hs : (having lens 0 (j + 1))[(lens.take s).count (j + 1)]? = some s :=
    (having_iff lens 0 (j + 1) _ s).2 ⟨s, by omega, h1, rfl⟩
  have hb := first_fits (groups lens) 1 j _ hg (by rw [groups_length, Nat.one_mul]; exact hf)
  have hi := (List.getElem?_eq_some_iff.1 hs).1
  rw [first_groups lens j (by omega), Nat.one_mul] at hb
  obtain ⟨h5, h6⟩ := (msb_iff w (j + 1) _ (by omega)).1 h4
  exact symbol_run _ 0 j _ s _ hg hs w h5 (by rw [h6, first_groups lens j (by omega)]; omega) rest r o

theorem codeword_of_symbol {lens : List Nat} (hf : Fits lens) {s : Nat} {st st' : St}
    (h : symbol (groups lens) 0 st = .ok (s, st')) :
    ∃ w, Codeword lens s w ∧ st = ⟨w ++ st'.bits, st'.room, st'.out⟩ := by
  obtain ⟨j, g, i, w, h1, h2, h3, h4, h5⟩ := symbol_ok h
  rw [groups_get] at h1
  split at h1
  · next hj =>
    cases h1
    obtain ⟨t, rfl, h6, h7⟩ := (having_iff _ _ _ _ _).1 h2
    have hb := first_fits (groups lens) 1 j (having lens 0 (j + 1)) (by rw [groups_get, if_pos hj])
      (by rw [groups_length, Nat.one_mul]; exact hf)
    have hi := (List.getElem?_eq_some_iff.1 h2).1
    rw [first_groups lens j hj, Nat.one_mul] at hb
    rw [first_groups lens j hj] at h4
    refine ⟨w, ⟨j + 1, by simpa using h6, by omega, by omega, ?_⟩, h5⟩
    rw [msb_iff]
    · simp only [Nat.zero_add]
      exact ⟨h3, by omega⟩
    · simp only [Nat.zero_add]
      omega
  · cases h1

theorem Codeword.pos {lens : List Nat} {s : Nat} {w : List Bool} (h : Codeword lens s w) : 0 < w.length := by
  obtain ⟨l, _, h2, _, rfl⟩ := h
  rw [msb_length]
  exact h2

end Ase.Zlib
