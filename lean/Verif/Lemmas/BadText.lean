import Verif.Lemmas.Utf8
import Verif.Spec.Text

/-!
# The fields of `Utf8Error`
-/

namespace Ase

open Spec

theorem isText_iff {b : Bytes} : IsText b ↔ (utf8Decode b).isSome := by
  rw [Option.isSome_iff_exists]
  constructor
  · rintro ⟨s, rfl⟩
    exact ⟨s.toList, utf8Decode_flatMap _⟩
  · rintro ⟨cs, h⟩
    exact ⟨String.ofList cs, by rw [utf8, String.toList_ofList]; exact utf8Decode_iff.1 h⟩

theorem isText_nil : IsText [] := ⟨"", rfl⟩

/-- the four kinds of sequences -/
theorem isText_cons {b0 : UInt8} {t : Bytes} : IsText (b0 :: t) ↔
    (b0.toNat < 0x80 ∧ IsText t) ∨
    (0xC2 ≤ b0.toNat ∧ b0.toNat ≤ 0xDF ∧ ∃ b1 t', t = b1 :: t' ∧ isCont b1 = true ∧ IsText t') ∨
    (0xE0 ≤ b0.toNat ∧ b0.toNat ≤ 0xEF ∧ ∃ b1 b2 t', t = b1 :: b2 :: t' ∧ ok3 b0 b1 = true ∧ isCont b2 = true ∧
      IsText t') ∨
    (0xF0 ≤ b0.toNat ∧ b0.toNat ≤ 0xF4 ∧ ∃ b1 b2 b3 t', t = b1 :: b2 :: b3 :: t' ∧ ok4 b0 b1 = true ∧
      isCont b2 = true ∧ isCont b3 = true ∧ IsText t') := by
  simp only [isText_iff]
  rw [utf8Decode_cons]
  by_cases h1 : b0.toNat < 0x80
  · rw [if_pos h1]
    simp only [Option.isSome_map, h1, true_and]
    constructor
    · exact .inl
    · rintro (h | ⟨h, _⟩ | ⟨h, _⟩ | ⟨h, _⟩)
      · exact h
      all_goals omega
  · rw [if_neg h1]
    have hk : ∀ b1, ok4 b0 b1 = true → 0xF0 ≤ b0.toNat ∧ b0.toNat ≤ 0xF4 := by
      intro b1 h
      rw [ok4_iff] at h
      omega
    rcases t with _ | ⟨b1, t⟩
    · simp [h1]
    · simp only
      by_cases h2 : 0xC2 ≤ b0.toNat ∧ b0.toNat ≤ 0xDF
      · rw [if_pos h2]
        have h3 : ¬ (0xE0 ≤ b0.toNat) := by omega
        have h4 : ¬ (0xF0 ≤ b0.toNat) := by omega
        cases hc : isCont b1 <;> simp [h1, h2, h3, h4] <;> grind
      · rw [if_neg h2]
        have h2' : ¬ (0xC2 ≤ b0.toNat ∧ b0.toNat ≤ 0xDF ∧ ∃ c t', b1 :: t = c :: t' ∧ isCont c = true ∧
            (utf8Decode t').isSome = true) := fun h => h2 ⟨h.1, h.2.1⟩
        rcases t with _ | ⟨b2, t⟩
        · simp [h1]
          omega
        · simp only
          by_cases h3 : 0xE0 ≤ b0.toNat ∧ b0.toNat ≤ 0xEF
          · rw [if_pos h3]
            have h4 : ¬ (0xF0 ≤ b0.toNat) := by omega
            have h5 : ¬ (b0.toNat ≤ 0xDF) := by omega
            cases hc : ok3 b0 b1 <;> cases hc2 : isCont b2 <;> simp [h1, h3, h4, h5] <;> grind
          · rw [if_neg h3]
            rcases t with _ | ⟨b3, t⟩
            · simp [h1]
              omega
            · simp only
              cases hc : ok4 b0 b1
              · have e2 : ¬ (0xC2 ≤ b0.toNat ∧ b0.toNat ≤ 0xDF) := h2
                simp [h1]
                grind
              · obtain ⟨k1, k2⟩ := hk _ hc
                have h5 : ¬ (b0.toNat ≤ 0xDF) := by omega
                have h6 : ¬ (b0.toNat ≤ 0xEF) := by omega
                cases hc2 : isCont b2 <;> cases hc3 : isCont b3 <;> simp [h1, h5, h6, k1, k2] <;> grind

theorem Spec.StartsText.take {t : Bytes} (h : StartsText t) (n : Nat) : StartsText (t.take n) := by
  obtain ⟨more, h⟩ := h
  exact ⟨t.drop n ++ more, by rwa [← List.append_assoc, List.take_append_drop]⟩

theorem Spec.IsText.starts {t : Bytes} (h : IsText t) : StartsText t := ⟨[], by simpa using h⟩

/-- a whole character before -/
theorem Spec.BadText.after {c t : Bytes} {n : Nat} {k : Option UInt8} (hc : ∀ x, IsText (c ++ x) ↔ IsText x)
    (h : BadText t n k) : BadText (c ++ t) (c.length + n) k := by
  have ht : ∀ m, (c ++ t).take (c.length + m) = c ++ t.take m := fun m => by
    rw [List.take_append, List.take_of_length_le (by omega), Nat.add_sub_cancel_left]
  have hs : ∀ x, StartsText (c ++ x) ↔ StartsText x := fun x => by
    unfold StartsText
    simp only [List.append_assoc, hc]
  refine ⟨by rw [hc]; exact h.bad, by rw [ht, hc]; exact h.valid, fun m hm => ?_, by rw [hs]; exact h.ends, fun j hj => ?_⟩
  · obtain ⟨m', rfl⟩ : ∃ m', m = c.length + m' := ⟨m - c.length, by omega⟩
    rw [ht, hc]
    exact h.longest m' (by omega)
  · obtain ⟨h1, h2, h3⟩ := h.wrong j hj
    refine ⟨h1, fun hj => ?_, fun i hi => ?_⟩
    · rw [Nat.add_assoc, ht, hs]
      exact h2 hj
    · rw [Nat.add_assoc, ht, hs]
      exact h3 i hi

/-- The bytes end within a character. -/
theorem Spec.BadText.early {t : Bytes} (h : ∀ m, 0 < m → ¬ IsText (t.take m)) (hne : t ≠ []) (hs : StartsText t) :
    BadText t 0 none := by
  refine ⟨?_, isText_nil, h, ⟨fun _ => hs, fun _ => rfl⟩, fun j hj => by cases hj⟩
  have := h t.length (List.length_pos_iff.2 hne)
  rwa [List.take_length] at this

/-- The first `j` bytes may be the start of a character, with one more they are not. -/
theorem Spec.BadText.here {t : Bytes} {j : UInt8} (hj : 1 ≤ j.toNat) (h : ∀ m, 0 < m → m ≤ j.toNat → ¬ IsText (t.take m))
    (h1 : 1 < j.toNat → StartsText (t.take j.toNat)) (h2 : ¬ StartsText (t.take (j.toNat + 1))) : BadText t 0 (some j) := by
  have hno : ∀ i, j.toNat < i → ¬ StartsText (t.take i) := fun i hi hs => by
    have := hs.take (j.toNat + 1)
    rw [List.take_take, Nat.min_eq_left (by omega)] at this
    exact h2 this
  have hns : ¬ StartsText t := fun hs => h2 (hs.take _)
  refine ⟨fun ht => hns ht.starts, isText_nil, fun m hm ht => ?_, ⟨fun h => (by cases h), fun h => (hns h).elim⟩, ?_⟩
  · by_cases hmj : m ≤ j.toNat
    · exact h m hm hmj ht
    · exact hno m (by omega) ht.starts
  · intro j' hj'
    cases hj'
    refine ⟨hj, fun h => by rw [Nat.zero_add]; exact h1 h, fun i hi => by rw [Nat.zero_add]; exact hno i hi⟩

/-- no part of a sequence is a text -/
local macro "no_text" : tactic => `(tactic| (
  intro m hm
  rcases m with _ | _ | _ | _ | m <;> simp only [List.take_succ_cons, List.take_nil, List.take_zero] <;>
    (try omega) <;> rw [isText_cons] <;> grind))

/-- the bytes do not start a text -/
local macro "no_start" : tactic => `(tactic| (
  rintro ⟨more, hh⟩
  simp only [UInt8.reduceToNat, Nat.reduceAdd, List.take_succ_cons, List.take_zero, List.cons_append] at hh
  rw [isText_cons] at hh
  grind))

theorem fault_spec (pos : Nat) (t : Bytes) (h : ¬ IsText t) :
    ∃ n, (utf8Fault pos t).1 = pos + n ∧ BadText t n (utf8Fault pos t).2 := by
  have c80 : isCont 0x80 = true := by decide
  have hnil := isText_nil
  have start3 : ∀ b0 : UInt8, 0xE0 ≤ b0.toNat → b0.toNat ≤ 0xEF → ∃ b1, ok3 b0 b1 = true := by
    intro b0 h1 h2
    by_cases he : b0.toNat = 0xE0
    · exact ⟨0xA0, ok3_iff.2 (.inl ⟨he, by decide, by decide⟩)⟩
    · exact ⟨0x80, ok3_iff.2 (by simp only [UInt8.reduceToNat]; omega)⟩
  have start4 : ∀ b0 : UInt8, 0xF0 ≤ b0.toNat → b0.toNat ≤ 0xF4 → ∃ b1, ok4 b0 b1 = true := by
    intro b0 h1 h2
    by_cases he : b0.toNat = 0xF0
    · exact ⟨0x90, ok4_iff.2 (.inl ⟨he, by decide, by decide⟩)⟩
    · exact ⟨0x80, ok4_iff.2 (by simp only [UInt8.reduceToNat]; omega)⟩
  fun_induction utf8Fault pos t with
  | case1 pos => exact (h isText_nil).elim
  | case2 pos b0 t0 h1 ih =>
    have hc : ∀ x, IsText ([b0] ++ x) ↔ IsText x := fun x => by
      rw [List.singleton_append, isText_cons]
      grind
    obtain ⟨n, e, hb⟩ := ih (fun ht => h ((hc _).2 ht))
    exact ⟨1 + n, by omega, hb.after hc⟩
  | case3 pos b0 h1 h2 =>
    refine ⟨0, rfl, BadText.early (by no_text) (by simp) ⟨[0x80], ?_⟩⟩
    rw [List.singleton_append, isText_cons]
    grind
  | case4 pos b0 h1 h2 b1 t h3 ih =>
    have hc : ∀ x, IsText ([b0, b1] ++ x) ↔ IsText x := fun x => by
      simp only [List.cons_append, List.nil_append]
      rw [isText_cons]
      grind
    obtain ⟨n, e, hb⟩ := ih (fun ht => h ((hc _).2 ht))
    exact ⟨2 + n, by omega, hb.after hc⟩
  | case5 pos b0 h1 h2 b1 t h3 =>
    refine ⟨0, rfl, BadText.here (by decide) (by no_text) (fun h => absurd h (by decide)) (by no_start)⟩
  | case6 pos b0 h1 h2 h3 =>
    obtain ⟨b1, hb1⟩ := start3 b0 h3.1 h3.2
    refine ⟨0, rfl, BadText.early (by no_text) (by simp) ⟨[b1, 0x80], ?_⟩⟩
    rw [List.singleton_append, isText_cons]
    grind
  | case7 pos b0 h1 h2 h3 b1 h4 =>
    refine ⟨0, rfl, BadText.early (by no_text) (by simp) ⟨[0x80], ?_⟩⟩
    simp only [List.cons_append, List.nil_append]
    rw [isText_cons]
    grind
  | case8 pos b0 h1 h2 h3 b1 h4 b2 t h5 ih =>
    have hc : ∀ x, IsText ([b0, b1, b2] ++ x) ↔ IsText x := fun x => by
      simp only [List.cons_append, List.nil_append]
      rw [isText_cons]
      grind
    obtain ⟨n, e, hb⟩ := ih (fun ht => h ((hc _).2 ht))
    exact ⟨3 + n, by omega, hb.after hc⟩
  | case9 pos b0 h1 h2 h3 b1 h4 b2 t h5 =>
    refine ⟨0, rfl, BadText.here (by decide) (by no_text) (fun _ => ⟨[0x80], ?_⟩) (by no_start)⟩
    simp only [UInt8.reduceToNat, List.take_succ_cons, List.take_zero, List.cons_append, List.nil_append]
    rw [isText_cons]
    grind
  | case10 pos b0 h1 h2 h3 b1 t h4 =>
    refine ⟨0, rfl, BadText.here (by decide) (by no_text) (fun h => absurd h (by decide)) (by no_start)⟩
  | case11 pos b0 h1 h2 h3 h4 =>
    obtain ⟨b1, hb1⟩ := start4 b0 h4.1 h4.2
    refine ⟨0, rfl, BadText.early (by no_text) (by simp) ⟨[b1, 0x80, 0x80], ?_⟩⟩
    rw [List.singleton_append, isText_cons]
    grind
  | case12 pos b0 h1 h2 h3 h4 b1 h5 =>
    refine ⟨0, rfl, BadText.early (by no_text) (by simp) ⟨[0x80, 0x80], ?_⟩⟩
    simp only [List.cons_append, List.nil_append]
    rw [isText_cons]
    grind
  | case13 pos b0 h1 h2 h3 h4 b1 h5 b2 h6 =>
    refine ⟨0, rfl, BadText.early (by no_text) (by simp) ⟨[0x80], ?_⟩⟩
    simp only [List.cons_append, List.nil_append]
    rw [isText_cons]
    grind
  | case14 pos b0 h1 h2 h3 h4 b1 h5 b2 h6 b3 t h7 ih =>
    have hc : ∀ x, IsText ([b0, b1, b2, b3] ++ x) ↔ IsText x := fun x => by
      simp only [List.cons_append, List.nil_append]
      rw [isText_cons]
      grind
    obtain ⟨n, e, hb⟩ := ih (fun ht => h ((hc _).2 ht))
    exact ⟨4 + n, by omega, hb.after hc⟩
  | case15 pos b0 h1 h2 h3 h4 b1 h5 b2 h6 b3 t h7 =>
    refine ⟨0, rfl, BadText.here (by decide) (by no_text) (fun _ => ⟨[0x80], ?_⟩) (by no_start)⟩
    simp only [UInt8.reduceToNat, List.take_succ_cons, List.take_zero, List.cons_append, List.nil_append]
    rw [isText_cons]
    grind
  | case16 pos b0 h1 h2 h3 h4 b1 h5 b2 t h6 =>
    refine ⟨0, rfl, BadText.here (by decide) (by no_text) (fun _ => ⟨[0x80, 0x80], ?_⟩) (by no_start)⟩
    simp only [UInt8.reduceToNat, List.take_succ_cons, List.take_zero, List.cons_append, List.nil_append]
    rw [isText_cons]
    grind
  | case17 pos b0 h1 h2 h3 h4 b1 t h5 =>
    refine ⟨0, rfl, BadText.here (by decide) (by no_text) (fun h => absurd h (by decide)) (by no_start)⟩
  | case18 pos b0 t h1 h2 h3 h4 =>
    refine ⟨0, rfl, BadText.here (by decide) ?_ (fun h => absurd h (by decide)) ?_⟩
    · intro m hm
      obtain ⟨m, rfl⟩ : ∃ k, m = k + 1 := ⟨m - 1, by omega⟩
      rw [List.take_succ_cons, isText_cons]
      grind
    · rintro ⟨more, hh⟩
      simp only [UInt8.reduceToNat, Nat.reduceAdd, List.take_succ_cons, List.cons_append] at hh
      rw [isText_cons] at hh
      grind

/-- The fields are determined by the bytes. -/
theorem Spec.BadText.unique {t : Bytes} {n n' : Nat} {k k' : Option UInt8} (h : BadText t n k) (h' : BadText t n' k') :
    n = n' ∧ k = k' := by
  have hn : n = n' := by
    rcases Nat.lt_trichotomy n n' with hl | hl | hl
    · exact (h.longest n' hl h'.valid).elim
    · exact hl
    · exact (h'.longest n hl h.valid).elim
  subst hn
  refine ⟨rfl, ?_⟩
  rcases k with _ | j <;> rcases k' with _ | j'
  · rfl
  · exact ((h'.ends.2 (h.ends.1 rfl)).symm)
  · exact (h.ends.2 (h'.ends.1 rfl))
  · obtain ⟨a1, a2, a3⟩ := h.wrong j rfl
    obtain ⟨b1, b2, b3⟩ := h'.wrong j' rfl
    have : j.toNat = j'.toNat := by
      rcases Nat.lt_trichotomy j.toNat j'.toNat with hl | hl | hl
      · exact (a3 _ hl (b2 (by omega))).elim
      · exact hl
      · exact (b3 _ hl (a2 (by omega))).elim
    rw [UInt8.toNat_inj.1 this]

end Ase
