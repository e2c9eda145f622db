import Verif.Props.Load

/-!
# Which cel `load` complains about
-/

namespace Ase

open Spec

theorem mapO_first_err {ε α β : Type} {f : α → Outcome ε β} {xs : List α} {e : ε} (h : mapO f xs = .err e) :
    ∃ pre x post, xs = pre ++ x :: post ∧ f x = .err e ∧ ∀ y ∈ pre, ∃ z, f y = .ok z := by
  induction xs with
  | nil => cases h
  | cons x xs ih =>
    simp only [mapO, outcome_bind_def, outcome_pure_def] at h
    cases hx : f x with
    | panic k => rw [hx] at h; cases h
    | err e' =>
      rw [hx] at h
      cases h
      exact ⟨[], x, xs, rfl, hx, by simp⟩
    | ok y =>
      rw [hx] at h
      cases hm : mapO f xs with
      | panic k => simp [Outcome.bind, hm] at h
      | ok ys => simp [Outcome.bind, hm] at h
      | err e' =>
        simp only [Outcome.bind, hm, Outcome.err.injEq] at h
        obtain ⟨pre, z, post, rfl, h1, h2⟩ := ih (by rw [hm, h])
        refine ⟨x :: pre, z, post, rfl, h1, ?_⟩
        intro w hw
        rcases List.mem_cons.1 hw with rfl | hw
        · exact ⟨y, hx⟩
        · exact h2 w hw

/-- The place in a list with gaps of an element, and the elements before it. -/
theorem filterMap_split {α : Type} {xs : List (Option α)} {pre post : List α} {c : α}
    (h : xs.filterMap id = pre ++ c :: post) :
    ∃ l : Nat, xs[l]? = some (some c) ∧ ∀ (l' : Nat) (c' : α), l' < l → xs[l']? = some (some c') → c' ∈ pre := by
  induction xs generalizing pre with
  | nil => simp at h
  | cons x xs ih =>
    cases x with
    | none =>
      obtain ⟨l, h1, h2⟩ := ih (by simpa using h)
      refine ⟨l + 1, h1, ?_⟩
      intro l' c' hl hc
      rcases l' with _ | l'
      · simp at hc
      · exact h2 l' c' (by omega) hc
    | some a =>
      rcases pre with _ | ⟨p, pre⟩
      · simp only [List.filterMap_cons, id_eq, List.nil_append, List.cons.injEq] at h
        exact ⟨0, by simp [h.1], by omega⟩
      · simp only [List.filterMap_cons, id_eq, List.cons_append, List.cons.injEq] at h
        obtain ⟨l, h1, h2⟩ := ih h.2
        refine ⟨l + 1, h1, ?_⟩
        intro l' c' hl hc
        rcases l' with _ | l'
        · simp only [List.getElem?_cons_zero, Option.some.injEq] at hc
          simp [← h.1, hc]
        · exact List.mem_cons_of_mem _ (h2 l' c' (by omega) hc)

theorem zipIdx_split {α : Type} {xs : List α} {pre post : List (α × Nat)} {x : α} {i : Nat}
    (h : xs.zipIdx = pre ++ (x, i) :: post) :
    xs[i]? = some x ∧ ∀ (j : Nat) (y : α), j < i → xs[j]? = some y → (y, j) ∈ pre := by
  have hi : i = pre.length := by
    have := congrArg (fun l => l[pre.length]?) h
    simp only [List.getElem?_zipIdx, List.getElem?_append_right (Nat.le_refl _), Nat.sub_self,
      List.getElem?_cons_zero] at this
    cases hx : xs[pre.length]? with
    | none => simp [hx] at this
    | some y => simp [hx] at this; exact this.2.symm
  have hm : (x, i) ∈ xs.zipIdx := by rw [h]; simp
  refine ⟨List.mem_zipIdx_iff_getElem?.1 hm, ?_⟩
  intro j y hj hy
  have := congrArg (fun l => l[j]?) h
  simp only [List.getElem?_zipIdx, hy, List.getElem?_append_left (show j < pre.length by omega)] at this
  exact List.mem_of_getElem? (i := j) (by simpa using this.symm)

end Ase
