import Verif.Lemmas.UserData

/-! # Depth bounds and nested maps in property trees -/

namespace Ase

open Spec

theorem seq_imp {α : Type} {G G' : α → Bytes → Prop} {xs : List α} {l : Bytes} (h : Seq G xs l)
    (hq : ∀ x ∈ xs, ∀ l', l'.length ≤ l.length → G x l' → G' x l') : Seq G' xs l := by
  induction h with
  | nil => exact .nil
  | cons hx _ ih =>
    exact .cons (hq _ (by simp) _ (by simp) hx)
      (ih fun x hx l' hl' h => hq x (by simp [hx]) l' (by simp; omega) h)

theorem elems_imp {α : Type} {G G' : α → Bytes → Prop} {xs : List α} {c : UInt16} {l : Bytes} (h : Elems c G xs l)
    (hq : ∀ x ∈ xs, ∀ l', l'.length + 2 ≤ l.length → G x l' → G' x l') : Elems c G' xs l := by
  obtain ⟨e, h1, h2, rfl⟩ := h
  exact ⟨e, h1, seq_imp h2 fun x hx l' hl' h => hq x hx l' (by simp; omega) h, rfl⟩

/-- The bound on the nesting depth can be any number above half the length of the encoding. -/
theorem depth_change (k hk : Bool) (d' d : Nat) :
    (∀ v l, l.length < 2 * d → IsValue k d' v l → IsValue k d v l) ∧
    (∀ v l, l.length < 2 * d → IsVector k d' v l → IsVector k d v l) ∧
    (∀ v l, l.length < 2 * d → IsMap k hk d' v l → IsMap k hk d v l) ∧
    (∀ v l, l.length < 2 * d → IsProperty k d' v l → IsProperty k d v l) := by
  induction d' generalizing d hk with
  | zero => simp [IsValue, IsVector, IsMap, IsProperty]
  | succ d' ih =>
    cases d with
    | zero => simp
    | succ d =>
    obtain ⟨ih1, ih2, _, ih4⟩ := ih true d
    have ih3 : ∀ hk v l, l.length < 2 * d → IsMap k hk d' v l → IsMap k hk d v l := fun hk => (ih hk d).2.2.1
    refine ⟨?_, ?_, ?_, ?_⟩
    · intro v l hl h
      cases v with
      | vector v =>
        simp only [IsValue] at h ⊢
        obtain ⟨e, h, rfl⟩ := h
        exact ⟨e, ih2 _ _ (by simp at hl; omega) h, rfl⟩
      | propertiesMap v =>
        simp only [IsValue] at h ⊢
        obtain ⟨e, h, rfl⟩ := h
        exact ⟨e, ih3 _ _ _ (by simp at hl; omega) h, rfl⟩
      | _ => simpa only [IsValue] using h
    · intro v l hl h
      cases v with
      | mixed v => simp only [IsVector] at h ⊢; exact elems_imp h fun x _ l' hl' => ih1 _ _ (by omega)
      | vector v => simp only [IsVector] at h ⊢; exact elems_imp h fun x _ l' hl' => ih2 _ _ (by omega)
      | propertiesMap v => simp only [IsVector] at h ⊢; exact elems_imp h fun x _ l' hl' => ih3 _ _ _ (by omega)
      | _ => simpa only [IsVector] using h
    · intro v l hl h
      obtain ⟨key, props⟩ := v
      simp only [IsMap] at h ⊢
      obtain ⟨kb, e, h1, h2, h3, rfl⟩ := h
      exact ⟨kb, e, h1, h2, seq_imp h3 fun x _ l' hl' => ih4 _ _ (by simp at hl; omega), rfl⟩
    · intro v l hl h
      obtain ⟨key, props⟩ := v
      simp only [IsProperty] at h ⊢
      obtain ⟨e, h1, h2, rfl⟩ := h
      exact ⟨e, h1, ih1 _ _ (by simp [str] at hl; omega) h2, rfl⟩

/-- More depth never hurts. -/
theorem depth_mono (k hk : Bool) (d : Nat) :
    (∀ v l, IsValue k d v l → IsValue k (d + 1) v l) ∧
    (∀ v l, IsVector k d v l → IsVector k (d + 1) v l) ∧
    (∀ v l, IsMap k hk d v l → IsMap k hk (d + 1) v l) ∧
    (∀ v l, IsProperty k d v l → IsProperty k (d + 1) v l) := by
  induction d generalizing hk with
  | zero =>
    refine ⟨?_, ?_, ?_, ?_⟩ <;> intro v l h <;> simp only [IsValue, IsVector, IsMap, IsProperty] at h
  | succ d ih =>
    obtain ⟨ih1, ih2, _, ih4⟩ := ih true
    have ih3 : ∀ hk v l, IsMap k hk d v l → IsMap k hk (d + 1) v l := fun hk => (ih hk).2.2.1
    refine ⟨?_, ?_, ?_, ?_⟩
    · intro v l h
      cases v with
      | vector v =>
        simp only [IsValue] at h ⊢
        obtain ⟨e, h, rfl⟩ := h
        exact ⟨e, ih2 _ _ h, rfl⟩
      | propertiesMap v =>
        simp only [IsValue] at h ⊢
        obtain ⟨e, h, rfl⟩ := h
        exact ⟨e, ih3 _ _ _ h, rfl⟩
      | _ => simpa only [IsValue] using h
    · intro v l h
      cases v with
      | mixed v => simp only [IsVector] at h ⊢; exact elems_imp h fun x _ l' _ => ih1 _ _
      | vector v => simp only [IsVector] at h ⊢; exact elems_imp h fun x _ l' _ => ih2 _ _
      | propertiesMap v => simp only [IsVector] at h ⊢; exact elems_imp h fun x _ l' _ => ih3 _ _ _
      | _ => simpa only [IsVector] using h
    · intro v l h
      obtain ⟨key, props⟩ := v
      simp only [IsMap] at h ⊢
      obtain ⟨kb, e, h1, h2, h3, rfl⟩ := h
      exact ⟨kb, e, h1, h2, seq_imp h3 fun x _ l' _ => ih4 _ _, rfl⟩
    · intro v l h
      obtain ⟨key, props⟩ := v
      simp only [IsProperty] at h ⊢
      obtain ⟨e, h1, h2, rfl⟩ := h
      exact ⟨e, h1, ih1 _ _ h2, rfl⟩

theorem valuesMapFree_iff {vs : List Value} : valuesMapFree vs = true ↔ ∀ v ∈ vs, mapFree v = true := by
  induction vs with
  | nil => simp [valuesMapFree]
  | cons v vs ih => simp [valuesMapFree, ih]

theorem vectorsMapFree_iff {vs : List PVector} : vectorsMapFree vs = true ↔ ∀ v ∈ vs, vectorMapFree v = true := by
  induction vs with
  | nil => simp [vectorsMapFree]
  | cons v vs ih => simp [vectorsMapFree, ih]

/-- Without nested maps it does not matter whether nested maps have keys. -/
theorem keyed_irrelevant (k k' : Bool) (d : Nat) :
    (∀ v l, mapFree v = true → IsValue k d v l → IsValue k' d v l) ∧
    (∀ v l, vectorMapFree v = true → IsVector k d v l → IsVector k' d v l) := by
  induction d with
  | zero => refine ⟨?_, ?_⟩ <;> intro v l _ h <;> simp only [IsValue, IsVector] at h
  | succ d ih =>
    obtain ⟨ih1, ih2⟩ := ih
    refine ⟨?_, ?_⟩
    · intro v l hf h
      cases v with
      | vector v =>
        simp only [IsValue] at h ⊢
        obtain ⟨e, h, rfl⟩ := h
        exact ⟨e, ih2 _ _ (by simpa [mapFree] using hf) h, rfl⟩
      | propertiesMap v => simp [mapFree] at hf
      | _ => simpa only [IsValue] using h
    · intro v l hf h
      cases v with
      | mixed v =>
        simp only [IsVector] at h ⊢
        rw [vectorMapFree, valuesMapFree_iff] at hf
        exact elems_imp h fun x hx l' _ => ih1 _ _ (hf x hx)
      | vector v =>
        simp only [IsVector] at h ⊢
        rw [vectorMapFree, vectorsMapFree_iff] at hf
        exact elems_imp h fun x hx l' _ => ih2 _ _ (hf x hx)
      | propertiesMap v => simp [vectorMapFree] at hf
      | _ => simpa only [IsVector] using h

theorem keyed_irrelevant_map (k k' hk : Bool) (d : Nat) (m : PropertiesMap) (l : Bytes) (hf : propsMapFree m = true)
    (h : IsMap k hk d m l) : IsMap k' hk d m l := by
  cases d with
  | zero => simp only [IsMap] at h
  | succ d =>
  obtain ⟨key, props⟩ := m
  simp only [IsMap] at h ⊢
  obtain ⟨kb, e, h1, h2, h3, rfl⟩ := h
  refine ⟨kb, e, h1, h2, seq_imp h3 fun x hx l' _ h => ?_, rfl⟩
  rw [propsMapFree, List.all_eq_true] at hf
  have hx := hf x hx
  obtain ⟨n, v⟩ := x
  cases d with
  | zero => simp only [IsProperty] at h
  | succ d =>
  simp only [IsProperty] at h ⊢
  obtain ⟨e, h1, h2, rfl⟩ := h
  exact ⟨e, h1, (keyed_irrelevant k k' d).1 _ _ hx h2, rfl⟩

end Ase
