import Verif.Spec.Properties
import Verif.Lemmas.Encode
import Verif.Lemmas.Errors
import Verif.Lemmas.UserDataChunk

/-!
# Reading and storing properties
-/

namespace Ase
open Spec

theorem seq_stored_length {α : Type} {G : α → Bytes → Prop} {enc : α → Bytes} {xs : List α} {l : Bytes} (h : Seq G xs l)
    (he : ∀ x ∈ xs, ∀ l, G x l → l.length = (enc x).length) : l.length = (xs.flatMap enc).length := by
  induction h with
  | nil => rfl
  | cons hx _ ih =>
    simp only [List.flatMap_cons, List.length_append]
    rw [he _ (by simp) _ hx, ih fun x hx => he x (by simp [hx])]

theorem elems_length {α : Type} {G : α → Bytes → Prop} {enc : α → Bytes} {c : UInt16} {xs : List α} {l : Bytes}
    (h : Elems c G xs l) (he : ∀ x ∈ xs, ∀ l, G x l → l.length = (enc x).length) : l.length = (elems c enc xs).length := by
  obtain ⟨e, -, h, rfl⟩ := h
  simp only [elems, List.length_append, seq_stored_length h he]

theorem elems_of {α : Type} {G : α → Bytes → Prop} {enc : α → Bytes} {c : UInt16} {xs : List α} (hl : xs.length < 2 ^ 32)
    (he : ∀ x ∈ xs, G x (enc x)) : Elems c G xs (elems c enc xs) :=
  ⟨_, hl, seq_flatMap he, rfl⟩

theorem stored_is (d : Nat) :
    (∀ v, ReadableValue d v → IsValue true d v (storedValue d v)) ∧
    (∀ v, ReadableVector d v → IsVector true d v (storedVector d v)) ∧
    (∀ m, ReadableMap d m → IsMap true true d m (storedMap d m)) ∧
    (∀ p, ReadableProperty d p → IsProperty true d p (storedProperty d p)) := by
  induction d with
  | zero => simp [ReadableValue, ReadableVector, ReadableMap, ReadableProperty]
  | succ d ih =>
    obtain ⟨h1, h2, h3, h4⟩ := ih
    refine ⟨?_, ?_, ?_, ?_⟩
    · intro v h
      cases v <;> simp only [ReadableValue] at h <;> simp only [IsValue, storedValue, valueBytes]
      case bool b => exact ⟨_, isBool_byte b, rfl⟩
      case string s => exact ⟨h, trivial⟩
      case vector v => exact ⟨_, h2 v h, rfl⟩
      case propertiesMap m => exact ⟨_, h3 m h, rfl⟩
    · intro v h
      cases v <;> simp only [ReadableVector, FitsVector] at h <;> simp only [IsVector, storedVector, vectorBytes]
      case mixed vs => exact elems_of h.1 fun x hx => h1 x (h.2 x hx)
      case vector vs => exact elems_of h.1 fun x hx => h2 x (h.2 x hx)
      case propertiesMap vs => exact elems_of h.1 fun x hx => h3 x (h.2 x hx)
      case bool vs => exact elems_of h fun x _ => isBool_byte x
      case string vs => exact elems_of h.1 fun x hx => ⟨h.2 x hx, rfl⟩
      all_goals exact elems_of h fun x _ => rfl
    · rintro ⟨key, props⟩ h
      simp only [ReadableMap] at h
      simp only [IsMap, storedMap]
      exact ⟨_, _, rfl, h.1, seq_flatMap fun p hp => h4 p (h.2 p hp), rfl⟩
    · rintro ⟨name, v⟩ h
      simp only [ReadableProperty] at h
      simp only [IsProperty, storedProperty]
      exact ⟨_, h.1, h1 v h.2, rfl⟩

theorem elems_read {α : Type} {G : α → Bytes → Prop} {R : α → Prop} {c : UInt16} {xs : List α} {l : Bytes}
    (h : Elems c G xs l) (he : ∀ x l, G x l → R x) : xs.length < 2 ^ 32 ∧ ∀ x ∈ xs, R x := by
  obtain ⟨e, hl, h, -⟩ := h
  exact ⟨hl, seq_forall h he⟩

theorem elems_small {α : Type} {G : α → Bytes → Prop} {c : UInt16} {xs : List α} {l : Bytes}
    (h : Elems c G xs l) : xs.length < 2 ^ 32 := by
  obtain ⟨e, hl, -, -⟩ := h
  exact hl

theorem readable_of (d : Nat) :
    (∀ v l, IsValue true d v l → ReadableValue d v) ∧
    (∀ v l, IsVector true d v l → ReadableVector d v) ∧
    (∀ m l, IsMap true true d m l → ReadableMap d m) ∧
    (∀ p l, IsProperty true d p l → ReadableProperty d p) := by
  induction d with
  | zero => simp [IsValue, IsVector, IsMap, IsProperty]
  | succ d ih =>
    obtain ⟨h1, h2, h3, h4⟩ := ih
    refine ⟨?_, ?_, ?_, ?_⟩
    · intro v l h
      cases v <;> simp only [IsValue] at h <;> simp only [ReadableValue]
      case string s => exact h.1
      case vector v => obtain ⟨e, h, -⟩ := h; exact h2 v e h
      case propertiesMap m => obtain ⟨e, h, -⟩ := h; exact h3 m e h
    · intro v l h
      cases v <;> simp only [IsVector] at h <;> simp only [ReadableVector, FitsVector]
      case mixed vs => exact elems_read h h1
      case vector vs => exact elems_read h h2
      case propertiesMap vs => exact elems_read h h3
      case string vs => exact elems_read h fun x l h => h.1
      all_goals exact elems_small h
    · rintro ⟨key, props⟩ l h
      simp only [IsMap] at h
      obtain ⟨_, _, -, hl, h, -⟩ := h
      simp only [ReadableMap]
      exact ⟨hl, seq_forall h h4⟩
    · rintro ⟨name, v⟩ l h
      simp only [IsProperty] at h
      obtain ⟨_, hn, h, -⟩ := h
      simp only [ReadableProperty]
      exact ⟨hn, h1 _ _ h⟩

theorem as_length {α : Type} {enc : α → Bytes} {xs : List α} : ∀ x ∈ xs, ∀ l, As enc x l → l.length = (enc x).length := by
  rintro x - l rfl; rfl

theorem length_of (d : Nat) :
    (∀ v l, IsValue true d v l → l.length = (storedValue d v).length) ∧
    (∀ v l, IsVector true d v l → l.length = (storedVector d v).length) ∧
    (∀ m l, IsMap true true d m l → l.length = (storedMap d m).length) ∧
    (∀ p l, IsProperty true d p l → l.length = (storedProperty d p).length) := by
  have hb : ∀ b l, IsBool b l → l.length = (boolByte b).length := by
    rintro b l ⟨c, -, rfl⟩; rfl
  induction d with
  | zero => simp [IsValue, IsVector, IsMap, IsProperty]
  | succ d ih =>
    obtain ⟨h1, h2, h3, h4⟩ := ih
    refine ⟨?_, ?_, ?_, ?_⟩
    · intro v l h
      cases v <;> simp only [IsValue] at h <;> simp only [storedValue, valueBytes]
      case bool b => obtain ⟨e, h, rfl⟩ := h; simp only [List.length_append, hb _ _ h]
      case string s => rw [h.2]
      case vector v => obtain ⟨e, h, rfl⟩ := h; simp only [List.length_append, h2 v e h]
      case propertiesMap m => obtain ⟨e, h, rfl⟩ := h; simp only [List.length_append, h3 m e h]
      all_goals rw [h]
    · intro v l h
      cases v <;> simp only [IsVector] at h <;> simp only [storedVector, vectorBytes]
      case mixed vs => exact elems_length h fun x _ => h1 x
      case vector vs => exact elems_length h fun x _ => h2 x
      case propertiesMap vs => exact elems_length h fun x _ => h3 x
      case bool vs => exact elems_length h fun x _ => hb x
      case string vs => exact elems_length h fun x _ l h => by rw [h.2]
      all_goals exact elems_length h as_length
    · rintro ⟨key, props⟩ l h
      simp only [IsMap] at h
      obtain ⟨_, _, rfl, -, h, rfl⟩ := h
      simp only [storedMap, List.length_append, seq_stored_length h fun x _ => h4 x]
    · rintro ⟨name, v⟩ l h
      simp only [IsProperty] at h
      obtain ⟨_, -, h, rfl⟩ := h
      simp only [storedProperty, List.length_append, h1 v _ h]

/-! ## Where the data ends too early -/

/-- The end of the data is reported with less than 65535 bytes before it. -/
def EndsSoon {α : Type} (p : P α) : Prop := ∀ b s k, p b = .err (.error (.nom s k)) → s.length < 65535

namespace EndsSoon

theorem pure {α : Type} (a : α) : EndsSoon (Pure.pure a : P α) := by
  intro b s k h; cases h

theorem bind {α β : Type} {p : P α} {f : α → P β} (hp : EndsSoon p) (hf : ∀ x, EndsSoon (f x)) : EndsSoon (p >>= f) := by
  intro b s k h
  rcases P.bind_err.1 h with h | ⟨x, r', h1, h2⟩
  · exact hp _ _ _ h
  · exact hf _ _ _ _ h2

theorem map {α β : Type} {p : P α} {f : α → β} (hp : EndsSoon p) : EndsSoon (p >>= fun a => Pure.pure (f a)) :=
  bind hp fun _ => pure _

theorem fail {α : Type} {e : ParseError} : EndsSoon (P.fail (.failure e) : P α) := by
  intro b s k h; cases h

theorem panic {α : Type} {k : Panic} : EndsSoon (P.panic k : P α) := by
  intro b s k h; cases h

theorem take {n : Nat} (hn : n ≤ 65535) : EndsSoon (Ase.take n) := by
  intro b s k h
  obtain ⟨h1, h⟩ := take_err.1 h
  cases h
  omega

theorem count {α : Type} {p : P α} (hp : EndsSoon p) (n : Nat) : EndsSoon (Ase.count p n) := by
  induction n with
  | zero => exact pure []
  | succ n ih => exact bind hp fun x => bind ih fun xs => pure _

theorem leUint {n : Nat} (hn : n ≤ 65535) : EndsSoon (Ase.leUint n) := map (take hn)
theorem byte : EndsSoon Ase.byte := map (leUint (by decide))
theorem word : EndsSoon Ase.word := map (leUint (by decide))
theorem short : EndsSoon Ase.short := map (leUint (by decide))
theorem dword : EndsSoon Ase.dword := map (leUint (by decide))
theorem long : EndsSoon Ase.long := map (leUint (by decide))
theorem leI8 : EndsSoon Ase.leI8 := map (leUint (by decide))
theorem leU64 : EndsSoon Ase.leU64 := map (leUint (by decide))
theorem leI64 : EndsSoon Ase.leI64 := map (leUint (by decide))
theorem parseUuid : EndsSoon Ase.parseUuid := map (leUint (by decide))
theorem parseDwordAsUsize : EndsSoon Ase.parseDwordAsUsize := map dword
theorem fixed : EndsSoon Ase.fixed := bind word fun _ => map word
theorem parsePoint : EndsSoon Ase.parsePoint := bind long fun _ => map long
theorem parseSize : EndsSoon Ase.parseSize := bind long fun _ => map long
theorem parseRect : EndsSoon Ase.parseRect := bind parsePoint fun _ => map parseSize

theorem parseString : EndsSoon Ase.parseString := by
  intro b s k h
  rcases P.bind_err.1 h with h | ⟨n, r, h1, h⟩
  · exact word _ _ _ h
  · rcases P.bind_err.1 h with h | ⟨bs, r', h2, h⟩
    · exact take (by have := n.toNat_lt; omega) _ _ _ h
    · cases hu : utf8Decode bs <;> rw [hu] at h <;> cases h

theorem properties (d : Nat) : EndsSoon (parseValue d) ∧ EndsSoon (parseVector d) ∧ EndsSoon (parsePropertiesMap d) ∧
    EndsSoon (parseProperty d) := by
  induction d with
  | zero => refine ⟨?_, ?_, ?_, ?_⟩ <;> first | rw [parseValue] | rw [parseVector] | rw [parsePropertiesMap] | rw [parseProperty]
            all_goals exact panic
  | succ d ih =>
    obtain ⟨h1, h2, h3, h4⟩ := ih
    refine ⟨?_, ?_, ?_, ?_⟩
    · rw [parseValue]
      refine bind word fun code => ?_
      cases hc : PropertyType.fromRepr code.toNat with
      | none => exact fail
      | some t =>
        cases t with
        | vector => exact map h2
        | propertiesMap => exact map h3
        | string => exact map parseString
        | point => exact map parsePoint
        | size => exact map parseSize
        | rect => exact map parseRect
        | fixed => exact map fixed
        | uuid => exact map parseUuid
        | _ => first | exact map byte | exact map leI8 | exact map short | exact map word | exact map long | exact map dword
                     | exact map leI64 | exact map leU64
    · rw [parseVector]
      refine bind parseDwordAsUsize fun n => bind word fun code => ?_
      by_cases h0 : code = 0
      · rw [if_pos h0]; exact map (count h1 _)
      · rw [if_neg h0]
        cases hc : PropertyType.fromRepr code.toNat with
        | none => exact fail
        | some t =>
          cases t with
          | vector => exact map (count h2 _)
          | propertiesMap => exact map (count h3 _)
          | string => exact map (count parseString _)
          | point => exact map (count parsePoint _)
          | size => exact map (count parseSize _)
          | rect => exact map (count parseRect _)
          | fixed => exact map (count fixed _)
          | uuid => exact map (count parseUuid _)
          | bool => exact map (count (map byte) _)
          | _ => first | exact map (count byte _) | exact map (count leI8 _) | exact map (count short _)
                       | exact map (count word _) | exact map (count long _) | exact map (count dword _)
                       | exact map (count leI64 _) | exact map (count leU64 _)
    · rw [parsePropertiesMap]
      exact bind dword fun _ => bind parseDwordAsUsize fun _ => map (count h4 _)
    · rw [parseProperty]
      exact bind parseString fun _ => map h1

end EndsSoon

end Ase
