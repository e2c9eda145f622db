import Verif.Lemmas.UserDataChunk

/-!
# C16, C17: user data

The layouts are in `Verif/Spec/UserData.lean`.  `keyed = false` is the format document, `keyed = true` is what the
crate reads; they differ for properties maps nested in values only.
-/

namespace Ase

open Spec

/-- **C16 (partial), values.** With enough stack for the input (two input bytes are needed for each nested call),
`parse_value`, `parse_vector` and `parse_properties_map` accept exactly the encodings of property values, of any
nesting depth, and leave what follows.  *Missing:* maps nested in values are read with a key that the format document
does not have, see `C16_nested_map_misread`; without nested maps the layouts agree (`C16_layouts_agree`). -/
theorem C16_values_partial (d : Nat) (b : Bytes) (hd : b.length < 2 * d) :
    (∀ (r : Bytes) (v : Value), parseValue d b = .ok (r, v) ↔ ∃ l d', IsValue true d' v l ∧ b = l ++ r) ∧
    (∀ (r : Bytes) (v : PVector), parseVector d b = .ok (r, v) ↔ ∃ l d', IsVector true d' v l ∧ b = l ++ r) ∧
    (∀ (r : Bytes) (m : PropertiesMap), parsePropertiesMap d b = .ok (r, m) ↔
      ∃ l d', IsMap true true d' m l ∧ b = l ++ r) ∧
    (∀ k, parseValue d b ≠ .panic k ∧ parseVector d b ≠ .panic k ∧ parsePropertiesMap d b ≠ .panic k) := by
  have hp := parses_all d
  refine ⟨fun r v => ?_, fun r v => ?_, fun r v => ?_, fun k => ⟨fun h => ?_, fun h => ?_, fun h => ?_⟩⟩
  · rw [hp.1]
    constructor
    · rintro ⟨l, h, e⟩; exact ⟨l, d, h, e⟩
    · rintro ⟨l, d', h, rfl⟩
      exact ⟨l, (depth_change true true d' d).1 _ _ (by simp at hd; omega) h, rfl⟩
  · rw [hp.2.1]
    constructor
    · rintro ⟨l, h, e⟩; exact ⟨l, d, h, e⟩
    · rintro ⟨l, d', h, rfl⟩
      exact ⟨l, (depth_change true true d' d).2.1 _ _ (by simp at hd; omega) h, rfl⟩
  · rw [hp.2.2.1]
    constructor
    · rintro ⟨l, h, e⟩; exact ⟨l, d, h, e⟩
    · rintro ⟨l, d', h, rfl⟩
      exact ⟨l, (depth_change true true d' d).2.2.1 _ _ (by simp at hd; omega) h, rfl⟩
  · have := ((deep_all d).1 _ _ h).2; omega
  · have := ((deep_all d).2.1 _ _ h).2; omega
  · have := ((deep_all d).2.2.1 _ _ h).2; omega

/-- A mixed vector of an int16 and a vector of two strings. -/
example : (match parseValue 100 ([0x11, 0] ++ [2, 0, 0, 0, 0, 0] ++ [4, 0, 254, 255] ++ [0x11, 0] ++ [2, 0, 0, 0, 0xD, 0]
      ++ [1, 0, 97, 1, 0, 98] ++ [7]) with
    | .ok (r, .vector (.mixed [.int16 i, .vector (.string ss)])) => r == [7] && i == -2 && ss == ["a", "b"]
    | _ => false) = true := by decide +kernel

/-- For values without nested properties maps the documented layout and the layout the crate reads are the same. -/
theorem C16_layouts_agree (d : Nat) (l : Bytes) :
    (∀ v, mapFree v = true → (IsValue true d v l ↔ IsValue false d v l)) ∧
    (∀ v, vectorMapFree v = true → (IsVector true d v l ↔ IsVector false d v l)) ∧
    (∀ m, propsMapFree m = true → (IsMap true true d m l ↔ IsMap false true d m l)) :=
  ⟨fun v h => ⟨(keyed_irrelevant true false d).1 v l h, (keyed_irrelevant false true d).1 v l h⟩,
   fun v h => ⟨(keyed_irrelevant true false d).2 v l h, (keyed_irrelevant false true d).2 v l h⟩,
   fun m h => ⟨keyed_irrelevant_map true false true d m l h, keyed_irrelevant_map false true true d m l h⟩⟩

/-- **C16 (partial), chunk.** With enough stack for the input, `parse_user_data_chunk` returns text, colour and (well
formed) property maps exactly when the bytes are a user data chunk with these contents; the parts are present exactly
when bits 0, 1, 2 of the flags are set.  (A Rust slice is shorter than `2^63` bytes.)
*Missing:* as in `C16_values_partial`; what happens to malformed maps is `C17_malformed_maps`. -/
theorem C16_chunk_partial (plat : Plat) (b : Bytes) (hb : b.length < 2 ^ 63) (hd : b.length < 2 * plat.stack)
    (r : Bytes) (text : Option String) (color : Option PColor) (props : Option (Bytes × List PropertiesMap)) :
    parseUserDataChunk plat b = .ok (r, ⟨text, color, props.map .ok⟩) ↔
      ∃ l, IsUserData true text color props l ∧ b = l ++ r := by
  rw [parseUserDataChunk_ok hb]
  have key : ∀ {q : Prop} {p : Bytes}, p.length ≤ b.length →
      (Opt q (PropsOutcome plat) (props.map .ok) p ↔ Opt q (IsProperties true) props p) := by
    intro q p hp
    cases props with
    | none => rfl
    | some v =>
      show q ∧ PropsOutcome plat (.ok v) p ↔ q ∧ IsProperties true v p
      rw [propsOutcome_ok (by omega)]
  constructor
  · rintro ⟨flags, t, k, p, ht, hk, hp, e⟩
    exact ⟨_, ⟨flags, t, k, p, ht, hk, (key (by rw [e]; simp; omega)).1 hp, rfl⟩, e⟩
  · rintro ⟨_, ⟨flags, t, k, p, ht, hk, hp, rfl⟩, e⟩
    exact ⟨flags, t, k, p, ht, hk, (key (by rw [e]; simp; omega)).2 hp, e⟩

/-- Text, colour and one map with one property. -/
example : (match parseUserDataChunk ⟨true, 1000⟩ ([7, 0, 0, 0] ++ [2, 0, 72, 105] ++ [1, 2, 3, 4] ++ [22, 0, 0, 0, 1, 0, 0, 0]
      ++ [9, 0, 0, 0, 1, 0, 0, 0] ++ [1, 0, 112] ++ [3, 0, 42] ++ [5]) with
    | .ok (r, ⟨some t, some c, some (.ok ([], [.mk 9 [.mk n (.uint8 v)]]))⟩) =>
        r == [5] && t == "Hi" && c == ⟨1, 2, 3, 4⟩ && n == "p" && v == 42
    | _ => false) = true := by decide +kernel

/-- The full statement of C16 is false: the documented encoding of a map with one property whose value is a map with
one boolean property is not decoded to that map (the crate takes the number of properties for a key). -/
theorem C16_nested_map_misread : ∃ (l : Bytes) (m : PropertiesMap), IsMap false true 10 m l ∧
    ∀ r m', parsePropertiesMap 1000 l ≠ .ok (r, m') := by
  refine ⟨le32 0 ++ leNat32 1 ++ ((str "a" ++ (le16 0x12 ++ ([] ++ leNat32 1 ++ ((str "b" ++ (le16 1 ++ [1])) ++ [])))) ++ []),
    .mk 0 [.mk "a" (.propertiesMap (.mk 0 [.mk "b" (.bool true)]))], ?_, ?_⟩
  · simp only [IsMap]
    refine ⟨_, _, rfl, by decide, ?_, rfl⟩
    refine .cons ?_ .nil
    simp only [IsProperty]
    refine ⟨_, by unfold FitsStr; decide +kernel, ?_, rfl⟩
    simp only [IsValue]
    refine ⟨_, ?_, rfl⟩
    simp only [IsMap]
    refine ⟨[], _, by simp, by decide, ?_, rfl⟩
    refine .cons ?_ .nil
    simp only [IsProperty]
    refine ⟨_, by unfold FitsStr; decide +kernel, ?_, rfl⟩
    simp only [IsValue]
    exact ⟨_, ⟨1, rfl, rfl⟩, rfl⟩
  · intro r m' h
    have : (match parsePropertiesMap 1000 (le32 0 ++ leNat32 1 ++ ((str "a" ++ (le16 0x12 ++ ([] ++ leNat32 1
        ++ ((str "b" ++ (le16 1 ++ [1])) ++ [])))) ++ [])) with | .ok _ => false | _ => true) = true := by decide +kernel
    rw [h] at this
    cases this

/-- **C17.** A user data chunk with the properties bit set whose payload (inside the declared size) is *not* a sequence
of `n` well formed property maps is still accepted: text and colour are delivered and the malformation is reported as an
error value.  The only other behaviour is a stack overflow, which needs a payload of at least twice the stack's
capacity.  Well formed means: in the layout the crate reads, see C16. -/
theorem C17_malformed_maps (plat : Plat) (flags : UInt32) (text : Option String) (color : Option PColor)
    (t k : Bytes) (n : Nat) (payload r : Bytes)
    (ht : Opt (bit32 flags 0) IsStr text t) (hk : Opt (bit32 flags 1) (As Spec.color) color k) (hf : bit32 flags 2)
    (hn : n < 2 ^ 32) (hp : 8 + payload.length < 2 ^ 32)
    (hlen : (le32 flags ++ t ++ k ++ (leNat32 (8 + payload.length) ++ leNat32 n ++ payload) ++ r).length < 2 ^ 63)
    (hd : payload.length < 2 * plat.stack)
    (hbad : ¬ ∃ (ms : List PropertiesMap) (e rest : Bytes) (d : Nat),
      ms.length = n ∧ Seq (IsMap true true d) ms e ∧ payload = e ++ rest) :
    ∃ err, parseUserDataChunk plat
        (le32 flags ++ t ++ k ++ (leNat32 (8 + payload.length) ++ leNat32 n ++ payload) ++ r)
      = .ok (r, ⟨text, color, some (.error err)⟩) := by
  cases hc : count (parsePropertiesMap plat.stack) n payload with
  | ok v =>
    obtain ⟨rest, ms⟩ := v
    obtain ⟨hm, e, he, rfl⟩ := ((parses_all plat.stack).2.2.1.count _ _ _ _).1 hc
    exact absurd ⟨ms, e, rest, plat.stack, hm, he, rfl⟩ hbad
  | err e =>
    refine ⟨e, (parseUserDataChunk_ok hlen).2 ⟨flags, t, k, _, ht, hk, ⟨hf, n, payload, hp, hn, rfl, hc⟩, rfl⟩⟩
  | panic p =>
    have := ((deep_all plat.stack).2.2.1.count (parses_all plat.stack).2.2.1.shrinks n _ _ hc).2
    omega

/-- Text "Hi" and one map with a property of the invalid type 0x77: the text is delivered with the error. -/
example : (match parseUserDataChunk ⟨true, 1000⟩ ([5, 0, 0, 0] ++ [2, 0, 72, 105] ++ [22, 0, 0, 0, 1, 0, 0, 0]
      ++ [9, 0, 0, 0, 1, 0, 0, 0] ++ [1, 0, 112] ++ [0x77, 0, 42] ++ [5]) with
    | .ok (r, ⟨some t, none, some (.error (.failure (.invalidPropertyType c)))⟩) => r == [5] && t == "Hi" && c == 0x77
    | _ => false) = true := by decide +kernel

end Ase
