import Verif.Lemmas.Chunks
import Verif.Spec.UserData

/-! # The property value parsers accept exactly the property value layout -/

namespace Ase

open Spec

attribute [local irreducible] List.append

/-- The type code of a property type. -/
def PropertyType.code : PropertyType → UInt16
  | .bool => 0x1
  | .int8 => 0x2
  | .uint8 => 0x3
  | .int16 => 0x4
  | .uint16 => 0x5
  | .int32 => 0x6
  | .uint32 => 0x7
  | .int64 => 0x8
  | .uint64 => 0x9
  | .fixed => 0xa
  | .float => 0xb
  | .double => 0xc
  | .string => 0xd
  | .point => 0xe
  | .size => 0xf
  | .rect => 0x10
  | .vector => 0x11
  | .propertiesMap => 0x12
  | .uuid => 0x13

theorem PropertyType.fromRepr_code (t : PropertyType) : PropertyType.fromRepr t.code.toNat = some t := by
  cases t <;> rfl

theorem PropertyType.eq_code {w : UInt16} {t : PropertyType} (h : PropertyType.fromRepr w.toNat = some t) :
    w = t.code := by
  rw [← UInt16.toNat_inj]
  revert h
  generalize w.toNat = n
  unfold PropertyType.fromRepr
  split <;> intro h <;> cases h <;> rfl

theorem parses_bool : Parses (do pure ((← byte) != 0) : P Bool) IsBool := by
  intro b r x
  simp only [P.bind_ok, byte_ok, P.pure_ok]
  constructor
  · rintro ⟨c, _, rfl, rfl, rfl⟩; exact ⟨_, ⟨c, rfl, rfl⟩, rfl⟩
  · rintro ⟨_, ⟨c, rfl, rfl⟩, rfl⟩; exact ⟨c, _, rfl, rfl, rfl⟩

/-- `count` behind the number of elements and the element type. -/
theorem elems_intro {α : Type} {p : P α} {G : α → Bytes → Prop} (h : Parses p G) {n : Nat} (hn : n < 2 ^ 32)
    {code : UInt16} {b r : Bytes} {xs : List α} (hc : count p n b = .ok (r, xs)) :
    ∃ l, Elems code G xs l ∧ leNat32 n ++ (le16 code ++ b) = l ++ r := by
  obtain ⟨rfl, e, he, rfl⟩ := (h.count _ _ _ _).1 hc
  exact ⟨_, ⟨e, hn, he, rfl⟩, by simp⟩

theorem elems_elim {α : Type} {p : P α} {G : α → Bytes → Prop} (h : Parses p G) {code : UInt16}
    {l r : Bytes} {xs : List α} (hc : Elems code G xs l) :
    ∃ b, xs.length < 2 ^ 32 ∧ l ++ r = leNat32 xs.length ++ (le16 code ++ b) ∧ count p xs.length b = .ok (r, xs) := by
  obtain ⟨e, hn, he, rfl⟩ := hc
  exact ⟨e ++ r, hn, by simp, (h.count _ _ _ _).2 ⟨rfl, e, he, rfl⟩⟩

theorem parses_value_step {d : Nat} (hv : Parses (parseVector d) (IsVector true d))
    (hm : Parses (parsePropertiesMap d) (IsMap true true d)) : Parses (parseValue (d + 1)) (IsValue true (d + 1)) := by
  intro b r v
  constructor
  · intro H0
    rw [parseValue] at H0
    obtain ⟨code, b1, e, H⟩ := P.bind_ok.1 H0; clear H0
    obtain rfl := word_ok.1 e; clear e
    cases hc : PropertyType.fromRepr code.toNat with
    | none => rw [hc] at H; cases H
    | some t =>
      rw [hc] at H
      obtain rfl := PropertyType.eq_code hc
      clear hc
      cases t
      case bool =>
        obtain ⟨x, _, e, H'⟩ := P.bind_ok.1 H
        obtain rfl := byte_ok.1 e
        obtain ⟨rfl, rfl⟩ := P.pure_ok.1 H'
        exact ⟨_, ⟨_, ⟨x, rfl, rfl⟩, rfl⟩, by rw [List.append_assoc]; rfl⟩
      case int8 =>
        obtain ⟨x, _, e, H'⟩ := P.bind_ok.1 H
        obtain rfl := leI8_ok.1 e
        obtain ⟨rfl, rfl⟩ := P.pure_ok.1 H'
        exact ⟨_, rfl, by rw [List.append_assoc]; rfl⟩
      case uint8 =>
        obtain ⟨x, _, e, H'⟩ := P.bind_ok.1 H
        obtain rfl := byte_ok.1 e
        obtain ⟨rfl, rfl⟩ := P.pure_ok.1 H'
        exact ⟨_, rfl, by rw [List.append_assoc]; rfl⟩
      case int16 =>
        obtain ⟨x, _, e, H'⟩ := P.bind_ok.1 H
        obtain rfl := short_ok.1 e
        obtain ⟨rfl, rfl⟩ := P.pure_ok.1 H'
        exact ⟨_, rfl, by rw [List.append_assoc]; rfl⟩
      case uint16 =>
        obtain ⟨x, _, e, H'⟩ := P.bind_ok.1 H
        obtain rfl := word_ok.1 e
        obtain ⟨rfl, rfl⟩ := P.pure_ok.1 H'
        exact ⟨_, rfl, by rw [List.append_assoc]; rfl⟩
      case int32 =>
        obtain ⟨x, _, e, H'⟩ := P.bind_ok.1 H
        obtain rfl := long_ok.1 e
        obtain ⟨rfl, rfl⟩ := P.pure_ok.1 H'
        exact ⟨_, rfl, by rw [List.append_assoc]; rfl⟩
      case uint32 =>
        obtain ⟨x, _, e, H'⟩ := P.bind_ok.1 H
        obtain rfl := dword_ok.1 e
        obtain ⟨rfl, rfl⟩ := P.pure_ok.1 H'
        exact ⟨_, rfl, by rw [List.append_assoc]; rfl⟩
      case int64 =>
        obtain ⟨x, _, e, H'⟩ := P.bind_ok.1 H
        obtain rfl := leI64_ok.1 e
        obtain ⟨rfl, rfl⟩ := P.pure_ok.1 H'
        exact ⟨_, rfl, by rw [List.append_assoc]; rfl⟩
      case uint64 =>
        obtain ⟨x, _, e, H'⟩ := P.bind_ok.1 H
        obtain rfl := leU64_ok.1 e
        obtain ⟨rfl, rfl⟩ := P.pure_ok.1 H'
        exact ⟨_, rfl, by rw [List.append_assoc]; rfl⟩
      case fixed =>
        obtain ⟨x, _, e, H'⟩ := P.bind_ok.1 H
        obtain rfl := fixed_ok.1 e
        obtain ⟨rfl, rfl⟩ := P.pure_ok.1 H'
        exact ⟨_, rfl, by rw [List.append_assoc]; rfl⟩
      case float =>
        obtain ⟨x, _, e, H'⟩ := P.bind_ok.1 H
        obtain rfl := dword_ok.1 e
        obtain ⟨rfl, rfl⟩ := P.pure_ok.1 H'
        exact ⟨_, rfl, by rw [List.append_assoc]; rfl⟩
      case double =>
        obtain ⟨x, _, e, H'⟩ := P.bind_ok.1 H
        obtain rfl := leU64_ok.1 e
        obtain ⟨rfl, rfl⟩ := P.pure_ok.1 H'
        exact ⟨_, rfl, by rw [List.append_assoc]; rfl⟩
      case string =>
        obtain ⟨x, _, e, H'⟩ := P.bind_ok.1 H
        obtain ⟨hs, rfl⟩ := parseString_ok.1 e
        obtain ⟨rfl, rfl⟩ := P.pure_ok.1 H'
        exact ⟨_, ⟨hs, rfl⟩, by rw [List.append_assoc]; rfl⟩
      case point =>
        obtain ⟨x, _, e, H'⟩ := P.bind_ok.1 H
        obtain rfl := parsePoint_ok.1 e
        obtain ⟨rfl, rfl⟩ := P.pure_ok.1 H'
        exact ⟨_, rfl, by rw [List.append_assoc]; rfl⟩
      case size =>
        obtain ⟨x, _, e, H'⟩ := P.bind_ok.1 H
        obtain rfl := parseSize_ok.1 e
        obtain ⟨rfl, rfl⟩ := P.pure_ok.1 H'
        exact ⟨_, rfl, by rw [List.append_assoc]; rfl⟩
      case rect =>
        obtain ⟨x, _, e, H'⟩ := P.bind_ok.1 H
        obtain rfl := parseRect_ok.1 e
        obtain ⟨rfl, rfl⟩ := P.pure_ok.1 H'
        exact ⟨_, rfl, by rw [List.append_assoc]; rfl⟩
      case vector =>
        obtain ⟨x, _, e, H'⟩ := P.bind_ok.1 H
        obtain ⟨l, hl, rfl⟩ := (hv _ _ _).1 e
        obtain ⟨rfl, rfl⟩ := P.pure_ok.1 H'
        exact ⟨_, ⟨l, hl, rfl⟩, by rw [List.append_assoc]; rfl⟩
      case propertiesMap =>
        obtain ⟨x, _, e, H'⟩ := P.bind_ok.1 H
        obtain ⟨l, hl, rfl⟩ := (hm _ _ _).1 e
        obtain ⟨rfl, rfl⟩ := P.pure_ok.1 H'
        exact ⟨_, ⟨l, hl, rfl⟩, by rw [List.append_assoc]; rfl⟩
      case uuid =>
        obtain ⟨x, _, e, H'⟩ := P.bind_ok.1 H
        obtain rfl := parseUuid_ok.1 e
        obtain ⟨rfl, rfl⟩ := P.pure_ok.1 H'
        exact ⟨_, rfl, by rw [List.append_assoc]; rfl⟩
  · rintro ⟨l, hl, rfl⟩
    rw [parseValue]
    cases v
    case bool x =>
      obtain ⟨_, ⟨c, rfl, rfl⟩, rfl⟩ := hl
      refine P.bind_ok.2 ⟨PropertyType.code .bool, _, word_ok.2 (List.append_assoc ..), ?_⟩
      rw [PropertyType.fromRepr_code]
      exact P.bind_ok.2 ⟨c, r, byte_ok.2 rfl, P.pure_apply⟩
    case int8 x =>
      obtain rfl : l = _ := hl
      refine P.bind_ok.2 ⟨PropertyType.code .int8, _, word_ok.2 (List.append_assoc ..), ?_⟩
      rw [PropertyType.fromRepr_code]
      exact P.bind_ok.2 ⟨x, r, leI8_ok.2 rfl, P.pure_apply⟩
    case uint8 x =>
      obtain rfl : l = _ := hl
      refine P.bind_ok.2 ⟨PropertyType.code .uint8, _, word_ok.2 (List.append_assoc ..), ?_⟩
      rw [PropertyType.fromRepr_code]
      exact P.bind_ok.2 ⟨x, r, byte_ok.2 rfl, P.pure_apply⟩
    case int16 x =>
      obtain rfl : l = _ := hl
      refine P.bind_ok.2 ⟨PropertyType.code .int16, _, word_ok.2 (List.append_assoc ..), ?_⟩
      rw [PropertyType.fromRepr_code]
      exact P.bind_ok.2 ⟨x, r, short_ok.2 rfl, P.pure_apply⟩
    case uint16 x =>
      obtain rfl : l = _ := hl
      refine P.bind_ok.2 ⟨PropertyType.code .uint16, _, word_ok.2 (List.append_assoc ..), ?_⟩
      rw [PropertyType.fromRepr_code]
      exact P.bind_ok.2 ⟨x, r, word_ok.2 rfl, P.pure_apply⟩
    case int32 x =>
      obtain rfl : l = _ := hl
      refine P.bind_ok.2 ⟨PropertyType.code .int32, _, word_ok.2 (List.append_assoc ..), ?_⟩
      rw [PropertyType.fromRepr_code]
      exact P.bind_ok.2 ⟨x, r, long_ok.2 rfl, P.pure_apply⟩
    case uint32 x =>
      obtain rfl : l = _ := hl
      refine P.bind_ok.2 ⟨PropertyType.code .uint32, _, word_ok.2 (List.append_assoc ..), ?_⟩
      rw [PropertyType.fromRepr_code]
      exact P.bind_ok.2 ⟨x, r, dword_ok.2 rfl, P.pure_apply⟩
    case int64 x =>
      obtain rfl : l = _ := hl
      refine P.bind_ok.2 ⟨PropertyType.code .int64, _, word_ok.2 (List.append_assoc ..), ?_⟩
      rw [PropertyType.fromRepr_code]
      exact P.bind_ok.2 ⟨x, r, leI64_ok.2 rfl, P.pure_apply⟩
    case uint64 x =>
      obtain rfl : l = _ := hl
      refine P.bind_ok.2 ⟨PropertyType.code .uint64, _, word_ok.2 (List.append_assoc ..), ?_⟩
      rw [PropertyType.fromRepr_code]
      exact P.bind_ok.2 ⟨x, r, leU64_ok.2 rfl, P.pure_apply⟩
    case fixed x =>
      obtain rfl : l = _ := hl
      refine P.bind_ok.2 ⟨PropertyType.code .fixed, _, word_ok.2 (List.append_assoc ..), ?_⟩
      rw [PropertyType.fromRepr_code]
      exact P.bind_ok.2 ⟨x, r, fixed_ok.2 rfl, P.pure_apply⟩
    case float x =>
      obtain rfl : l = _ := hl
      refine P.bind_ok.2 ⟨PropertyType.code .float, _, word_ok.2 (List.append_assoc ..), ?_⟩
      rw [PropertyType.fromRepr_code]
      exact P.bind_ok.2 ⟨x, r, dword_ok.2 rfl, P.pure_apply⟩
    case double x =>
      obtain rfl : l = _ := hl
      refine P.bind_ok.2 ⟨PropertyType.code .double, _, word_ok.2 (List.append_assoc ..), ?_⟩
      rw [PropertyType.fromRepr_code]
      exact P.bind_ok.2 ⟨x, r, leU64_ok.2 rfl, P.pure_apply⟩
    case string x =>
      obtain ⟨hs, rfl⟩ := hl
      refine P.bind_ok.2 ⟨PropertyType.code .string, _, word_ok.2 (List.append_assoc ..), ?_⟩
      rw [PropertyType.fromRepr_code]
      exact P.bind_ok.2 ⟨x, r, parseString_ok.2 ⟨hs, rfl⟩, P.pure_apply⟩
    case point x =>
      obtain rfl : l = _ := hl
      refine P.bind_ok.2 ⟨PropertyType.code .point, _, word_ok.2 (List.append_assoc ..), ?_⟩
      rw [PropertyType.fromRepr_code]
      exact P.bind_ok.2 ⟨x, r, parsePoint_ok.2 rfl, P.pure_apply⟩
    case size x =>
      obtain rfl : l = _ := hl
      refine P.bind_ok.2 ⟨PropertyType.code .size, _, word_ok.2 (List.append_assoc ..), ?_⟩
      rw [PropertyType.fromRepr_code]
      exact P.bind_ok.2 ⟨x, r, parseSize_ok.2 rfl, P.pure_apply⟩
    case rect x =>
      obtain rfl : l = _ := hl
      refine P.bind_ok.2 ⟨PropertyType.code .rect, _, word_ok.2 (List.append_assoc ..), ?_⟩
      rw [PropertyType.fromRepr_code]
      exact P.bind_ok.2 ⟨x, r, parseRect_ok.2 rfl, P.pure_apply⟩
    case vector x =>
      obtain ⟨e, he, rfl⟩ := hl
      refine P.bind_ok.2 ⟨PropertyType.code .vector, _, word_ok.2 (List.append_assoc ..), ?_⟩
      rw [PropertyType.fromRepr_code]
      exact P.bind_ok.2 ⟨x, r, (hv _ _ _).2 ⟨e, he, rfl⟩, P.pure_apply⟩
    case propertiesMap x =>
      obtain ⟨e, he, rfl⟩ := hl
      refine P.bind_ok.2 ⟨PropertyType.code .propertiesMap, _, word_ok.2 (List.append_assoc ..), ?_⟩
      rw [PropertyType.fromRepr_code]
      exact P.bind_ok.2 ⟨x, r, (hm _ _ _).2 ⟨e, he, rfl⟩, P.pure_apply⟩
    case uuid x =>
      obtain rfl : l = _ := hl
      refine P.bind_ok.2 ⟨PropertyType.code .uuid, _, word_ok.2 (List.append_assoc ..), ?_⟩
      rw [PropertyType.fromRepr_code]
      exact P.bind_ok.2 ⟨x, r, parseUuid_ok.2 rfl, P.pure_apply⟩
    case mixedVector => cases hl

theorem parses_vector_step {d : Nat} (hx : Parses (parseValue d) (IsValue true d))
    (hv : Parses (parseVector d) (IsVector true d)) (hm : Parses (parsePropertiesMap d) (IsMap true true d)) :
    Parses (parseVector (d + 1)) (IsVector true (d + 1)) := by
  intro b r v
  constructor
  · intro H0
    rw [parseVector] at H0
    obtain ⟨n, b0, e, H1⟩ := P.bind_ok.1 H0; clear H0
    obtain ⟨hn, rfl⟩ := parseDwordAsUsize_ok.1 e; clear e
    obtain ⟨code, b1, e, H⟩ := P.bind_ok.1 H1; clear H1
    obtain rfl := word_ok.1 e; clear e
    split at H
    · next h0 =>
      subst h0
      obtain ⟨x, _, e, H'⟩ := P.bind_ok.1 H
      obtain ⟨rfl, rfl⟩ := P.pure_ok.1 H'
      exact elems_intro hx hn e
    cases hc : PropertyType.fromRepr code.toNat with
    | none => rw [hc] at H; cases H
    | some t =>
      rw [hc] at H
      obtain rfl := PropertyType.eq_code hc
      clear hc
      cases t
      case bool =>
        obtain ⟨x, _, e, H'⟩ := P.bind_ok.1 H
        obtain ⟨rfl, rfl⟩ := P.pure_ok.1 H'
        exact elems_intro parses_bool hn e
      case int8 =>
        obtain ⟨x, _, e, H'⟩ := P.bind_ok.1 H
        obtain ⟨rfl, rfl⟩ := P.pure_ok.1 H'
        exact elems_intro (Parses.of_eq @leI8_ok) hn e
      case uint8 =>
        obtain ⟨x, _, e, H'⟩ := P.bind_ok.1 H
        obtain ⟨rfl, rfl⟩ := P.pure_ok.1 H'
        exact elems_intro (Parses.of_eq @byte_ok) hn e
      case int16 =>
        obtain ⟨x, _, e, H'⟩ := P.bind_ok.1 H
        obtain ⟨rfl, rfl⟩ := P.pure_ok.1 H'
        exact elems_intro (Parses.of_eq @short_ok) hn e
      case uint16 =>
        obtain ⟨x, _, e, H'⟩ := P.bind_ok.1 H
        obtain ⟨rfl, rfl⟩ := P.pure_ok.1 H'
        exact elems_intro (Parses.of_eq @word_ok) hn e
      case int32 =>
        obtain ⟨x, _, e, H'⟩ := P.bind_ok.1 H
        obtain ⟨rfl, rfl⟩ := P.pure_ok.1 H'
        exact elems_intro (Parses.of_eq @long_ok) hn e
      case uint32 =>
        obtain ⟨x, _, e, H'⟩ := P.bind_ok.1 H
        obtain ⟨rfl, rfl⟩ := P.pure_ok.1 H'
        exact elems_intro (Parses.of_eq @dword_ok) hn e
      case int64 =>
        obtain ⟨x, _, e, H'⟩ := P.bind_ok.1 H
        obtain ⟨rfl, rfl⟩ := P.pure_ok.1 H'
        exact elems_intro (Parses.of_eq @leI64_ok) hn e
      case uint64 =>
        obtain ⟨x, _, e, H'⟩ := P.bind_ok.1 H
        obtain ⟨rfl, rfl⟩ := P.pure_ok.1 H'
        exact elems_intro (Parses.of_eq @leU64_ok) hn e
      case fixed =>
        obtain ⟨x, _, e, H'⟩ := P.bind_ok.1 H
        obtain ⟨rfl, rfl⟩ := P.pure_ok.1 H'
        exact elems_intro (Parses.of_eq @fixed_ok) hn e
      case float =>
        obtain ⟨x, _, e, H'⟩ := P.bind_ok.1 H
        obtain ⟨rfl, rfl⟩ := P.pure_ok.1 H'
        exact elems_intro (Parses.of_eq @dword_ok) hn e
      case double =>
        obtain ⟨x, _, e, H'⟩ := P.bind_ok.1 H
        obtain ⟨rfl, rfl⟩ := P.pure_ok.1 H'
        exact elems_intro (Parses.of_eq @leU64_ok) hn e
      case string =>
        obtain ⟨x, _, e, H'⟩ := P.bind_ok.1 H
        obtain ⟨rfl, rfl⟩ := P.pure_ok.1 H'
        exact elems_intro parses_string hn e
      case point =>
        obtain ⟨x, _, e, H'⟩ := P.bind_ok.1 H
        obtain ⟨rfl, rfl⟩ := P.pure_ok.1 H'
        exact elems_intro (Parses.of_eq @parsePoint_ok) hn e
      case size =>
        obtain ⟨x, _, e, H'⟩ := P.bind_ok.1 H
        obtain ⟨rfl, rfl⟩ := P.pure_ok.1 H'
        exact elems_intro (Parses.of_eq @parseSize_ok) hn e
      case rect =>
        obtain ⟨x, _, e, H'⟩ := P.bind_ok.1 H
        obtain ⟨rfl, rfl⟩ := P.pure_ok.1 H'
        exact elems_intro (Parses.of_eq @parseRect_ok) hn e
      case vector =>
        obtain ⟨x, _, e, H'⟩ := P.bind_ok.1 H
        obtain ⟨rfl, rfl⟩ := P.pure_ok.1 H'
        exact elems_intro hv hn e
      case propertiesMap =>
        obtain ⟨x, _, e, H'⟩ := P.bind_ok.1 H
        obtain ⟨rfl, rfl⟩ := P.pure_ok.1 H'
        exact elems_intro hm hn e
      case uuid =>
        obtain ⟨x, _, e, H'⟩ := P.bind_ok.1 H
        obtain ⟨rfl, rfl⟩ := P.pure_ok.1 H'
        exact elems_intro (Parses.of_eq @parseUuid_ok) hn e
  · rintro ⟨l, hl, rfl⟩
    rw [parseVector]
    cases v
    case mixed x =>
      obtain ⟨b, hn, e, hcount⟩ := elems_elim hx hl
      rw [e]
      refine P.bind_ok.2 ⟨_, _, parseDwordAsUsize_ok.2 ⟨hn, rfl⟩, P.bind_ok.2 ⟨0, _, word_ok.2 rfl, ?_⟩⟩
      rw [if_pos rfl]
      exact P.bind_ok.2 ⟨x, r, hcount, P.pure_apply⟩
    case bool x =>
      obtain ⟨b, hn, e, hcount⟩ := elems_elim (r := r) parses_bool hl
      rw [e]
      refine P.bind_ok.2 ⟨_, _, parseDwordAsUsize_ok.2 ⟨hn, rfl⟩,
        P.bind_ok.2 ⟨PropertyType.code .bool, _, word_ok.2 rfl, ?_⟩⟩
      rw [if_neg (by decide), PropertyType.fromRepr_code]
      exact P.bind_ok.2 ⟨x, r, hcount, P.pure_apply⟩
    case int8 x =>
      obtain ⟨b, hn, e, hcount⟩ := elems_elim (r := r) (Parses.of_eq @leI8_ok) hl
      rw [e]
      refine P.bind_ok.2 ⟨_, _, parseDwordAsUsize_ok.2 ⟨hn, rfl⟩,
        P.bind_ok.2 ⟨PropertyType.code .int8, _, word_ok.2 rfl, ?_⟩⟩
      rw [if_neg (by decide), PropertyType.fromRepr_code]
      exact P.bind_ok.2 ⟨x, r, hcount, P.pure_apply⟩
    case uint8 x =>
      obtain ⟨b, hn, e, hcount⟩ := elems_elim (r := r) (Parses.of_eq @byte_ok) hl
      rw [e]
      refine P.bind_ok.2 ⟨_, _, parseDwordAsUsize_ok.2 ⟨hn, rfl⟩,
        P.bind_ok.2 ⟨PropertyType.code .uint8, _, word_ok.2 rfl, ?_⟩⟩
      rw [if_neg (by decide), PropertyType.fromRepr_code]
      exact P.bind_ok.2 ⟨x, r, hcount, P.pure_apply⟩
    case int16 x =>
      obtain ⟨b, hn, e, hcount⟩ := elems_elim (r := r) (Parses.of_eq @short_ok) hl
      rw [e]
      refine P.bind_ok.2 ⟨_, _, parseDwordAsUsize_ok.2 ⟨hn, rfl⟩,
        P.bind_ok.2 ⟨PropertyType.code .int16, _, word_ok.2 rfl, ?_⟩⟩
      rw [if_neg (by decide), PropertyType.fromRepr_code]
      exact P.bind_ok.2 ⟨x, r, hcount, P.pure_apply⟩
    case uint16 x =>
      obtain ⟨b, hn, e, hcount⟩ := elems_elim (r := r) (Parses.of_eq @word_ok) hl
      rw [e]
      refine P.bind_ok.2 ⟨_, _, parseDwordAsUsize_ok.2 ⟨hn, rfl⟩,
        P.bind_ok.2 ⟨PropertyType.code .uint16, _, word_ok.2 rfl, ?_⟩⟩
      rw [if_neg (by decide), PropertyType.fromRepr_code]
      exact P.bind_ok.2 ⟨x, r, hcount, P.pure_apply⟩
    case int32 x =>
      obtain ⟨b, hn, e, hcount⟩ := elems_elim (r := r) (Parses.of_eq @long_ok) hl
      rw [e]
      refine P.bind_ok.2 ⟨_, _, parseDwordAsUsize_ok.2 ⟨hn, rfl⟩,
        P.bind_ok.2 ⟨PropertyType.code .int32, _, word_ok.2 rfl, ?_⟩⟩
      rw [if_neg (by decide), PropertyType.fromRepr_code]
      exact P.bind_ok.2 ⟨x, r, hcount, P.pure_apply⟩
    case uint32 x =>
      obtain ⟨b, hn, e, hcount⟩ := elems_elim (r := r) (Parses.of_eq @dword_ok) hl
      rw [e]
      refine P.bind_ok.2 ⟨_, _, parseDwordAsUsize_ok.2 ⟨hn, rfl⟩,
        P.bind_ok.2 ⟨PropertyType.code .uint32, _, word_ok.2 rfl, ?_⟩⟩
      rw [if_neg (by decide), PropertyType.fromRepr_code]
      exact P.bind_ok.2 ⟨x, r, hcount, P.pure_apply⟩
    case int64 x =>
      obtain ⟨b, hn, e, hcount⟩ := elems_elim (r := r) (Parses.of_eq @leI64_ok) hl
      rw [e]
      refine P.bind_ok.2 ⟨_, _, parseDwordAsUsize_ok.2 ⟨hn, rfl⟩,
        P.bind_ok.2 ⟨PropertyType.code .int64, _, word_ok.2 rfl, ?_⟩⟩
      rw [if_neg (by decide), PropertyType.fromRepr_code]
      exact P.bind_ok.2 ⟨x, r, hcount, P.pure_apply⟩
    case uint64 x =>
      obtain ⟨b, hn, e, hcount⟩ := elems_elim (r := r) (Parses.of_eq @leU64_ok) hl
      rw [e]
      refine P.bind_ok.2 ⟨_, _, parseDwordAsUsize_ok.2 ⟨hn, rfl⟩,
        P.bind_ok.2 ⟨PropertyType.code .uint64, _, word_ok.2 rfl, ?_⟩⟩
      rw [if_neg (by decide), PropertyType.fromRepr_code]
      exact P.bind_ok.2 ⟨x, r, hcount, P.pure_apply⟩
    case fixed x =>
      obtain ⟨b, hn, e, hcount⟩ := elems_elim (r := r) (Parses.of_eq @fixed_ok) hl
      rw [e]
      refine P.bind_ok.2 ⟨_, _, parseDwordAsUsize_ok.2 ⟨hn, rfl⟩,
        P.bind_ok.2 ⟨PropertyType.code .fixed, _, word_ok.2 rfl, ?_⟩⟩
      rw [if_neg (by decide), PropertyType.fromRepr_code]
      exact P.bind_ok.2 ⟨x, r, hcount, P.pure_apply⟩
    case float x =>
      obtain ⟨b, hn, e, hcount⟩ := elems_elim (r := r) (Parses.of_eq @dword_ok) hl
      rw [e]
      refine P.bind_ok.2 ⟨_, _, parseDwordAsUsize_ok.2 ⟨hn, rfl⟩,
        P.bind_ok.2 ⟨PropertyType.code .float, _, word_ok.2 rfl, ?_⟩⟩
      rw [if_neg (by decide), PropertyType.fromRepr_code]
      exact P.bind_ok.2 ⟨x, r, hcount, P.pure_apply⟩
    case double x =>
      obtain ⟨b, hn, e, hcount⟩ := elems_elim (r := r) (Parses.of_eq @leU64_ok) hl
      rw [e]
      refine P.bind_ok.2 ⟨_, _, parseDwordAsUsize_ok.2 ⟨hn, rfl⟩,
        P.bind_ok.2 ⟨PropertyType.code .double, _, word_ok.2 rfl, ?_⟩⟩
      rw [if_neg (by decide), PropertyType.fromRepr_code]
      exact P.bind_ok.2 ⟨x, r, hcount, P.pure_apply⟩
    case string x =>
      obtain ⟨b, hn, e, hcount⟩ := elems_elim (r := r) parses_string hl
      rw [e]
      refine P.bind_ok.2 ⟨_, _, parseDwordAsUsize_ok.2 ⟨hn, rfl⟩,
        P.bind_ok.2 ⟨PropertyType.code .string, _, word_ok.2 rfl, ?_⟩⟩
      rw [if_neg (by decide), PropertyType.fromRepr_code]
      exact P.bind_ok.2 ⟨x, r, hcount, P.pure_apply⟩
    case point x =>
      obtain ⟨b, hn, e, hcount⟩ := elems_elim (r := r) (Parses.of_eq @parsePoint_ok) hl
      rw [e]
      refine P.bind_ok.2 ⟨_, _, parseDwordAsUsize_ok.2 ⟨hn, rfl⟩,
        P.bind_ok.2 ⟨PropertyType.code .point, _, word_ok.2 rfl, ?_⟩⟩
      rw [if_neg (by decide), PropertyType.fromRepr_code]
      exact P.bind_ok.2 ⟨x, r, hcount, P.pure_apply⟩
    case size x =>
      obtain ⟨b, hn, e, hcount⟩ := elems_elim (r := r) (Parses.of_eq @parseSize_ok) hl
      rw [e]
      refine P.bind_ok.2 ⟨_, _, parseDwordAsUsize_ok.2 ⟨hn, rfl⟩,
        P.bind_ok.2 ⟨PropertyType.code .size, _, word_ok.2 rfl, ?_⟩⟩
      rw [if_neg (by decide), PropertyType.fromRepr_code]
      exact P.bind_ok.2 ⟨x, r, hcount, P.pure_apply⟩
    case rect x =>
      obtain ⟨b, hn, e, hcount⟩ := elems_elim (r := r) (Parses.of_eq @parseRect_ok) hl
      rw [e]
      refine P.bind_ok.2 ⟨_, _, parseDwordAsUsize_ok.2 ⟨hn, rfl⟩,
        P.bind_ok.2 ⟨PropertyType.code .rect, _, word_ok.2 rfl, ?_⟩⟩
      rw [if_neg (by decide), PropertyType.fromRepr_code]
      exact P.bind_ok.2 ⟨x, r, hcount, P.pure_apply⟩
    case vector x =>
      obtain ⟨b, hn, e, hcount⟩ := elems_elim (r := r) hv hl
      rw [e]
      refine P.bind_ok.2 ⟨_, _, parseDwordAsUsize_ok.2 ⟨hn, rfl⟩,
        P.bind_ok.2 ⟨PropertyType.code .vector, _, word_ok.2 rfl, ?_⟩⟩
      rw [if_neg (by decide), PropertyType.fromRepr_code]
      exact P.bind_ok.2 ⟨x, r, hcount, P.pure_apply⟩
    case propertiesMap x =>
      obtain ⟨b, hn, e, hcount⟩ := elems_elim (r := r) hm hl
      rw [e]
      refine P.bind_ok.2 ⟨_, _, parseDwordAsUsize_ok.2 ⟨hn, rfl⟩,
        P.bind_ok.2 ⟨PropertyType.code .propertiesMap, _, word_ok.2 rfl, ?_⟩⟩
      rw [if_neg (by decide), PropertyType.fromRepr_code]
      exact P.bind_ok.2 ⟨x, r, hcount, P.pure_apply⟩
    case uuid x =>
      obtain ⟨b, hn, e, hcount⟩ := elems_elim (r := r) (Parses.of_eq @parseUuid_ok) hl
      rw [e]
      refine P.bind_ok.2 ⟨_, _, parseDwordAsUsize_ok.2 ⟨hn, rfl⟩,
        P.bind_ok.2 ⟨PropertyType.code .uuid, _, word_ok.2 rfl, ?_⟩⟩
      rw [if_neg (by decide), PropertyType.fromRepr_code]
      exact P.bind_ok.2 ⟨x, r, hcount, P.pure_apply⟩

theorem parses_map_step {d : Nat} (hp : Parses (parseProperty d) (IsProperty true d)) :
    Parses (parsePropertiesMap (d + 1)) (IsMap true true (d + 1)) := by
  intro b r m
  simp only [parsePropertiesMap, P.bind_ok, dword_ok, parseDwordAsUsize_ok, hp.count, P.pure_ok]
  constructor
  · rintro ⟨k, _, rfl, n, _, ⟨hn, rfl⟩, ps, _, ⟨rfl, e, he, rfl⟩, rfl, rfl⟩
    exact ⟨_, ⟨_, e, by rw [if_pos rfl], hn, he, rfl⟩, by simp⟩
  · obtain ⟨key, ps⟩ := m
    rintro ⟨_, ⟨k, e, hk, hn, he, rfl⟩, rfl⟩
    rw [if_pos rfl] at hk
    subst hk
    exact ⟨key, _, by simp only [List.append_assoc], _, _, ⟨hn, rfl⟩, ps, _, ⟨rfl, e, he, rfl⟩, rfl, rfl⟩

theorem parses_property_step {d : Nat} (hv : Parses (parseValue d) (IsValue true d)) :
    Parses (parseProperty (d + 1)) (IsProperty true (d + 1)) := by
  intro b r m
  simp only [parseProperty, P.bind_ok, parseString_ok, hv _ _ _, P.pure_ok]
  constructor
  · rintro ⟨nm, _, ⟨hs, rfl⟩, v, _, ⟨l, hl, rfl⟩, rfl, rfl⟩
    exact ⟨_, ⟨l, hs, hl, rfl⟩, by simp⟩
  · obtain ⟨nm, v⟩ := m
    rintro ⟨_, ⟨l, hs, hl, rfl⟩, rfl⟩
    exact ⟨nm, _, ⟨hs, List.append_assoc ..⟩, v, _, ⟨l, hl, rfl⟩, rfl, rfl⟩

/-- With room for `d` nested calls the four parsers accept exactly what is nested at most `d` deep. -/
theorem parses_all (d : Nat) :
    Parses (parseValue d) (IsValue true d) ∧ Parses (parseVector d) (IsVector true d) ∧
    Parses (parsePropertiesMap d) (IsMap true true d) ∧ Parses (parseProperty d) (IsProperty true d) := by
  induction d with
  | zero =>
    refine ⟨?_, ?_, ?_, ?_⟩
    · intro b r x; exact ⟨fun h => (by rw [parseValue] at h; cases h), fun ⟨_, h, _⟩ => (by rw [IsValue] at h; cases h)⟩
    · intro b r x; exact ⟨fun h => (by rw [parseVector] at h; cases h), fun ⟨_, h, _⟩ => (by rw [IsVector] at h; cases h)⟩
    · intro b r x
      exact ⟨fun h => (by rw [parsePropertiesMap] at h; cases h), fun ⟨_, h, _⟩ => (by rw [IsMap] at h; cases h)⟩
    · intro b r x
      exact ⟨fun h => (by rw [parseProperty] at h; cases h), fun ⟨_, h, _⟩ => (by rw [IsProperty] at h; cases h)⟩
  | succ d ih =>
    obtain ⟨h1, h2, h3, h4⟩ := ih
    exact ⟨parses_value_step h2 h3, parses_vector_step h1 h2 h3, parses_map_step h4, parses_property_step h1⟩

end Ase
