import Verif.Model.Message
import Verif.Spec.Message

/-!
# The texts of errors determine the errors
-/

namespace Ase

theorem decimal_inj {m n : Nat} (h : decimal m = decimal n) : m = n := by
  have := congrArg (fun l => Nat.ofDigitChars 10 l 0) h
  simpa [decimal, Nat.ofDigitChars_ten_toDigits] using this

theorem decimal_digit {n : Nat} {c : Char} (h : c ∈ decimal n) : c.isDigit :=
  Nat.isDigit_of_mem_toDigits (by decide) (by decide) h

/-- A number is followed by something that is not a digit. -/
theorem digits_cancel {l l' r r' : List Char} {c c' : Char} (hl : ∀ x ∈ l, x.isDigit) (hl' : ∀ x ∈ l', x.isDigit)
    (hc : c.isDigit = false) (hc' : c'.isDigit = false) (h : l ++ c :: r = l' ++ c' :: r') : l = l' ∧ c :: r = c' :: r' := by
  induction l generalizing l' with
  | nil =>
    rcases l' with _ | ⟨x, l'⟩
    · exact ⟨rfl, h⟩
    · cases h
      rw [hl' c (by simp)] at hc
      cases hc
  | cons x l ih =>
    rcases l' with _ | ⟨y, l'⟩
    · cases h
      rw [hl c' (by simp)] at hc'
      cases hc'
    · simp only [List.cons_append, List.cons.injEq] at h
      obtain ⟨rfl, h⟩ := h
      obtain ⟨rfl, h2⟩ := ih (fun z hz => hl z (by simp [hz])) (fun z hz => hl' z (by simp [hz])) h
      exact ⟨rfl, h2⟩

theorem decimal_cancel {m n : Nat} {r r' : List Char} {c c' : Char} (hc : c.isDigit = false) (hc' : c'.isDigit = false)
    (h : decimal m ++ c :: r = decimal n ++ c' :: r') : m = n ∧ c :: r = c' :: r' := by
  obtain ⟨h1, h2⟩ := digits_cancel (fun _ => decimal_digit) (fun _ => decimal_digit) hc hc' h
  exact ⟨decimal_inj h1, h2⟩

theorem debugItems_head (b : Bytes) (r : List Char) :
    ∃ c t, debugItems b ++ r = c :: t ∧ c.isDigit = false := by
  cases b with
  | nil => exact ⟨']', r, by simp [debugItems, lit], by decide⟩
  | cons x b => exact ⟨',', _, by simp [debugItems, lit]; rfl, by decide⟩

theorem debugItems_cancel {a b : Bytes} {r r' : List Char} (h : debugItems a ++ r = debugItems b ++ r') :
    a = b ∧ r = r' := by
  induction a generalizing b with
  | nil =>
    cases b with
    | nil => exact ⟨rfl, by simpa [debugItems] using h⟩
    | cons y b => simp [debugItems, lit] at h
  | cons x a ih =>
    cases b with
    | nil => simp [debugItems, lit] at h
    | cons y b =>
      simp only [debugItems, List.append_assoc, List.append_cancel_left_eq] at h
      obtain ⟨c, t, e, hc⟩ := debugItems_head a r
      obtain ⟨c', t', e', hc'⟩ := debugItems_head b r'
      rw [e, e'] at h
      obtain ⟨h1, h2⟩ := decimal_cancel hc hc' h
      rw [← e, ← e'] at h2
      obtain ⟨rfl, h3⟩ := ih h2
      exact ⟨by rw [UInt8.toNat_inj.1 h1], h3⟩

theorem decimal_ne_nil (n : Nat) : decimal n ≠ [] := by
  intro h
  have := Nat.length_toDigits_pos (b := 10) (n := n)
  simp [decimal] at h

/-- A number does not begin with something that is not a digit. -/
theorem decimal_ne_cons {n : Nat} {r r' : List Char} {c : Char} (hc : c.isDigit = false) : c :: r ≠ decimal n ++ r' := by
  intro h
  rcases hd : decimal n with _ | ⟨d, l⟩
  · exact decimal_ne_nil n hd
  · rw [hd] at h
    cases h
    rw [decimal_digit (n := n) (by rw [hd]; simp)] at hc
    cases hc

theorem debugBytes_cancel {a b : Bytes} {r r' : List Char} (h : debugBytes a ++ r = debugBytes b ++ r') :
    a = b ∧ r = r' := by
  cases a with
  | nil =>
    cases b with
    | nil => exact ⟨rfl, by simpa [debugBytes] using h⟩
    | cons y b =>
      simp only [debugBytes, List.append_assoc, lit] at h
      exact absurd (List.cons.inj h).2 (decimal_ne_cons (by decide))
  | cons x a =>
    cases b with
    | nil =>
      simp only [debugBytes, List.append_assoc, lit] at h
      exact absurd (List.cons.inj h).2.symm (decimal_ne_cons (by decide))
    | cons y b =>
      simp only [debugBytes, List.append_assoc, List.append_cancel_left_eq] at h
      obtain ⟨c, t, e, hc⟩ := debugItems_head a r
      obtain ⟨c', t', e', hc'⟩ := debugItems_head b r'
      rw [e, e'] at h
      obtain ⟨h1, h2⟩ := decimal_cancel hc hc' h
      rw [← e, ← e'] at h2
      obtain ⟨rfl, h3⟩ := debugItems_cancel h2
      exact ⟨by rw [UInt8.toNat_inj.1 h1], h3⟩

theorem ErrorKind.debug_cancel {a b : ErrorKind} {r : List Char} (h : a.debug ++ r = b.debug ++ r) : a = b := by
  have h := List.append_cancel_right h
  revert h
  cases a <;> cases b <;> decide +kernel

theorem PaletteError.debug_cancel {a b : PaletteError} {r : List Char} (h : a.debug ++ r = b.debug ++ r) : a = b := by
  have h := List.append_cancel_right h
  revert h
  cases a <;> cases b <;> decide +kernel

theorem debugOption_cancel {a b : Option UInt8} {r : List Char} (h : debugOption a ++ r = debugOption b ++ r) :
    a = b := by
  have h := List.append_cancel_right h
  rcases a with _ | a <;> rcases b with _ | b
  · rfl
  · simp [debugOption, lit] at h
  · simp [debugOption, lit] at h
  · simp only [debugOption, lit, List.append_assoc, List.append_cancel_left_eq] at h
    obtain ⟨h1, _⟩ := decimal_cancel (c := ')') (c' := ')') (by decide) (by decide) h
    rw [UInt8.toNat_inj.1 h1]

theorem ParseError.debug_inj {a b : ParseError} (h : a.debug = b.debug) : a = b := by
  cases a <;> cases b <;> simp only [ParseError.debug, lit, List.append_assoc] at h <;>
    try (exfalso; revert h; simp; done)
  all_goals try rw [List.append_cancel_left_eq] at h
  case dwordToUsize.dwordToUsize =>
    rw [UInt32.toNat_inj.1 (decimal_cancel (c := ')') (c' := ')') (by decide) (by decide) h).1]
  case invalidFrameSize.invalidFrameSize =>
    rw [UInt32.toNat_inj.1 (decimal_cancel (c := ')') (c' := ')') (by decide) (by decide) h).1]
  case invalidChunkSize.invalidChunkSize =>
    rw [UInt32.toNat_inj.1 (decimal_cancel (c := ')') (c' := ')') (by decide) (by decide) h).1]
  case utf8Error.utf8Error =>
    obtain ⟨h1, h2⟩ := decimal_cancel (c := ',') (c' := ',') (by decide) (by decide) h
    rw [h1, debugOption_cancel (List.append_cancel_left (as := ", error_len: ".toList) h2)]
  case paletteError.paletteError => rw [PaletteError.debug_cancel h]
  case invalidFrameRange.invalidFrameRange =>
    obtain ⟨h1, h2⟩ := decimal_cancel (c := ',') (c' := ',') (by decide) (by decide) h
    rw [UInt16.toNat_inj.1 h1, UInt16.toNat_inj.1 (decimal_cancel (c := ')') (c' := ')') (by decide) (by decide)
      (List.append_cancel_left (as := ", ".toList) h2)).1]
  case layerIndexOutOfBounds.layerIndexOutOfBounds => rfl
  case invalidPropertyType.invalidPropertyType =>
    rw [UInt16.toNat_inj.1 (decimal_cancel (c := ')') (c' := ')') (by decide) (by decide) h).1]
  case nom.nom =>
    obtain ⟨h1, h2⟩ := debugBytes_cancel h
    rw [h1, ErrorKind.debug_cancel (List.append_cancel_left h2)]

theorem NomErr.display_inj {a b : NomErr} (h : a.display = b.display) : a = b := by
  cases a <;> cases b <;> simp only [NomErr.display, lit] at h
  · rw [ParseError.debug_inj (List.append_cancel_left h)]
  · simp at h
  · simp at h
  · rw [ParseError.debug_inj (List.append_cancel_left h)]

theorem LoadSpriteError.message_inj {a b : LoadSpriteError} (h : a.message = b.message) : a = b := by
  replace h := congrArg String.toList h
  cases a <;> cases b <;> simp only [LoadSpriteError.message, lit, String.toList_ofList] at h
  case parse.parse => rw [NomErr.display_inj h]
  case invalidCel.invalidCel => rfl
  case invalidLinkedCel.invalidLinkedCel =>
    simp only [List.append_assoc, List.append_cancel_left_eq] at h
    obtain ⟨h1, h2⟩ := decimal_cancel (c := ' ') (c' := ' ') (by decide) (by decide) h
    rw [h1, UInt16.toNat_inj.1 (decimal_inj (List.append_cancel_left (as := " layer ".toList) h2))]
  case parse.invalidLinkedCel e _ _ => cases e <;> simp [NomErr.display, lit] at h
  case parse.invalidCel e => cases e <;> simp [NomErr.display, lit] at h
  case invalidLinkedCel.parse e => cases e <;> simp [NomErr.display, lit] at h
  case invalidCel.parse e => cases e <;> simp [NomErr.display, lit] at h
  case invalidLinkedCel.invalidCel => simp at h
  case invalidCel.invalidLinkedCel => simp at h

/-! ## The texts, as the specification writes them -/

open Spec

theorem toString_toList (n : Nat) : (toString n).toList = decimal n := by simp [decimal]

theorem debugItems_eq (b : Bytes) :
    debugItems b = (b.map fun x => ", ".toList ++ decimal x.toNat).flatten ++ "]".toList := by
  induction b with
  | nil => simp [debugItems, lit]
  | cons x b ih => simp [debugItems, lit, ih]

theorem intercalate_cons (s : List Char) (x : List Char) (l : List (List Char)) :
    s.intercalate (x :: l) = x ++ (l.map fun y => s ++ y).flatten := by
  induction l generalizing x with
  | nil => simp [List.intercalate]
  | cons y l ih =>
    have := ih y
    simp only [List.intercalate] at this ⊢
    simp [this]

theorem bytesText_toList (b : Bytes) : (bytesText b).toList = debugBytes b := by
  simp only [bytesText, String.toList_append, String.toList_intercalate, List.map_map]
  cases b with
  | nil => simp [debugBytes, lit, List.intercalate]
  | cons x b =>
    rw [List.map_cons, intercalate_cons]
    simp only [debugBytes, debugItems_eq, lit, List.map_map, Function.comp_apply, toString_toList, List.append_assoc]
    have : ((fun y => ", ".toList ++ y) ∘ String.toList ∘ fun x : UInt8 => toString x.toNat) =
        fun x => ", ".toList ++ decimal x.toNat := by
      funext x
      simp only [Function.comp_apply, toString_toList]
    rw [this]

/-! ## Lengths and characters -/

theorem decimal_length_pos (n : Nat) : 0 < (decimal n).length := List.length_pos_iff.2 (decimal_ne_nil n)

theorem decimal_length_le {n k : Nat} (hk : 0 < k) (h : n < 10 ^ k) : (decimal n).length ≤ k :=
  (Nat.length_toDigits_le_iff (by decide) hk).2 h

theorem decimal_length_le_self (n : Nat) : (decimal n).length ≤ n + 1 :=
  decimal_length_le (by omega) (Nat.lt_of_lt_of_le (Nat.lt_pow_self (by decide)) (Nat.pow_le_pow_right (by decide) (by omega)))

theorem debugItems_length (b : Bytes) : 3 * b.length + 1 ≤ (debugItems b).length ∧
    (debugItems b).length ≤ 5 * b.length + 1 := by
  induction b with
  | nil => simp [debugItems, lit]
  | cons x b ih =>
    have h1 := decimal_length_pos x.toNat
    have h2 := decimal_length_le (n := x.toNat) (k := 3) (by decide) (by have := x.toNat_lt; omega)
    simp only [debugItems, lit, List.length_append, List.length_cons]
    have : ", ".toList.length = 2 := by decide
    omega

theorem debugBytes_length (b : Bytes) : 3 * b.length ≤ (debugBytes b).length ∧
    (debugBytes b).length ≤ 5 * b.length + 2 := by
  cases b with
  | nil => simp [debugBytes, lit]
  | cons x b =>
    have h1 := decimal_length_pos x.toNat
    have h2 := decimal_length_le (n := x.toNat) (k := 3) (by decide) (by have := x.toNat_lt; omega)
    have h3 := debugItems_length b
    simp only [debugBytes, lit, List.length_append, List.length_cons]
    have : "[".toList.length = 1 := by decide
    omega

theorem printable_of_list {l : List Char} (h : ∀ c ∈ l, 32 ≤ c.toNat ∧ c.toNat ≤ 126) : Printable (String.ofList l) := by
  simpa [Printable] using h

end Ase
