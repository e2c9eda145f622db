import Verif.Lemmas.Message
import Verif.Props.Errors
import Verif.Props.LoadErrors
import Verif.Props.Sizes

/-!
# C71: the texts of `load`'s errors
-/

namespace Ase

open Spec

/-- The text of `error_len`. -/
def Spec.lenText : Option UInt8 → String
  | none => "None"
  | some k => s!"Some({k.toNat})"

/-- The palette errors. -/
def Spec.paletteNames : List String := ["Missing", "Empty", "FirstColorIndexOutOfBounds", "LastColorIndexOutOfBounds",
  "FirstColorIndexGreaterThanLastColorIndex", "IndexOutOfBounds"]

private theorem toString_string (s : String) : toString s = s := rfl

/-- Both sides, character by character. -/
local macro "message_text" : tactic => `(tactic|
  simp [LoadSpriteError.message, NomErr.display, ParseError.debug, ErrorKind.debug, debugOption, lenText, lit,
    bytesText_toList, decimal, toString_string])

/-- **C71.** The texts: every message of `load` is one of these, and what is in it is in the file. -/
theorem C71_texts (plat : Plat) (b : Bytes) (e : LoadSpriteError) (h : AsepriteFile.load plat b = .err e) :
    (∃ s kind, s <:+: b ∧ (kind = "Eof" ∨ kind = "Tag") ∧
      e.message = s!"Parsing Error: Nom(Error \{ input: {bytesText s}, code: {kind} })") ∨
    (∃ t n k, t.length < 2 ^ 16 ∧ leNat16 t.length ++ t <:+: b ∧ BadText t n k ∧
      e.message = s!"Parsing Error: Utf8Error(Utf8Error \{ valid_up_to: {n}, error_len: {lenText k} })") ∨
    (∃ n : UInt32, n.toNat < 4 ∧ le32 n <:+: b ∧ e.message = s!"Parsing Failure: InvalidFrameSize({n.toNat})") ∨
    (∃ a z : UInt16, z < a ∧ le16 a ++ le16 z <:+: b ∧
      e.message = s!"Parsing Failure: InvalidFrameRange({a.toNat}, {z.toNat})") ∨
    (∃ p ∈ paletteNames, e.message = s!"Parsing Failure: PaletteError({p})") ∨
    e.message = "Parsing Failure: LayerIndexOutOfBounds" ∨
    ∃ file i l c, parseFile plat b = .ok file ∧ FirstBadCel file i l c ∧
      ((∃ f, c.content = .linkedCel f ∧ e.message = s!"invalid linked cel at frame {i} layer {l}") ∨
        ((∀ f, c.content ≠ .linkedCel f) ∧ e.message = "invalid cel")) := by
  cases hp : parseFile plat b with
  | panic k => rw [((C33_load_succeeds plat b).2.1 k).2 hp] at h; cases h
  | err pe =>
    rw [((C33_load_succeeds plat b).2.2.1 pe).2 hp] at h
    cases h
    rcases C62_positions plat b pe hp with ⟨s, kind, rfl, hk, hs⟩ | ⟨_, ⟨t, n, k, h1, h2, h3, rfl⟩, rfl⟩ |
      ⟨n, rfl, h1, h2⟩ | ⟨a, z, rfl, h1, h2⟩ | ⟨p, rfl⟩ | rfl
    · refine .inl ⟨s, if kind = .eof then "Eof" else "Tag", hs, by rcases hk with rfl | rfl <;> simp, ?_⟩
      apply String.toList_injective
      rcases hk with rfl | rfl <;> message_text
    · refine .inr (.inl ⟨t, n, k, h1, h2, h3, ?_⟩)
      apply String.toList_injective
      rcases k with _ | k <;> message_text
    · refine .inr (.inr (.inl ⟨n, h1, h2, ?_⟩))
      apply String.toList_injective
      message_text
    · refine .inr (.inr (.inr (.inl ⟨a, z, h1, h2, ?_⟩)))
      apply String.toList_injective
      message_text
    · refine .inr (.inr (.inr (.inr (.inl ⟨String.ofList p.debug, ?_, ?_⟩))))
      · cases p <;> decide +kernel
      · apply String.toList_injective
        message_text
    · refine .inr (.inr (.inr (.inr (.inr (.inl ?_)))))
      decide +kernel
  | ok file =>
    obtain ⟨i, l, c, hc, rfl⟩ := (C33_cause plat b file hp e).1 h
    obtain ⟨fr, h4, h5⟩ := celAt_eq.1 hc.here
    have hl := (slotsOk_of_parse hp).index fr (List.mem_of_getElem? h4) l c h5
    refine .inr (.inr (.inr (.inr (.inr (.inr ⟨file, i, l, c, rfl, hc, ?_⟩)))))
    cases hcon : c.content with
    | linkedCel f =>
      refine .inl ⟨f, rfl, ?_⟩
      simp only [complaint, hcon]
      subst hl
      apply String.toList_injective
      message_text
    | _ =>
      refine .inr ⟨by simp, ?_⟩
      simp only [complaint, hcon, LoadSpriteError.message]

/-- Each way for `load` to fail: no header; a string that is not UTF-8; a frame size of 3; a tag that ends before it
begins; an indexed file without a palette; a cel on layer 2 of one; a dangling link; a cel of unknown type. -/
example :
    let load := fun (b : Bytes) =>
      match AsepriteFile.load ⟨true, 10⟩ b with
      | .err e => e.message
      | _ => ""
    let layer := Sample.layer 1 0 0 255 [65]
    load [1, 2, 255] = "Parsing Error: Nom(Error { input: [1, 2, 255], code: Eof })" ∧
    load (Sample.header 1 1 32 ++ Sample.frame 1 [Sample.layer 1 0 0 255 [65, 0xC3, 0xA9, 0xE2, 0x82, 65]]) =
      "Parsing Error: Utf8Error(Utf8Error { valid_up_to: 3, error_len: Some(2) })" ∧
    load (Sample.header 1 1 32 ++ [3, 0, 0, 0]) = "Parsing Failure: InvalidFrameSize(3)" ∧
    load (Sample.header 1 1 32 ++ Sample.frame 1 [Sample.tags [Sample.tag 10 9 0 0 65]]) =
      "Parsing Failure: InvalidFrameRange(10, 9)" ∧
    load (Sample.header 1 1 8 ++ Sample.frame 1 []) = "Parsing Failure: PaletteError(Missing)" ∧
    load (Sample.header 1 1 32 ++ Sample.frame 1 [layer, Sample.cel 2 0 0 1 1 [1, 2, 3, 4]]) =
      "Parsing Failure: LayerIndexOutOfBounds" ∧
    load (Sample.header 1 1 32 ++ Sample.frame 1 [layer] ++ Sample.frame 1 [Sample.link 0 7]) =
      "invalid linked cel at frame 1 layer 0" ∧
    load (Sample.header 1 1 32 ++ Sample.frame 1 [layer,
      Sample.chunk 0x2005 ([0, 0, 0, 0, 0, 0, 255, 9, 0] ++ List.replicate 7 0)]) = "invalid cel" := by
  decide +kernel

/-- **C71.** The message tells which error it is: different errors, of the same kind with other numbers too, have
different messages, and so do their `Display` texts and those of the errors of rendering. -/
theorem C71_identifies :
    (∀ e e' : LoadSpriteError, e.message = e'.message → e = e') ∧
    (∀ e e' : LoadSpriteError, e.display = e'.display → e = e') ∧
    (∀ e e' : LoadImageError, e.display = e'.display → e = e') := by
  refine ⟨fun e e' => LoadSpriteError.message_inj, fun e e' h => ?_, fun e e' h => ?_⟩
  · apply LoadSpriteError.message_inj
    have := congrArg String.toList h
    simp only [LoadSpriteError.display, String.toList_append, List.append_cancel_left_eq] at this
    exact String.toList_injective this
  · revert h
    cases e <;> cases e' <;> decide +kernel

/-- The errors differ in the last byte of the dump. -/
example : (LoadSpriteError.parse (.error (.nom [1, 23] .eof))).display =
      "parsing failed Parsing Error: Nom(Error { input: [1, 23], code: Eof })" ∧
    (LoadSpriteError.parse (.error (.nom [1, 2, 3] .eof))).display =
      "parsing failed Parsing Error: Nom(Error { input: [1, 2, 3], code: Eof })" := by decide +kernel

private theorem printable_append {s t : String} (hs : Printable s) (ht : Printable t) : Printable (s ++ t) := by
  intro c hc
  rw [String.toList_append, List.mem_append] at hc
  exact hc.elim (hs c) (ht c)

private theorem printable_decimal {n : Nat} {c : Char} (h : c ∈ decimal n) : 32 ≤ c.toNat ∧ c.toNat ≤ 126 := by
  have := decimal_digit h
  simp only [Char.isDigit, Bool.and_eq_true, decide_eq_true_eq, UInt32.le_iff_toNat_le] at this
  have h1 : '0'.val.toNat = 48 := rfl
  have h2 : '9'.val.toNat = 57 := rfl
  simp only [Char.toNat]
  exact ⟨by omega, by omega⟩

private theorem printable_nat (n : Nat) : Printable (toString n) := by
  intro c hc
  rw [toString_toList] at hc
  exact printable_decimal hc

private theorem printable_literal (s : String) (h : s.toList.all (fun c => 32 ≤ c.toNat && c.toNat ≤ 126) = true) :
    Printable s := by
  intro c hc
  simpa using List.all_eq_true.1 h c hc

private theorem printable_bytes (b : Bytes) : Printable (bytesText b) := by
  unfold bytesText
  refine printable_append (printable_append (printable_literal _ (by decide)) ?_) (printable_literal _ (by decide))
  intro c hc
  rw [String.toList_intercalate] at hc
  cases b with
  | nil => simp [List.intercalate] at hc
  | cons x b =>
    simp only [List.map_cons, intercalate_cons, List.mem_append, List.mem_flatten, List.mem_map] at hc
    rcases hc with hc | ⟨l, ⟨_, ⟨_, ⟨y, _, rfl⟩, rfl⟩, rfl⟩, hc⟩
    · exact printable_nat _ c hc
    · rcases List.mem_append.1 hc with hc | hc
      · exact printable_literal ", " (by decide) c hc
      · exact printable_nat _ c hc

/-- **C71.** The message is one line of printable ASCII characters, and not empty. -/
theorem C71_printable (plat : Plat) (b : Bytes) (e : LoadSpriteError) (h : AsepriteFile.load plat b = .err e) :
    e.message ≠ "" ∧ Printable e.message := by
  constructor
  · intro h0
    have h1 : "invalid cel".toList = [] ∨ ∃ c t, e.message.toList = c :: t := by
      rcases e with (e | e) | _ | _
      · exact .inr ⟨'P', _, by simp [LoadSpriteError.message, NomErr.display, lit]; rfl⟩
      · exact .inr ⟨'P', _, by simp [LoadSpriteError.message, NomErr.display, lit]; rfl⟩
      · exact .inr ⟨'i', _, by simp [LoadSpriteError.message, lit]; rfl⟩
      · exact .inr ⟨'i', _, by simp [LoadSpriteError.message]; rfl⟩
    rw [h0] at h1
    simp at h1
  · rcases C71_texts plat b e h with ⟨s, k, hs, hk, hm⟩ | ⟨t, n, k, ht, hi, hb, hm⟩ | ⟨n, hn, _, hm⟩ | ⟨a, z, _, _, hm⟩ |
      ⟨p, hp, hm⟩ | hm | ⟨file, i, l, c, hf, hc, ⟨f, _, hm⟩ | ⟨_, hm⟩⟩
    all_goals rw [hm]
    all_goals try simp only [toString_string]
    · rcases hk with rfl | rfl <;>
        exact printable_append (printable_append (printable_append (printable_append (printable_literal _ (by decide))
          (printable_bytes s)) (printable_literal _ (by decide))) (printable_literal _ (by decide)))
          (printable_literal _ (by decide))
    · have hk : Printable (lenText k) := by
        rcases k with _ | k
        · exact printable_literal _ (by decide)
        · exact printable_append (printable_append (printable_literal _ (by decide)) (printable_nat _))
            (printable_literal _ (by decide))
      exact printable_append (printable_append (printable_append (printable_append (printable_literal _ (by decide))
          (printable_nat n)) (printable_literal _ (by decide))) hk) (printable_literal _ (by decide))
    · exact printable_append (printable_append (printable_literal _ (by decide)) (printable_nat _))
        (printable_literal _ (by decide))
    · exact printable_append (printable_append (printable_append (printable_append (printable_literal _ (by decide))
        (printable_nat _)) (printable_literal _ (by decide))) (printable_nat _)) (printable_literal _ (by decide))
    · have hp' : Printable p := by
        apply printable_literal
        clear hm
        revert p
        decide +kernel
      exact printable_append (printable_append (printable_literal _ (by decide)) hp') (printable_literal _ (by decide))
    · exact printable_literal _ (by decide)
    · exact printable_append (printable_append (printable_append (printable_literal _ (by decide)) (printable_nat _))
        (printable_literal _ (by decide))) (printable_nat _)
    · exact printable_literal _ (by decide)

private theorem digits_length_le {n k : Nat} (hk : 0 < k) (h : n < 10 ^ k) : (Nat.toDigits 10 n).length ≤ k :=
  decimal_length_le hk h

theorem Spec.BadText.lt {t : Bytes} {n : Nat} {k : Option UInt8} (h : BadText t n k) : n < t.length := by
  by_cases hn : n < t.length
  · exact hn
  · have := h.valid
    rw [List.take_of_length_le (by omega)] at this
    exact absurd this h.bad

/-- The length, character by character. -/
local macro "message_length" hm:ident : tactic => `(tactic|
  (rw [← String.length_toList, $hm:ident]
   simp [toString_string, lenText, bytesText_toList]
   try omega))

/-- **C71.** The message is at most five characters long for each byte of the file, and 100 more. -/
theorem C71_length (plat : Plat) (b : Bytes) (e : LoadSpriteError) (h : AsepriteFile.load plat b = .err e) :
    e.message.length ≤ 5 * b.length + 100 := by
  rcases C71_texts plat b e h with ⟨s, k, hs, hk, hm⟩ | ⟨t, n, k, ht, hi, hb, hm⟩ | ⟨n, hn, _, hm⟩ | ⟨a, z, _, _, hm⟩ |
    ⟨p, hp, hm⟩ | hm | ⟨file, i, l, c, hf, hc, ⟨f, _, hm⟩ | ⟨_, hm⟩⟩
  · have := (debugBytes_length s).2
    have := hs.length_le
    rcases hk with rfl | rfl <;> message_length hm
  · have h1 := digits_length_le (n := n) (k := 5) (by decide) (by have := hb.lt; omega)
    rcases k with _ | k
    · message_length hm
    · have h2 := digits_length_le (n := k.toNat) (k := 3) (by decide) (by have := k.toNat_lt; omega)
      message_length hm
  · have h1 := digits_length_le (n := n.toNat) (k := 1) (by decide) (by omega)
    message_length hm
  · have h1 := digits_length_le (n := a.toNat) (k := 5) (by decide) (by have := a.toNat_lt; omega)
    have h2 := digits_length_le (n := z.toNat) (k := 5) (by decide) (by have := z.toNat_lt; omega)
    message_length hm
  · have : p.toList.length ≤ 40 := by clear hm; revert p; decide +kernel
    message_length hm
  · message_length hm
  · obtain ⟨fr, h5, h6⟩ := celAt_eq.1 hc.here
    have h1 : i < b.length := by
      have := ((C28_bounded plat b).2 file hf).1
      have := (List.getElem?_eq_some_iff.1 h5).1
      omega
    have h2 : l < 65536 := by
      rw [← (slotsOk_of_parse hf).index fr (List.mem_of_getElem? h5) l c h6]
      exact c.layerIndex.toNat_lt
    have h3 : (Nat.toDigits 10 i).length ≤ i + 1 := decimal_length_le_self i
    have h4 := digits_length_le (n := l) (k := 5) (by decide) (by omega)
    message_length hm
  · message_length hm

/-- **C71, a large message.** Let a file be cut in its second frame or later: `b` are the frames before the cut, `rest`
what is left of the frame, whose size field, if there is one, promises more.  The message contains all of `rest` in
decimal. -/
theorem C71_dump (plat : Plat) (b rest : Bytes) (raw : RawFile) (hb : parseRawFile plat b = .ok raw) (hr : rest ≠ [])
    (hcut : ∀ (n : UInt32) tail, rest = le32 n ++ tail → rest.length < n.toNat) :
    ∃ e, AsepriteFile.load plat (b ++ rest) = .err e ∧
      e.message = s!"Parsing Error: Nom(Error \{ input: {bytesText rest}, code: Eof })" ∧
      3 * rest.length < e.message.length := by
  obtain ⟨header, frames, hh, hne, hs, rfl⟩ := parseRawFile_ok.1 hb
  obtain ⟨e', he'⟩ : ∃ e', parseRawframe plat rest = .err (.error e') := by
    by_cases hl : rest.length < 4
    · exact ⟨_, (C61_frame_errors plat rest _).2 (.inl ⟨hl, rfl⟩)⟩
    · cases hd : dword rest with
      | err e => exact absurd (dword_err.1 hd).1 hl
      | panic k => exact absurd hd (NoPanic.dword _ _)
      | ok x =>
        obtain ⟨r, n⟩ := x
        have := hcut n r (dword_ok.1 hd)
        exact ⟨_, (C61_frame_errors plat rest _).2 (.inr (.inr (.inl ⟨n, r, dword_ok.1 hd, by omega, this, rfl⟩)))⟩
  have h1 := C61_cause_hidden plat _ raw.header header frames rest raw.frames e' hh hs hne hr rfl he'
  have h2 := ((C33_load_succeeds plat _).2.2.1 _).2 h1
  have h3 : (LoadSpriteError.parse (.error (.nom rest .eof))).message =
      s!"Parsing Error: Nom(Error \{ input: {bytesText rest}, code: Eof })" := by
    apply String.toList_injective
    message_text
  refine ⟨_, h2, h3, ?_⟩
  have := (debugBytes_length rest).1
  message_length h3

/-- A file of one frame, and after it 100 bytes of a frame of 116: 34 + 302 + 14 characters. -/
example :
    let b := Sample.header 1 1 32 ++ Sample.frame 1 []
    let rest := [116, 0, 0, 0] ++ List.replicate 96 (7 : UInt8)
    (match parseRawFile ⟨true, 10⟩ b with | .ok _ => true | _ => false) = true ∧
    (match AsepriteFile.load ⟨true, 10⟩ (b ++ rest) with
     | .err e => e.message.length
     | _ => 0) = 350 := by decide +kernel

end Ase
