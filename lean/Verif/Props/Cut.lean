import Verif.Lemmas.Cut
import Verif.Props.Alone
import Verif.Spec.Sample

/-!
# C120: incomplete input is told from malformed input

`C120_final`, `C120_rest_final`, `C120_raw_file_final`: an answer other than "unexpected end" stays the same, whatever may
still arrive.  `C120_part`, `C120_rest`, `C120_raw_file`, `C120_file`: so the beginning of something acceptable is answered
by "unexpected end", or accepted.
`C120_not_conversely`: "unexpected end" does not promise that more bytes help.
-/

namespace Ase

open Spec

theorem cuts_of_listed (plat : Plat) (α : Type) (p : P α) (h : Plain α p ∨ WithProperties plat α p) : Cuts p := by
  rcases h with h | h
  · cases h with
    | byte => exact Cuts.byte
    | word => exact Cuts.word
    | short => exact Cuts.short
    | dword => exact Cuts.dword
    | long => exact Cuts.long
    | point => exact Cuts.parsePoint
    | size => exact Cuts.parseSize
    | rect => exact Cuts.parseRect
    | dwordSize f => exact Cuts.dwordSize f
    | dwordAsUsize => exact Cuts.parseDwordAsUsize
    | dwordAsU8 e => exact Cuts.parseDwordAsU8 e
    | string => exact Cuts.parseString
    | uuid => exact Cuts.parseUuid
    | fixed => exact Cuts.fixed
    | color => exact Cuts.parseColor
    | rgb => exact Cuts.parseRgb
    | colorDepth => exact Cuts.parseColorDepth
    | blendMode => exact Cuts.parseBlendMode
    | chunkType => exact Cuts.parseChunkType
    | header => exact Cuts.parseHeader
    | packet => exact Cuts.parsePacket
    | oldPalette => exact Cuts.parseOldPaletteChunk
    | layer => exact Cuts.parseLayerChunk
    | colorProfile => exact Cuts.parseColorProfile
    | externalFile => exact Cuts.parseExternalFile
    | externalFiles => exact Cuts.parseExternalFilesChunk
    | tag => exact Cuts.parseTag
    | tags => exact Cuts.parseTagsChunk
    | paletteEntry => exact Cuts.parsePaletteEntry
    | palette => exact Cuts.parsePaletteChunk
    | sliceKey flags => exact Cuts.parseSliceKey flags
    | ninePatch => exact Cuts.parseNinePatch
    | pivot => exact Cuts.parsePivot
    | slice => exact Cuts.parseSliceChunk
    | tilesetExternalFile => exact Cuts.parseTilesetExternalFile
    | tiles => exact Cuts.parseTiles
    | tileset => exact Cuts.parseTilesetChunk
  · cases h with
    | value => exact (cuts_all _).1
    | vector => exact (cuts_all _).2.1
    | map => exact (cuts_all _).2.2.1
    | property => exact (cuts_all _).2.2.2
    | maps => exact cuts_parsePropertiesMaps plat
    | userData => exact cuts_parseUserDataChunk plat
    | chunk => exact cuts_parseChunk plat
    | chunks n => exact (cuts_parseChunk plat).count n
    | frame => exact cuts_parseRawframe plat

/-- Every answer of a public parser that takes a prefix, other than "unexpected end", is final: a value stays the value
and what follows is handed back in addition, an error stays that error, a panic that panic. -/
theorem C120_final (plat : Plat) (α : Type) (p : P α) (h : Plain α p ∨ WithProperties plat α p) : AnswersAreFinal p :=
  (cuts_of_listed plat α p h).final

/-- A string that is not UTF-8, and a chunk that states a size of 3: nothing that follows can mend them. -/
example (more : Bytes) :
    parseString ([1, 0, 0xff] ++ more) = .err (.error (.utf8Error 0 (some 1))) ∧
    parseChunk ⟨false, 100⟩ ([3, 0, 0, 0] ++ more) = .err (.failure (.invalidFrameSize 3)) := by
  have h1 : parseString [1, 0, 0xff] = .err (.error (.utf8Error 0 (some 1))) := by
    have h : (match parseString [1, 0, 0xff] with
      | .err (.error (.utf8Error 0 (some 1))) => true | _ => false) = true := by decide +kernel
    revert h; split
    · intro _; assumption
    · intro h; cases h
  have h2 : parseChunk ⟨false, 100⟩ [3, 0, 0, 0] = .err (.failure (.invalidFrameSize 3)) := by
    have h : (match parseChunk ⟨false, 100⟩ [3, 0, 0, 0] with
      | .err (.failure (.invalidFrameSize 3)) => true | _ => false) = true := by decide +kernel
    revert h; split
    · intro _; assumption
    · intro h; cases h
  constructor
  · rcases C120_final ⟨false, 100⟩ _ _ (.inl .string) [1, 0, 0xff] more with ⟨s, _, e⟩ | e
    · rw [h1] at e; cases e
    · rw [e, h1]; rfl
  · rcases C120_final ⟨false, 100⟩ _ _ (.inr .chunk) [3, 0, 0, 0] more with ⟨s, _, e⟩ | e
    · rw [h2] at e; cases e
    · rw [e, h2]; rfl

/-- On the beginning of an input it accepts, a public parser that takes a prefix has either seen all it takes, or it
answers "unexpected end". -/
theorem C120_part (plat : Plat) (α : Type) (p : P α) (h : Plain α p ∨ WithProperties plat α p) : TellsIncomplete p :=
  (cuts_of_listed plat α p h).tells

/-- The string "hi" with its last byte missing. -/
example : UnexpectedEnd [2, 0, 0x68] (parseString [2, 0, 0x68]) := by
  have h : parseString ([2, 0, 0x68] ++ [0x69, 7]) = .ok ([7], "hi") :=
    parseString_ok.2 (by unfold FitsStr; decide +kernel)
  rcases C120_part ⟨true, 0⟩ _ _ (.inl .string) _ _ _ _ h with ⟨r', e, _⟩ | h
  · have := congrArg List.length e
    simp at this
  · exact h

/-- Every refusal of the parsers for the chunks that end with the rest of the input, and of `parse_frames`, is final
unless it is "unexpected end". -/
theorem C120_rest_final (plat : Plat) : (∀ (α : Type) (p : P α), ToTheEnd α p → RefusalsAreFinal p) ∧
    RefusalsAreFinal (parseFrames plat) := by
  refine ⟨fun α p h => ?_, parseFrames_cut plat⟩
  cases h with
  | cel => exact CutsRest.parseCelChunk
  | celExtra => exact CutsRest.parseCelExtraChunk
  | mask => exact CutsRest.parseMaskChunk

/-- On the beginning of an input they accept, these parsers accept it too, or answer "unexpected end". -/
theorem C120_rest (plat : Plat) : (∀ (α : Type) (p : P α), ToTheEnd α p → TellsIncompleteRest p) ∧
    TellsIncompleteRest (parseFrames plat) := by
  have key : ∀ {α : Type} {p : P α}, RefusalsAreFinal p → ReadsAll p → TellsIncompleteRest p := by
    intro α p hf ha b more r v e
    rcases hf b more with h | ⟨r', v', h⟩ | h
    · exact .inr h
    · obtain rfl := ha _ _ _ h
      exact .inl ⟨v', h⟩
    · rw [e] at h
      obtain rfl := ha _ _ _ e
      exact .inl ⟨v, h.symm⟩
  exact ⟨fun α p h => key ((C120_rest_final plat).1 α p h) (C119_rest α p h),
    key (C120_rest_final plat).2 (C119_frames plat)⟩

/-- A raw cel cut inside its pixels is accepted with fewer of them; cut inside its height it is "unexpected end". -/
example :
    (match parseCelChunk ([0, 0] ++ [0, 0] ++ [0, 0] ++ [255] ++ [0, 0] ++ [0, 0] ++ [0, 0, 0, 0, 0] ++ [1, 0, 1, 0, 10])
      with | .ok ([], c) => decide (c.content = .image ⟨1, 1, [10], false⟩) | _ => false) = true ∧
    (match parseCelChunk ([0, 0] ++ [0, 0] ++ [0, 0] ++ [255] ++ [0, 0] ++ [0, 0] ++ [0, 0, 0, 0, 0] ++ [1, 0, 1])
      with | .err (.error (.nom [1] .eof)) => true | _ => false) = true := by decide +kernel

/-- Every refusal of a raw file, other than "unexpected end", is final. -/
theorem C120_raw_file_final (plat : Plat) (b more : Bytes) :
    UnexpectedEnd b (parseRawFile plat b) ∨ (∃ f, parseRawFile plat b = .ok f) ∨
      parseRawFile plat (b ++ more) = parseRawFile plat b := parseRawFile_cut plat b more

/-- The beginning of an accepted raw file is accepted (C10 says when), or the answer is "unexpected end". -/
theorem C120_raw_file (plat : Plat) (b more : Bytes) (f : RawFile) (h : parseRawFile plat (b ++ more) = .ok f) :
    (∃ f', parseRawFile plat b = .ok f') ∨ UnexpectedEnd b (parseRawFile plat b) := by
  rcases parseRawFile_cut plat b more with h' | h' | h'
  · exact .inr h'
  · exact .inl h'
  · exact .inl ⟨f, by rw [← h', h]⟩

/-- A two-frame file cut inside its second frame. -/
example :
    let header : Bytes := [0, 0, 0, 0, 0xE0, 0xA5] ++ [1, 0, 1, 0, 1, 0, 32, 0] ++ List.replicate 114 0
    let frame : Bytes := [16, 0, 0, 0, 0xFA, 0xF1, 0, 0, 100, 0, 0, 0, 0, 0, 0, 0]
    (match parseRawFile ⟨true, 10⟩ (header ++ frame ++ frame) with | .ok _ => true | _ => false) = true ∧
    (match parseRawFile ⟨true, 10⟩ (header ++ frame ++ [16, 0, 0, 0, 0xFA]) with
      | .err (.error (.nom [16, 0, 0, 0, 0xFA] .eof)) => true | _ => false) = true := by
  decide +kernel

/-- The same for the file with its contents sorted by kind, as far as the raw file goes: unless the beginning is a
shorter raw file, the answer is "unexpected end". -/
theorem C120_file (plat : Plat) (b more : Bytes) (f : File) (h : parseFile plat (b ++ more) = .ok f) :
    (∃ raw, parseRawFile plat b = .ok raw) ∨ UnexpectedEnd b (parseFile plat b) := by
  cases hr : parseRawFile plat (b ++ more) with
  | err e => simp [parseFile, hr, bind, Outcome.bind] at h
  | panic k => simp [parseFile, hr, bind, Outcome.bind] at h
  | ok raw =>
    rcases C120_raw_file plat b more raw hr with h | ⟨s, hs, e⟩
    · exact .inl h
    · exact .inr ⟨s, hs, by simp only [parseFile, e, bind, Outcome.bind]⟩

/-- "Unexpected end" does not promise that more bytes help: a layer chunk whose stated size leaves no room for its fields
gets this answer, and keeps getting it whatever follows. -/
theorem C120_not_conversely (plat : Plat) (more : Bytes) :
    parseChunk plat ([6, 0, 0, 0, 4, 0x20] ++ more) = .err (.error (.nom [] .eof)) := by
  have h1 : dwordSize .invalidFrameSize ([6, 0, 0, 0, 4, 0x20] ++ more) = .ok ([4, 0x20] ++ more, 6) :=
    dwordSize_ok.2 ⟨by decide, rfl⟩
  have h2 : take ((6 : UInt32).toNat - 4) ([4, 0x20] ++ more) = .ok (more, [4, 0x20]) := take_ok.2 ⟨rfl, rfl⟩
  have h3 : parseChunkType [4, 0x20] = .ok ([], .ok .layer) := by
    have h : (match parseChunkType [4, 0x20] with | .ok ([], .ok .layer) => true | _ => false) = true := by decide +kernel
    revert h
    split
    · intro _; assumption
    · intro h; cases h
  rw [parseChunk, P.bind_of_ok h1, P.bind_of_ok h2]
  simp only [P.onSlice, P.bind_of_ok h3]
  rfl

end Ase
