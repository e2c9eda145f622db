import Verif.Lemmas.Encode
import Verif.Lemmas.File

/-!
# Encoding and parsing (C54)
-/

namespace Ase
open Spec

theorem readsUserData_bytes {plat : Plat} {c : UserDataChunk} (h : FitsUserData c) (hf : NoNestedMaps (.userData c))
    (hl : (userDataBytes c).length < 2 ^ 32) (hs : StackFor plat (.userData c)) :
    readsUserData plat c (userDataBytes c) := by
  refine ⟨[], ?_⟩
  rw [parseUserDataChunk_ok (by omega)]
  obtain ⟨flags, t, k, p, h1, h2, h3, e⟩ := isUserData_bytes h hl
  refine ⟨flags, t, k, p, h1, h2, ?_, by rw [e]; simp⟩
  unfold okProps at h3
  cases hp : c.propertiesMaps with
  | none => simpa [hp, Opt] using h3
  | some x =>
    obtain ⟨v, rfl, -⟩ := h.2 x hp
    rw [hp] at h3
    obtain ⟨h4, d, e', h5, h6, h7, h8⟩ := h3
    refine ⟨h4, (propsOutcome_ok ?_).2 ⟨d, e', h5, h6, ?_, h8⟩⟩
    · have hs := hs (by rw [hp]; simp)
      rw [e] at hs
      simp at hs
      omega
    · exact seq_imp h7 fun m hm l _ h => keyed_irrelevant_map false true true d m l (hf v hp m hm) h

theorem isContent_bytes {plat : Plat} {c : Chunk} (h : FitsContent c) (hf : NoNestedMaps c)
    (hl : (contentBytes c).length < 2 ^ 32) (hs : StackFor plat c) :
    IsContent (readsUserData plat) (readAs c) (chunkCode c) (contentBytes c) := by
  cases c with
  | palette0004 c => exact ⟨rfl, _, [], isOldPalette_bytes h, by simp [contentBytes]⟩
  | palette0011 c => exact ⟨rfl, _, [], isOldPalette_bytes h, by simp [contentBytes]⟩
  | layer c => exact ⟨rfl, _, [], isLayer_bytes h, by simp [contentBytes]⟩
  | cel c =>
    refine ⟨rfl, ?_⟩
    rw [show swapFlips (swapFlips c.content) = c.content by cases c.content <;> rfl]
    exact isCel_bytes h
  | celExtra c => exact ⟨rfl, isCelExtra_bytes h⟩
  | colorProfile c => exact ⟨rfl, _, [], isColorProfile_bytes h, by simp [contentBytes]⟩
  | externalFiles c => exact ⟨rfl, _, [], isExternalFiles_bytes h, by simp [contentBytes]⟩
  | mask c => exact ⟨rfl, isMask_bytes h⟩
  | path => exact rfl
  | tags c => exact ⟨rfl, _, [], isTags_bytes h, by simp [contentBytes]⟩
  | palette c => exact ⟨rfl, _, [], isPalette_bytes h, by simp [contentBytes]⟩
  | userData c => exact ⟨rfl, readsUserData_bytes h hf hl hs⟩
  | slice c => exact ⟨rfl, _, [], isSlice_bytes h, by simp [contentBytes]⟩
  | tileset c => exact ⟨rfl, _, [], isTileset_bytes h, by simp [contentBytes]⟩
  | unsupported n => exact ⟨h, rfl⟩

theorem length_le_flatMap {α : Type} {enc : α → Bytes} {xs : List α} {x : α} (h : x ∈ xs) :
    (enc x).length ≤ (xs.flatMap enc).length := by
  induction xs with
  | nil => simp at h
  | cons y ys ih =>
    rcases List.mem_cons.1 h with rfl | h
    · simp
    · have := ih h
      rw [List.flatMap_cons, List.length_append]
      omega

theorem isChunk_bytes {plat : Plat} {c : Chunk} (h : FitsChunk c) (hf : NoNestedMaps c)
    (hs : StackFor plat c) : IsChunk (readsUserData plat) (readAs c) (chunkBytes c) := by
  obtain ⟨h1, h2⟩ := h
  simp [chunkBytes, leNat32, le16, leBytes] at h2
  exact ⟨_, _, by omega, isContent_bytes h1 hf (by omega) hs, rfl⟩

theorem chunkBytes_pos (c : Chunk) : 6 ≤ (chunkBytes c).length := by simp [chunkBytes, leNat32, le16, leBytes]

theorem length_le_chunks (cs : List Chunk) : cs.length ≤ (cs.flatMap chunkBytes).length := by
  induction cs with
  | nil => simp
  | cons c cs ih =>
    have := chunkBytes_pos c
    rw [List.flatMap_cons, List.length_append, List.length_cons]
    omega

theorem isFrame_bytes {plat : Plat} {f : RawFrame} (h : FitsFrame f) (hf : ∀ c ∈ f.chunks, NoNestedMaps c)
    (hs : ∀ c ∈ f.chunks, StackFor plat c) : IsFrame (readsUserData plat) { f with chunks := f.chunks.map readAs } (frameBytes f) := by
  obtain ⟨h1, h2⟩ := h
  simp only [frameBytes, leNat32, leNat16, le16, leBytes, zeros, List.length_append, List.length_cons, List.length_nil,
    List.length_replicate] at h2
  have hl := length_le_chunks f.chunks
  refine ⟨UInt16.ofNat (min f.chunks.length 0xFFFF), UInt32.ofNat f.chunks.length, zeros 2, _, [], rfl, ?_,
    seq_map_flatMap fun c hc => isChunk_bytes (h1 c hc) (hf c hc) (hs c hc), ?_, ?_⟩
  · rw [List.length_map]
    unfold chunkCount
    split
    · rename_i h0
      have h0 := congrArg UInt32.toNat h0
      rw [UInt32.toNat_ofNat', Nat.mod_eq_of_lt (by omega)] at h0
      have h0 : f.chunks.length = 0 := h0
      rw [h0]
      rfl
    · rw [UInt32.toNat_ofNat', Nat.mod_eq_of_lt (by omega)]
  · rw [List.length_nil]
    omega
  · simp only [frameBytes, le32, le16, leNat32, leNat16, UInt32.toNat_ofNat', UInt16.toNat_ofNat', List.append_nil,
      List.length_nil, Nat.add_zero]
    rw [Nat.mod_eq_of_lt (a := f.chunks.length) (by omega), Nat.mod_eq_of_lt (a := min _ _) (by omega)]

/-- **C54 (partial), all chunks.** Encoding a file as the format document prescribes and parsing the bytes gives back the
file, up to the exchanged flip masks of tilemaps, for every file that the format can express and every platform with
enough stack for the property values.

What is missing for the full claim: the crate does not read everything as documented.  Properties maps nested in values
are excluded (C16), `FitsFile` excludes the codes the crate replaces by zero (C19), and palette chunks are those that
store the whole palette (C14). -/
theorem C54_as_read_partial (plat : Plat) (f : RawFile) (hf : FitsFile f)
    (hd : ∀ fr ∈ f.frames, ∀ c ∈ fr.chunks, NoNestedMaps c) (hs : ∀ fr ∈ f.frames, ∀ c ∈ fr.chunks, StackFor plat c) :
    parseRawFile plat (fileBytes f) = .ok (readFileAs f) := by
  obtain ⟨h1, h2, h3⟩ := hf
  refine parseRawFile_ok.2 ⟨_, _, isHeader_bytes h1, by simpa [readFileAs] using h2, ?_, rfl⟩
  unfold readFileAs
  refine seq_map_flatMap fun fr hfr => isFrame_bytes (h3 fr hfr) (hd fr hfr) (hs fr hfr)

/-- **C54 (partial).** Encoding a file as the format document prescribes and parsing the bytes gives back the same file,
for every file that the format can express, except for the contents the crate does not read as documented. -/
theorem C54_round_trip_partial (plat : Plat) (f : RawFile) (hf : FitsFile f)
    (hm : ∀ fr ∈ f.frames, ∀ c ∈ fr.chunks, NoNestedMaps c) (ht : ∀ fr ∈ f.frames, ∀ c ∈ fr.chunks, NoFlips c)
    (hs : ∀ fr ∈ f.frames, ∀ c ∈ fr.chunks, StackFor plat c) :
    parseRawFile plat (fileBytes f) = .ok f := by
  rw [C54_as_read_partial plat f hf hm hs]
  congr 1
  unfold readFileAs
  have hc : ∀ fr ∈ f.frames, ∀ c ∈ fr.chunks, readAs c = c := by
    intro fr hfr c hc
    cases c with
    | cel x =>
      obtain ⟨_, _, _, _, _, content, _⟩ := x
      cases content with
      | compressedTilemap =>
        have := ht fr hfr _ hc _ rfl _ _ _ _ _ _ _ _ rfl
        subst this
        rfl
      | _ => rfl
    | _ => rfl
  have : (f.frames.map fun fr => { fr with chunks := fr.chunks.map readAs }) = f.frames := by
    refine (List.map_congr_left fun fr hfr => ?_).trans (List.map_id _)
    rw [(List.map_congr_left fun c h => hc fr hfr c h).trans (List.map_id _)]
    rfl
  rw [this]

/-- A stack for the whole file is enough for every chunk. -/
theorem stack_of_length {plat : Plat} {f : RawFile} (hs : (fileBytes f).length < 2 * plat.stack) :
    ∀ fr ∈ f.frames, ∀ c ∈ fr.chunks, StackFor plat c := by
  intro fr hfr c hc
  have h1 := length_le_flatMap (enc := frameBytes) hfr
  have h2 := length_le_flatMap (enc := chunkBytes) hc
  cases c with
  | userData u =>
    intro _
    simp only [fileBytes, List.length_append] at hs
    simp only [frameBytes, List.length_append] at h1
    simp only [chunkBytes, contentBytes, List.length_append] at h2
    omega
  | _ => trivial

/-- Different files have different encodings: nothing is lost by encoding. -/
theorem C54_encode_injective_partial (f g : RawFile) (hf : FitsFile f) (hg : FitsFile g)
    (hmf : ∀ fr ∈ f.frames, ∀ c ∈ fr.chunks, NoNestedMaps c) (hmg : ∀ fr ∈ g.frames, ∀ c ∈ fr.chunks, NoNestedMaps c)
    (h : fileBytes f = fileBytes g) : f = g := by
  have h1 := C54_as_read_partial ⟨false, (fileBytes f).length + 1⟩ f hf hmf (stack_of_length (by simp; omega))
  have h2 := C54_as_read_partial ⟨false, (fileBytes f).length + 1⟩ g hg hmg (stack_of_length (by simp [h]; omega))
  rw [← h, h1] at h2
  have hc : ∀ c, readAs (readAs c) = c := by
    intro c
    cases c with
    | cel x => obtain ⟨_, _, _, _, _, content, _⟩ := x; cases content <;> rfl
    | _ => rfl
  have : ∀ f, readFileAs (readFileAs f) = f := by
    intro f
    obtain ⟨_, frames⟩ := f
    simp [readFileAs, Function.comp_def, hc]
  rw [← this f, ← this g, Outcome.ok.inj h2]

/-- A file with two frames, most kinds of chunks, optional parts, nested property values. -/
def sample : RawFile where
  header := { fileSize := 0, frames := 2, width := 3, height := 2, colorDepth := .indexed, flags := 1, speed := 100,
              transparentIndex := 7, colorCount := 2, pixelWidth := 1, pixelHeight := 1, gridX := -5, gridY := 4,
              gridWidth := 16, gridHeight := 16 }
  frames := [
    { duration := 120, chunks := [
        .colorProfile ⟨some ⟨1, 0x8000⟩, .srgb⟩,
        .palette ⟨0, 1, [⟨⟨1, 2, 3, 255⟩, none⟩, ⟨⟨4, 5, 6, 0⟩, some "rot"⟩]⟩,
        .palette0004 ⟨[⟨0, [⟨1, 2, 3⟩, ⟨4, 5, 6⟩]⟩]⟩,
        .layer { flags := ⟨0x41⟩, layerType := .tilemap, childLevel := 0, blendMode := .softLight, opacity := 200,
                 name := "Grün", tilesetIndex := some 3, userData := none },
        .userData ⟨some "note", none, some (.ok ([], [.mk 5 [.mk "xs" (.vector (.vector [.int16 [-1, 2], .mixed [.bool true,
          .string "ä", .vector (.uuid [0x0102030405060708090A0B0C0D0E0F10])]]))]]))⟩,
        .cel { layerIndex := 0, x := -3, y := 9, opacity := 255, zIndex := -1,
               content := .image ⟨1, 2, [9, 8], false⟩, userData := none },
        .tags ⟨[⟨0, 1, .pingPong, 0, (1, 2, 3), "loop", none⟩]⟩,
        .unsupported 0x9999 ] },
    { duration := 80, chunks := [
        .cel { layerIndex := 0, x := 0, y := 0, opacity := 9, zIndex := 0, content := .linkedCel 0, userData := none },
        .slice { sliceKeys := [⟨0, 1, 2, 3, 4, some ⟨0, 0, 1, 1⟩, none⟩], flags := ⟨1⟩, name := "s", userData := none },
        .path ] }]

instance (s : String) : Decidable (FitsStr s) := inferInstanceAs (Decidable (_ < _))

/-- The hypotheses of `C54_round_trip_partial` hold of it. -/
example : FitsFile sample ∧ (∀ fr ∈ sample.frames, ∀ c ∈ fr.chunks, NoNestedMaps c) ∧
    (∀ fr ∈ sample.frames, ∀ c ∈ fr.chunks, NoFlips c) ∧
    (∀ fr ∈ sample.frames, ∀ c ∈ fr.chunks, StackFor (Plat.mk true 60) c) := by
  have len : ∀ fr ∈ sample.frames, (frameBytes fr).length < 2 ^ 32 := by decide +kernel
  have clen : ∀ fr ∈ sample.frames, ∀ c ∈ fr.chunks, (chunkBytes c).length < 2 ^ 32 := by decide +kernel
  refine ⟨⟨trivial, by simp [sample], fun fr hfr => ⟨fun c hc => ⟨?_, clen fr hfr c hc⟩, len fr hfr⟩⟩, ?_, ?_, ?_⟩
  · simp only [sample, List.mem_cons, List.not_mem_nil, or_false] at hfr
    rcases hfr with rfl | rfl
    · simp only [List.mem_cons, List.not_mem_nil, or_false] at hc
      rcases hc with rfl | rfl | rfl | rfl | rfl | rfl | rfl | rfl
      · trivial
      · exact ⟨by decide, by decide, by simp; decide +kernel⟩
      · exact ⟨by decide, by decide⟩
      · exact ⟨by decide, trivial, trivial, by decide +kernel, by decide, rfl⟩
      · refine ⟨by simp; decide +kernel, ?_⟩
        rintro x ⟨⟩
        refine ⟨_, rfl, by decide, ?_⟩
        simp [FitsMap, FitsProps, FitsProp, FitsValue, FitsVector, FitsVectors, FitsValues]
        decide +kernel
      · exact ⟨by simp, rfl⟩
      · exact ⟨by decide, by simp [FitsDirection]; decide +kernel⟩
      · exact (by decide : chunkTypes.lookup 0x9999 = none)
    · simp only [List.mem_cons, List.not_mem_nil, or_false] at hc
      rcases hc with rfl | rfl | rfl
      · exact ⟨by simp, rfl⟩
      · exact ⟨by decide, by decide, by decide +kernel, rfl, by simp [bit32]; decide⟩
      · trivial
  · intro fr hfr c hc
    simp only [sample, List.mem_cons, List.not_mem_nil, or_false] at hfr
    rcases hfr with rfl | rfl <;> simp only [List.mem_cons, List.not_mem_nil, or_false] at hc
    · rcases hc with rfl | rfl | rfl | rfl | rfl | rfl | rfl | rfl
      case inr.inr.inr.inr.inl =>
        rintro v ⟨⟩
        decide +kernel
      all_goals exact trivial
    · rcases hc with rfl | rfl | rfl <;> exact trivial
  · simp [sample, NoFlips]
  · have : ∀ fr ∈ sample.frames, ∀ c ∈ fr.chunks, (contentBytes c).length < 2 * 60 := by decide +kernel
    intro fr hfr c hc
    cases c with
    | userData u => exact fun _ => this fr hfr _ hc
    | _ => trivial

/-- **C54 fails in general**: a file whose one cel is a tilemap with different X and Y flip masks can be expressed in the
format, but parsing its encoding returns another file. -/
theorem C54_round_trip_fails : ∃ f : RawFile, FitsFile f ∧ parseRawFile ⟨false, 1000⟩ (fileBytes f) ≠ .ok f := by
  let cel : CelChunk :=
    { layerIndex := 0, x := 0, y := 0, opacity := 255, zIndex := 0,
      content := .compressedTilemap 1 1 32 0x1fffffff 0x20000000 0x40000000 0x80000000 [], userData := none }
  have fits : FitsFile ⟨sample.header, [{ duration := 1, chunks := [.cel cel] }]⟩ := by
    refine ⟨trivial, by simp, ?_⟩
    simp only [List.mem_singleton, forall_eq]
    refine ⟨?_, by decide +kernel⟩
    simp only [List.mem_singleton, forall_eq]
    exact ⟨⟨by simp [cel], rfl⟩, by decide +kernel⟩
  refine ⟨_, fits, ?_⟩
  rw [C54_as_read_partial _ _ fits (by simp [NoNestedMaps]) (by simp [StackFor])]
  intro h
  have h := Outcome.ok.inj h
  simp [readFileAs, readAs, cel, swapFlips] at h

end Ase
