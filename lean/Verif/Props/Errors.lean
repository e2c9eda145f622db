import Verif.Lemmas.Errors
import Verif.Props.Header
import Verif.Props.Assemble
import Verif.Spec.Sample

/-!
# C61, C62: which error is reported, and where

`NomErr.error` is nom's recoverable `Err::Error`, `NomErr.failure` is `Err::Failure`; `ParseError.nom s kind` carries the
bytes `s` the error points at.
-/

namespace Ase

open Spec

/-! ## The header -/

/-- **C61 (header).** A header is rejected for exactly four reasons, each with its own error: fewer than 128 bytes
(`Eof`, pointing at the whole input); a wrong magic number at offset 4, or a byte other than zero at offsets 20 to 23 or
24 to 27 (`Tag`, pointing at that field up to the end of the header).  The first one that applies is reported. -/
theorem C61_header_errors (b : Bytes) (e : NomErr) : parseHeader b = .err e ↔
    (b.length < 128 ∧ e = .error (.nom b .eof)) ∨
    (128 ≤ b.length ∧ (b.drop 4).take 2 ≠ [0xE0, 0xA5] ∧ e = .error (.nom ((b.take 128).drop 4) .tag)) ∨
    (128 ≤ b.length ∧ (b.drop 4).take 2 = [0xE0, 0xA5] ∧ (b.drop 20).take 4 ≠ [0, 0, 0, 0] ∧
      e = .error (.nom ((b.take 128).drop 20) .tag)) ∨
    (128 ≤ b.length ∧ (b.drop 4).take 2 = [0xE0, 0xA5] ∧ (b.drop 20).take 4 = [0, 0, 0, 0] ∧
      (b.drop 24).take 4 ≠ [0, 0, 0, 0] ∧ e = .error (.nom ((b.take 128).drop 24) .tag)) := by
  have fwd : ∀ e, parseHeader b = .err e →
    (b.length < 128 ∧ e = .error (.nom b .eof)) ∨
    (128 ≤ b.length ∧ (b.drop 4).take 2 ≠ [0xE0, 0xA5] ∧ e = .error (.nom ((b.take 128).drop 4) .tag)) ∨
    (128 ≤ b.length ∧ (b.drop 4).take 2 = [0xE0, 0xA5] ∧ (b.drop 20).take 4 ≠ [0, 0, 0, 0] ∧
      e = .error (.nom ((b.take 128).drop 20) .tag)) ∨
    (128 ≤ b.length ∧ (b.drop 4).take 2 = [0xE0, 0xA5] ∧ (b.drop 20).take 4 = [0, 0, 0, 0] ∧
      (b.drop 24).take 4 ≠ [0, 0, 0, 0] ∧ e = .error (.nom ((b.take 128).drop 24) .tag)) := by
    intro e h
    rcases P.bind_err.1 h with h | ⟨l, r, h1, h2⟩
    · exact .inl (take_err.1 h)
    · obtain ⟨hl, hb⟩ := take_ok.1 h1
      have hbl : 128 ≤ b.length := by rw [hb]; simp; omega
      obtain rfl : l = b.take 128 := by rw [hb, ← hl]; simp
      have h := headerFields_err hl (onSlice_err.1 h2)
      simp only [List.drop_take, List.take_take] at h
      refine .inr ?_
      rcases h with ⟨h1, h2⟩ | ⟨h1, h2, h3⟩ | ⟨h1, h2, h3, h4⟩
      · exact .inl ⟨hbl, by simpa using h1, by simpa [List.drop_take] using h2⟩
      · exact .inr (.inl ⟨hbl, by simpa using h1, by simpa using h2, by simpa [List.drop_take] using h3⟩)
      · exact .inr (.inr ⟨hbl, by simpa using h1, by simpa using h2, by simpa using h3, by simpa [List.drop_take] using h4⟩)
  refine ⟨fwd e, fun h => ?_⟩
  have hno : ¬ ∃ (r : Bytes) (h : Header), parseHeader b = .ok (r, h) := by
    rw [(C03_header b).2.1]
    rintro ⟨h1, h2, h3⟩
    have z1 : (b.drop 20).take 4 = [0, 0, 0, 0] := by
      have := congrArg (List.take 4) h3
      rwa [List.take_take] at this
    have z2 : (b.drop 24).take 4 = [0, 0, 0, 0] := by
      have := congrArg (List.drop 4) h3
      rwa [List.drop_take, List.drop_drop] at this
    rcases h with ⟨h, _⟩ | ⟨_, h, _⟩ | ⟨_, _, h, _⟩ | ⟨_, _, _, h, _⟩
    · omega
    · exact h h2
    · exact h z1
    · exact h z2
  cases hp : parseHeader b with
  | ok v => exact absurd ⟨v.1, v.2, hp⟩ hno
  | panic k => exact absurd hp ((C03_header b).2.2.2 k)
  | err e' =>
    have h' := fwd e' hp
    congr 1
    rcases h with ⟨a1, rfl⟩ | ⟨a1, a2, rfl⟩ | ⟨a1, a2, a3, rfl⟩ | ⟨a1, a2, a3, a4, rfl⟩ <;>
    rcases h' with ⟨b1, rfl⟩ | ⟨b1, b2, rfl⟩ | ⟨b1, b2, b3, rfl⟩ | ⟨b1, b2, b3, b4, rfl⟩ <;>
    first
      | rfl
      | omega
      | exact absurd a2 b2
      | exact absurd b2 a2
      | exact absurd a3 b3
      | exact absurd b3 a3

/-- All four occur. -/
example :
    parseHeader [1, 2] = .err (.error (.nom [1, 2] .eof)) ∧
    parseHeader (List.replicate 130 7) = .err (.error (.nom (List.replicate 124 7) .tag)) ∧
    parseHeader ([0, 0, 0, 0, 0xE0, 0xA5] ++ List.replicate 122 7) = .err (.error (.nom (List.replicate 108 7) .tag)) ∧
    parseHeader ([0, 0, 0, 0, 0xE0, 0xA5] ++ List.replicate 18 0 ++ List.replicate 106 7)
      = .err (.error (.nom (List.replicate 104 7) .tag)) := by decide +kernel

/-! ## Chunks and frames -/

/-- **C61 (chunk).** A chunk is rejected for exactly these reasons: there is no room for the size; the size is below 4
(this alone is a failure, and it is reported as an invalid *frame* size); the chunk is longer than the rest of the
input; there is no room for the type; or the content is rejected, with that error. -/
theorem C61_chunk_errors (plat : Plat) (b : Bytes) (e : NomErr) : parseChunk plat b = .err e ↔
    (b.length < 4 ∧ e = .error (.nom b .eof)) ∨
    (∃ (n : UInt32) (rest : Bytes), b = le32 n ++ rest ∧ n.toNat < 4 ∧ e = .failure (.invalidFrameSize n)) ∨
    (∃ (n : UInt32) (rest : Bytes), b = le32 n ++ rest ∧ 4 ≤ n.toNat ∧ b.length < n.toNat ∧ e = .error (.nom rest .eof)) ∨
    (∃ l rest, b = leNat32 (4 + l.length) ++ l ++ rest ∧ l.length < 2 ∧ e = .error (.nom l .eof)) ∨
    (∃ (code : UInt16) (body rest : Bytes), 6 + body.length < 2 ^ 32 ∧
      b = leNat32 (6 + body.length) ++ le16 code ++ body ++ rest ∧ parseChunkBody plat (typeOf code) body = .err e) :=
  parseChunk_err

/-- **C61 (content).** The content of a chunk is rejected only because the body ends too early (pointing at what is left
of the body there), because a STRING field in it is not UTF-8, because a tag's range is inverted (tags chunks only), or because of
the index range of a palette chunk.  The last two are failures, the others are recoverable.  In particular nothing in
the property maps of a user data chunk makes the file fail. -/
theorem C61_content_errors (plat : Plat) (code : UInt16) (body : Bytes) (e : NomErr)
    (h : parseChunkBody plat (typeOf code) body = .err e) :
    (∃ s, s <:+ body ∧ e = .error (.nom s .eof)) ∨ (∃ e', TextError body e' ∧ e = .error e') ∨
    (code = 0x2018 ∧ ∃ a z, z < a ∧ e = .failure (.invalidFrameRange a z)) ∨
    (code = 0x2019 ∧ (e = .failure (.paletteError .firstColorIndexOutOfBounds) ∨
      e = .failure (.paletteError .lastColorIndexOutOfBounds) ∨
      e = .failure (.paletteError .firstColorIndexGreaterThanLastColorIndex))) := by
  have fin : ∀ {F : ParseError → Prop} {p : P Chunk}, Errs F p → p body = .err e →
      (∃ s, s <:+ body ∧ e = .error (.nom s .eof)) ∨ (∃ e', TextError body e' ∧ e = .error e') ∨ ∃ e', F e' ∧ e = .failure e' := by
    intro F p hp he
    cases e with
    | error e =>
      rcases hp.error he with ht | ⟨s, hs, rfl⟩
      · exact .inr (.inl ⟨e, ht, rfl⟩)
      · exact .inl ⟨s, hs, rfl⟩
    | failure e => exact .inr (.inr ⟨e, hp.failure he, rfl⟩)
  cases hc : chunkTypes.lookup code with
  | none =>
    have ht : typeOf code = .error code := by unfold typeOf; rw [hc]
    rw [ht] at h; cases h
  | some t =>
    have ht : typeOf code = .ok t := by unfold typeOf; rw [hc]
    rw [ht] at h
    have hm := mem_of_lookup hc
    simp only [chunkTypes, List.mem_cons, Prod.mk.injEq, List.not_mem_nil, or_false] at hm
    clear ht hc
    have no : ∀ {p : P Chunk}, Errs (fun _ => False) p → p body = .err e →
        (∃ s, s <:+ body ∧ e = .error (.nom s .eof)) ∨ (∃ e', TextError body e' ∧ e = .error e') ∨
        (code = 0x2018 ∧ ∃ a z, z < a ∧ e = .failure (.invalidFrameRange a z)) ∨
        (code = 0x2019 ∧ (e = .failure (.paletteError .firstColorIndexOutOfBounds) ∨
          e = .failure (.paletteError .lastColorIndexOutOfBounds) ∨
          e = .failure (.paletteError .firstColorIndexGreaterThanLastColorIndex))) := by
      intro p hp he
      rcases fin hp he with h | h | ⟨_, h, _⟩
      · exact .inl h
      · exact .inr (.inl h)
      · exact h.elim
    rcases hm with ⟨hcode, rfl⟩ | ⟨hcode, rfl⟩ | ⟨hcode, rfl⟩ | ⟨hcode, rfl⟩ | ⟨hcode, rfl⟩ | ⟨hcode, rfl⟩ |
      ⟨hcode, rfl⟩ | ⟨hcode, rfl⟩ | ⟨hcode, rfl⟩ | ⟨hcode, rfl⟩ | ⟨hcode, rfl⟩ | ⟨hcode, rfl⟩ | ⟨hcode, rfl⟩ | ⟨hcode, rfl⟩
    all_goals first
      | exact no (Errs.map Errs.oldPalette) h
      | exact no (Errs.map Errs.layer) h
      | exact no (Errs.map Errs.cel) h
      | exact no (Errs.map Errs.celExtra) h
      | exact no (Errs.map Errs.colorProfile) h
      | exact no (Errs.map Errs.externalFiles) h
      | exact no (Errs.map Errs.mask) h
      | exact no (Errs.pure _) h
      | exact no (Errs.map (Errs.userData plat)) h
      | exact no (Errs.map Errs.slice) h
      | exact no (Errs.map Errs.tileset) h
      | (rcases fin (Errs.map Errs.tags) h with h | h | ⟨_, ⟨a, z, h1, rfl⟩, h2⟩
         · exact .inl h
         · exact .inr (.inl h)
         · exact .inr (.inr (.inl ⟨hcode, a, z, h1, h2⟩)))
      | (rcases fin (Errs.map Errs.palette) h with h | h | ⟨_, h1, h2⟩
         · exact .inl h
         · exact .inr (.inl h)
         · refine .inr (.inr (.inr ⟨hcode, ?_⟩))
           rcases h1 with rfl | rfl | rfl
           · exact .inl h2
           · exact .inr (.inl h2)
           · exact .inr (.inr h2))

/-- **C61 (frame).** A frame is rejected for exactly these reasons: there is no room for the size; the size is below 4;
the frame is longer than the rest of the input; its magic number is wrong; it is too short for its own header; or, after
some good chunks, fewer than declared, the next chunk is rejected, with that chunk's error. -/
theorem C61_frame_errors (plat : Plat) (b : Bytes) (e : NomErr) : parseRawframe plat b = .err e ↔
    (b.length < 4 ∧ e = .error (.nom b .eof)) ∨
    (∃ (n : UInt32) (rest : Bytes), b = le32 n ++ rest ∧ n.toNat < 4 ∧ e = .failure (.invalidFrameSize n)) ∨
    (∃ (n : UInt32) (rest : Bytes), b = le32 n ++ rest ∧ 4 ≤ n.toNat ∧ b.length < n.toNat ∧ e = .error (.nom rest .eof)) ∨
    (∃ l rest, 4 + l.length < 2 ^ 32 ∧ b = leNat32 (4 + l.length) ++ l ++ rest ∧
      ((l.take 2 ≠ [0xFA, 0xF1] ∧ e = .error (.nom l .tag)) ∨
       (l.take 2 = [0xFA, 0xF1] ∧ l.length < 12 ∧ e = .error (.nom (l.drop (firstMissing l.length)) .eof)) ∨
       (∃ (old duration : UInt16) (new : UInt32) (reserved : Bytes) (cs : List Chunk) (cb r : Bytes),
        reserved.length = 2 ∧ l = [0xFA, 0xF1] ++ le16 old ++ le16 duration ++ reserved ++ le32 new ++ cb ++ r ∧
        Seq (IsChunk (readsUserData plat)) cs cb ∧ cs.length < chunkCount old new ∧ parseChunk plat r = .err e))) := by
  show sized _ b = _ ↔ _
  rw [sized_err]
  simp only [parseRawframeBody_err]

/-! ## Files -/

/-- **C61 (file).** `parse_file` fails for exactly these reasons and with exactly these errors.  The input is a header and
a longest run of good frames, and then:
* the header is rejected: its error;
* the first frame is rejected: its error;
* a later frame is rejected with a failure: that failure;
* a later frame is rejected with a recoverable error: whatever the error was, `Eof` pointing at the start of that frame;
* all frames are good, but the file is indexed and its palette chunks are not usable: that palette error;
* all frames are good, the palette too, but a cel's layer index is larger than the number of layers, and no earlier cel's
  layer index is that number or larger: `LayerIndexOutOfBounds`. -/
theorem C61_file_errors (plat : Plat) (b : Bytes) (e : NomErr) : parseFile plat b = .err e ↔
    parseHeader b = .err e ∨
    ∃ (h : Header) (header : Bytes) (fs : List RawFrame) (frames rest : Bytes),
      IsHeader h header ∧ Seq (IsFrame (readsUserData plat)) fs frames ∧ b = header ++ frames ++ rest ∧
      ((fs = [] ∧ parseRawframe plat rest = .err e) ∨
       (fs ≠ [] ∧ ∃ e', parseRawframe plat rest = .err (.failure e') ∧ e = .failure e') ∨
       (fs ≠ [] ∧ rest ≠ [] ∧ (∃ e', parseRawframe plat rest = .err (.error e')) ∧ e = .error (.nom rest .eof)) ∨
       (fs ≠ [] ∧ rest = [] ∧ h.colorDepth = .indexed ∧
         ∃ pe, paletteProblem (allChunks fs) = some pe ∧ e = .failure (.paletteError pe)) ∨
       (fs ≠ [] ∧ rest = [] ∧ (h.colorDepth = .indexed → paletteProblem (allChunks fs) = none) ∧
         ∃ pre c post, allCels fs = pre ++ c :: post ∧
           (∀ c' ∈ pre, c'.layerIndex.toNat < (allLayers fs).length) ∧
           (allLayers fs).length < c.layerIndex.toNat ∧ e = .failure .layerIndexOutOfBounds)) := by
  constructor
  · intro h0
    rcases outcome_bind_err.1 h0 with h1 | ⟨raw, hraw, h1⟩
    · clear h0
      rcases outcome_bind_err.1 h1 with h2 | ⟨⟨r, h⟩, hh, h2⟩
      · exact .inl h2
      · clear h1
        obtain ⟨hb, hhb, rfl⟩ := (parses_header _ _ _).1 hh
        rcases outcome_bind_err.1 h2 with h3 | ⟨_, _, h3⟩
        · obtain ⟨fs, l, r', hs, rfl, hr⟩ := parseFrames_err.1 h3
          refine .inr ⟨h, hb, fs, l, r', hhb, hs, by simp, ?_⟩
          rcases hr with hr | hr | hr
          · exact .inl hr
          · exact .inr (.inr (.inl hr))
          · exact .inr (.inl hr)
        · cases h3
    · clear h0
      obtain ⟨hb, fb, hhb, hne, hs, rfl⟩ := parseRawFile_ok.1 hraw
      refine .inr ⟨raw.header, hb, raw.frames, fb, [], hhb, hs, by simp, .inr (.inr (.inr ?_))⟩
      rcases (assembleFile_err (fresh hraw)).1 h1 with h | h
      · exact .inl ⟨hne, rfl, h⟩
      · exact .inr ⟨hne, rfl, h⟩
  · rintro (he | ⟨h, hb, fs, fb, r, hhb, hs, rfl, hr⟩)
    · exact outcome_bind_err.2 (.inl (outcome_bind_err.2 (.inl he)))
    · have hh : parseHeader (hb ++ fb ++ r) = .ok (fb ++ r, h) := (parses_header _ _ _).2 ⟨hb, hhb, by simp⟩
      have hfr : ∀ {e}, parseFrames plat (fb ++ r) = .err e → parseFile plat (hb ++ fb ++ r) = .err e := fun he =>
        outcome_bind_err.2 (.inl (outcome_bind_err.2 (.inr ⟨_, hh, outcome_bind_err.2 (.inl he)⟩)))
      have has : r = [] → fs ≠ [] → ∀ {e}, assembleFile ⟨h, fs⟩ = .err e →
          FreshFrames fs → parseFile plat (hb ++ fb ++ r) = .err e := by
        rintro rfl hne e he -
        exact outcome_bind_err.2 (.inr ⟨⟨h, fs⟩, parseRawFile_ok.2 ⟨hb, fb, hhb, hne, hs, by simp⟩, he⟩)
      have hfresh : r = [] → fs ≠ [] → FreshFrames fs := by
        rintro rfl hne
        exact fresh (raw := ⟨h, fs⟩) (parseRawFile_ok.2 ⟨hb, fb, hhb, hne, hs, rfl⟩)
      rcases hr with hr | hr | hr | ⟨hne, hr, h1⟩ | ⟨hne, hr, h1⟩
      · exact hfr (parseFrames_err.2 ⟨fs, fb, r, hs, rfl, .inl hr⟩)
      · exact hfr (parseFrames_err.2 ⟨fs, fb, r, hs, rfl, .inr (.inr hr)⟩)
      · exact hfr (parseFrames_err.2 ⟨fs, fb, r, hs, rfl, .inr (.inl hr)⟩)
      · exact has hr hne ((assembleFile_err (raw := ⟨h, fs⟩) (hfresh hr hne)).2 (.inl h1)) (hfresh hr hne)
      · exact has hr hne ((assembleFile_err (raw := ⟨h, fs⟩) (hfresh hr hne)).2 (.inr h1)) (hfresh hr hne)

/-- **C61 (tags).** A tags chunk is rejected with a failure exactly when, after some good tags, fewer than declared, the
next one starts with a range whose end is before its start; the two numbers are reported in the order in which they are
stored. -/
theorem C61_tags_failure (body : Bytes) (e : ParseError) : parseTagsChunk body = .err (.failure e) ↔
    ∃ (n a z : UInt16) (reserved : Bytes) (ts : List Tag) (l rest : Bytes), reserved.length = 8 ∧
      body = le16 n ++ reserved ++ l ++ le16 a ++ le16 z ++ rest ∧ Seq IsTag ts l ∧ ts.length < n.toNat ∧ z < a ∧
      e = .invalidFrameRange a z := by
  constructor
  · intro h0
    rcases P.bind_err.1 h0 with h | ⟨n, _, g, h1⟩ <;> clear h0
    · exact (Errs.word.failure (F := fun _ => False) h).elim
    obtain rfl := word_ok.1 g
    rcases P.bind_err.1 h1 with h | ⟨res, _, g, h2⟩ <;> clear h1
    · exact ((Errs.take _).failure (F := fun _ => False) h).elim
    obtain ⟨hres, rfl⟩ := take_ok.1 g
    rcases P.bind_err.1 h2 with h | ⟨_, _, _, h⟩ <;> clear h2
    · obtain ⟨ts, l, r, hs, rfl, hn, he⟩ := (count_err parses_tag).1 h
      rcases P.bind_err.1 he with h | ⟨a, _, g, h1⟩ <;> clear he
      · exact (Errs.word.failure (F := fun _ => False) h).elim
      obtain rfl := word_ok.1 g
      rcases P.bind_err.1 h1 with h | ⟨z, r, g, h2⟩ <;> clear h1
      · exact (Errs.word.failure (F := fun _ => False) h).elim
      obtain rfl := word_ok.1 g
      by_cases hz : z < a
      · rw [if_pos hz] at h2
        cases h2
        exact ⟨n, a, z, res, ts, l, r, hres, by simp, hs, hn, hz, rfl⟩
      · rw [if_neg hz] at h2
        exact (Errs.failure (F := fun _ => False) (Errs.bind Errs.byte fun _ => Errs.bind Errs.word fun _ =>
          Errs.bind (Errs.take _) fun _ => Errs.bind (Errs.take _) fun _ => Errs.bind Errs.byte fun _ =>
          Errs.bind Errs.parseString fun _ => Errs.map (Errs.color3 _)) h2).elim
    · cases h
  · rintro ⟨n, a, z, res, ts, l, rest, hres, rfl, hs, hn, hz, rfl⟩
    simp only [List.append_assoc]
    unfold parseTagsChunk
    rw [P.bind_of_ok (word_ok.2 rfl), P.bind_of_ok (take_ok.2 ⟨hres, rfl⟩)]
    refine P.bind_of_err ((count_err parses_tag).2 ⟨ts, l, _, hs, rfl, hn, ?_⟩)
    unfold parseTag
    rw [P.bind_of_ok (word_ok.2 rfl), P.bind_of_ok (word_ok.2 rfl), if_pos hz]
    rfl

/-- **C61 (palette chunk).** A palette chunk is rejected with a failure exactly when its first index is above 255, or else
its last index is above 255, or else the last index is below the first one; whatever follows. -/
theorem C61_palette_failure (body : Bytes) (e : ParseError) : parsePaletteChunk body = .err (.failure e) ↔
    ∃ (n first : UInt32) (rest : Bytes), body = le32 n ++ le32 first ++ rest ∧
      ((255 < first.toNat ∧ e = .paletteError .firstColorIndexOutOfBounds) ∨
       (first.toNat ≤ 255 ∧ ∃ (last : UInt32) (rest' : Bytes), rest = le32 last ++ rest' ∧
         ((255 < last.toNat ∧ e = .paletteError .lastColorIndexOutOfBounds) ∨
          (last.toNat ≤ 255 ∧ last < first ∧ e = .paletteError .firstColorIndexGreaterThanLastColorIndex)))) := by
  have u8 : ∀ {e : ParseError} {b : Bytes} {o : Outcome NomErr (Bytes × UInt8)} (n : UInt32),
      parseDwordAsU8 e (le32 n ++ b) = o ↔
        o = if n.toNat < 256 then .ok (b, UInt8.ofNat n.toNat) else .err (.failure e) := by
    intro e b o n
    unfold parseDwordAsU8
    rw [P.bind_of_ok (dword_ok.2 rfl)]
    by_cases hn : n.toNat < 256
    · rw [if_pos hn, if_pos hn]; exact eq_comm
    · rw [if_neg hn, if_neg hn]; exact eq_comm
  have split : ∀ {e : ParseError} {b : Bytes} {e' : ParseError}, parseDwordAsU8 e b = .err (.failure e') →
      ∃ (n : UInt32) (r : Bytes), b = le32 n ++ r := by
    intro e b e' h
    rcases P.bind_err.1 h with h | ⟨n, r, g, _⟩
    · exact (Errs.dword.failure (F := fun _ => False) h).elim
    · exact ⟨n, r, dword_ok.1 g⟩
  have lt : ∀ a b : UInt32, a.toNat < 256 → b.toNat < 256 →
      (UInt8.ofNat a.toNat < UInt8.ofNat b.toNat ↔ a < b) := by
    intro a b ha hb
    rw [UInt8.lt_iff_toNat_lt, UInt32.lt_iff_toNat_lt, UInt8.toNat_ofNat', UInt8.toNat_ofNat',
      Nat.mod_eq_of_lt ha, Nat.mod_eq_of_lt hb]
  constructor
  · intro h0
    rcases P.bind_err.1 h0 with h | ⟨n, _, g, h1⟩ <;> clear h0
    · exact (Errs.parseDwordAsUsize.failure (F := fun _ => False) h).elim
    obtain ⟨n, _, g1, g2⟩ := P.bind_ok.1 g
    obtain ⟨rfl, rfl⟩ := P.pure_ok.1 g2
    obtain rfl := dword_ok.1 g1
    clear g g1 g2
    rcases P.bind_err.1 h1 with h | ⟨f, r, g, h2⟩
    · obtain ⟨first, r, rfl⟩ := split h
      refine ⟨n, first, r, by simp, .inl ?_⟩
      rw [u8] at h
      by_cases hf : first.toNat < 256
      · rw [if_pos hf] at h; cases h
      · rw [if_neg hf] at h; cases h; exact ⟨by omega, rfl⟩
    clear h1
    obtain ⟨first, r1, g1, g2⟩ := P.bind_ok.1 g
    obtain rfl := dword_ok.1 g1
    clear g g1
    by_cases hf : first.toNat < 256
    · rw [if_pos hf] at g2
      obtain ⟨rfl, rfl⟩ := P.pure_ok.1 g2
      clear g2
      refine ⟨n, first, r1, by simp, .inr ⟨by omega, ?_⟩⟩
      rcases P.bind_err.1 h2 with h | ⟨l, r, g, h3⟩
      · obtain ⟨last, r, rfl⟩ := split h
        refine ⟨last, r, rfl, .inl ?_⟩
        rw [u8] at h
        by_cases hl : last.toNat < 256
        · rw [if_pos hl] at h; cases h
        · rw [if_neg hl] at h; cases h; exact ⟨by omega, rfl⟩
      clear h2
      obtain ⟨last, r2, g1, g2⟩ := P.bind_ok.1 g
      obtain rfl := dword_ok.1 g1
      clear g g1
      by_cases hl : last.toNat < 256
      · rw [if_pos hl] at g2
        obtain ⟨rfl, rfl⟩ := P.pure_ok.1 g2
        refine ⟨last, r2, rfl, .inr ⟨by omega, ?_⟩⟩
        by_cases hlt : last < first
        · rw [if_pos ((lt _ _ hl hf).2 hlt)] at h3
          cases h3; exact ⟨hlt, rfl⟩
        · rw [if_neg (fun h => hlt ((lt _ _ hl hf).1 h))] at h3
          exact (Errs.failure (F := fun _ => False) (Errs.bind (Errs.take _) fun _ =>
            Errs.map (Errs.count Errs.paletteEntry _)) h3).elim
      · rw [if_neg hl] at g2; cases g2
    · rw [if_neg hf] at g2; cases g2
  · rintro ⟨n, first, rest, rfl, h⟩
    unfold parsePaletteChunk
    rw [List.append_assoc, P.bind_of_ok (b := le32 n ++ _) (parseDwordAsUsize_ok.2 ⟨n.toNat_lt, rfl⟩)]
    rcases h with ⟨hf, rfl⟩ | ⟨hf, last, rest', rfl, h⟩
    · exact P.bind_of_err ((u8 _).2 (by rw [if_neg (by omega)]))
    · rw [P.bind_of_ok ((u8 _).2 (by rw [if_pos (by omega)]))]
      rcases h with ⟨hl, rfl⟩ | ⟨hl, hlt, rfl⟩
      · exact P.bind_of_err ((u8 _).2 (by rw [if_neg (by omega)]))
      · rw [P.bind_of_ok ((u8 _).2 (by rw [if_pos (by omega)])), if_pos ((lt _ _ (by omega) (by omega)).2 hlt)]
        rfl

/-! ## The cause of an error in a later frame is lost -/

/-- Whatever is wrong with a frame other than the first (unless it is a failure), the same error is reported. -/
theorem C61_cause_hidden (plat : Plat) (b : Bytes) (h : Header) (header frames rest : Bytes) (fs : List RawFrame)
    (e' : ParseError) (hh : IsHeader h header) (hs : Seq (IsFrame (readsUserData plat)) fs frames) (hne : fs ≠ [])
    (hr : rest ≠ []) (hb : b = header ++ frames ++ rest) (he : parseRawframe plat rest = .err (.error e')) :
    parseFile plat b = .err (.error (.nom rest .eof)) :=
  (C61_file_errors plat b _).2 (.inr ⟨h, header, fs, frames, rest, hh, hs, hb, .inr (.inr (.inl ⟨hne, hr, ⟨e', he⟩, rfl⟩))⟩)

/-- A frame with a layer whose name is not UTF-8: as the first frame it gives the UTF-8 error, as the second one an `Eof`
pointing at the frame.  A chunk size of 3 is a failure, and is reported as a frame size. -/
example :
    (let bad := Sample.frame 0 [Sample.layer 1 0 0 255 [0xFF]]
     let good := Sample.frame 0 [Sample.layer 1 0 0 255 [65]]
     (match parseFile ⟨true, 9⟩ (Sample.header 1 1 32 ++ bad) with
      | .err e => decide (e = .error (.utf8Error 0 (some 1))) | _ => false) &&
     (match parseFile ⟨true, 9⟩ (Sample.header 1 1 32 ++ good ++ bad) with
      | .err e => decide (e = .error (.nom bad .eof)) | _ => false) &&
     (match parseFile ⟨true, 9⟩ (Sample.header 1 1 32 ++ good ++ Sample.frame 0 [[3, 0, 0, 0, 0, 0]]) with
      | .err e => decide (e = .failure (.invalidFrameSize 3)) | _ => false)) = true := by decide +kernel

/-- The remaining outcomes of `C61_file_errors`: an indexed file without a palette, a cel for layer 2 of one. -/
example :
    ((match parseFile ⟨true, 9⟩ (Sample.header 1 1 8 ++ Sample.frame 0 []) with
      | .err e => decide (e = .failure (.paletteError .missing)) | _ => false) &&
     (match parseFile ⟨true, 9⟩ (Sample.header 1 1 32 ++ Sample.frame 0 [Sample.layer 1 0 0 255 [65],
        Sample.cel 2 0 0 1 1 [1, 2, 3, 4]]) with
      | .err e => decide (e = .failure .layerIndexOutOfBounds) | _ => false)) = true := by decide +kernel

/-- An inverted tag range, and the three palette failures. -/
example :
    ((match parseTagsChunk ([1, 0] ++ List.replicate 8 0 ++ [5, 0, 3, 0]) with
      | .err e => decide (e = .failure (.invalidFrameRange 5 3)) | _ => false) &&
     (match parsePaletteChunk (leNat32 1 ++ leNat32 256) with
      | .err e => decide (e = .failure (.paletteError .firstColorIndexOutOfBounds)) | _ => false) &&
     (match parsePaletteChunk (leNat32 1 ++ leNat32 255 ++ leNat32 256) with
      | .err e => decide (e = .failure (.paletteError .lastColorIndexOutOfBounds)) | _ => false) &&
     (match parsePaletteChunk (leNat32 1 ++ leNat32 2 ++ leNat32 1) with
      | .err e => decide (e = .failure (.paletteError .firstColorIndexGreaterThanLastColorIndex)) | _ => false)) = true := by
  decide +kernel

/-! ## Positions -/

/-- The errors `parse_file` can return: a nom error of kind `Eof` or `Tag` pointing at a contiguous part of the input, the
UTF-8 error about a STRING field in the input, or one of the failures, which carry a number below 4 or two numbers in the wrong order that stand in the
input. -/
def Spec.Reportable (b : Bytes) (e : NomErr) : Prop :=
  (∃ s kind, e = .error (.nom s kind) ∧ (kind = .eof ∨ kind = .tag) ∧ s <:+: b) ∨
  (∃ e', TextError b e' ∧ e = .error e') ∨
  (∃ n : UInt32, e = .failure (.invalidFrameSize n) ∧ n.toNat < 4 ∧ le32 n <:+: b) ∨
  (∃ a z : UInt16, e = .failure (.invalidFrameRange a z) ∧ z < a ∧ le16 a ++ le16 z <:+: b) ∨
  (∃ pe, e = .failure (.paletteError pe)) ∨
  e = .failure .layerIndexOutOfBounds

theorem Spec.Reportable.mono {b b' : Bytes} {e : NomErr} (h : Reportable b e) (hb : b <:+: b') : Reportable b' e := by
  rcases h with ⟨s, k, h1, h2, h3⟩ | ⟨_, h⟩ | ⟨n, h1, h2, h3⟩ | ⟨a, z, h1, h2, h3⟩ | h | h
  · exact .inl ⟨s, k, h1, h2, h3.trans hb⟩
  · exact .inr (.inl ⟨_, h.1.mono hb, h.2⟩)
  · exact .inr (.inr (.inl ⟨n, h1, h2, h3.trans hb⟩))
  · exact .inr (.inr (.inr (.inl ⟨a, z, h1, h2, h3.trans hb⟩)))
  · exact .inr (.inr (.inr (.inr (.inl h))))
  · exact .inr (.inr (.inr (.inr (.inr h))))

private theorem infix_mid (a b c : Bytes) : b <:+: a ++ b ++ c := ⟨a, c, rfl⟩

theorem reportable_content {plat : Plat} {code : UInt16} {body : Bytes} {e : NomErr}
    (h : parseChunkBody plat (typeOf code) body = .err e) : Reportable body e := by
  rcases C61_content_errors plat code body e h with ⟨s, hs, rfl⟩ | ht | ⟨rfl, a, z, hz, rfl⟩ | ⟨_, h⟩
  · exact .inl ⟨s, _, rfl, .inl rfl, hs.isInfix⟩
  · exact .inr (.inl ht)
  · have : parseTagsChunk body = .err (.failure (.invalidFrameRange a z)) := by
      have h' : (do pure (Chunk.tags (← parseTagsChunk)) : P Chunk) body = .err (.failure (.invalidFrameRange a z)) := h
      rcases P.bind_err.1 h' with h | ⟨_, _, _, h⟩
      · exact h
      · cases h
    obtain ⟨n, a', z', res, ts, l, rest, _, rfl, _, _, hz', he⟩ := (C61_tags_failure _ _).1 this
    cases he
    refine .inr (.inr (.inr (.inl ⟨a, z, rfl, hz, ?_⟩)))
    exact ⟨le16 n ++ res ++ l, rest, by simp⟩
  · refine .inr (.inr (.inr (.inr (.inl ?_))))
    rcases h with rfl | rfl | rfl <;> exact ⟨_, rfl⟩

theorem reportable_chunk {plat : Plat} {b : Bytes} {e : NomErr} (h : parseChunk plat b = .err e) : Reportable b e := by
  rcases (C61_chunk_errors plat b e).1 h with ⟨_, rfl⟩ | ⟨n, rest, rfl, hn, rfl⟩ | ⟨n, rest, rfl, _, _, rfl⟩ |
      ⟨l, rest, rfl, _, rfl⟩ | ⟨code, body, rest, _, rfl, hc⟩
  · exact .inl ⟨b, _, rfl, .inl rfl, List.infix_refl _⟩
  · exact .inr (.inr (.inl ⟨n, rfl, hn, (List.prefix_append _ _).isInfix⟩))
  · exact .inl ⟨rest, _, rfl, .inl rfl, (List.suffix_append _ _).isInfix⟩
  · exact .inl ⟨l, _, rfl, .inl rfl, infix_mid _ _ _⟩
  · exact (reportable_content hc).mono (infix_mid _ _ _)

theorem reportable_frame {plat : Plat} {b : Bytes} {e : NomErr} (h : parseRawframe plat b = .err e) : Reportable b e := by
  rcases (C61_frame_errors plat b e).1 h with ⟨_, rfl⟩ | ⟨n, rest, rfl, hn, rfl⟩ | ⟨n, rest, rfl, _, _, rfl⟩ |
      ⟨l, rest, _, rfl, h1⟩
  · exact .inl ⟨b, _, rfl, .inl rfl, List.infix_refl _⟩
  · exact .inr (.inr (.inl ⟨n, rfl, hn, (List.prefix_append _ _).isInfix⟩))
  · exact .inl ⟨rest, _, rfl, .inl rfl, (List.suffix_append _ _).isInfix⟩
  · refine Reportable.mono ?_ (infix_mid _ l _)
    rcases h1 with ⟨_, rfl⟩ | ⟨_, _, rfl⟩ | ⟨old, duration, new, res, cs, cb, r, _, rfl, _, _, hc⟩
    · exact .inl ⟨l, _, rfl, .inr rfl, List.infix_refl _⟩
    · exact .inl ⟨_, _, rfl, .inl rfl, (List.drop_suffix _ _).isInfix⟩
    · exact (reportable_chunk hc).mono (List.suffix_append _ _).isInfix

/-- **C62.** Every error `parse_file` returns is one of those listed in `Spec.Reportable`: the bytes a nom error points at
are a contiguous part of the input (so its position can be computed), the numbers in the other errors stand in the input
and really are invalid, and `DwordToUsize`, `InvalidChunkSize` and `InvalidPropertyType` are never returned. -/
theorem C62_positions (plat : Plat) (b : Bytes) (e : NomErr) (h : parseFile plat b = .err e) : Reportable b e := by
  rcases (C61_file_errors plat b e).1 h with h | ⟨h, hb, fs, fb, r, _, _, rfl, hr⟩
  · rcases (C61_header_errors b e).1 h with ⟨_, rfl⟩ | ⟨_, _, rfl⟩ | ⟨_, _, _, rfl⟩ | ⟨_, _, _, _, rfl⟩
    · exact .inl ⟨b, _, rfl, .inl rfl, List.infix_refl _⟩
    all_goals exact .inl ⟨_, _, rfl, .inr rfl, (List.drop_suffix _ _).isInfix.trans (List.take_prefix _ _).isInfix⟩
  · have hr' : r <:+: hb ++ fb ++ r := (List.suffix_append _ _).isInfix
    rcases hr with ⟨_, he⟩ | ⟨_, e', he, rfl⟩ | ⟨_, _, _, rfl⟩ | ⟨_, _, _, pe, _, rfl⟩ | ⟨_, _, _, _, _, _, _, _, _, rfl⟩
    · exact (reportable_frame he).mono hr'
    · exact (reportable_frame he).mono hr'
    · exact .inl ⟨r, _, rfl, .inl rfl, hr'⟩
    · exact .inr (.inr (.inr (.inr (.inl ⟨pe, rfl⟩))))
    · exact .inr (.inr (.inr (.inr (.inr rfl))))

/-- The chunk of a file that ends too early is pointed at. -/
example : (match parseFile ⟨true, 9⟩ (Sample.header 1 1 32 ++ Sample.frame 0 [Sample.chunk 0x2005 [1, 2, 3]]) with
      | .err e => decide (e = .error (.nom [3] .eof)) | _ => false) = true := by decide +kernel

end Ase
