import Verif.Props.Attach
import Verif.Lemmas.Stops

/-!
# C09, C13, C21, C22, C23: whole files
-/

namespace Ase

open Spec

/-! ## C09 -/

/-- **C09.** The informational header fields are reported but influence nothing else: take any bytes `rest` and two
headers (with their bytes `l`, `l'`) that agree in colour depth and transparent index; they may differ in file size,
frame count, flags, speed, colour count, pixel ratio, grid (and, at this level, width and height). Then
`parse_file` has the same outcome on `l' ++ rest` as on `l ++ rest`, except that a returned `File` has the other
header. And the number of frames returned is the number of frame records, whatever the header says. -/
theorem C09_informational_fields (plat : Plat) (h h' : Header) (l l' : Bytes) (hl : IsHeader h l) (hl' : IsHeader h' l')
    (hd : h'.colorDepth = h.colorDepth) (ht : h'.transparentIndex = h.transparentIndex) (rest : Bytes) :
    (parseFile plat (l' ++ rest) = match parseFile plat (l ++ rest) with
      | .ok f => .ok { f with header := h' }
      | .err e => .err e
      | .panic k => .panic k) ∧
    (∀ f, parseFile plat (l ++ rest) = .ok f → ∃ frames : List RawFrame,
      Seq (IsFrame (readsUserData plat)) frames rest ∧ f.frames.length = frames.length) := by
  have e : ∀ {h l}, IsHeader h l → parseFile plat (l ++ rest) =
      ((parseFrames plat rest).bind fun v => assembleFile ⟨h, v.2⟩) := by
    intro h l hl
    unfold parseFile parseRawFile
    rw [(parses_header _ rest h).2 ⟨l, hl, rfl⟩]
    simp only [outcome_bind_def, Outcome.bind]
    cases parseFrames plat rest <;> rfl
  constructor
  · rw [e hl, e hl']
    cases parseFrames plat rest with
    | err => rfl
    | panic => rfl
    | ok v =>
      obtain ⟨_, fs⟩ := v
      simp only [Outcome.bind, assembleFile, outcome_bind_def]
      have : filePalette ⟨h', fs⟩ = filePalette ⟨h, fs⟩ := by
        simp only [filePalette_eq, hd, ht]
      rw [this]
      cases filePalette ⟨h, fs⟩ with
      | err => rfl
      | panic => rfl
      | ok p =>
        simp only
        cases buildFrames (collectFrames ⟨[], [], [], none, []⟩ [] fs).1.layers.length
          (collectFrames ⟨[], [], [], none, []⟩ [] fs).2 <;> rfl
  · intro f hf
    obtain ⟨raw, hraw, _, _, _, _, _, hdur⟩ := C26_collected plat _ f hf
    obtain ⟨l2, fs, hl2, _, hs, hb⟩ := parseRawFile_ok.1 hraw
    have h1 := (parses_header _ rest h).2 ⟨l, hl, rfl⟩
    have h2 := (parses_header _ fs raw.header).2 ⟨l2, hl2, hb⟩
    rw [h1] at h2
    cases h2
    refine ⟨raw.frames, hs, ?_⟩
    have := congrArg List.length hdur
    simpa using this

/-- The header claims one frame, the file has two. -/
example : (match parseFile ⟨true, 10⟩ (Sample.header 1 1 32 ++ (Sample.frame 100 [] ++ Sample.frame 50 [])) with
    | .ok f => f.header.frames == 1 && f.frames.map (·.duration) == [100, 50]
    | _ => false) = true := by decide +kernel

/-! ## C13 -/

/-- All tags of the chunk have ordered ranges. -/
def OrderedTags : Chunk → Prop
  | .tags t => ∀ tag ∈ t.tags, tag.framesStart.toNat ≤ tag.framesEnd.toNat
  | _ => True

/-- **C13**, whole files: every tag of a parsed file has `from ≤ to`. -/
theorem C13_file_tags (plat : Plat) (b : Bytes) (f : File) (hf : parseFile plat b = .ok f) :
    ∀ t ∈ f.tags, t.framesStart.toNat ≤ t.framesEnd.toNat := by
  obtain ⟨raw, hraw, _, _, ht, _⟩ := C26_collected plat b f hf
  have key := file_forall hraw (Q := OrderedTags) (by
    rintro c l ⟨code, body, _, hc, _⟩
    cases c with
    | tags t =>
      obtain ⟨_, l, _, ⟨_, _, _, _, hs, _⟩, _⟩ := hc
      refine seq_forall hs ?_
      rintro t l ⟨_, _, _, _, _, h, _⟩
      exact h
    | _ => trivial)
  have sub : ∀ (cs : List Chunk) (t : Tag), t ∈ tagsOf cs → ∃ c ∈ cs, ∃ ts, c = .tags ts ∧ ∃ t' ∈ ts.tags,
      t'.framesStart = t.framesStart ∧ t'.framesEnd = t.framesEnd := by
    intro cs
    induction cs with
    | nil => intro t h; cases h
    | cons c cs ih =>
      intro t h
      have tail : t ∈ tagsOf cs → ∃ c' ∈ c :: cs, ∃ ts, c' = .tags ts ∧ ∃ t' ∈ ts.tags,
          t'.framesStart = t.framesStart ∧ t'.framesEnd = t.framesEnd := fun h => by
        obtain ⟨c', hc', r⟩ := ih t h
        exact ⟨c', List.mem_cons_of_mem c hc', r⟩
      cases c with
      | tags ts =>
        simp only [tagsOf, owned, List.flatMap_cons, List.mem_append] at h
        rcases h with h | h
        · obtain ⟨i, hi, rfl⟩ := List.mem_mapIdx.1 h
          exact ⟨_, List.mem_cons_self, ts, rfl, ts.tags[i], List.getElem_mem hi, rfl, rfl⟩
        · exact tail h
      | userData u => exact tail (by simpa only [tagsOf, owned] using h)
      | _ =>
        simp only [tagsOf, owned, List.flatMap_cons, List.nil_append] at h
        exact tail h
  intro t hm
  rw [ht] at hm
  obtain ⟨fr, hfr, hm⟩ := List.mem_flatMap.1 hm
  obtain ⟨c, hc, ts, rfl, t', ht', e1, e2⟩ := sub _ _ hm
  have := key fr hfr _ hc t' ht'
  rwa [e1, e2] at this

/-- **C13**, whole files: the first inverted tag of a file, wherever it is, makes `parse_file` fail with the
non-recoverable error `InvalidFrameRange`. (The tag stands in the tags chunk with body `body` after the good tags `ts`;
the chunk stands after the good chunks `cs` of its frame; the frame stands after the good frames `fs`.) -/
theorem C13_inverted_tag_fails (plat : Plat) (h : Header) (hb : Bytes) (hh : IsHeader h hb) (fs : List RawFrame)
    (fb : Bytes) (hfs : Seq (IsFrame (readsUserData plat)) fs fb) (cs : List Chunk) (cb : Bytes)
    (hcs : Seq (IsChunk (readsUserData plat)) cs cb) (old duration : UInt16) (new : UInt32)
    (hn : cs.length < chunkCount old new) (ts : List Tag) (tb : Bytes) (hts : Seq IsTag ts tb) (n a z : UInt16)
    (hnt : ts.length < n.toNat) (haz : z.toNat < a.toNat) (future more body : Bytes) (hfut : future.length = 8)
    (hbody : body = le16 n ++ future ++ tb ++ le16 a ++ le16 z ++ more) (reserved extra rest : Bytes)
    (hres : reserved.length = 2) (hlen : 22 + cb.length + body.length + extra.length < 2 ^ 32) :
    parseFile plat (hb ++ fb ++ (leNat32 (22 + cb.length + body.length + extra.length) ++ [0xFA, 0xF1] ++ le16 old
      ++ le16 duration ++ reserved ++ le32 new ++ cb ++ (leNat32 (6 + body.length) ++ le16 0x2018 ++ body) ++ extra)
      ++ rest) = .err (.failure (.invalidFrameRange a z)) := by
  have htag : parseTag (le16 a ++ le16 z ++ more) = Stop.out (.failure (.invalidFrameRange a z)) := by
    unfold parseTag
    rw [P.bind_of_ok (word_ok.2 (List.append_assoc _ _ _)), P.bind_of_ok (word_ok.2 rfl),
      if_pos (UInt16.lt_iff_toNat_lt.2 haz)]
    rfl
  have hs : parseChunkBody plat (typeOf 0x2018) body = Stop.out (.failure (.invalidFrameRange a z)) := by
    have : typeOf 0x2018 = .ok .tags := rfl
    rw [this]
    refine Stop.bind ?_
    rw [hbody]
    simp only [List.append_assoc]
    unfold parseTagsChunk
    rw [P.bind_of_ok (word_ok.2 rfl), P.bind_of_ok (take_ok.2 ⟨hfut, rfl⟩)]
    refine Stop.bind ?_
    refine Stop.count parses_tag hts hnt ?_
    simpa using htag
  unfold parseFile
  rw [Stop.file hh hfs hcs hn hs hres hlen]
  rfl

/-- A file whose second frame contains an inverted tag after a good one. -/
example : (match parseFile ⟨true, 10⟩ (Sample.header 1 1 32 ++ Sample.frame 100 [] ++ Sample.frame 50
      [Sample.layer 1 0 0 255 [97], Sample.tags [Sample.tag 0 1 0 0 97, Sample.tag 2 1 0 0 98]]) with
    | .err (.failure (.invalidFrameRange 2 1)) => true
    | _ => false) = true := by decide +kernel

/-! ## C21, C22 -/

/-- **C21.** Palette resolution for indexed files. `paletteWrites` (see `Verif/Spec/Assemble.lean`) are the writes of the
new-style palette chunks of all frames if there are any, else those of the 0x0004 chunks, else those of the 0x0011
chunks, in file order.
1. The palette of a parsed indexed file has 256 entries; entry `i` is the colour written last to index `i`, black and
   transparent if there is none, with alpha 0 at the transparent index.
2. `parse_file` fails with a palette error exactly when there is no palette chunk (`Missing`), an old-style chunk writes
   past the last entry (`IndexOutOfBounds`) or nothing is written (`Empty`). -/
theorem C21_palette (plat : Plat) (b : Bytes) (raw : RawFile) (hraw : parseRawFile plat b = .ok raw)
    (hi : raw.header.colorDepth = .indexed) :
    (∀ f, parseFile plat b = .ok f → ∃ p, f.palette = some p ∧ p.colors.length = 256 ∧
      ∀ i, i < 256 → p.colors[i]? = some
        (if i = raw.header.transparentIndex.toNat then { lastWrite (paletteWrites (allChunks raw.frames)) i with alpha := 0 }
         else lastWrite (paletteWrites (allChunks raw.frames)) i)) ∧
    (∀ e, parseFile plat b = .err (.failure (.paletteError e)) ↔ paletteProblem (allChunks raw.frames) = some e) := by
  rw [parseFile_eq hraw]
  constructor
  · intro f hf
    obtain ⟨p, hp, _, rfl⟩ := (assembleFile_ok (fresh hraw)).1 hf
    rw [filePalette_eq, if_pos hi] at hp
    split at hp
    · cases hp
    · cases hp
      refine ⟨_, rfl, by simp [paletteOf], ?_⟩
      intro i hi
      simp [paletteOf, hi]
  · intro e
    rw [assembleFile_eq raw (fresh hraw), filePalette_eq, if_pos hi]
    cases paletteProblem (allChunks raw.frames) with
    | some e' => simp [Outcome.bind]
    | none =>
      simp only [Outcome.bind, reduceCtorEq, iff_false]
      cases badCel (allLayers raw.frames).length (allCels raw.frames) with
      | none => simp
      | some c => simp only [rejectCel]; split <;> simp

/-- Two palette chunks in two frames: index 1 is overwritten, index 0 is the transparent one, index 5 is untouched;
an old palette chunk is ignored. And an indexed file without palette chunks is rejected. -/
example :
    (match parseFile ⟨true, 10⟩ (Sample.header 1 1 8 0
        ++ Sample.frame 100 [Sample.palette 0 [[1, 2, 3, 4], [5, 6, 7, 8]], Sample.chunk 4 [1, 0, 0, 1, 9, 9, 9]]
        ++ Sample.frame 100 [Sample.palette 1 [[10, 11, 12, 13]]]) with
    | .ok f => f.palette.any fun p => p.colors[0]? == some ⟨1, 2, 3, 0⟩ && p.colors[1]? == some ⟨10, 11, 12, 13⟩ &&
        p.colors[5]? == some ⟨0, 0, 0, 0⟩
    | _ => false) = true ∧
    (match parseFile ⟨true, 10⟩ (Sample.header 1 1 8 0 ++ Sample.frame 100 []) with
    | .err (.failure (.paletteError .missing)) => true
    | _ => false) = true := by decide +kernel

/-- **C22** (parser). A parsed file has a palette exactly if it is indexed. -/
theorem C22_palette_iff_indexed (plat : Plat) (b : Bytes) (f : File) (hf : parseFile plat b = .ok f) :
    f.palette.isSome = true ↔ f.header.colorDepth = .indexed := by
  obtain ⟨raw, hraw, ha⟩ := parseFile_ok.1 hf
  obtain ⟨p, hp, _, rfl⟩ := (assembleFile_ok (fresh hraw)).1 ha
  rw [filePalette_eq] at hp
  split at hp
  · next hi =>
    split at hp
    · cases hp
    · cases hp; simp [hi]
  · next hi => cases hp; simp [hi]

example : (match parseFile ⟨true, 10⟩ (Sample.header 1 1 8 ++ Sample.frame 100 [Sample.palette 0 [[1, 2, 3, 4]]]),
      parseFile ⟨true, 10⟩ (Sample.header 1 1 32 ++ Sample.frame 100 [Sample.palette 0 [[1, 2, 3, 4]]]) with
    | .ok f, .ok g => f.palette.isSome && g.palette.isNone
    | _, _ => false) = true := by decide +kernel

/-! ## C23 -/

/-- **C23 (partial).** In every parsed file each frame has exactly one cel slot per layer; slot `i` is the last cel
chunk of that frame with layer index `i` (with its user data), or `None`. A cel whose layer index is not below the
number of layers prevents success; if the first such cel (in file order) has an index above the number of layers, the
error is `LayerIndexOutOfBounds`. *Missing:* if its index equals the number of layers, `parse_file` panics instead,
see `C23_index_equal_to_layer_count_panics`. -/
theorem C23_cel_slots_partial (plat : Plat) (b : Bytes) (raw : RawFile) (hraw : parseRawFile plat b = .ok raw) :
    (∀ f, parseFile plat b = .ok f → f.frames.length = raw.frames.length ∧
      ∀ (k : Nat) (fr : Frame) (rf : RawFrame), f.frames[k]? = some fr → raw.frames[k]? = some rf →
        fr.cels.length = f.layers.length ∧
        ∀ i, i < f.layers.length → fr.cels[i]? = some (slot (celsOf rf.chunks) i)) ∧
    ((∃ c ∈ allCels raw.frames, (allLayers raw.frames).length ≤ c.layerIndex.toNat) → ∀ f, parseFile plat b ≠ .ok f) ∧
    (∀ pre c post, allCels raw.frames = pre ++ c :: post →
      (∀ c ∈ pre, c.layerIndex.toNat < (allLayers raw.frames).length) →
      (allLayers raw.frames).length < c.layerIndex.toNat → (raw.header.colorDepth ≠ .indexed ∨
        paletteProblem (allChunks raw.frames) = none) →
      parseFile plat b = .err (.failure .layerIndexOutOfBounds)) := by
  rw [parseFile_eq hraw]
  refine ⟨?_, ?_, ?_⟩
  · intro f hf
    obtain ⟨p, hp, _, rfl⟩ := (assembleFile_ok (fresh hraw)).1 hf
    refine ⟨by simp, ?_⟩
    intro k fr rf h1 h2
    simp only [List.getElem?_map, h2, Option.map_some, Option.some.injEq] at h1
    subst h1
    refine ⟨by simp [slots], fun i hi => ?_⟩
    simp [slots, hi]
  · rintro ⟨c, hc, hle⟩ f hf
    obtain ⟨p, hp, hall, rfl⟩ := (assembleFile_ok (fresh hraw)).1 hf
    have := hall c hc
    omega
  · intro pre c post hsplit hpre hc hpal
    rw [assembleFile_eq raw (fresh hraw)]
    have hp : ∃ p, filePalette raw = .ok p := by
      rw [filePalette_eq]
      rcases hpal with h | h
      · exact ⟨none, by rw [if_neg h]⟩
      · rw [h]; split
        · exact ⟨_, rfl⟩
        · exact ⟨_, rfl⟩
    obtain ⟨p, hp⟩ := hp
    rw [hp]
    simp only [Outcome.bind]
    have : badCel (allLayers raw.frames).length (allCels raw.frames) = some c := by
      rw [hsplit]
      simp only [badCel, List.find?_append, List.find?_cons, decide_eq_true (Nat.le_of_lt hc)]
      rw [List.find?_eq_none.2]
      · rfl
      · intro x hx; simp [hpre x hx]
    rw [this]
    simp [rejectCel, hc]

/-- Two cels for layer 0 (the second one wins), none for layer 1; and a cel with layer index 5. -/
example :
    (match parseFile ⟨true, 10⟩ (Sample.header 1 1 32 ++ Sample.frame 100 [Sample.layer 1 0 0 255 [97],
        Sample.layer 1 0 0 255 [98], Sample.cel 0 7 0 1 1 [9, 8, 7, 6], Sample.cel 0 8 0 1 1 [1, 1, 1, 1]]) with
    | .ok f => f.frames.map (fun r => r.cels.map fun c => c.map (·.x)) == [[some 8, none]]
    | _ => false) = true ∧
    (match parseFile ⟨true, 10⟩ (Sample.header 1 1 32 ++ Sample.frame 100 [Sample.layer 1 0 0 255 [97],
        Sample.cel 5 7 0 1 1 [9, 8, 7, 6]]) with
    | .err (.failure .layerIndexOutOfBounds) => true
    | _ => false) = true := by decide +kernel

end Ase
