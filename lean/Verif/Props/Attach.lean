import Verif.Props.Assemble
import Verif.Spec.Sample

/-!
# C06, C24, C25: chunks without effect, order of cels
-/

namespace Ase

open Spec

/-- The text of user data, for examples. -/
def Sample.textOf (u : Option UserDataChunk) : Option String := u.bind (·.text)

/-- Example for `C25_attachment` and `C26_collected`: two frames, layers in both, user data for the sprite, the first
layer, the cel and two tags; a surplus user data chunk after the tags, one at the start of the second frame, and one after
a path chunk. -/
example :
    (match parseFile ⟨true, 10⟩ (Sample.header 1 1 8
      ++ Sample.frame 100 [Sample.palette 0 [[1, 2, 3, 4]], Sample.text 83, Sample.layer 1 0 0 255 [97], Sample.text 65,
          Sample.layer 1 0 0 255 [98], Sample.cel 0 0 0 1 1 [0], Sample.text 67,
          Sample.tags [Sample.tag 0 1 0 0 120, Sample.tag 1 1 0 2 121], Sample.text 68, Sample.text 69, Sample.text 70]
      ++ Sample.frame 200 [Sample.text 71, Sample.chunk 0x2017 [], Sample.text 72, Sample.layer 1 0 0 255 [99]]) with
    | .ok f => Sample.textOf f.userData == some "S" &&
        f.layers.map (fun l => (l.name, Sample.textOf l.userData)) == [("a", some "A"), ("b", none), ("c", none)] &&
        f.tags.map (fun t => (t.name, Sample.textOf t.userData)) == [("x", some "D"), ("y", some "E")] &&
        f.frames.map (fun r => (r.duration, r.cels.map fun c => c.map fun c => Sample.textOf c.userData)) ==
          [(100, [some (some "C"), none, none]), (200, [none, none, none])]
    | _ => false) = true := by decide +kernel

/-! ## C25: what is attached to nothing -/

/-- How many of the user data chunks directly following a chunk it can take. -/
def Spec.takes : Chunk → Nat
  | .layer _ | .cel _ | .slice _ | .palette _ | .palette0004 _ | .palette0011 _ => 1
  | .tags t => t.tags.length
  | _ => 0

theorem palettes_userData (pre us : List Chunk) (rest : List Chunk) (h : ∀ u ∈ us, isUserData u = true) :
    newPalettes (pre ++ us ++ rest) = newPalettes (pre ++ rest) ∧
    oldPalettes4 (pre ++ us ++ rest) = oldPalettes4 (pre ++ rest) ∧
    oldPalettes11 (pre ++ us ++ rest) = oldPalettes11 (pre ++ rest) := by
  have : newPalettes us = [] ∧ oldPalettes4 us = [] ∧ oldPalettes11 us = [] := by
    induction us with
    | nil => exact ⟨rfl, rfl, rfl⟩
    | cons u us ih =>
      have := ih fun u hu => h u (by simp [hu])
      have hu := h u (by simp)
      cases u <;> first | cases hu | skip
      exact this
  simp only [newPalettes, oldPalettes4, oldPalettes11] at this
  simp only [newPalettes, oldPalettes4, oldPalettes11, List.filterMap_append, this.1, this.2.1, this.2.2,
    List.append_nil, and_self]

theorem isUserData_map (us : List UserDataChunk) : ∀ u ∈ us.map Chunk.userData, isUserData u = true := by
  simp only [List.mem_map]
  rintro u ⟨_, _, rfl⟩
  rfl

/-- **C25**, the converse: a user data chunk at the start of a frame, or one that follows a chunk which takes no (more)
user data, is attached to nothing: removing all of them does not change the outcome of `parse_file`. -/
theorem C25_orphans (plat : Plat) (b b' : Bytes) (raw raw' : RawFile) (hraw : parseRawFile plat b = .ok raw)
    (hraw' : parseRawFile plat b' = .ok raw') (hh : raw'.header = raw.header) (fpre fpost : List RawFrame) (d : UInt16)
    (us : List UserDataChunk) (rest : List Chunk) (hr : run rest = []) :
    (raw.frames = fpre ++ ⟨d, us.map .userData ++ rest⟩ :: fpost → raw'.frames = fpre ++ ⟨d, rest⟩ :: fpost →
      parseFile plat b' = parseFile plat b) ∧
    (∀ (pre : List Chunk) (c : Chunk), isUserData c = false →
      raw.frames = fpre ++ ⟨d, pre ++ c :: (us.map .userData ++ rest)⟩ :: fpost →
      raw'.frames = fpre ++ ⟨d, pre ++ c :: ((us.take (takes c)).map .userData ++ rest)⟩ :: fpost →
      parseFile plat b' = parseFile plat b) := by
  rw [parseFile_eq hraw, parseFile_eq hraw']
  constructor
  · intro h h'
    refine assembleFile_congr (fresh hraw) (fresh hraw') hh h h' ?_
    have hp := palettes_userData [] (us.map .userData) rest (isUserData_map us)
    refine ⟨?_, ?_, ?_, ?_, ?_, hp.1, hp.2.1, hp.2.2⟩
    · rw [layersOf, owned_map_append]; rfl
    · rw [celsOf, owned_map_append]; rfl
    · rw [slicesOf, owned_map_append]; rfl
    · rw [tagsOf, owned_map_append]; rfl
    · rw [spriteUserData, owned_map_append]; rfl
  · intro pre c hc h h'
    refine assembleFile_congr (fresh hraw) (fresh hraw') hh h h' ?_
    have hp := palettes_userData (pre ++ [c]) (us.map .userData) rest (isUserData_map us)
    have hp' := palettes_userData (pre ++ [c]) ((us.take (takes c)).map .userData) rest (isUserData_map _)
    simp only [List.append_assoc, List.singleton_append] at hp hp'
    refine ⟨?_, ?_, ?_, ?_, ?_, hp.1.trans hp'.1.symm, hp.2.1.trans hp'.2.1.symm, hp.2.2.trans hp'.2.2.symm⟩
    · rw [layersOf, layersOf, owned_block pre hc us rest hr, owned_block pre hc _ rest hr]
      simp only [List.filterMap_append, List.filterMap_cons]
      cases c <;> cases us <;> simp [takes]
    · rw [celsOf, celsOf, owned_block pre hc us rest hr, owned_block pre hc _ rest hr]
      simp only [List.filterMap_append, List.filterMap_cons]
      cases c <;> cases us <;> simp [takes]
    · rw [slicesOf, slicesOf, owned_block pre hc us rest hr, owned_block pre hc _ rest hr]
      simp only [List.filterMap_append, List.filterMap_cons]
      cases c <;> cases us <;> simp [takes]
    · rw [tagsOf, tagsOf, owned_block pre hc us rest hr, owned_block pre hc _ rest hr]
      simp only [List.flatMap_append, List.flatMap_cons]
      cases c with
      | tags t =>
        simp only [takes]
        congr 2
        apply List.ext_getElem (by simp)
        intro i h1 h2
        simp only [List.length_mapIdx] at h1
        simp [List.getElem?_take, h1]
      | _ => simp
    · rw [spriteUserData, spriteUserData, owned_block pre hc us rest hr, owned_block pre hc _ rest hr]
      simp only [List.findSome?_append, List.findSome?_cons]
      cases c <;> cases us <;> simp [takes]

/-! ## C06 -/

theorem seq_append {α : Type} {G : α → Bytes → Prop} {xs ys : List α} {l l' : Bytes} (hx : Seq G xs l)
    (hy : Seq G ys l') : Seq G (xs ++ ys) (l ++ l') := by
  induction hx with
  | nil => exact hy
  | cons h _ ih => rw [List.append_assoc]; exact .cons h ih

/-- **C06.** A chunk of an unknown type
1. is accepted with any body (by its size it is skipped), and
2. has no effect: inserting it anywhere in a file, except directly in front of a user data chunk (which it would
   separate from its owner), does not change the outcome of `parse_file`;
3. the same about the bytes: in a file that consists of a header, frames, a frame with the chunks `pre` and `post` and
   more frames, a record of an unknown type put between `pre` and `post` (with the size and the chunk count of that frame
   adjusted, in whichever of its two fields) does not change the outcome of `parse_file`. -/
theorem C06_unknown_chunks (plat : Plat) :
    (∀ (code : UInt16) (body r : Bytes), chunkTypes.lookup code = none → 6 + body.length < 2 ^ 32 →
      parseChunk plat (leNat32 (6 + body.length) ++ le16 code ++ body ++ r) = .ok (r, .unsupported code)) ∧
    (∀ (b b' : Bytes) (raw raw' : RawFile) (fpre fpost : List RawFrame) (d : UInt16) (pre post : List Chunk)
      (code : UInt16), parseRawFile plat b = .ok raw → parseRawFile plat b' = .ok raw' → raw'.header = raw.header →
      raw.frames = fpre ++ ⟨d, pre ++ post⟩ :: fpost →
      raw'.frames = fpre ++ ⟨d, pre ++ .unsupported code :: post⟩ :: fpost → run post = [] →
      parseFile plat b' = parseFile plat b) ∧
    (∀ (h : Header) (fpre fpost : List RawFrame) (pre post : List Chunk) (d old old' code : UInt16) (new new' : UInt32)
      (header frames frames' reserved chunks chunks' body extra : Bytes),
      IsHeader h header → Seq (IsFrame (readsUserData plat)) fpre frames →
      Seq (IsFrame (readsUserData plat)) fpost frames' → Seq (IsChunk (readsUserData plat)) pre chunks →
      Seq (IsChunk (readsUserData plat)) post chunks' → reserved.length = 2 → chunkTypes.lookup code = none →
      run post = [] → chunkCount old new = pre.length + post.length →
      chunkCount old' new' = pre.length + 1 + post.length →
      22 + chunks.length + body.length + chunks'.length + extra.length < 2 ^ 32 →
      parseFile plat (header ++ frames ++
          (leNat32 (16 + (chunks ++ (leNat32 (6 + body.length) ++ le16 code ++ body) ++ chunks').length + extra.length) ++
            [0xFA, 0xF1] ++ le16 old' ++ le16 d ++ reserved ++ le32 new' ++
            (chunks ++ (leNat32 (6 + body.length) ++ le16 code ++ body) ++ chunks') ++ extra) ++ frames') =
        parseFile plat (header ++ frames ++
          (leNat32 (16 + (chunks ++ chunks').length + extra.length) ++ [0xFA, 0xF1] ++ le16 old ++ le16 d ++ reserved ++
            le32 new ++ (chunks ++ chunks') ++ extra) ++ frames')) := by
  have part2 : ∀ (b b' : Bytes) (raw raw' : RawFile) (fpre fpost : List RawFrame) (d : UInt16) (pre post : List Chunk)
      (code : UInt16), parseRawFile plat b = .ok raw → parseRawFile plat b' = .ok raw' → raw'.header = raw.header →
      raw.frames = fpre ++ ⟨d, pre ++ post⟩ :: fpost →
      raw'.frames = fpre ++ ⟨d, pre ++ .unsupported code :: post⟩ :: fpost → run post = [] →
      parseFile plat b' = parseFile plat b := by
    intro b b' raw raw' fpre fpost d pre post code hraw hraw' hh h h' hr
    rw [parseFile_eq hraw, parseFile_eq hraw']
    refine assembleFile_congr (fresh hraw) (fresh hraw') hh h h' ?_
    have hrun : ∀ p : List Chunk, run (p ++ post) = run p := by
      intro p
      induction p with
      | nil => exact hr
      | cons c p ih => cases c <;> simp [run, ih]
    have ho : owned (pre ++ post) = owned pre ++ owned post := by
      clear h h'
      induction pre with
      | nil => rfl
      | cons c p ih => cases c <;> simp [owned, ih, hrun]
    have ho' := owned_append_cons pre (c := .unsupported code) rfl post
    refine ⟨?_, ?_, ?_, ?_, ?_, ?_, ?_, ?_⟩
    · rw [layersOf, layersOf, ho, ho']; simp
    · rw [celsOf, celsOf, ho, ho']; simp
    · rw [slicesOf, slicesOf, ho, ho']; simp
    · rw [tagsOf, tagsOf, ho, ho']; simp
    · rw [spriteUserData, spriteUserData, ho, ho']; simp [List.findSome?_append]
    · simp [newPalettes]
    · simp [oldPalettes4]
    · simp [oldPalettes11]
  refine ⟨?_, part2, ?_⟩
  · intro code body r hcode hlen
    exact (parses_chunk plat _ _ _).2 ⟨_, ⟨code, body, hlen, ⟨hcode, rfl⟩, rfl⟩, rfl⟩
  · intro h fpre fpost pre post d old old' code new new' header frames frames' reserved chunks chunks' body extra hh hf hf'
      hc hc' hres hcode hrun hn hn' hlen
    have frame : ∀ (cs : List Chunk) (l : Bytes) (old : UInt16) (new : UInt32), Seq (IsChunk (readsUserData plat)) cs l →
        chunkCount old new = cs.length → 16 + l.length + extra.length < 2 ^ 32 →
        parseRawFile plat (header ++ frames ++ (leNat32 (16 + l.length + extra.length) ++ [0xFA, 0xF1] ++ le16 old ++
          le16 d ++ reserved ++ le32 new ++ l ++ extra) ++ frames') = .ok ⟨h, fpre ++ ⟨d, cs⟩ :: fpost⟩ := by
      intro cs l old new hcs hcc hl
      refine parseRawFile_ok.2 ⟨header, _, hh, by simp, seq_append hf (.cons ⟨old, new, reserved, l, extra, hres, hcc.symm,
        hcs, hl, rfl⟩ hf'), by simp⟩
    have hc1 := seq_append hc hc'
    have hc2 := seq_append hc (.cons (show IsChunk (readsUserData plat) (.unsupported code)
      (leNat32 (6 + body.length) ++ le16 code ++ body) from ⟨code, body, by omega, ⟨hcode, rfl⟩, rfl⟩) hc')
    rw [← List.append_assoc] at hc2
    exact part2 _ _ _ _ fpre fpost d pre post code (frame _ _ old new hc1 (by simp [hn]) (by simp; omega))
      (frame _ _ old' new' hc2 (by simp [hn']; omega) (by simp; omega)) rfl rfl rfl hrun

/-- Type 0x1234 is unknown; a file with such a chunk between a layer and a cel parses to the same layers and cels, and
the chunk detaches user data it is put in front of. -/
example : chunkTypes.lookup 0x1234 = none ∧
    (match parseFile ⟨true, 10⟩ (Sample.header 1 1 32 ++ Sample.frame 100 [Sample.layer 1 0 0 255 [97],
          Sample.chunk 0x1234 [1, 2, 3], Sample.cel 0 0 0 1 1 [9, 8, 7, 6]]),
        parseFile ⟨true, 10⟩ (Sample.header 1 1 32 ++ Sample.frame 100 [Sample.layer 1 0 0 255 [97],
          Sample.cel 0 0 0 1 1 [9, 8, 7, 6]]) with
    | .ok f, .ok g => f.layers.map (·.name) == g.layers.map (·.name) && f.layers.length == 1 &&
        f.frames.map (fun r => r.cels.map (·.isSome)) == [[true]]
    | _, _ => false) = true ∧
    (match parseFile ⟨true, 10⟩ (Sample.header 1 1 32 ++ Sample.frame 100 [Sample.layer 1 0 0 255 [97],
          Sample.chunk 0x1234 [1, 2, 3], Sample.text 65]) with
    | .ok f => f.layers.map (fun l => Sample.textOf l.userData) == [none]
    | _ => false) = true := by decide +kernel

/-! ## C24 -/

theorem slot_swap (pre post : List CelChunk) (c c' : CelChunk) (h : c.layerIndex ≠ c'.layerIndex) (i : Nat) :
    slot (pre ++ c :: c' :: post) i = slot (pre ++ c' :: c :: post) i := by
  have h' : ¬ c.layerIndex.toNat = c'.layerIndex.toNat := fun e => h (UInt16.toNat_inj.1 e)
  rw [slot_append, slot_append]
  congr 1
  simp only [slot_cons]
  by_cases h1 : c.layerIndex.toNat = i
  · have h2 : ¬ c'.layerIndex.toNat = i := by omega
    simp [h1, h2]
  · simp [h1]

/-- **C24.** Swapping two adjacent cel chunks of different layers of a frame, together with the user data following
them, does not change what `parse_file` returns. -/
theorem C24_cel_order (plat : Plat) (b b' : Bytes) (raw raw' : RawFile) (hraw : parseRawFile plat b = .ok raw)
    (hraw' : parseRawFile plat b' = .ok raw') (hh : raw'.header = raw.header) (fpre fpost : List RawFrame) (d : UInt16)
    (pre rest : List Chunk) (c c' : CelChunk) (us us' : List UserDataChunk) (hr : run rest = [])
    (hc : c.layerIndex ≠ c'.layerIndex)
    (h : raw.frames = fpre ++
      ⟨d, pre ++ .cel c :: (us.map .userData ++ .cel c' :: (us'.map .userData ++ rest))⟩ :: fpost)
    (h' : raw'.frames = fpre ++
      ⟨d, pre ++ .cel c' :: (us'.map .userData ++ .cel c :: (us.map .userData ++ rest))⟩ :: fpost) (f : File) :
    parseFile plat b' = .ok f ↔ parseFile plat b = .ok f := by
  have ho : ∀ (c c' : CelChunk) (us us' : List UserDataChunk),
      owned (pre ++ .cel c :: (us.map .userData ++ .cel c' :: (us'.map .userData ++ rest))) =
        owned pre ++ (.cel c, us) :: (.cel c', us') :: owned rest := by
    intro c c' us us'
    rw [owned_block pre rfl us _ (run_cons rfl _)]
    have := owned_block [] (c := .cel c') rfl us' rest hr
    rw [List.nil_append] at this
    rw [this]
    rfl
  have hpal : ∀ {β : Type} (g : Chunk → Option β), (∀ c, g (.cel c) = none) → (∀ c, g (.userData c) = none) →
      (allChunks raw'.frames).filterMap g = (allChunks raw.frames).filterMap g := by
    intro β g hg hu
    rw [h, h']
    have : ∀ us : List UserDataChunk, (us.map Chunk.userData).filterMap g = [] := by
      intro us; simp [List.filterMap_map, hu]
    simp only [allChunks, List.flatMap_append, List.flatMap_cons, List.filterMap_append, List.filterMap_cons, hg, this]
  have hl : allLayers raw'.frames = allLayers raw.frames := by
    rw [h, h']
    simp only [allLayers, List.flatMap_append, List.flatMap_cons, layersOf, ho, List.filterMap_append,
      List.filterMap_cons]
  have hcels := ho c c' us us'
  have hcels' := ho c' c us' us
  rw [parseFile_eq hraw, parseFile_eq hraw', assembleFile_ok (fresh hraw), assembleFile_ok (fresh hraw')]
  have hp : filePalette raw' = filePalette raw := by
    rw [filePalette_eq, filePalette_eq, hh]
    have := paletteProblem_congr (cs := allChunks raw'.frames) (cs' := allChunks raw.frames)
      (hpal _ (fun _ => rfl) (fun _ => rfl)) (hpal _ (fun _ => rfl) (fun _ => rfl)) (hpal _ (fun _ => rfl) (fun _ => rfl))
    rw [this.1, this.2]
  rw [hp, hl]
  apply exists_congr
  intro p
  apply and_congr_right
  intro _
  apply and_congr
  · have : ∀ x, x ∈ allCels raw'.frames ↔ x ∈ allCels raw.frames := by
      intro x
      rw [h, h']
      simp only [allCels, List.flatMap_append, List.flatMap_cons, celsOf, ho, List.filterMap_append,
        List.filterMap_cons, List.mem_append, List.mem_cons]
      refine or_congr Iff.rfl (or_congr (or_congr Iff.rfl ?_) Iff.rfl)
      constructor
      · rintro (h | h | h)
        · exact .inr (.inl h)
        · exact .inl h
        · exact .inr (.inr h)
      · rintro (h | h | h)
        · exact .inr (.inl h)
        · exact .inl h
        · exact .inr (.inr h)
    simp only [this]
  · rw [hh]
    have e1 : raw'.frames.map (fun f => Frame.mk f.duration (slots (allLayers raw.frames).length (celsOf f.chunks))) =
        raw.frames.map fun f => ⟨f.duration, slots (allLayers raw.frames).length (celsOf f.chunks)⟩ := by
      rw [h, h']
      simp only [List.map_append, List.map_cons]
      congr 3
      simp only [celsOf, ho, List.filterMap_append, List.filterMap_cons, slots]
      apply List.map_congr_left
      intro i _
      exact (slot_swap _ _ { c with userData := us.head? } { c' with userData := us'.head? } hc i).symm
    have e2 : raw'.frames.flatMap (tagsOf ·.chunks) = raw.frames.flatMap (tagsOf ·.chunks) := by
      rw [h, h']
      simp only [List.flatMap_append, List.flatMap_cons, tagsOf, ho]
    have e3 : raw'.frames.flatMap (slicesOf ·.chunks) = raw.frames.flatMap (slicesOf ·.chunks) := by
      rw [h, h']
      simp only [List.flatMap_append, List.flatMap_cons, slicesOf, ho, List.filterMap_append, List.filterMap_cons]
    have e4 : raw'.frames.head?.bind (spriteUserData ·.chunks) = raw.frames.head?.bind (spriteUserData ·.chunks) := by
      rw [h, h']
      cases fpre with
      | cons => rfl
      | nil =>
        simp only [List.nil_append, List.head?_cons, Option.bind_some, spriteUserData, ho, List.findSome?_append,
          List.findSome?_cons]
    rw [e1, e2, e3, e4]

/-- Two cels of layers 0 and 1, one with user data, in both orders. -/
example :
    (match parseFile ⟨true, 10⟩ (Sample.header 1 1 32 ++ Sample.frame 100 [Sample.layer 1 0 0 255 [97],
          Sample.layer 1 0 0 255 [98], Sample.cel 0 0 0 1 1 [9, 8, 7, 6], Sample.text 65, Sample.cel 1 0 0 1 1 [1, 1, 1, 1]]),
        parseFile ⟨true, 10⟩ (Sample.header 1 1 32 ++ Sample.frame 100 [Sample.layer 1 0 0 255 [97],
          Sample.layer 1 0 0 255 [98], Sample.cel 1 0 0 1 1 [1, 1, 1, 1], Sample.cel 0 0 0 1 1 [9, 8, 7, 6],
          Sample.text 65]) with
    | .ok f, .ok g =>
        f.frames.map (fun r => r.cels.map fun c => c.map fun c => (c.layerIndex, Sample.textOf c.userData)) ==
          g.frames.map (fun r => r.cels.map fun c => c.map fun c => (c.layerIndex, Sample.textOf c.userData)) &&
        f.frames.map (fun r => r.cels.map (·.isSome)) == [[true, true]]
    | _, _ => false) = true := by decide +kernel

end Ase
