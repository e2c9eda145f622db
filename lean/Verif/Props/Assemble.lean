import Verif.Lemmas.Palette
import Verif.Lemmas.File

/-!
# C06, C09, C13, C21 to C26, C28: from chunks to the `File`

The specification is in `Verif/Spec/Assemble.lean`.
-/

namespace Ase

open Spec

/-! ## Preliminaries -/

theorem parseFile_eq {plat : Plat} {b : Bytes} {raw : RawFile} (h : parseRawFile plat b = .ok raw) :
    parseFile plat b = assembleFile raw := by
  unfold parseFile
  rw [outcome_bind_def, h]
  rfl

theorem parseFile_ok {plat : Plat} {b : Bytes} {f : File} :
    parseFile plat b = .ok f ↔ ∃ raw, parseRawFile plat b = .ok raw ∧ assembleFile raw = .ok f := outcome_bind_ok

/-- What holds of every chunk record holds of every chunk of a parsed file. -/
theorem file_forall {plat : Plat} {b : Bytes} {raw : RawFile} (h : parseRawFile plat b = .ok raw) {Q : Chunk → Prop}
    (hq : ∀ c l, IsChunk (readsUserData plat) c l → Q c) : ∀ f ∈ raw.frames, ∀ c ∈ f.chunks, Q c := by
  obtain ⟨_, _, _, _, hs, _⟩ := parseRawFile_ok.1 h
  refine seq_forall hs ?_
  rintro f l ⟨_, _, _, _, _, _, _, hc, _, _⟩
  exact seq_forall hc hq

theorem fresh {plat : Plat} {b : Bytes} {raw : RawFile} (h : parseRawFile plat b = .ok raw) : FreshFrames raw.frames := by
  refine file_forall h (Q := FreshTags) ?_
  rintro c l ⟨code, body, _, hc, _⟩
  cases c with
  | tags t =>
    obtain ⟨_, l, _, ⟨_, _, _, _, hs, _⟩, _⟩ := hc
    refine seq_forall hs ?_
    rintro t l ⟨_, _, _, _, _, _, _, h, _⟩
    exact h
  | _ => trivial

theorem badCel_none {n : Nat} {cels : List CelChunk} :
    badCel n cels = none ↔ ∀ c ∈ cels, c.layerIndex.toNat < n := by
  simp [badCel]

theorem assembleFile_ok {raw : RawFile} (h : FreshFrames raw.frames) {f : File} :
    assembleFile raw = .ok f ↔ ∃ palette, filePalette raw = .ok palette ∧
      (∀ c ∈ allCels raw.frames, c.layerIndex.toNat < (allLayers raw.frames).length) ∧
      f = { header := raw.header, palette, layers := allLayers raw.frames,
            frames := raw.frames.map fun f => ⟨f.duration, slots (allLayers raw.frames).length (celsOf f.chunks)⟩,
            tags := raw.frames.flatMap (tagsOf ·.chunks), slices := raw.frames.flatMap (slicesOf ·.chunks),
            userData := raw.frames.head?.bind (spriteUserData ·.chunks) } := by
  rw [assembleFile_eq raw h, ← outcome_bind_def, outcome_bind_ok]
  apply exists_congr
  intro p
  apply and_congr_right
  intro _
  rw [← badCel_none]
  cases badCel (allLayers raw.frames).length (allCels raw.frames) with
  | none =>
    simp only [Outcome.ok.injEq, true_and]
    exact eq_comm
  | some c =>
    simp only [rejectCel, reduceCtorEq, false_and, iff_false]
    split <;> simp

/-! ## C25, C26 -/

/-- **C25, C26.** What a parsed file contains: its layers, tags and slices are those of all frames in file order, the
frames keep their order and durations, and the user data of every layer, tag, slice, cel and of the sprite is the one
that belongs to it by position: for a layer, cel or slice the first user data chunk directly following it, for the
`i`-th tag of a tags chunk the `i`-th one directly following that chunk, for the sprite the first one directly
following a palette chunk of the first frame (`Verif/Spec/Assemble.lean`). -/
theorem C26_collected (plat : Plat) (b : Bytes) (f : File) (hf : parseFile plat b = .ok f) :
    ∃ raw, parseRawFile plat b = .ok raw ∧
      f.header = raw.header ∧
      f.layers = raw.frames.flatMap (layersOf ·.chunks) ∧
      f.tags = raw.frames.flatMap (tagsOf ·.chunks) ∧
      f.slices = raw.frames.flatMap (slicesOf ·.chunks) ∧
      f.userData = raw.frames.head?.bind (spriteUserData ·.chunks) ∧
      f.frames.map (·.duration) = raw.frames.map (·.duration) := by
  obtain ⟨raw, hraw, ha⟩ := parseFile_ok.1 hf
  obtain ⟨p, _, _, rfl⟩ := (assembleFile_ok (fresh hraw)).1 ha
  exact ⟨raw, hraw, rfl, rfl, rfl, rfl, rfl, by simp⟩

/-- **C26**, forgetting the user data: nothing is lost, added, reordered or changed. -/
theorem C26_nothing_lost (plat : Plat) (b : Bytes) (f : File) (hf : parseFile plat b = .ok f) :
    ∃ raw, parseRawFile plat b = .ok raw ∧
      f.layers.map (fun l => { l with userData := none }) =
        (allChunks raw.frames).filterMap (fun | .layer l => some { l with userData := none } | _ => none) ∧
      f.tags.map (fun t => { t with userData := none }) =
        (allChunks raw.frames).flatMap (fun | .tags t => t.tags.map fun t => { t with userData := none } | _ => []) ∧
      f.slices.map (fun s => { s with userData := none }) =
        (allChunks raw.frames).filterMap (fun | .slice s => some { s with userData := none } | _ => none) := by
  obtain ⟨raw, hraw, _, hl, ht, hs, _⟩ := C26_collected plat b f hf
  refine ⟨raw, hraw, ?_, ?_, ?_⟩
  · rw [hl, allChunks, List.map_flatMap, List.filterMap_flatMap]
    congr 1
    funext fr
    induction fr.chunks with
    | nil => rfl
    | cons c cs ih => cases c <;> simp_all [layersOf, owned]
  · rw [ht, allChunks, List.map_flatMap, List.flatMap_assoc]
    congr 1
    funext fr
    induction fr.chunks with
    | nil => rfl
    | cons c cs ih =>
      cases c with
      | tags t =>
        simp only [tagsOf, owned, List.flatMap_cons, List.map_append] at ih ⊢
        rw [ih]
        congr 1
        apply List.ext_getElem (by simp)
        intro i h1 h2
        simp
      | _ => simp_all [tagsOf, owned]
  · rw [hs, allChunks, List.map_flatMap, List.filterMap_flatMap]
    congr 1
    funext fr
    induction fr.chunks with
    | nil => rfl
    | cons c cs ih => cases c <;> simp_all [slicesOf, owned]

/-- A user data chunk. -/
def Spec.isUserData : Chunk → Bool
  | .userData _ => true
  | _ => false

theorem owned_cons {c : Chunk} (h : isUserData c = false) (cs : List Chunk) : owned (c :: cs) = (c, run cs) :: owned cs := by
  cases c <;> first | rfl | cases h

theorem run_cons {c : Chunk} (h : isUserData c = false) (cs : List Chunk) : run (c :: cs) = [] := by
  cases c <;> first | rfl | cases h

theorem run_append_cons (pre : List Chunk) {c : Chunk} (h : isUserData c = false) (cs : List Chunk) :
    run (pre ++ c :: cs) = run pre := by
  induction pre with
  | nil => rw [List.nil_append, run_cons h]; rfl
  | cons p pre ih => cases p <;> simp [run, ih]

theorem owned_append_cons (pre : List Chunk) {c : Chunk} (h : isUserData c = false) (cs : List Chunk) :
    owned (pre ++ c :: cs) = owned pre ++ (c, run cs) :: owned cs := by
  induction pre with
  | nil => rw [List.nil_append, owned_cons h]; rfl
  | cons p pre ih => cases p <;> simp [owned, ih, run_append_cons pre h cs]

theorem run_map_append (us : List UserDataChunk) (rest : List Chunk) :
    run (us.map .userData ++ rest) = us ++ run rest := by
  induction us with
  | nil => rfl
  | cons u us ih => simp [run, ih]

theorem owned_map_append (us : List UserDataChunk) (rest : List Chunk) : owned (us.map .userData ++ rest) = owned rest := by
  induction us with
  | nil => rfl
  | cons u us ih => simp [owned, ih]

theorem owned_block (pre : List Chunk) {c : Chunk} (h : isUserData c = false) (us : List UserDataChunk) (rest : List Chunk)
    (hr : run rest = []) :
    owned (pre ++ c :: (us.map .userData ++ rest)) = owned pre ++ (c, us) :: owned rest := by
  rw [owned_append_cons pre h, run_map_append, owned_map_append, hr, List.append_nil]

/-- **C25**, spelled out for one chunk `c` of the file and the user data chunks `us` directly following it (`rest` does
not start with a user data chunk). What the chunk contributes stands after the contributions of the chunks in front of
it and before those of the chunks after it. -/
theorem C25_attachment (plat : Plat) (b : Bytes) (f : File) (raw : RawFile) (hf : parseFile plat b = .ok f)
    (hraw : parseRawFile plat b = .ok raw) (fpre fpost : List RawFrame) (fr : RawFrame) (pre rest : List Chunk)
    (c : Chunk) (us : List UserDataChunk) (hfr : raw.frames = fpre ++ fr :: fpost) (hc : isUserData c = false)
    (hcs : fr.chunks = pre ++ c :: (us.map .userData ++ rest)) (hr : run rest = []) :
    (∀ l, c = .layer l → f.layers = (allLayers fpre ++ layersOf pre) ++ { l with userData := us.head? } ::
      (layersOf rest ++ allLayers fpost)) ∧
    (∀ s, c = .slice s → f.slices = (fpre.flatMap (slicesOf ·.chunks) ++ slicesOf pre) ++
      { s with userData := us.head? } :: (slicesOf rest ++ fpost.flatMap (slicesOf ·.chunks))) ∧
    (∀ t, c = .tags t → f.tags = (fpre.flatMap (tagsOf ·.chunks) ++ tagsOf pre) ++
      t.tags.mapIdx (fun i t => { t with userData := us[i]? }) ++ (tagsOf rest ++ fpost.flatMap (tagsOf ·.chunks))) ∧
    (∀ cel, c = .cel cel → celsOf fr.chunks = celsOf pre ++ { cel with userData := us.head? } :: celsOf rest) ∧
    (fpre = [] → (∃ p, c = .palette0004 p) ∨ (∃ p, c = .palette0011 p) ∨ (∃ p, c = .palette p) →
      f.userData = (spriteUserData pre).or (us.head?.or (spriteUserData rest))) := by
  obtain ⟨raw', hraw', _, hl, ht, hs, hu, _⟩ := C26_collected plat b f hf
  rw [hraw] at hraw'
  cases hraw'
  have ho := owned_block pre hc us rest hr
  rw [← hcs] at ho
  refine ⟨?_, ?_, ?_, ?_, ?_⟩
  · rintro l rfl
    rw [hl, hfr]
    simp only [allLayers, List.flatMap_append, List.flatMap_cons, layersOf, ho, List.filterMap_append, List.filterMap_cons]
    simp
  · rintro s rfl
    rw [hs, hfr]
    simp only [List.flatMap_append, List.flatMap_cons, slicesOf, ho, List.filterMap_append, List.filterMap_cons]
    simp
  · rintro t rfl
    rw [ht, hfr]
    simp only [List.flatMap_append, List.flatMap_cons, tagsOf, ho]
    simp
  · rintro cel rfl
    simp only [celsOf, ho, List.filterMap_append, List.filterMap_cons]
  · rintro rfl hp
    rw [hu, hfr]
    simp only [List.nil_append, List.head?_cons, Option.bind_some, spriteUserData, ho, List.findSome?_append,
      List.findSome?_cons]
    rcases hp with ⟨p, rfl⟩ | ⟨p, rfl⟩ | ⟨p, rfl⟩ <;> (simp only; cases us.head? <;> rfl)

/-! ## Replacing chunks without effect -/

/-- Two chunk lists that contribute the same to the file. -/
def SameEffect (cs cs' : List Chunk) : Prop :=
  layersOf cs = layersOf cs' ∧ celsOf cs = celsOf cs' ∧ slicesOf cs = slicesOf cs' ∧ tagsOf cs = tagsOf cs' ∧
  spriteUserData cs = spriteUserData cs' ∧ newPalettes cs = newPalettes cs' ∧ oldPalettes4 cs = oldPalettes4 cs' ∧
  oldPalettes11 cs = oldPalettes11 cs'

theorem paletteProblem_congr {cs cs' : List Chunk} (h1 : newPalettes cs = newPalettes cs')
    (h2 : oldPalettes4 cs = oldPalettes4 cs') (h3 : oldPalettes11 cs = oldPalettes11 cs') :
    paletteProblem cs = paletteProblem cs' ∧ paletteWrites cs = paletteWrites cs' := by
  have h4 : oldPalettes cs = oldPalettes cs' := by unfold oldPalettes; rw [h2, h3]
  have h5 : paletteWrites cs = paletteWrites cs' := by unfold paletteWrites; rw [h1, h4]
  refine ⟨?_, h5⟩
  unfold paletteProblem
  rw [h1, h4, h5]

theorem assembleFile_congr {raw raw' : RawFile} (h : FreshFrames raw.frames) (h' : FreshFrames raw'.frames)
    (hh : raw'.header = raw.header) {fpre fpost : List RawFrame} {d : UInt16} {cs cs' : List Chunk}
    (hfr : raw.frames = fpre ++ ⟨d, cs⟩ :: fpost) (hfr' : raw'.frames = fpre ++ ⟨d, cs'⟩ :: fpost)
    (hs : SameEffect cs cs') : assembleFile raw' = assembleFile raw := by
  obtain ⟨h1, h2, h3, h4, h5, h6, h7, h8⟩ := hs
  have hl : allLayers raw'.frames = allLayers raw.frames := by rw [hfr, hfr']; simp [allLayers, h1]
  have hc : allCels raw'.frames = allCels raw.frames := by rw [hfr, hfr']; simp [allCels, h2]
  have hp : filePalette raw' = filePalette raw := by
    rw [filePalette_eq, filePalette_eq, hh]
    have := paletteProblem_congr (cs := allChunks raw'.frames) (cs' := allChunks raw.frames)
      (by rw [hfr, hfr']; simp only [newPalettes, allChunks, List.flatMap_append, List.flatMap_cons,
            List.filterMap_append] at h6 ⊢; rw [h6])
      (by rw [hfr, hfr']; simp only [oldPalettes4, allChunks, List.flatMap_append, List.flatMap_cons,
            List.filterMap_append] at h7 ⊢; rw [h7])
      (by rw [hfr, hfr']; simp only [oldPalettes11, allChunks, List.flatMap_append, List.flatMap_cons,
            List.filterMap_append] at h8 ⊢; rw [h8])
    rw [this.1, this.2]
  rw [assembleFile_eq raw h, assembleFile_eq raw' h', hp, hl, hc, hh]
  congr 1
  funext p
  cases badCel (allLayers raw.frames).length (allCels raw.frames) with
  | some c => rfl
  | none =>
    simp only [Outcome.ok.injEq, File.mk.injEq, true_and]
    rw [hfr, hfr']
    refine ⟨by simp [h2], by simp [h4], by simp [h3], ?_⟩
    cases fpre with
    | nil => simp [h5]
    | cons => rfl

end Ase
