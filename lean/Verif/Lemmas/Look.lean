import Verif.Spec.Look
import Verif.Props.LoadErrors
import Verif.Props.Failures

/-!
# Files that look alike load alike
-/

namespace Ase

open Spec

/-! ## The parts of a file as functions of its look -/

/-- What matters of a cel that is going to be moved. -/
def celCore (dx dy : Int) (c : CelChunk) : UInt16 × Int × Int × CelContent :=
  (c.layerIndex, c.x.toInt + dx, c.y.toInt + dy, c.content)

/-- What matters of a layer. -/
def layerCore (l : LayerChunk) : LayerType × Bool × BlendMode × UInt8 :=
  (l.layerType, l.flags.bits &&& 1 = 1, l.blendMode, l.opacity)

def cel? : ChunkLook × (Int × Int) → Option (UInt16 × Int × Int × CelContent)
  | (.cel l _ _ c, (x, y)) => some (l, x, y, c)
  | _ => none

/-- Chunks that are not cels. -/
def still? : ChunkLook → Option ChunkLook
  | .cel _ _ _ _ => none
  | k => some k

def layer? : ChunkLook → Option (LayerType × Bool × BlendMode × UInt8)
  | .layer t v b o => some (t, v, b, o)
  | _ => none

theorem moved_zero (k : ChunkLook) : moved 0 0 (placed k) = placed k := by
  cases k <;> simp [placed, moved]

theorem moved_of_look {raw raw' : RawFile} (h : look raw = look raw') : Moved 0 0 (look raw) (look raw') := by
  rw [h]
  exact ⟨rfl, rfl, by simp only [moved_zero]⟩

theorem celsOf_look (dx dy : Int) (cs : List Chunk) : (celsOf cs).map (celCore dx dy) =
    ((cs.filterMap chunkLook).map fun k => moved dx dy (placed k)).filterMap cel? := by
  induction cs with
  | nil => rfl
  | cons c cs ih =>
    simp only [celsOf] at ih ⊢
    cases c <;> simpa [owned, chunkLook, cel?, celCore, placed, moved, List.filterMap_cons] using ih

theorem celsOf_look_zero (cs : List Chunk) : (celsOf cs).map (celCore 0 0) =
    ((cs.filterMap chunkLook).map placed).filterMap cel? := by
  rw [celsOf_look]
  simp only [moved_zero]

theorem layersOf_look (cs : List Chunk) : (layersOf cs).map layerCore =
    ((cs.filterMap chunkLook).filterMap still?).filterMap layer? := by
  induction cs with
  | nil => rfl
  | cons c cs ih =>
    simp only [layersOf] at ih ⊢
    cases c <;> simpa [owned, chunkLook, still?, layer?, layerCore, List.filterMap_cons] using ih

theorem still_moved (dx dy : Int) (l : List ChunkLook) :
    l.filterMap still? = (l.map fun k => moved dx dy (placed k)).filterMap fun k => still? k.1 := by
  induction l with
  | nil => rfl
  | cons k l ih => cases k <;> simpa [placed, moved, still?, List.filterMap_cons] using ih

theorem still_placed (l : List ChunkLook) : l.filterMap still? = (l.map placed).filterMap fun k => still? k.1 := by
  rw [still_moved 0 0]
  simp only [moved_zero]

section

variable {dx dy : Int} {raw raw' : RawFile}

theorem still_look (h : Moved dx dy (look raw) (look raw')) :
    (raw.frames.map fun f => (f.chunks.filterMap chunkLook).filterMap still?) =
      raw'.frames.map fun f => (f.chunks.filterMap chunkLook).filterMap still? := by
  have h := congrArg (fun l => l.map fun f => f.filterMap fun k => still? k.1) h.frames
  simp only [look, List.map_map, Function.comp_def, ← still_placed] at h
  rw [h]
  simp only [still_moved dx dy]

theorem cels_look (h : Moved dx dy (look raw) (look raw')) :
    (raw.frames.map fun f => (celsOf f.chunks).map (celCore dx dy)) =
      raw'.frames.map fun f => (celsOf f.chunks).map (celCore 0 0) := by
  have h := congrArg (fun l => l.map fun f => f.filterMap cel?) h.frames
  simp only [look, List.map_map, Function.comp_def] at h
  simp only [celsOf_look_zero]
  simp only [celsOf_look]
  exact h.symm

theorem layers_look (h : Moved dx dy (look raw) (look raw')) :
    (allLayers raw.frames).map layerCore = (allLayers raw'.frames).map layerCore := by
  have h := congrArg (fun l => l.flatMap fun f => f.filterMap layer?) (still_look h)
  simpa only [List.flatMap_map, allLayers, List.map_flatMap, layersOf_look] using h

end

def new? : ChunkLook → Option (UInt8 × UInt8 × List PColor)
  | .palette a z c => some (a, z, c)
  | _ => none

def old4? : ChunkLook → Option (List Packet)
  | .palette0004 c => some c
  | _ => none

def old11? : ChunkLook → Option (List Packet)
  | .palette0011 c => some c
  | _ => none

theorem newPalettes_look (cs : List Chunk) :
    (newPalettes cs).map (fun c => (c.firstIndex, c.lastIndex, c.entries.map (·.color))) =
      ((cs.filterMap chunkLook).filterMap still?).filterMap new? := by
  induction cs with
  | nil => rfl
  | cons c cs ih =>
    simp only [newPalettes] at ih ⊢
    cases c <;> simpa [chunkLook, still?, new?, List.filterMap_cons] using ih

theorem old4_look (cs : List Chunk) :
    (oldPalettes4 cs).map (·.packets) = ((cs.filterMap chunkLook).filterMap still?).filterMap old4? := by
  induction cs with
  | nil => rfl
  | cons c cs ih =>
    simp only [oldPalettes4] at ih ⊢
    cases c <;> simpa [chunkLook, still?, old4?, List.filterMap_cons] using ih

theorem old11_look (cs : List Chunk) :
    (oldPalettes11 cs).map (·.packets) = ((cs.filterMap chunkLook).filterMap still?).filterMap old11? := by
  induction cs with
  | nil => rfl
  | cons c cs ih =>
    simp only [oldPalettes11] at ih ⊢
    cases c <;> simpa [chunkLook, still?, old11?, List.filterMap_cons] using ih

theorem allChunks_look {dx dy : Int} {raw raw' : RawFile} (h : Moved dx dy (look raw) (look raw')) :
    ((allChunks raw.frames).filterMap chunkLook).filterMap still? =
      ((allChunks raw'.frames).filterMap chunkLook).filterMap still? := by
  have h := congrArg List.flatten (still_look h)
  simpa only [allChunks, List.flatMap_def, List.map_map, Function.comp_def, List.filterMap_flatten] using h

theorem map_nil_iff {α β γ : Type} {f : α → γ} {g : β → γ} {l : List α} {m : List β} (h : l.map f = m.map g) :
    l = [] ↔ m = [] := by
  have := congrArg List.length h
  simp only [List.length_map] at this
  rw [← List.length_eq_zero_iff, ← List.length_eq_zero_iff, this]

theorem oldPacket_inj : ∀ {l m : List OldPaletteChunk}, l.map (·.packets) = m.map (·.packets) → l = m
  | [], [], _ => rfl
  | [], _ :: _, h => by simp at h
  | _ :: _, [], h => by simp at h
  | ⟨a⟩ :: l, ⟨b⟩ :: m, h => by
    simp only [List.map_cons, List.cons.injEq] at h
    rw [h.1, oldPacket_inj h.2]

theorem palette_look {cs cs' : List Chunk} 
    (h : (cs.filterMap chunkLook).filterMap still? = (cs'.filterMap chunkLook).filterMap still?) :
    paletteProblem cs = paletteProblem cs' ∧ paletteWrites cs = paletteWrites cs' := by
  have h1 := (newPalettes_look cs).trans ((congrArg _ h).trans (newPalettes_look cs').symm)
  have h2 : oldPalettes4 cs = oldPalettes4 cs' :=
    oldPacket_inj ((old4_look cs).trans ((congrArg _ h).trans (old4_look cs').symm))
  have h3 : oldPalettes11 cs = oldPalettes11 cs' :=
    oldPacket_inj ((old11_look cs).trans ((congrArg _ h).trans (old11_look cs').symm))
  have h4 : oldPalettes cs = oldPalettes cs' := by simp only [oldPalettes, h2, h3]
  have h5 : (newPalettes cs).flatMap newWrites = (newPalettes cs').flatMap newWrites := by
    have := congrArg (fun l => l.flatMap fun (c : UInt8 × UInt8 × List PColor) =>
      writesAt c.1.toNat (c.2.2.take (c.2.1.toNat + 1 - c.1.toNat))) h1
    simp only [List.flatMap_map] at this
    exact this
  have h6 := map_nil_iff h1
  have h7 : paletteWrites cs = paletteWrites cs' := by
    simp only [paletteWrites, ne_eq, h4, h5, h6]
  exact ⟨by simp only [paletteProblem, h4, h6, h7], h7⟩

theorem filePalette_look {dx dy : Int} {raw raw' : RawFile} (h : Moved dx dy (look raw) (look raw')) :
    filePalette raw = filePalette raw' := by
  rw [filePalette_eq, filePalette_eq]
  obtain ⟨h1, h2⟩ := palette_look (allChunks_look h)
  rw [h1, h2, show raw.header.colorDepth = raw'.header.colorDepth from h.colorDepth,
    show raw.header.transparentIndex = raw'.header.transparentIndex from h.transparentIndex]

/-! ## The file -/

def Outcome.map {ε α β : Type} (f : α → β) : Outcome ε α → Outcome ε β
  | .ok a => .ok (f a)
  | .err e => .err e
  | .panic k => .panic k

variable {dx dy : Int}

theorem find?_look {l m : List CelChunk} (n : Nat) (h : l.map (celCore dx dy) = m.map (celCore 0 0)) :
    (badCel n l).map (celCore dx dy) = (badCel n m).map (celCore 0 0) := by
  induction l generalizing m with
  | nil =>
    cases m with
    | nil => rfl
    | cons b m => simp at h
  | cons a l ih =>
    cases m with
    | nil => simp at h
    | cons b m =>
      simp only [List.map_cons, List.cons.injEq] at h
      have hi : a.layerIndex = b.layerIndex := congrArg Prod.fst h.1
      simp only [badCel, List.find?_cons, hi]
      split
      · simp [h.1]
      · exact ih h.2

theorem slot_look {l m : List CelChunk} (i : Nat) (h : l.map (celCore dx dy) = m.map (celCore 0 0)) :
    (slot l i).map (celCore dx dy) = (slot m i).map (celCore 0 0) := by
  have key : ∀ (dx dy : Int) (l : List CelChunk), (slot l i).map (celCore dx dy) =
      ((l.map (celCore dx dy)).filter fun c => c.1.toNat = i).getLast? := by
    intro dx dy l
    rw [slot, ← List.getLast?_map, List.filter_map]
    rfl
  rw [key, key, h]

theorem slots_look {l m : List CelChunk} (n : Nat) (h : l.map (celCore dx dy) = m.map (celCore 0 0)) :
    (slots n l).map (·.map (celCore dx dy)) = (slots n m).map (·.map (celCore 0 0)) := by
  simp only [slots, List.map_map, Function.comp_def, slot_look _ h]

/-- What matters of a parsed file. -/
def fileCore (dx dy : Int) (f : File) := (f.header.colorDepth, f.palette, f.layers.map layerCore,
  f.frames.map fun fr => fr.cels.map (·.map (celCore dx dy)))

theorem assembleFile_look {raw raw' : RawFile} (hf : FreshFrames raw.frames) (hf' : FreshFrames raw'.frames)
    (h : Moved dx dy (look raw) (look raw')) :
    (assembleFile raw).map (fileCore dx dy) = (assembleFile raw').map (fileCore 0 0) := by
  rw [assembleFile_eq _ hf, assembleFile_eq _ hf', filePalette_look h]
  cases filePalette raw' with
  | err e => rfl
  | panic k => rfl
  | ok pal =>
    have hl := layers_look h
    have hn : (allLayers raw.frames).length = (allLayers raw'.frames).length := by
      simpa only [List.length_map] using congrArg List.length hl
    have hc := cels_look h
    have hac : (allCels raw.frames).map (celCore dx dy) = (allCels raw'.frames).map (celCore 0 0) := by
      have := congrArg List.flatten hc
      simpa only [allCels, List.flatMap_def, List.map_flatten, List.map_map, Function.comp_def] using this
    have hb := find?_look (allLayers raw'.frames).length hac
    simp only [Outcome.bind, hn]
    cases h1 : badCel (allLayers raw'.frames).length (allCels raw.frames) with
    | some c =>
      cases h2 : badCel (allLayers raw'.frames).length (allCels raw'.frames) with
      | none => simp [h1, h2] at hb
      | some c' =>
        simp only [h1, h2, Option.map_some, Option.some.injEq] at hb
        have hi : c.layerIndex = c'.layerIndex := congrArg Prod.fst hb
        by_cases hlt : (allLayers raw'.frames).length < c'.layerIndex.toNat
        · simp only [rejectCel, hi, if_pos hlt, Outcome.map]
        · simp only [rejectCel, hi, if_neg hlt, Outcome.map]
    | none =>
      cases h2 : badCel (allLayers raw'.frames).length (allCels raw'.frames) with
      | some c' => simp [h1, h2] at hb
      | none =>
        have hfr : (raw.frames.map fun f => (slots (allLayers raw'.frames).length (celsOf f.chunks)).map (·.map (celCore dx dy))) =
            raw'.frames.map fun f => (slots (allLayers raw'.frames).length (celsOf f.chunks)).map (·.map (celCore 0 0)) := by
          generalize (allLayers raw'.frames).length = n
          have key : ∀ l m : List RawFrame,
              (l.map fun f => (celsOf f.chunks).map (celCore dx dy)) =
                (m.map fun f => (celsOf f.chunks).map (celCore 0 0)) →
              (l.map fun f => (slots n (celsOf f.chunks)).map (·.map (celCore dx dy))) =
                m.map fun f => (slots n (celsOf f.chunks)).map (·.map (celCore 0 0)) := by
            intro l
            induction l with
            | nil => intro m hm; cases m with | nil => rfl | cons _ _ => simp at hm
            | cons a l ih =>
              intro m hm
              cases m with
              | nil => simp at hm
              | cons b m =>
                simp only [List.map_cons, List.cons.injEq] at hm ⊢
                exact ⟨slots_look n hm.1, ih m hm.2⟩
          exact key _ _ hc
        simp only [Outcome.map, fileCore, List.map_map, Function.comp_def, hl, hfr,
          show raw.header.colorDepth = raw'.header.colorDepth from h.colorDepth]

/-! ## The loaded file -/

theorem filterMap_id_look : ∀ {l m : List (Option CelChunk)}, l.map (·.map (celCore dx dy)) = m.map (·.map (celCore 0 0)) →
    (l.filterMap id).map (celCore dx dy) = (m.filterMap id).map (celCore 0 0) := by
  intro l
  induction l with
  | nil => intro m hm; cases m with | nil => rfl | cons _ _ => simp at hm
  | cons a l ih =>
    intro m hm
    cases m with
    | nil => simp at hm
    | cons b m =>
      simp only [List.map_cons, List.cons.injEq] at hm
      have := ih hm.2
      cases a <;> cases b <;> simp_all

theorem celCore_content {a b : CelChunk} (h : celCore dx dy a = celCore 0 0 b) : a.content = b.content :=
  congrArg (·.2.2.2) h

theorem celCore_layer {a b : CelChunk} (h : celCore dx dy a = celCore 0 0 b) : a.layerIndex = b.layerIndex := congrArg (·.1) h

theorem addImages_look (i : Nat) : ∀ {l m : List CelChunk} (acc : List Image × ImageMap), l.map (celCore dx dy) = m.map (celCore 0 0) →
    l.foldl (addImage i) acc = m.foldl (addImage i) acc := by
  intro l
  induction l with
  | nil => intro m acc hm; cases m with | nil => rfl | cons _ _ => simp at hm
  | cons a l ih =>
    intro m acc hm
    cases m with
    | nil => simp at hm
    | cons b m =>
      simp only [List.map_cons, List.cons.injEq] at hm
      have hab : addImage i acc a = addImage i acc b := by
        simp only [addImage, celCore_content hm.1, celCore_layer hm.1]
      rw [List.foldl_cons, List.foldl_cons, hab, ih _ hm.2]

/-- What matters of the frames. -/
abbrev framesCore (dx dy : Int) (l : List Frame) := l.map fun fr => fr.cels.map (·.map (celCore dx dy))

theorem collectImages_look : ∀ {l m : List Frame} (i : Nat) (acc : List Image × ImageMap), framesCore dx dy l = framesCore 0 0 m →
    collectImages i acc l = collectImages i acc m := by
  intro l
  induction l with
  | nil => intro m i acc hm; cases m with | nil => rfl | cons _ _ => simp at hm
  | cons a l ih =>
    intro m i acc hm
    cases m with
    | nil => simp at hm
    | cons b m =>
      simp only [framesCore, List.map_cons, List.cons.injEq] at hm
      rw [collectImages, collectImages, addImages_look i acc (filterMap_id_look hm.1), ih _ _ hm.2]

/-- What matters of a loaded cel that is going to be moved. -/
def frameCelCore (dx dy : Int) (c : FrameCel) : Int × Int × (UInt16 × UInt16) × Nat × Nat :=
  (c.origin.1.toInt + dx, c.origin.2.toInt + dy, c.size, c.layerIndex, c.imageIndex)

theorem toFrameCels_look (images : List Image) (im : ImageMap) (i : Nat) : ∀ {l m : List CelChunk},
    l.map (celCore dx dy) = m.map (celCore 0 0) → (toFrameCels images im i l).map (·.map (frameCelCore dx dy)) =
      (toFrameCels images im i m).map (·.map (frameCelCore 0 0)) := by
  intro l
  induction l with
  | nil => intro m hm; cases m with | nil => rfl | cons _ _ => simp at hm
  | cons a l ih =>
    intro m hm
    cases m with
    | nil => simp at hm
    | cons b m =>
      simp only [List.map_cons, List.cons.injEq] at hm
      have hx : a.x.toInt + dx = b.x.toInt + 0 := congrArg (·.2.1) hm.1
      have hy : a.y.toInt + dy = b.y.toInt + 0 := congrArg (·.2.2.1) hm.1
      have h2 := ih hm.2
      rw [toFrameCels, toFrameCels]
      have hio : imageIndexOf im i a = imageIndexOf im i b := by
        simp only [imageIndexOf, celCore_content hm.1, celCore_layer hm.1]
      simp only [toFrameCel, hio, celCore_layer hm.1, outcome_bind_def, outcome_pure_def]
      generalize imageIndexOf im i b = o
      cases o with
      | err e => rfl
      | panic k => rfl
      | ok j =>
        simp only [Outcome.bind]
        cases images[j]? with
        | none => rfl
        | some img =>
          simp only
          revert h2
          cases toFrameCels images im i l <;> cases toFrameCels images im i m <;> intro h2 <;>
            simp_all [Outcome.map, frameCelCore]

theorem toLFrames_look (images : List Image) (im : ImageMap) : ∀ {l m : List Frame} (i : Nat),
    framesCore dx dy l = framesCore 0 0 m →
    (toLFrames images im i l).map (·.map fun f => f.cels.map (frameCelCore dx dy)) =
      (toLFrames images im i m).map (·.map fun f => f.cels.map (frameCelCore 0 0)) := by
  intro l
  induction l with
  | nil => intro m i hm; cases m with | nil => rfl | cons _ _ => simp at hm
  | cons a l ih =>
    intro m i hm
    cases m with
    | nil => simp at hm
    | cons b m =>
      simp only [framesCore, List.map_cons, List.cons.injEq] at hm
      rw [toLFrames, toLFrames]
      have h1 := toFrameCels_look images im i (filterMap_id_look hm.1)
      have h2 := ih (i + 1) hm.2
      simp only [outcome_bind_def, outcome_pure_def]
      revert h1 h2
      cases toFrameCels images im i (a.cels.filterMap id) <;> cases toFrameCels images im i (b.cels.filterMap id) <;>
        intro h1 <;> try simp_all [Outcome.map, Outcome.bind]
      cases toLFrames images im (i + 1) l <;> cases toLFrames images im (i + 1) m <;> intro h2 <;>
        simp_all

/-- A layer without its name. -/
def nameless (l : LLayer) : LLayer := { l with name := "" }

theorem toLLayers_look : ∀ {l m : List LayerChunk}, l.map layerCore = m.map layerCore →
    (l.filterMap toLLayer).map nameless = (m.filterMap toLLayer).map nameless := by
  intro l
  induction l with
  | nil => intro m hm; cases m with | nil => rfl | cons _ _ => simp at hm
  | cons a l ih =>
    intro m hm
    cases m with
    | nil => simp at hm
    | cons b m =>
      simp only [List.map_cons, List.cons.injEq] at hm
      obtain ⟨h, hm⟩ := hm
      simp only [layerCore, Prod.mk.injEq] at h
      obtain ⟨h1, h2, h3, h4⟩ := h
      have key : (toLLayer a).map nameless = (toLLayer b).map nameless := by
        have hv : a.flags.contains LayerFlags.VISIBLE = b.flags.contains LayerFlags.VISIBLE := h2
        simp only [toLLayer, h1, h3, h4, hv]
        split <;> rfl
      have := ih hm
      revert key
      cases ha : toLLayer a <;> cases hb : toLLayer b <;> intro key <;>
        simp_all

/-- What pictures are made from. -/
def loadCore (dx dy : Int) (f : AsepriteFile) := (f.file.header.colorDepth, f.file.palette,
  f.layers.map nameless, f.frames.map fun f => f.cels.map (frameCelCore dx dy), f.images)

theorem ofFile_look {f f' : File} (h : fileCore dx dy f = fileCore 0 0 f') :
    (AsepriteFile.ofFile f).map (loadCore dx dy) = (AsepriteFile.ofFile f').map (loadCore 0 0) := by
  simp only [fileCore, Prod.mk.injEq] at h
  obtain ⟨h3, h4, h5, h6⟩ := h
  have hi := collectImages_look 0 ([], []) h6
  have hl := toLLayers_look h5
  simp only [AsepriteFile.ofFile, hi]
  have ht := toLFrames_look (collectImages 0 ([], []) f'.frames).1 (collectImages 0 ([], []) f'.frames).2 0 h6
  simp only [outcome_bind_def, outcome_pure_def]
  revert ht
  cases toLFrames (collectImages 0 ([], []) f'.frames).1 (collectImages 0 ([], []) f'.frames).2 0 f.frames <;>
    cases toLFrames (collectImages 0 ([], []) f'.frames).1 (collectImages 0 ([], []) f'.frames).2 0 f'.frames <;>
    intro ht <;> simp_all [Outcome.map, Outcome.bind, loadCore]

/-! ## Pictures -/

theorem layers_get {f f' : AsepriteFile} (h : f.layers.map nameless = f'.layers.map nameless) (i : Nat) :
    f.layers[i]?.map nameless = f'.layers[i]?.map nameless := by
  have := congrArg (·[i]?) h
  simpa only [List.getElem?_map] using this

/-- The cel again. -/
def frameCelBack (c : Int × Int × (UInt16 × UInt16) × Nat × Nat) : FrameCel :=
  ⟨(Int16.ofInt c.1, Int16.ofInt c.2.1), c.2.2.1, c.2.2.2.1, c.2.2.2.2⟩

theorem frameCelBack_core (c : FrameCel) : frameCelBack (frameCelCore 0 0 c) = c := by
  simp [frameCelBack, frameCelCore]

theorem samePictures_of_core (plat : Plat) {f f' : AsepriteFile} (h : loadCore 0 0 f = loadCore 0 0 f')
    (hs : f.size = f'.size) : SamePictures plat f f' := by
  simp only [loadCore, Prod.mk.injEq] at h
  obtain ⟨h3, h4, h5, h6, h7⟩ := h
  simp only [AsepriteFile.size, Prod.mk.injEq] at hs
  obtain ⟨h1, h2⟩ := hs
  replace h6 : f.frames.map LFrame.cels = f'.frames.map LFrame.cels := by
    have := congrArg (fun l => l.map fun f => f.map frameCelBack) h6
    simpa only [List.map_map, Function.comp_def, frameCelBack_core, List.map_id'] using this
  have hload : ∀ inflate i, f.loadImage inflate i = f'.loadImage inflate i := by
    intro inflate i
    simp only [AsepriteFile.loadImage, AsepriteFile.decodeImage, AsepriteFile.paletteOrErr, h3, h4, h7]
  have hcel : ∀ inflate sel, f.renderCel plat inflate sel = f'.renderCel plat inflate sel := by
    intro inflate sel
    funext cel
    have hl := layers_get h5 cel.layerIndex
    simp only [AsepriteFile.renderCel]
    revert hl
    cases f.layers[cel.layerIndex]? with
    | none =>
      cases f'.layers[cel.layerIndex]? with
      | none => intro _; rfl
      | some b => intro hl; simp at hl
    | some a =>
      cases f'.layers[cel.layerIndex]? with
      | none => intro hl; simp at hl
      | some b =>
        intro hl
        simp only [Option.map_some, Option.some.injEq, nameless, LLayer.mk.injEq, true_and] at hl
        obtain ⟨ho, hb, hv, ht⟩ := hl
        have hs : sel.isSelected cel.layerIndex a = sel.isSelected cel.layerIndex b := by
          cases sel <;> simp [LayerSelection.isSelected, hv]
        have hp : ∀ bf ct y, f.renderPixel plat cel a bf ct y = f'.renderPixel plat cel b bf ct y := by
          intro bf ct y
          funext x
          simp only [AsepriteFile.renderPixel, h1, h2, ho]
        simp only [ht, hs, hb, hload, hp]
  have hfr : ∀ i : Nat, f.frames[i]?.map LFrame.cels = f'.frames[i]?.map LFrame.cels := by
    intro i
    have := congrArg (·[i]?) h6
    simpa only [List.getElem?_map] using this
  have hrender : ∀ inflate i sel, f.renderFrame plat inflate i sel = f'.renderFrame plat inflate i sel := by
    intro inflate i sel
    have := hfr i
    simp only [AsepriteFile.renderFrame, h1, h2, hcel]
    revert this
    cases f.frames[i]? <;> cases f'.frames[i]? <;> intro this <;> simp_all
  refine ⟨by simp only [AsepriteFile.size, h1, h2], ?_, by simp only [AsepriteFile.imageCount, h7],
    fun inflate i t => by rw [hload], fun inflate i sel t => by rw [hrender], fun inflate hash i t => ?_⟩
  · simpa only [List.length_map] using congrArg List.length h6
  · have := hfr i
    simp only [AsepriteFile.combinedFrameImage, hrender]
    revert this
    cases f.frames[i]? <;> cases f'.frames[i]? <;> intro this <;> simp_all

/-! ## Moved pictures -/

theorem loadImage_core {f f' : AsepriteFile} (h : loadCore dx dy f = loadCore 0 0 f') (inflate : Inflater) (i : Nat) :
    f.loadImage inflate i = f'.loadImage inflate i := by
  simp only [loadCore, Prod.mk.injEq] at h
  simp only [AsepriteFile.loadImage, AsepriteFile.decodeImage, AsepriteFile.paletteOrErr, h.1, h.2.1, h.2.2.2.2]

theorem drawnOn_core {f f' : AsepriteFile} (h : f.layers.map nameless = f'.layers.map nameless) (sel : LayerSelection)
    {c c' : FrameCel} (hc : c.layerIndex = c'.layerIndex) :
    (drawnOn f sel c).map nameless = (drawnOn f' sel c').map nameless := by
  have hl := layers_get h c'.layerIndex
  rw [drawnOn, drawnOn, hc]
  revert hl
  cases f.layers[c'.layerIndex]? with
  | none =>
    cases f'.layers[c'.layerIndex]? with
    | none => intro _; rfl
    | some b => intro hl; simp at hl
  | some a =>
    cases f'.layers[c'.layerIndex]? with
    | none => intro hl; simp at hl
    | some b =>
      intro hl
      simp only [Option.map_some, Option.some.injEq] at hl
      have hl' := hl
      simp only [nameless, LLayer.mk.injEq, true_and] at hl'
      obtain ⟨ho, hb, hv, ht⟩ := hl'
      have hs : Selects sel c'.layerIndex a ↔ Selects sel c'.layerIndex b := by
        cases sel <;> simp [Selects, hv]
      simp only [ht, hs]
      split
      · simpa using hl
      · rfl

theorem coveredBy_core {c c' : FrameCel} (hc : frameCelCore dx dy c = frameCelCore 0 0 c') {x y x' y' : Nat}
    (hx : (x' : Int) = x + dx) (hy : (y' : Int) = y + dy) : coveredBy c x y = coveredBy c' x' y' := by
  simp only [frameCelCore, Prod.mk.injEq, Int.add_zero] at hc
  obtain ⟨h1, h2, h3, -, -⟩ := hc
  have e1 : (x' : Int) - c'.origin.1.toInt = x - c.origin.1.toInt := by omega
  have e2 : (y' : Int) - c'.origin.2.toInt = y - c.origin.2.toInt := by omega
  simp only [coveredBy, e1, e2, h3]

theorem imageColor_core {f f' : AsepriteFile} (h : loadCore dx dy f = loadCore 0 0 f') (inflate : Inflater) (i : Nat) :
    imageColor inflate f i = imageColor inflate f' i := by
  simp only [loadCore, Prod.mk.injEq] at h
  funext p
  simp only [imageColor, imageBytes, h.1, h.2.1, h.2.2.2.2]

theorem compose_core (plat : Plat) (inflate : Inflater) (sel : LayerSelection) {f f' : AsepriteFile}
    (h : loadCore dx dy f = loadCore 0 0 f') {x y x' y' : Nat} (hx : (x' : Int) = x + dx) (hy : (y' : Int) = y + dy) :
    ∀ {cs cs' : List FrameCel}, cs.map (frameCelCore dx dy) = cs'.map (frameCelCore 0 0) → ∀ c,
      compose plat inflate f sel x y cs c = compose plat inflate f' sel x' y' cs' c := by
  intro cs
  induction cs with
  | nil => intro m hm; cases m with | nil => intro c; rfl | cons _ _ => simp at hm
  | cons a l ih =>
    intro m hm
    cases m with
    | nil => simp at hm
    | cons b m =>
      simp only [List.map_cons, List.cons.injEq] at hm
      intro c
      have h4 : a.layerIndex = b.layerIndex := congrArg (·.2.2.2.1) hm.1
      have h5 : a.imageIndex = b.imageIndex := congrArg (·.2.2.2.2) hm.1
      have hd := drawnOn_core (congrArg (·.2.2.1) h) sel h4
      rw [compose, compose, coveredBy_core hm.1 hx hy, h5, imageColor_core h]
      revert hd
      cases drawnOn f sel a with
      | none =>
        cases drawnOn f' sel b with
        | none => intro _; exact ih hm.2 c
        | some lb => intro hd; simp at hd
      | some la =>
        cases drawnOn f' sel b with
        | none => intro hd; simp at hd
        | some lb =>
          intro hd
          simp only [Option.map_some, Option.some.injEq, nameless, LLayer.mk.injEq, true_and] at hd
          cases (coveredBy b x' y').bind (imageColor inflate f' b.imageIndex) with
          | none => exact ih hm.2 c
          | some front =>
            simp only [hd.1, hd.2.1]
            congr 1
            funext c'
            exact ih hm.2 c'

theorem frames_core {f f' : AsepriteFile} (h : loadCore dx dy f = loadCore 0 0 f') (i : Nat) :
    f.frames[i]?.map (fun l => l.cels.map (frameCelCore dx dy)) =
      f'.frames[i]?.map fun l => l.cels.map (frameCelCore 0 0) := by
  have := congrArg (fun p => p.2.2.2.1[i]?) h
  simpa only [loadCore, List.getElem?_map] using this

theorem renderFrame_ok_frame {plat : Plat} {f : AsepriteFile} {inflate : Inflater} {i : Nat} {sel : LayerSelection}
    {t u : Bytes} (h : f.renderFrame plat inflate i sel t = (.ok (), u)) : ∃ lf, f.frames[i]? = some lf := by
  cases hf : f.frames[i]? with
  | some lf => exact ⟨lf, rfl⟩
  | none =>
    exfalso
    simp only [AsepriteFile.renderFrame, hf, bind, Buf.bind, Buf.len] at h
    split at h <;> simp [Buf.lift] at h

theorem nameless_mode {l m : LLayer} (h : nameless l = nameless m) : l.blendMode = m.blendMode := by
  simp only [nameless, LLayer.mk.injEq] at h
  exact h.2.2.1

theorem drawnOn_mem {f : AsepriteFile} {sel : LayerSelection} {c : FrameCel} {layer : LLayer}
    (h : drawnOn f sel c = some layer) : layer ∈ f.layers := by
  unfold drawnOn at h
  split at h
  · next l hl =>
    split at h
    · cases h; exact List.mem_of_getElem? hl
    · simp at h
  · simp at h

theorem renders_core {plat : Plat} {b b' : Bytes} {f f' : AsepriteFile} (hf : AsepriteFile.load plat b = .ok f)
    (hf' : AsepriteFile.load plat b' = .ok f') (h : loadCore dx dy f = loadCore 0 0 f')
    (hm : plat.debug = false ∨ ∀ layer ∈ f.layers, isHsl layer.blendMode = false) (inflate : Inflater) (i : Nat)
    (sel : LayerSelection) (t t' : Bytes) (ht : f.size.1.toNat * f.size.2.toNat * 4 ≤ t.length)
    (ht' : f'.size.1.toNat * f'.size.2.toNat * 4 ≤ t'.length) :
    (f.renderFrame plat inflate i sel t).1 = .ok () ↔ (f'.renderFrame plat inflate i sel t').1 = .ok () := by
  have hl : f.layers.map nameless = f'.layers.map nameless := congrArg (·.2.2.1) h
  have hm' : plat.debug = false ∨ ∀ layer ∈ f'.layers, isHsl layer.blendMode = false := by
    refine hm.imp id fun hm layer hmem => ?_
    have : nameless layer ∈ f'.layers.map nameless := List.mem_map_of_mem hmem
    rw [← hl] at this
    obtain ⟨l, hl1, hl2⟩ := List.mem_map.1 this
    rw [← hm l hl1, show l.blendMode = layer.blendMode from nameless_mode hl2]
  have hfr := frames_core h i
  have key : ∀ {g : AsepriteFile} {s : Bytes}, (∃ u, g.renderFrame plat inflate i sel s = (.ok (), u)) ↔
      (g.renderFrame plat inflate i sel s).1 = .ok () := by
    intro g s
    exact ⟨fun ⟨u, hu⟩ => by rw [hu], fun hu => ⟨_, Prod.ext hu rfl⟩⟩
  cases hi : f.frames[i]? with
  | none =>
    rw [hi] at hfr
    have hi' : f'.frames[i]? = none := by cases h' : f'.frames[i]? with | none => rfl | some _ => simp [h'] at hfr
    rw [← key, ← key]
    constructor
    · rintro ⟨u, hu⟩; obtain ⟨lf, hlf⟩ := renderFrame_ok_frame hu; simp [hi] at hlf
    · rintro ⟨u, hu⟩; obtain ⟨lf, hlf⟩ := renderFrame_ok_frame hu; simp [hi'] at hlf
  | some lf =>
    rw [hi] at hfr
    cases hi' : f'.frames[i]? with
    | none => simp [hi'] at hfr
    | some lf' =>
      rw [hi'] at hfr
      simp only [Option.map_some, Option.some.injEq] at hfr
      rw [C41_success_partial plat b f hf inflate i lf hi sel t ht
          (hm.imp id fun hm c _ layer hd => hm layer (drawnOn_mem hd)),
        C41_success_partial plat b' f' hf' inflate i lf' hi' sel t' ht'
          (hm'.imp id fun hm c _ layer hd => hm layer (drawnOn_mem hd))]
      have him : f.images = f'.images := congrArg (·.2.2.2.2) h
      have hhp : ∀ im, HasPixels inflate f.file im ↔ HasPixels inflate f'.file im := by
        intro im
        simp only [HasPixels, show f.file.header.colorDepth = f'.file.header.colorDepth from congrArg (·.1) h]
      have go : ∀ {c c' : FrameCel}, frameCelCore dx dy c = frameCelCore 0 0 c' →
          ((∀ layer im, drawnOn f sel c = some layer → f.images[c.imageIndex]? = some im →
            HasPixels inflate f.file im ∧ isKnown layer.blendMode = true) ↔
          (∀ layer im, drawnOn f' sel c' = some layer → f'.images[c'.imageIndex]? = some im →
            HasPixels inflate f'.file im ∧ isKnown layer.blendMode = true)) := by
        intro c c' hc
        have h4 : c.layerIndex = c'.layerIndex := congrArg (·.2.2.2.1) hc
        have h5 : c.imageIndex = c'.imageIndex := congrArg (·.2.2.2.2) hc
        have hd := drawnOn_core hl sel h4
        rw [h5, him]
        simp only [hhp]
        revert hd
        cases drawnOn f sel c with
        | none =>
          cases drawnOn f' sel c' with
          | none => intro _; simp
          | some lb => intro hd; simp at hd
        | some la =>
          cases drawnOn f' sel c' with
          | none => intro hd; simp at hd
          | some lb =>
            intro hd
            simp only [Option.map_some, Option.some.injEq] at hd
            have hb : la.blendMode = lb.blendMode := nameless_mode hd
            simp only [Option.some.injEq]
            constructor
            · intro hh layer im e1 e2
              subst e1
              rw [← hb]
              exact hh la im rfl e2
            · intro hh layer im e1 e2
              subst e1
              rw [hb]
              exact hh lb im rfl e2
      constructor
      · intro hall c' hc'
        have : frameCelCore 0 0 c' ∈ lf'.cels.map (frameCelCore 0 0) := List.mem_map_of_mem hc'
        rw [← hfr] at this
        obtain ⟨c, hc, he⟩ := List.mem_map.1 this
        exact (go he).1 (hall c hc)
      · intro hall c hc
        have : frameCelCore dx dy c ∈ lf.cels.map (frameCelCore dx dy) := List.mem_map_of_mem hc
        rw [hfr] at this
        obtain ⟨c', hc', he⟩ := List.mem_map.1 this
        exact (go he.symm).2 (hall c' hc')

theorem movedPictures_of_core {plat : Plat} {b b' : Bytes} {f f' : AsepriteFile} (hf : AsepriteFile.load plat b = .ok f)
    (hf' : AsepriteFile.load plat b' = .ok f') (h : loadCore dx dy f = loadCore 0 0 f') :
    MovedPictures plat dx dy f f' := by
  refine ⟨?_, congrArg (fun p => p.2.2.2.2.length) h, fun inflate i t => by rw [loadImage_core h], ?_,
    fun hm inflate i sel t t' ht ht' => renders_core hf hf' h hm inflate i sel t t' ht ht'⟩
  · have := congrArg (fun p => p.2.2.2.1.length) h
    simpa only [loadCore, List.length_map] using this
  · intro inflate i sel t u t' u' hu hu' x y x' y' hx hy hx' hy' ex ey ht
    obtain ⟨lf, hlf⟩ := renderFrame_ok_frame hu
    obtain ⟨lf', hlf'⟩ := renderFrame_ok_frame hu'
    obtain ⟨p, q, h1, h2, h3⟩ := C37_pixels plat b f hf inflate i lf hlf sel t u hu x y hx hy
    obtain ⟨p', q', h1', h2', h3'⟩ := C37_pixels plat b' f' hf' inflate i lf' hlf' sel t' u' hu' x' y' hx' hy'
    have hfr := frames_core h i
    rw [hlf, hlf'] at hfr
    simp only [Option.map_some, Option.some.injEq] at hfr
    rw [h1, h1'] at ht
    cases ht
    rw [compose_core plat inflate sel h ex ey hfr, h3'] at h3
    cases h3
    rw [h2, h2']

end Ase
