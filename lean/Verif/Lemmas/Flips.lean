import Verif.Spec.Encode
import Verif.Lemmas.Loader

/-! # The flip masks of tilemaps do not matter for `load` (C121) -/

namespace Ase
open Spec

/-- A cel with the flip masks exchanged. -/
def flipCel (c : CelChunk) : CelChunk := { c with content := swapFlips c.content }

/-- The collected variables with the flip masks exchanged. -/
def flipAcc (a : Collected) : Collected := { a with cels := a.cels.map flipCel }

/-- A frame with the flip masks exchanged. -/
def flipFrame (f : Frame) : Frame := { f with cels := f.cels.map (Option.map flipCel) }

/-- A file with the flip masks exchanged. -/
def flipFile (f : File) : File := { f with frames := f.frames.map flipFrame }

/-- Change the value of a successful outcome. -/
def onOk {E A B : Type} (f : A → B) : Outcome E A → Outcome E B
  | .ok a => .ok (f a)
  | .err e => .err e
  | .panic k => .panic k

theorem nextUserData_flip (cs : List Chunk) :
    nextUserData (cs.map readAs) = ((nextUserData cs).1, (nextUserData cs).2.map readAs) := by
  cases cs with
  | nil => rfl
  | cons c cs => cases c <;> rfl

theorem attachTags_flip (ts : List Tag) (cs : List Chunk) :
    attachTags ts (cs.map readAs) = ((attachTags ts cs).1, (attachTags ts cs).2.map readAs) := by
  induction ts generalizing cs with
  | nil => rfl
  | cons t ts ih =>
    unfold attachTags
    rw [nextUserData_flip]
    rcases h : nextUserData cs with ⟨_ | u, rest⟩
    · rfl
    · simp only [ih]

theorem collectChunks_flip (first : Bool) (acc : Collected) (cs : List Chunk) :
    collectChunks first (flipAcc acc) (cs.map readAs) = flipAcc (collectChunks first acc cs) := by
  fun_induction collectChunks first acc cs <;> rw [List.map] <;> (try simp only [readAs]) <;> rw [collectChunks]
  all_goals try simp only [nextUserData_flip, attachTags_flip]
  all_goals try assumption
  all_goals try (rename_i h ih; rw [if_pos (by exact h)]; exact ih)
  all_goals try (rename_i h ih; rw [if_neg (by exact h)]; exact ih)
  all_goals try (rename_i ih; exact ih)
  · rename_i ih
    rw [← ih]
    simp [flipAcc, flipCel]

theorem collectFrames_flip (acc : Collected) (done : List (UInt16 × List CelChunk)) (fs : List RawFrame) :
    collectFrames (flipAcc acc) (done.map fun p => (p.1, p.2.map flipCel))
      (fs.map fun fr => { fr with chunks := fr.chunks.map readAs }) =
    (flipAcc (collectFrames acc done fs).1, (collectFrames acc done fs).2.map fun p => (p.1, p.2.map flipCel)) := by
  induction fs generalizing acc done with
  | nil => rfl
  | cons f fs ih =>
    simp only [List.map_cons, collectFrames]
    have := collectChunks_flip done.isEmpty { acc with cels := [] } f.chunks
    have e : flipAcc { acc with cels := [] } = { flipAcc acc with cels := [] } := rfl
    rw [e] at this
    rw [show (done.map fun p => (p.1, p.2.map flipCel)).isEmpty = done.isEmpty by simp, this]
    rw [← ih]
    simp [flipAcc]

theorem placeCels_flip (n : Nat) (slots : List (Option CelChunk)) (cs : List CelChunk) :
    placeCels n (slots.map (Option.map flipCel)) (cs.map flipCel) =
      onOk (List.map (Option.map flipCel)) (placeCels n slots cs) := by
  induction cs generalizing slots with
  | nil => rfl
  | cons c cs ih =>
    simp only [List.map_cons, placeCels, List.length_map]
    have e : (flipCel c).layerIndex = c.layerIndex := rfl
    rw [e]
    split
    · rfl
    · split
      · rw [← ih, List.map_set, Option.map_some]
      · rfl

theorem buildFrames_flip (n : Nat) (fs : List (UInt16 × List CelChunk)) :
    buildFrames n (fs.map fun p => (p.1, p.2.map flipCel)) = onOk (List.map flipFrame) (buildFrames n fs) := by
  induction fs with
  | nil => rfl
  | cons f fs ih =>
    obtain ⟨d, cels⟩ := f
    simp only [List.map_cons, buildFrames]
    have := placeCels_flip n (List.replicate n none) cels
    rw [List.map_replicate] at this
    rw [show Option.map flipCel none = none from rfl] at this
    rw [this, ih]
    cases placeCels n (List.replicate n none) cels with
    | ok x => cases buildFrames n fs <;> rfl
    | err e => rfl
    | panic k => rfl

theorem flatMap_flip {α : Type} (fs : List RawFrame) (g : Chunk → Option α) (hg : ∀ c, g (readAs c) = g c) :
    (fs.map fun fr => { fr with chunks := fr.chunks.map readAs }).flatMap (fun f => f.chunks.filterMap g) =
      fs.flatMap fun f => f.chunks.filterMap g := by
  induction fs with
  | nil => rfl
  | cons f fs ih =>
    simp only [List.map_cons, List.flatMap_cons, ih, List.filterMap_map]
    congr 2
    funext c
    exact hg c

theorem filePalette_flip (raw : RawFile) : filePalette (readFileAs raw) = filePalette raw := by
  have h1 : paletteChunks (readFileAs raw).frames = paletteChunks raw.frames := flatMap_flip _ _ fun c => by cases c <;> rfl
  have h2 : palette0004Chunks (readFileAs raw).frames = palette0004Chunks raw.frames :=
    flatMap_flip _ _ fun c => by cases c <;> rfl
  have h3 : palette0011Chunks (readFileAs raw).frames = palette0011Chunks raw.frames :=
    flatMap_flip _ _ fun c => by cases c <;> rfl
  have e : createPalette raw.header (readFileAs raw).frames = createPalette raw.header raw.frames := by
    unfold createPalette
    rw [h1, h2, h3]
  unfold filePalette
  rw [show (readFileAs raw).header = raw.header from rfl, e]

theorem assembleFile_flip (raw : RawFile) : assembleFile (readFileAs raw) = onOk flipFile (assembleFile raw) := by
  unfold assembleFile
  rw [filePalette_flip]
  cases filePalette raw with
  | err e => rfl
  | panic k => rfl
  | ok p =>
    have h := collectFrames_flip ⟨[], [], [], none, []⟩ [] raw.frames
    have h : collectFrames ⟨[], [], [], none, []⟩ [] (readFileAs raw).frames = _ := h
    simp only [outcome_bind_def, Outcome.bind]
    rw [h]
    generalize collectFrames ⟨[], [], [], none, []⟩ [] raw.frames = x
    simp only [flipAcc, buildFrames_flip]
    cases buildFrames x.1.layers.length x.2 <;> rfl

theorem addImage_flip (i : Nat) (acc : List Image × ImageMap) (c : CelChunk) : addImage i acc (flipCel c) = addImage i acc c := by
  obtain ⟨_, _, _, _, _, content, _⟩ := c
  cases content <;> rfl

theorem filterMap_flip (cels : List (Option CelChunk)) :
    (cels.map (Option.map flipCel)).filterMap id = (cels.filterMap id).map flipCel := by
  induction cels with
  | nil => rfl
  | cons c cels ih => cases c <;> simp [ih]

theorem collectImages_flip (i : Nat) (acc : List Image × ImageMap) (fs : List Frame) :
    collectImages i acc (fs.map flipFrame) = collectImages i acc fs := by
  induction fs generalizing i acc with
  | nil => rfl
  | cons f fs ih =>
    simp only [List.map_cons, collectImages, ih]
    congr 1
    simp only [flipFrame, filterMap_flip, List.foldl_map, addImage_flip]

theorem toFrameCel_flip (images : List Image) (m : ImageMap) (i : Nat) (c : CelChunk) :
    toFrameCel images m i (flipCel c) = toFrameCel images m i c := by
  obtain ⟨_, _, _, _, _, content, _⟩ := c
  cases content <;> rfl

theorem toFrameCels_flip (images : List Image) (m : ImageMap) (i : Nat) (cs : List CelChunk) :
    toFrameCels images m i (cs.map flipCel) = toFrameCels images m i cs := by
  induction cs with
  | nil => rfl
  | cons c cs ih => simp only [List.map_cons, toFrameCels, toFrameCel_flip, ih]

theorem toLFrames_flip (images : List Image) (m : ImageMap) (i : Nat) (fs : List Frame) :
    toLFrames images m i (fs.map flipFrame) = toLFrames images m i fs := by
  induction fs generalizing i with
  | nil => rfl
  | cons f fs ih =>
    simp only [List.map_cons, toLFrames, ih]
    simp only [flipFrame, filterMap_flip, toFrameCels_flip]

theorem flipCel_of_ok {images : List Image} {m : ImageMap} {i : Nat} {c : CelChunk} {x : FrameCel}
    (h : toFrameCel images m i c = .ok x) : flipCel c = c := by
  obtain ⟨_, _, _, _, _, content, _⟩ := c
  cases content with
  | compressedTilemap => cases h
  | _ => rfl

theorem flipCels_of_ok {images : List Image} {m : ImageMap} {i : Nat} {cs : List CelChunk} {xs : List FrameCel}
    (h : toFrameCels images m i cs = .ok xs) : cs.map flipCel = cs := by
  induction cs generalizing xs with
  | nil => rfl
  | cons c cs ih =>
    rw [toFrameCels] at h
    obtain ⟨a, h1, h2⟩ := outcome_bind_ok.1 h
    obtain ⟨as, h3, -⟩ := outcome_bind_ok.1 h2
    rw [List.map_cons, flipCel_of_ok h1, ih h3]

theorem flipSlots_of {cels : List (Option CelChunk)} (h : (cels.filterMap id).map flipCel = cels.filterMap id) :
    cels.map (Option.map flipCel) = cels := by
  induction cels with
  | nil => rfl
  | cons c cels ih =>
    cases c with
    | none => simp at h ⊢; exact ih h
    | some c =>
      simp only [List.filterMap_cons, id, List.map_cons, List.cons.injEq] at h
      rw [List.map_cons, ih h.2, Option.map_some, h.1]

theorem flipFrames_of_ok {images : List Image} {m : ImageMap} {i : Nat} {fs : List Frame} {xs : List LFrame}
    (h : toLFrames images m i fs = .ok xs) : fs.map flipFrame = fs := by
  induction fs generalizing i xs with
  | nil => rfl
  | cons f fs ih =>
    rw [toLFrames] at h
    obtain ⟨a, h1, h2⟩ := outcome_bind_ok.1 h
    obtain ⟨as, h3, -⟩ := outcome_bind_ok.1 h2
    rw [List.map_cons, ih h3]
    congr 1
    obtain ⟨d, cels⟩ := f
    simp only [flipFrame]
    rw [flipSlots_of (flipCels_of_ok h1)]

theorem ofFile_flip (f : File) : AsepriteFile.ofFile (flipFile f) = AsepriteFile.ofFile f := by
  unfold AsepriteFile.ofFile
  simp only [flipFile, collectImages_flip, toLFrames_flip]
  generalize hx : toLFrames (collectImages 0 ([], []) f.frames).1 (collectImages 0 ([], []) f.frames).2 0 f.frames = x
  cases x with
  | ok xs => rw [flipFrames_of_ok hx]
  | err e => rfl
  | panic k => rfl

end Ase
