import Verif.Lemmas.CostLoad
import Verif.Props.Memory

/-!
# How many steps `parse_file` and `load` take
-/

namespace Ase.Timed

open Spec

/-- the number of steps -/
def S.steps {ε α : Type} (x : S ε α) : Nat := x.1

theorem steps_bind {ε α β : Type} (x : S ε α) (f : α → S ε β) (m : Nat) (h : ∀ a, x.2 = .ok a → (f a).steps ≤ m) :
    (x >>= f).steps ≤ x.steps + m := by
  show (S.bind x f).1 ≤ x.1 + m
  unfold S.bind
  rcases x with ⟨t, a | e | k⟩
  · have := h a rfl
    simp only [S.steps] at this ⊢
    omega
  · exact Nat.le_add_right _ _
  · exact Nat.le_add_right _ _

theorem steps_pure {ε α : Type} (a : α) : (pure a : S ε α).steps = 0 := rfl
theorem steps_tick {ε : Type} (n : Nat) : (S.tick n : S ε Unit).steps = n := rfl
theorem steps_lift {ε α : Type} (x : Outcome ε α) : (S.lift x).steps = 0 := rfl
theorem steps_ite {ε α : Type} (c : Prop) [Decidable c] (x y : S ε α) (m : Nat) (hx : x.steps ≤ m)
    (hy : y.steps ≤ m) : (if c then x else y : S ε α).steps ≤ m := by split <;> assumption

theorem steps_tick_bind {ε β : Type} (n : Nat) (f : Unit → S ε β) :
    (S.tick n >>= f).steps = n + (f ()).steps := rfl
theorem steps_lift_bind {ε α β : Type} (x : Outcome ε α) (f : α → S ε β) (m : Nat)
    (h : ∀ a, x = .ok a → (f a).steps ≤ m) : (S.lift x >>= f).steps ≤ m := by
  have := steps_bind (S.lift x) f m h
  rwa [steps_lift, Nat.zero_add] at this

/-! ## Palettes -/

theorem steps_storeEntries (p : Palette) (ok : Bool) (es : List PaletteEntry) (i l : Nat) :
    (storeEntries p ok es i l).steps ≤ es.length := by
  induction es generalizing p ok i with
  | nil => exact Nat.le_refl _
  | cons e es ih =>
    unfold storeEntries
    refine steps_ite _ _ _ _ ?_ (Nat.zero_le _)
    rw [steps_tick_bind, List.length_cons, Nat.add_comm]
    exact Nat.add_le_add_right (steps_lift_bind _ _ _ fun a _ => ih _ _ _) 1

theorem steps_storePaletteChunks (p : Palette) (ok : Bool) (cs : List PaletteChunk) :
    (storePaletteChunks p ok cs).steps ≤ (cs.map fun c => 1 + c.entries.length).sum := by
  induction cs generalizing p ok with
  | nil => exact Nat.le_refl _
  | cons c cs ih =>
    unfold storePaletteChunks
    rw [steps_tick_bind, List.map_cons, List.sum_cons]
    have h1 := steps_storeEntries p ok c.entries c.firstIndex.toNat c.lastIndex.toNat
    have h2 := steps_bind (storeEntries p ok c.entries c.firstIndex.toNat c.lastIndex.toNat)
      (fun x => storePaletteChunks x.1 x.2 cs) _ fun a _ => ih a.1 a.2
    refine Nat.le_trans (Nat.add_le_add_left h2 1) ?_
    omega

theorem steps_processPaletteChunks (t : UInt8) (cs : List PaletteChunk) (p : Palette) :
    (processPaletteChunks t cs p).steps ≤ (cs.map fun c => 1 + c.entries.length).sum := by
  unfold processPaletteChunks
  exact Nat.le_trans (steps_bind _ _ 0 fun a _ => steps_ite _ _ _ _ (Nat.le_refl _) (Nat.le_refl _))
    (steps_storePaletteChunks p false cs)

theorem steps_storeColors (p : Palette) (ok : Bool) (i : Nat) (cs : List RGB) :
    (storeColors p ok i cs).steps ≤ cs.length := by
  induction cs generalizing p ok i with
  | nil => exact Nat.le_refl _
  | cons c cs ih =>
    unfold storeColors
    rw [steps_tick_bind, List.length_cons, Nat.add_comm]
    exact Nat.add_le_add_right (steps_lift_bind _ _ _ fun a _ => ih _ _ _) 1

theorem steps_storePackets (p : Palette) (ok : Bool) (i : Nat) (ks : List Packet) :
    (storePackets p ok i ks).steps ≤ (ks.map fun k => 1 + k.colors.length).sum := by
  induction ks generalizing p ok i with
  | nil => exact Nat.le_refl _
  | cons k ks ih =>
    unfold storePackets
    rw [steps_tick_bind, List.map_cons, List.sum_cons]
    have h1 := steps_storeColors p ok (i + k.entriesToSkip.toNat) k.colors
    have h2 := steps_bind (storeColors p ok (i + k.entriesToSkip.toNat) k.colors)
      (fun x => storePackets x.1 x.2.1 x.2.2 ks) _ fun a _ => ih a.1 a.2.1 a.2.2
    refine Nat.le_trans (Nat.add_le_add_left (steps_ite _ _ _ _ (Nat.zero_le _) h2) 1) ?_
    omega

theorem steps_storeOldChunks (p : Palette) (ok : Bool) (cs : List OldPaletteChunk) :
    (storeOldChunks p ok cs).steps ≤ (cs.map fun c => 1 + (c.packets.map fun k => 1 + k.colors.length).sum).sum := by
  induction cs generalizing p ok with
  | nil => exact Nat.le_refl _
  | cons c cs ih =>
    unfold storeOldChunks
    rw [steps_tick_bind, List.map_cons, List.sum_cons]
    have h1 := steps_storePackets p ok 0 c.packets
    have h2 := steps_bind (storePackets p ok 0 c.packets)
      (fun x => storeOldChunks x.1 x.2 cs) _ fun a _ => ih a.1 a.2
    refine Nat.le_trans (Nat.add_le_add_left h2 1) ?_
    omega

theorem steps_processOldPaletteChunks (t : UInt8) (cs : List OldPaletteChunk) (p : Palette) :
    (processOldPaletteChunks t cs p).steps ≤
      (cs.map fun c => 1 + (c.packets.map fun k => 1 + k.colors.length).sum).sum := by
  unfold processOldPaletteChunks
  exact Nat.le_trans (steps_bind _ _ 0 fun a _ => steps_ite _ _ _ _ (Nat.le_refl _) (Nat.le_refl _))
    (steps_storeOldChunks p false cs)

/-- the steps a chunk causes in `createPalette` besides the scans -/
def paletteCost : Chunk → Nat
  | .palette c => 1 + c.entries.length
  | .palette0004 c | .palette0011 c => 1 + (c.packets.map fun k => 1 + k.colors.length).sum
  | _ => 0

theorem sum_filterMap_le {α β : Type} (g : α → Option β) (w : β → Nat) (v : α → Nat)
    (h : ∀ a b, g a = some b → w b ≤ v a) (xs : List α) : ((xs.filterMap g).map w).sum ≤ (xs.map v).sum := by
  induction xs with
  | nil => exact Nat.le_refl _
  | cons x xs ih =>
    rw [List.filterMap_cons, List.map_cons, List.sum_cons]
    cases hg : g x with
    | none => exact Nat.le_trans ih (Nat.le_add_left _ _)
    | some b =>
      simp only [List.map_cons, List.sum_cons]
      exact Nat.add_le_add (h x b hg) ih

theorem sum_flatMap {α β : Type} (g : α → List β) (w : β → Nat) (xs : List α) :
    ((xs.flatMap g).map w).sum = (xs.map fun x => ((g x).map w).sum).sum := by
  induction xs with
  | nil => rfl
  | cons x xs ih => simp [List.flatMap_cons, List.map_append, ih]

/-- the palette steps of all chunks -/
def palettesCost (fs : List RawFrame) : Nat := (fs.map fun f => (f.chunks.map paletteCost).sum).sum

theorem steps_createPalette (h : Header) (fs : List RawFrame) :
    (createPalette h fs).steps ≤ 3 * scan fs + palettesCost fs := by
  have h1 := steps_processPaletteChunks h.transparentIndex (paletteChunks fs) .default
  have h2 := steps_processOldPaletteChunks h.transparentIndex (palette0004Chunks fs) .default
  have h3 := steps_processOldPaletteChunks h.transparentIndex (palette0011Chunks fs) .default
  have k1 : ((paletteChunks fs).map fun c => 1 + c.entries.length).sum ≤ palettesCost fs := by
    rw [paletteChunks, sum_flatMap]
    refine sum_le_sum fun f _ => sum_filterMap_le _ _ _ (fun c p hc => ?_) f.chunks
    split at hc <;> simp at hc
    subst hc; exact Nat.le_refl _
  have k2 : ((palette0004Chunks fs).map fun c => 1 + (c.packets.map fun k => 1 + k.colors.length).sum).sum
      ≤ palettesCost fs := by
    rw [palette0004Chunks, sum_flatMap]
    refine sum_le_sum fun f _ => sum_filterMap_le _ _ _ (fun c p hc => ?_) f.chunks
    split at hc <;> simp at hc
    subst hc; exact Nat.le_refl _
  have k3 : ((palette0011Chunks fs).map fun c => 1 + (c.packets.map fun k => 1 + k.colors.length).sum).sum
      ≤ palettesCost fs := by
    rw [palette0011Chunks, sum_flatMap]
    refine sum_le_sum fun f _ => sum_filterMap_le _ _ _ (fun c p hc => ?_) f.chunks
    split at hc <;> simp at hc
    subst hc; exact Nat.le_refl _
  unfold createPalette
  rw [steps_tick_bind]
  refine Nat.le_trans (Nat.add_le_add_left (steps_ite _ _ _ (2 * scan fs + palettesCost fs) (by omega) ?_) _)
    (by omega)
  rw [steps_tick_bind]
  refine Nat.le_trans (Nat.add_le_add_left (steps_ite _ _ _ (scan fs + palettesCost fs) (by omega) ?_) _)
    (by omega)
  rw [steps_tick_bind]
  exact Nat.add_le_add_left (steps_ite _ _ _ _ (by omega) (by rw [steps_lift]; omega)) _

theorem steps_filePalette (raw : RawFile) :
    (filePalette raw).steps ≤ 3 * scan raw.frames + palettesCost raw.frames := by
  have h := steps_createPalette raw.header raw.frames
  unfold filePalette
  cases raw.header.colorDepth <;> try exact Nat.zero_le _
  rcases hc : createPalette raw.header raw.frames with ⟨t, a | e | k⟩ <;> rw [hc] at h <;> exact h

/-! ## Chunks and frames -/

theorem steps_attachTags (ts : List Tag) (cs : List Chunk) : (attachTags ts cs).1 ≤ ts.length := by
  induction ts generalizing cs with
  | nil => exact Nat.le_refl _
  | cons t ts ih =>
    unfold attachTags
    rcases nextUserData cs with ⟨_ | u, rest⟩
    · simp
    · have := ih rest
      simp only [List.length_cons]
      omega

/-- the steps a chunk causes in the loop over the chunks -/
def collectCost : Chunk → Nat
  | .tags t => 1 + 2 * t.tags.length
  | _ => 1

theorem collectCost_next (cs : List Chunk) :
    ((nextUserData cs).2.map collectCost).sum ≤ (cs.map collectCost).sum := by
  unfold nextUserData
  split
  · simp
  · exact Nat.le_refl _

theorem collectCost_attach (ts : List Tag) (cs : List Chunk) :
    ((attachTags ts cs).2.2.map collectCost).sum ≤ (cs.map collectCost).sum := by
  induction ts generalizing cs with
  | nil => exact Nat.le_refl _
  | cons t ts ih =>
    unfold attachTags
    have h := collectCost_next cs
    rcases hn : nextUserData cs with ⟨_ | u, rest⟩ <;> rw [hn] at h
    · exact h
    · exact Nat.le_trans (ih rest) h

theorem steps_collectChunks (first : Bool) (acc : Collected) (cs : List Chunk) :
    (collectChunks first acc cs).1 ≤ (cs.map collectCost).sum := by
  fun_induction collectChunks first acc cs
  all_goals simp only [more, List.map_cons, List.sum_cons, collectCost]
  case case1 => exact Nat.zero_le _
  all_goals first
    | omega
    | (have := collectCost_next ‹List Chunk›; omega)
    | skip
  rename_i t rest ih
  have h1 := collectCost_attach t.tags rest
  have h2 := steps_attachTags t.tags rest
  omega

theorem steps_collectFrames (acc : Collected) (done : List (UInt16 × List CelChunk)) (fs : List RawFrame) :
    (collectFrames acc done fs).1 ≤ (fs.map fun f => 1 + (f.chunks.map collectCost).sum).sum := by
  induction fs generalizing acc done with
  | nil => exact Nat.le_refl _
  | cons f fs ih =>
    unfold collectFrames
    simp only [more, List.map_cons, List.sum_cons]
    have h1 := steps_collectChunks done.isEmpty { acc with cels := [] } f.chunks
    exact Nat.add_le_add (Nat.add_le_add_left h1 1) (ih _ _)

theorem steps_placeCels (n : Nat) (slots : List (Option CelChunk)) (cs : List CelChunk) :
    (placeCels n slots cs).steps ≤ cs.length := by
  induction cs generalizing slots with
  | nil => exact Nat.le_refl _
  | cons c cs ih =>
    unfold placeCels
    rw [steps_tick_bind, List.length_cons, Nat.add_comm]
    exact Nat.add_le_add_right (steps_ite _ _ _ _ (Nat.zero_le _)
      (steps_ite _ _ _ _ (ih _) (Nat.zero_le _))) 1

theorem steps_buildFrames (n : Nat) (fs : List (UInt16 × List CelChunk)) :
    (buildFrames n fs).steps ≤ (fs.map fun f => 1 + n + f.2.length).sum := by
  induction fs with
  | nil => exact Nat.le_refl _
  | cons f fs ih =>
    obtain ⟨d, cels⟩ := f
    unfold buildFrames
    rw [steps_tick_bind, List.map_cons, List.sum_cons]
    have h1 := steps_placeCels n (List.replicate n none) cels
    have h2 := steps_bind (placeCels n (List.replicate n none) cels)
      (fun cels => do
        let frames ← buildFrames n fs
        pure (({ duration := d, cels } : Frame) :: frames)) _ fun a _ =>
        steps_bind (buildFrames n fs) (fun frames => pure (({ duration := d, cels := a } : Frame) :: frames)) 0
          fun _ _ => Nat.le_refl _
    refine Nat.le_trans (Nat.add_le_add_left h2 _) ?_
    dsimp only
    omega

/-! ## `load` -/

theorem steps_toFrameCels (images : List Image) (m : ImageMap) (i : Nat) (cs : List (Option CelChunk)) :
    (toFrameCels images m i cs).steps ≤ cs.length := by
  induction cs with
  | nil => exact Nat.le_refl _
  | cons c cs ih =>
    rw [List.length_cons, Nat.add_comm]
    cases c with
    | none =>
      unfold toFrameCels
      rw [steps_tick_bind]
      exact Nat.add_le_add_left ih 1
    | some c =>
      unfold toFrameCels
      rw [steps_tick_bind]
      refine Nat.add_le_add_left (steps_lift_bind _ _ _ fun a _ => ?_) 1
      exact Nat.le_trans (steps_bind _ _ 0 fun _ _ => Nat.le_refl _) ih

theorem steps_toLFrames (images : List Image) (m : ImageMap) (i : Nat) (fs : List Frame) :
    (toLFrames images m i fs).steps ≤ imageSteps fs := by
  induction fs generalizing i with
  | nil => exact Nat.le_refl _
  | cons f fs ih =>
    unfold toLFrames
    rw [steps_tick_bind]
    simp only [imageSteps, List.map_cons, List.sum_cons]
    have h1 := steps_toFrameCels images m i f.cels
    have h2 := steps_bind (toFrameCels images m i f.cels)
      (fun cels => do
        let rest ← toLFrames images m (i + 1) fs
        pure (({ duration := f.duration, origin := (0, 0), cels } : LFrame) :: rest)) _ fun a _ =>
        Nat.le_trans (steps_bind (toLFrames images m (i + 1) fs)
          (fun rest => pure (({ duration := f.duration, origin := (0, 0), cels := a } : LFrame) :: rest)) 0
          fun _ _ => Nat.le_refl _) (ih (i + 1))
    refine Nat.le_trans (Nat.add_le_add_left h2 _) ?_
    simp only [imageSteps]
    omega

theorem steps_ofFile (f : File) :
    (ofFile f).steps ≤ layerSteps f.layers + tagSteps f.tags + 2 * imageSteps f.frames := by
  unfold ofFile
  simp only [steps_tick_bind]
  have h1 := steps_toLFrames (collectImages 0 ([], []) f.frames).1 (collectImages 0 ([], []) f.frames).2 0 f.frames
  have h2 := steps_bind (toLFrames (collectImages 0 ([], []) f.frames).1 (collectImages 0 ([], []) f.frames).2 0
      f.frames)
    (fun frames => pure ({ file := f, layers := f.layers.filterMap toLLayer, frames, tags := f.tags.map toLTag, images := (collectImages 0 ([], []) f.frames).1 } : AsepriteFile)) 0
    fun _ _ => Nat.le_refl _
  refine Nat.le_trans (Nat.add_le_add_left (Nat.add_le_add_left (Nat.add_le_add_left h2 _) _) _) ?_
  omega

/-! ## The steps in terms of the chunks -/

/-- the steps a chunk causes after it was read, apart from those per slot: three scans, the palette, the loop
over the chunks, and `load` -/
def loadCost : Chunk → Nat
  | .layer l => 1 + textBytes l.name
  | .cel _ => 1
  | .tags t => (t.tags.map fun t => 1 + textBytes t.name).sum
  | _ => 0

/-- the sum -/
def chunkCost (c : Chunk) : Nat := 3 + paletteCost c + collectCost c + loadCost c

theorem layerSteps_le (ls : List LayerChunk) : layerSteps ls ≤ (ls.map fun l => 1 + textBytes l.name).sum := by
  refine sum_le_sum fun l _ => ?_
  unfold toLLayer
  split <;> rename_i h <;> split at h <;> simp at h
  · subst h; exact Nat.le_refl _
  · exact Nat.le_add_right _ _

theorem sum_mapIdx_tags (ts : List Tag) (us : Nat → Option UserDataChunk) :
    ((ts.mapIdx fun i t => { t with userData := us i }).map fun t => 1 + textBytes (toLTag t).name).sum =
      (ts.map fun t => 1 + textBytes t.name).sum := by
  induction ts generalizing us with
  | nil => rfl
  | cons t ts ih =>
    simp only [List.mapIdx_cons, List.map_cons, List.sum_cons, ih fun i => us (i + 1)]
    rfl

theorem loadCost_sum (cs : List Chunk) :
    ((layersOf cs).map fun l => 1 + textBytes l.name).sum + tagSteps (tagsOf cs) + (celsOf cs).length ≤
      (cs.map loadCost).sum := by
  induction cs with
  | nil => simp [layersOf, tagsOf, celsOf, owned, tagSteps]
  | cons c cs ih =>
    cases c with
    | tags t =>
      have := sum_mapIdx_tags t.tags fun i => (run cs)[i]?
      simp only [layersOf, tagsOf, celsOf, owned, tagSteps, List.filterMap_cons, List.flatMap_cons, List.map_append,
        List.sum_append_nat, List.map_cons, List.sum_cons, loadCost] at ih ⊢
      omega
    | _ =>
      simp [layersOf, tagsOf, celsOf, owned, tagSteps, loadCost] at ih ⊢ <;> omega

theorem textBytes_str (s : String) : (str s).length = 2 + textBytes s := by
  have : (utf8 s).length = textBytes s := by
    unfold utf8 textBytes
    induction s.toList with
    | nil => rfl
    | cons c cs ih => simp [ih]
  rw [str, List.length_append, this]
  rfl

theorem chunkCost_le {U : UserDataChunk → Bytes → Prop} {c : Chunk} {l : Bytes} (h : IsChunk U c l) :
    chunkCost c ≤ l.length := by
  obtain ⟨code, body, _, hc, rfl⟩ := h
  unfold chunkCost
  simp only [List.length_append]
  have e1 : ∀ n, (leNat32 n).length = 4 := fun _ => rfl
  have e2 : ∀ n, (le16 n).length = 2 := fun _ => rfl
  rw [e1, e2]
  cases c with
  | layer x =>
    obtain ⟨_, l, extra, ⟨_, _, _, _, _, _, _, h3, _, _, _, _, _, _, rfl⟩, rfl⟩ := hc
    simp only [paletteCost, collectCost, loadCost, List.length_append, e2, textBytes_str]
    omega
  | cel x =>
    simp only [paletteCost, collectCost, loadCost]
    omega
  | tags t =>
    obtain ⟨_, l, extra, ⟨fut, es, hf, _, hs, rfl⟩, rfl⟩ := hc
    have h1 := seq_size (w := fun t : Tag => 19 + textBytes t.name) (by
      rintro x l ⟨_, _, _, h6, _, _, _, _, rfl⟩
      simp only [List.length_append, e2, textBytes_str, List.length_cons, List.length_nil]
      omega) hs
    have h2 := sum_map_add (fun _ : Tag => 19) (fun t => textBytes t.name) t.tags
    have h3 := sum_map_add (fun _ : Tag => 1) (fun t => textBytes t.name) t.tags
    rw [List.map_const', List.sum_replicate_nat] at h2 h3
    simp only [paletteCost, collectCost, loadCost, List.length_append, hf]
    omega
  | palette p =>
    obtain ⟨_, l, extra, ⟨res, es, _, _, _, hs, rfl⟩, rfl⟩ := hc
    have := seq_length (by rintro x l ⟨_, _, _, rfl⟩; simp; omega) hs
    simp only [paletteCost, collectCost, loadCost, List.length_append, e1]
    omega
  | palette0004 p | palette0011 p =>
    obtain ⟨_, l, extra, hl, rfl⟩ := hc
    have := oldPalette_items hl
    have h3 := sum_map_add (fun _ : Packet => 1) (fun k => k.colors.length) p.packets
    rw [sum_const_one] at h3
    simp only [paletteCost, collectCost, loadCost, List.length_append]
    omega
  | _ => simp only [paletteCost, collectCost, loadCost]; omega

/-- the steps of a frame and its chunks, apart from those per slot -/
def frameCost (f : RawFrame) : Nat := 7 + (f.chunks.map chunkCost).sum

theorem frameCost_le {U : UserDataChunk → Bytes → Prop} {f : RawFrame} {l : Bytes} (h : IsFrame U f l) :
    frameCost f ≤ l.length := by
  obtain ⟨_, _, _, cs, _, _, _, hs, _, rfl⟩ := h
  have := seq_size (w := chunkCost) (fun c l h => chunkCost_le h) hs
  unfold frameCost
  simp
  omega

theorem cost_le {plat : Plat} {b : Bytes} {raw : RawFile} (h : Ase.parseRawFile plat b = .ok raw) :
    128 + (raw.frames.map frameCost).sum ≤ b.length ∧
    1536 * (raw.frames.length * (allLayers raw.frames).length) ≤ b.length * b.length := by
  obtain ⟨hb, fb, hh, _, hs, rfl⟩ := parseRawFile_ok.1 h
  rw [List.length_append, header_length hh]
  constructor
  · have := seq_size (w := frameCost) (fun _ _ h => frameCost_le h) hs
    omega
  · have := seq_size (w := fun f => 16 + 24 * (layersOf f.chunks).length) (fun _ _ h => frame_layers h) hs
    rw [sum_map_add, sum_mul_const, List.map_const', List.sum_replicate_nat] at this
    have e : (allLayers raw.frames).length = (raw.frames.map fun f => (layersOf f.chunks).length).sum := by
      simp only [allLayers, sum_length_flatMap]
    have := four_mul_le_sq (16 * raw.frames.length) (24 * (allLayers raw.frames).length) (128 + fb.length) (by omega)
    have e : 1536 * (raw.frames.length * (allLayers raw.frames).length) =
        4 * (16 * raw.frames.length * (24 * (allLayers raw.frames).length)) := by grind
    omega

theorem sum_add3 (fs : List RawFrame) (n : Nat) :
    3 * scan fs + palettesCost fs + (fs.map fun f => 1 + (f.chunks.map collectCost).sum).sum +
      (fs.map fun f => 1 + n + (celsOf f.chunks).length).sum +
      ((((allLayers fs).map fun l => 1 + textBytes l.name).sum + tagSteps (fs.flatMap (tagsOf ·.chunks))) +
      2 * (fs.map fun _ => 1 + n).sum) ≤
      (fs.map frameCost).sum + 3 * (fs.length * n) := by
  have e : tagSteps (fs.flatMap (tagsOf ·.chunks)) = (fs.map fun f => tagSteps (tagsOf f.chunks)).sum := by
    unfold tagSteps
    rw [sum_flatMap]
  rw [e, allLayers, sum_flatMap]
  clear e
  induction fs with
  | nil => simp [scan, palettesCost]
  | cons f fs ih =>
    have h := loadCost_sum f.chunks
    have h2 : (f.chunks.map chunkCost).sum = 3 * f.chunks.length + (f.chunks.map paletteCost).sum +
        (f.chunks.map collectCost).sum + (f.chunks.map loadCost).sum := by
      unfold chunkCost
      rw [sum_map_add, sum_map_add, sum_map_add, List.map_const', List.sum_replicate_nat]
      omega
    have h3 : (f :: fs).length * n = fs.length * n + n := by rw [List.length_cons, Nat.succ_mul]
    simp only [scan, palettesCost, List.map_cons, List.sum_cons, frameCost] at ih ⊢
    omega

/-- Everything after reading: at most the cost of the frames and three steps per frame and layer. -/
theorem after_le {plat : Plat} {b : Bytes} {raw : RawFile} (h : Ase.parseRawFile plat b = .ok raw) :
    (assembleFile raw).steps ≤ (raw.frames.map frameCost).sum + 3 * (raw.frames.length * (allLayers raw.frames).length) ∧
    ∀ f, Ase.assembleFile raw = .ok f → (assembleFile raw).steps + (ofFile f).steps ≤
      (raw.frames.map frameCost).sum + 3 * (raw.frames.length * (allLayers raw.frames).length) := by
  have key := sum_add3 raw.frames (allLayers raw.frames).length
  have hp := steps_filePalette raw
  have hc := steps_collectFrames ⟨[], [], [], none, []⟩ [] raw.frames
  obtain ⟨cels, he⟩ := collectFrames_eq ⟨[], [], [], none, []⟩ [] raw.frames (fresh h)
  rw [← erase_collectFrames] at he
  have hb := steps_buildFrames (collectFrames ⟨[], [], [], none, []⟩ [] raw.frames).2.1.layers.length
    (collectFrames ⟨[], [], [], none, []⟩ [] raw.frames).2.2
  rw [he] at hb
  simp only [List.nil_append, List.map_map, Function.comp_def] at hb
  have ha : (assembleFile raw).steps ≤ 3 * scan raw.frames + palettesCost raw.frames +
      (raw.frames.map fun f => 1 + (f.chunks.map collectCost).sum).sum +
      (raw.frames.map fun f => 1 + (allLayers raw.frames).length + (celsOf f.chunks).length).sum := by
    unfold assembleFile
    refine Nat.le_trans (steps_bind _ _ ((collectFrames ⟨[], [], [], none, []⟩ [] raw.frames).1 +
      (raw.frames.map fun f => 1 + (allLayers raw.frames).length + (celsOf f.chunks).length).sum) fun p _ => ?_) (by omega)
    dsimp only
    rw [steps_tick_bind]
    refine Nat.add_le_add_left (Nat.le_trans (steps_bind _ _ 0 fun _ _ => Nat.le_refl _) ?_) _
    rw [he]
    exact hb
  refine ⟨by omega, fun f hf => ?_⟩
  obtain ⟨p, _, _, hfe⟩ := (assembleFile_ok (fresh h)).1 hf
  have ho := steps_ofFile f
  have e1 : f.layers = allLayers raw.frames := by rw [hfe]
  have e2 : f.tags = raw.frames.flatMap (tagsOf ·.chunks) := by rw [hfe]
  have e3 : f.frames = raw.frames.map fun f =>
      (⟨f.duration, slots (allLayers raw.frames).length (celsOf f.chunks)⟩ : Frame) := by rw [hfe]
  rw [e1, e2, e3] at ho
  have hl := layerSteps_le (allLayers raw.frames)
  have hi : imageSteps (raw.frames.map fun f =>
      (⟨f.duration, slots (allLayers raw.frames).length (celsOf f.chunks)⟩ : Frame)) =
      (raw.frames.map fun _ => 1 + (allLayers raw.frames).length).sum := by
    unfold imageSteps
    rw [List.map_map]
    congr 1
    refine List.map_congr_left fun f _ => ?_
    simp [slots]
  rw [hi] at ho
  omega

end Ase.Timed
