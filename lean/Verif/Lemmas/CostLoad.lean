import Verif.Model.CostLoad
import Verif.Lemmas.CostBound

/-!
# Forgetting the step counts of `parse_file` and `load`
-/

namespace Ase.Timed

@[simp] theorem S_pure {ε α : Type} (a : α) : (pure a : S ε α).2 = .ok a := rfl

@[simp] theorem S_bind {ε α β : Type} (x : S ε α) (f : α → S ε β) :
    (x >>= f).2 = x.2.bind fun a => (f a).2 := by
  show (S.bind x f).2 = _
  unfold S.bind
  rcases x with ⟨t, a | e | k⟩ <;> rfl

@[simp] theorem S_tick {ε : Type} (n : Nat) : (S.tick n : S ε Unit).2 = .ok () := rfl
@[simp] theorem S_lift {ε α : Type} (x : Outcome ε α) : (S.lift x).2 = x := rfl
@[simp] theorem S_ite {ε α : Type} (c : Prop) [Decidable c] (x y : S ε α) :
    (if c then x else y : S ε α).2 = if c then x.2 else y.2 := by split <;> rfl
@[simp] theorem ok_bind {ε α β : Type} (a : α) (f : α → Outcome ε β) : (Outcome.ok a).bind f = f a := rfl

theorem bind_eq {ε α β : Type} (x : Outcome ε α) (f : α → Outcome ε β) : (x >>= f) = x.bind f := rfl

theorem bind_congr {ε α β : Type} {x y : Outcome ε α} {f g : α → Outcome ε β} (h : x = y) (hf : ∀ a, f a = g a) :
    x.bind f = y.bind g := by
  subst h
  exact congrArg _ (funext hf)

theorem erase_storeEntries (p : Palette) (ok : Bool) (es : List PaletteEntry) (i l : Nat) :
    (storeEntries p ok es i l).2 = Ase.storeEntries p ok es i l := by
  induction es generalizing p ok i with
  | nil => rfl
  | cons e es ih =>
    unfold storeEntries Ase.storeEntries
    simp only [S_ite, S_bind, S_tick, S_lift, ok_bind, S_pure, bind_eq]
    congr; funext p
    exact ih _ _ _

theorem erase_storePaletteChunks (p : Palette) (ok : Bool) (cs : List PaletteChunk) :
    (storePaletteChunks p ok cs).2 = Ase.storePaletteChunks p ok cs := by
  induction cs generalizing p ok with
  | nil => rfl
  | cons c cs ih =>
    unfold storePaletteChunks Ase.storePaletteChunks
    simp only [S_bind, S_tick, ok_bind, bind_eq]
    exact bind_congr (erase_storeEntries ..) fun x => ih _ _

theorem erase_processPaletteChunks (t : UInt8) (cs : List PaletteChunk) (p : Palette) :
    (processPaletteChunks t cs p).2 = Ase.processPaletteChunks t cs p := by
  unfold processPaletteChunks Ase.processPaletteChunks
  simp only [S_bind, bind_eq]
  exact bind_congr (erase_storePaletteChunks ..) fun x => by simp

theorem erase_storeColors (p : Palette) (ok : Bool) (i : Nat) (cs : List RGB) :
    (storeColors p ok i cs).2 = Ase.storeColors p ok i cs := by
  induction cs generalizing p ok i with
  | nil => rfl
  | cons c cs ih =>
    unfold storeColors Ase.storeColors
    simp only [S_bind, S_tick, S_lift, ok_bind, bind_eq]
    exact bind_congr rfl fun x => ih _ _ _

theorem erase_storePackets (p : Palette) (ok : Bool) (i : Nat) (ks : List Packet) :
    (storePackets p ok i ks).2 = Ase.storePackets p ok i ks := by
  induction ks generalizing p ok i with
  | nil => rfl
  | cons k ks ih =>
    unfold storePackets Ase.storePackets
    simp only [S_ite, S_bind, S_tick, S_lift, ok_bind, bind_eq]
    by_cases h : i + k.entriesToSkip.toNat + k.colors.length > 256
    · rw [if_pos h, if_pos h]
    · rw [if_neg h, if_neg h]
      exact bind_congr (erase_storeColors ..) fun x => ih _ _ _

theorem erase_storeOldChunks (p : Palette) (ok : Bool) (cs : List OldPaletteChunk) :
    (storeOldChunks p ok cs).2 = Ase.storeOldChunks p ok cs := by
  induction cs generalizing p ok with
  | nil => rfl
  | cons c cs ih =>
    unfold storeOldChunks Ase.storeOldChunks
    simp only [S_bind, S_tick, ok_bind, bind_eq]
    exact bind_congr (erase_storePackets ..) fun x => ih _ _

theorem erase_processOldPaletteChunks (t : UInt8) (cs : List OldPaletteChunk) (p : Palette) :
    (processOldPaletteChunks t cs p).2 = Ase.processOldPaletteChunks t cs p := by
  unfold processOldPaletteChunks Ase.processOldPaletteChunks
  simp only [S_bind, bind_eq]
  exact bind_congr (erase_storeOldChunks ..) fun x => by simp

theorem erase_createPalette (h : Header) (fs : List RawFrame) :
    (createPalette h fs).2 = Ase.createPalette h fs := by
  unfold createPalette Ase.createPalette
  simp only [S_ite, S_bind, S_tick, S_lift, ok_bind, erase_processPaletteChunks, erase_processOldPaletteChunks]

theorem erase_filePalette (raw : RawFile) : (filePalette raw).2 = Ase.filePalette raw := by
  unfold filePalette Ase.filePalette
  rw [← erase_createPalette]
  cases raw.header.colorDepth <;> try rfl
  rcases createPalette raw.header raw.frames with ⟨t, a | e | k⟩ <;> rfl

theorem erase_collectChunks (first : Bool) (acc : Collected) (cs : List Chunk) :
    (collectChunks first acc cs).2 = Ase.collectChunks first acc cs := by
  fun_induction collectChunks first acc cs <;>
    rw [Ase.collectChunks] <;> simp_all [more, attachTags_erase]

theorem erase_collectFrames (acc : Collected) (done : List (UInt16 × List CelChunk)) (fs : List RawFrame) :
    (collectFrames acc done fs).2 = Ase.collectFrames acc done fs := by
  induction fs generalizing acc done with
  | nil => rfl
  | cons f fs ih =>
    unfold collectFrames Ase.collectFrames
    simp only [more, ih, erase_collectChunks]

theorem erase_placeCels (n : Nat) (slots : List (Option CelChunk)) (cs : List CelChunk) :
    (placeCels n slots cs).2 = Ase.placeCels n slots cs := by
  induction cs generalizing slots with
  | nil => rfl
  | cons c cs ih =>
    unfold placeCels Ase.placeCels
    simp only [S_ite, S_bind, S_tick, S_lift, ok_bind, ih]

theorem erase_buildFrames (n : Nat) (fs : List (UInt16 × List CelChunk)) :
    (buildFrames n fs).2 = Ase.buildFrames n fs := by
  induction fs with
  | nil => rfl
  | cons f fs ih =>
    obtain ⟨d, cels⟩ := f
    unfold buildFrames Ase.buildFrames
    simp only [S_bind, S_tick, ok_bind, bind_eq]
    exact bind_congr (erase_placeCels ..) fun x => bind_congr ih fun y => rfl

theorem erase_assembleFile (raw : RawFile) : (assembleFile raw).2 = Ase.assembleFile raw := by
  unfold assembleFile Ase.assembleFile
  simp only [S_bind, S_tick, ok_bind, bind_eq]
  refine bind_congr (erase_filePalette raw) fun p => ?_
  rw [← erase_collectFrames]
  exact bind_congr (erase_buildFrames ..) fun y => rfl

/-- Without the counts, `parseFile` is the one of the model. -/
theorem erase_parseFile (plat : Plat) (b : Bytes) : (parseFile plat b).2 = Ase.parseFile plat b := by
  unfold parseFile Ase.parseFile
  refine (S_bind (parseRawFile plat b : S NomErr RawFile) _).trans ?_
  exact bind_congr (erase_parseRawFile plat b) fun raw => erase_assembleFile raw

theorem erase_toFrameCels (images : List Image) (m : ImageMap) (i : Nat) (cs : List (Option CelChunk)) :
    (toFrameCels images m i cs).2 = Ase.toFrameCels images m i (cs.filterMap id) := by
  induction cs with
  | nil => rfl
  | cons c cs ih =>
    cases c with
    | none =>
      refine Eq.trans ?_ (ih.trans (by rw [List.filterMap_cons_none rfl]))
      conv => lhs; unfold toFrameCels
      simp only [S_bind, S_tick, ok_bind]
    | some c =>
      have e : (some c :: cs).filterMap id = c :: cs.filterMap id := rfl
      refine Eq.trans ?_ (congrArg _ e.symm)
      unfold toFrameCels Ase.toFrameCels
      simp only [S_bind, S_tick, S_lift, ok_bind, bind_eq]
      exact bind_congr rfl fun x => bind_congr ih fun y => rfl

theorem erase_toLFrames (images : List Image) (m : ImageMap) (i : Nat) (fs : List Frame) :
    (toLFrames images m i fs).2 = Ase.toLFrames images m i fs := by
  induction fs generalizing i with
  | nil => rfl
  | cons f fs ih =>
    unfold toLFrames Ase.toLFrames
    simp only [S_bind, S_tick, ok_bind, bind_eq]
    exact bind_congr (erase_toFrameCels ..) fun x => bind_congr (ih _) fun y => rfl

theorem erase_ofFile (f : File) : (ofFile f).2 = AsepriteFile.ofFile f := by
  unfold ofFile AsepriteFile.ofFile
  simp only [S_bind, S_tick, ok_bind, bind_eq]
  exact bind_congr (erase_toLFrames ..) fun y => rfl

/-- Without the counts, `load` is the one of the model. -/
theorem erase_load (plat : Plat) (b : Bytes) : (load plat b).2 = AsepriteFile.load plat b := by
  unfold load AsepriteFile.load
  rw [← erase_parseFile]
  rcases parseFile plat b with ⟨t, a | e | k⟩
  · exact erase_ofFile a
  · rfl
  · rfl

end Ase.Timed
