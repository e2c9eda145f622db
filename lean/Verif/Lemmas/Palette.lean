import Verif.Lemmas.Assemble

/-!
# Palette resolution
-/

namespace Ase

open Spec

theorem isEmpty_append' {α : Type} (a b : List α) : (a ++ b).isEmpty = (a.isEmpty && b.isEmpty) := by
  cases a <;> simp

theorem lastWrite_append (ws vs : List (Nat × PColor)) (i : Nat) :
    lastWrite (ws ++ vs) i = (((vs.filter fun w => w.1 = i).getLast?).map (·.2)).getD (lastWrite ws i) := by
  simp only [lastWrite, List.filter_append, List.getLast?_append]
  cases ((vs.filter fun w => w.1 = i).getLast?) <;> simp

/-- The palette after the writes `ws`. -/
def written (ws : List (Nat × PColor)) : Palette := ⟨(List.range 256).map (lastWrite ws)⟩

theorem written_nil : written [] = Palette.default := by
  simp only [written, Palette.default, Palette.mk.injEq]
  apply List.ext_getElem (by rw [List.length_map, List.length_range, List.length_replicate])
  intro i h1 h2
  rw [List.getElem_map, List.getElem_replicate]
  rfl

theorem written_append_one (ws : List (Nat × PColor)) (i : Nat) (c : PColor) :
    written (ws ++ [(i, c)]) = ⟨(written ws).colors.set i c⟩ := by
  simp only [written, Palette.mk.injEq]
  apply List.ext_getElem (by simp)
  intro j h1 h2
  simp only [List.getElem_map, List.getElem_range, List.getElem_set, lastWrite_append]
  by_cases h : i = j <;> simp [h]

theorem setColor_written {i : Nat} (h : i < 256) (ws : List (Nat × PColor)) (c : PColor) :
    (written ws).setColor i c = .ok (written (ws ++ [(i, c)])) := by
  rw [written_append_one]
  simp [Palette.setColor, written, h]

theorem setTransparent_written (t : UInt8) (ws : List (Nat × PColor)) :
    (written ws).setTransparent t.toNat = .ok (paletteOf t ws) := by
  have ht := t.toNat_lt
  unfold Palette.setTransparent
  have : (written ws).colors[t.toNat]? = some (lastWrite ws t.toNat) := by
    rw [written, List.getElem?_map, List.getElem?_range (by omega)]
    rfl
  rw [this]
  simp only
  rw [setColor_written (by omega), written_append_one]
  simp only [paletteOf, written, Outcome.ok.injEq, Palette.mk.injEq]
  apply List.ext_getElem (by simp)
  intro j h1 h2
  simp only [List.getElem_map, List.getElem_range, List.getElem_set]
  by_cases h : t.toNat = j
  · simp [h]
  · simp [h, Ne.symm h]

theorem writesAt_cons (i : Nat) (c : PColor) (cs : List PColor) :
    writesAt i (c :: cs) = (i, c) :: writesAt (i + 1) cs := by
  simp [writesAt, List.range'_succ]

theorem storeEntries_eq (ws : List (Nat × PColor)) (ok : Bool) (es : List PaletteEntry) (i last : Nat)
    (hl : last < 256) :
    storeEntries (written ws) ok es i last =
      .ok (written (ws ++ writesAt i ((es.map (·.color)).take (last + 1 - i))),
        ok || !(writesAt i ((es.map (·.color)).take (last + 1 - i))).isEmpty) := by
  induction es generalizing ws ok i with
  | nil => simp [storeEntries, writesAt]
  | cons e es ih =>
    unfold storeEntries
    by_cases h : i ≤ last
    · rw [if_pos h, setColor_written (by omega), outcome_bind_def]
      simp only [Outcome.bind]
      rw [ih, show last + 1 - i = (last + 1 - (i + 1)) + 1 by omega, List.map_cons, List.take_succ_cons, writesAt_cons]
      simp
    · rw [if_neg h, show last + 1 - i = 0 by omega]
      simp [writesAt]

theorem storePaletteChunks_eq (ws : List (Nat × PColor)) (ok : Bool) (cs : List PaletteChunk) :
    storePaletteChunks (written ws) ok cs =
      .ok (written (ws ++ cs.flatMap newWrites), ok || !(cs.flatMap newWrites).isEmpty) := by
  induction cs generalizing ws ok with
  | nil => simp [storePaletteChunks]
  | cons c cs ih =>
    unfold storePaletteChunks
    have := c.lastIndex.toNat_lt
    rw [storeEntries_eq _ _ _ _ _ (by omega), outcome_bind_def]
    simp only [Outcome.bind]
    rw [ih]
    simp [newWrites, Bool.or_assoc, isEmpty_append']

theorem processPaletteChunks_eq (t : UInt8) (cs : List PaletteChunk) :
    processPaletteChunks t cs .default =
      if (cs.flatMap newWrites).isEmpty then .err .empty else .ok (paletteOf t (cs.flatMap newWrites)) := by
  unfold processPaletteChunks
  rw [← written_nil, storePaletteChunks_eq, outcome_bind_def]
  simp only [Outcome.bind, List.nil_append, Bool.false_or, setTransparent_written]
  cases (cs.flatMap newWrites).isEmpty <;> rfl

theorem storeColors_eq (ws : List (Nat × PColor)) (ok : Bool) (i : Nat) (cs : List RGB) (h : i + cs.length ≤ 256) :
    storeColors (written ws) ok i cs =
      .ok (written (ws ++ writesAt i (cs.map opaqueColor)), ok || !cs.isEmpty, i + cs.length) := by
  induction cs generalizing ws ok i with
  | nil => simp [storeColors, writesAt]
  | cons c cs ih =>
    unfold storeColors
    simp only [List.length_cons] at h
    rw [setColor_written (by omega), outcome_bind_def]
    simp only [Outcome.bind]
    rw [ih _ _ _ (by omega), List.map_cons, writesAt_cons]
    simp [opaqueColor]
    omega

theorem writesAt_isEmpty (i : Nat) (cs : List PColor) : (writesAt i cs).isEmpty = cs.isEmpty := by
  cases cs with
  | nil => rfl
  | cons c cs => rw [writesAt_cons]; rfl

theorem storePackets_eq (ws : List (Nat × PColor)) (ok : Bool) (i : Nat) (ks : List Packet) :
    storePackets (written ws) ok i ks =
      if packetsFit i ks then
        .ok (written (ws ++ packetWrites i ks), ok || !(packetWrites i ks).isEmpty)
      else .err .indexOutOfBounds := by
  induction ks generalizing ws ok i with
  | nil => simp [storePackets, packetsFit, packetWrites]
  | cons k ks ih =>
    unfold storePackets
    by_cases h : i + k.entriesToSkip.toNat + k.colors.length > 256
    · simp only [h, if_true, packetsFit, decide_eq_false (show ¬ i + k.entriesToSkip.toNat + k.colors.length ≤ 256 by omega),
        Bool.false_and]
      rfl
    · simp only [h, if_false, packetsFit, decide_eq_true (show i + k.entriesToSkip.toNat + k.colors.length ≤ 256 by omega),
        Bool.true_and]
      rw [storeColors_eq _ _ _ _ (by omega), outcome_bind_def]
      simp only [Outcome.bind]
      rw [ih]
      simp only [packetWrites, List.append_assoc, isEmpty_append', writesAt_isEmpty, List.isEmpty_map]
      simp [Bool.or_assoc]

theorem storeOldChunks_eq (ws : List (Nat × PColor)) (ok : Bool) (cs : List OldPaletteChunk) :
    storeOldChunks (written ws) ok cs =
      if cs.all fun c => packetsFit 0 c.packets then
        .ok (written (ws ++ cs.flatMap fun c => packetWrites 0 c.packets),
          ok || !(cs.flatMap fun c => packetWrites 0 c.packets).isEmpty)
      else .err .indexOutOfBounds := by
  induction cs generalizing ws ok with
  | nil => simp [storeOldChunks]
  | cons c cs ih =>
    unfold storeOldChunks
    rw [storePackets_eq]
    cases h : packetsFit 0 c.packets with
    | false =>
      simp only [List.all_cons, h, Bool.false_and]
      rfl
    | true =>
      simp only [List.all_cons, h, Bool.true_and, if_true, outcome_bind_def, Outcome.bind]
      rw [ih]
      simp only [List.flatMap_cons, List.append_assoc, isEmpty_append']
      simp [Bool.or_assoc]

theorem processOldPaletteChunks_eq (t : UInt8) (cs : List OldPaletteChunk) :
    processOldPaletteChunks t cs .default =
      if cs.all fun c => packetsFit 0 c.packets then
        if (cs.flatMap fun c => packetWrites 0 c.packets).isEmpty then .err .empty
        else .ok (paletteOf t (cs.flatMap fun c => packetWrites 0 c.packets))
      else .err .indexOutOfBounds := by
  unfold processOldPaletteChunks
  rw [← written_nil, storeOldChunks_eq, outcome_bind_def]
  cases cs.all fun c => packetsFit 0 c.packets with
  | false => rfl
  | true =>
    simp only [if_true, Outcome.bind, List.nil_append, Bool.false_or, setTransparent_written]
    cases (cs.flatMap fun c => packetWrites 0 c.packets).isEmpty <;> rfl

theorem paletteChunks_eq (fs : List RawFrame) : paletteChunks fs = newPalettes (allChunks fs) ∧
    palette0004Chunks fs = oldPalettes4 (allChunks fs) ∧ palette0011Chunks fs = oldPalettes11 (allChunks fs) := by
  refine ⟨?_, ?_, ?_⟩
  · simp only [paletteChunks, newPalettes, allChunks, List.filterMap_flatMap]; rfl
  · simp only [palette0004Chunks, oldPalettes4, allChunks, List.filterMap_flatMap]; rfl
  · simp only [palette0011Chunks, oldPalettes11, allChunks, List.filterMap_flatMap]; rfl

theorem createPalette_eq (h : Header) (fs : List RawFrame) :
    createPalette h fs = match paletteProblem (allChunks fs) with
      | some e => .err e
      | none => .ok (paletteOf h.transparentIndex (paletteWrites (allChunks fs))) := by
  unfold createPalette
  rw [(paletteChunks_eq fs).1, (paletteChunks_eq fs).2.1, (paletteChunks_eq fs).2.2, processPaletteChunks_eq,
    processOldPaletteChunks_eq, processOldPaletteChunks_eq]
  unfold paletteProblem paletteWrites oldPalettes
  cases newPalettes (allChunks fs) with
  | cons c cs =>
    simp only [List.isEmpty_cons, Bool.not_false, if_true, List.isEmpty_iff, ne_eq, reduceCtorEq, not_false_eq_true,
      false_and, if_false]
    split <;> rfl
  | nil =>
    cases oldPalettes4 (allChunks fs) with
    | cons c cs =>
      simp only [List.isEmpty_cons, List.isEmpty_nil, Bool.not_true, Bool.not_false, if_true, List.isEmpty_iff, ne_eq,
        reduceCtorEq, not_false_eq_true, not_true_eq_false, and_false, if_false, true_and, Bool.false_eq_true]
      cases List.all (c :: cs) fun c => packetsFit 0 c.packets with
      | false => rfl
      | true =>
        simp only [if_true, not_true_eq_false, if_false]
        split <;> rfl
    | nil =>
      cases oldPalettes11 (allChunks fs) with
      | nil => rfl
      | cons c cs =>
        simp only [List.isEmpty_cons, List.isEmpty_nil, Bool.not_true, Bool.not_false, if_true, List.isEmpty_iff, ne_eq,
          reduceCtorEq, not_false_eq_true, not_true_eq_false, and_false, if_false, true_and, Bool.false_eq_true]
        cases List.all (c :: cs) fun c => packetsFit 0 c.packets with
        | false => rfl
        | true =>
          simp only [if_true, not_true_eq_false, if_false]
          split <;> rfl

theorem createPalette_panic (h : Header) (fs : List RawFrame) (k : Panic) : createPalette h fs ≠ .panic k := by
  rw [createPalette_eq]
  split <;> simp

theorem filePalette_eq (raw : RawFile) :
    filePalette raw = if raw.header.colorDepth = .indexed then
        match paletteProblem (allChunks raw.frames) with
        | some e => .err (.failure (.paletteError e))
        | none => .ok (some (paletteOf raw.header.transparentIndex (paletteWrites (allChunks raw.frames))))
      else .ok none := by
  unfold filePalette
  split
  · next h =>
    rw [createPalette_eq, h]
    cases paletteProblem (allChunks raw.frames) <;> rfl
  · next h =>
    rw [if_neg]
    intro e
    exact h e

theorem filePalette_panic (raw : RawFile) (k : Panic) : filePalette raw ≠ .panic k := by
  rw [filePalette_eq]
  repeat' split
  all_goals simp

end Ase
