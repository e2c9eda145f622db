import Verif.Spec.Assemble

/-!
# What `parse_file` does after `parse_raw_file`, in terms of `Verif/Spec/Assemble.lean`
-/

namespace Ase

open Spec

/-! ## User data -/

theorem nextUserData_eq (cs : List Chunk) :
    (nextUserData cs).1 = (run cs).head? ∧ owned (nextUserData cs).2 = owned cs := by
  unfold nextUserData
  split
  · simp [run, owned]
  · next h =>
    refine ⟨?_, rfl⟩
    cases cs with
    | nil => rfl
    | cons c cs =>
      cases c with
      | userData u => exact absurd rfl (h u cs)
      | _ => rfl

/-- All tags of the chunk come without user data (as the parser leaves them). -/
def FreshTags (c : Chunk) : Prop :=
  match c with
  | .tags t => ∀ tag ∈ t.tags, tag.userData = none
  | _ => True

theorem tag_fresh {t : Tag} (h : t.userData = none) : { t with userData := none } = t := by
  cases t; simp at h; subst h; rfl

theorem attachTags_eq (ts : List Tag) (cs : List Chunk) (h : ∀ t ∈ ts, t.userData = none) :
    (attachTags ts cs).1 = ts.mapIdx (fun i tag => { tag with userData := (run cs)[i]? }) ∧
    owned (attachTags ts cs).2 = owned cs := by
  induction ts generalizing cs with
  | nil => simp [attachTags]
  | cons t ts ih =>
    unfold attachTags
    split
    · next u rest he =>
      have hcs : cs = .userData u :: rest := by
        unfold nextUserData at he
        split at he <;> cases he
        rfl
      subst hcs
      obtain ⟨h1, h2⟩ := ih rest fun t ht => h t (by simp [ht])
      simp [List.mapIdx_cons, h1, h2, run, owned]
    · next rest he =>
      have h0 := (nextUserData_eq cs).1
      have h1 := (nextUserData_eq cs).2
      rw [he] at h0 h1
      have hr : run cs = [] := by cases hrun : run cs with
        | nil => rfl
        | cons a l => rw [hrun] at h0; cases h0
      refine ⟨?_, h1⟩
      rw [hr]
      simp only [List.mapIdx_cons, List.getElem?_nil, List.cons.injEq, true_and]
      have : ∀ (l : List Tag), (∀ t ∈ l, t.userData = none) →
          l = List.mapIdx (fun i tag => { tag with userData := none }) l := by
        intro l hl
        apply List.ext_getElem (by simp)
        intro i h1 h2
        simp only [List.getElem_mapIdx]
        exact (tag_fresh (hl _ (List.getElem_mem h1))).symm
      exact this ts fun t ht => h t (by simp [ht])

theorem run_head_or (a b : Option UserDataChunk) : (a.or b).isNone = (a.isNone && b.isNone) := by
  cases a <;> cases b <;> rfl

/-- The loop over the chunks of one frame. -/
theorem collectChunks_eq (first : Bool) (acc : Collected) (cs : List Chunk) (h : ∀ c ∈ cs, FreshTags c) :
    collectChunks first acc cs =
      { layers := acc.layers ++ layersOf cs, tags := acc.tags ++ tagsOf cs, slices := acc.slices ++ slicesOf cs,
        userData := if first then acc.userData.or (spriteUserData cs) else acc.userData,
        cels := acc.cels ++ celsOf cs } := by
  have next_mem : ∀ (rest : List Chunk), ∀ c ∈ (nextUserData rest).2, c ∈ rest := by
    intro rest c hc
    unfold nextUserData at hc
    split at hc
    · simp; exact .inr hc
    · exact hc
  have attach_mem : ∀ (ts : List Tag) (rest : List Chunk), ∀ c ∈ (attachTags ts rest).2, c ∈ rest := by
    intro ts
    induction ts with
    | nil => intro rest c hc; exact hc
    | cons t ts ih =>
      intro rest c hc
      unfold attachTags at hc
      split at hc
      · next u r he => exact next_mem rest c (by rw [he]; exact ih r c hc)
      · next r he => exact next_mem rest c (by rw [he]; exact hc)
  have pal : ∀ (rest : List Chunk) (acc : Collected), (first && acc.userData.isNone) = true →
      (if first then (nextUserData rest).1.or (spriteUserData (nextUserData rest).2) else (nextUserData rest).1) =
      if first then acc.userData.or ((run rest).head?.or (spriteUserData rest)) else acc.userData := by
    intro rest acc hc
    simp only [Bool.and_eq_true, Option.isNone_iff_eq_none] at hc
    simp only [hc.1, hc.2, if_true, Option.none_or, (nextUserData_eq rest).1, spriteUserData, (nextUserData_eq rest).2]
  have findSome_cons : ∀ {α β : Type} (f : α → Option β) (a : α) (l : List α),
      List.findSome? f (a :: l) = (f a).or (List.findSome? f l) := by
    intro α β f a l
    rw [List.findSome?_cons]
    cases f a <;> rfl
  have pal' : ∀ (rest : List Chunk) (acc : Collected), ¬ (first && acc.userData.isNone) = true →
      (if first then acc.userData.or (spriteUserData rest) else acc.userData) =
      if first then acc.userData.or ((run rest).head?.or (spriteUserData rest)) else acc.userData := by
    intro rest acc hc
    cases first with
    | false => rfl
    | true =>
      cases hu : acc.userData with
      | none => simp [hu] at hc
      | some u => rfl
  induction acc, cs using collectChunks.induct (first := first) with
  | case1 => simp [collectChunks, owned, layersOf, tagsOf, slicesOf, celsOf, spriteUserData]
  | case2 acc c rest hc ih | case4 acc c rest hc ih | case6 acc c rest hc ih =>
    rw [collectChunks, if_pos hc, ih fun c hc => h c (by simp [next_mem rest c hc])]
    have hp := pal rest acc hc
    simp only [layersOf, tagsOf, slicesOf, celsOf, (nextUserData_eq rest).2] at hp ⊢
    simp only [owned, List.filterMap_cons, List.flatMap_cons, List.nil_append, Collected.mk.injEq, true_and, and_true]
    rw [hp]
    simp only [spriteUserData, owned, findSome_cons]
  | case3 acc c rest hc ih | case5 acc c rest hc ih | case7 acc c rest hc ih =>
    rw [collectChunks, if_neg hc, ih fun c hc => h c (by simp [hc])]
    have hp := pal' rest acc hc
    simp only [layersOf, tagsOf, slicesOf, celsOf] at hp ⊢
    simp only [owned, List.filterMap_cons, List.flatMap_cons, List.nil_append, Collected.mk.injEq, true_and, and_true]
    rw [hp]
    simp only [spriteUserData, owned, findSome_cons]
  | case8 acc l rest ih | case9 acc c rest ih | case17 acc s rest ih =>
    rw [collectChunks, ih fun c hc => h c (by simp [next_mem rest c hc])]
    simp [layersOf, tagsOf, slicesOf, celsOf, spriteUserData, owned, (nextUserData_eq rest).2, (nextUserData_eq rest).1]
  | case15 acc t rest ih =>
    rw [collectChunks, ih fun c hc => h c (by simp [attach_mem _ rest c hc])]
    have ht : ∀ tag ∈ t.tags, tag.userData = none := h (.tags t) (by simp)
    simp [layersOf, tagsOf, slicesOf, celsOf, spriteUserData, owned, (attachTags_eq t.tags rest ht).1,
      (attachTags_eq t.tags rest ht).2]
  | _ =>
    rename_i ih
    rw [collectChunks, ih fun c hc => h c (by simp [hc])]
    simp [layersOf, tagsOf, slicesOf, celsOf, spriteUserData, owned]

/-- All tags of the frames come without user data. -/
def FreshFrames (frames : List RawFrame) : Prop := ∀ f ∈ frames, ∀ c ∈ f.chunks, FreshTags c

theorem collectFrames_eq (acc : Collected) (done : List (UInt16 × List CelChunk)) (fs : List RawFrame)
    (h : FreshFrames fs) : ∃ cels, collectFrames acc done fs =
      ({ layers := acc.layers ++ allLayers fs, tags := acc.tags ++ fs.flatMap (tagsOf ·.chunks),
         slices := acc.slices ++ fs.flatMap (slicesOf ·.chunks),
         userData := if done.isEmpty then acc.userData.or (fs.head?.bind (spriteUserData ·.chunks)) else acc.userData,
         cels := cels },
       done ++ fs.map fun f => (f.duration, celsOf f.chunks)) := by
  induction fs generalizing acc done with
  | nil => exact ⟨acc.cels, by simp [collectFrames, allLayers]⟩
  | cons f fs ih =>
    unfold collectFrames
    rw [collectChunks_eq _ _ _ (h f (by simp))]
    obtain ⟨cels, h⟩ := ih
      { layers := acc.layers ++ layersOf f.chunks, tags := acc.tags ++ tagsOf f.chunks,
        slices := acc.slices ++ slicesOf f.chunks,
        userData := if done.isEmpty then acc.userData.or (spriteUserData f.chunks) else acc.userData,
        cels := [] ++ celsOf f.chunks } (done ++ [(f.duration, [] ++ celsOf f.chunks)])
      fun f hf => h f (by simp [hf])
    refine ⟨cels, ?_⟩
    simp only at h ⊢
    rw [h]
    simp [allLayers]

/-! ## Cel slots -/

theorem slot_append (cs ds : List CelChunk) (i : Nat) : slot (cs ++ ds) i = (slot ds i).or (slot cs i) := by
  simp [slot, List.filter_append, List.getLast?_append]

theorem slot_cons (c : CelChunk) (cs : List CelChunk) (i : Nat) :
    slot (c :: cs) i = (slot cs i).or (if c.layerIndex.toNat = i then some c else none) := by
  rw [show c :: cs = [c] ++ cs from rfl, slot_append]
  congr 1
  simp only [slot, List.filter_cons, List.filter_nil]
  by_cases h : c.layerIndex.toNat = i <;> simp [h]

/-- The first cel whose layer index is not below the number of layers. -/
def badCel (n : Nat) (cels : List CelChunk) : Option CelChunk := cels.find? fun c => decide (n ≤ c.layerIndex.toNat)

/-- What `parse_file` does with that cel. -/
def rejectCel {α : Type} (n : Nat) (c : CelChunk) : Outcome NomErr α :=
  if n < c.layerIndex.toNat then .err (.failure .layerIndexOutOfBounds) else .panic .indexOutOfBounds

theorem placeCels_eq (n : Nat) (cels : List CelChunk) (slots : List (Option CelChunk)) (hn : slots.length = n) :
    placeCels n slots cels = match badCel n cels with
      | some c => rejectCel n c
      | none => .ok ((List.range n).map fun i => (slot cels i).or (slots[i]?.getD none)) := by
  induction cels generalizing slots with
  | nil =>
    simp only [placeCels, badCel, List.find?_nil, Outcome.ok.injEq]
    apply List.ext_getElem (by simp [hn])
    intro i h1 h2
    simp [slot, h1]
  | cons c cs ih =>
    unfold placeCels
    by_cases h1 : c.layerIndex.toNat > n
    · rw [if_pos h1]
      simp only [badCel, List.find?_cons, decide_eq_true (show n ≤ c.layerIndex.toNat by omega)]
      simp [rejectCel, h1]
    · rw [if_neg h1]
      by_cases h2 : c.layerIndex.toNat < slots.length
      · rw [if_pos h2, ih _ (by simpa using hn)]
        have hb : badCel n (c :: cs) = badCel n cs := by
          simp only [badCel, List.find?_cons, decide_eq_false (show ¬ n ≤ c.layerIndex.toNat by omega)]
        rw [hb]
        cases badCel n cs with
        | some c => rfl
        | none =>
          simp only [Outcome.ok.injEq, List.map_inj_left, List.mem_range]
          intro i hi
          rw [slot_cons, List.getElem?_set]
          by_cases he : c.layerIndex.toNat = i
          · subst he
            simp [h2]
          · simp [he]
      · rw [if_neg h2]
        simp only [badCel, List.find?_cons, decide_eq_true (show n ≤ c.layerIndex.toNat by omega)]
        simp [rejectCel, show ¬ n < c.layerIndex.toNat by omega]

/-- The slots of a frame. -/
def slots (n : Nat) (cels : List CelChunk) : List (Option CelChunk) := (List.range n).map (slot cels)

theorem placeCels_replicate (n : Nat) (cels : List CelChunk) :
    placeCels n (List.replicate n none) cels = match badCel n cels with
      | some c => rejectCel n c
      | none => .ok (slots n cels) := by
  rw [placeCels_eq n cels _ (by simp)]
  cases badCel n cels with
  | some c => rfl
  | none =>
    simp only [Outcome.ok.injEq, slots, List.map_inj_left, List.mem_range]
    intro i hi
    simp [hi]

theorem outcome_bind_def {ε α β : Type} (x : Outcome ε α) (f : α → Outcome ε β) : (x >>= f) = Outcome.bind x f := rfl

theorem outcome_pure_def {ε α : Type} (x : α) : (pure x : Outcome ε α) = .ok x := rfl

theorem buildFrames_eq (n : Nat) (fs : List (UInt16 × List CelChunk)) :
    buildFrames n fs = match badCel n (fs.flatMap (·.2)) with
      | some c => rejectCel n c
      | none => .ok (fs.map fun f => ⟨f.1, slots n f.2⟩) := by
  induction fs with
  | nil => rfl
  | cons f fs ih =>
    obtain ⟨d, cels⟩ := f
    unfold buildFrames
    rw [placeCels_replicate, ih]
    have : badCel n (List.flatMap (fun x => x.2) ((d, cels) :: fs)) =
        (badCel n cels).or (badCel n (fs.flatMap (·.2))) := by
      simp [badCel, List.find?_append]
    rw [this]
    cases badCel n cels with
    | some c =>
      simp only [Option.some_or, rejectCel]
      split <;> rfl
    | none =>
      simp only [Option.none_or]
      cases badCel n (fs.flatMap (·.2)) with
      | some c =>
        simp only [rejectCel]
        split <;> rfl
      | none => rfl

/-- Everything `parse_file` does after `parse_raw_file`, in terms of the specification. -/
theorem assembleFile_eq (raw : RawFile) (h : FreshFrames raw.frames) :
    assembleFile raw = (filePalette raw).bind fun palette =>
      match badCel (allLayers raw.frames).length (allCels raw.frames) with
      | some c => rejectCel (allLayers raw.frames).length c
      | none => .ok
          { header := raw.header, palette, layers := allLayers raw.frames,
            frames := raw.frames.map fun f => ⟨f.duration, slots (allLayers raw.frames).length (celsOf f.chunks)⟩,
            tags := raw.frames.flatMap (tagsOf ·.chunks), slices := raw.frames.flatMap (slicesOf ·.chunks),
            userData := raw.frames.head?.bind (spriteUserData ·.chunks) } := by
  unfold assembleFile
  rw [outcome_bind_def]
  congr 1
  funext palette
  obtain ⟨cels, hc⟩ := collectFrames_eq ⟨[], [], [], none, []⟩ [] raw.frames h
  simp only [hc, List.nil_append, buildFrames_eq, List.flatMap_map,
    show List.flatMap (fun f => celsOf f.chunks) raw.frames = allCels raw.frames from rfl]
  cases badCel (allLayers raw.frames).length (allCels raw.frames) with
  | some c =>
    simp only [rejectCel]
    split <;> rfl
  | none =>
    simp only [outcome_bind_def, Outcome.bind, outcome_pure_def, List.isEmpty_nil, if_true, Option.none_or, List.map_map,
      Function.comp_def]

end Ase
