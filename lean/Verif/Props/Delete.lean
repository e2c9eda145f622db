import Verif.Spec.Delete
import Verif.Props.Restack

/-!
# C122: deleting layers is deselecting them
-/

namespace Ase

open Spec

/-- Going through an increasing selection of numbers finds the same as going through all, if nothing is found elsewhere. -/
theorem range_selected {β : Type} {n : Nat} {keep : List Nat} (hk : keep.Pairwise (· < ·)) {F : Nat → Option β}
    (hn : ∀ l, n ≤ l → F l = none) (ho : ∀ l, l ∉ keep → F l = none) :
    keep.filterMap F = (List.range n).filterMap F := by
  rw [← filterMap_filter_isSome F, ← filterMap_filter_isSome F (List.range n)]
  congr 1
  refine increasing_ext (List.Pairwise.filter _ hk) (List.Pairwise.filter _ List.pairwise_lt_range) fun l => ?_
  rw [List.mem_filter, List.mem_filter, List.mem_range]
  refine and_congr_left fun hl => ⟨fun _ => Nat.lt_of_not_le fun h => ?_, fun _ => Classical.byContradiction fun h => ?_⟩
  · rw [hn l h] at hl
    cases hl
  · rw [ho l h] at hl
    cases hl

theorem range_getElem? {α β : Type} (as : List α) (F : α → Option β) :
    (List.range as.length).filterMap (fun m => as[m]?.bind F) = as.filterMap F := by
  induction as with
  | nil => rfl
  | cons a as ih =>
    rw [List.length_cons, List.range_succ_eq_map, List.filterMap_cons, List.filterMap_map, List.filterMap_cons]
    simp only [List.getElem?_cons_zero, Option.bind_some, Function.comp_def, List.getElem?_cons_succ, ih]

theorem deleted_length {keep : List Nat} {raw raw' : RawFile} (h : LayersDeleted keep raw raw') :
    (Doc.layers raw').length = keep.length := by
  refine Nat.le_antisymm (Nat.le_of_not_lt fun hlt => ?_) (Nat.le_of_not_lt fun hlt => ?_)
  · have := h.layers keep.length
    rw [List.getElem?_eq_getElem hlt, List.getElem?_eq_none (Nat.le_refl _)] at this
    cases this
  · have := h.layers (Doc.layers raw').length
    rw [List.getElem?_eq_none (Nat.le_refl _), List.getElem?_eq_getElem hlt, Option.bind_some,
      List.getElem?_eq_getElem (h.exist _ (List.getElem_mem _))] at this
    cases this

theorem deleted_imageOf {keep : List Nat} {raw raw' : RawFile} (h : LayersDeleted keep raw raw') {m l : Nat}
    (hm : keep[m]? = some l) {c d : CelChunk} (hcd : d.content = c.content) :
    Doc.imageOf raw' m d = Doc.imageOf raw l c := by
  unfold Doc.imageOf
  rw [hcd]
  cases c.content with
  | linkedCel k =>
    have := h.cels k.toNat m
    rw [hm, Option.bind_some] at this
    exact restacked_own this
  | _ => rfl

theorem deleted_shown {keep : List Nat} {raw raw' : RawFile} (h : LayersDeleted keep raw raw') {m l : Nat}
    (hm : keep[m]? = some l) (i : Nat) : shown raw' i m = shown raw i l := by
  have hc := h.cels i m
  rw [hm, Option.bind_some] at hc
  unfold shown
  revert hc
  cases Doc.celOf raw i l <;> cases Doc.celOf raw' i m <;> intro hc <;> try cases hc
  · rfl
  · rename_i c d
    simp only [Option.map_some, Option.some.injEq, celPlace, Prod.mk.injEq] at hc
    obtain ⟨hx, hy, hcd⟩ := hc
    rw [Option.bind_some, Option.bind_some, hx, hy, deleted_imageOf h hm hcd]

theorem deleted_layer {keep : List Nat} {raw raw' : RawFile} (h : LayersDeleted keep raw raw') {m : Nat} {d : LayerChunk}
    (hd : (Doc.layers raw')[m]? = some d) :
    ∃ l c, keep[m]? = some l ∧ (Doc.layers raw)[l]? = some c ∧ layerLook d = layerLook c := by
  have := h.layers m
  rw [hd, Option.map_some] at this
  obtain ⟨l, h1, h2⟩ := Option.bind_eq_some_iff.1 this.symm
  obtain ⟨c, h3, h4⟩ := Option.map_eq_some_iff.1 h2
  exact ⟨l, c, h1, h3, h4.symm⟩

theorem deleted_tilemaps {keep : List Nat} {raw raw' : RawFile} (h : LayersDeleted keep raw raw') (ht : NoTilemaps raw) :
    NoTilemaps raw' := by
  intro d hd
  obtain ⟨m, hm⟩ := List.getElem?_of_mem hd
  obtain ⟨l, c, -, h2, h3⟩ := deleted_layer h hm
  simp only [layerLook, Prod.mk.injEq] at h3
  rw [h3.1]
  exact ht c (List.mem_of_getElem? h2)

/-- The numbers of the kept layers are different. -/
theorem keep_inj {keep : List Nat} (hk : keep.Pairwise (· < ·)) {m m' l : Nat} (h : keep[m]? = some l) (h' : keep[m']? = some l) :
    m = m' := by
  obtain ⟨h1, h2⟩ := List.getElem?_eq_some_iff.1 h
  obtain ⟨h1', h2'⟩ := List.getElem?_eq_some_iff.1 h'
  have := List.pairwise_iff_getElem.1 hk
  refine Nat.le_antisymm (Nat.le_of_not_lt fun hlt => ?_) (Nat.le_of_not_lt fun hlt => ?_)
  · have := this m' m h1' h1 hlt
    omega
  · have := this m m' h1 h1' hlt
    omega

theorem drawsLayer_look {sel : LayerSelection} {l : Nat} {c d : LayerChunk} (h : layerLook d = layerLook c) :
    drawsLayer sel l d = drawsLayer sel l c := by
  simp only [layerLook, Prod.mk.injEq] at h
  obtain ⟨e1, e2, -, -⟩ := h
  cases sel <;> simp only [drawsLayer, e1, e2]

/-- **C122 (loads).** A file from which layers were deleted loads if the original does, with as many frames, the same size
and as many layers as were kept. -/
theorem C122_loads (plat : Plat) (b b' : Bytes) (raw raw' : RawFile) (hr : parseRawFile plat b = .ok raw)
    (hr' : parseRawFile plat b' = .ok raw') (keep : List Nat) (h : LayersDeleted keep raw raw')
    (f : AsepriteFile) (hf : AsepriteFile.load plat b = .ok f) :
    ∃ g, AsepriteFile.load plat b' = .ok g ∧ g.frames.length = f.frames.length ∧ g.size = f.size ∧
      (NoTilemaps raw → g.layers.length = keep.length) := by
  have key : ∃ g, AsepriteFile.load plat b' = .ok g := by
    obtain ⟨hp, hidx, hres⟩ := (loads_doc hr).1 ⟨f, hf⟩
    rw [loads_doc hr']
    refine ⟨filePalette_canvas h.canvas ▸ hp, ?_, ?_⟩
    · intro fr' hfr c hc
      obtain ⟨j, hj⟩ := List.getElem?_of_mem hfr
      obtain ⟨d, hd⟩ := celOf_of_mem hj hc
      have hs := h.cels j c.layerIndex.toNat
      rw [hd, Option.map_some] at hs
      obtain ⟨l, h1, -⟩ := Option.bind_eq_some_iff.1 hs.symm
      rw [layerCount_doc, deleted_length h]
      exact (List.getElem?_eq_some_iff.1 h1).1
    · intro j m d hd
      have hs := h.cels j m
      rw [hd, Option.map_some] at hs
      obtain ⟨l, h1, h2⟩ := Option.bind_eq_some_iff.1 hs.symm
      obtain ⟨c, hc, e⟩ := Option.map_eq_some_iff.1 h2
      rw [deleted_imageOf h h1 (c := c) (congrArg (fun p => p.2.2) e).symm]
      exact hres _ _ _ hc
  obtain ⟨g, hg⟩ := key
  obtain ⟨f1, f2⟩ := load_ok.1 hf
  obtain ⟨g1, g2⟩ := load_ok.1 hg
  have hP := parsed_of_parse hr f1
  have hQ := parsed_of_parse hr' g1
  refine ⟨g, hg, ?_, ?_, fun ht => ?_⟩
  · rw [(frames_of_load f2).1, (frames_of_load g2).1, hP.frames, hQ.frames, List.length_map, List.length_map, h.frames]
  · simp only [AsepriteFile.size, hP.header, hQ.header]
    rw [show raw.header.width = raw'.header.width from congrArg Canvas.width h.canvas,
      show raw.header.height = raw'.header.height from congrArg Canvas.height h.canvas]
  · have e : ∀ l : Nat, g.layers[l]? = none ↔ keep[l]? = none := by
      intro l
      rw [layers_doc hr' hg (deleted_tilemaps h ht), Option.map_eq_none_iff, List.getElem?_eq_none_iff, deleted_length h,
        List.getElem?_eq_none_iff]
    have h1 := (e keep.length).2 (List.getElem?_eq_none (Nat.le_refl _))
    have h2 := (e g.layers.length).1 (List.getElem?_eq_none (Nat.le_refl _))
    rw [List.getElem?_eq_none_iff] at h1 h2
    omega

/-- **C122.** Delete some layers of a file, with their cels.  Rendering a frame of the new file with a selection gives
exactly what rendering the frame of the old file gives with a selection that takes those same layers, and none of the deleted
ones: the same result (or error or panic) and the same buffer. -/
theorem C122_deleted (plat : Plat) (b b' : Bytes) (raw raw' : RawFile) (hr : parseRawFile plat b = .ok raw)
    (hr' : parseRawFile plat b' = .ok raw') (keep : List Nat) (h : LayersDeleted keep raw raw')
    (f g : AsepriteFile) (hf : AsepriteFile.load plat b = .ok f) (hg : AsepriteFile.load plat b' = .ok g)
    (ht : NoTilemaps raw) (sel sel' : LayerSelection)
    (hs : ∀ (l : Nat) (c : LayerChunk), (Doc.layers raw)[l]? = some c →
      (drawsLayer sel l c = true ↔ ∃ m : Nat, keep[m]? = some l ∧ drawsLayer sel' m c = true))
    (i : Nat) (hi : i < raw.frames.length) (p : Plat) (inflate : Inflater) (t : Bytes) :
    g.renderFrame p inflate i sel' t = f.renderFrame p inflate i sel t := by
  refine (C93_drawings plat b b' raw raw' hr hr' f g hf hg ht (deleted_tilemaps h ht) h.canvas i i hi (h.frames ▸ hi) sel sel'
    ?_ p inflate t).symm
  rw [drawings_of, drawings_of, deleted_length h]
  have e : ∀ m : Nat, drawingOf raw' sel' i m = keep[m]?.bind (drawingOf raw sel i) := by
    intro m
    cases hm : (Doc.layers raw')[m]? with
    | none =>
      have : keep[m]? = none := by
        rw [List.getElem?_eq_none_iff] at hm ⊢
        rw [deleted_length h] at hm
        exact hm
      rw [this, drawingOf_beyond (List.getElem?_eq_none_iff.1 hm)]
      rfl
    | some d =>
      obtain ⟨l, c, h1, h2, h3⟩ := deleted_layer h hm
      rw [h1, Option.bind_some]
      have hdr : drawsLayer sel' m d = drawsLayer sel l c := by
        rw [Bool.eq_iff_iff, hs l c h2, drawsLayer_look h3]
        refine ⟨fun hd => ⟨m, h1, hd⟩, ?_⟩
        rintro ⟨m', h4, h5⟩
        rwa [keep_inj h.order h1 h4]
      simp only [layerLook, Prod.mk.injEq] at h3
      unfold drawingOf
      rw [hm, h2, deleted_shown h h1]
      cases shown raw i l with
      | none => rfl
      | some s => simp only [hdr, h3.2.2.1, h3.2.2.2]
  rw [List.filterMap_congr fun m _ => e m, range_getElem?]
  refine (range_selected h.order (fun l hl => drawingOf_beyond hl) fun l hl => ?_).symm
  cases hd : drawingOf raw sel i l with
  | none => rfl
  | some d =>
    obtain ⟨c, h1, h2, -⟩ := drawingOf_some hd
    obtain ⟨m, h3, -⟩ := (hs l c h1).1 h2
    exact absurd (List.mem_of_getElem? h3) hl

theorem mem_keep {keep : List Nat} {l : Nat} : l ∈ keep ↔ ∃ m : Nat, keep[m]? = some l :=
  ⟨List.getElem?_of_mem, fun ⟨_, h⟩ => List.mem_of_getElem? h⟩

/-- All layers of the new file give what the mask of the kept layers gives in the old one. -/
theorem C122_all (plat : Plat) (b b' : Bytes) (raw raw' : RawFile) (hr : parseRawFile plat b = .ok raw)
    (hr' : parseRawFile plat b' = .ok raw') (keep : List Nat) (h : LayersDeleted keep raw raw')
    (f g : AsepriteFile) (hf : AsepriteFile.load plat b = .ok f) (hg : AsepriteFile.load plat b' = .ok g)
    (ht : NoTilemaps raw) (mask : List Bool) (hm : ∀ l : Nat, mask[l]? = some true ↔ l ∈ keep)
    (i : Nat) (hi : i < raw.frames.length) (p : Plat) (inflate : Inflater) (t : Bytes) :
    g.renderFrame p inflate i .all t = f.renderFrame p inflate i (.mask mask) t := by
  refine C122_deleted plat b b' raw raw' hr hr' keep h f g hf hg ht (.mask mask) .all (fun l c hc => ?_) i hi p inflate t
  simp only [drawsLayer, Bool.and_true, decide_eq_true_eq, Bool.and_eq_true, hm, mem_keep]
  exact ⟨fun ⟨h1, m, h2⟩ => ⟨m, h2, h1⟩, fun ⟨m, h2, h1⟩ => ⟨h1, m, h2⟩⟩

/-- A mask of the new file gives what the same choice gives in the old one. -/
theorem C122_mask (plat : Plat) (b b' : Bytes) (raw raw' : RawFile) (hr : parseRawFile plat b = .ok raw)
    (hr' : parseRawFile plat b' = .ok raw') (keep : List Nat) (h : LayersDeleted keep raw raw')
    (f g : AsepriteFile) (hf : AsepriteFile.load plat b = .ok f) (hg : AsepriteFile.load plat b' = .ok g)
    (ht : NoTilemaps raw) (mask mask' : List Bool)
    (hm : ∀ l : Nat, mask[l]? = some true ↔ ∃ m : Nat, keep[m]? = some l ∧ mask'[m]? = some true)
    (i : Nat) (hi : i < raw.frames.length) (p : Plat) (inflate : Inflater) (t : Bytes) :
    g.renderFrame p inflate i (.mask mask') t = f.renderFrame p inflate i (.mask mask) t := by
  refine C122_deleted plat b b' raw raw' hr hr' keep h f g hf hg ht (.mask mask) (.mask mask') (fun l c hc => ?_) i hi p inflate t
  simp only [drawsLayer, decide_eq_true_eq, Bool.and_eq_true, hm]
  exact ⟨fun ⟨h1, m, h2, h3⟩ => ⟨m, h2, h1, h3⟩, fun ⟨m, h2, h1, h3⟩ => ⟨h1, m, h2, h3⟩⟩

/-- If only groups and layers that are not marked visible were deleted, the visible layers give the same picture. -/
theorem C122_visible (plat : Plat) (b b' : Bytes) (raw raw' : RawFile) (hr : parseRawFile plat b = .ok raw)
    (hr' : parseRawFile plat b' = .ok raw') (keep : List Nat) (h : LayersDeleted keep raw raw')
    (f g : AsepriteFile) (hf : AsepriteFile.load plat b = .ok f) (hg : AsepriteFile.load plat b' = .ok g)
    (ht : NoTilemaps raw)
    (hv : ∀ (l : Nat) (c : LayerChunk), (Doc.layers raw)[l]? = some c → l ∉ keep → c.layerType = .group ∨ c.flags.bits &&& 1 ≠ 1)
    (i : Nat) (hi : i < raw.frames.length) (p : Plat) (inflate : Inflater) (t : Bytes) :
    g.renderFrame p inflate i .visible t = f.renderFrame p inflate i .visible t := by
  refine C122_deleted plat b b' raw raw' hr hr' keep h f g hf hg ht .visible .visible (fun l c hc => ?_) i hi p inflate t
  simp only [drawsLayer, decide_eq_true_eq, Bool.and_eq_true]
  refine ⟨fun h1 => ?_, fun ⟨_, _, h1⟩ => h1⟩
  have : l ∈ keep := Classical.byContradiction fun hl => by
    rcases hv l c hc hl with h2 | h2
    · rw [h1.1] at h2
      cases h2
    · exact h2 h1.2
  obtain ⟨m, hm⟩ := mem_keep.1 this
  exact ⟨m, hm, h1⟩

/-! Of the three layers A, B and C the second one is deleted; there is a second frame with links. -/
def Sample.stackAC : Bytes := Sample.header 3 1 32 ++ Sample.frame 1 [Sample.layerA, Sample.layerC,
  Sample.cel 0 0 0 1 1 [1, 2, 3, 255], Sample.cel 1 1 0 2 1 [90, 80, 70, 255, 60, 50, 40, 255]] ++
  Sample.frame 1 [Sample.link 0 0, Sample.link 1 0]

/-- The hypotheses hold of them: beyond the third layer and the second frame there is nothing in either file. -/
example :
    (match parseRawFile ⟨true, 10⟩ Sample.stackABC, parseRawFile ⟨true, 10⟩ Sample.stackAC with
      | .ok raw, .ok raw' =>
        decide (canvas raw = canvas raw') && raw.frames.length == 2 && raw'.frames.length == 2 && decide (NoTilemaps raw) &&
        (Doc.layers raw).length == 3 && (Doc.layers raw').length == 2 &&
        (List.range 3).all (fun m =>
          decide ((Doc.layers raw')[m]?.map layerLook = [0, 2][m]?.bind fun l => (Doc.layers raw)[l]?.map layerLook) &&
          (List.range 2).all fun i => decide ((Doc.celOf raw' i m).map celPlace =
            [0, 2][m]?.bind fun l => (Doc.celOf raw i l).map celPlace)) &&
        raw.frames.all (fun fr => (Doc.cels fr).all fun c => decide (c.layerIndex.toNat < 3)) &&
        raw'.frames.all (fun fr => (Doc.cels fr).all fun c => decide (c.layerIndex.toNat < 2))
      | _, _ => false) = true := by decide +kernel

example :
    let t := List.replicate 12 (9 : UInt8)
    ∃ t', Sample.render ⟨true, 10⟩ Sample.stackABC 1 (.mask [true, false, true]) t = some (.ok (), t') ∧
      Sample.render ⟨true, 10⟩ Sample.stackAC 1 .all t = some (.ok (), t') ∧
      t' = [35, 32, 29, 255, 57, 48, 38, 105, 9, 9, 9, 9] := ⟨_, by decide +kernel, by decide +kernel, rfl⟩

end Ase
