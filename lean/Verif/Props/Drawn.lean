import Verif.Props.Shown

/-!
# C93: a frame is the sequence of images it draws
-/

namespace Ase

open Spec

/-! ## Palettes -/

def isPalette : Chunk → Bool
  | .palette _ | .palette0004 _ | .palette0011 _ => true
  | _ => false

theorem palette_only {cs : List Chunk} : ∃ ps : List Chunk, newPalettes ps = newPalettes cs ∧
    oldPalettes4 ps = oldPalettes4 cs ∧ oldPalettes11 ps = oldPalettes11 cs ∧
    (ps.filterMap chunkLook).filterMap still? = cs.filterMap paletteLook := by
  refine ⟨cs.filter isPalette, ?_⟩
  induction cs with
  | nil => exact ⟨rfl, rfl, rfl, rfl⟩
  | cons c cs ih =>
    obtain ⟨h1, h2, h3, h4⟩ := ih
    unfold newPalettes at h1 ⊢
    unfold oldPalettes4 at h2 ⊢
    unfold oldPalettes11 at h3 ⊢
    cases c <;> simp only [List.filter_cons, isPalette, if_true, Bool.false_eq_true, if_false, List.filterMap_cons, h1, h2,
      h3, chunkLook, still?, paletteLook, h4, and_self]

theorem filePalette_canvas {raw raw' : RawFile} (h : canvas raw = canvas raw') : filePalette raw = filePalette raw' := by
  have hc : (allChunks raw.frames).filterMap paletteLook = (allChunks raw'.frames).filterMap paletteLook :=
    congrArg Canvas.palettes h
  obtain ⟨ps, a1, a2, a3, a4⟩ := palette_only (cs := allChunks raw.frames)
  obtain ⟨qs, b1, b2, b3, b4⟩ := palette_only (cs := allChunks raw'.frames)
  obtain ⟨h1, h2⟩ := palette_look (a4.trans (hc.trans b4.symm))
  have ep : ∀ {cs ps : List Chunk}, newPalettes ps = newPalettes cs → oldPalettes4 ps = oldPalettes4 cs →
      oldPalettes11 ps = oldPalettes11 cs → paletteProblem ps = paletteProblem cs ∧ paletteWrites ps = paletteWrites cs := by
    intro cs ps e1 e2 e3
    have e4 : oldPalettes ps = oldPalettes cs := by simp only [oldPalettes, e2, e3]
    have e5 : paletteWrites ps = paletteWrites cs := by simp only [paletteWrites, e1, e4]
    exact ⟨by simp only [paletteProblem, e1, e4, e5], e5⟩
  obtain ⟨a5, a6⟩ := ep a1 a2 a3
  obtain ⟨b5, b6⟩ := ep b1 b2 b3
  rw [filePalette_eq, filePalette_eq, ← a5, ← a6, ← b5, ← b6, h1, h2,
    show raw.header.colorDepth = raw'.header.colorDepth from congrArg Canvas.colorDepth h,
    show raw.header.transparentIndex = raw'.header.transparentIndex from congrArg Canvas.transparentIndex h]

/-! ## Layers -/

theorem toLLayer_bare (c : LayerChunk) : toLLayer (bareLayer c) = toLLayer c := rfl

/-- The layers of the loaded sprite are those of the file. -/
theorem layers_doc {plat : Plat} {b : Bytes} {raw : RawFile} (hr : parseRawFile plat b = .ok raw) {f : AsepriteFile}
    (hf : AsepriteFile.load plat b = .ok f) (ht : NoTilemaps raw) (l : Nat) :
    f.layers[l]? = (Doc.layers raw)[l]?.map fun c => { name := c.name, opacity := c.opacity, blendMode := c.blendMode, visible := c.flags.contains LayerFlags.VISIBLE, layerType := c.layerType } := by
  obtain ⟨h1, h2⟩ := load_ok.1 hf
  have hP := parsed_of_parse hr h1
  have e : f.layers = (Doc.layers raw).filterMap toLLayer := by
    rw [(ofFile_ok h2).2.1, hP.layers]
    have := congrArg (List.filterMap toLLayer) (allLayers_bare raw)
    simpa only [List.filterMap_map, Function.comp_def, toLLayer_bare] using this
  rw [e, ← List.getElem?_map]
  congr 1
  generalize hL : Doc.layers raw = L
  have ht' : ∀ c ∈ L, c.layerType = .normal ∨ c.layerType = .group := hL ▸ ht
  clear hL
  induction L with
  | nil => rfl
  | cons c L ih =>
    rw [List.filterMap_cons, List.map_cons]
    simp only [toLLayer, if_pos (ht' c List.mem_cons_self)]
    rw [← ih fun c hc => ht' c (List.mem_cons_of_mem _ hc)]

/-! ## What rendering draws -/

/-- What rendering uses of a cel that is drawn. -/
def cellDraw (f : AsepriteFile) (sel : LayerSelection) (c : FrameCel) :
    Option ((Int16 × Int16) × (UInt16 × UInt16) × Option Image × BlendMode × UInt8) :=
  (drawnOn f sel c).map fun layer => (c.origin, c.size, f.images[c.imageIndex]?, layer.blendMode, layer.opacity)

theorem forEach_draws {f g : AsepriteFile} (hsz : f.size = g.size)
    (hdep : f.file.header.colorDepth = g.file.header.colorDepth) (hpal : f.file.palette = g.file.palette)
    (plat : Plat) (inflate : Inflater) (sel sel' : LayerSelection) :
    ∀ (n : Nat) (cs ds : List FrameCel), cs.length + ds.length ≤ n →
      cs.filterMap (cellDraw f sel) = ds.filterMap (cellDraw g sel') → ∀ t : Bytes,
      Buf.forEach (f.renderCel plat inflate sel) cs t = Buf.forEach (g.renderCel plat inflate sel') ds t := by
  have hrc : ∀ (c d : FrameCel) v, cellDraw f sel c = some v → cellDraw g sel' d = some v → ∀ t,
      f.renderCel plat inflate sel c t = g.renderCel plat inflate sel' d t := by
    intro c d v hc hd t
    obtain ⟨layer, h1, rfl⟩ := Option.map_eq_some_iff.1 hc
    obtain ⟨layer', h2, h3⟩ := Option.map_eq_some_iff.1 hd
    simp only [Prod.mk.injEq] at h3
    obtain ⟨e1, e2, e3, e4, e5⟩ := h3
    have hw : f.file.header.width = g.file.header.width := congrArg Prod.fst hsz
    have hh : f.file.header.height = g.file.header.height := congrArg Prod.snd hsz
    rw [renderCel_drawn h1, renderCel_drawn h2, e2, e4]
    have hl : f.loadImage inflate c.imageIndex = g.loadImage inflate d.imageIndex :=
      loadImage_local (f := { f with layers := g.layers }) (g := g) ⟨hsz, hdep, fun _ => hpal, rfl⟩ inflate e3.symm
    have hp : ∀ fn t y, f.renderPixel plat c layer fn t y = g.renderPixel plat d layer' fn t y := by
      intro fn t y
      funext x
      unfold AsepriteFile.renderPixel
      rw [e1, e2, hw, hh, e5]
    simp only [hl, hp]
  intro n
  induction n with
  | zero =>
    intro cs ds hn _ t
    cases cs with
    | nil => cases ds with
      | nil => rfl
      | cons _ _ => simp at hn
    | cons _ _ => simp at hn
  | succ n ih =>
    intro cs ds hn he t
    cases cs with
    | cons c cs =>
      cases hc : cellDraw f sel c with
      | none =>
        rw [List.filterMap_cons_none hc] at he
        rw [forEach_cons, renderCel_skip (Option.map_eq_none_iff.1 hc)]
        exact ih cs ds (by simp at hn ⊢; omega) he t
      | some v =>
        rw [List.filterMap_cons_some hc] at he
        cases ds with
        | nil => simp at he
        | cons d ds =>
          cases hd : cellDraw g sel' d with
          | none =>
            rw [List.filterMap_cons_none hd, ← List.filterMap_cons_some hc] at he
            rw [forEach_cons (x := d), renderCel_skip (Option.map_eq_none_iff.1 hd)]
            exact ih (c :: cs) ds (by simp at hn ⊢; omega) he t
          | some w =>
            rw [List.filterMap_cons_some hd, List.cons.injEq] at he
            obtain ⟨rfl, he⟩ := he
            rw [forEach_cons, forEach_cons, hrc c d v hc hd t]
            rcases g.renderCel plat inflate sel' d t with ⟨_ | _ | _, t'⟩
            · exact ih cs ds (by simp at hn ⊢; omega) he t'
            · rfl
            · rfl
    | nil =>
      cases ds with
      | nil => rfl
      | cons d ds =>
        cases hd : cellDraw g sel' d with
        | none =>
          rw [List.filterMap_cons_none hd] at he
          rw [forEach_cons, renderCel_skip (Option.map_eq_none_iff.1 hd)]
          exact ih [] ds (by simp at hn ⊢; omega) he t
        | some w => rw [List.filterMap_cons_some hd] at he; simp at he

/-- What rendering uses of a drawing. -/
def drawingFacts (d : Drawing) : (Int16 × Int16) × (UInt16 × UInt16) × Option Image × BlendMode × UInt8 :=
  ((d.x, d.y), (d.image.width, d.image.height), some d.image, d.blendMode, d.opacity)

def drawOf (f : AsepriteFile) (sel : LayerSelection)
    (v : (Int16 × Int16) × (UInt16 × UInt16) × Nat × Option Image) :
    Option ((Int16 × Int16) × (UInt16 × UInt16) × Option Image × BlendMode × UInt8) :=
  Option.map (fun layer : LLayer => (v.1, v.2.1, v.2.2.2, layer.blendMode, layer.opacity))
    (match f.layers[v.2.2.1]? with
      | some layer => if layer.layerType ≠ .group ∧ Selects sel v.2.2.1 layer then some layer else none
      | none => none)

theorem cels_drawings {plat : Plat} {b : Bytes} {raw : RawFile} (hr : parseRawFile plat b = .ok raw) {f : AsepriteFile}
    (hf : AsepriteFile.load plat b = .ok f) (ht : NoTilemaps raw) {i : Nat} {lf : LFrame} (hi : f.frames[i]? = some lf)
    (sel : LayerSelection) :
    lf.cels.filterMap (cellDraw f sel) = (drawings raw sel i).map drawingFacts := by
  have hlen : (allLayers raw.frames).length = (Doc.layers raw).length := by
    simpa using congrArg List.length (allLayers_bare raw)
  have hsh := cels_shown hr hf hi (m := (Doc.layers raw).length) (by omega)
  have hD : cellDraw f sel = drawOf f sel ∘ celFacts f := rfl
  rw [hD, ← List.filterMap_map (f := celFacts f) (g := drawOf f sel), hsh, List.filterMap_filterMap, drawings,
    List.map_filterMap]
  congr 1
  funext l
  cases hs : shown raw i l with
  | none => cases (Doc.layers raw)[l]? <;> rfl
  | some s =>
    obtain ⟨x, y, im⟩ := s
    simp only [Option.map_some, Option.bind_some, shownFacts, drawOf, layers_doc hr hf ht]
    cases hl : (Doc.layers raw)[l]? with
    | none => rfl
    | some c =>
      simp only [Option.map_some]
      have hty := ht c (List.mem_of_getElem? hl)
      have hiff : (c.layerType ≠ .group ∧ Selects sel l { name := c.name, opacity := c.opacity, blendMode := c.blendMode, visible := c.flags.contains LayerFlags.VISIBLE, layerType := c.layerType }) ↔ drawsLayer sel l c = true := by
        unfold drawsLayer Selects
        rw [Bool.and_eq_true, decide_eq_true_eq]
        refine and_congr ?_ ?_
        · rcases hty with h | h <;> rw [h] <;> simp
        · cases sel with
          | visible => exact Iff.rfl
          | all => simp
          | mask m => simp
      by_cases hdl : drawsLayer sel l c = true
      · rw [if_pos hdl, if_pos (hiff.2 hdl)]
        rfl
      · rw [if_neg hdl, if_neg (fun h => hdl (hiff.1 h))]
        rfl

/-- **C93.** A frame is rendered from the sequence of images it draws: if two files that load have the same canvas, colour
depth and palettes, and frame `i` of the one draws, with a selection of its layers, the same images as frame `j` of the
other one with a selection of the layers of that one (in the same order, at the same places, with the same blend modes and
opacities), then both renderings give the same result and leave the same buffer.  (The files have no tilemap layers, for
which see C34.) -/
theorem C93_drawings (plat : Plat) (b b' : Bytes) (raw raw' : RawFile) (hr : parseRawFile plat b = .ok raw)
    (hr' : parseRawFile plat b' = .ok raw') (f g : AsepriteFile) (hf : AsepriteFile.load plat b = .ok f)
    (hg : AsepriteFile.load plat b' = .ok g) (ht : NoTilemaps raw) (ht' : NoTilemaps raw') (hc : canvas raw = canvas raw')
    (i j : Nat) (hi : i < raw.frames.length) (hj : j < raw'.frames.length) (sel sel' : LayerSelection)
    (h : drawings raw sel i = drawings raw' sel' j) (p : Plat) (inflate : Inflater) (t : Bytes) :
    f.renderFrame p inflate i sel t = g.renderFrame p inflate j sel' t := by
  obtain ⟨f1, f2⟩ := load_ok.1 hf
  obtain ⟨g1, g2⟩ := load_ok.1 hg
  have hP := parsed_of_parse hr f1
  have hQ := parsed_of_parse hr' g1
  have hfl : i < f.frames.length := by rw [(frames_of_load f2).1, hP.frames, List.length_map]; exact hi
  have hgl : j < g.frames.length := by rw [(frames_of_load g2).1, hQ.frames, List.length_map]; exact hj
  have hpal : f.file.palette = g.file.palette := by
    have := hP.palette
    rw [filePalette_canvas hc, hQ.palette] at this
    exact (Outcome.ok.inj this).symm
  have hsz : f.size = g.size := by
    simp only [AsepriteFile.size, hP.header, hQ.header]
    rw [show raw.header.width = raw'.header.width from congrArg Canvas.width hc,
      show raw.header.height = raw'.header.height from congrArg Canvas.height hc]
  have hdep : f.file.header.colorDepth = g.file.header.colorDepth := by
    rw [hP.header, hQ.header]
    exact congrArg Canvas.colorDepth hc
  have hcb : canvasBytes f = canvasBytes g := by
    simp only [canvasBytes]
    rw [show f.file.header.width = g.file.header.width from congrArg Prod.fst hsz,
      show f.file.header.height = g.file.header.height from congrArg Prod.snd hsz]
  rw [renderFrame_eq, renderFrame_eq, hcb, List.getElem?_eq_getElem hfl, List.getElem?_eq_getElem hgl]
  split
  · rfl
  · refine forEach_draws hsz hdep hpal p inflate sel sel' _ _ _ (Nat.le_refl _) ?_ t
    rw [cels_drawings hr hf ht (List.getElem?_eq_getElem hfl), cels_drawings hr' hg ht' (List.getElem?_eq_getElem hgl), h]

theorem range_inserted {β : Type} {m n : Nat} (hm : m ≤ n) {F G : Nat → Option β} (h1 : ∀ l, l < n → G (shifted m l) = F l)
    (h2 : G m = none) : (List.range (n + 1)).filterMap G = (List.range n).filterMap F := by
  obtain ⟨d, rfl⟩ := Nat.exists_eq_add_of_le hm
  have e1 : List.range (m + d + 1) = List.range m ++ m :: (List.range d).map (m + 1 + ·) := by
    rw [show m + d + 1 = m + (d + 1) by omega, List.range_add, List.range_succ_eq_map]
    simp [Function.comp_def, Nat.add_assoc, Nat.add_comm 1, Nat.succ_eq_add_one]
  rw [e1, List.range_add, List.filterMap_append, List.filterMap_append, List.filterMap_cons_none h2]
  congr 1
  · refine List.filterMap_congr fun l hl => ?_
    rw [List.mem_range] at hl
    rw [← h1 l (by omega), shifted, if_pos hl]
  · rw [List.filterMap_map, List.filterMap_map]
    refine List.filterMap_congr fun l hl => ?_
    rw [List.mem_range] at hl
    have := h1 (m + l) (by omega)
    rw [shifted, if_neg (by omega)] at this
    rw [Function.comp, Function.comp, ← this]
    congr 1
    omega

/-- **C93, layers.** Let the second file be the first one with a layer inserted at place `m`: the other layers are the same,
and frame `j` of the second file shows on them what frame `i` of the first one shows.  If the new layer is not to be drawn
(it is hidden, or a group) or the frame shows nothing on it, then rendering the visible layers (or all layers) gives the
same result and leaves the same buffer.  Read the other way round, this is about deleting such a layer. -/
theorem C93_layer (plat : Plat) (b b' : Bytes) (raw raw' : RawFile) (hr : parseRawFile plat b = .ok raw)
    (hr' : parseRawFile plat b' = .ok raw') (f g : AsepriteFile) (hf : AsepriteFile.load plat b = .ok f)
    (hg : AsepriteFile.load plat b' = .ok g) (ht : NoTilemaps raw) (ht' : NoTilemaps raw') (hc : canvas raw = canvas raw')
    (m : Nat) (new : LayerChunk) (hm : m ≤ (Doc.layers raw).length)
    (hl : (Doc.layers raw').map layerLook = ((Doc.layers raw).map layerLook).insertIdx m (layerLook new))
    (i j : Nat) (hi : i < raw.frames.length) (hj : j < raw'.frames.length) (sel : LayerSelection)
    (hsel : sel = .visible ∨ sel = .all) (hs : ∀ l, shown raw' j (shifted m l) = shown raw i l)
    (hnew : drawsLayer sel m new = false ∨ shown raw' j m = none) (p : Plat) (inflate : Inflater) (t : Bytes) :
    g.renderFrame p inflate j sel t = f.renderFrame p inflate i sel t := by
  refine C93_drawings plat b' b raw' raw hr' hr g f hg hf ht' ht hc.symm j i hj hi sel sel ?_ p inflate t
  have hlen : (Doc.layers raw').length = (Doc.layers raw).length + 1 := by
    have := congrArg List.length hl
    rwa [List.length_insertIdx_of_le_length (by simpa using hm), List.length_map, List.length_map] at this
  have hget : ∀ k : Nat, ((Doc.layers raw')[k]?).map layerLook =
      (((Doc.layers raw).map layerLook).insertIdx m (layerLook new))[k]? := by
    intro k
    rw [← hl, List.getElem?_map]
  have hdraw : ∀ (l l' : Nat) (c c' : LayerChunk), layerLook c = layerLook c' →
      drawsLayer sel l c = drawsLayer sel l' c' ∧ c.blendMode = c'.blendMode ∧ c.opacity = c'.opacity := by
    intro l l' c c' h
    simp only [layerLook, Prod.mk.injEq] at h
    obtain ⟨e1, e2, e3, e4⟩ := h
    refine ⟨?_, e3, e4⟩
    rcases hsel with rfl | rfl
    · simp only [drawsLayer, e1, e2]
    · simp only [drawsLayer, e1]
  unfold drawings
  rw [hlen]
  refine range_inserted hm ?_ ?_
  · intro l hlt
    have e : ((Doc.layers raw')[shifted m l]?).map layerLook = ((Doc.layers raw)[l]?).map layerLook := by
      rw [hget, ← List.getElem?_map]
      unfold shifted
      split
      · next h => rw [List.getElem?_insertIdx_of_lt h]
      · next h => rw [List.getElem?_insertIdx_of_gt (by omega), Nat.add_sub_cancel]
    rw [hs]
    cases h1 : (Doc.layers raw')[shifted m l]? with
    | none =>
      rw [h1] at e
      rw [Option.map_eq_none_iff.1 e.symm]
    | some c =>
      rw [h1, Option.map_some] at e
      obtain ⟨d, h2, h3⟩ := Option.map_eq_some_iff.1 e.symm
      rw [h2]
      obtain ⟨e1, e2, e3⟩ := hdraw (shifted m l) l c d h3.symm
      cases shown raw i l with
      | none => rfl
      | some s => simp only [e1, e2, e3]
  · rcases hnew with h | h
    · have e := hget m
      rw [List.getElem?_insertIdx_self, if_pos (by simpa using hm)] at e
      obtain ⟨c, h1, h2⟩ := Option.map_eq_some_iff.1 e
      rw [h1]
      have := (hdraw m m c new h2).1
      rw [h] at this
      cases shown raw' j m with
      | none => rfl
      | some s => simp [this]
    · rw [h]
      cases (Doc.layers raw')[m]? <;> rfl

/-! A hidden layer with a cel is inserted between two layers; the numbers of the cels on the upper layer change. -/
example :
    let one := Sample.header 2 1 32 ++ Sample.frame 1 [Sample.layer 1 0 0 255 [65], Sample.layer 1 0 3 200 [66],
      Sample.cel 0 0 0 1 1 [1, 2, 3, 4], Sample.cel 1 1 0 1 1 [9, 10, 11, 12]]
    let two := Sample.header 2 1 32 ++ Sample.frame 1 [Sample.layer 1 0 0 255 [65], Sample.layer 0 0 0 255 [67],
      Sample.layer 1 0 3 200 [66], Sample.cel 0 0 0 1 1 [1, 2, 3, 4], Sample.cel 1 0 0 1 1 [7, 7, 7, 255],
      Sample.cel 2 1 0 1 1 [9, 10, 11, 12]]
    (match parseRawFile ⟨true, 10⟩ one, parseRawFile ⟨true, 10⟩ two, AsepriteFile.load ⟨true, 10⟩ one,
        AsepriteFile.load ⟨true, 10⟩ two with
      | .ok raw, .ok raw', .ok _, .ok _ => decide (NoTilemaps raw) && decide (NoTilemaps raw') &&
          decide (canvas raw = canvas raw') && raw.frames.length == 1 && raw'.frames.length == 1 &&
          (match (Doc.layers raw')[1]? with
            | some new => decide ((Doc.layers raw').map layerLook =
                ((Doc.layers raw).map layerLook).insertIdx 1 (layerLook new)) && !drawsLayer .visible 1 new
            | none => false) &&
          (List.range 2).all (fun l => decide (shown raw' 0 (shifted 1 l) = shown raw 0 l)) && (shown raw' 0 1).isSome &&
          decide (drawings raw .visible 0 = drawings raw' .visible 0) && (drawings raw .visible 0).length == 2 &&
          decide (drawings raw .all 0 = drawings raw' (.mask [true, false, true]) 0)
      | _, _, _, _ => false) = true := by decide +kernel

end Ase
