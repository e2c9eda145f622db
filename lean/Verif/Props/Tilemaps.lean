import Verif.Spec.Tilemaps
import Verif.Props.Restack

/-!
# C125: files with tilemap layers
-/

namespace Ase

open Spec

/-! ## What is drawn of any file that loads -/

/-- What is drawn of layer number `l` of the normal layers and groups: what the frame shows at that number. -/
def ordinaryDrawing (raw : RawFile) (sel : LayerSelection) (i l : Nat) : Option Drawing :=
  match (ordinaryLayers raw)[l]?, shown raw i l with
  | some c, some (x, y, im) => if drawsLayer sel l c then some ⟨x, y, im, c.blendMode, c.opacity⟩ else none
  | _, _ => none

def ordinaryDrawings (raw : RawFile) (sel : LayerSelection) (i : Nat) : List Drawing :=
  (List.range (ordinaryLayers raw).length).filterMap (ordinaryDrawing raw sel i)

theorem ordinary_le (raw : RawFile) : (ordinaryLayers raw).length ≤ (Doc.layers raw).length := List.length_filter_le ..

theorem ordinary_type {raw : RawFile} {c : LayerChunk} (h : c ∈ ordinaryLayers raw) :
    c.layerType = .normal ∨ c.layerType = .group := by
  simpa using (List.mem_filter.1 h).2

/-- The layers of the loaded sprite are the normal layers and groups of the file. -/
theorem layers_ordinary {plat : Plat} {b : Bytes} {raw : RawFile} (hr : parseRawFile plat b = .ok raw) {f : AsepriteFile}
    (hf : AsepriteFile.load plat b = .ok f) (l : Nat) :
    f.layers[l]? = (ordinaryLayers raw)[l]?.map fun c => { name := c.name, opacity := c.opacity, blendMode := c.blendMode, visible := c.flags.contains LayerFlags.VISIBLE, layerType := c.layerType } := by
  obtain ⟨h1, h2⟩ := load_ok.1 hf
  have hP := parsed_of_parse hr h1
  have e : f.layers = (Doc.layers raw).filterMap toLLayer := by
    rw [(ofFile_ok h2).2.1, hP.layers]
    have := congrArg (List.filterMap toLLayer) (allLayers_bare raw)
    simpa only [List.filterMap_map, Function.comp_def, toLLayer_bare] using this
  rw [e, ← List.getElem?_map, ordinaryLayers]
  congr 1
  induction Doc.layers raw with
  | nil => rfl
  | cons c L ih =>
    by_cases hc : c.layerType = .normal ∨ c.layerType = .group
    · rw [List.filter_cons_of_pos (by simpa using hc), List.map_cons, ← ih, List.filterMap_cons]
      simp only [toLLayer, if_pos hc]
    · rw [List.filter_cons_of_neg (by simpa using hc), ← ih, List.filterMap_cons]
      simp only [toLLayer, if_neg hc]

theorem cels_ordinary {plat : Plat} {b : Bytes} {raw : RawFile} (hr : parseRawFile plat b = .ok raw) {f : AsepriteFile}
    (hf : AsepriteFile.load plat b = .ok f) {i : Nat} {lf : LFrame} (hi : f.frames[i]? = some lf)
    (sel : LayerSelection) :
    lf.cels.filterMap (cellDraw f sel) = (ordinaryDrawings raw sel i).map drawingFacts := by
  have hsh := cels_shown hr hf hi (m := (Doc.layers raw).length) (Nat.le_of_eq (layerCount_doc raw))
  have hD : cellDraw f sel = drawOf f sel ∘ celFacts f := rfl
  rw [hD, ← List.filterMap_map (f := celFacts f) (g := drawOf f sel), hsh, List.filterMap_filterMap, ordinaryDrawings,
    List.map_filterMap]
  have key : ∀ l, (Option.map (shownFacts l) (shown raw i l)).bind (drawOf f sel) =
      (ordinaryDrawing raw sel i l).map drawingFacts := by
    intro l
    unfold ordinaryDrawing
    cases hs : shown raw i l with
    | none => cases (ordinaryLayers raw)[l]? <;> rfl
    | some s =>
      obtain ⟨x, y, im⟩ := s
      simp only [Option.map_some, Option.bind_some, shownFacts, drawOf, layers_ordinary hr hf]
      cases hl : (ordinaryLayers raw)[l]? with
      | none => rfl
      | some c =>
        simp only [Option.map_some]
        have hty := ordinary_type (List.mem_of_getElem? hl)
        have hiff : (c.layerType ≠ .group ∧ Selects sel l { name := c.name, opacity := c.opacity, blendMode := c.blendMode, visible := c.flags.contains LayerFlags.VISIBLE, layerType := c.layerType }) ↔ drawsLayer sel l c = true := by
          unfold drawsLayer Selects
          rw [Bool.and_eq_true, decide_eq_true_eq]
          refine and_congr ?_ ?_
          · rcases hty with h | h <;> rw [h] <;> simp
          · cases sel with
            | visible => exact Iff.rfl
            | all => simp
            | mask m => simp
        by_cases hdl : drawsLayer sel l c = true
        · rw [if_pos hdl, if_pos (hiff.2 hdl)]
          rfl
        · rw [if_neg hdl, if_neg (fun h => hdl (hiff.1 h))]
          rfl
  simp only [key]
  refine filterMap_range _ (ordinary_le raw) fun l hl => ?_
  unfold ordinaryDrawing
  rw [List.getElem?_eq_none hl]
  rfl

theorem render_ordinary (plat : Plat) (b b' : Bytes) (raw raw' : RawFile) (hr : parseRawFile plat b = .ok raw)
    (hr' : parseRawFile plat b' = .ok raw') (f g : AsepriteFile) (hf : AsepriteFile.load plat b = .ok f)
    (hg : AsepriteFile.load plat b' = .ok g) (hc : canvas raw = canvas raw')
    (i j : Nat) (hi : i < raw.frames.length) (hj : j < raw'.frames.length) (sel sel' : LayerSelection)
    (h : ordinaryDrawings raw sel i = ordinaryDrawings raw' sel' j) (p : Plat) (inflate : Inflater) (t : Bytes) :
    f.renderFrame p inflate i sel t = g.renderFrame p inflate j sel' t := by
  obtain ⟨f1, f2⟩ := load_ok.1 hf
  obtain ⟨g1, g2⟩ := load_ok.1 hg
  have hP := parsed_of_parse hr f1
  have hQ := parsed_of_parse hr' g1
  have hfl : i < f.frames.length := by rw [(frames_of_load f2).1, hP.frames, List.length_map]; exact hi
  have hgl : j < g.frames.length := by rw [(frames_of_load g2).1, hQ.frames, List.length_map]; exact hj
  have hpal : f.file.palette = g.file.palette := by
    have := hP.palette
    rw [filePalette_canvas hc, hQ.palette] at this
    exact (Outcome.ok.inj this).symm
  have hsz : f.size = g.size := by
    simp only [AsepriteFile.size, hP.header, hQ.header]
    rw [show raw.header.width = raw'.header.width from congrArg Canvas.width hc,
      show raw.header.height = raw'.header.height from congrArg Canvas.height hc]
  have hdep : f.file.header.colorDepth = g.file.header.colorDepth := by
    rw [hP.header, hQ.header]
    exact congrArg Canvas.colorDepth hc
  have hcb : canvasBytes f = canvasBytes g := by
    simp only [canvasBytes]
    rw [show f.file.header.width = g.file.header.width from congrArg Prod.fst hsz,
      show f.file.header.height = g.file.header.height from congrArg Prod.snd hsz]
  rw [renderFrame_eq, renderFrame_eq, hcb, List.getElem?_eq_getElem hfl, List.getElem?_eq_getElem hgl]
  split
  · rfl
  · refine forEach_draws hsz hdep hpal p inflate sel sel' _ _ _ (Nat.le_refl _) ?_ t
    rw [cels_ordinary hr hf (List.getElem?_eq_getElem hfl), cels_ordinary hr' hg (List.getElem?_eq_getElem hgl), h]

/-! ## Removing the other layers -/

theorem others_length {raw raw' : RawFile} (h : OthersRemoved raw raw') :
    (Doc.layers raw').length = (ordinaryLayers raw).length := by
  simpa using congrArg List.length h.layers

theorem others_removed {raw raw' : RawFile} (h : OthersRemoved raw raw') : NoTilemaps raw' := by
  intro d hd
  have : layerLook d ∈ (ordinaryLayers raw).map layerLook := h.layers ▸ List.mem_map_of_mem hd
  obtain ⟨c, hc, e⟩ := List.mem_map.1 this
  simp only [layerLook, Prod.mk.injEq] at e
  rw [← e.1]
  exact ordinary_type hc

theorem no_others {raw : RawFile} (h : NoTilemaps raw) : ordinaryLayers raw = Doc.layers raw := by
  rw [ordinaryLayers, List.filter_eq_self]
  intro c hc
  simpa using h c hc

theorem others_imageOf {raw raw' : RawFile} (h : OthersRemoved raw raw') {l : Nat} (hl : l < (ordinaryLayers raw).length)
    {c d : CelChunk} (hcd : d.content = c.content) : Doc.imageOf raw' l d = Doc.imageOf raw l c := by
  unfold Doc.imageOf
  rw [hcd]
  cases c.content with
  | linkedCel k =>
    have := h.cels k.toNat l
    rw [if_pos hl] at this
    exact restacked_own this
  | _ => rfl

theorem others_shown {raw raw' : RawFile} (h : OthersRemoved raw raw') (i : Nat) {l : Nat}
    (hl : l < (ordinaryLayers raw).length) : shown raw' i l = shown raw i l := by
  have hc := h.cels i l
  rw [if_pos hl] at hc
  unfold shown
  revert hc
  cases Doc.celOf raw i l <;> cases Doc.celOf raw' i l <;> intro hc <;> try cases hc
  · rfl
  · rename_i c d
    simp only [Option.map_some, Option.some.injEq, celPlace, Prod.mk.injEq] at hc
    obtain ⟨hx, hy, hcd⟩ := hc
    rw [Option.bind_some, Option.bind_some, hx, hy, others_imageOf h hl hcd]

theorem others_drawings {raw raw' : RawFile} (h : OthersRemoved raw raw') (sel : LayerSelection) (i : Nat) :
    ordinaryDrawings raw' sel i = ordinaryDrawings raw sel i := by
  unfold ordinaryDrawings
  rw [no_others (others_removed h), others_length h]
  refine List.filterMap_congr fun l hl => ?_
  have hl := List.mem_range.1 hl
  unfold ordinaryDrawing
  rw [no_others (others_removed h), others_shown h i hl]
  have e := congrArg (fun L : List _ => L[l]?) h.layers
  simp only [List.getElem?_map] at e
  cases h1 : (ordinaryLayers raw)[l]? with
  | none =>
    rw [h1] at e
    rw [Option.map_eq_none_iff.1 e]
  | some c =>
    rw [h1, Option.map_some] at e
    obtain ⟨d, h2, h3⟩ := Option.map_eq_some_iff.1 e
    rw [h2]
    cases shown raw i l with
    | none => rfl
    | some s =>
      simp only [layerLook, Prod.mk.injEq] at h3
      obtain ⟨e1, e2, e3, e4⟩ := h3
      have : drawsLayer sel l d = drawsLayer sel l c := by
        cases sel <;> simp only [drawsLayer, e1, e2]
      simp only [this, e3, e4]

/-- **C125.** For every file that loads, take out the layers that are neither normal layers nor groups, and the cels whose
layer number is not below the number of layers that are left; do not renumber the other cels.  That file loads too, has no
tilemap layers, is of the same size, has as many frames and as many layers as the sprite of the original, and every
frame is rendered alike: with every selection, on every buffer, with the same result (or error or panic). -/
theorem C125_others_removed (plat : Plat) (b b' : Bytes) (raw raw' : RawFile) (hr : parseRawFile plat b = .ok raw)
    (hr' : parseRawFile plat b' = .ok raw') (h : OthersRemoved raw raw') (f : AsepriteFile)
    (hf : AsepriteFile.load plat b = .ok f) :
    ∃ g, AsepriteFile.load plat b' = .ok g ∧ NoTilemaps raw' ∧ g.size = f.size ∧ g.frames.length = f.frames.length ∧
      g.layers.length = f.layers.length ∧ f.layers.length = (ordinaryLayers raw).length ∧
      ∀ (p : Plat) (inflate : Inflater) (i : Nat) (sel : LayerSelection) (t : Bytes),
        g.renderFrame p inflate i sel t = f.renderFrame p inflate i sel t := by
  have key : ∃ g, AsepriteFile.load plat b' = .ok g := by
    obtain ⟨hp, hidx, hres⟩ := (loads_doc hr).1 ⟨f, hf⟩
    rw [loads_doc hr']
    refine ⟨filePalette_canvas h.canvas ▸ hp, ?_, ?_⟩
    · intro fr' hfr c hc
      obtain ⟨j, hj⟩ := List.getElem?_of_mem hfr
      obtain ⟨d, hd⟩ := celOf_of_mem hj hc
      have hs := h.cels j c.layerIndex.toNat
      rw [hd, Option.map_some] at hs
      rw [layerCount_doc, others_length h]
      refine Classical.byContradiction fun hn => ?_
      rw [if_neg hn] at hs
      cases hs
    · intro j l d hd
      have hs := h.cels j l
      rw [hd, Option.map_some] at hs
      by_cases hl : l < (ordinaryLayers raw).length
      · rw [if_pos hl] at hs
        obtain ⟨c, hc, e⟩ := Option.map_eq_some_iff.1 hs.symm
        rw [others_imageOf h hl (c := c) (congrArg (fun p => p.2.2) e).symm]
        exact hres _ _ _ hc
      · rw [if_neg hl] at hs
        cases hs
  obtain ⟨g, hg⟩ := key
  obtain ⟨f1, f2⟩ := load_ok.1 hf
  obtain ⟨g1, g2⟩ := load_ok.1 hg
  have hP := parsed_of_parse hr f1
  have hQ := parsed_of_parse hr' g1
  have hsz : g.size = f.size := by
    simp only [AsepriteFile.size, hP.header, hQ.header]
    rw [show raw.header.width = raw'.header.width from congrArg Canvas.width h.canvas,
      show raw.header.height = raw'.header.height from congrArg Canvas.height h.canvas]
  have hfl : f.frames.length = raw.frames.length := by rw [(frames_of_load f2).1, hP.frames, List.length_map]
  have hgl : g.frames.length = raw'.frames.length := by rw [(frames_of_load g2).1, hQ.frames, List.length_map]
  have hlen : ∀ {plat : Plat} {b : Bytes} {raw : RawFile} (_ : parseRawFile plat b = .ok raw) {f : AsepriteFile}
      (_ : AsepriteFile.load plat b = .ok f), f.layers.length = (ordinaryLayers raw).length := by
    intro plat b raw hr f hf
    have e : ∀ l : Nat, f.layers.length ≤ l ↔ (ordinaryLayers raw).length ≤ l := by
      intro l
      rw [← List.getElem?_eq_none_iff, layers_ordinary hr hf, Option.map_eq_none_iff, List.getElem?_eq_none_iff]
    have h1 := (e f.layers.length).1 (Nat.le_refl _)
    have h2 := (e (ordinaryLayers raw).length).2 (Nat.le_refl _)
    omega
  refine ⟨g, hg, others_removed h, hsz, by rw [hfl, hgl, h.frames], ?_, hlen hr hf, ?_⟩
  · rw [hlen hr hf, hlen hr' hg, no_others (others_removed h), others_length h]
  · intro p inflate i sel t
    by_cases hi : i < raw.frames.length
    · exact render_ordinary plat b' b raw' raw hr' hr g f hg hf h.canvas.symm i i (h.frames ▸ hi) hi sel sel
        (others_drawings h sel i) p inflate t
    · rw [renderFrame_eq, renderFrame_eq, List.getElem?_eq_none (by rw [hgl, ← h.frames]; omega), List.getElem?_eq_none (by omega)]
      have hcb : canvasBytes g = canvasBytes f := by
        simp only [canvasBytes]
        rw [show g.file.header.width = f.file.header.width from congrArg Prod.fst hsz,
          show g.file.header.height = f.file.header.height from congrArg Prod.snd hsz]
      rw [hcb]

/-! ## Other layers on top -/

theorem on_top_drawings {raw : RawFile} (h : OthersOnTop raw) (sel : LayerSelection) (i : Nat) :
    ordinaryDrawings raw sel i = drawings raw sel i := by
  obtain ⟨others, ho⟩ := h
  have hothers : ∀ c ∈ others, c.layerType ≠ .normal := by
    have e := congrArg (List.filter fun c : LayerChunk => c.layerType = .normal || c.layerType = .group) ho
    rw [List.filter_append, ← ordinaryLayers, show (ordinaryLayers raw).filter (fun c : LayerChunk =>
      c.layerType = .normal || c.layerType = .group) = ordinaryLayers raw from
      List.filter_eq_self.2 fun c hc => (List.mem_filter.1 hc).2] at e
    have e := List.self_eq_append_right.1 e
    intro c hc hn
    have := List.filter_eq_nil_iff.1 e c hc
    simp [hn] at this
  rw [drawings_of, ordinaryDrawings]
  have hlow : ∀ l, l < (ordinaryLayers raw).length → drawingOf raw sel i l = ordinaryDrawing raw sel i l := by
    intro l hl
    unfold drawingOf ordinaryDrawing
    rw [ho, List.getElem?_append_left hl]
    rfl
  have hhigh : ∀ l, (ordinaryLayers raw).length ≤ l → drawingOf raw sel i l = none := by
    intro l hl
    cases hd : drawingOf raw sel i l with
    | none => rfl
    | some d =>
      obtain ⟨c, h1, h2, -⟩ := drawingOf_some hd
      rw [ho, List.getElem?_append_right hl] at h1
      unfold drawsLayer at h2
      rw [Bool.and_eq_true, decide_eq_true_eq] at h2
      exact absurd h2.1 (hothers c (List.mem_of_getElem? h1))
  rw [filterMap_range _ (ordinary_le raw) hhigh]
  exact (List.filterMap_congr fun l hl => hlow l (List.mem_range.1 hl)).symm

/-- **C125, on top.** As long as the layers of other types are above all normal layers and groups, they do no harm: the frame is rendered
from the images it draws on its own normal layers, as in C93 for files without such layers. -/
theorem C125_on_top (plat : Plat) (b b' : Bytes) (raw raw' : RawFile) (hr : parseRawFile plat b = .ok raw)
    (hr' : parseRawFile plat b' = .ok raw') (f g : AsepriteFile) (hf : AsepriteFile.load plat b = .ok f)
    (hg : AsepriteFile.load plat b' = .ok g) (ht : OthersOnTop raw) (ht' : OthersOnTop raw') (hc : canvas raw = canvas raw')
    (i j : Nat) (hi : i < raw.frames.length) (hj : j < raw'.frames.length) (sel sel' : LayerSelection)
    (h : drawings raw sel i = drawings raw' sel' j) (p : Plat) (inflate : Inflater) (t : Bytes) :
    f.renderFrame p inflate i sel t = g.renderFrame p inflate j sel' t :=
  render_ordinary plat b b' raw raw' hr hr' f g hf hg hc i j hi hj sel sel'
    (by rw [on_top_drawings ht, on_top_drawings ht', h]) p inflate t

/-! A tilemap layer below the layers A and B.  The cel numbered 2, which belongs to B in the file, is never drawn; the one
numbered 1, which belongs to A, is drawn with the opacity and blend mode of B. -/
def Sample.withOther : Bytes := Sample.header 2 1 32 ++ Sample.frame 1 [Sample.layer 1 2 0 255 [84],
  Sample.layer 1 0 0 255 [65], Sample.layer 1 0 1 99 [66], Sample.cel 1 0 0 1 1 [1, 2, 3, 255],
  Sample.cel 2 1 0 1 1 [9, 10, 11, 255]] ++ Sample.frame 1 [Sample.link 1 0, Sample.cel 0 1 0 1 1 [70, 80, 90, 200]]

def Sample.withoutOther : Bytes := Sample.header 2 1 32 ++ Sample.frame 1 [
  Sample.layer 1 0 0 255 [65], Sample.layer 1 0 1 99 [66], Sample.cel 1 0 0 1 1 [1, 2, 3, 255]] ++
  Sample.frame 1 [Sample.link 1 0, Sample.cel 0 1 0 1 1 [70, 80, 90, 200]]

/-- The hypotheses hold of them: beyond the third layer and the second frame there is nothing in either file. -/
example :
    (match parseRawFile ⟨true, 10⟩ Sample.withOther, parseRawFile ⟨true, 10⟩ Sample.withoutOther with
      | .ok raw, .ok raw' =>
        decide (canvas raw = canvas raw') && raw.frames.length == 2 && raw'.frames.length == 2 &&
        !decide (NoTilemaps raw) && decide ((Doc.layers raw').map layerLook = (ordinaryLayers raw).map layerLook) &&
        (ordinaryLayers raw).length == 2 &&
        (List.range 3).all (fun l => (List.range 2).all fun i => decide ((Doc.celOf raw' i l).map celPlace =
            if l < 2 then (Doc.celOf raw i l).map celPlace else none)) &&
        (Doc.celOf raw 0 2).isSome &&
        raw.frames.all (fun fr => (Doc.cels fr).all fun c => decide (c.layerIndex.toNat < 3)) &&
        raw'.frames.all (fun fr => (Doc.cels fr).all fun c => decide (c.layerIndex.toNat < 2))
      | _, _ => false) = true := by decide +kernel

example :
    let t := List.replicate 8 (9 : UInt8)
    ∃ t0 t1, Sample.render ⟨true, 10⟩ Sample.withOther 0 .all t = some (.ok (), t0) ∧
      Sample.render ⟨true, 10⟩ Sample.withoutOther 0 .all t = some (.ok (), t0) ∧
      Sample.render ⟨true, 10⟩ Sample.withOther 1 .visible t = some (.ok (), t1) ∧
      Sample.render ⟨true, 10⟩ Sample.withoutOther 1 .visible t = some (.ok (), t1) ∧
      t0 = [2, 3, 4, 105, 9, 9, 9, 9] ∧ t1 = [2, 3, 4, 105, 69, 79, 89, 202] := ⟨_, _, by decide +kernel, by decide +kernel, by decide +kernel, by decide +kernel, rfl, rfl⟩

/-- Here the tilemap layer is on top of the others, and nothing goes wrong. -/
example :
    (match parseRawFile ⟨true, 10⟩ (Sample.header 2 1 32 ++ Sample.frame 1 [Sample.layer 1 0 0 255 [65],
        Sample.layer 1 1 0 255 [66], Sample.layer 1 2 0 255 [84], Sample.cel 0 0 0 1 1 [1, 2, 3, 255]]) with
      | .ok raw => decide ((Doc.layers raw).map (·.name) = (ordinaryLayers raw).map (·.name) ++ ["T"]) &&
          !decide (NoTilemaps raw) && (drawings raw .all 0).length == 1
      | _ => false) = true := by decide +kernel

end Ase
