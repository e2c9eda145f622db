import Verif.Spec.Eyes
import Verif.Props.Drawn

/-!
# C101: selecting layers is switching eyes
-/

namespace Ase

open Spec

theorem Spec.OtherEyes.symm {raw raw' : RawFile} (h : OtherEyes raw raw') : OtherEyes raw' raw :=
  ⟨h.canvas.symm, h.layers.symm, h.cels.symm⟩

theorem celOf_eyes {raw raw' : RawFile} (h : OtherEyes raw raw') (i l : Nat) :
    (Doc.celOf raw i l).map celLook = (Doc.celOf raw' i l).map celLook := by
  have hi := congrArg (fun l => l[i]?) h.cels
  simp only [List.getElem?_map] at hi
  unfold Doc.celOf
  cases h1 : raw.frames[i]? with
  | none =>
    rw [h1] at hi
    cases h2 : raw'.frames[i]? with
    | none => rfl
    | some fr => rw [h2] at hi; cases hi
  | some fr =>
    rw [h1] at hi
    cases h2 : raw'.frames[i]? with
    | none => rw [h2] at hi; cases hi
    | some fr' =>
      rw [h2] at hi
      simp only [Option.map_some, Option.some.injEq] at hi
      exact slot_celLook hi l

theorem imageOf_eyes {raw raw' : RawFile} (h : OtherEyes raw raw') (l : Nat) {c c' : CelChunk}
    (hc : c.content = c'.content) : Doc.imageOf raw l c = Doc.imageOf raw' l c' := by
  rw [imageOf_congr hc]
  unfold Doc.imageOf
  cases c'.content with
  | linkedCel k =>
    have hk := celOf_eyes h k.toNat l
    dsimp only
    cases h1 : Doc.celOf raw k.toNat l with
    | none => rw [h1] at hk; rw [Option.map_eq_none_iff.1 hk.symm]
    | some d =>
      rw [h1] at hk
      obtain ⟨d', h2, h3⟩ := Option.map_eq_some_iff.1 hk.symm
      rw [h2, Option.bind_some, Option.bind_some]
      have he := (celLook_fields h3).2.2.2
      cases ho : ownImage d with
      | none =>
        cases ho' : ownImage d' with
        | none => rfl
        | some im => rw [ownImage_some, he, ← ownImage_some, ho] at ho'; cases ho'
      | some im => rw [ownImage_some, ← he, ← ownImage_some] at ho; exact ho.symm
  | _ => rfl

theorem shown_eyes {raw raw' : RawFile} (h : OtherEyes raw raw') (i l : Nat) : shown raw i l = shown raw' i l := by
  have hk := celOf_eyes h i l
  unfold shown
  cases h1 : Doc.celOf raw i l with
  | none => rw [h1] at hk; rw [Option.map_eq_none_iff.1 hk.symm]; rfl
  | some c =>
    rw [h1] at hk
    obtain ⟨c', h2, h3⟩ := Option.map_eq_some_iff.1 hk.symm
    obtain ⟨-, e1, e2, e3⟩ := celLook_fields h3
    rw [h2, Option.bind_some, Option.bind_some, imageOf_eyes h l e3.symm, e1, e2]

theorem layers_length (raw : RawFile) : (allLayers raw.frames).length = (Doc.layers raw).length := by
  simpa using congrArg List.length (allLayers_bare raw)

theorem loads_eyes {plat : Plat} {b b' : Bytes} {raw raw' : RawFile} (hr : parseRawFile plat b = .ok raw)
    (hr' : parseRawFile plat b' = .ok raw') (h : OtherEyes raw raw') (hf : ∃ f, AsepriteFile.load plat b = .ok f) :
    ∃ g, AsepriteFile.load plat b' = .ok g := by
  obtain ⟨hp, hidx, hres⟩ := (loads_doc hr).1 hf
  refine (loads_doc hr').2 ⟨filePalette_canvas h.canvas ▸ hp, ?_, ?_⟩
  · intro fr' hfr' c' hc'
    have hm : (Doc.cels fr').map celLook ∈ raw.frames.map fun fr => (Doc.cels fr).map celLook := by
      rw [h.cels]
      exact List.mem_map_of_mem hfr'
    obtain ⟨fr, h1, h2⟩ := List.mem_map.1 hm
    have hm2 : celLook c' ∈ (Doc.cels fr).map celLook := by
      rw [h2]
      exact List.mem_map_of_mem hc'
    obtain ⟨c, h3, h4⟩ := List.mem_map.1 hm2
    rw [← (celLook_fields h4).1, layers_length, ← List.length_map (f := layerPaint), ← h.layers, List.length_map,
      ← layers_length]
    exact hidx fr h1 c h3
  · intro i l c' hc'
    have hk := celOf_eyes h i l
    rw [hc'] at hk
    obtain ⟨c, h2, h3⟩ := Option.map_eq_some_iff.1 hk
    rw [← imageOf_eyes h l (celLook_fields h3).2.2.2]
    exact hres i l c h2

/-- A layer of the loaded sprite without its name and eye. -/
def eyeless (l : LLayer) : LayerType × BlendMode × UInt8 := (l.layerType, l.blendMode, l.opacity)

theorem toLLayers_eyes : ∀ {l m : List LayerChunk}, l.map layerPaint = m.map layerPaint →
    (l.filterMap toLLayer).map eyeless = (m.filterMap toLLayer).map eyeless := by
  have key : ∀ l : List LayerChunk, (l.filterMap toLLayer).map eyeless =
      (l.map layerPaint).filter fun k => k.1 = .normal ∨ k.1 = .group := by
    intro l
    induction l with
    | nil => rfl
    | cons a l ih =>
      rw [List.filterMap_cons, List.map_cons, List.filter_cons]
      by_cases h : a.layerType = .normal ∨ a.layerType = .group
      · rw [if_pos (show decide ((layerPaint a).1 = .normal ∨ (layerPaint a).1 = .group) = true from decide_eq_true h)]
        simp only [toLLayer, if_pos h, List.map_cons, ih, layerPaint, eyeless]
      · rw [if_neg (fun (k : decide ((layerPaint a).1 = .normal ∨ (layerPaint a).1 = .group) = true) => h (of_decide_eq_true k))]
        simp only [toLLayer, if_neg h, ih]
  intro l m h
  rw [key, key, h]

theorem layers_eyes {plat : Plat} {b b' : Bytes} {raw raw' : RawFile} (hr : parseRawFile plat b = .ok raw)
    (hr' : parseRawFile plat b' = .ok raw') (h : OtherEyes raw raw') {f g : AsepriteFile}
    (hf : AsepriteFile.load plat b = .ok f) (hg : AsepriteFile.load plat b' = .ok g) :
    f.layers.map eyeless = g.layers.map eyeless := by
  obtain ⟨f1, f2⟩ := load_ok.1 hf
  obtain ⟨g1, g2⟩ := load_ok.1 hg
  have key : ∀ raw : RawFile, ((allLayers raw.frames).filterMap toLLayer).map eyeless =
      ((Doc.layers raw).filterMap toLLayer).map eyeless := by
    intro raw
    have := congrArg (List.filterMap toLLayer) (allLayers_bare raw)
    simp only [List.filterMap_map, Function.comp_def, toLLayer_bare] at this
    rw [this]
  rw [(ofFile_ok f2).2.1, (ofFile_ok g2).2.1, (parsed_of_parse hr f1).layers, (parsed_of_parse hr' g1).layers, key, key]
  exact toLLayers_eyes h.layers

/-- **C101.** Let two files differ in nothing that is painted but in which layers are marked visible (names, user data and
the rest may differ as well).  If one of them loads, so does the other, with as many layers and frames and the same size;
and if a selection takes the same layers of the one as a selection, in general another one, takes of the other, groups
apart, then rendering any frame of both with these selections gives the same result and leaves the same buffer. -/
theorem C101_eyes (plat : Plat) (b b' : Bytes) (raw raw' : RawFile) (hr : parseRawFile plat b = .ok raw)
    (hr' : parseRawFile plat b' = .ok raw') (h : OtherEyes raw raw') (f : AsepriteFile)
    (hf : AsepriteFile.load plat b = .ok f) :
    ∃ g, AsepriteFile.load plat b' = .ok g ∧ g.size = f.size ∧ g.frames.length = f.frames.length ∧
      g.layers.length = f.layers.length ∧
      ∀ sel sel', (∀ (l : Nat) (layer layer' : LLayer), f.layers[l]? = some layer → g.layers[l]? = some layer' →
          layer.layerType ≠ .group → (Selects sel l layer ↔ Selects sel' l layer')) →
        ∀ (p : Plat) (inflate : Inflater) (i : Nat) (t : Bytes),
          g.renderFrame p inflate i sel' t = f.renderFrame p inflate i sel t := by
  obtain ⟨g, hg⟩ := loads_eyes hr hr' h ⟨f, hf⟩
  obtain ⟨f1, f2⟩ := load_ok.1 hf
  obtain ⟨g1, g2⟩ := load_ok.1 hg
  have hP := parsed_of_parse hr f1
  have hQ := parsed_of_parse hr' g1
  have hfr : raw.frames.length = raw'.frames.length := by simpa using congrArg List.length h.cels
  have hfl : f.frames.length = raw.frames.length := by rw [(frames_of_load f2).1, hP.frames, List.length_map]
  have hgl : g.frames.length = raw'.frames.length := by rw [(frames_of_load g2).1, hQ.frames, List.length_map]
  have hlay := layers_eyes hr hr' h hf hg
  have hll : g.layers.length = f.layers.length := by simpa using (congrArg List.length hlay).symm
  have hpal : g.file.palette = f.file.palette := by
    have := hP.palette
    rw [filePalette_canvas h.canvas, hQ.palette] at this
    exact Outcome.ok.inj this
  have hsz : g.size = f.size := by
    simp only [AsepriteFile.size, hP.header, hQ.header]
    rw [show raw.header.width = raw'.header.width from congrArg Canvas.width h.canvas,
      show raw.header.height = raw'.header.height from congrArg Canvas.height h.canvas]
  have hdep : g.file.header.colorDepth = f.file.header.colorDepth := by
    rw [hP.header, hQ.header]
    exact (congrArg Canvas.colorDepth h.canvas).symm
  refine ⟨g, hg, hsz, by omega, hll, fun sel sel' hsel p inflate i t => ?_⟩
  have hcb : canvasBytes g = canvasBytes f := by
    simp only [canvasBytes]
    rw [show g.file.header.width = f.file.header.width from congrArg Prod.fst hsz,
      show g.file.header.height = f.file.header.height from congrArg Prod.snd hsz]
  rw [renderFrame_eq, renderFrame_eq, hcb]
  by_cases hi : i < f.frames.length
  · have hj : i < g.frames.length := by omega
    rw [List.getElem?_eq_getElem hi, List.getElem?_eq_getElem hj]
    split
    · rfl
    · refine forEach_draws hsz hdep hpal p inflate sel' sel _ _ _ (Nat.le_refl _) ?_ t
      have hm : (allLayers raw'.frames).length = (allLayers raw.frames).length := by
        rw [layers_length, layers_length, ← List.length_map (f := layerPaint), ← h.layers, List.length_map]
      have e1 := cels_shown hr hf (List.getElem?_eq_getElem hi) (Nat.le_refl _)
      have e2 := cels_shown hr' hg (List.getElem?_eq_getElem hj) (Nat.le_of_eq hm)
      simp only [← shown_eyes h] at e2
      have e3 : (g.frames[i]).cels.map (celFacts g) = (f.frames[i]).cels.map (celFacts f) := e2.trans e1.symm
      show List.filterMap (drawOf g sel' ∘ celFacts g) _ = List.filterMap (drawOf f sel ∘ celFacts f) _
      rw [← List.filterMap_map, ← List.filterMap_map, e3]
      congr 1
      funext v
      have hv : f.layers[v.2.2.1]?.map eyeless = g.layers[v.2.2.1]?.map eyeless := by
        have := congrArg (·[v.2.2.1]?) hlay
        simpa only [List.getElem?_map] using this
      unfold drawOf
      cases hx : f.layers[v.2.2.1]? with
      | none => rw [hx] at hv; rw [Option.map_eq_none_iff.1 hv.symm]
      | some layer =>
        rw [hx] at hv
        obtain ⟨layer', hy, he⟩ := Option.map_eq_some_iff.1 hv.symm
        simp only [eyeless, Prod.mk.injEq] at he
        obtain ⟨h1, h2, h3⟩ := he
        rw [hy]
        have hiff : (layer'.layerType ≠ .group ∧ Selects sel' v.2.2.1 layer') ↔
            (layer.layerType ≠ .group ∧ Selects sel v.2.2.1 layer) := by
          rw [h1]
          refine and_congr_right fun hgr => (hsel _ layer layer' hx hy hgr).symm
        by_cases hc : layer.layerType ≠ .group ∧ Selects sel v.2.2.1 layer
        · simp only [if_pos hc, if_pos (hiff.2 hc), Option.map_some, h2, h3]
        · simp only [if_neg hc, if_neg (fun k => hc (hiff.1 k))]
  · rw [List.getElem?_eq_none (by omega), List.getElem?_eq_none (by omega)]

/-- **C101 (masks).** Selecting layers by a mask is switching their eyes in the editor: if the layers marked visible in the
second file are those the mask takes, groups apart, then its visible layers are rendered like the masked ones of the
first file.  (The files have no tilemap layers: with these, the numbers of a mask are not those of the file, see C34.) -/
theorem C101_mask (plat : Plat) (b b' : Bytes) (raw raw' : RawFile) (hr : parseRawFile plat b = .ok raw)
    (hr' : parseRawFile plat b' = .ok raw') (h : OtherEyes raw raw') (ht : NoTilemaps raw) (m : List Bool)
    (hm : ∀ (l : Nat) (c : LayerChunk), (Doc.layers raw')[l]? = some c → c.layerType ≠ .group →
      (c.flags.bits &&& 1 = 1 ↔ m[l]? = some true))
    (f : AsepriteFile) (hf : AsepriteFile.load plat b = .ok f) :
    ∃ g, AsepriteFile.load plat b' = .ok g ∧ ∀ (p : Plat) (inflate : Inflater) (i : Nat) (t : Bytes),
      g.renderFrame p inflate i .visible t = f.renderFrame p inflate i (.mask m) t := by
  obtain ⟨g, hg, -, -, -, hren⟩ := C101_eyes plat b b' raw raw' hr hr' h f hf
  refine ⟨g, hg, hren (.mask m) .visible fun l layer layer' h1 h2 h3 => ?_⟩
  have ht' : NoTilemaps raw' := by
    intro c hc
    have : layerPaint c ∈ (Doc.layers raw).map layerPaint := by
      rw [h.layers]
      exact List.mem_map_of_mem hc
    obtain ⟨d, hd, he⟩ := List.mem_map.1 this
    have hty : d.layerType = c.layerType := congrArg Prod.fst he
    rw [← hty]
    exact ht d hd
  have hl := congrArg (·[l]?) (layers_eyes hr hr' h hf hg)
  simp only [List.getElem?_map, h1, h2, Option.map_some, Option.some.injEq, eyeless, Prod.mk.injEq] at hl
  rw [layers_doc hr' hg ht' l] at h2
  obtain ⟨c, hc, rfl⟩ := Option.map_eq_some_iff.1 h2
  have hv : (c.flags.contains LayerFlags.VISIBLE = true) ↔ c.flags.bits &&& 1 = 1 := decide_eq_true_iff
  unfold Selects
  dsimp only
  rw [hv]
  exact (hm l c hc (by rw [← show layer.layerType = c.layerType from hl.1]; exact h3)).symm

/-- **C101 (other selections).** With all layers selected, or by masks, eyes do not matter. -/
theorem C101_ignored (plat : Plat) (b b' : Bytes) (raw raw' : RawFile) (hr : parseRawFile plat b = .ok raw)
    (hr' : parseRawFile plat b' = .ok raw') (h : OtherEyes raw raw') (sel : LayerSelection) (hsel : sel ≠ .visible)
    (f : AsepriteFile) (hf : AsepriteFile.load plat b = .ok f) :
    ∃ g, AsepriteFile.load plat b' = .ok g ∧ ∀ (p : Plat) (inflate : Inflater) (i : Nat) (t : Bytes),
      g.renderFrame p inflate i sel t = f.renderFrame p inflate i sel t := by
  obtain ⟨g, hg, -, -, -, hren⟩ := C101_eyes plat b b' raw raw' hr hr' h f hf
  refine ⟨g, hg, hren sel sel fun l layer layer' _ _ _ => ?_⟩
  cases sel with
  | visible => exact absurd rfl hsel
  | all => exact Iff.rfl
  | mask m => exact Iff.rfl

/-! Three layers, the second a group, and two frames, the second with a link.  In the first file the first layer and the
group are visible, in the second one the third layer (under another name): this is what the mask [false, true, true]
takes. -/
example :
    let file (v0 v1 v2 : UInt16) (n : UInt8) := Sample.header 2 1 32 ++ Sample.frame 100 [Sample.layer v0 0 0 255 [65],
      Sample.layer v1 1 0 255 [66], Sample.layer v2 0 0 200 [n], Sample.cel 0 0 0 1 1 [1, 2, 3, 4],
      Sample.cel 2 1 0 1 1 [9, 10, 11, 12]] ++ Sample.frame 5 [Sample.link 2 0]
    let m := [false, true, true]
    (match parseRawFile ⟨true, 10⟩ (file 1 1 0 67), parseRawFile ⟨true, 10⟩ (file 0 0 1 68) with
      | .ok raw, .ok raw' => decide (OtherEyes raw raw') && decide (NoTilemaps raw) &&
          decide (look raw ≠ look raw') &&
          (Doc.layers raw').zipIdx.all fun (c, l) => c.layerType == .group || decide (c.flags.bits &&& 1 = 1) == (m[l]? == some true)
      | _, _ => false) = true ∧
    Sample.render ⟨true, 10⟩ (file 1 1 0 67) 1 (.mask m) (List.replicate 8 0) =
      Sample.render ⟨true, 10⟩ (file 0 0 1 68) 1 .visible (List.replicate 8 0) ∧
    Sample.render ⟨true, 10⟩ (file 1 1 0 67) 1 (.mask m) (List.replicate 8 0) ≠
      Sample.render ⟨true, 10⟩ (file 1 1 0 67) 1 .visible (List.replicate 8 0) := by
  decide +kernel

end Ase
