import Verif.Spec.Redraw
import Verif.Props.Drawn
import Verif.Props.Strokes

/-!
# C111: redrawing one cel
-/

namespace Ase

open Spec

theorem slot_filter (cs : List CelChunk) (p : CelChunk → Bool) (l : Nat)
    (h : ∀ c ∈ cs, c.layerIndex.toNat = l → p c = true) : slot (cs.filter p) l = slot cs l := by
  unfold slot
  rw [List.filter_filter]
  congr 1
  refine List.filter_congr fun c hc => ?_
  by_cases hl : c.layerIndex.toNat = l
  · simp [hl, h c hc hl]
  · simp [hl]

theorem redrawn_celOf {i l : Nat} {raw raw' : RawFile} (h : Redrawn i l raw raw') {j k : Nat} (hjk : ¬ (j = i ∧ k = l)) :
    (Doc.celOf raw j k).map celLook = (Doc.celOf raw' j k).map celLook := by
  have hn := h.frames
  unfold Doc.celOf
  by_cases hj : j < raw.frames.length
  · have e1 := List.getElem?_eq_getElem hj
    have e2 := List.getElem?_eq_getElem (hn ▸ hj)
    have := h.others j _ _ e1 e2
    rw [e1, e2, Option.bind_some, Option.bind_some]
    have key : ∀ cs : List CelChunk, slot (cs.filter fun c => ¬ (j = i ∧ c.layerIndex.toNat = l)) k = slot cs k := by
      intro cs
      refine slot_filter cs _ k fun c _ hc => ?_
      rw [hc]
      exact decide_eq_true hjk
    rw [← key, ← key (Doc.cels _)]
    exact slot_celLook this k
  · rw [List.getElem?_eq_none (Nat.le_of_not_lt hj), List.getElem?_eq_none (hn ▸ Nat.le_of_not_lt hj)]

theorem ownImage_look {o o' : Option CelChunk} (h : o.map celLook = o'.map celLook) : o.bind ownImage = o'.bind ownImage := by
  cases o with
  | none => cases o' with
    | none => rfl
    | some _ => cases h
  | some c => cases o' with
    | none => cases h
    | some d =>
      have := (celLook_fields (Option.some.inj h)).2.2.2
      show ownImage c = ownImage d
      unfold ownImage
      rw [this]

/-- Not the cel itself, and not a link to it. -/
theorem redrawn_imageOf {i l : Nat} {raw raw' : RawFile} (h : Redrawn i l raw raw') {k : Nat} {c d : CelChunk}
    (hcd : c.content = d.content) (hl : k = l → ∀ n, c.content = .linkedCel n → n.toNat ≠ i) :
    Doc.imageOf raw k c = Doc.imageOf raw' k d := by
  unfold Doc.imageOf
  rw [← hcd]
  cases hc : c.content with
  | linkedCel n =>
    exact ownImage_look (redrawn_celOf h fun ⟨h1, h2⟩ => hl h2 n hc h1)
  | _ => rfl

theorem redrawn_shown {i l : Nat} {raw raw' : RawFile} (h : Redrawn i l raw raw') {j k : Nat} (hjk : ¬ (j = i ∧ k = l))
    (hl : k = l → ∀ c n, Doc.celOf raw j k = some c → c.content = .linkedCel n → n.toNat ≠ i) :
    shown raw j k = shown raw' j k := by
  have hc := redrawn_celOf h hjk
  unfold shown
  cases h1 : Doc.celOf raw j k with
  | none =>
    rw [h1] at hc
    rw [Option.map_eq_none_iff.1 hc.symm]
    rfl
  | some c =>
    rw [h1] at hc
    obtain ⟨d, h2, h3⟩ := Option.map_eq_some_iff.1 hc.symm
    obtain ⟨-, ex, ey, ec⟩ := celLook_fields h3
    rw [h2, Option.bind_some, Option.bind_some, ex, ey,
      redrawn_imageOf h ec.symm fun hk n hn => hl hk c n h1 hn]

/-- **C111 (other frames).** Let two files that load differ in the cels on layer `l` of frame `i` only.  Every other frame,
unless it shows that cel by a link, is rendered as before: same result and same bytes, for every selection and buffer. -/
theorem C111_elsewhere (plat : Plat) (b b' : Bytes) (raw raw' : RawFile) (hr : parseRawFile plat b = .ok raw)
    (hr' : parseRawFile plat b' = .ok raw') (i l : Nat) (h : Redrawn i l raw raw') (f g : AsepriteFile)
    (hf : AsepriteFile.load plat b = .ok f) (hg : AsepriteFile.load plat b' = .ok g) (j : Nat)
    (hj : j < raw.frames.length) (hji : j ≠ i)
    (hl : ∀ c n, Doc.celOf raw j l = some c → c.content = .linkedCel n → n.toNat ≠ i)
    (p : Plat) (inflate : Inflater) (sel : LayerSelection) (t : Bytes) :
    f.renderFrame p inflate j sel t = g.renderFrame p inflate j sel t := by
  refine C92_shown plat b b' raw raw' hr hr' f g hf hg h.stage j j hj (h.frames ▸ hj) (fun k => ?_) p inflate sel t
  refine redrawn_shown h (fun hk => hji hk.1) fun hk c n => ?_
  rw [hk]
  exact hl c n

/-! ## The frames that show the cel -/

theorem range_split {l m : Nat} (h : l < m) :
    List.range m = List.range l ++ [l] ++ (List.range (m - l - 1)).map (l + 1 + ·) := by
  conv => lhs; rw [show m = l + 1 + (m - l - 1) by omega, List.range_add, List.range_succ]

/-- What the sprites of the two files have in common. -/
theorem redrawn_setting {plat : Plat} {b b' : Bytes} {raw raw' : RawFile} (hr : parseRawFile plat b = .ok raw)
    (hr' : parseRawFile plat b' = .ok raw') (hs : stage raw = stage raw') {f g : AsepriteFile}
    (hf : AsepriteFile.load plat b = .ok f) (hg : AsepriteFile.load plat b' = .ok g) :
    f.layers.map nameless = g.layers.map nameless ∧ f.file.palette = g.file.palette ∧ f.size = g.size ∧
      f.file.header.colorDepth = g.file.header.colorDepth ∧ f.frames.length = raw.frames.length ∧
      g.frames.length = raw'.frames.length := by
  obtain ⟨f1, f2⟩ := load_ok.1 hf
  obtain ⟨g1, g2⟩ := load_ok.1 hg
  have hP := parsed_of_parse hr f1
  have hQ := parsed_of_parse hr' g1
  refine ⟨?_, ?_, ?_, ?_, ?_, ?_⟩
  · rw [(ofFile_ok f2).2.1, (ofFile_ok g2).2.1, hP.layers, hQ.layers]
    exact toLLayers_look (allLayers_stage hs)
  · have := hP.palette
    rw [filePalette_stage hs, hQ.palette] at this
    exact (Outcome.ok.inj this).symm
  · simp only [AsepriteFile.size, hP.header, hQ.header]
    rw [show raw.header.width = raw'.header.width from congrArg Stage.width hs,
      show raw.header.height = raw'.header.height from congrArg Stage.height hs]
  · rw [hP.header, hQ.header]
    exact congrArg Stage.colorDepth hs
  · rw [(frames_of_load f2).1, hP.frames, List.length_map]
  · rw [(frames_of_load g2).1, hQ.frames, List.length_map]

/-- The drawn layer of a cel, without its name, is found by its number. -/
theorem drawnOn_nameless {f g : AsepriteFile} (hl : f.layers.map nameless = g.layers.map nameless) (sel : LayerSelection)
    {c d : FrameCel} (h : c.layerIndex = d.layerIndex) :
    (drawnOn f sel c).map nameless = (drawnOn g sel d).map nameless := by
  have := congrArg (fun L => L[c.layerIndex]?) hl
  simp only [List.getElem?_map] at this
  unfold drawnOn
  rw [← h]
  cases e1 : f.layers[c.layerIndex]? with
  | none =>
    rw [e1] at this
    rw [Option.map_eq_none_iff.1 this.symm]
  | some a =>
    rw [e1] at this
    obtain ⟨a', e2, e3⟩ := Option.map_eq_some_iff.1 this.symm
    rw [e2]
    have ht : a'.layerType = a.layerType := by
      have := congrArg LLayer.layerType e3
      simpa [nameless] using this
    have hv : a'.visible = a.visible := by
      have := congrArg LLayer.visible e3
      simpa [nameless] using this
    have hsel : Selects sel c.layerIndex a' ↔ Selects sel c.layerIndex a := by
      unfold Selects
      cases sel <;> simp [hv]
    dsimp only
    by_cases hc : a.layerType ≠ .group ∧ Selects sel c.layerIndex a
    · rw [if_pos hc, if_pos ⟨by rw [ht]; exact hc.1, hsel.2 hc.2⟩]
      exact congrArg some e3.symm
    · rw [if_neg hc, if_neg fun h' => hc ⟨by rw [← ht]; exact h'.1, hsel.1 h'.2⟩]

/-- The cels of the frame number `j` in the two sprites: the same up to and from layer `l`, and on layer `l` what is shown
there. -/
theorem redrawn_cels {plat : Plat} {b b' : Bytes} {raw raw' : RawFile} (hr : parseRawFile plat b = .ok raw)
    (hr' : parseRawFile plat b' = .ok raw') {i l : Nat} (h : Redrawn i l raw raw') {f g : AsepriteFile}
    (hf : AsepriteFile.load plat b = .ok f) (hg : AsepriteFile.load plat b' = .ok g) {j : Nat} {lf lg : LFrame}
    (hi : f.frames[j]? = some lf) (hj : g.frames[j]? = some lg) :
    ∃ low low' cs ds high high' : List FrameCel, lf.cels = low ++ cs ++ high ∧ lg.cels = low' ++ ds ++ high' ∧
      low.map (celFacts f) = low'.map (celFacts g) ∧ high.map (celFacts f) = high'.map (celFacts g) ∧
      cs.map (celFacts f) = ((shown raw j l).map (shownFacts l)).toList ∧
      ds.map (celFacts g) = ((shown raw' j l).map (shownFacts l)).toList := by
  let m := (allLayers raw.frames).length + (allLayers raw'.frames).length + l + 1
  have hm : l < m := by show l < _ + _ + l + 1; omega
  have e1 := cels_shown hr hf hi (show (allLayers raw.frames).length ≤ m by show _ ≤ _ + _ + l + 1; omega)
  have e2 := cels_shown hr' hg hj (show (allLayers raw'.frames).length ≤ m by show _ ≤ _ + _ + l + 1; omega)
  rw [range_split hm, List.filterMap_append, List.filterMap_append] at e1 e2
  have one : ∀ F : Nat → Option ((Int16 × Int16) × (UInt16 × UInt16) × Nat × Option Image),
      [l].filterMap F = (F l).toList := by
    intro F
    cases hF : F l with
    | none => rw [List.filterMap_cons_none hF]; rfl
    | some v => rw [List.filterMap_cons_some hF]; rfl
  rw [one] at e1 e2
  obtain ⟨a, high, h1, h2, h3⟩ := List.map_eq_append_iff.1 e1
  obtain ⟨low, cs, h4, h5, h6⟩ := List.map_eq_append_iff.1 h2
  obtain ⟨a', high', k1, k2, k3⟩ := List.map_eq_append_iff.1 e2
  obtain ⟨low', ds, k4, k5, k6⟩ := List.map_eq_append_iff.1 k2
  have hsame : ∀ k, k ≠ l → shown raw j k = shown raw' j k := fun k hk =>
    redrawn_shown h (fun hh => hk hh.2) fun hh => absurd hh hk
  refine ⟨low, low', cs, ds, high, high', by rw [h1, h4], by rw [k1, k4], ?_, ?_, h6, k6⟩
  · rw [h5, k5]
    refine List.filterMap_congr fun k hk => ?_
    rw [hsame k (by have := List.mem_range.1 hk; omega)]
  · rw [h3, k3]
    refine List.filterMap_congr fun k hk => ?_
    obtain ⟨x, -, rfl⟩ := List.mem_map.1 hk
    rw [hsame _ (by omega)]

theorem mem_facts {f : AsepriteFile} {l : Nat} {cs : List FrameCel} {o : Option (Int16 × Int16 × Image)}
    (h : cs.map (celFacts f) = (o.map (shownFacts l)).toList) {c : FrameCel} (hc : c ∈ cs) :
    ∃ s, o = some s ∧ celFacts f c = shownFacts l s := by
  have := List.mem_map_of_mem (f := celFacts f) hc
  rw [h] at this
  cases o with
  | none => simp at this
  | some s => exact ⟨s, rfl, by simpa using this⟩

theorem coveredBy_none {c : FrameCel} {f : AsepriteFile} {l : Nat} {s : Int16 × Int16 × Image}
    (h : celFacts f c = shownFacts l s) {x y : Nat} (hs : ¬ LiesOn s x y) : coveredBy c x y = none := by
  simp only [celFacts, shownFacts, Prod.mk.injEq] at h
  obtain ⟨ho, hz, -, -⟩ := h
  unfold coveredBy
  dsimp only
  rw [ho, hz]
  refine if_neg fun hc => hs ?_
  unfold LiesOn
  dsimp only at hc
  omega

/-- **C111 (pixels).** In any frame, also frame `i` and those linked to it, only those pixels can be different on which
what the frame shows on layer `l` lies, before or after the change. -/
theorem C111_pixels (plat : Plat) (b b' : Bytes) (raw raw' : RawFile) (hr : parseRawFile plat b = .ok raw)
    (hr' : parseRawFile plat b' = .ok raw') (i l : Nat) (h : Redrawn i l raw raw') (f g : AsepriteFile)
    (hf : AsepriteFile.load plat b = .ok f) (hg : AsepriteFile.load plat b' = .ok g) (j : Nat)
    (hj : j < raw.frames.length) (inflate : Inflater) (sel : LayerSelection) (t t' u' : Bytes)
    (ht : f.renderFrame plat inflate j sel t = (.ok (), t')) (hu : g.renderFrame plat inflate j sel t = (.ok (), u'))
    (x y : Nat) (hx : x < f.size.1.toNat) (hy : y < f.size.2.toNat)
    (hold : ∀ s, shown raw j l = some s → ¬ LiesOn s x y) (hnew : ∀ s, shown raw' j l = some s → ¬ LiesOn s x y) :
    canvasPixel f t' x y = canvasPixel g u' x y := by
  obtain ⟨hlay, hpal, hsz, hdep, hfl, hgl⟩ := redrawn_setting hr hr' h.stage hf hg
  have e1 := List.getElem?_eq_getElem (hfl ▸ hj)
  have e2 := List.getElem?_eq_getElem (show j < g.frames.length by rw [hgl, ← h.frames]; exact hj)
  obtain ⟨low, low', cs, ds, high, high', h1, h2, h3, h4, h5, h6⟩ := redrawn_cels hr hr' h hf hg e1 e2
  have hlooks : ∀ cs ds : List FrameCel, cs.map (celFacts f) = ds.map (celFacts g) →
      cs.map (celLooks f sel) = ds.map (celLooks g sel) := by
    intro cs
    induction cs with
    | nil => intro ds h; cases ds with | nil => rfl | cons _ _ => simp at h
    | cons c cs ih =>
      intro ds h
      cases ds with
      | nil => simp at h
      | cons d ds =>
        simp only [List.map_cons, List.cons.injEq] at h
        rw [List.map_cons, List.map_cons, ih ds h.2]
        congr 1
        have hfac := h.1
        simp only [celFacts, Prod.mk.injEq] at hfac
        obtain ⟨ho, hz, hli, him⟩ := hfac
        have hd := congrArg (Option.map fun a : LLayer => (a.blendMode, a.opacity)) (drawnOn_nameless hlay sel hli)
        simp only [Option.map_map] at hd
        unfold celLooks
        rw [ho, hz, him]
        exact Prod.ext hd rfl
  have hpx : canvasPixel f t x y = canvasPixel g t x y := by
    simp only [canvasPixel, show f.file.header.width = g.file.header.width from congrArg Prod.fst hsz]
  refine C77_damage plat b b' f g hf hg ⟨hdep, fun _ => hpal⟩ inflate j j _ _ e1 e2 sel sel t t' t u' ht hu low low' cs ds
    high high' h1 h2 (hlooks _ _ h3) (hlooks _ _ h4) x y hx hy (hsz ▸ hx) (hsz ▸ hy) hpx ?_ ?_
  · intro c hc
    obtain ⟨s, e, hs⟩ := mem_facts h5 hc
    exact .inr (coveredBy_none hs (hold s e))
  · intro c hc
    obtain ⟨s, e, hs⟩ := mem_facts h6 hc
    exact .inr (coveredBy_none hs (hnew s e))

/-- **C111 (hidden).** With layer `l` not drawn (it is a group, or not selected, or there is no such layer), nothing at all
is different in any frame: same result and same bytes. -/
theorem C111_hidden (plat : Plat) (b b' : Bytes) (raw raw' : RawFile) (hr : parseRawFile plat b = .ok raw)
    (hr' : parseRawFile plat b' = .ok raw') (i l : Nat) (h : Redrawn i l raw raw') (f g : AsepriteFile)
    (hf : AsepriteFile.load plat b = .ok f) (hg : AsepriteFile.load plat b' = .ok g) (sel : LayerSelection)
    (hl : ∀ layer, f.layers[l]? = some layer → layer.layerType = .group ∨ ¬ Selects sel l layer)
    (p : Plat) (inflate : Inflater) (j : Nat) (t : Bytes) :
    f.renderFrame p inflate j sel t = g.renderFrame p inflate j sel t := by
  obtain ⟨hlay, hpal, hsz, hdep, hfl, hgl⟩ := redrawn_setting hr hr' h.stage hf hg
  have hcb : canvasBytes f = canvasBytes g := by
    simp only [canvasBytes]
    rw [show f.file.header.width = g.file.header.width from congrArg Prod.fst hsz,
      show f.file.header.height = g.file.header.height from congrArg Prod.snd hsz]
  rw [renderFrame_eq, renderFrame_eq, hcb]
  by_cases htl : t.length < canvasBytes g
  · rw [if_pos htl, if_pos htl]
  rw [if_neg htl, if_neg htl]
  by_cases hj : j < raw.frames.length
  · have e1 := List.getElem?_eq_getElem (hfl ▸ hj)
    have e2 := List.getElem?_eq_getElem (show j < g.frames.length by rw [hgl, ← h.frames]; exact hj)
    obtain ⟨low, low', cs, ds, high, high', h1, h2, h3, h4, h5, h6⟩ := redrawn_cels hr hr' h hf hg e1 e2
    rw [e1, e2]
    dsimp only
    refine forEach_draws hsz hdep hpal p inflate sel sel _ _ _ (Nat.le_refl _) ?_ t
    have hdraws : ∀ cs ds : List FrameCel, cs.map (celFacts f) = ds.map (celFacts g) →
        cs.filterMap (cellDraw f sel) = ds.filterMap (cellDraw g sel) := by
      intro cs
      induction cs with
      | nil => intro ds h; cases ds with | nil => rfl | cons _ _ => simp at h
      | cons c cs ih =>
        intro ds h
        cases ds with
        | nil => simp at h
        | cons d ds =>
          simp only [List.map_cons, List.cons.injEq] at h
          have hfac := h.1
          simp only [celFacts, Prod.mk.injEq] at hfac
          obtain ⟨ho, hz, hli, him⟩ := hfac
          have hd := congrArg (Option.map fun a : LLayer => (c.origin, c.size, f.images[c.imageIndex]?, a.blendMode, a.opacity))
            (drawnOn_nameless hlay sel hli)
          simp only [Option.map_map] at hd
          have : cellDraw f sel c = cellDraw g sel d := by
            unfold cellDraw
            rw [← ho, ← hz, ← him]
            exact hd
          rw [List.filterMap_cons, List.filterMap_cons, this, ih ds h.2]
    have hnone : ∀ c : FrameCel, c.layerIndex = l → drawnOn f sel c = none := by
      intro c hc
      unfold drawnOn
      rw [hc]
      cases hla : f.layers[l]? with
      | none => rfl
      | some layer =>
        refine if_neg fun hn => ?_
        rcases hl layer hla with hh | hh
        · exact hn.1 hh
        · exact hh hn.2
    have hcs : cs.filterMap (cellDraw f sel) = [] := by
      rw [List.filterMap_eq_nil_iff]
      intro c hc
      obtain ⟨s, -, hs⟩ := mem_facts h5 hc
      simp only [celFacts, shownFacts, Prod.mk.injEq] at hs
      rw [cellDraw, hnone c hs.2.2.1]
      rfl
    have hds : ds.filterMap (cellDraw g sel) = [] := by
      rw [List.filterMap_eq_nil_iff]
      intro c hc
      obtain ⟨s, -, hs⟩ := mem_facts h6 hc
      simp only [celFacts, shownFacts, Prod.mk.injEq] at hs
      have := drawnOn_nameless hlay sel (c := c) (d := c) rfl
      rw [hnone c hs.2.2.1] at this
      rw [cellDraw, Option.map_eq_none_iff.1 this.symm]
      rfl
    rw [h1, h2]
    simp only [List.filterMap_append, hcs, hds, hdraws _ _ h3, hdraws _ _ h4]
  · rw [List.getElem?_eq_none (by rw [hfl]; exact Nat.le_of_not_lt hj),
      List.getElem?_eq_none (by rw [hgl, ← h.frames]; exact Nat.le_of_not_lt hj)]

/-! ## When the changed file loads -/

theorem layers_length (raw : RawFile) : (allLayers raw.frames).length = (Doc.layers raw).length := by
  simpa using congrArg List.length (allLayers_bare raw)

theorem cels_bound {i l j : Nat} {fr fr' : RawFrame} (h : otherCels i l j fr = otherCels i l j fr') {n : Nat}
    (hb : ∀ c ∈ Doc.cels fr, c.layerIndex.toNat < n) {c : CelChunk} (hc : c ∈ Doc.cels fr')
    (hcl : ¬ (j = i ∧ c.layerIndex.toNat = l)) : c.layerIndex.toNat < n := by
  have hm : celLook c ∈ otherCels i l j fr' :=
    List.mem_map_of_mem (List.mem_filter.2 ⟨hc, decide_eq_true hcl⟩)
  rw [← h] at hm
  obtain ⟨d, hd, e⟩ := List.mem_map.1 hm
  rw [← (celLook_fields e).1]
  exact hb d (List.mem_filter.1 hd).1

/-- **C111 (loads).** If the first file loads, the second one does just if the new cels lie on a layer of the sprite, the one
that counts shows an image, its own or a linked one, and the cels of other frames that are linked to it find an image of
its own in it. -/
theorem C111_loads (plat : Plat) (b b' : Bytes) (raw raw' : RawFile) (hr : parseRawFile plat b = .ok raw)
    (hr' : parseRawFile plat b' = .ok raw') (i l : Nat) (h : Redrawn i l raw raw') (f : AsepriteFile)
    (hf : AsepriteFile.load plat b = .ok f) :
    (∃ g, AsepriteFile.load plat b' = .ok g) ↔
      (∀ fr', raw'.frames[i]? = some fr' → ∀ c ∈ Doc.cels fr', c.layerIndex.toNat = l → l < (Doc.layers raw).length) ∧
      (∀ c, Doc.celOf raw' i l = some c → shown raw' i l ≠ none) ∧
      (∀ j c n, j ≠ i → Doc.celOf raw j l = some c → c.content = .linkedCel n → n.toNat = i →
        ∃ d im, Doc.celOf raw' i l = some d ∧ d.content = .image im) := by
  obtain ⟨hp, hidx, hres⟩ := (loads_doc hr).1 ⟨f, hf⟩
  rw [loads_doc hr']
  have hlay : (allLayers raw'.frames).length = (allLayers raw.frames).length := by
    simpa using (congrArg List.length (allLayers_stage h.stage)).symm
  have hn := h.frames
  rw [hlay]
  constructor
  · rintro ⟨-, h2, h3⟩
    refine ⟨?_, ?_, ?_⟩
    · intro fr' hfr c hc hcl
      have := h2 fr' (List.mem_of_getElem? hfr) c hc
      rw [hcl, layers_length] at this
      exact this
    · intro c hc
      obtain ⟨im, him⟩ := Option.isSome_iff_exists.1 (h3 i l c hc)
      rw [shown, hc, Option.bind_some, him]
      simp
    · intro j c n hj hc hcn hni
      have hl := redrawn_celOf h (j := j) (k := l) fun e => hj e.1
      rw [hc] at hl
      obtain ⟨d, h4, h5⟩ := Option.map_eq_some_iff.1 hl.symm
      have := h3 j l d h4
      rw [← imageOf_congr (celLook_fields h5).2.2.2.symm, Doc.imageOf, hcn] at this
      obtain ⟨im, him⟩ := Option.isSome_iff_exists.1 this
      obtain ⟨e, h6, h7⟩ := Option.bind_eq_some_iff.1 him
      exact ⟨e, im, hni ▸ h6, ownImage_some.1 h7⟩
  · rintro ⟨h1, h2, h3⟩
    refine ⟨filePalette_stage h.stage ▸ hp, ?_, ?_⟩
    · intro fr' hfr c hc
      obtain ⟨j, hj⟩ := List.getElem?_of_mem hfr
      by_cases hcl : j = i ∧ c.layerIndex.toNat = l
      · rw [hcl.2, layers_length]
        exact h1 fr' (hcl.1 ▸ hj) c hc hcl.2
      · have hlt : j < raw.frames.length := by
          rw [hn]; exact (List.getElem?_eq_some_iff.1 hj).1
        have e := List.getElem?_eq_getElem hlt
        exact cels_bound (h.others j _ _ e hj) (hidx _ (List.mem_of_getElem? e)) hc hcl
    · intro j k d hd
      by_cases hjk : j = i ∧ k = l
      · obtain ⟨rfl, rfl⟩ := hjk
        have := h2 d hd
        rw [shown, hd, Option.bind_some] at this
        cases him : Doc.imageOf raw' k d with
        | none => rw [him] at this; exact absurd rfl this
        | some _ => rfl
      · have hl := redrawn_celOf h hjk
        rw [hd] at hl
        obtain ⟨c, h4, h5⟩ := Option.map_eq_some_iff.1 hl
        have hcd := (celLook_fields h5).2.2.2
        by_cases hlink : k = l ∧ ∃ n, c.content = .linkedCel n ∧ n.toNat = i
        · obtain ⟨rfl, n, hn1, hn2⟩ := hlink
          obtain ⟨e, im, h6, h7⟩ := h3 j c n (fun e => hjk ⟨e, rfl⟩) h4 hn1 hn2
          rw [← imageOf_congr hcd, Doc.imageOf, hn1]
          dsimp only
          rw [hn2, h6, Option.bind_some, ownImage_some.2 h7]
          rfl
        · rw [← redrawn_imageOf h hcd fun hk n hn1 hn2 => hlink ⟨hk, n, hn1, hn2⟩]
          exact hres j k c h4

/-- **C111 (edits).** Exchanging cel chunks of one layer in the chunks of one frame for others of that layer is such a
change. -/
theorem C111_edit (raw raw' : RawFile) (i l : Nat) (before after : List RawFrame) (fr fr' : RawFrame)
    (first last : List Chunk) (olds news : List CelChunk) (hi : before.length = i)
    (h1 : raw.frames = before ++ fr :: after) (h2 : raw'.frames = before ++ fr' :: after)
    (h3 : fr.chunks = first ++ olds.map .cel ++ last) (h4 : fr'.chunks = first ++ news.map .cel ++ last)
    (hl : ∀ c ∈ olds ++ news, c.layerIndex.toNat = l) (hw : raw'.header.width = raw.header.width)
    (hh : raw'.header.height = raw.header.height) (hd : raw'.header.colorDepth = raw.header.colorDepth)
    (ht : raw'.header.transparentIndex = raw.header.transparentIndex) : Redrawn i l raw raw' := by
  have hcel : ∀ cs : List CelChunk, (cs.map Chunk.cel).filterMap setting = [] := by
    intro cs
    induction cs with
    | nil => rfl
    | cons c cs ih => rw [List.map_cons, List.filterMap_cons_none rfl, ih]
  have hcels : ∀ (a : RawFrame) (cs : List CelChunk), a.chunks = first ++ cs.map Chunk.cel ++ last →
      Doc.cels a = Doc.cels { a with chunks := first } ++ cs ++ Doc.cels { a with chunks := last } := by
    intro a cs ha
    unfold Doc.cels
    rw [ha, List.filterMap_append, List.filterMap_append]
    congr 2
    clear ha
    induction cs with
    | nil => rfl
    | cons c cs ih => simp only [List.map_cons, List.filterMap_cons, ih]
  refine ⟨?_, by rw [h1, h2]; simp, ?_⟩
  · simp only [stage, hw, hh, hd, ht, Stage.mk.injEq, true_and]
    rw [h1, h2]
    simp only [allChunks, List.flatMap_append, List.flatMap_cons, h3, h4, List.filterMap_append, hcel]
  · intro j a a' ha ha'
    rw [h1] at ha
    rw [h2] at ha'
    by_cases hj : j = i
    · subst hj
      rw [← hi, List.getElem?_append_right (Nat.le_refl _), Nat.sub_self, List.getElem?_cons_zero, Option.some.injEq] at ha ha'
      subst ha
      subst ha'
      have hgone : ∀ cs : List CelChunk, (∀ c ∈ cs, c.layerIndex.toNat = l) →
          cs.filter (fun c => decide (¬ (j = j ∧ c.layerIndex.toNat = l))) = [] := by
        intro cs hcs
        rw [List.filter_eq_nil_iff]
        intro c hc
        simp [hcs c hc]
      unfold otherCels
      rw [hcels _ _ h3, hcels _ _ h4, List.filter_append, List.filter_append, List.filter_append, List.filter_append,
        hgone olds fun c hc => hl c (List.mem_append_left _ hc), hgone news fun c hc => hl c (List.mem_append_right _ hc)]
      rfl
    · have : a = a' := by
        by_cases hlt : j < before.length
        · rw [List.getElem?_append_left hlt] at ha ha'
          rw [ha] at ha'
          exact Option.some.inj ha'
        · rw [List.getElem?_append_right (Nat.le_of_not_lt hlt)] at ha ha'
          obtain ⟨k, hk⟩ : ∃ k, j - before.length = k + 1 := ⟨j - before.length - 1, by omega⟩
          rw [hk, List.getElem?_cons_succ] at ha ha'
          rw [ha] at ha'
          exact Option.some.inj ha'
      rw [this]

/-! Frame 1 links to the cel of frame 0 on layer 1, frame 2 has cels of its own.  In the second file the cel of frame 0 is
larger, elsewhere and in another colour.  Both files load, and the condition of `C111_loads` holds. -/
def Sample.redraw (cel : Bytes) : Bytes := Sample.header 3 1 32 ++
  Sample.frame 9 [Sample.layer 1 0 0 255 [65], Sample.layer 1 0 0 255 [66], Sample.cel 0 0 0 1 1 [1, 2, 3, 255], cel] ++
  Sample.frame 9 [Sample.link 1 0] ++ Sample.frame 9 [Sample.cel 1 0 0 1 1 [7, 7, 7, 255]]

example :
    let one := Sample.redraw (Sample.cel 1 0 0 1 1 [9, 9, 9, 255])
    let two := Sample.redraw (Sample.cel 1 1 0 2 1 [5, 5, 5, 255, 6, 6, 6, 255])
    (match parseRawFile ⟨true, 10⟩ one, parseRawFile ⟨true, 10⟩ two with
      | .ok raw, .ok raw' => decide (stage raw = stage raw') && raw.frames.length == 3 && raw'.frames.length == 3 &&
          ((raw.frames.zip raw'.frames).zipIdx.all fun (p, j) => decide (otherCels 0 1 j p.1 = otherCels 0 1 j p.2)) &&
          decide ((Doc.celOf raw 2 1).map (·.content) = (Doc.celOf raw' 2 1).map (·.content)) &&
          decide ((Doc.celOf raw 1 1).map (·.content) = some (.linkedCel 0)) &&
          decide (shown raw 0 1 ≠ shown raw' 0 1) && (shown raw' 0 1).any (fun s => ! decide (LiesOn s 0 0)) &&
          (shown raw' 0 1).any (fun s => decide (LiesOn s 2 0))
      | _, _ => false) = true := by decide +kernel

/-! Frame 0 (and frame 1 likewise) is different, at the pixels where the old image was shown or the new one is (a link has a
position of its own); frame 2 is not. -/
example :
    let one := Sample.redraw (Sample.cel 1 0 0 1 1 [9, 9, 9, 255])
    let two := Sample.redraw (Sample.cel 1 1 0 2 1 [5, 5, 5, 255, 6, 6, 6, 255])
    let t := List.replicate 12 (0 : UInt8)
    Sample.render ⟨true, 10⟩ one 0 .visible t = some (.ok (), [9, 9, 9, 255, 0, 0, 0, 0, 0, 0, 0, 0]) ∧
    Sample.render ⟨true, 10⟩ two 0 .visible t = some (.ok (), [1, 2, 3, 255, 5, 5, 5, 255, 6, 6, 6, 255]) ∧
    Sample.render ⟨true, 10⟩ one 1 .visible t = some (.ok (), [9, 9, 9, 255, 0, 0, 0, 0, 0, 0, 0, 0]) ∧
    Sample.render ⟨true, 10⟩ two 1 .visible t = some (.ok (), [5, 5, 5, 255, 6, 6, 6, 255, 0, 0, 0, 0]) ∧
    Sample.render ⟨true, 10⟩ one 2 .visible t = Sample.render ⟨true, 10⟩ two 2 .visible t ∧
    Sample.render ⟨true, 10⟩ one 0 (.mask [true, false]) t = Sample.render ⟨true, 10⟩ two 0 (.mask [true, false]) t := by
  decide +kernel

end Ase
