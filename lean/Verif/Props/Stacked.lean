import Verif.Spec.Stacked
import Verif.Props.Edited

/-!
# C137: sprites drawn on top of each other
-/

namespace Ase

open Spec

theorem sameCanvas_loaded {plat : Plat} {b b' : Bytes} {raw raw' : RawFile} (hr : parseRawFile plat b = .ok raw)
    (hr' : parseRawFile plat b' = .ok raw') {f g : AsepriteFile} (hf : AsepriteFile.load plat b = .ok f)
    (hg : AsepriteFile.load plat b' = .ok g) (h : SameCanvas raw raw') :
    f.size = g.size ∧ f.file.header.colorDepth = g.file.header.colorDepth ∧ f.file.palette = g.file.palette := by
  obtain ⟨f1, f2⟩ := load_ok.1 hf
  obtain ⟨g1, g2⟩ := load_ok.1 hg
  have hP := parsed_of_parse hr f1
  have hQ := parsed_of_parse hr' g1
  obtain ⟨h1, h2, h3, h4⟩ := h
  have hd : f.file.header.colorDepth = g.file.header.colorDepth := by rw [hP.header, hQ.header, h3]
  refine ⟨by simp only [AsepriteFile.size, hP.header, hQ.header, h1, h2], hd, ?_⟩
  by_cases hi : raw.header.colorDepth = .indexed
  · have := hP.palette
    rw [filePalette_canvas (h4 hi), hQ.palette] at this
    exact (Outcome.ok.inj this).symm
  · have no : ∀ {bs : Bytes} {file : File}, parseFile plat bs = .ok file → file.header.colorDepth ≠ .indexed →
        file.palette = none := by
      intro bs file hp hn
      cases hpal : file.palette with
      | none => rfl
      | some p => exact absurd ((C22_palette_iff_indexed plat bs file hp).1 (by rw [hpal]; rfl)) hn
    rw [no f1 (by rw [hP.header]; exact hi), no g1 (by rw [← hd, hP.header]; exact hi)]

/-- **C137.** Suppose frame `k` of a sprite draws what frame `i` of a second one draws and then what frame `j` of a third
one draws, all on the same canvas.  Then rendering it does the same as rendering the second one's frame and, if that
succeeds, the third one's frame into the same buffer.  (The files have no tilemap layers, for which see C34.) -/
theorem C137_drawings (plat : Plat) (b₁ b₂ b₃ : Bytes) (low high both : RawFile) (h₁ : parseRawFile plat b₁ = .ok low)
    (h₂ : parseRawFile plat b₂ = .ok high) (h₃ : parseRawFile plat b₃ = .ok both) (f g s : AsepriteFile)
    (hf : AsepriteFile.load plat b₁ = .ok f) (hg : AsepriteFile.load plat b₂ = .ok g)
    (hs : AsepriteFile.load plat b₃ = .ok s) (t₁ : NoTilemaps low) (t₂ : NoTilemaps high) (t₃ : NoTilemaps both)
    (c₁ : SameCanvas both low) (c₂ : SameCanvas both high) (i j k : Nat) (hi : i < low.frames.length)
    (hj : j < high.frames.length) (hk : k < both.frames.length) (sel₁ sel₂ sel : LayerSelection)
    (h : drawings both sel k = drawings low sel₁ i ++ drawings high sel₂ j) (p : Plat) (inflate : Inflater) (t : Bytes) :
    s.renderFrame p inflate k sel t =
      match f.renderFrame p inflate i sel₁ t with
      | (.ok (), t') => g.renderFrame p inflate j sel₂ t'
      | failure => failure := by
  have len : ∀ {bs : Bytes} {raw : RawFile} {u : AsepriteFile}, parseRawFile plat bs = .ok raw →
      AsepriteFile.load plat bs = .ok u → u.frames.length = raw.frames.length := by
    intro bs raw u hr hu
    obtain ⟨u1, u2⟩ := load_ok.1 hu
    rw [(frames_of_load u2).1, (parsed_of_parse hr u1).frames, List.length_map]
  obtain ⟨a1, a2, a3⟩ := sameCanvas_loaded h₃ h₁ hs hf c₁
  obtain ⟨d1, d2, d3⟩ := sameCanvas_loaded h₃ h₂ hs hg c₂
  have cb : ∀ {u v : AsepriteFile}, u.size = v.size → canvasBytes u = canvasBytes v := by
    intro u v he
    simp only [canvasBytes]
    rw [show u.file.header.width = v.file.header.width from congrArg Prod.fst he,
      show u.file.header.height = v.file.header.height from congrArg Prod.snd he]
  have hi' : i < f.frames.length := by rw [len h₁ hf]; exact hi
  have hj' : j < g.frames.length := by rw [len h₂ hg]; exact hj
  have hk' : k < s.frames.length := by rw [len h₃ hs]; exact hk
  have ef := renderFrame_eq p inflate f i sel₁ t
  have es := renderFrame_eq p inflate s k sel t
  rw [List.getElem?_eq_getElem hi', ← cb a1] at ef
  rw [List.getElem?_eq_getElem hk'] at es
  by_cases hl : t.length < canvasBytes s
  · rw [if_pos hl] at ef es
    rw [ef, es]
  · rw [if_neg hl] at ef es
    have hcel := cels_drawings h₃ hs t₃ (List.getElem?_eq_getElem hk') sel
    rw [h, List.map_append, ← cels_drawings h₁ hf t₁ (List.getElem?_eq_getElem hi') sel₁,
      ← cels_drawings h₂ hg t₂ (List.getElem?_eq_getElem hj') sel₂] at hcel
    obtain ⟨cs, ds, hcd, e1, e2⟩ := List.filterMap_eq_append_iff.1 hcel
    have r1 := forEach_draws a1 a2 a3 p inflate sel sel₁ _ cs _ (Nat.le_refl _) e1 t
    dsimp only at ef es
    rw [es, hcd, forEach_append, r1, ← ef]
    have hlen : (f.renderFrame p inflate i sel₁ t).2.length = t.length :=
      (C110_buffer p f (typed_of_load hf) inflate i sel₁ t).2.2.2.1
    revert hlen
    rcases f.renderFrame p inflate i sel₁ t with ⟨_ | _ | _, t'⟩ <;> intro hlen
    · dsimp only at hlen ⊢
      rw [forEach_draws d1 d2 d3 p inflate sel sel₂ _ ds _ (Nat.le_refl _) e2 t', renderFrame_eq p inflate g j sel₂ t',
        List.getElem?_eq_getElem hj', ← cb d1, hlen, if_neg hl]
    · rfl
    · rfl

/-- **C137 (layers).** A sprite that has the layers of a first one and above them those of a second one is rendered by
rendering the first one and then the second one into the same buffer: with the visible layers of all three, and with all
layers of all three. -/
theorem C137_layers (plat : Plat) (b₁ b₂ b₃ : Bytes) (low high both : RawFile) (h₁ : parseRawFile plat b₁ = .ok low)
    (h₂ : parseRawFile plat b₂ = .ok high) (h₃ : parseRawFile plat b₃ = .ok both) (f g s : AsepriteFile)
    (hf : AsepriteFile.load plat b₁ = .ok f) (hg : AsepriteFile.load plat b₂ = .ok g)
    (hs : AsepriteFile.load plat b₃ = .ok s) (t₁ : NoTilemaps low) (t₂ : NoTilemaps high) (t₃ : NoTilemaps both)
    (c₁ : SameCanvas both low) (c₂ : SameCanvas both high) (i j k : Nat) (hi : i < low.frames.length)
    (hj : j < high.frames.length) (hk : k < both.frames.length) (h : StackedOn low high both i j k) (sel : LayerSelection)
    (hsel : sel = .visible ∨ sel = .all) (p : Plat) (inflate : Inflater) (t : Bytes) :
    s.renderFrame p inflate k sel t =
      match f.renderFrame p inflate i sel t with
      | (.ok (), t') => g.renderFrame p inflate j sel t'
      | failure => failure := by
  refine C137_drawings plat b₁ b₂ b₃ low high both h₁ h₂ h₃ f g s hf hg hs t₁ t₂ t₃ c₁ c₂ i j k hi hj hk sel sel sel ?_
    p inflate t
  obtain ⟨hl, s1, s2⟩ := h
  have hlen : (Doc.layers both).length = (Doc.layers low).length + (Doc.layers high).length := by
    simpa using congrArg List.length hl
  have one : ∀ {raw : RawFile} {m l l' : Nat}, ((Doc.layers both)[l]?).map layerLook = ((Doc.layers raw)[l']?).map layerLook →
      shown both k l = shown raw m l' →
      (match (Doc.layers both)[l]?, shown both k l with
        | some c, some (x, y, im) =>
          if drawsLayer sel l c then some (⟨x, y, im, c.blendMode, c.opacity⟩ : Drawing) else none
        | _, _ => none) =
      (match (Doc.layers raw)[l']?, shown raw m l' with
        | some c, some (x, y, im) => if drawsLayer sel l' c then some ⟨x, y, im, c.blendMode, c.opacity⟩ else none
        | _, _ => none) := by
    intro raw m l l' e es
    rw [es]
    cases e1 : (Doc.layers both)[l]? with
    | none =>
      rw [e1] at e
      rw [Option.map_eq_none_iff.1 e.symm]
    | some c =>
      rw [e1, Option.map_some] at e
      obtain ⟨d, e2, e3⟩ := Option.map_eq_some_iff.1 e.symm
      rw [e2]
      simp only [layerLook, Prod.mk.injEq] at e3
      obtain ⟨l1, l2, l3, l4⟩ := e3
      have hd : drawsLayer sel l c = drawsLayer sel l' d := by
        rcases hsel with rfl | rfl
        · simp only [drawsLayer, l1, l2]
        · simp only [drawsLayer, l1]
      cases shown raw m l' with
      | none => rfl
      | some v => simp only [hd, l3, l4]
  unfold drawings
  rw [hlen, List.range_add, List.filterMap_append, List.filterMap_map]
  congr 1
  · refine List.filterMap_congr fun l hm => ?_
    rw [List.mem_range] at hm
    refine one ?_ (s1 l hm)
    rw [← List.getElem?_map, hl, List.getElem?_append_left (by simpa using hm), List.getElem?_map]
  · refine List.filterMap_congr fun l hm => ?_
    rw [List.mem_range] at hm
    refine one ?_ (s2 l hm)
    rw [← List.getElem?_map, hl, List.getElem?_append_right (by simp), List.getElem?_map, List.length_map,
      Nat.add_sub_cancel_left]

/-! A body and a hat, and the sprite with both. -/
example :
    let body := Sample.header 2 1 32 ++ Sample.frame 1 [Sample.layer 1 0 0 255 [65], Sample.cel 0 0 0 2 1
      [100, 90, 80, 255, 70, 60, 50, 255]]
    let hat := Sample.header 2 1 32 ++ Sample.frame 1 [Sample.layer 0 0 0 255 [66], Sample.layer 1 0 3 200 [67],
      Sample.cel 0 0 0 1 1 [7, 7, 7, 255], Sample.cel 1 1 0 1 1 [9, 10, 11, 120]]
    let both := Sample.header 2 1 32 ++ Sample.frame 1 [Sample.layer 1 0 0 255 [65], Sample.layer 0 0 0 255 [66],
      Sample.layer 1 0 3 200 [67], Sample.cel 0 0 0 2 1 [100, 90, 80, 255, 70, 60, 50, 255],
      Sample.cel 1 0 0 1 1 [7, 7, 7, 255], Sample.cel 2 1 0 1 1 [9, 10, 11, 120]]
    (match parseRawFile ⟨true, 10⟩ body, parseRawFile ⟨true, 10⟩ hat, parseRawFile ⟨true, 10⟩ both,
        AsepriteFile.load ⟨true, 10⟩ body, AsepriteFile.load ⟨true, 10⟩ hat, AsepriteFile.load ⟨true, 10⟩ both with
      | .ok r₁, .ok r₂, .ok r₃, .ok _, .ok _, .ok _ => decide (NoTilemaps r₁) && decide (NoTilemaps r₂) &&
          decide (NoTilemaps r₃) && decide (SameCanvas r₃ r₁) && decide (SameCanvas r₃ r₂) &&
          r₁.frames.length == 1 && r₂.frames.length == 1 && r₃.frames.length == 1 && decide (StackedOn r₁ r₂ r₃ 0 0 0) &&
          (drawings r₃ .visible 0).length == 2 && (drawings r₃ .all 0).length == 3
      | _, _, _, _, _, _ => false) = true := by decide +kernel

end Ase
