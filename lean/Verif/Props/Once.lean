import Verif.Spec.Once
import Verif.Props.ByHand
import Verif.Props.Failures
import Verif.Props.Profile

/-!
# C134: one test run tells whether a sprite can be drawn
-/

namespace Ase

open Spec

theorem drawnOn_iff {f : AsepriteFile} {sel : LayerSelection} {c : FrameCel} {layer : LLayer} :
    drawnOn f sel c = some layer ↔ f.layers[c.layerIndex]? = some layer ∧ TakesLayer f sel c.layerIndex := by
  unfold drawnOn TakesLayer
  cases hl : f.layers[c.layerIndex]? with
  | none => simp
  | some l =>
    by_cases h : l.layerType ≠ .group ∧ Selects sel c.layerIndex l
    · simp [h]
    · simp only [if_neg h]
      constructor
      · intro h'; cases h'
      · rintro ⟨-, l', h1, h2⟩
        cases h1
        exact absurd h2 h

theorem renders_ok_iff {plat : Plat} {b : Bytes} {f : AsepriteFile} (h : AsepriteFile.load plat b = .ok f)
    (inflate : Inflater) {i : Nat} {lf : LFrame} (hi : f.frames[i]? = some lf) {sel : LayerSelection}
    (hn : NoAssertions plat f sel) {t : Bytes} (ht : HoldsCanvas f t) :
    RendersOk plat inflate f i sel t ↔ ∀ c ∈ lf.cels, ∀ layer im, f.layers[c.layerIndex]? = some layer →
      TakesLayer f sel c.layerIndex → f.images[c.imageIndex]? = some im →
        HasPixels inflate f.file im ∧ isKnown layer.blendMode = true := by
  have hm : plat.debug = false ∨
      ∀ c ∈ lf.cels, ∀ layer, drawnOn f sel c = some layer → isHsl layer.blendMode = false := by
    refine hn.imp id fun h1 c _ layer hd => ?_
    obtain ⟨h2, h3⟩ := drawnOn_iff.1 hd
    exact h1 _ _ h2 h3
  unfold RendersOk
  rw [C41_success_partial plat b f h inflate i lf hi sel t ht hm]
  simp only [drawnOn_iff, and_imp]

theorem cels_fine_of_renders {plat : Plat} {b : Bytes} {f : AsepriteFile} (h : AsepriteFile.load plat b = .ok f)
    {inflate : Inflater} {i : Nat} {lf : LFrame} (hi : f.frames[i]? = some lf) {sel : LayerSelection} {t : Bytes}
    (ht : HoldsCanvas f t) (hd : RendersOk plat inflate f i sel t) : ∀ c ∈ lf.cels, ∀ layer im,
    f.layers[c.layerIndex]? = some layer → TakesLayer f sel c.layerIndex → f.images[c.imageIndex]? = some im →
      HasPixels inflate f.file im ∧ isKnown layer.blendMode = true := by
  intro c hc layer im h1 h2 h3
  exact ((C41_failures_partial plat b f h inflate i lf hi sel t ht).2.1 hd).1 c hc layer im (drawnOn_iff.2 ⟨h1, h2⟩) h3

theorem holds_of_renders {plat : Plat} {b : Bytes} {f : AsepriteFile} (h : AsepriteFile.load plat b = .ok f)
    {inflate : Inflater} {i : Nat} {sel : LayerSelection} {t : Bytes} (hd : RendersOk plat inflate f i sel t) :
    HoldsCanvas f t := by
  refine Nat.le_of_not_lt fun hlt => ?_
  have := (C36_buffer plat b f h inflate i sel t).1.2 hlt
  rw [RendersOk, this] at hd
  cases hd

theorem frame_of_renders {plat : Plat} {b : Bytes} {f : AsepriteFile} (h : AsepriteFile.load plat b = .ok f)
    {inflate : Inflater} {i : Nat} {sel : LayerSelection} {t : Bytes} (hd : RendersOk plat inflate f i sel t) :
    ∃ lf, f.frames[i]? = some lf := by
  cases hi : f.frames[i]? with
  | some lf => exact ⟨lf, rfl⟩
  | none =>
    exfalso
    have ht := holds_of_renders h hd
    unfold RendersOk at hd
    rw [renderFrame_eq, if_neg (Nat.not_lt.2 (show canvasBytes f ≤ t.length from ht)), hi] at hd
    cases hd

/-- **C134 (fewer layers, other buffers).** If a frame can be drawn with a selection then it can be drawn with every
selection that takes no further layers, onto every buffer that holds the canvas, whatever it contains. -/
theorem C134_fewer (plat : Plat) (b : Bytes) (f : AsepriteFile) (h : AsepriteFile.load plat b = .ok f)
    (inflate : Inflater) (i : Nat) (sel sel' : LayerSelection) (hn : NoAssertions plat f sel')
    (hsub : ∀ l, TakesLayer f sel' l → TakesLayer f sel l) (t t' : Bytes) (hd : RendersOk plat inflate f i sel t)
    (ht' : HoldsCanvas f t') : RendersOk plat inflate f i sel' t' := by
  obtain ⟨lf, hi⟩ := frame_of_renders h hd
  refine (renders_ok_iff h inflate hi hn ht').2 fun c hc layer im h1 h2 h3 => ?_
  exact cels_fine_of_renders h hi (holds_of_renders h hd) hd c hc layer im h1 (hsub _ h2) h3

/-- **C134 (layer by layer).** A frame can be drawn with a selection iff it can be drawn with each of the selected layers
alone. -/
theorem C134_layers (plat : Plat) (b : Bytes) (f : AsepriteFile) (h : AsepriteFile.load plat b = .ok f)
    (inflate : Inflater) (i : Nat) (hi : i < f.frames.length) (sel : LayerSelection) (hn : NoAssertions plat f sel)
    (t : Bytes) (ht : HoldsCanvas f t) :
    RendersOk plat inflate f i sel t ↔ ∀ l, TakesLayer f sel l → RendersOk plat inflate f i (onlyLayer l) t := by
  have honly : ∀ l m, TakesLayer f (onlyLayer l) m → m = l := by
    rintro l m ⟨layer, -, -, hs⟩
    change (List.replicate l false ++ [true])[m]? = some true at hs
    rcases Nat.lt_trichotomy m l with hlt | rfl | hgt
    · rw [List.getElem?_append_left (by simpa using hlt), List.getElem?_replicate, if_pos hlt] at hs
      cases hs
    · rfl
    · rw [List.getElem?_eq_none (by simp; omega)] at hs
      cases hs
  have hself : ∀ l, TakesLayer f sel l → TakesLayer f (onlyLayer l) l := by
    rintro l ⟨layer, h1, h2, -⟩
    refine ⟨layer, h1, h2, ?_⟩
    change (List.replicate l false ++ [true])[l]? = some true
    rw [List.getElem?_append_right (by simp)]
    simp
  have hn' : ∀ l, TakesLayer f sel l → NoAssertions plat f (onlyLayer l) := by
    intro l hl
    refine hn.imp id fun h1 m layer h2 h3 => ?_
    have := honly l m h3
    subst this
    exact h1 _ layer h2 hl
  constructor
  · intro hd l hl
    refine C134_fewer plat b f h inflate i sel (onlyLayer l) (hn' l hl) (fun m hm => ?_) t t hd ht
    rw [honly l m hm]
    exact hl
  · intro hall
    have hi' := List.getElem?_eq_getElem hi
    refine (renders_ok_iff h inflate hi' hn ht).2 fun c hc layer im h1 h2 h3 => ?_
    exact cels_fine_of_renders h hi' ht (hall _ h2) c hc layer im h1 (hself _ h2) h3

/-- **C134 (images).** A frame can be drawn with a selection iff the images of the cels on selected layers can be loaded
one by one, each into a buffer of the size of its cel, and those layers have known blend modes. -/
theorem C134_images (plat : Plat) (b : Bytes) (f : AsepriteFile) (h : AsepriteFile.load plat b = .ok f)
    (inflate : Inflater) (i : Nat) (lf : LFrame) (hi : f.frames[i]? = some lf) (sel : LayerSelection)
    (hn : NoAssertions plat f sel) (t : Bytes) (ht : HoldsCanvas f t) :
    RendersOk plat inflate f i sel t ↔ ∀ c ∈ lf.cels, TakesLayer f sel c.layerIndex →
      (f.loadImage inflate c.imageIndex (List.replicate (c.size.1.toNat * c.size.2.toNat * 4) 0)).1 = .ok () ∧
      ∀ layer, f.layers[c.layerIndex]? = some layer → isKnown layer.blendMode = true := by
  obtain ⟨h1, -⟩ := load_ok.1 h
  obtain ⟨pal, hpal⟩ := goodPalette_of_parse h1
  have href := (C31_references plat b f h lf (List.mem_iff_getElem?.2 ⟨i, hi⟩)).1
  rw [renders_ok_iff h inflate hi hn ht]
  constructor
  · intro hall c hc htk
    obtain ⟨-, im, him, hs⟩ := href c hc
    obtain ⟨layer, hl, -⟩ := id htk
    refine ⟨(fetch_iff hpal inflate him hs).1.2 (hall c hc layer im hl htk him).1, fun layer' hl' => ?_⟩
    exact (hall c hc layer' im hl' htk him).2
  · intro hall c hc layer im hl htk him
    obtain ⟨-, im', him', hs⟩ := href c hc
    cases him.symm.trans him'
    obtain ⟨h2, h3⟩ := hall c hc htk
    exact ⟨(fetch_iff hpal inflate him hs).1.1 h2, h3 layer hl⟩

/-- **C134 (once and for all).** If every frame was drawn once with all layers, onto whatever buffer and in whatever build,
then in release builds every frame can be drawn with every selection onto every buffer that holds the canvas; in debug
builds too, or the panic is that of a debug assertion and a selected layer has an HSL mode. -/
theorem C134_once (plat plat' : Plat) (b : Bytes) (f : AsepriteFile) (h : AsepriteFile.load plat b = .ok f)
    (h' : AsepriteFile.load plat' b = .ok f) (inflate : Inflater)
    (hall : ∀ i, i < f.frames.length → ∃ t, RendersOk plat inflate f i .all t)
    (i : Nat) (hi : i < f.frames.length) (sel : LayerSelection) (t : Bytes) (ht : HoldsCanvas f t) :
    RendersOk plat' inflate f i sel t ∨ (f.renderFrame plat' inflate i sel t).1 = .panic .debugAssertFailed ∧
      plat'.debug = true ∧ ∃ l layer, f.layers[l]? = some layer ∧ TakesLayer f sel l ∧ isHsl layer.blendMode = true := by
  obtain ⟨t0, h0⟩ := hall i hi
  have hi' := List.getElem?_eq_getElem hi
  have hfine : ∀ c ∈ (f.frames[i]).cels, ∀ layer im, f.layers[c.layerIndex]? = some layer →
      TakesLayer f sel c.layerIndex → f.images[c.imageIndex]? = some im →
        HasPixels inflate f.file im ∧ isKnown layer.blendMode = true := by
    rintro c hc layer im h1 ⟨l, h2, h3, -⟩ h4
    exact cels_fine_of_renders h hi' (holds_of_renders h h0) h0 c hc layer im h1 ⟨l, h2, h3, trivial⟩ h4
  rcases (C41_failures_partial plat' b f h' inflate i _ hi' sel t ht).1 with hok | ⟨k, hk⟩
  · exact .inl hok
  · right
    obtain ⟨before, cel, after, layer, im, hl, -, hd, him, hf⟩ :=
      (C41_cause_partial plat' b f h' inflate i _ hi' sel t ht k).1 hk
    obtain ⟨h1, h2⟩ := drawnOn_iff.1 hd
    have h3 := hfine cel (by rw [hl]; simp) layer im h1 h2 him
    cases hf with
    | rawRgba h4 => exact absurd h3.1 h4
    | undecodable h4 => exact absurd h3.1 h4
    | unknownMode _ h4 => rw [h3.2] at h4; cases h4
    | pixel _ h4 h5 => exact ⟨hk, h5.1, _, layer, h1, h2, h4⟩

/-- **C134 (combined_frame_image).** If `combined_frame_image` succeeded once for a frame, onto whatever buffer, then it
succeeds onto every buffer that holds the canvas, and returns the same hash. -/
theorem C134_combined (plat : Plat) (b : Bytes) (f : AsepriteFile) (h : AsepriteFile.load plat b = .ok f)
    (inflate : Inflater) (hash : List HashInput → UInt64) (i : Nat) (hn : NoAssertions plat f .visible) (t t' : Bytes)
    (v : UInt64) (hd : (f.combinedFrameImage plat inflate hash i t).1 = .ok v) (ht' : HoldsCanvas f t') :
    (f.combinedFrameImage plat inflate hash i t').1 = .ok v := by
  obtain ⟨h1, h2⟩ := ((C52_combined plat inflate hash f i t).2.2.2.1 v).1 hd
  exact ((C52_combined plat inflate hash f i t').2.2.2.1 v).2
    ⟨C134_fewer plat b f h inflate i .visible .visible hn (fun _ h => h) t t' h1 ht', h2⟩

/-- Two cels on two layers, the upper one with the mode multiply, and a group that is selected as well: the hypotheses of
the theorems above hold in a debug build, the frame is drawn with all layers, and each layer alone. -/
example :
    let b := Sample.header 2 1 32 ++ Sample.frame 1 [Sample.layer 1 0 0 255 [65], Sample.layer 1 1 0 255 [71],
      Sample.layer 1 0 1 100 [66], Sample.cel 0 0 0 1 1 [9, 8, 7, 200], Sample.cel 2 0 0 2 1 [50, 60, 70, 80, 1, 2, 3, 4]]
    (match AsepriteFile.load ⟨true, 10⟩ b with
      | .ok f => decide (f.layers.map (fun l => (isHsl l.blendMode, l.layerType == .group)) =
          [(false, false), (false, true), (false, false)] ∧ f.size.1.toNat * f.size.2.toNat * 4 = 8)
      | _ => false) = true ∧
    Sample.render ⟨true, 10⟩ b 0 .all [0, 0, 0, 0, 5, 6, 7, 255] = some (.ok (), [10, 10, 9, 207, 5, 6, 7, 255]) ∧
    ((Sample.render ⟨true, 10⟩ b 0 (onlyLayer 0) [1, 2, 3, 255, 5, 6, 7, 255]).map (·.1)) = some (.ok ()) ∧
    ((Sample.render ⟨true, 10⟩ b 0 (onlyLayer 2) [1, 2, 3, 255, 5, 6, 7, 255]).map (·.1)) = some (.ok ()) := by
  decide +kernel

/-- **C134 (debug builds).** Without the condition the claims fail in debug builds: this sprite has an opaque black lower layer
and an upper layer with the mode saturation.  All layers can be drawn onto the buffer, the upper one alone cannot be
drawn onto the same buffer but onto an empty one it can. -/
theorem C134_debug_needs_condition :
    let b := Sample.header 1 1 32 ++ Sample.frame 1 [Sample.layer 1 0 0 255 [65], Sample.layer 1 0 13 255 [66],
      Sample.cel 0 0 0 1 1 [0, 0, 0, 255], Sample.cel 1 0 0 1 1 [0, 0, 0, 0]]
    ((Sample.render ⟨true, 10⟩ b 0 .all [100, 50, 50, 255]).map (·.1)) = some (.ok ()) ∧
    ((Sample.render ⟨true, 10⟩ b 0 (onlyLayer 1) [100, 50, 50, 255]).map (·.1)) = some (.panic .debugAssertFailed) ∧
    ((Sample.render ⟨true, 10⟩ b 0 (onlyLayer 1) [0, 0, 0, 0]).map (·.1)) = some (.ok ()) ∧
    ((Sample.render ⟨false, 10⟩ b 0 (onlyLayer 1) [100, 50, 50, 255]).map (·.1)) = some (.ok ()) := by
  decide +kernel

end Ase
