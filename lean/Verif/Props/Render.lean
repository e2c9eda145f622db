import Verif.Lemmas.Render
import Verif.Props.Load
import Verif.Props.Blend

/-!
# C34 to C41, C52 and C53: rendering frames

`plat` is the build and `inflate` the zlib decoder; the theorems hold for every one of them.
-/

namespace Ase

open Spec

/-- Loads a file and renders a frame, for the examples. -/
def Sample.render (plat : Plat) (b : Bytes) (i : Nat) (sel : LayerSelection) (t : Bytes) :
    Option (Outcome LoadImageError Unit × Bytes) :=
  match AsepriteFile.load plat b with
  | .ok f => some (f.renderFrame plat Sample.inflate i sel t)
  | _ => none

/-- A 3x2 sprite: an opaque 2x2 cel at (-1, 0) on layer 0, a half transparent 2x1 cel at (0, 1) on layer 1 (multiply), a
1x1 cel at (2, 0) on the hidden layer 2, and a cel on the group 3. -/
def Sample.picture : Bytes :=
  Sample.header 3 2 32 ++ Sample.frame 100
    [Sample.layer 1 0 0 255 [65], Sample.layer 1 0 1 128 [66], Sample.layer 0 0 0 255 [67], Sample.layer 1 1 0 255 [68],
     Sample.cel 0 65535 0 2 2 [1, 2, 3, 255, 10, 20, 30, 255, 1, 2, 3, 255, 40, 50, 60, 255],
     Sample.cel 1 0 1 2 1 [255, 0, 100, 128, 200, 150, 100, 128],
     Sample.cel 2 2 0 1 1 [9, 9, 9, 255],
     Sample.cel 3 0 0 1 1 [8, 8, 8, 255]]

theorem goodPalette_of_load {plat : Plat} {b : Bytes} {f : AsepriteFile} (h : AsepriteFile.load plat b = .ok f) :
    ∃ pal, GoodPalette f.file pal := goodPalette_of_parse (load_ok.1 h).1

theorem celsOk_of_load {plat : Plat} {b : Bytes} {f : AsepriteFile} (h : AsepriteFile.load plat b = .ok f) {i : Nat}
    {lf : LFrame} (hi : f.frames[i]? = some lf) : CelsOk f lf.cels := fun c hc =>
  ((C31_references plat b f h lf (List.mem_of_getElem? hi)).1 c hc).2

theorem renderFrame_spec {plat : Plat} {b : Bytes} {f : AsepriteFile} (h : AsepriteFile.load plat b = .ok f)
    (inflate : Inflater) {i : Nat} {lf : LFrame} (hi : f.frames[i]? = some lf) (sel : LayerSelection) {t : Bytes}
    (ht : canvasBytes f ≤ t.length) : DrawSpec plat inflate f sel lf.cels t (f.renderFrame plat inflate i sel t) := by
  obtain ⟨pal, hpal⟩ := goodPalette_of_load h
  rw [renderFrame_eq, if_neg (by omega), hi]
  exact renderCels_spec hpal sel lf.cels (celsOk_of_load h hi) t ht

/-! ## C35: selections -/

/-- **C35.** `select_layers(p)` selects exactly the layers satisfying `p` and `select_layers_by_name(names)` exactly the
layers whose name is in the list; a number without a layer is not selected, nor is one outside a hand-made mask. -/
theorem C35_selection (f : AsepriteFile) :
    (∀ (p : LLayer → Bool) (i : Nat) (l : LLayer), f.layers[i]? = some l →
      ((f.selectLayers p).isSelected i l = true ↔ p l = true)) ∧
    (∀ (names : List String) (i : Nat) (l : LLayer), f.layers[i]? = some l →
      ((f.selectLayersByName names).isSelected i l = true ↔ l.name ∈ names)) ∧
    (∀ (p : LLayer → Bool) (i : Nat) (l : LLayer), f.layers.length ≤ i → (f.selectLayers p).isSelected i l = false) ∧
    (∀ (m : List Bool) (i : Nat) (l : LLayer),
      (LayerSelection.mask m).isSelected i l = true ↔ ∃ h : i < m.length, m[i] = true) ∧
    (∀ (i : Nat) (l : LLayer), LayerSelection.visible.isSelected i l = l.visible) ∧
    (∀ (i : Nat) (l : LLayer), LayerSelection.all.isSelected i l = true) := by
  have h1 : ∀ (p : LLayer → Bool) (i : Nat) (l : LLayer), f.layers[i]? = some l →
      ((f.selectLayers p).isSelected i l = true ↔ p l = true) := by
    intro p i l hl
    simp [AsepriteFile.selectLayers, LayerSelection.isSelected, hl]
  refine ⟨h1, ?_, ?_, ?_, fun _ _ => rfl, fun _ _ => rfl⟩
  · intro names i l hl
    rw [AsepriteFile.selectLayersByName, h1 _ _ _ hl, List.contains_iff_mem]
  · intro p i l hl
    simp [AsepriteFile.selectLayers, LayerSelection.isSelected, List.getElem?_eq_none hl]
  · intro m i l
    unfold LayerSelection.isSelected
    by_cases hi : i < m.length
    · simp [hi]
    · simp [List.getElem?_eq_none (Nat.le_of_not_lt hi), hi]

example : (match AsepriteFile.load ⟨true, 10⟩ Sample.picture with
    | .ok f => f.selectLayersByName ["A", "C", "X"] == .mask [true, false, true, false]
    | _ => false) = true := by decide +kernel

/-! ## C36: the buffer -/

/-- **C36.** For a frame of the sprite, `render_frame` returns `TargetBufferTooSmall` exactly if the buffer is shorter
than `width * height * 4`, and then leaves it as it is.  Whatever happens, the buffer keeps its length and everything
from byte `width * height * 4` on. -/
theorem C36_buffer (plat : Plat) (b : Bytes) (f : AsepriteFile) (h : AsepriteFile.load plat b = .ok f)
    (inflate : Inflater) (i : Nat) (sel : LayerSelection) (t : Bytes) :
    let size := f.size.1.toNat * f.size.2.toNat * 4
    let result := (f.renderFrame plat inflate i sel t).1
    let after := (f.renderFrame plat inflate i sel t).2
    (result = .err .targetBufferTooSmall ↔ t.length < size) ∧
    (t.length < size → after = t) ∧
    after.length = t.length ∧ after.drop size = t.drop size := by
  intro size result after
  have hsz : size = canvasBytes f := rfl
  by_cases hs : t.length < canvasBytes f
  · have e : f.renderFrame plat inflate i sel t = (.err .targetBufferTooSmall, t) := by rw [renderFrame_eq, if_pos hs]
    simp [result, after, e, hsz, hs]
  · cases hi : f.frames[i]? with
    | none =>
      have e : f.renderFrame plat inflate i sel t = (.panic .indexOutOfBounds, t) := by
        rw [renderFrame_eq, if_neg hs, hi]
      simp [result, after, e, hsz, hs]
    | some lf =>
      have hd := renderFrame_spec h inflate hi sel (Nat.le_of_not_lt hs)
      exact ⟨⟨fun he => absurd he (hd.no_err _), fun hlt => absurd hlt hs⟩, fun hlt => absurd hlt hs, hd.length, hd.drop⟩

example : Sample.render ⟨true, 10⟩ Sample.picture 0 .visible (List.replicate 23 7)
      = some (.err .targetBufferTooSmall, List.replicate 23 7) ∧
    Sample.render ⟨true, 10⟩ Sample.picture 0 (.mask [true]) (List.replicate 24 0 ++ [7, 8])
      = some (.ok (), [10, 20, 30, 255] ++ List.replicate 8 0 ++ [40, 50, 60, 255] ++ List.replicate 8 0 ++ [7, 8]) := by
  decide +kernel

/-! ## C37: the pixels -/

/-- **C37.** After a successful `render_frame` every canvas pixel is what it was before, composed in cel order with the
pixels of the selected cels that lie on it (`Spec.compose`). -/
theorem C37_pixels (plat : Plat) (b : Bytes) (f : AsepriteFile) (h : AsepriteFile.load plat b = .ok f)
    (inflate : Inflater) (i : Nat) (lf : LFrame) (hi : f.frames[i]? = some lf) (sel : LayerSelection) (t t' : Bytes)
    (hok : f.renderFrame plat inflate i sel t = (.ok (), t')) (x y : Nat) (hx : x < f.size.1.toNat)
    (hy : y < f.size.2.toNat) :
    ∃ before after, canvasPixel f t x y = some before ∧ canvasPixel f t' x y = some after ∧
      compose plat inflate f sel x y lf.cels before = .ok after := by
  have ht : canvasBytes f ≤ t.length := by
    refine Nat.le_of_not_lt fun hlt => ?_
    rw [renderFrame_eq, if_pos hlt] at hok
    cases hok
  have hd := renderFrame_spec h inflate hi sel ht
  rw [hok] at hd
  obtain ⟨c, out, h1, h2, h3⟩ := hd.result rfl x y hx hy
  exact ⟨c, out, h1, h3, h2⟩

-- the pixel (0, 1) lies under both cels, (1, 1) only under the second, which is multiplied
example : Sample.render ⟨true, 10⟩ Sample.picture 0 .visible (List.replicate 24 0)
      = some (.ok (), [10, 20, 30, 255] ++ List.replicate 8 0 ++
          [40, 38, 51, 255, 200, 150, 100, 64] ++ List.replicate 4 0) := by
  decide +kernel

/-! ## C38: cels anywhere -/

/-- **C38.** Position and size of the cels never make rendering fail: if the images of the drawn cels decode and their
blend modes never fail, the frame is rendered.  A canvas pixel then changes only if a drawn cel covers it, that is if
`origin ≤ pixel < origin + size` in both coordinates, as integers. -/
theorem C38_anywhere (plat : Plat) (b : Bytes) (f : AsepriteFile) (h : AsepriteFile.load plat b = .ok f)
    (inflate : Inflater) (i : Nat) (lf : LFrame) (hi : f.frames[i]? = some lf) (sel : LayerSelection) (t : Bytes)
    (ht : f.size.1.toNat * f.size.2.toNat * 4 ≤ t.length)
    (himg : ∀ c ∈ lf.cels, ∀ layer im, drawnOn f sel c = some layer → f.images[c.imageIndex]? = some im →
      HasPixels inflate f.file im ∧ isKnown layer.blendMode = true ∧
      ∀ back front, ∃ out, blend plat layer.blendMode back front layer.opacity = .ok out) :
    ∃ t', f.renderFrame plat inflate i sel t = (.ok (), t') ∧ t'.length = t.length ∧
      ∀ x y, x < f.size.1.toNat → y < f.size.2.toNat →
        (∀ c ∈ lf.cels, ∀ layer, drawnOn f sel c = some layer →
          ¬ (c.origin.1.toInt ≤ x ∧ x < c.origin.1.toInt + c.size.1.toNat ∧
             c.origin.2.toInt ≤ y ∧ y < c.origin.2.toInt + c.size.2.toNat)) →
        canvasPixel f t' x y = canvasPixel f t x y := by
  have hd := renderFrame_spec h inflate hi sel ht
  have htot : ∀ x y cels c, (∀ c ∈ cels, c ∈ lf.cels) → ∃ out, compose plat inflate f sel x y cels c = .ok out := by
    intro x y cels
    induction cels with
    | nil => intro c _; exact ⟨c, rfl⟩
    | cons cel cels ih =>
      intro c hc
      rw [compose]
      split
      · next layer front h1 h2 =>
        obtain ⟨im, him, -⟩ := celsOk_of_load h hi cel (hc cel List.mem_cons_self)
        obtain ⟨out, ho⟩ := (himg cel (hc cel List.mem_cons_self) layer im h1 him).2.2 c front
        rw [ho]
        exact ih out fun c hc' => hc c (List.mem_cons_of_mem _ hc')
      · exact ih c fun c hc' => hc c (List.mem_cons_of_mem _ hc')
  have hok := hd.ok_iff.2 ⟨fun c hc layer im h1 h2 => ⟨(himg c hc layer im h1 h2).1, (himg c hc layer im h1 h2).2.1⟩,
    fun x y c _ _ _ => htot x y lf.cels c fun _ h => h⟩
  rcases hr : f.renderFrame plat inflate i sel t with ⟨r, t'⟩
  rw [hr] at hd hok
  dsimp only at hok
  subst hok
  refine ⟨t', rfl, hd.length, ?_⟩
  intro x y hx hy hnot
  have hkeep : ∀ cels c, (∀ c ∈ cels, c ∈ lf.cels) → compose plat inflate f sel x y cels c = .ok c := by
    intro cels
    induction cels with
    | nil => intro c _; rfl
    | cons cel cels ih =>
      intro c hc
      rw [compose]
      split
      · next layer front h1 h2 =>
        exfalso
        apply hnot cel (hc cel List.mem_cons_self) layer h1
        unfold coveredBy at h2
        dsimp only at h2
        split at h2
        · omega
        · cases h2
      · exact ih c fun c hc' => hc c (List.mem_cons_of_mem _ hc')
  obtain ⟨c, out, h1, h2, h3⟩ := hd.result rfl x y hx hy
  rw [hkeep lf.cels c fun _ h => h] at h2
  cases h2
  rw [h1, h3]

-- a cel of 2x2 pixels at (-32768, 32767), and one at (-1, -1) of which only a corner is on the canvas
example : Sample.render ⟨true, 10⟩ (Sample.header 1 1 32 ++ Sample.frame 1
      [Sample.layer 1 0 0 255 [65], Sample.layer 1 0 0 255 [66],
       Sample.cel 0 32768 32767 2 2 (List.replicate 16 9),
       Sample.cel 1 65535 65535 2 2 [1, 1, 1, 255, 2, 2, 2, 255, 3, 3, 3, 255, 4, 5, 6, 255]])
      0 .all [0, 0, 0, 0] = some (.ok (), [4, 5, 6, 255]) := by
  decide +kernel

/-! ## C39: what is not drawn -/

theorem forEach_congr {α : Type} {body body' : α → Buf Unit} {xs : List α} (h : ∀ x ∈ xs, body x = body' x) (t : Bytes) :
    Buf.forEach body xs t = Buf.forEach body' xs t := by
  induction xs generalizing t with
  | nil => rfl
  | cons x xs ih =>
    rw [forEach_cons, forEach_cons, h x List.mem_cons_self]
    rcases body' x t with ⟨_ | _ | _, t'⟩
    · exact ih (fun x hx => h x (List.mem_cons_of_mem _ hx)) t'
    · rfl
    · rfl

theorem forEach_filter {α : Type} {body : α → Buf Unit} {p : α → Bool} {xs : List α}
    (h : ∀ x ∈ xs, p x = false → ∀ t, body x t = (.ok (), t)) (t : Bytes) :
    Buf.forEach body xs t = Buf.forEach body (xs.filter p) t := by
  induction xs generalizing t with
  | nil => rfl
  | cons x xs ih =>
    have ih := ih fun x hx => h x (List.mem_cons_of_mem _ hx)
    cases hp : p x with
    | true =>
      rw [List.filter_cons_of_pos hp, forEach_cons, forEach_cons]
      rcases body x t with ⟨_ | _ | _, t'⟩
      · exact ih t'
      · rfl
      · rfl
    | false =>
      rw [List.filter_cons_of_neg (by rw [hp]; decide), forEach_cons, h x List.mem_cons_self hp]
      exact ih t

/-- Rendering looks at layers only through `drawnOn`. -/
theorem renderCel_congr {plat : Plat} {inflate : Inflater} {f g : AsepriteFile} {sel sel' : LayerSelection}
    {cel : FrameCel} (hfile : f.file = g.file) (himg : f.images = g.images)
    (h : drawnOn f sel cel = drawnOn g sel' cel) :
    f.renderCel plat inflate sel cel = g.renderCel plat inflate sel' cel := by
  funext t
  cases hd : drawnOn g sel' cel with
  | none => rw [renderCel_skip hd, renderCel_skip (h.trans hd)]
  | some layer =>
    rw [renderCel_drawn hd, renderCel_drawn (h.trans hd)]
    have h1 : ∀ i t, f.loadImage inflate i t = g.loadImage inflate i t := by
      intro i t
      unfold AsepriteFile.loadImage
      rw [himg]
      cases g.images[i]? with
      | none => rfl
      | some im =>
        have : f.decodeImage inflate im = g.decodeImage inflate im := by
          unfold AsepriteFile.decodeImage AsepriteFile.paletteOrErr
          rw [hfile]
        simp only [this]
    have h2 : ∀ fn c y x, f.renderPixel plat cel layer fn c y x = g.renderPixel plat cel layer fn c y x := by
      intro fn c y x
      unfold AsepriteFile.renderPixel
      rw [hfile]
    rw [h1]
    simp only [h2]

/-- The sprite without the cels on groups and on layers that are not selected. -/
def Spec.onlyDrawn (f : AsepriteFile) (sel : LayerSelection) : AsepriteFile :=
  { f with frames := f.frames.map fun lf => { lf with cels := lf.cels.filter fun c => (drawnOn f sel c).isSome } }

/-- **C39.** Groups and layers that are not selected do not contribute: (1) rendering is the same with their cels
removed, (2) it is the same if the properties of such layers are changed arbitrarily as long as they stay deselected or
groups, and (3) if the selection contains no layer that is not a group, the buffer stays as it is. -/
theorem C39_not_drawn (plat : Plat) (f : AsepriteFile) (inflate : Inflater) (i : Nat) (sel : LayerSelection) (t : Bytes) :
    f.renderFrame plat inflate i sel t = (onlyDrawn f sel).renderFrame plat inflate i sel t ∧
    (∀ layers' : List LLayer, layers'.length = f.layers.length →
      (∀ (l : Nat) (x x' : LLayer), f.layers[l]? = some x → layers'[l]? = some x' →
        x' = x ∨ ((x.layerType = .group ∨ ¬ Selects sel l x) ∧ (x'.layerType = .group ∨ ¬ Selects sel l x'))) →
      { f with layers := layers' }.renderFrame plat inflate i sel t = f.renderFrame plat inflate i sel t) ∧
    ((∀ (l : Nat) (x : LLayer), f.layers[l]? = some x → x.layerType = .group ∨ ¬ Selects sel l x) →
      (f.renderFrame plat inflate i sel t).2 = t ∧
      (i < f.frames.length → f.size.1.toNat * f.size.2.toNat * 4 ≤ t.length →
        (f.renderFrame plat inflate i sel t).1 = .ok ())) := by
  refine ⟨?_, ?_, ?_⟩
  · rw [renderFrame_eq, renderFrame_eq, show canvasBytes (onlyDrawn f sel) = canvasBytes f from rfl]
    by_cases hs : t.length < canvasBytes f
    · rw [if_pos hs, if_pos hs]
    · rw [if_neg hs, if_neg hs, onlyDrawn, List.getElem?_map]
      cases f.frames[i]? with
      | none => rfl
      | some lf =>
        dsimp only [Option.map_some]
        rw [forEach_filter (p := fun c => (drawnOn f sel c).isSome)]
        · exact forEach_congr (fun c _ => renderCel_congr rfl rfl rfl) t
        · intro c _ hc
          exact renderCel_skip (by simpa using hc)
  · intro layers' hlen hl
    rw [renderFrame_eq, renderFrame_eq, show canvasBytes { f with layers := layers' } = canvasBytes f from rfl]
    by_cases hs : t.length < canvasBytes f
    · rw [if_pos hs, if_pos hs]
    · rw [if_neg hs, if_neg hs]
      dsimp only
      cases f.frames[i]? with
      | none => rfl
      | some lf =>
        dsimp only
        refine forEach_congr (fun c _ => ?_) t
        refine renderCel_congr rfl rfl ?_
        unfold drawnOn
        dsimp only
        cases h1 : layers'[c.layerIndex]? with
        | none =>
          rw [List.getElem?_eq_none_iff, hlen, ← List.getElem?_eq_none_iff] at h1
          rw [h1]
        | some x' =>
          cases h2 : f.layers[c.layerIndex]? with
          | none =>
            rw [List.getElem?_eq_none_iff, ← hlen, ← List.getElem?_eq_none_iff, h1] at h2
            cases h2
          | some x =>
            dsimp only
            rcases hl _ x x' h2 h1 with rfl | ⟨h3, h4⟩
            · rfl
            · rw [if_neg (fun hc => h4.elim hc.1 fun h => h hc.2), if_neg (fun hc => h3.elim hc.1 fun h => h hc.2)]
  · intro hno
    have hall : ∀ cels t, Buf.forEach (f.renderCel plat inflate sel) cels t = (.ok (), t) := by
      intro cels
      induction cels with
      | nil => intro t; rfl
      | cons c cels ih =>
        intro t
        rw [forEach_cons, renderCel_skip]
        · exact ih t
        · unfold drawnOn
          cases h2 : f.layers[c.layerIndex]? with
          | none => rfl
          | some x => exact if_neg fun hc => (hno _ x h2).elim hc.1 fun h => h hc.2
    rw [renderFrame_eq]
    constructor
    · split
      · rfl
      · cases f.frames[i]? with
        | none => rfl
        | some lf => dsimp only; rw [hall]
    · intro hi ht
      have ht : ¬ t.length < canvasBytes f := Nat.not_lt.2 ht
      rw [if_neg ht, List.getElem?_eq_getElem hi]
      dsimp only
      rw [hall]

example : Sample.render ⟨true, 10⟩ Sample.picture 0 (.mask [false, false, false, true]) (List.replicate 24 5)
    = some (.ok (), List.replicate 24 5) := by decide +kernel

/-! ## C40: masks -/

theorem renderFrame_congr {plat : Plat} {inflate : Inflater} {f : AsepriteFile} {sel sel' : LayerSelection}
    (h : ∀ cel, drawnOn f sel cel = drawnOn f sel' cel) (i : Nat) (t : Bytes) :
    f.renderFrame plat inflate i sel t = f.renderFrame plat inflate i sel' t := by
  rw [renderFrame_eq, renderFrame_eq]
  by_cases hs : t.length < canvasBytes f
  · rw [if_pos hs, if_pos hs]
  · rw [if_neg hs, if_neg hs]
    cases f.frames[i]? with
    | none => rfl
    | some lf => exact forEach_congr (fun c _ => renderCel_congr rfl rfl (h c)) t

theorem drawnOn_congr {f : AsepriteFile} {sel sel' : LayerSelection}
    (h : ∀ (l : Nat) (x : LLayer), f.layers[l]? = some x → (Selects sel l x ↔ Selects sel' l x)) (cel : FrameCel) :
    drawnOn f sel cel = drawnOn f sel' cel := by
  unfold drawnOn
  cases hl : f.layers[cel.layerIndex]? with
  | none => rfl
  | some x => simp only [h _ x hl]

/-- **C40.** Rendering with `Visible` is rendering with `select_layers(|l| l.visible)`, and rendering with `All` is
rendering with `select_layers(|_| true)`: same outcome, same buffer. -/
theorem C40_masks (plat : Plat) (f : AsepriteFile) (inflate : Inflater) (i : Nat) (t : Bytes) :
    f.renderFrame plat inflate i .visible t = f.renderFrame plat inflate i (f.selectLayers (·.visible)) t ∧
    f.renderFrame plat inflate i .all t = f.renderFrame plat inflate i (f.selectLayers fun _ => true) t := by
  constructor <;>
  · refine renderFrame_congr (drawnOn_congr ?_) i t
    intro l x hl
    simp [Selects, AsepriteFile.selectLayers, hl]

example : (match AsepriteFile.load ⟨true, 10⟩ Sample.picture with
    | .ok f => f.selectLayers (·.visible) == .mask [true, true, false, true]
    | _ => false) = true := by decide +kernel

/-! ## C41: failures -/

/-- **C41, as far as it is true.** With a frame number of the sprite and a large enough buffer, `render_frame` never
returns an error.  It succeeds exactly if the image of every drawn cel can be decoded, the blend mode of its layer is
known, and blending does not fail on any pixel; otherwise it panics. -/
theorem C41_failures_partial (plat : Plat) (b : Bytes) (f : AsepriteFile) (h : AsepriteFile.load plat b = .ok f)
    (inflate : Inflater) (i : Nat) (lf : LFrame) (hi : f.frames[i]? = some lf) (sel : LayerSelection) (t : Bytes)
    (ht : f.size.1.toNat * f.size.2.toNat * 4 ≤ t.length) :
    let result := (f.renderFrame plat inflate i sel t).1
    (result = .ok () ∨ ∃ k, result = .panic k) ∧
    (result = .ok () ↔
      (∀ c ∈ lf.cels, ∀ layer im, drawnOn f sel c = some layer → f.images[c.imageIndex]? = some im →
        HasPixels inflate f.file im ∧ isKnown layer.blendMode = true) ∧
      (∀ x y c, x < f.size.1.toNat → y < f.size.2.toNat → canvasPixel f t x y = some c →
        ∃ out, compose plat inflate f sel x y lf.cels c = .ok out)) := by
  intro result
  have hd := renderFrame_spec h inflate hi sel ht
  refine ⟨?_, hd.ok_iff⟩
  have := hd.no_err
  change ∀ e, result ≠ .err e at this
  cases hr : result with
  | ok u => exact .inl rfl
  | err e => exact absurd hr (this e)
  | panic k => exact .inr ⟨k, rfl⟩

/-- `render_frame` does panic on files that load: (1) a raw image of the wrong size, (2) a damaged compressed image, (3)
an unknown blend mode, (4) an unknown colour depth, (5) in a debug build, the blend mode hue on ordinary opaque
pixels. -/
theorem C41_render_panics :
    Sample.render ⟨false, 10⟩ (Sample.header 1 1 32 ++ Sample.frame 1
      [Sample.layer 1 0 0 255 [65], Sample.cel 0 0 0 1 1 [1, 2, 3]]) 0 .all [0, 0, 0, 0]
      = some (.panic .lengthMismatch, [0, 0, 0, 0]) ∧
    Sample.render ⟨false, 10⟩ (Sample.header 1 1 32 ++ Sample.frame 1
      [Sample.layer 1 0 0 255 [65], Sample.zcel 0 0 0 1 1 [1, 2, 3]]) 0 .all [0, 0, 0, 0]
      = some (.panic .unwrapOnErr, [0, 0, 0, 0]) ∧
    Sample.render ⟨false, 10⟩ (Sample.header 1 1 32 ++ Sample.frame 1
      [Sample.layer 1 0 99 255 [65], Sample.cel 0 0 0 1 1 [1, 2, 3, 4]]) 0 .all [0, 0, 0, 0]
      = some (.panic .explicitPanic, [0, 0, 0, 0]) ∧
    Sample.render ⟨false, 10⟩ (Sample.header 1 1 7 ++ Sample.frame 1
      [Sample.layer 1 0 0 255 [65], Sample.cel 0 0 0 1 1 [1, 2, 3, 4]]) 0 .all [0, 0, 0, 0]
      = some (.panic .unwrapOnErr, [0, 0, 0, 0]) ∧
    Sample.render ⟨true, 10⟩ (Sample.header 1 1 32 ++ Sample.frame 1
      [Sample.layer 1 0 12 255 [65], Sample.cel 0 0 0 1 1 [1, 2, 3, 255]]) 0 .all [0, 0, 0, 255]
      = some (.panic .debugAssertFailed, [0, 0, 0, 255]) := by
  decide +kernel

/-! ## C34: layer numbers -/

/-- The sprite with all layers of the file, so that the layer numbers of the cels mean the layer chunks of the file. -/
def Spec.withAllLayers (f : AsepriteFile) : AsepriteFile := { f with layers := f.file.layers.map asLayer }

/-- **C34, as far as it is true.** If no layer of an unknown or the tilemap type comes at or before the layers of the
frame's cels in the file, rendering draws each cel with the layer chunk its layer index denotes in the file: it does the
same as if the sprite had all layers of the file, and the layer of each cel is that chunk.  (In general this fails, see
`C34_wrong_layer`.) -/
theorem C34_own_layer_partial (plat : Plat) (b : Bytes) (f : AsepriteFile) (h : AsepriteFile.load plat b = .ok f)
    (inflate : Inflater) (i : Nat) (lf : LFrame) (hi : f.frames[i]? = some lf) (sel : LayerSelection) (t : Bytes)
    (hlay : ∀ c ∈ lf.cels, ∀ (j : Nat) (x : LayerChunk), j ≤ c.layerIndex → f.file.layers[j]? = some x →
      x.layerType = .normal ∨ x.layerType = .group) :
    f.renderFrame plat inflate i sel t = (withAllLayers f).renderFrame plat inflate i sel t ∧
    ∀ c ∈ lf.cels, ∃ chunk, f.file.layers[c.layerIndex]? = some chunk ∧ f.layers[c.layerIndex]? = some (asLayer chunk) := by
  have hl : ∀ c ∈ lf.cels, f.layers[c.layerIndex]? = (f.file.layers[c.layerIndex]?).map asLayer := by
    intro c hc
    refine layer_of_load (C29_layers plat b f h).2 ?_
    intro j x hj hx
    simpa [isDrawn] using hlay c hc j x hj hx
  constructor
  · rw [renderFrame_eq, renderFrame_eq]
    rw [show canvasBytes (withAllLayers f) = canvasBytes f from rfl,
      show (withAllLayers f).frames = f.frames from rfl, hi]
    by_cases hs : t.length < canvasBytes f
    · rw [if_pos hs, if_pos hs]
    · rw [if_neg hs, if_neg hs]
      dsimp only
      refine forEach_congr (fun c hc => ?_) t
      refine renderCel_congr rfl rfl ?_
      unfold drawnOn
      rw [hl c hc, withAllLayers, List.getElem?_map]
  · intro c hc
    have hlt := ((C31_references plat b f h lf (List.mem_of_getElem? hi)).1 c hc).1
    refine ⟨f.file.layers[c.layerIndex], List.getElem?_eq_getElem hlt, ?_⟩
    rw [hl c hc, List.getElem?_eq_getElem hlt]
    rfl

/-- A file with a tilemap layer below a visible layer A with a cel, and a hidden layer B above. -/
def Sample.tilemapBelow : Bytes :=
  Sample.header 1 1 32 ++ Sample.frame 1
    [Sample.layer 1 2 0 255 [84], Sample.layer 1 0 0 255 [65], Sample.layer 0 0 0 255 [66],
     Sample.cel 1 0 0 1 1 [1, 2, 3, 255]]

/-- The code is wrong if a tilemap layer comes first: the cel of the visible layer A is treated as a cel of the hidden
layer B, so rendering the visible layers, or the layer named A, shows nothing, and rendering the layer named B shows
A's picture. -/
theorem C34_wrong_layer :
    (match AsepriteFile.load ⟨true, 10⟩ Sample.tilemapBelow with
    | .ok f => f.layers.map (·.name) == ["A", "B"] && f.file.layers.map (·.name) == ["T", "A", "B"] &&
        f.frames.map (·.cels.map (·.layerIndex)) == [[1]] &&
        f.renderFrame ⟨true, 10⟩ Sample.inflate 0 .visible [0, 0, 0, 0] == (.ok (), [0, 0, 0, 0]) &&
        f.renderFrame ⟨true, 10⟩ Sample.inflate 0 (f.selectLayersByName ["A"]) [0, 0, 0, 0] == (.ok (), [0, 0, 0, 0]) &&
        f.renderFrame ⟨true, 10⟩ Sample.inflate 0 (f.selectLayersByName ["B"]) [0, 0, 0, 0] == (.ok (), [1, 2, 3, 255]) &&
        (withAllLayers f).renderFrame ⟨true, 10⟩ Sample.inflate 0 .visible [0, 0, 0, 0] == (.ok (), [1, 2, 3, 255])
    | _ => false) = true := by
  decide +kernel

-- the hypothesis of the partial theorem is met by every frame of a file without such layers
example : (match AsepriteFile.load ⟨true, 10⟩ Sample.picture with
    | .ok f => f.file.layers.all isDrawn && f.frames.map (·.cels.length) == [4]
    | _ => false) = true := by decide +kernel

/-! ## C52: the combined image -/

/-- **C52.** `combined_frame_image` leaves the same buffer as `render_frame` with `Visible`, fails when that fails and
with the same error or panic; on success the hash is a function of the list of (image, layer, origin, size) of the
frame's cels alone, so equal lists give equal hashes. -/
theorem C52_combined (plat : Plat) (inflate : Inflater) (hash : List HashInput → UInt64) (f : AsepriteFile) (i : Nat)
    (t : Bytes) :
    let rendered := f.renderFrame plat inflate i .visible t
    let combined := f.combinedFrameImage plat inflate hash i t
    combined.2 = rendered.2 ∧
    (∀ e, combined.1 = .err e ↔ rendered.1 = .err e) ∧ (∀ k, combined.1 = .panic k ↔ rendered.1 = .panic k) ∧
    (∀ v, combined.1 = .ok v ↔ rendered.1 = .ok () ∧ ∃ lf, f.frames[i]? = some lf ∧
      v = hash (lf.cels.map fun c => (c.imageIndex, c.layerIndex, c.origin, c.size))) ∧
    (∀ (j : Nat) (u : Bytes) (lf lg : LFrame) (v w : UInt64), f.frames[i]? = some lf → f.frames[j]? = some lg →
      lf.cels = lg.cels → combined.1 = .ok v → (f.combinedFrameImage plat inflate hash j u).1 = .ok w → v = w) := by
  have key : ∀ i t, f.combinedFrameImage plat inflate hash i t =
      match f.renderFrame plat inflate i .visible t, f.frames[i]? with
      | (.ok _, t'), some lf => (.ok (hash (lf.cels.map fun c => (c.imageIndex, c.layerIndex, c.origin, c.size))), t')
      | (.ok _, t'), none => (.panic .indexOutOfBounds, t')
      | (.err e, t'), _ => (.err e, t')
      | (.panic k, t'), _ => (.panic k, t') := by
    intro i t
    unfold AsepriteFile.combinedFrameImage
    rw [buf_bind]
    rcases f.renderFrame plat inflate i .visible t with ⟨_ | _ | _, t'⟩ <;> cases f.frames[i]? <;> rfl
  have hnone : ∀ i t, f.frames[i]? = none → (f.renderFrame plat inflate i .visible t).1 ≠ .ok () := by
    intro i t hi
    rw [renderFrame_eq, hi]
    split <;> simp
  intro rendered combined
  have h4 : ∀ i t v, (f.combinedFrameImage plat inflate hash i t).1 = .ok v ↔
      (f.renderFrame plat inflate i .visible t).1 = .ok () ∧ ∃ lf, f.frames[i]? = some lf ∧
      v = hash (lf.cels.map fun c => (c.imageIndex, c.layerIndex, c.origin, c.size)) := by
    intro i t v
    rw [key]
    cases hf : f.frames[i]? with
    | none =>
      have hn := hnone i t hf
      rcases hr : f.renderFrame plat inflate i .visible t with ⟨_ | _ | _, t'⟩
      · rw [hr] at hn; exact absurd rfl hn
      · simp
      · simp
    | some lf => rcases f.renderFrame plat inflate i .visible t with ⟨_ | _ | _, t'⟩ <;> simp [eq_comm]
  refine ⟨?_, ?_, ?_, h4 i t, ?_⟩
  · simp only [combined, rendered, key]
    rcases f.renderFrame plat inflate i .visible t with ⟨_ | _ | _, t'⟩ <;> cases f.frames[i]? <;> rfl
  · intro e
    simp only [combined, rendered, key]
    rcases f.renderFrame plat inflate i .visible t with ⟨_ | _ | _, t'⟩ <;> cases f.frames[i]? <;> simp
  · intro k
    simp only [combined, rendered, key]
    cases hf : f.frames[i]? with
    | none =>
      have hn := hnone i t hf
      rcases hr : f.renderFrame plat inflate i .visible t with ⟨_ | _ | _, t'⟩
      · rw [hr] at hn; exact absurd rfl hn
      · simp
      · simp
    | some lf => rcases f.renderFrame plat inflate i .visible t with ⟨_ | _ | _, t'⟩ <;> simp
  · intro j u lf lg v w hi hj hc h1 h2
    obtain ⟨-, lf', h3, rfl⟩ := (h4 i t v).1 h1
    obtain ⟨-, lg', h5, rfl⟩ := (h4 j u w).1 h2
    rw [hi] at h3; cases h3
    rw [hj] at h5; cases h5
    rw [hc]

example : (match AsepriteFile.load ⟨true, 10⟩ Sample.picture with
    | .ok f => (f.combinedFrameImage ⟨true, 10⟩ Sample.inflate (fun l => UInt64.ofNat l.length) 0 (List.replicate 24 0)).1
        == .ok 4
    | _ => false) = true := by decide +kernel

/-! ## C53: in two steps -/

theorem sorted_split {cels : List FrameCel} (hs : (cels.map (·.layerIndex)).Pairwise (· < ·)) (k : Nat) :
    cels = (cels.filter fun c => decide (c.layerIndex < k)) ++ cels.filter fun c => decide (k ≤ c.layerIndex) := by
  induction cels with
  | nil => rfl
  | cons c cs ih =>
    rw [List.map_cons, List.pairwise_cons] at hs
    have ih := ih hs.2
    by_cases hc : c.layerIndex < k
    · rw [List.filter_cons_of_pos (by simpa using hc), List.filter_cons_of_neg (by simpa using hc), List.cons_append, ← ih]
    · rw [List.filter_cons_of_neg (by simpa using hc), List.filter_cons_of_pos (by simpa using hc)]
      have hall : ∀ d ∈ cs, k ≤ d.layerIndex := by
        intro d hd
        have := hs.1 d.layerIndex (List.mem_map_of_mem hd)
        omega
      rw [List.filter_eq_nil_iff.2 (by intro d hd; have := hall d hd; simp; omega),
        List.filter_eq_self.2 (by intro d hd; simpa using hall d hd)]
      rfl

/-- **C53.** Rendering can be done in steps: for selections `low` and `high` of the selected layers below number `k` and
from `k` on, rendering `low` and then `high` into the same buffer does exactly what rendering the whole selection
does. -/
theorem C53_incremental (plat : Plat) (b : Bytes) (f : AsepriteFile) (h : AsepriteFile.load plat b = .ok f)
    (inflate : Inflater) (i k : Nat) (sel low high : LayerSelection)
    (hlow : ∀ (l : Nat) (x : LLayer), f.layers[l]? = some x → (Selects low l x ↔ Selects sel l x ∧ l < k))
    (hhigh : ∀ (l : Nat) (x : LLayer), f.layers[l]? = some x → (Selects high l x ↔ Selects sel l x ∧ k ≤ l))
    (t : Bytes) :
    f.renderFrame plat inflate i sel t =
      match f.renderFrame plat inflate i low t with
      | (.ok (), t') => f.renderFrame plat inflate i high t'
      | failure => failure := by
  by_cases hs : t.length < canvasBytes f
  · simp only [renderFrame_eq, if_pos hs]
  have hlen : ∀ r t', f.renderFrame plat inflate i low t = (r, t') → ¬ t'.length < canvasBytes f := by
    intro r t' hr
    have := (C36_buffer plat b f h inflate i low t).2.2.1
    rw [hr] at this
    dsimp only at this
    rw [this]
    exact hs
  cases hi : f.frames[i]? with
  | none => simp only [renderFrame_eq, if_neg hs, hi]
  | some lf =>
    have hsort := (C31_references plat b f h lf (List.mem_of_getElem? hi)).2
    have hsplit := sorted_split hsort k
    have hl : ∀ u, Buf.forEach (f.renderCel plat inflate low) lf.cels u =
        Buf.forEach (f.renderCel plat inflate sel) (lf.cels.filter fun c => decide (c.layerIndex < k)) u := by
      intro u
      rw [forEach_filter (p := fun c => decide (c.layerIndex < k))]
      · refine forEach_congr (fun c hc => ?_) u
        refine renderCel_congr rfl rfl ?_
        have hck : c.layerIndex < k := by simpa using (List.mem_filter.1 hc).2
        unfold drawnOn
        cases hx : f.layers[c.layerIndex]? with
        | none => rfl
        | some x => simp only [hlow _ x hx, hck, and_true]
      · intro c _ hck
        have hck : ¬ c.layerIndex < k := by simpa using hck
        refine renderCel_skip ?_
        unfold drawnOn
        cases hx : f.layers[c.layerIndex]? with
        | none => rfl
        | some x => simp only [hlow _ x hx, hck, and_false, if_false]
    have hh : ∀ u, Buf.forEach (f.renderCel plat inflate high) lf.cels u =
        Buf.forEach (f.renderCel plat inflate sel) (lf.cels.filter fun c => decide (k ≤ c.layerIndex)) u := by
      intro u
      rw [forEach_filter (p := fun c => decide (k ≤ c.layerIndex))]
      · refine forEach_congr (fun c hc => ?_) u
        refine renderCel_congr rfl rfl ?_
        have hck : k ≤ c.layerIndex := by simpa using (List.mem_filter.1 hc).2
        unfold drawnOn
        cases hx : f.layers[c.layerIndex]? with
        | none => rfl
        | some x => simp only [hhigh _ x hx, hck, and_true]
      · intro c _ hck
        have hck : ¬ k ≤ c.layerIndex := by simpa using hck
        refine renderCel_skip ?_
        unfold drawnOn
        cases hx : f.layers[c.layerIndex]? with
        | none => rfl
        | some x => simp only [hhigh _ x hx, hck, and_false, if_false]
    have e1 : f.renderFrame plat inflate i sel t = Buf.forEach (f.renderCel plat inflate sel) lf.cels t := by
      rw [renderFrame_eq, if_neg hs, hi]
    have e2 : f.renderFrame plat inflate i low t =
        Buf.forEach (f.renderCel plat inflate sel) (lf.cels.filter fun c => decide (c.layerIndex < k)) t := by
      rw [renderFrame_eq, if_neg hs, hi]
      exact hl t
    rw [e1, hsplit, forEach_append]
    rw [e2] at hlen ⊢
    rcases hr : Buf.forEach (f.renderCel plat inflate sel) (lf.cels.filter fun c => decide (c.layerIndex < k)) t
      with ⟨_ | _ | _, t'⟩
    · dsimp only
      rw [renderFrame_eq, if_neg (hlen _ _ hr), hi, ← hh t']
    · rfl
    · rfl

-- the visible layers below and from layer 1 on, as masks
example : ∃ t', Sample.render ⟨true, 10⟩ Sample.picture 0 (.mask [true]) (List.replicate 24 0) = some (.ok (), t') ∧
    Sample.render ⟨true, 10⟩ Sample.picture 0 (.mask [false, true, false, true]) t' =
      Sample.render ⟨true, 10⟩ Sample.picture 0 .visible (List.replicate 24 0) := by
  refine ⟨[10, 20, 30, 255] ++ List.replicate 8 0 ++ [40, 50, 60, 255] ++ List.replicate 8 0, ?_⟩
  decide +kernel

end Ase
