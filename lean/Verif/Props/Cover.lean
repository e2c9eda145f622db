import Verif.Props.Look

/-!
# C74: what is on top
-/

namespace Ase

open Spec

theorem compose_append (plat : Plat) (inflate : Inflater) (f : AsepriteFile) (sel : LayerSelection) (x y : Nat)
    (cs ds : List FrameCel) (c : Color) : compose plat inflate f sel x y (cs ++ ds) c =
      (compose plat inflate f sel x y cs c).bind (compose plat inflate f sel x y ds) := by
  induction cs generalizing c with
  | nil => rfl
  | cons a cs ih =>
    simp only [List.cons_append, compose]
    split
    · next layer front h1 h2 =>
      cases blend plat layer.blendMode c front layer.opacity with
      | ok c' => simp only [Outcome.bind]; exact ih c'
      | err e => rfl
      | panic k => rfl
    · exact ih c

/-- **C74 (hidden).** An opaque pixel on a layer of full opacity and mode Normal hides everything below: what is on the
canvas there after rendering a frame is that pixel, composed with the cels above it.  It does not depend on the cels below,
their layers and images, nor on what was in the buffer. -/
theorem C74_hidden (plat : Plat) (b : Bytes) (f : AsepriteFile) (h : AsepriteFile.load plat b = .ok f)
    (inflate : Inflater) (i : Nat) (lf : LFrame) (hi : f.frames[i]? = some lf) (sel : LayerSelection) (t t' : Bytes)
    (hok : f.renderFrame plat inflate i sel t = (.ok (), t')) (x y : Nat) (hx : x < f.size.1.toNat)
    (hy : y < f.size.2.toNat) (below above : List FrameCel) (c : FrameCel) (hc : lf.cels = below ++ c :: above)
    (front : Color) (hp : Paints inflate f sel x y c front) :
    ∃ after, canvasPixel f t' x y = some after ∧ compose plat inflate f sel x y above front = .ok after := by
  obtain ⟨before, after, -, h2, h3⟩ := C37_pixels plat b f h inflate i lf hi sel t t' hok x y hx hy
  refine ⟨after, h2, ?_⟩
  obtain ⟨layer, p, hd, hm, ho, hcov, hcol, ha⟩ := hp
  rw [hc, compose_append] at h3
  cases h4 : compose plat inflate f sel x y below before with
  | err e => exact e.elim
  | panic k => rw [h4] at h3; simp [Outcome.bind] at h3
  | ok q =>
    rw [h4] at h3
    simp only [Outcome.bind, compose, hd, hcov, hcol, Option.bind_some, hm, ho] at h3
    obtain ⟨r, hr, hr2, -⟩ := C46_normal plat q front 255
    rw [hr] at h3
    rw [hr2 ha rfl] at h3
    exact h3

/-- **C74 (buffers).** Where a frame has such a pixel, the picture does not depend on what was in the buffer; in particular
rendering the frame again over itself changes nothing there. -/
theorem C74_any_buffer (plat : Plat) (b : Bytes) (f : AsepriteFile) (h : AsepriteFile.load plat b = .ok f)
    (inflate : Inflater) (i : Nat) (lf : LFrame) (hi : f.frames[i]? = some lf) (sel : LayerSelection) (t u t' u' : Bytes)
    (ht : f.renderFrame plat inflate i sel t = (.ok (), t')) (hu : f.renderFrame plat inflate i sel u = (.ok (), u'))
    (x y : Nat) (hx : x < f.size.1.toNat) (hy : y < f.size.2.toNat) (c : FrameCel) (hc : c ∈ lf.cels) (front : Color)
    (hp : Paints inflate f sel x y c front) : canvasPixel f t' x y = canvasPixel f u' x y := by
  obtain ⟨below, above, hl⟩ := List.append_of_mem hc
  obtain ⟨q, h1, h2⟩ := C74_hidden plat b f h inflate i lf hi sel t t' ht x y hx hy below above c hl front hp
  obtain ⟨r, h3, h4⟩ := C74_hidden plat b f h inflate i lf hi sel u u' hu x y hx hy below above c hl front hp
  rw [h2] at h4
  cases h4
  rw [h1, h3]

/-- **C74 (on top).** If no drawn cel above covers the pixel, it is shown as it is stored. -/
theorem C74_on_top (plat : Plat) (b : Bytes) (f : AsepriteFile) (h : AsepriteFile.load plat b = .ok f)
    (inflate : Inflater) (i : Nat) (lf : LFrame) (hi : f.frames[i]? = some lf) (sel : LayerSelection) (t t' : Bytes)
    (hok : f.renderFrame plat inflate i sel t = (.ok (), t')) (x y : Nat) (hx : x < f.size.1.toNat)
    (hy : y < f.size.2.toNat) (below above : List FrameCel) (c : FrameCel) (hc : lf.cels = below ++ c :: above)
    (front : Color) (hp : Paints inflate f sel x y c front)
    (ha : ∀ d ∈ above, drawnOn f sel d = none ∨ coveredBy d x y = none) : canvasPixel f t' x y = some front := by
  obtain ⟨after, h1, h2⟩ := C74_hidden plat b f h inflate i lf hi sel t t' hok x y hx hy below above c hc front hp
  have key : ∀ (l : List FrameCel), (∀ d ∈ l, drawnOn f sel d = none ∨ coveredBy d x y = none) → ∀ q,
      compose plat inflate f sel x y l q = .ok q := by
    intro l
    induction l with
    | nil => intro _ q; rfl
    | cons d l ih =>
      intro hl q
      rw [compose]
      have hr := ih (fun e he => hl e (by simp [he])) q
      rcases hl d (by simp) with h | h
      · simpa only [h] using hr
      · simp only [h, Option.bind_none]
        cases drawnOn f sel d <;> exact hr
  rw [key above ha] at h2
  cases h2
  exact h1

/-- Three layers, one pixel: translucent, opaque, translucent.  The first one does not matter, nor the buffer. -/
example :
    let b (first : Bytes) := Sample.header 1 1 32 ++ Sample.frame 10
      [Sample.layer 1 0 0 255 [65], Sample.layer 1 0 0 255 [66], Sample.layer 1 0 0 255 [67],
       Sample.cel 0 0 0 1 1 first, Sample.cel 1 0 0 1 1 [10, 20, 30, 255], Sample.cel 2 0 0 1 1 [200, 100, 50, 128]]
    (match AsepriteFile.load ⟨false, 10⟩ (b [1, 2, 3, 4]) with
      | .ok f => (match f.frames[0]? with
        | some lf => (match lf.cels[1]? with
          | some c => decide (drawnOn f .all c = some ⟨"B", 255, .normal, true, .normal⟩ ∧ coveredBy c 0 0 = some 0 ∧
              imageColor Sample.inflate f c.imageIndex 0 = some ⟨10, 20, 30, 255⟩)
          | none => false)
        | none => false)
      | _ => false) = true ∧
    Sample.render ⟨false, 10⟩ (b [1, 2, 3, 4]) 0 .all [0, 0, 0, 0] = some (.ok (), [105, 60, 40, 255]) ∧
    Sample.render ⟨false, 10⟩ (b [9, 9, 9, 99]) 0 .all [7, 7, 7, 7] = some (.ok (), [105, 60, 40, 255]) := by
  decide +kernel

end Ase
