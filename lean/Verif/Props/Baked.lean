import Mathlib.Data.List.Forall2
import Verif.Props.Channels
import Verif.Props.Algebra
import Verif.Spec.Baked

/-!
# C102: opacity can be moved into the pixels
-/

namespace Ase

open Spec

/-- `normal` depends on alpha and opacity only through their product. -/
theorem normalU_effect (back : Color) (r g b a a' o o' : UInt8) (h : timesU a o = timesU a' o') :
    normalU back ⟨r, g, b, a⟩ o = normalU back ⟨r, g, b, a'⟩ o' := by
  have clear : ∀ (a o : UInt8), back.a ≠ 0 → timesU a o = 0 → normalU back ⟨r, g, b, a⟩ o = back := by
    intro a o hb h0
    unfold normalU
    rw [if_neg hb]
    split
    · rfl
    · simp only [h0, overC, overA, timesU_zero, show toI 0 = 0 from rfl, Int.mul_zero, Int.zero_tdiv, Int.add_zero,
        Int.zero_add, Int.sub_zero, asU8_toI]
  by_cases hb : back.a = 0
  · simp only [normalU, hb, if_true, h]
  · by_cases h0 : timesU a o = 0
    · rw [clear a o hb h0, clear a' o' hb (h ▸ h0)]
    · have ha : a ≠ 0 := fun e => h0 (by rw [e, zero_timesU])
      have ha' : a' ≠ 0 := fun e => h0 (by rw [h, e, zero_timesU])
      simp only [normalU, if_neg hb, if_neg ha, if_neg ha', h]

theorem blenderU_effect (back : Color) (r g b a a' o o' : UInt8) (h : timesU a o = timesU a' o') (x : Color) :
    blenderU back ⟨r, g, b, a⟩ o x = blenderU back ⟨r, g, b, a'⟩ o' x := by
  unfold blenderU
  rw [normalU_effect back r g b a a' o o' h]
  simp only [h]

/-- Strokes of the same effect act alike on every colour. -/
theorem blend_effect (plat : Plat) (m : BlendMode) (hm : isSeparable m) (back c c' : Color) (o o' : UInt8)
    (hc : (c.r, c.g, c.b) = (c'.r, c'.g, c'.b)) (h : times c.a.toNat o.toNat = times c'.a.toNat o'.toNat) :
    blend plat m back c o = blend plat m back c' o' := by
  obtain ⟨r, g, b, a⟩ := c
  obtain ⟨r', g', b', a'⟩ := c'
  simp only [Prod.mk.injEq] at hc
  obtain ⟨rfl, rfl, rfl⟩ := hc
  have hu : timesU a o = timesU a' o' := UInt8.toNat_inj.1 (by rw [timesU_toNat, timesU_toNat]; exact h)
  have key : ∀ f, channelFn m = some f → blend plat m back ⟨r, g, b, a⟩ o = blend plat m back ⟨r, g, b, a'⟩ o' := by
    intro f hf
    rw [blend_mode plat m f hf, blend_mode plat m f hf]
    unfold modeU chanU
    dsimp only
    rw [normalU_effect back _ _ _ a a' o o' hu, blenderU_effect back r g b a a' o o' hu]
  cases m
  case softLight =>
    rw [blend_softLight, blend_softLight]
    unfold softColor
    dsimp only
    rw [normalU_effect back _ _ _ a a' o o' hu, blenderU_effect back r g b a a' o o' hu]
  case unknown => cases hm
  case hue => cases hm
  case saturation => cases hm
  case color => cases hm
  case luminosity => cases hm
  all_goals exact key _ rfl

/-- **C102.** In every mode except those on hue, saturation and luminosity two colours painted with two opacities act
alike on every backdrop if, and only if, their red, green and blue are the same and the rounded products of alpha and
opacity are. -/
theorem C102_effect (plat : Plat) (m : BlendMode) (hm : isSeparable m) (c c' : Color) (o o' : UInt8) :
    (∀ back, blend plat m back c o = blend plat m back c' o') ↔
      (c.r, c.g, c.b) = (c'.r, c'.g, c'.b) ∧ roundDiv (c.a.toNat * o.toNat) 255 = roundDiv (c'.a.toNat * o'.toNat) 255 := by
  refine ⟨fun h => ?_, fun h back => blend_effect plat m hm back c c' o o' h.1 h.2⟩
  have clear : ∀ (c : Color) (o : UInt8), blend plat m ⟨0, 0, 0, 0⟩ c o = .ok ⟨c.r, c.g, c.b, timesU c.a o⟩ := by
    intro c o
    have key : ∀ f, channelFn m = some f → blend plat m ⟨0, 0, 0, 0⟩ c o = .ok ⟨c.r, c.g, c.b, timesU c.a o⟩ := by
      intro f hf
      rw [blend_mode plat m f hf]
      rfl
    cases m
    case softLight => rw [blend_softLight]; rfl
    case unknown => cases hm
    case hue => cases hm
    case saturation => cases hm
    case color => cases hm
    case luminosity => cases hm
    all_goals exact key _ rfl
  have h0 := h ⟨0, 0, 0, 0⟩
  rw [clear, clear] at h0
  simp only [Outcome.ok.injEq, Color.mk.injEq] at h0
  refine ⟨by rw [h0.1, h0.2.1, h0.2.2.1], ?_⟩
  have := congrArg UInt8.toNat h0.2.2.2
  rw [timesU_toNat, timesU_toNat] at this
  exact this

/-- In particular a colour painted with some opacity acts like the faded colour painted fully. -/
theorem C102_fade (plat : Plat) (m : BlendMode) (hm : isSeparable m) (back c : Color) (o : UInt8) :
    blend plat m back c o = blend plat m back (fade o c) 255 := by
  have h : (fade o c).a = timesU c.a o := rfl
  refine blend_effect plat m hm back c (fade o c) o 255 rfl ?_
  have h2 := congrArg UInt8.toNat (timesU_255 (timesU c.a o))
  rw [timesU_toNat, timesU_toNat] at h2
  rw [h, timesU_toNat]
  exact h2.symm

example : isSeparable .multiply ∧ fade 100 ⟨200, 100, 50, 130⟩ = ⟨200, 100, 50, 51⟩ ∧
    blend ⟨true, 0⟩ .multiply ⟨10, 200, 90, 170⟩ ⟨200, 100, 50, 130⟩ 100 = .ok ⟨25, 169, 74, 187⟩ ∧
    blend ⟨true, 0⟩ .multiply ⟨10, 200, 90, 170⟩ ⟨200, 100, 50, 51⟩ 255 = .ok ⟨25, 169, 74, 187⟩ ∧
    roundDiv (130 * 100) 255 = roundDiv (52 * 250) 255 ∧
    blend ⟨true, 0⟩ .multiply ⟨10, 200, 90, 170⟩ ⟨200, 100, 50, 52⟩ 250 = .ok ⟨25, 169, 74, 187⟩ := by
  decide +kernel

/-- The four modes on hue, saturation, colour and luminosity are left out for a reason: in each of them there is a colour
which, faded, gives a different alpha. -/
theorem C102_hsl_false (m : BlendMode) (hm : isHsl m) : ∃ back c d d' o, blend ⟨false, 0⟩ m back c o = .ok d ∧
    blend ⟨false, 0⟩ m back (fade o c) 255 = .ok d' ∧ d.a ≠ d'.a := by
  refine ⟨⟨10, 200, 90, 170⟩, ⟨200, 100, 50, 130⟩, ?_⟩
  cases m
  case hue => exact ⟨⟨71, 173, 74, 186⟩, ⟨175, 129, 43, 223⟩, 100, by decide +kernel⟩
  case saturation => exact ⟨⟨60, 202, 116, 186⟩, ⟨140, 225, 184, 223⟩, 100, by decide +kernel⟩
  case color => exact ⟨⟨71, 173, 74, 186⟩, ⟨175, 129, 43, 223⟩, 100, by decide +kernel⟩
  case luminosity => exact ⟨⟨34, 202, 109, 186⟩, ⟨57, 225, 161, 223⟩, 100, by decide +kernel⟩
  all_goals cases hm

/-- **C102 (pixels).** Two pixels of the same colour on which strokes of the same effect are painted, in the same order,
have the same colour afterwards. -/
theorem C102_strokes (plat : Plat) (b b' : Bytes) (f g : AsepriteFile) (hf : AsepriteFile.load plat b = .ok f)
    (hg : AsepriteFile.load plat b' = .ok g) (inflate : Inflater) (i j : Nat) (lf lg : LFrame)
    (hi : f.frames[i]? = some lf) (hj : g.frames[j]? = some lg) (sel sel' : LayerSelection) (t t' u u' : Bytes)
    (ht : f.renderFrame plat inflate i sel t = (.ok (), t')) (hu : g.renderFrame plat inflate j sel' u = (.ok (), u'))
    (x y x' y' : Nat) (hx : x < f.size.1.toNat) (hy : y < f.size.2.toNat) (hx' : x' < g.size.1.toNat)
    (hy' : y' < g.size.2.toNat) (hb : canvasPixel f t x y = canvasPixel g u x' y')
    (hs : List.Forall₂ (fun s s' => isSeparable s.mode ∧ SameInk s s') (strokes inflate f sel x y lf.cels)
      (strokes inflate g sel' x' y' lg.cels)) :
    canvasPixel f t' x y = canvasPixel g u' x' y' := by
  obtain ⟨c, d, h1, h2, h3⟩ := C37_pixels plat b f hf inflate i lf hi sel t t' ht x y hx hy
  obtain ⟨c', d', h1', h2', h3'⟩ := C37_pixels plat b' g hg inflate j lg hj sel' u u' hu x' y' hx' hy'
  rw [h1, h1'] at hb
  cases hb
  rw [compose_strokes] at h3 h3'
  have : d = d' := by
    refine fold_related plat (fun c c' => c = c') _ ?_ hs rfl h3 h3'
    rintro s s' c _ d d' ⟨hm, e1, e2, e3⟩ rfl hd hd'
    rw [← e1, ← blend_effect plat s.mode hm c s.color s'.color s.opacity s'.opacity e2 e3, hd] at hd'
    cases hd'
    rfl
  rw [h2, h2', this]

/-- **C102 (frames).** Moving the opacities of the layers into the pixels of their cels changes no picture, unless a layer
has a mode on hue, saturation or luminosity: two frames, of one sprite or of two, whose cels are pairwise the same up to
that are rendered alike into the same buffer. -/
theorem C102_baked (plat : Plat) (b b' : Bytes) (f g : AsepriteFile) (hf : AsepriteFile.load plat b = .ok f)
    (hg : AsepriteFile.load plat b' = .ok g) (hz : f.size = g.size) (inflate : Inflater) (i j : Nat) (lf lg : LFrame)
    (hi : f.frames[i]? = some lf) (hj : g.frames[j]? = some lg) (sel sel' : LayerSelection) (t t' u' : Bytes)
    (ht : f.renderFrame plat inflate i sel t = (.ok (), t')) (hu : g.renderFrame plat inflate j sel' t = (.ok (), u'))
    (hm : ∀ c ∈ lf.cels, ∀ layer, drawnOn f sel c = some layer → isSeparable layer.blendMode)
    (hc : List.Forall₂ (FadedCel inflate f g sel sel') lf.cels lg.cels) : t' = u' := by
  refine same_buffer hf hg hz ht hu fun x y hx hy => ?_
  refine C102_strokes plat b b' f g hf hg inflate i j lf lg hi hj sel sel' t t' t u' ht hu x y x y hx hy
    (hz ▸ hx) (hz ▸ hy) ?_ ?_
  · unfold canvasPixel
    rw [show f.file.header.width = g.file.header.width from congrArg Prod.fst hz]
  · clear hi hj ht hu
    revert hm hc
    generalize lf.cels = cels
    generalize lg.cels = cels'
    intro hm hc
    induction hc with
    | nil => exact .nil
    | @cons c c' l l' h _ ih =>
      have ih := ih fun x hx => hm x (List.mem_cons_of_mem _ hx)
      have hm := hm c List.mem_cons_self
      obtain ⟨h1, h2, h3⟩ := h
      have hcov : coveredBy c x y = coveredBy c' x y := by simp only [coveredBy, h1, h2]
      unfold strokes at ih ⊢
      rw [List.filterMap_cons, List.filterMap_cons]
      unfold strokeOf
      cases hd : drawnOn f sel c with
      | none =>
        cases hd' : drawnOn g sel' c' with
        | none => exact ih
        | some l' => rw [hd, hd'] at h3; exact h3.elim
      | some l =>
        cases hd' : drawnOn g sel' c' with
        | none => rw [hd, hd'] at h3; exact h3.elim
        | some l' =>
          rw [hd, hd'] at h3
          obtain ⟨e1, e2, e3⟩ := h3
          rw [hcov]
          cases hp : coveredBy c' x y with
          | none => exact ih
          | some p =>
            simp only [Option.bind_some, e3 p (covered_lt (hcov.trans hp))]
            cases hcol : imageColor inflate f c.imageIndex p with
            | none => exact ih
            | some col =>
              refine .cons ⟨hm l hd, e1, rfl, ?_⟩ ih
              have h2 := congrArg UInt8.toNat (timesU_255 (timesU col.a l.opacity))
              rw [timesU_toNat, timesU_toNat] at h2
              rw [e2, show (fade l.opacity col).a = timesU col.a l.opacity from rfl, timesU_toNat]
              exact h2.symm

/-- A layer of opacity 100 with two pixels, and the same layer, opaque, with the pixels faded: the hypotheses are met, and
both are rendered alike. -/
example :
    let b := Sample.header 2 1 32 ++ Sample.frame 1 [Sample.layer 1 0 1 100 [65],
      Sample.cel 0 0 0 2 1 [200, 100, 50, 130, 9, 8, 7, 255]]
    let b' := Sample.header 2 1 32 ++ Sample.frame 1 [Sample.layer 1 0 1 255 [65],
      Sample.cel 0 0 0 2 1 [200, 100, 50, 51, 9, 8, 7, 100]]
    (match AsepriteFile.load ⟨true, 10⟩ b, AsepriteFile.load ⟨true, 10⟩ b' with
      | .ok f, .ok g =>
        (match f.frames[0]?, g.frames[0]? with
          | some lf, some lg =>
            (match lf.cels, lg.cels with
              | [c], [c'] => decide (c.origin = c'.origin ∧ c.size = c'.size) &&
                (match drawnOn f .visible c, drawnOn g .visible c' with
                  | some l, some l' => isSeparable l.blendMode && decide (l.blendMode = l'.blendMode) &&
                      decide (l'.opacity = 255) && decide (c.size.1.toNat * c.size.2.toNat = 2) &&
                      [0, 1].all fun p => (imageColor Sample.inflate f c.imageIndex p).isSome &&
                        decide (imageColor Sample.inflate g c'.imageIndex p
                          = (imageColor Sample.inflate f c.imageIndex p).map (fade l.opacity))
                  | _, _ => false)
              | _, _ => false)
          | _, _ => false)
      | _, _ => false) = true ∧
    Sample.render ⟨true, 10⟩ b 0 .visible [10, 200, 90, 170, 5, 6, 7, 255] =
      some (.ok (), [25, 169, 74, 187, 4, 4, 5, 255]) ∧
    Sample.render ⟨true, 10⟩ b' 0 .visible [10, 200, 90, 170, 5, 6, 7, 255] =
      some (.ok (), [25, 169, 74, 187, 4, 4, 5, 255]) := by
  decide +kernel

end Ase
