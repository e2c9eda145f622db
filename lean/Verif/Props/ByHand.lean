import Verif.Spec.ByHand
import Verif.Props.Render

/-!
# C124: rendering by hand
-/

namespace Ase

open Spec

theorem coveredBy_lt {c : FrameCel} {x y p : Nat} (h : coveredBy c x y = some p) : p < c.size.1.toNat * c.size.2.toNat := by
  unfold coveredBy at h
  dsimp only at h
  split at h
  · cases h
    exact row_major (by omega) (by omega)
  · cases h

theorem fetch_iff {f : AsepriteFile} {pal : Palette} (hpal : GoodPalette f.file pal) (inflate : Inflater) {c : FrameCel}
    {im : Image} (him : f.images[c.imageIndex]? = some im) (hs : c.size = (im.width, im.height)) :
    ((fetch inflate f c).1 = .ok () ↔ HasPixels inflate f.file im) ∧
    (HasPixels inflate f.file im → ∀ p, p < c.size.1.toNat * c.size.2.toNat →
      ∃ color, pixel (fetch inflate f c).2 p = some color ∧ imageColor inflate f c.imageIndex p = some color) := by
  have e : c.size.1.toNat * c.size.2.toNat = pixelCount im := by rw [hs]; rfl
  unfold fetch
  rw [e]
  obtain ⟨h1, h2⟩ := loadImage_fresh hpal inflate him
  refine ⟨⟨fun h => Classical.byContradiction fun hn => ?_, fun h => ?_⟩, fun h p hp => ?_⟩
  · exact h2 hn _ (Prod.ext h rfl)
  · obtain ⟨c', hc, -, -⟩ := h1 h
    rw [hc]
  · obtain ⟨c', hc, hl, h3⟩ := h1 h
    rw [hc]
    obtain ⟨color, hcol, -⟩ := split_at_pixel (t := c') (q := p) (by omega)
    exact ⟨color, hcol, (h3 p hp).symm.trans hcol⟩

theorem byHand_eq {plat : Plat} {inflate : Inflater} {f : AsepriteFile} {pal : Palette} (hpal : GoodPalette f.file pal)
    {sel : LayerSelection} {x y : Nat} : ∀ (cels : List FrameCel), CelsOk f cels →
    (∀ c ∈ cels, ∀ layer, drawnOn f sel c = some layer → (fetch inflate f c).1 = .ok ()) → ∀ back out,
    byHand plat inflate f sel x y cels back = some out ↔ compose plat inflate f sel x y cels back = .ok out
  | [], _, _, back, out => by simp [byHand, compose]
  | cel :: cels, hc, hf, back, out => by
    have ih := byHand_eq (plat := plat) (inflate := inflate) hpal (sel := sel) (x := x) (y := y) cels
      (fun c hm => hc c (List.mem_cons_of_mem _ hm)) fun c hm => hf c (List.mem_cons_of_mem _ hm)
    rw [byHand, compose]
    cases hd : drawnOn f sel cel with
    | none => exact ih back out
    | some layer =>
      cases hp : coveredBy cel x y with
      | none => exact ih back out
      | some p =>
        obtain ⟨im, him, hs⟩ := hc cel List.mem_cons_self
        obtain ⟨e1, e2⟩ := fetch_iff hpal inflate him hs
        have hok := hf cel List.mem_cons_self layer hd
        obtain ⟨front, hpix, hcol⟩ := e2 (e1.1 hok) p (coveredBy_lt hp)
        rcases hq : fetch inflate f cel with ⟨r, picture⟩
        rw [hq] at hok hpix
        dsimp only at hok hpix
        subst hok
        dsimp only [Option.bind_some]
        rw [hpix, hcol]
        dsimp only
        cases blend plat layer.blendMode back front layer.opacity with
        | ok o => exact ih o out
        | err e => exact nomatch e
        | panic k => simp [Outcome.bind]

/-- **C124.** Whoever asks for the images with `load_image`, on zeroed buffers of the sizes the cels tell, and draws them
at the positions the cels tell, in their order, leaving out those of groups and of layers not selected, with the blend
modes and opacities the layers tell, gets exactly the picture of `render_frame`.  And `render_frame` succeeds exactly if
`load_image` does for all these cels, their blend modes are known, and blending fails at no pixel of the canvas. -/
theorem C124_by_hand (plat : Plat) (b : Bytes) (f : AsepriteFile) (h : AsepriteFile.load plat b = .ok f)
    (inflate : Inflater) (i : Nat) (lf : LFrame) (hi : f.frames[i]? = some lf) (sel : LayerSelection) (t : Bytes)
    (ht : f.size.1.toNat * f.size.2.toNat * 4 ≤ t.length) :
    let result := (f.renderFrame plat inflate i sel t).1
    let after := (f.renderFrame plat inflate i sel t).2
    (result = .ok () ↔
      (∀ c ∈ lf.cels, ∀ layer, drawnOn f sel c = some layer →
        (fetch inflate f c).1 = .ok () ∧ isKnown layer.blendMode = true) ∧
      ∀ x y back, x < f.size.1.toNat → y < f.size.2.toNat → canvasPixel f t x y = some back →
        (byHand plat inflate f sel x y lf.cels back).isSome = true) ∧
    (result = .ok () → ∀ x y, x < f.size.1.toNat → y < f.size.2.toNat →
      ∃ back, canvasPixel f t x y = some back ∧ canvasPixel f after x y = byHand plat inflate f sel x y lf.cels back) := by
  intro result after
  obtain ⟨pal, hpal⟩ := goodPalette_of_load h
  have hc := celsOk_of_load h hi
  have hd := renderFrame_spec h inflate hi sel ht
  have hfetch : (∀ c ∈ lf.cels, ∀ layer, drawnOn f sel c = some layer →
        (fetch inflate f c).1 = .ok () ∧ isKnown layer.blendMode = true) ↔
      ∀ c ∈ lf.cels, ∀ layer im, drawnOn f sel c = some layer → f.images[c.imageIndex]? = some im →
        HasPixels inflate f.file im ∧ isKnown layer.blendMode = true := by
    constructor
    · intro ha c hm layer im hl him
      obtain ⟨im', him', hs⟩ := hc c hm
      cases him.symm.trans him'
      exact ⟨(fetch_iff hpal inflate him hs).1.1 (ha c hm layer hl).1, (ha c hm layer hl).2⟩
    · intro ha c hm layer hl
      obtain ⟨im, him, hs⟩ := hc c hm
      exact ⟨(fetch_iff hpal inflate him hs).1.2 (ha c hm layer im hl him).1, (ha c hm layer im hl him).2⟩
  have key := fun (ha : ∀ c ∈ lf.cels, ∀ layer, drawnOn f sel c = some layer →
      (fetch inflate f c).1 = .ok () ∧ isKnown layer.blendMode = true) x y =>
    byHand_eq (plat := plat) (inflate := inflate) hpal (sel := sel) (x := x) (y := y) lf.cels hc
      fun c hm l hl => (ha c hm l hl).1
  have hiff := hd.ok_iff
  refine ⟨hiff.trans ?_, fun hok x y hx hy => ?_⟩
  · rw [← hfetch]
    refine and_congr_right fun ha => ?_
    constructor
    · intro hb x y back hx hy hback
      obtain ⟨out, ho⟩ := hb x y back hx hy hback
      rw [(key ha x y back out).2 ho]
      rfl
    · intro hb x y back hx hy hback
      obtain ⟨out, ho⟩ := Option.isSome_iff_exists.1 (hb x y back hx hy hback)
      exact ⟨out, (key ha x y back out).1 ho⟩
  · obtain ⟨c, out, h1, h2, h3⟩ := hd.result hok x y hx hy
    refine ⟨c, h1, h3.trans ?_⟩
    exact ((key (hfetch.2 (hiff.1 hok).1) x y c out).2 h2).symm

/-! The picture of `Sample.picture`, drawn by hand. -/
example : (match AsepriteFile.load ⟨true, 10⟩ Sample.picture with
    | .ok f => f.frames.map (fun lf => lf.cels.map fun c => (fetch Sample.inflate f c).1 == .ok ()) == [[true, true, true, true]] &&
        f.frames.map (fun lf => (List.range 6).map fun q =>
          byHand ⟨true, 10⟩ Sample.inflate f .visible (q % 3) (q / 3) lf.cels ⟨0, 0, 0, 0⟩) ==
          [[some ⟨10, 20, 30, 255⟩, some ⟨0, 0, 0, 0⟩, some ⟨0, 0, 0, 0⟩, some ⟨40, 38, 51, 255⟩, some ⟨200, 150, 100, 64⟩,
            some ⟨0, 0, 0, 0⟩]]
    | _ => false) = true := by decide +kernel

/-! The compressed image of the only cel is damaged: neither way succeeds. -/
example : Sample.render ⟨true, 10⟩ (Sample.header 1 1 32 ++ Sample.frame 1 [Sample.layer 1 0 0 255 [65],
      Sample.zcel 0 0 0 1 1 [1, 2, 3]]) 0 .all [0, 0, 0, 0] = some (.panic .unwrapOnErr, [0, 0, 0, 0]) ∧
    (match AsepriteFile.load ⟨true, 10⟩ (Sample.header 1 1 32 ++ Sample.frame 1 [Sample.layer 1 0 0 255 [65],
        Sample.zcel 0 0 0 1 1 [1, 2, 3]]) with
      | .ok f => f.frames.map (fun lf => (lf.cels.map fun c => (fetch Sample.inflate f c).1 == .ok (),
          byHand ⟨true, 10⟩ Sample.inflate f .all 0 0 lf.cels ⟨0, 0, 0, 0⟩)) == [([false], none)]
      | _ => false) = true := by decide +kernel

end Ase
