import Verif.Props.Invisible

/-!
# C96: merging the lower layers
-/

namespace Ase

open Spec

/-- The cel `c` of the sprite `g` shows the picture in the buffer `pic`, drawn on the whole canvas with mode Normal and
full opacity. -/
def Spec.ShowsPicture (inflate : Inflater) (g : AsepriteFile) (sel : LayerSelection) (c : FrameCel) (pic : Bytes) : Prop :=
  (∃ layer, drawnOn g sel c = some layer ∧ layer.blendMode = .normal ∧ layer.opacity = 255) ∧
  ∀ x y, x < g.size.1.toNat → y < g.size.2.toNat →
    (coveredBy c x y).bind (imageColor inflate g c.imageIndex) = canvasPixel g pic x y

/-- **C96.** Merging the lower layers of a frame is exact.  Render the selected layers below number `k`; let another sprite
of the same size have, in some frame, one cel with that picture (drawn with mode Normal and full opacity) in their place,
below cels that paint the same as the layers from `k` on.  Then both frames look exactly the same, byte for byte, on every
canvas pixel that was fully transparent before, and wherever the merged picture is opaque; so they give the same buffer
if that holds for the whole canvas. -/
theorem C96_merge (plat : Plat) (b b' : Bytes) (f g : AsepriteFile) (hf : AsepriteFile.load plat b = .ok f)
    (hg : AsepriteFile.load plat b' = .ok g) (hz : f.size = g.size) (inflate : Inflater) (i j k : Nat) (lf lg : LFrame)
    (hi : f.frames[i]? = some lf) (hj : g.frames[j]? = some lg) (sel sel' low high : LayerSelection)
    (hlow : ∀ (l : Nat) (x : LLayer), f.layers[l]? = some x → (Selects low l x ↔ Selects sel l x ∧ l < k))
    (hhigh : ∀ (l : Nat) (x : LLayer), f.layers[l]? = some x → (Selects high l x ↔ Selects sel l x ∧ k ≤ l))
    (t merged t' u' : Bytes) (hm : f.renderFrame plat inflate i low t = (.ok (), merged))
    (ht : f.renderFrame plat inflate i sel t = (.ok (), t')) (hu : g.renderFrame plat inflate j sel' t = (.ok (), u'))
    (c : FrameCel) (cs : List FrameCel) (hl : lg.cels = c :: cs) (hc : ShowsPicture inflate g sel' c merged)
    (hs : ∀ x y, strokes inflate g sel' x y cs = strokes inflate f high x y lf.cels) :
    (∀ x y before p, x < f.size.1.toNat → y < f.size.2.toNat → canvasPixel f t x y = some before →
      canvasPixel f merged x y = some p → before.a = 0 ∨ p.a = 255 → canvasPixel f t' x y = canvasPixel g u' x y) ∧
    ((∀ x y before p, x < f.size.1.toNat → y < f.size.2.toNat → canvasPixel f t x y = some before →
      canvasPixel f merged x y = some p → before.a = 0 ∨ p.a = 255) → t' = u') := by
  have hcp : ∀ b x y, canvasPixel g b x y = canvasPixel f b x y := by
    intro b x y
    unfold canvasPixel
    rw [show f.file.header.width = g.file.header.width from congrArg Prod.fst hz]
  have hh : f.renderFrame plat inflate i high merged = (.ok (), t') := by
    have h := C53_incremental plat b f hf inflate i k sel low high hlow hhigh t
    rw [hm, ht] at h
    exact h.symm
  have key : ∀ x y before p, x < f.size.1.toNat → y < f.size.2.toNat → canvasPixel f t x y = some before →
      canvasPixel f merged x y = some p → before.a = 0 ∨ p.a = 255 →
      canvasPixel f t' x y = canvasPixel g u' x y := by
    intro x y before p hx hy hb hp hor
    obtain ⟨c1, d1, h1, h2, h3⟩ := C37_pixels plat b f hf inflate i lf hi high merged t' hh x y hx hy
    obtain ⟨c2, d2, h1', h2', h3'⟩ := C37_pixels plat b' g hg inflate j lg hj sel' t u' hu x y (hz ▸ hx) (hz ▸ hy)
    rw [hp] at h1
    cases h1
    rw [hcp, hb] at h1'
    cases h1'
    obtain ⟨⟨layer, hd, hn, ho⟩, hpic⟩ := hc
    have hst : strokeOf inflate g sel' x y c = some ⟨.normal, 255, p⟩ := by
      have h := hpic x y (hz ▸ hx) (hz ▸ hy)
      rw [hcp, hp] at h
      unfold strokeOf
      rw [hd, Option.bind_some]
      obtain ⟨q, hq, hq'⟩ := Option.bind_eq_some_iff.1 h
      rw [hq, Option.bind_some, hq', Option.map_some, hn, ho]
    have hbl : blend plat .normal before p 255 = .ok p := by
      rw [blend_normal]
      rcases hor with h0 | h0
      · rw [normalU, if_pos h0, timesU_255]
      · rw [normalU_opaque _ _ h0]
    rw [compose_strokes] at h3 h3'
    rw [hl, strokes, List.filterMap_cons, hst] at h3'
    dsimp only at h3'
    rw [List.foldl_cons, show (Outcome.ok before : Run Color).bind (fun c => blend plat .normal c p 255) = .ok p from hbl] at h3'
    rw [show cs.filterMap (strokeOf inflate g sel' x y) = strokes inflate f high x y lf.cels from hs x y, h3] at h3'
    cases h3'
    rw [h2, h2']
  refine ⟨key, fun hall => same_buffer hf hg hz ht hu fun x y hx hy => ?_⟩
  obtain ⟨c1, d1, h1, h2, _⟩ := C37_pixels plat b f hf inflate i lf hi low t merged hm x y hx hy
  exact key x y c1 d1 hx hy h1 h2 (hall x y c1 d1 hx hy h1 h2)

/-- Three layers, of which the lower two are merged; on a cleared canvas the result is the same. -/
example :
    let b := Sample.header 1 1 32 ++ Sample.frame 1 [Sample.layer 1 0 0 255 [65], Sample.layer 1 0 1 200 [66],
      Sample.layer 1 0 2 255 [67],
      Sample.cel 0 0 0 1 1 [10, 80, 5, 100], Sample.cel 1 0 0 1 1 [55, 255, 15, 130], Sample.cel 2 0 0 1 1 [70, 60, 50, 77]]
    let b' := Sample.header 1 1 32 ++ Sample.frame 1 [Sample.layer 1 0 0 255 [65], Sample.layer 1 0 2 255 [67],
      Sample.cel 0 0 0 1 1 [22, 136, 6, 162], Sample.cel 1 0 0 1 1 [70, 60, 50, 77]]
    Sample.render ⟨true, 10⟩ b 0 (.mask [true, true]) [0, 0, 0, 0] = some (.ok (), [22, 136, 6, 162]) ∧
    Sample.render ⟨true, 10⟩ b 0 .all [0, 0, 0, 0] = some (.ok (), [45, 135, 24, 190]) ∧
    Sample.render ⟨true, 10⟩ b' 0 .all [0, 0, 0, 0] = some (.ok (), [45, 135, 24, 190]) ∧
    (match AsepriteFile.load ⟨true, 10⟩ b, AsepriteFile.load ⟨true, 10⟩ b' with
      | .ok f, .ok g =>
        (match f.frames[0]?, g.frames[0]? with
          | some lf, some lg =>
            decide (lg.cels.length = 2 ∧ strokes (fun _ _ => (.streamEnd, [])) g .all 0 0 (lg.cels.drop 1) =
              strokes (fun _ _ => (.streamEnd, [])) f (.mask [false, false, true]) 0 0 lf.cels ∧
              (lg.cels.head?.bind fun c => (coveredBy c 0 0).bind
                (imageColor (fun _ _ => (.streamEnd, [])) g c.imageIndex)) = canvasPixel g [22, 136, 6, 162] 0 0)
          | _, _ => false)
      | _, _ => false) = true := by
  decide +kernel

/-- Merging two layers that have a translucent one below them is not exact: rounding shows. -/
theorem C96_rounding :
    let lower := Sample.cel 0 0 0 1 1 [200, 10, 90, 50]
    let b := Sample.header 1 1 32 ++ Sample.frame 1 [Sample.layer 1 0 0 255 [65], Sample.layer 1 0 0 255 [66],
      Sample.layer 1 0 0 255 [67], lower, Sample.cel 1 0 0 1 1 [10, 80, 5, 100], Sample.cel 2 0 0 1 1 [55, 255, 15, 130]]
    let b' := Sample.header 1 1 32 ++ Sample.frame 1 [Sample.layer 1 0 0 255 [65], Sample.layer 1 0 0 255 [66],
      lower, Sample.cel 1 0 0 1 1 [42, 207, 12, 179]]
    Sample.render ⟨true, 10⟩ b 0 (.mask [false, true, true]) [0, 0, 0, 0] = some (.ok (), [42, 207, 12, 179]) ∧
    Sample.render ⟨true, 10⟩ b 0 .all [0, 0, 0, 0] ≠ Sample.render ⟨true, 10⟩ b' 0 .all [0, 0, 0, 0] := by
  decide +kernel

end Ase
