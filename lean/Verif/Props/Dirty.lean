import Verif.Props.Restack

/-!
# C123: what changes from one frame to another
-/

namespace Ase

open Spec

theorem drawings_on_pixel {raw : RawFile} {sel : LayerSelection} {i j x y : Nat}
    (h : ∀ (l : Nat) (c : LayerChunk), (Doc.layers raw)[l]? = some c → drawsLayer sel l c = true →
      shown raw i l ≠ shown raw j l →
      (∀ s, shown raw i l = some s → ¬ LiesOn s x y) ∧ ∀ s, shown raw j l = some s → ¬ LiesOn s x y) :
    (drawings raw sel i).filter (·.liesOn x y) = (drawings raw sel j).filter (·.liesOn x y) := by
  rw [drawings_of, drawings_of, List.filter_filterMap, List.filter_filterMap]
  refine List.filterMap_congr fun l _ => ?_
  have away : ∀ k, (∀ s, shown raw k l = some s → ¬ LiesOn s x y) → (drawingOf raw sel k l).filter (·.liesOn x y) = none := by
    intro k hk
    cases hd : drawingOf raw sel k l with
    | none => rfl
    | some d =>
      obtain ⟨c, -, -, h3⟩ := drawingOf_some hd
      rw [Option.filter_some, if_neg]
      exact fun hl => hk _ h3 (of_decide_eq_true hl)
  by_cases e : shown raw i l = shown raw j l
  · have : drawingOf raw sel i l = drawingOf raw sel j l := by
      unfold drawingOf
      rw [e]
    rw [this]
  · cases hc : (Doc.layers raw)[l]? with
    | none =>
      unfold drawingOf
      rw [hc]
    | some c =>
      cases hd : drawsLayer sel l c with
      | true =>
        obtain ⟨h1, h2⟩ := h l c hc hd e
        rw [away i h1, away j h2]
      | false =>
        have none : ∀ k, drawingOf raw sel k l = none := by
          intro k
          unfold drawingOf
          rw [hc]
          cases shown raw k l with
          | none => rfl
          | some s => simp only [hd, Bool.false_eq_true, if_false]
        rw [none i, none j]

/-- **C123.** Two frames of a file are rendered on equal canvases, with the same selection of layers.  A pixel which is
different in the two pictures lies on the image of a selected layer that shows something else in the one frame than in the
other: on the image it shows in the one, or on the one it shows in the other.  (What a layer shows is its cel's position and
image, or those it links to.)  So someone who plays an animation has to refresh only these places. -/
theorem C123_dirty (plat : Plat) (b : Bytes) (raw : RawFile) (hr : parseRawFile plat b = .ok raw) (f : AsepriteFile)
    (hf : AsepriteFile.load plat b = .ok f) (ht : NoTilemaps raw) (inflate : Inflater) (i j : Nat) (sel : LayerSelection)
    (t u t' u' : Bytes) (hi : f.renderFrame plat inflate i sel t = (.ok (), t'))
    (hj : f.renderFrame plat inflate j sel u = (.ok (), u')) (x y : Nat) (hx : x < f.size.1.toNat) (hy : y < f.size.2.toNat)
    (hb : canvasPixel f t x y = canvasPixel f u x y) (hne : canvasPixel f t' x y ≠ canvasPixel f u' x y) :
    ∃ (l : Nat) (c : LayerChunk), (Doc.layers raw)[l]? = some c ∧ drawsLayer sel l c = true ∧ shown raw i l ≠ shown raw j l ∧
      ((∃ s, shown raw i l = some s ∧ LiesOn s x y) ∨ ∃ s, shown raw j l = some s ∧ LiesOn s x y) := by
  refine Classical.byContradiction fun hno => hne ?_
  have frame : ∀ {k v v'}, f.renderFrame plat inflate k sel v = (.ok (), v') → ∃ lf, f.frames[k]? = some lf := by
    intro k v v' h
    cases hk : f.frames[k]? with
    | some lf => exact ⟨lf, rfl⟩
    | none =>
      rw [renderFrame_eq, hk] at h
      split at h <;> cases h
  obtain ⟨lf, h1⟩ := frame hi
  obtain ⟨lg, h2⟩ := frame hj
  refine C77_strokes plat b b f f hf hf inflate i j lf lg h1 h2 sel sel t t' u u' hi hj x y x y hx hy hx hy hb ?_
  rw [strokes_paintOf, strokes_paintOf, cels_drawings hr hf ht h1 sel, cels_drawings hr hf ht h2 sel, List.filterMap_map,
    List.filterMap_map]
  have away : ∀ ds : List Drawing, (ds.filter (·.liesOn x y)).filterMap (paintOf inflate f.file x y ∘ drawingFacts) =
      ds.filterMap (paintOf inflate f.file x y ∘ drawingFacts) :=
    fun ds => filterMap_filter_none fun d _ h => paintOf_away h
  rw [← away, ← away (drawings raw sel j), drawings_on_pixel]
  intro l c hl hd hs
  exact ⟨fun s h3 h4 => hno ⟨l, c, hl, hd, hs, .inl ⟨s, h3, h4⟩⟩, fun s h3 h4 => hno ⟨l, c, hl, hd, hs, .inr ⟨s, h3, h4⟩⟩⟩

/-- Two frames in which every selected layer shows the same have the same picture. -/
theorem C123_still (plat : Plat) (b : Bytes) (raw : RawFile) (hr : parseRawFile plat b = .ok raw) (f : AsepriteFile)
    (hf : AsepriteFile.load plat b = .ok f) (ht : NoTilemaps raw) (i j : Nat) (hi : i < raw.frames.length)
    (hj : j < raw.frames.length) (sel : LayerSelection)
    (hs : ∀ (l : Nat) (c : LayerChunk), (Doc.layers raw)[l]? = some c → drawsLayer sel l c = true →
      shown raw i l = shown raw j l) (p : Plat) (inflate : Inflater) (t : Bytes) :
    f.renderFrame p inflate i sel t = f.renderFrame p inflate j sel t := by
  refine C93_drawings plat b b raw raw hr hr f f hf hf ht ht rfl i j hi hj sel sel ?_ p inflate t
  rw [drawings_of, drawings_of]
  refine List.filterMap_congr fun l _ => ?_
  unfold drawingOf
  cases hc : (Doc.layers raw)[l]? with
  | none => rfl
  | some c =>
    cases hd : drawsLayer sel l c with
    | true => rw [hs l c hc hd]
    | false => cases shown raw i l <;> cases shown raw j l <;> simp [hd]

/-! Three layers on a canvas of four pixels.  In the second frame the first layer is linked, the second one shows its image
one pixel further to the right, and the third one (hidden) has another image: only the pixels 1, 2 and 3 can change, and 1
and 3 do. -/
def Sample.moving : Bytes := Sample.header 4 1 32 ++ Sample.frame 1 [Sample.layer 1 0 0 255 [65], Sample.layer 1 0 0 255 [66],
    Sample.layer 0 0 0 255 [67], Sample.cel 0 0 0 4 1 (List.replicate 16 50), Sample.cel 1 1 0 2 1 (List.replicate 8 255),
    Sample.cel 2 0 0 1 1 [1, 2, 3, 255]] ++
  Sample.frame 1 [Sample.link 0 0, Sample.cel 1 2 0 2 1 (List.replicate 8 255), Sample.cel 2 0 0 1 1 [7, 7, 7, 255]]

example :
    (match parseRawFile ⟨true, 10⟩ Sample.moving with
      | .ok raw => decide (NoTilemaps raw) && (Doc.layers raw).length == 3 && decide (shown raw 0 0 = shown raw 1 0) &&
        decide (shown raw 0 1 ≠ shown raw 1 1) && decide (shown raw 0 2 ≠ shown raw 1 2)
      | _ => false) = true := by decide +kernel

example : (Sample.render ⟨true, 10⟩ Sample.moving 0 .visible (List.replicate 16 0)).map (·.2) =
      some (List.replicate 4 50 ++ List.replicate 8 255 ++ List.replicate 4 50) ∧
    (Sample.render ⟨true, 10⟩ Sample.moving 1 .visible (List.replicate 16 0)).map (·.2) =
      some (List.replicate 8 50 ++ List.replicate 8 255) := by constructor <;> decide +kernel

end Ase
