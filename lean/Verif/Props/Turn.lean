import Verif.Spec.Turn
import Verif.Props.Strokes

/-!
# C89: flipping, rotating and enlarging a sprite
-/

namespace Ase

open Spec

/-- `coveredBy` in coordinates. -/
theorem coveredBy_eq (c : FrameCel) (x y : Nat) {dx dy : Int} (hx : (x : Int) - c.origin.1.toInt = dx)
    (hy : (y : Int) - c.origin.2.toInt = dy) : coveredBy c x y =
      if 0 ≤ dx ∧ dx < c.size.1.toNat ∧ 0 ≤ dy ∧ dy < c.size.2.toNat then
        some (dy.toNat * c.size.1.toNat + dx.toNat) else none := by
  subst hx hy
  rfl

/-- A changed cel covers a pixel of the changed canvas if the cel covers the pixel seen there, and shows the same. -/
theorem changed_covered {k : Change} (hk : k ≠ .enlarge 0) {inflate : Inflater} {f g : AsepriteFile}
    {c d : FrameCel} (hs : canvasSize g = k.size (canvasSize f)) (h : ChangedCel k inflate f g c d) (x y : Nat)
    (hx : x < (canvasSize g).1) (hy : y < (canvasSize g).2) :
    (coveredBy d x y).bind (imageColor inflate g d.imageIndex) =
      (coveredBy c (k.source (canvasSize f) (x, y)).1 (k.source (canvasSize f) (x, y)).2).bind
        (imageColor inflate f c.imageIndex) := by
  obtain ⟨_, hz, ho, hc⟩ := h
  rw [hs] at hx hy
  rw [coveredBy_eq d x y rfl rfl, coveredBy_eq c _ _ rfl rfl]
  simp only [celSize, canvasSize] at *
  generalize c.origin.1.toInt = ox at *
  generalize c.origin.2.toInt = oy at *
  generalize d.origin.1.toInt = px at *
  generalize d.origin.2.toInt = py at *
  generalize c.size.1.toNat = w at *
  generalize c.size.2.toNat = h at *
  generalize d.size.1.toNat = w' at *
  generalize d.size.2.toNat = h' at *
  have key : ∀ {X Y X' Y' : Int}, (0 ≤ X ∧ X < w' ∧ 0 ≤ Y ∧ Y < h' ↔ 0 ≤ X' ∧ X' < w ∧ 0 ≤ Y' ∧ Y' < h) →
      (0 ≤ X ∧ X < w' ∧ 0 ≤ Y ∧ Y < h' → k.source (w, h) (X.toNat, Y.toNat) = (X'.toNat, Y'.toNat)) →
      (if 0 ≤ X ∧ X < w' ∧ 0 ≤ Y ∧ Y < h' then some (Y.toNat * w' + X.toNat) else none).bind
        (imageColor inflate g d.imageIndex) =
      (if 0 ≤ X' ∧ X' < w ∧ 0 ≤ Y' ∧ Y' < h then some (Y'.toNat * w + X'.toNat) else none).bind
        (imageColor inflate f c.imageIndex) := by
    intro X Y X' Y' h1 h2
    by_cases hp : 0 ≤ X ∧ X < w' ∧ 0 ≤ Y ∧ Y < h'
    · rw [if_pos hp, if_pos (h1.1 hp)]
      have := hc X.toNat Y.toNat (by omega) (by omega)
      rw [h2 hp] at this
      exact this
    · rw [if_neg hp, if_neg fun h => hp (h1.2 h)]
      rfl
  cases k with
  | flipX =>
    simp only [Change.size, Change.source, Change.corner, Prod.mk.injEq] at *
    apply key
    · omega
    · omega
  | flipY =>
    simp only [Change.size, Change.source, Change.corner, Prod.mk.injEq] at *
    apply key
    · omega
    · omega
  | transpose =>
    simp only [Change.size, Change.source, Change.corner, Prod.mk.injEq] at *
    apply key
    · omega
    · omega
  | enlarge n =>
    have hn : (0 : Int) < n := by
      have : n ≠ 0 := fun h => hk (h ▸ rfl)
      omega
    simp only [Change.size, Change.source, Change.corner, Prod.mk.injEq] at *
    obtain ⟨rfl, rfl⟩ := hz
    obtain ⟨rfl, rfl⟩ := ho
    have hdiv : ∀ (z : Nat) (o : Int), ((z / n : Nat) : Int) - o = ((z : Int) - n * o) / n := by
      intro z o
      rw [Int.sub_mul_ediv_left _ _ (by omega)]
      rfl
    have hge : ∀ Z : Int, 0 ≤ Z ↔ 0 ≤ Z / n := fun Z => (Int.ediv_nonneg_iff_of_pos hn).symm
    have hlt : ∀ (Z : Int) (v : Nat), Z < (n * v : Nat) ↔ Z / n < v := by
      intro Z v
      rw [Int.ediv_lt_iff_lt_mul hn, Int.natCast_mul, Int.mul_comm]
    apply key
    · rw [hdiv, hdiv, hge, hlt, hge (y - n * oy), hlt]
    · intro hp
      rw [hdiv, hdiv]
      obtain ⟨X, hX⟩ := Int.eq_ofNat_of_zero_le hp.1
      obtain ⟨Y, hY⟩ := Int.eq_ofNat_of_zero_le hp.2.2.1
      rw [hX, hY]
      exact ⟨rfl, rfl⟩

/-- The source of a pixel of the changed picture is a pixel of the picture. -/
theorem source_lt {k : Change} {w h x y : Nat} (hk : k ≠ .enlarge 0) (hx : x < (k.size (w, h)).1)
    (hy : y < (k.size (w, h)).2) :
    (k.source (w, h) (x, y)).1 < w ∧ (k.source (w, h) (x, y)).2 < h := by
  cases k with
  | flipX => simp only [Change.size, Change.source] at *; omega
  | flipY => simp only [Change.size, Change.source] at *; omega
  | transpose => simp only [Change.size, Change.source] at *; omega
  | enlarge n =>
    simp only [Change.size, Change.source] at *
    exact ⟨Nat.div_lt_of_lt_mul hx, Nat.div_lt_of_lt_mul hy⟩

/-- **C89.** Let the second sprite be the first one flipped, with rows and columns exchanged, or enlarged: same layers,
changed canvas size, and changed cels in a frame.  Then its picture is the changed picture of the first one, for every
selection, if what was on the canvases before was. -/
theorem C89_changed (plat : Plat) (b b' : Bytes) (f g : AsepriteFile) (hf : AsepriteFile.load plat b = .ok f)
    (hg : AsepriteFile.load plat b' = .ok g) (k : Change) (hk : k ≠ .enlarge 0)
    (hsize : canvasSize g = k.size (canvasSize f)) (hlayers : f.layers = g.layers) (inflate : Inflater) (i j : Nat)
    (lf lg : LFrame) (hi : f.frames[i]? = some lf) (hj : g.frames[j]? = some lg)
    (hl : lf.cels.length = lg.cels.length)
    (hc : ∀ (n : Nat) (c d : FrameCel), lf.cels[n]? = some c → lg.cels[n]? = some d → ChangedCel k inflate f g c d)
    (sel : LayerSelection) (t t' u u' : Bytes)
    (ht : f.renderFrame plat inflate i sel t = (.ok (), t')) (hu : g.renderFrame plat inflate j sel u = (.ok (), u'))
    (hb : ChangedBuffer k f g t u) : ChangedBuffer k f g t' u' := by
  intro x y hx hy
  have hlt := source_lt (w := (canvasSize f).1) (h := (canvasSize f).2) hk (hsize ▸ hx) (hsize ▸ hy)
  refine (C77_strokes plat b b' f g hf hg inflate i j lf lg hi hj sel sel t t' u u' ht hu _ _ x y hlt.1 hlt.2 hx hy
    (hb x y hx hy).symm ?_).symm
  rw [strokes, strokes]
  generalize lf.cels = cs at hl hc
  generalize lg.cels = ds at hl hc
  clear hi hj ht hu
  induction cs generalizing ds with
  | nil =>
    rw [List.length_eq_zero_iff.1 hl.symm]
    rfl
  | cons c cs ih =>
    cases ds with
    | nil => cases hl
    | cons d ds =>
      have h0 := hc 0 c d rfl rfl
      have e : strokeOf inflate f sel (k.source (canvasSize f) (x, y)).1 (k.source (canvasSize f) (x, y)).2 c =
          strokeOf inflate g sel x y d := by
        have h1 := changed_covered hk hsize h0 x y hx hy
        have h2 : drawnOn f sel c = drawnOn g sel d := by rw [drawnOn, drawnOn, hlayers, h0.layer]
        rw [strokeOf, strokeOf, h2]
        congr 1
        funext layer
        have h3 := congrArg (Option.map fun color => (⟨layer.blendMode, layer.opacity, color⟩ : Stroke)) h1
        rw [Option.map_bind, Option.map_bind] at h3
        exact h3.symm
      rw [List.filterMap_cons, List.filterMap_cons, e,
        ih ds (by simpa using hl) fun n c d hn hn' => hc (n + 1) c d hn hn']

instance (k : Change) (inflate : Inflater) (f g : AsepriteFile) (c d : FrameCel) :
    Decidable (ChangedCel k inflate f g c d) :=
  decidable_of_iff (c.layerIndex = d.layerIndex ∧ celSize d = k.size (celSize c) ∧
    (d.origin.1.toInt, d.origin.2.toInt) = k.corner (canvasSize f) (celSize c) (c.origin.1.toInt, c.origin.2.toInt) ∧
    ∀ x, x < (celSize d).1 → ∀ y, y < (celSize d).2 →
      imageColor inflate g d.imageIndex (y * (celSize d).1 + x) =
        imageColor inflate f c.imageIndex
          ((k.source (celSize c) (x, y)).2 * (celSize c).1 + (k.source (celSize c) (x, y)).1))
    ⟨fun ⟨h1, h2, h3, h4⟩ => ⟨h1, h2, h3, fun x y hx hy => h4 x hx y hy⟩,
      fun ⟨h1, h2, h3, h4⟩ => ⟨h1, h2, h3, fun x hx y hy => h4 x y hx hy⟩⟩

instance (k : Change) (f g : AsepriteFile) (t u : Bytes) : Decidable (ChangedBuffer k f g t u) :=
  decidable_of_iff (∀ x, x < (canvasSize g).1 → ∀ y, y < (canvasSize g).2 → canvasPixel g u x y =
      canvasPixel f t (k.source (canvasSize f) (x, y)).1 (k.source (canvasSize f) (x, y)).2)
    ⟨fun h x y hx hy => h x hx y hy, fun h x hx y hy => h x y hx hy⟩

namespace Sample

/-- A sprite of 3 by 2 pixels; the first cel reaches over its left edge. -/
def turnable : Bytes :=
  header 3 2 32 ++ frame 1 [layer 1 0 0 255 [65], layer 1 0 1 100 [66],
    cel 0 65535 0 2 2 [1, 2, 3, 255, 4, 5, 6, 255, 7, 8, 9, 255, 10, 11, 12, 255],
    cel 1 0 1 2 1 [50, 60, 70, 80, 90, 100, 110, 120]]

/-- The sprite changed. -/
def turned : Change → Bytes
  | .flipX => header 3 2 32 ++ frame 1 [layer 1 0 0 255 [65], layer 1 0 1 100 [66],
      cel 0 2 0 2 2 [4, 5, 6, 255, 1, 2, 3, 255, 10, 11, 12, 255, 7, 8, 9, 255],
      cel 1 1 1 2 1 [90, 100, 110, 120, 50, 60, 70, 80]]
  | .flipY => header 3 2 32 ++ frame 1 [layer 1 0 0 255 [65], layer 1 0 1 100 [66],
      cel 0 65535 0 2 2 [7, 8, 9, 255, 10, 11, 12, 255, 1, 2, 3, 255, 4, 5, 6, 255],
      cel 1 0 0 2 1 [50, 60, 70, 80, 90, 100, 110, 120]]
  | .transpose => header 2 3 32 ++ frame 1 [layer 1 0 0 255 [65], layer 1 0 1 100 [66],
      cel 0 0 65535 2 2 [1, 2, 3, 255, 7, 8, 9, 255, 4, 5, 6, 255, 10, 11, 12, 255],
      cel 1 1 0 1 2 [50, 60, 70, 80, 90, 100, 110, 120]]
  | .enlarge _ => header 6 4 32 ++ frame 1 [layer 1 0 0 255 [65], layer 1 0 1 100 [66],
      cel 0 65534 0 4 4 ([1, 2, 3, 255, 1, 2, 3, 255, 4, 5, 6, 255, 4, 5, 6, 255,
        1, 2, 3, 255, 1, 2, 3, 255, 4, 5, 6, 255, 4, 5, 6, 255,
        7, 8, 9, 255, 7, 8, 9, 255, 10, 11, 12, 255, 10, 11, 12, 255,
        7, 8, 9, 255, 7, 8, 9, 255, 10, 11, 12, 255, 10, 11, 12, 255]),
      cel 1 0 2 4 2 [50, 60, 70, 80, 50, 60, 70, 80, 90, 100, 110, 120, 90, 100, 110, 120,
        50, 60, 70, 80, 50, 60, 70, 80, 90, 100, 110, 120, 90, 100, 110, 120]]

end Sample

/-- A sprite flipped, with rows and columns exchanged, and enlarged twice: it meets the hypotheses of `C89_changed`,
and is not its own image. -/
example (k : Change) (hk : k = .flipX ∨ k = .flipY ∨ k = .transpose ∨ k = .enlarge 2) :
    (match AsepriteFile.load ⟨true, 10⟩ Sample.turnable, AsepriteFile.load ⟨true, 10⟩ (Sample.turned k) with
      | .ok f, .ok g =>
        (match f.frames[0]?, g.frames[0]?, f.renderFrame ⟨true, 10⟩ Sample.inflate 0 .all (List.replicate 24 0),
            g.renderFrame ⟨true, 10⟩ Sample.inflate 0 .all (List.replicate 96 0) with
          | some lf, some lg, (.ok _, t), (.ok _, u) =>
            (match lf.cels, lg.cels with
              | [c, c'], [d, d'] =>
                decide (canvasSize g = k.size (canvasSize f)) && decide (f.layers = g.layers) &&
                decide (ChangedCel k Sample.inflate f g c d) && decide (ChangedCel k Sample.inflate f g c' d') &&
                decide (ChangedBuffer k f g (List.replicate 24 0) (List.replicate 96 0)) && decide (t ≠ u.take 24)
              | _, _ => false)
          | _, _, _, _ => false)
      | _, _ => false) = true := by
  rcases hk with rfl | rfl | rfl | rfl <;> decide +kernel

end Ase
