import Mathlib.Data.List.Forall2
import Verif.Props.Invisible
import Verif.Spec.Crops

/-!
# C103: how a picture is cut into cels does not matter
-/

namespace Ase

open Spec

theorem strokeOf_ink (inflate : Inflater) (f : AsepriteFile) (sel : LayerSelection) (x y : Nat) (c : FrameCel) :
    strokeOf inflate f sel x y c = (celInk f sel c).bind fun k =>
      (celColor inflate f c x y).map fun color => ⟨k.1, k.2, color⟩ := by
  unfold strokeOf celInk celColor
  cases drawnOn f sel c with
  | none => rfl
  | some l =>
    cases coveredBy c x y with
    | none => rfl
    | some p => rfl

/-- What cels of the same ink paint. -/
theorem strokes_ink (inflate : Inflater) (g : AsepriteFile) (sel : LayerSelection) (x y : Nat)
    (ink : Option (BlendMode × UInt8)) (ds : List FrameCel) (h : ∀ d ∈ ds, celInk g sel d = ink) :
    strokes inflate g sel x y ds = ink.elim [] fun k =>
      (ds.filterMap (celColor inflate g · x y)).map fun color => ⟨k.1, k.2, color⟩ := by
  induction ds with
  | nil => cases ink <;> rfl
  | cons d ds ih =>
    have ih := ih fun x hx => h x (List.mem_cons_of_mem _ hx)
    unfold strokes at ih ⊢
    rw [List.filterMap_cons, List.filterMap_cons, strokeOf_ink, h d List.mem_cons_self]
    cases ink with
    | none => exact ih
    | some k =>
      cases celColor inflate g d x y with
      | none => exact ih
      | some color => exact congrArg _ ih

/-- **C103 (pieces).** If the cels of one frame are cut into pieces to give the cels of another one, of the same sprite or
of another one of the same size, both are rendered alike. -/
theorem C103_pieces (plat : Plat) (b b' : Bytes) (f g : AsepriteFile) (hf : AsepriteFile.load plat b = .ok f)
    (hg : AsepriteFile.load plat b' = .ok g) (hz : f.size = g.size) (inflate : Inflater) (i j : Nat) (lf lg : LFrame)
    (hi : f.frames[i]? = some lf) (hj : g.frames[j]? = some lg) (sel sel' : LayerSelection) (t t' u' : Bytes)
    (ht : f.renderFrame plat inflate i sel t = (.ok (), t')) (hu : g.renderFrame plat inflate j sel' t = (.ok (), u'))
    (pieces : List (List FrameCel)) (hp : lg.cels = pieces.flatten)
    (hc : List.Forall₂ (CutInto inflate f g sel sel') lf.cels pieces) : t' = u' := by
  refine same_buffer hf hg hz ht hu fun x y hx hy => ?_
  refine C77_strokes plat b b' f g hf hg inflate i j lf lg hi hj sel sel' t t' t u' ht hu x y x y hx hy
    (hz ▸ hx) (hz ▸ hy) ?_ ?_
  · unfold canvasPixel
    rw [show f.file.header.width = g.file.header.width from congrArg Prod.fst hz]
  · rw [hp]
    clear hi hj ht hu hp
    revert hc
    generalize lf.cels = cels
    intro hc
    induction hc with
    | nil => rfl
    | @cons c ds l l' h _ ih =>
      have e1 := strokes_ink inflate g sel' x y _ ds h.1
      have e2 := strokes_ink inflate f sel x y (celInk f sel c) [c] (by simp)
      unfold strokes at e1 e2 ih ⊢
      rw [List.flatten_cons, List.filterMap_append, ← ih, ← List.singleton_append, List.filterMap_append, e1, e2, h.2]
      cases celInk f sel c with
      | none => rfl
      | some k =>
        rw [Option.elim_some, Option.elim_some, List.filterMap_cons]
        cases celColor inflate f c x y <;> rfl

/-- The colours of a part of a cel. -/
theorem celColor_crop {inflate : Inflater} {f g : AsepriteFile} {c d : FrameCel} {ox oy : Nat}
    (h : Crop inflate f g c d ox oy) (x y : Nat) : celColor inflate g d x y =
      if c.origin.1.toInt + ox ≤ x ∧ (x : Int) < c.origin.1.toInt + ox + d.size.1.toNat ∧
        c.origin.2.toInt + oy ≤ y ∧ (y : Int) < c.origin.2.toInt + oy + d.size.2.toNat
      then celColor inflate f c x y else none := by
  obtain ⟨h1, h2, h3, h4, h5⟩ := h
  unfold celColor coveredBy
  dsimp only
  by_cases hin : c.origin.1.toInt + ox ≤ x ∧ (x : Int) < c.origin.1.toInt + ox + d.size.1.toNat ∧
      c.origin.2.toInt + oy ≤ y ∧ (y : Int) < c.origin.2.toInt + oy + d.size.2.toNat
  · rw [if_pos hin, if_pos (by omega), if_pos (by omega), Option.bind_some, Option.bind_some,
      h5 _ _ (by omega) (by omega),
      show ((y : Int) - d.origin.2.toInt).toNat + oy = ((y : Int) - c.origin.2.toInt).toNat by omega,
      show ((x : Int) - d.origin.1.toInt).toNat + ox = ((x : Int) - c.origin.1.toInt).toNat by omega]
  · rw [if_neg hin, if_neg (by omega), Option.bind_none]

theorem celColor_outside {inflate : Inflater} {f : AsepriteFile} {c : FrameCel} {x y : Nat}
    (h : ¬ (c.origin.1.toInt ≤ x ∧ (x : Int) < c.origin.1.toInt + c.size.1.toNat ∧
      c.origin.2.toInt ≤ y ∧ (y : Int) < c.origin.2.toInt + c.size.2.toNat)) : celColor inflate f c x y = none := by
  unfold celColor coveredBy
  dsimp only
  rw [if_neg (by omega), Option.bind_none]

/-- **C103 (columns).** A cel cut into its first `k` columns and the rest is cut into pieces. -/
theorem C103_columns (inflate : Inflater) (f g : AsepriteFile) (sel sel' : LayerSelection) (c left right : FrameCel)
    (k : Nat) (h1 : celInk g sel' left = celInk f sel c) (h2 : celInk g sel' right = celInk f sel c)
    (hl : Crop inflate f g c left 0 0) (hr : Crop inflate f g c right k 0)
    (s1 : left.size.1.toNat = k) (s2 : right.size.1.toNat = c.size.1.toNat - k) (s3 : left.size.2 = c.size.2)
    (s4 : right.size.2 = c.size.2) :
    CutInto inflate f g sel sel' c [left, right] := by
  refine ⟨by simp [h1, h2], fun x y => ?_⟩
  have hk := hr.2.2.1
  simp only [List.filterMap_cons, List.filterMap_nil, celColor_crop hl, celColor_crop hr, s3, s4, s1, s2]
  by_cases hin : c.origin.1.toInt ≤ x ∧ (x : Int) < c.origin.1.toInt + c.size.1.toNat ∧
      c.origin.2.toInt ≤ y ∧ (y : Int) < c.origin.2.toInt + c.size.2.toNat
  · by_cases hx : (x : Int) < c.origin.1.toInt + k
    · rw [if_pos (by omega), if_neg (by omega)]
      cases celColor inflate f c x y <;> rfl
    · rw [if_neg (by omega), if_pos (by omega)]
      cases celColor inflate f c x y <;> rfl
  · rw [celColor_outside hin]
    simp

/-- **C103 (rows).** So is a cel cut into its first `k` rows and the rest. -/
theorem C103_rows (inflate : Inflater) (f g : AsepriteFile) (sel sel' : LayerSelection) (c upper lower : FrameCel)
    (k : Nat) (h1 : celInk g sel' upper = celInk f sel c) (h2 : celInk g sel' lower = celInk f sel c)
    (hl : Crop inflate f g c upper 0 0) (hr : Crop inflate f g c lower 0 k)
    (s1 : upper.size.2.toNat = k) (s2 : lower.size.2.toNat = c.size.2.toNat - k) (s3 : upper.size.1 = c.size.1)
    (s4 : lower.size.1 = c.size.1) :
    CutInto inflate f g sel sel' c [upper, lower] := by
  refine ⟨by simp [h1, h2], fun x y => ?_⟩
  have hk := hr.2.2.2.1
  simp only [List.filterMap_cons, List.filterMap_nil, celColor_crop hl, celColor_crop hr, s3, s4, s1, s2]
  by_cases hin : c.origin.1.toInt ≤ x ∧ (x : Int) < c.origin.1.toInt + c.size.1.toNat ∧
      c.origin.2.toInt ≤ y ∧ (y : Int) < c.origin.2.toInt + c.size.2.toNat
  · by_cases hx : (y : Int) < c.origin.2.toInt + k
    · rw [if_pos (by omega), if_neg (by omega)]
      cases celColor inflate f c x y <;> rfl
    · rw [if_neg (by omega), if_pos (by omega)]
      cases celColor inflate f c x y <;> rfl
  · rw [celColor_outside hin]
    simp

/-- **C103 (trimming).** If the cels of one frame are those of another one without some fully transparent pixels around,
as the editor stores them, both pictures look the same everywhere; on an opaque canvas they are the same. -/
theorem C103_trim (plat : Plat) (b b' : Bytes) (f g : AsepriteFile) (hf : AsepriteFile.load plat b = .ok f)
    (hg : AsepriteFile.load plat b' = .ok g) (hz : f.size = g.size) (inflate : Inflater) (i j : Nat) (lf lg : LFrame)
    (hi : f.frames[i]? = some lf) (hj : g.frames[j]? = some lg) (sel sel' : LayerSelection) (t t' u' : Bytes)
    (ht : f.renderFrame plat inflate i sel t = (.ok (), t')) (hu : g.renderFrame plat inflate j sel' t = (.ok (), u'))
    (hc : List.Forall₂ (Trimmed inflate f g sel sel') lf.cels lg.cels) :
    (∀ x y, x < f.size.1.toNat → y < f.size.2.toNat →
      ∃ c d, canvasPixel f t' x y = some c ∧ canvasPixel g u' x y = some d ∧ LooksSame c d) ∧
    ((∀ x y, x < f.size.1.toNat → y < f.size.2.toNat → ∃ c, canvasPixel f t x y = some c ∧ c.a = 255) → t' = u') := by
  have looks : ∀ x y, x < f.size.1.toNat → y < f.size.2.toNat →
      ∃ c d, canvasPixel f t' x y = some c ∧ canvasPixel g u' x y = some d ∧ LooksSame c d := by
    intro x y hx hy
    refine C95_invisible plat b b' f g hf hg inflate i j lf lg hi hj sel sel' t t' t u' ht hu x y x y hx hy
      (hz ▸ hx) (hz ▸ hy) ?_ ?_
    · intro c d h1 h2
      unfold canvasPixel at h1 h2
      rw [show f.file.header.width = g.file.header.width from congrArg Prod.fst hz, h2] at h1
      cases h1
      exact .refl _
    · clear hi hj ht hu
      revert hc
      generalize lf.cels = cels
      generalize lg.cels = cels'
      intro hc
      induction hc with
      | nil => rfl
      | @cons c d l l' h _ ih =>
        obtain ⟨e1, ox, oy, e2, e3⟩ := h
        unfold strokes at ih ⊢
        rw [List.filterMap_cons, List.filterMap_cons, strokeOf_ink, strokeOf_ink, e1, celColor_crop e2]
        cases hk : celInk f sel c with
        | none => exact ih
        | some k =>
          simp only [Option.bind_some]
          cases hcol : celColor inflate f c x y with
          | none => simpa using ih
          | some color =>
            by_cases hin : c.origin.1.toInt + ox ≤ x ∧ (x : Int) < c.origin.1.toInt + ox + d.size.1.toNat ∧
                c.origin.2.toInt + oy ≤ y ∧ (y : Int) < c.origin.2.toInt + oy + d.size.2.toNat
            · rw [if_pos hin, Option.map_some]
              dsimp only
              rw [List.filter_cons, List.filter_cons, ih]
            · have h0 : color.a = 0 := by
                unfold celColor coveredBy at hcol
                dsimp only at hcol
                split at hcol
                · refine e3 _ _ ?_ ?_ ?_ color hcol <;> omega
                · cases hcol
              have : (Stroke.mk k.1 k.2 color).isInvisible = true := decide_eq_true (.inl h0)
              rw [if_neg hin, Option.map_some, Option.map_none]
              dsimp only
              rw [List.filter_cons, this]
              exact ih
  refine ⟨looks, fun ho => ?_⟩
  refine same_buffer hf hg hz ht hu fun x y hx hy => ?_
  obtain ⟨c, d, h1, h2, h3⟩ := looks x y hx hy
  obtain ⟨c0, e1, e2⟩ := ho x y hx hy
  obtain ⟨before, after, h4, h5, _, h6⟩ := C66_not_more_transparent plat b f hf inflate i sel t t' ht x y hx hy
  rw [e1] at h4
  cases h4
  rw [h1] at h5
  cases h5
  rw [h1, h2, h3.2 (by rw [h6 e2]; decide)]

/-- A cel of three pixels by two, beginning left of the canvas, and the same cel cut after its second column, the right
piece on a second layer of the same mode and opacity: the hypotheses are met, and both are rendered alike. -/
example :
    let b := Sample.header 2 2 32 ++ Sample.frame 1 [Sample.layer 1 0 1 100 [65],
      Sample.cel 0 65535 0 3 2 [1, 2, 3, 4, 200, 100, 50, 130, 9, 8, 7, 255, 5, 6, 7, 8, 90, 91, 92, 93, 33, 34, 35, 36]]
    let b' := Sample.header 2 2 32 ++ Sample.frame 1 [Sample.layer 1 0 1 100 [65], Sample.layer 1 0 1 100 [66],
      Sample.cel 0 65535 0 2 2 [1, 2, 3, 4, 200, 100, 50, 130, 5, 6, 7, 8, 90, 91, 92, 93],
      Sample.cel 1 1 0 1 2 [9, 8, 7, 255, 33, 34, 35, 36]]
    (match AsepriteFile.load ⟨true, 10⟩ b, AsepriteFile.load ⟨true, 10⟩ b' with
      | .ok f, .ok g =>
        (match f.frames[0]?, g.frames[0]? with
          | some lf, some lg =>
            (match lf.cels, lg.cels with
              | [c], [l, r] =>
                decide ((celInk f .visible c).isSome ∧ celInk g .visible l = celInk f .visible c ∧
                  celInk g .visible r = celInk f .visible c ∧ l.size = (2, 2) ∧ r.size = (1, 2) ∧ c.size = (3, 2) ∧
                  l.origin = c.origin ∧ c.origin = (-1, 0) ∧ r.origin = (1, 0)) &&
                [0, 1].all fun j => decide (
                  imageColor Sample.inflate g r.imageIndex j = imageColor Sample.inflate f c.imageIndex (j * 3 + 2)) &&
                  [0, 1].all fun i => decide (imageColor Sample.inflate g l.imageIndex (j * 2 + i)
                    = imageColor Sample.inflate f c.imageIndex (j * 3 + i))
              | _, _ => false)
          | _, _ => false)
      | _, _ => false) = true ∧
    Sample.render ⟨true, 10⟩ b 0 .visible [10, 200, 90, 170, 5, 6, 7, 255, 1, 2, 3, 255, 9, 9, 9, 99] =
      Sample.render ⟨true, 10⟩ b' 0 .visible [10, 200, 90, 170, 5, 6, 7, 255, 1, 2, 3, 255, 9, 9, 9, 99] ∧
    Sample.render ⟨true, 10⟩ b 0 .visible [10, 200, 90, 170, 5, 6, 7, 255, 1, 2, 3, 255, 9, 9, 9, 99] =
      some (.ok (), [25, 169, 74, 187, 4, 4, 5, 255, 1, 2, 3, 255, 10, 10, 10, 108]) := by
  decide +kernel

/-- A cel of two pixels by three, cut after its first row: the hypotheses of `C103_rows` are met. -/
example :
    let b := Sample.header 2 2 32 ++ Sample.frame 1 [Sample.layer 1 0 6 90 [65],
      Sample.cel 0 1 65535 2 3 [1, 2, 3, 4, 200, 100, 50, 130, 9, 8, 7, 255, 5, 6, 7, 8, 90, 91, 92, 93, 33, 34, 35, 36]]
    let b' := Sample.header 2 2 32 ++ Sample.frame 1 [Sample.layer 1 0 6 90 [65], Sample.layer 1 0 6 90 [66],
      Sample.cel 0 1 65535 2 1 [1, 2, 3, 4, 200, 100, 50, 130],
      Sample.cel 1 1 0 2 2 [9, 8, 7, 255, 5, 6, 7, 8, 90, 91, 92, 93, 33, 34, 35, 36]]
    (match AsepriteFile.load ⟨true, 10⟩ b, AsepriteFile.load ⟨true, 10⟩ b' with
      | .ok f, .ok g =>
        (match f.frames[0]?, g.frames[0]? with
          | some lf, some lg =>
            (match lf.cels, lg.cels with
              | [c], [u, l] =>
                decide ((celInk f .visible c).isSome ∧ celInk g .visible u = celInk f .visible c ∧
                  celInk g .visible l = celInk f .visible c ∧ u.size = (2, 1) ∧ l.size = (2, 2) ∧ c.size = (2, 3) ∧
                  u.origin = c.origin ∧ c.origin = (1, -1) ∧ l.origin = (1, 0)) &&
                [0, 1].all fun i => decide (
                  imageColor Sample.inflate g u.imageIndex i = imageColor Sample.inflate f c.imageIndex i) &&
                  [0, 1].all fun j => decide (imageColor Sample.inflate g l.imageIndex (j * 2 + i)
                    = imageColor Sample.inflate f c.imageIndex ((j + 1) * 2 + i))
              | _, _ => false)
          | _, _ => false)
      | _, _ => false) = true ∧
    Sample.render ⟨true, 10⟩ b 0 .visible [10, 200, 90, 170, 5, 6, 7, 255, 1, 2, 3, 255, 9, 9, 9, 99] =
      Sample.render ⟨true, 10⟩ b' 0 .visible [10, 200, 90, 170, 5, 6, 7, 255, 1, 2, 3, 255, 9, 9, 9, 99] := by
  decide +kernel

/-- A cel of three pixels whose first and last are fully transparent, and the cel of the pixel between: the hypotheses of
`C103_trim` are met. On an opaque canvas both are rendered alike; on a fully transparent pixel the hidden red, green and
blue differ, so that the buffers need not be the same there. -/
example :
    let b := Sample.header 3 1 32 ++ Sample.frame 1 [Sample.layer 1 0 0 255 [65],
      Sample.cel 0 0 0 3 1 [1, 2, 3, 0, 200, 100, 50, 130, 9, 8, 7, 0]]
    let b' := Sample.header 3 1 32 ++ Sample.frame 1 [Sample.layer 1 0 0 255 [65],
      Sample.cel 0 1 0 1 1 [200, 100, 50, 130]]
    (match AsepriteFile.load ⟨true, 10⟩ b, AsepriteFile.load ⟨true, 10⟩ b' with
      | .ok f, .ok g =>
        (match f.frames[0]?, g.frames[0]? with
          | some lf, some lg =>
            (match lf.cels, lg.cels with
              | [c], [d] =>
                decide ((celInk f .visible c).isSome ∧ celInk g .visible d = celInk f .visible c ∧ d.size = (1, 1) ∧
                  c.size = (3, 1) ∧ c.origin = (0, 0) ∧ d.origin = (1, 0) ∧
                  imageColor Sample.inflate g d.imageIndex 0 = imageColor Sample.inflate f c.imageIndex 1 ∧
                  (imageColor Sample.inflate f c.imageIndex 0).map (·.a) = some 0 ∧
                  (imageColor Sample.inflate f c.imageIndex 2).map (·.a) = some 0)
              | _, _ => false)
          | _, _ => false)
      | _, _ => false) = true ∧
    Sample.render ⟨true, 10⟩ b 0 .visible [10, 20, 30, 255, 40, 50, 60, 255, 70, 80, 90, 255] =
      some (.ok (), [10, 20, 30, 255, 121, 75, 55, 255, 70, 80, 90, 255]) ∧
    Sample.render ⟨true, 10⟩ b' 0 .visible [10, 20, 30, 255, 40, 50, 60, 255, 70, 80, 90, 255] =
      some (.ok (), [10, 20, 30, 255, 121, 75, 55, 255, 70, 80, 90, 255]) ∧
    Sample.render ⟨true, 10⟩ b 0 .visible (List.replicate 12 0) =
      some (.ok (), [1, 2, 3, 0, 200, 100, 50, 130, 9, 8, 7, 0]) ∧
    Sample.render ⟨true, 10⟩ b' 0 .visible (List.replicate 12 0) =
      some (.ok (), [0, 0, 0, 0, 200, 100, 50, 130, 0, 0, 0, 0]) := by
  decide +kernel

end Ase
