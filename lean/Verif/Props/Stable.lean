import Verif.Lemmas.Stable
import Verif.Props.Channels

/-!
# C109: small changes stay small
-/

namespace Ase

open Spec

/-- **C109.** Two pixels with equal alpha differ by at most `k` in a channel before rendering, and what is painted on them
is painted in the same way, stroke by stroke, with colours that differ by at most `e` in the channel.  Then the results
have equal alpha and differ in the channel by no more than what `drift` adds up to; nothing is added for rounding. -/
theorem C109_drift (plat : Plat) (b b' : Bytes) (f g : AsepriteFile) (hf : AsepriteFile.load plat b = .ok f)
    (hg : AsepriteFile.load plat b' = .ok g) (inflate : Inflater) (i j : Nat) (lf lg : LFrame)
    (hi : f.frames[i]? = some lf) (hj : g.frames[j]? = some lg) (sel sel' : LayerSelection) (t t' u u' : Bytes)
    (ht : f.renderFrame plat inflate i sel t = (.ok (), t')) (hu : g.renderFrame plat inflate j sel' u = (.ok (), u'))
    (x y x' y' : Nat) (hx : x < f.size.1.toNat) (hy : y < f.size.2.toNat) (hx' : x' < g.size.1.toNat)
    (hy' : y' < g.size.2.toNat) (ch : Color → UInt8) (hch : IsChannel ch) (c c' : Color)
    (hc : canvasPixel f t x y = some c) (hc' : canvasPixel g u x' y' = some c') (k e : Nat)
    (hcc : Within k (ch c) (ch c')) (hca : c.a = c'.a)
    (hs : List.Forall₂ (Similar ch e) (strokes inflate f sel x y lf.cels) (strokes inflate g sel' x' y' lg.cels))
    (hm : ∀ s ∈ strokes inflate f sel x y lf.cels, gentle s.mode = true) :
    ∃ d d', canvasPixel f t' x y = some d ∧ canvasPixel g u' x' y' = some d' ∧ d.a = d'.a ∧
      Within ((strokes inflate f sel x y lf.cels).foldl (fun k s => drift s.mode k e) k) (ch d) (ch d') := by
  obtain ⟨c, d, h1, h2, h3⟩ := C37_pixels plat b f hf inflate i lf hi sel t t' ht x y hx hy
  obtain ⟨c', d', h1', h2', h3'⟩ := C37_pixels plat b' g hg inflate j lg hj sel' u u' hu x' y' hx' hy'
  rw [hc] at h1
  cases h1
  rw [hc'] at h1'
  cases h1'
  rw [compose_strokes] at h3 h3'
  refine ⟨d, d', h2, h2', ?_⟩
  have hs2 : List.Forall₂ (fun s s' => Similar ch e s s' ∧ gentle s.mode = true)
      (strokes inflate f sel x y lf.cels) (strokes inflate g sel' x' y' lg.cels) := by
    generalize strokes inflate f sel x y lf.cels = ss at hs hm
    generalize strokes inflate g sel' x' y' lg.cels = ss' at hs
    clear h3 h3'
    induction hs with
    | nil => exact .nil
    | cons h _ ih => exact .cons ⟨h, hm _ List.mem_cons_self⟩ (ih fun s hs => hm s (List.mem_cons_of_mem _ hs))
  refine fold_bound plat (fun k c c' => c.a = c'.a ∧ Within k (ch c) (ch c')) _ (fun s k => drift s.mode k e) ?_ hs2
    ⟨hca, hcc⟩ h3 h3'
  rintro k s s' c c' d d' ⟨⟨e1, e2, e3, e4⟩, hr⟩ ⟨ha, hc⟩ h h'
  have hm : isHsl s.mode = false := by
    revert hr
    cases s.mode <;> simp [gentle, isHsl]
  have hm' : isHsl s'.mode = false := e1 ▸ hm
  refine ⟨?_, ?_⟩
  · rw [← UInt8.toNat_inj, blend_alpha plat _ hm _ _ _ _ h, blend_alpha plat _ hm' _ _ _ _ h', ha, e2, e3]
  · have k1 := blend_step plat _ hm _ _ _ _ h ch hch
    have k2 := blend_step plat _ hm' _ _ _ _ h' ch hch
    rw [← e1, ← e2, ← e3, ← ha] at k2
    have k3 := stepC_within s.mode hr ch c.a s.color.a s.opacity hc e4
    have k4 := stepC_within s.mode hr ch c.a s.color.a s.opacity ⟨hc.2, hc.1⟩ ⟨e4.2, e4.1⟩
    rw [← k1, ← k2, toI, toI] at k3
    rw [← k1, ← k2, toI, toI] at k4
    constructor <;> omega

/-- **C109.** If all modes are Normal, Darken or Lighten, the results differ by no more than the inputs did, however many
strokes there are. -/
theorem C109_level (plat : Plat) (b b' : Bytes) (f g : AsepriteFile) (hf : AsepriteFile.load plat b = .ok f)
    (hg : AsepriteFile.load plat b' = .ok g) (inflate : Inflater) (i j : Nat) (lf lg : LFrame)
    (hi : f.frames[i]? = some lf) (hj : g.frames[j]? = some lg) (sel sel' : LayerSelection) (t t' u u' : Bytes)
    (ht : f.renderFrame plat inflate i sel t = (.ok (), t')) (hu : g.renderFrame plat inflate j sel' u = (.ok (), u'))
    (x y x' y' : Nat) (hx : x < f.size.1.toNat) (hy : y < f.size.2.toNat) (hx' : x' < g.size.1.toNat)
    (hy' : y' < g.size.2.toNat) (ch : Color → UInt8) (hch : IsChannel ch) (c c' : Color)
    (hc : canvasPixel f t x y = some c) (hc' : canvasPixel g u x' y' = some c') (e : Nat)
    (hcc : Within e (ch c) (ch c')) (hca : c.a = c'.a)
    (hs : List.Forall₂ (Similar ch e) (strokes inflate f sel x y lf.cels) (strokes inflate g sel' x' y' lg.cels))
    (hm : ∀ s ∈ strokes inflate f sel x y lf.cels, level s.mode = true) :
    ∃ d d', canvasPixel f t' x y = some d ∧ canvasPixel g u' x' y' = some d' ∧ d.a = d'.a ∧ Within e (ch d) (ch d') := by
  obtain ⟨d, d', h1, h2, h3, h4⟩ := C109_drift plat b b' f g hf hg inflate i j lf lg hi hj sel sel' t t' u u' ht hu x y x' y'
    hx hy hx' hy' ch hch c c' hc hc' e e hcc hca hs fun s hs => by
      have := hm s hs
      revert this
      cases s.mode <;> simp [level, gentle]
  refine ⟨d, d', h1, h2, h3, ?_⟩
  have key : ∀ ss : List Stroke, (∀ s ∈ ss, level s.mode = true) → ss.foldl (fun k s => drift s.mode k e) e = e := by
    intro ss hm
    induction ss with
    | nil => rfl
    | cons s ss ih =>
      have : drift s.mode e e = e := by
        have := hm s List.mem_cons_self
        revert this
        cases s.mode <;> simp [level, drift]
      rw [List.foldl_cons, this]
      exact ih fun s hs => hm s (List.mem_cons_of_mem _ hs)
  rwa [key _ hm] at h4

/-- **C109.** Without Overlay, Hard Light and Soft Light, of the modes of `drift`, the results differ by at most what the pixels
differed by before, and `e` for each stroke. -/
theorem C109_sum (plat : Plat) (b b' : Bytes) (f g : AsepriteFile) (hf : AsepriteFile.load plat b = .ok f)
    (hg : AsepriteFile.load plat b' = .ok g) (inflate : Inflater) (i j : Nat) (lf lg : LFrame)
    (hi : f.frames[i]? = some lf) (hj : g.frames[j]? = some lg) (sel sel' : LayerSelection) (t t' u u' : Bytes)
    (ht : f.renderFrame plat inflate i sel t = (.ok (), t')) (hu : g.renderFrame plat inflate j sel' u = (.ok (), u'))
    (x y x' y' : Nat) (hx : x < f.size.1.toNat) (hy : y < f.size.2.toNat) (hx' : x' < g.size.1.toNat)
    (hy' : y' < g.size.2.toNat) (ch : Color → UInt8) (hch : IsChannel ch) (c c' : Color)
    (hc : canvasPixel f t x y = some c) (hc' : canvasPixel g u x' y' = some c') (k e : Nat)
    (hcc : Within k (ch c) (ch c')) (hca : c.a = c'.a)
    (hs : List.Forall₂ (Similar ch e) (strokes inflate f sel x y lf.cels) (strokes inflate g sel' x' y' lg.cels))
    (hm : ∀ s ∈ strokes inflate f sel x y lf.cels, gentle s.mode = true ∧ s.mode ∉ [.overlay, .hardLight, .softLight]) :
    ∃ d d', canvasPixel f t' x y = some d ∧ canvasPixel g u' x' y' = some d' ∧ d.a = d'.a ∧
      Within (k + (strokes inflate f sel x y lf.cels).length * e) (ch d) (ch d') := by
  obtain ⟨d, d', h1, h2, h3, h4⟩ := C109_drift plat b b' f g hf hg inflate i j lf lg hi hj sel sel' t t' u u' ht hu x y x' y'
    hx hy hx' hy' ch hch c c' hc hc' k e hcc hca hs fun s hs => (hm s hs).1
  refine ⟨d, d', h1, h2, h3, ?_⟩
  have key : ∀ (ss : List Stroke) (k : Nat), (∀ s ∈ ss, gentle s.mode = true ∧ s.mode ∉ [.overlay, .hardLight, .softLight]) →
      ss.foldl (fun k s => drift s.mode k e) k ≤ k + ss.length * e := by
    intro ss
    induction ss with
    | nil => intro k _; simp
    | cons s ss ih =>
      intro k hm
      have h5 : drift s.mode k e ≤ k + e := by
        have := hm s List.mem_cons_self
        revert this
        cases s.mode <;> simp [gentle, drift]
      have h6 := ih (drift s.mode k e) fun s hs => hm s (List.mem_cons_of_mem _ hs)
      rw [List.foldl_cons, List.length_cons, Nat.add_mul]
      omega
  have h7 := key _ k hm
  exact ⟨by have := h4.1; omega, by have := h4.2; omega⟩

-- two sprites whose layers differ by 2, on canvases that differ by 3; Lighten and Normal, then Multiply and Difference, and
-- Overlay and Hard Light, and Soft Light twice
example :
    let b (m n : UInt16) (x y : UInt8) := Sample.header 1 1 32 ++ Sample.frame 1 [Sample.layer 1 0 m 255 [65],
      Sample.layer 1 0 n 100 [66], Sample.cel 0 0 0 1 1 [x, 80, 5, 200], Sample.cel 1 0 0 1 1 [y, 8, 7, 130]]
    (∀ p ∈ [((5, 0), (BlendMode.lighten, BlendMode.normal)), ((1, 10), (.multiply, .difference)),
        ((3, 8), (.overlay, .hardLight)), ((9, 9), (.softLight, .softLight))],
      (match AsepriteFile.load ⟨true, 10⟩ (b p.1.1 p.1.2 50 20) with
        | .ok f =>
          (match f.frames[0]? with
            | some lf =>
              decide ((strokes (fun _ _ => (.streamEnd, [])) f .all 0 0 lf.cels).map (fun s =>
                (s.mode, s.opacity, s.color.a, s.color.r)) = [(p.2.1, 255, 200, 50), (p.2.2, 100, 130, 20)])
            | none => false)
        | _ => false) = true ∧ gentle p.2.1 = true ∧ gentle p.2.2 = true) ∧
    Sample.render ⟨true, 10⟩ (b 5 0 50 20) 0 .all [47, 90, 3, 150] = some (.ok (), [43, 71, 4, 237]) ∧
    Sample.render ⟨true, 10⟩ (b 5 0 52 22) 0 .all [50, 90, 3, 150] = some (.ok (), [45, 71, 4, 237]) ∧
    Sample.render ⟨true, 10⟩ (b 1 10 50 20) 0 .all [47, 90, 3, 150] = some (.ok (), [19, 45, 2, 237]) ∧
    Sample.render ⟨true, 10⟩ (b 1 10 52 22) 0 .all [50, 90, 3, 150] = some (.ok (), [20, 45, 2, 237]) ∧
    Sample.render ⟨true, 10⟩ (b 3 8 50 20) 0 .all [47, 90, 3, 150] = some (.ok (), [23, 53, 2, 237]) ∧
    Sample.render ⟨true, 10⟩ (b 3 8 52 22) 0 .all [50, 90, 3, 150] = some (.ok (), [26, 53, 2, 237]) ∧
    drift .hardLight (drift .overlay 3 2) 2 = 12 := by
  decide +kernel

example :
    let b (x y : UInt8) := Sample.header 1 1 32 ++ Sample.frame 1 [Sample.layer 1 0 9 255 [65],
      Sample.layer 1 0 9 100 [66], Sample.cel 0 0 0 1 1 [x, 80, 5, 200], Sample.cel 1 0 0 1 1 [y, 8, 7, 130]]
    Sample.render ⟨true, 10⟩ (b 50 20) 0 .all [47, 90, 3, 150] = some (.ok (), [28, 64, 2, 237]) ∧
    Sample.render ⟨true, 10⟩ (b 52 22) 0 .all [50, 90, 3, 150] = some (.ok (), [30, 64, 2, 237]) := by
  decide +kernel

/-- **C109.** What `drift` says is exact: with each of its modes but Soft Light there are opaque pixels 1 apart and opaque
strokes 1 apart whose results are as far apart as it says. -/
theorem C109_exact : ∀ m, gentle m = true → m ≠ .softLight → ∃ v w s s' x y : UInt8, Within 1 v w ∧ Within 1 s s' ∧
    Spec.blend ⟨true, 10⟩ m ⟨v, v, v, 255⟩ ⟨s, s, s, 255⟩ 255 = .ok ⟨x, x, x, 255⟩ ∧
    Spec.blend ⟨true, 10⟩ m ⟨w, w, w, 255⟩ ⟨s', s', s', 255⟩ 255 = .ok ⟨y, y, y, 255⟩ ∧
    y.toNat = x.toNat + drift m 1 1 := by
  intro m hm hs
  cases m <;> first | (exact absurd rfl hs) | cases hm
  · exact ⟨5, 5, 7, 8, 7, 8, by decide +kernel⟩
  · exact ⟨254, 255, 254, 255, 253, 255, by decide +kernel⟩
  · exact ⟨0, 1, 0, 1, 0, 2, by decide +kernel⟩
  · exact ⟨126, 127, 254, 255, 251, 254, by decide +kernel⟩
  · exact ⟨5, 6, 7, 8, 5, 6, by decide +kernel⟩
  · exact ⟨5, 6, 7, 8, 7, 8, by decide +kernel⟩
  · exact ⟨254, 255, 126, 127, 251, 254, by decide +kernel⟩
  · exact ⟨10, 11, 5, 4, 5, 7, by decide +kernel⟩
  · exact ⟨0, 1, 0, 1, 0, 2, by decide +kernel⟩
  · exact ⟨0, 1, 0, 1, 0, 2, by decide +kernel⟩
  · exact ⟨10, 11, 5, 4, 5, 7, by decide +kernel⟩

/-- **C109.** With Soft Light it is reached by opaque pixels 1 apart on which the same is painted, and by opaque pixels that
are the same on which strokes 1 apart are painted. -/
theorem C109_soft_exact :
    Spec.blend ⟨true, 10⟩ .softLight ⟨0, 0, 0, 255⟩ ⟨255, 255, 255, 255⟩ 255 = .ok ⟨0, 0, 0, 255⟩ ∧
    (∃ blue, Spec.blend ⟨true, 10⟩ .softLight ⟨1, 1, 1, 255⟩ ⟨255, 255, 255, 255⟩ 255 = .ok ⟨4, 4, blue, 255⟩) ∧
    drift .softLight 1 0 = 4 ∧
    (∃ blue, Spec.blend ⟨true, 10⟩ .softLight ⟨100, 100, 100, 255⟩ ⟨192, 192, 192, 255⟩ 255 = .ok ⟨130, 130, blue, 255⟩) ∧
    (∃ blue, Spec.blend ⟨true, 10⟩ .softLight ⟨100, 100, 100, 255⟩ ⟨193, 193, 193, 255⟩ 255 = .ok ⟨131, 131, blue, 255⟩) ∧
    drift .softLight 0 1 = 1 := by
  refine ⟨by decide +kernel, ⟨0, by decide +kernel⟩, by decide +kernel, ⟨87, by decide +kernel⟩, ⟨87, by decide +kernel⟩,
    by decide +kernel⟩

/-- **C109.** Color Dodge, Color Burn and Divide have no such limit: with each of them there is a sprite that turns pixels
of two opaque canvases that differ by 1 into 0 and 255. -/
theorem C109_jump : ∀ m ∈ [BlendMode.colorDodge, .colorBurn, .divide], ∃ (b : Bytes) (f : AsepriteFile) (lf : LFrame)
    (v w : UInt8), AsepriteFile.load ⟨true, 10⟩ b = .ok f ∧ f.frames[0]? = some lf ∧
      (strokes Sample.inflate f .all 0 0 lf.cels).map Stroke.mode = [m] ∧ Within 1 v w ∧
      f.renderFrame ⟨true, 10⟩ Sample.inflate 0 .all [v, v, v, 255] = (.ok (), [0, 0, 0, 255]) ∧
      f.renderFrame ⟨true, 10⟩ Sample.inflate 0 .all [w, w, w, 255] = (.ok (), [255, 255, 255, 255]) := by
  have key : ∀ (m : BlendMode) (n : UInt16) (s v w : UInt8),
      (match AsepriteFile.load ⟨true, 10⟩ (Sample.header 1 1 32 ++ Sample.frame 1 [Sample.layer 1 0 n 255 [65],
          Sample.cel 0 0 0 1 1 [s, s, s, 255]]) with
        | .ok f =>
          (match f.frames[0]? with
            | some lf =>
              decide ((strokes Sample.inflate f .all 0 0 lf.cels).map Stroke.mode = [m] ∧ Within 1 v w ∧
                f.renderFrame ⟨true, 10⟩ Sample.inflate 0 .all [v, v, v, 255] = (.ok (), [0, 0, 0, 255]) ∧
                f.renderFrame ⟨true, 10⟩ Sample.inflate 0 .all [w, w, w, 255] = (.ok (), [255, 255, 255, 255]))
            | none => false)
        | _ => false) = true →
      ∃ (b : Bytes) (f : AsepriteFile) (lf : LFrame) (v w : UInt8), AsepriteFile.load ⟨true, 10⟩ b = .ok f ∧
        f.frames[0]? = some lf ∧ (strokes Sample.inflate f .all 0 0 lf.cels).map Stroke.mode = [m] ∧ Within 1 v w ∧
        f.renderFrame ⟨true, 10⟩ Sample.inflate 0 .all [v, v, v, 255] = (.ok (), [0, 0, 0, 255]) ∧
        f.renderFrame ⟨true, 10⟩ Sample.inflate 0 .all [w, w, w, 255] = (.ok (), [255, 255, 255, 255]) := by
    intro m n s v w h
    split at h
    · next f hf =>
      split at h
      · next lf hl => exact ⟨_, f, lf, v, w, hf, hl, of_decide_eq_true h⟩
      · cases h
    · cases h
  intro m hm
  simp only [List.mem_cons, List.not_mem_nil, or_false] at hm
  rcases hm with rfl | rfl | rfl
  · exact key _ 6 254 0 1 (by decide +kernel)
  · exact key _ 7 1 254 255 (by decide +kernel)
  · exact key _ 18 1 0 1 (by decide +kernel)

end Ase
