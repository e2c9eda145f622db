import Verif.Lemmas.Channels
import Verif.Props.Strokes

/-!
# C79: colour channels do not mix; C80: brighter in, brighter out
-/

namespace Ase

open Spec

/-- What holds of two pixels and is kept by pairs of related strokes holds after all strokes. -/
theorem fold_related (plat : Plat) (R : Color → Color → Prop) (S : Stroke → Stroke → Prop)
    (step : ∀ s s' c c' d d', S s s' → R c c' → blend plat s.mode c s.color s.opacity = .ok d →
      blend plat s'.mode c' s'.color s'.opacity = .ok d' → R d d')
    {ss ss' : List Stroke} (hs : List.Forall₂ S ss ss') {c c' d d' : Color} (hc : R c c')
    (h : ss.foldl (fun (r : Run Color) s => r.bind fun c => blend plat s.mode c s.color s.opacity) (.ok c) = .ok d)
    (h' : ss'.foldl (fun (r : Run Color) s => r.bind fun c => blend plat s.mode c s.color s.opacity) (.ok c') = .ok d') :
    R d d' := by
  have stuck : ∀ (ss : List Stroke) (k : Panic), ss.foldl (fun (r : Run Color) s =>
      r.bind fun c => blend plat s.mode c s.color s.opacity) (.panic k) = .panic k := by
    intro ss k
    induction ss with
    | nil => rfl
    | cons s ss ih => exact ih
  have first : ∀ (s : Stroke) (ss : List Stroke) (c d : Color), (s :: ss).foldl (fun (r : Run Color) s =>
      r.bind fun c => blend plat s.mode c s.color s.opacity) (.ok c) = .ok d →
      ∃ c1, blend plat s.mode c s.color s.opacity = .ok c1 ∧
        ss.foldl (fun (r : Run Color) s => r.bind fun c => blend plat s.mode c s.color s.opacity) (.ok c1) = .ok d := by
    intro s ss c d h
    rw [List.foldl_cons] at h
    cases hb : blend plat s.mode c s.color s.opacity with
    | err e => exact nomatch e
    | panic k =>
      have : (Outcome.bind (.ok c) fun c => blend plat s.mode c s.color s.opacity) = .panic k := hb
      rw [this, stuck] at h
      cases h
    | ok c1 =>
      have : (Outcome.bind (.ok c) fun c => blend plat s.mode c s.color s.opacity) = .ok c1 := hb
      rw [this] at h
      exact ⟨c1, rfl, h⟩
  induction hs generalizing c c' with
  | nil =>
    cases h
    cases h'
    exact hc
  | cons hss _ ih =>
    obtain ⟨c1, h1, h2⟩ := first _ _ _ _ h
    obtain ⟨c1', h1', h2'⟩ := first _ _ _ _ h'
    exact ih (step _ _ _ _ _ _ hss hc h1 h1') h2 h2'

/-- **C79.** Unless a mode on hue, saturation or luminosity is involved, a colour channel of a pixel depends on that channel
and alpha only, of what is painted and of what was there before, and all three channels are treated alike, except by soft
light (C51): if channel `ch` of one picture is painted like channel `ch'` of another one, the results are the same. -/
theorem C79_channels (plat : Plat) (b b' : Bytes) (f g : AsepriteFile) (hf : AsepriteFile.load plat b = .ok f)
    (hg : AsepriteFile.load plat b' = .ok g) (inflate : Inflater) (i j : Nat) (lf lg : LFrame)
    (hi : f.frames[i]? = some lf) (hj : g.frames[j]? = some lg) (sel sel' : LayerSelection) (t t' u u' : Bytes)
    (ht : f.renderFrame plat inflate i sel t = (.ok (), t')) (hu : g.renderFrame plat inflate j sel' u = (.ok (), u'))
    (x y x' y' : Nat) (hx : x < f.size.1.toNat) (hy : y < f.size.2.toNat) (hx' : x' < g.size.1.toNat)
    (hy' : y' < g.size.2.toNat) (ch ch' : Color → UInt8) (hch : IsChannel ch) (hch' : IsChannel ch')
    (hb : (canvasPixel f t x y).map (fun c => (ch c, c.a)) = (canvasPixel g u x' y').map (fun c => (ch' c, c.a)))
    (hs : List.Forall₂ (Alike ch ch') (strokes inflate f sel x y lf.cels) (strokes inflate g sel' x' y' lg.cels))
    (hm : ∀ s ∈ strokes inflate f sel x y lf.cels, isHsl s.mode = false ∧ (ch = ch' ∨ s.mode ≠ .softLight)) :
    (canvasPixel f t' x y).map (fun c => (ch c, c.a)) = (canvasPixel g u' x' y').map (fun c => (ch' c, c.a)) := by
  obtain ⟨c, d, h1, h2, h3⟩ := C37_pixels plat b f hf inflate i lf hi sel t t' ht x y hx hy
  obtain ⟨c', d', h1', h2', h3'⟩ := C37_pixels plat b' g hg inflate j lg hj sel' u u' hu x' y' hx' hy'
  rw [h1, h1'] at hb
  rw [h2, h2']
  rw [compose_strokes] at h3 h3'
  have hs2 : List.Forall₂ (fun s s' => Alike ch ch' s s' ∧ isHsl s.mode = false ∧ (ch = ch' ∨ s.mode ≠ .softLight))
      (strokes inflate f sel x y lf.cels) (strokes inflate g sel' x' y' lg.cels) := by
    generalize strokes inflate f sel x y lf.cels = ss at hs hm
    generalize strokes inflate g sel' x' y' lg.cels = ss' at hs
    clear h3 h3'
    induction hs with
    | nil => exact .nil
    | cons h _ ih => exact .cons ⟨h, hm _ List.mem_cons_self⟩ (ih fun s hs => hm s (List.mem_cons_of_mem _ hs))
  have := fold_related plat (fun c c' => ch c = ch' c' ∧ c.a = c'.a) _ ?_ hs2 (c := c) (c' := c')
    (by simpa using hb) h3 h3'
  · simpa using this
  · rintro s s' c c' d d' ⟨⟨e1, e2, e3, e4⟩, hm, hsoft⟩ ⟨hc, ha⟩ h h'
    have hm' : isHsl s'.mode = false := e1 ▸ hm
    refine ⟨?_, ?_⟩
    · have k := blend_step plat _ hm _ _ _ _ h ch hch
      have k' := blend_step plat _ hm' _ _ _ _ h' ch' hch'
      apply toI_inj
      rw [k, k', hc, ha, e2, e3, e4, ← e1]
      congr 1
      rcases hsoft with rfl | hsoft
      · rfl
      · obtain ⟨f, hf⟩ : ∃ f, channelFn s.mode = some f := by
          clear k k' h' e1
          generalize s.mode = m at h hm hsoft
          cases m <;> first | exact ⟨_, rfl⟩ | exact absurd rfl hsoft | (cases hm; done) | (cases h; done)
        rw [modeG, modeG, hf]
    · rw [← UInt8.toNat_inj, blend_alpha plat _ hm _ _ _ _ h, blend_alpha plat _ hm' _ _ _ _ h', ha, e2, e3]

-- two sprites with nothing in common in the red channel and the same in the green one
example :
    let b (x y : UInt8) := Sample.header 1 1 32 ++ Sample.frame 1 [Sample.layer 1 0 1 255 [65], Sample.layer 1 0 9 100 [66],
      Sample.cel 0 0 0 1 1 [x, 80, y, 200], Sample.cel 1 0 0 1 1 [y, 8, x, 130]]
    (match AsepriteFile.load ⟨true, 10⟩ (b 1 2), AsepriteFile.load ⟨true, 10⟩ (b 200 3) with
      | .ok f, .ok g =>
        (match f.frames[0]?, g.frames[0]? with
          | some lf, some lg =>
            decide ((strokes (fun _ _ => (.streamEnd, [])) f .all 0 0 lf.cels).map (fun s =>
              (s.mode, s.opacity, s.color.a, s.color.g)) =
              [(.multiply, 255, 200, 80), (.softLight, 100, 130, 8)] ∧
            (strokes (fun _ _ => (.streamEnd, [])) g .all 0 0 lg.cels).map (fun s =>
              (s.mode, s.opacity, s.color.a, s.color.g)) =
              [(.multiply, 255, 200, 80), (.softLight, 100, 130, 8)])
          | _, _ => false)
      | _, _ => false) = true ∧
    Sample.render ⟨true, 10⟩ (b 1 2) 0 .all [7, 90, 3, 50] = some (.ok (), [2, 54, 3, 220]) ∧
    Sample.render ⟨true, 10⟩ (b 200 3) 0 .all [200, 90, 30, 50] = some (.ok (), [172, 54, 11, 220]) := by
  decide +kernel

/-- **C80.** If nothing painted on a pixel is brighter in a channel than what is painted on another one, nor is what was
there before, and all else is equal (alphas, opacities, modes), then the result is not brighter either, for all modes
with formulas that rise in both colours: rounding does not reverse the order. -/
theorem C80_brighter (plat : Plat) (b b' : Bytes) (f g : AsepriteFile) (hf : AsepriteFile.load plat b = .ok f)
    (hg : AsepriteFile.load plat b' = .ok g) (inflate : Inflater) (i j : Nat) (lf lg : LFrame)
    (hi : f.frames[i]? = some lf) (hj : g.frames[j]? = some lg) (sel sel' : LayerSelection) (t t' u u' : Bytes)
    (ht : f.renderFrame plat inflate i sel t = (.ok (), t')) (hu : g.renderFrame plat inflate j sel' u = (.ok (), u'))
    (x y x' y' : Nat) (hx : x < f.size.1.toNat) (hy : y < f.size.2.toNat) (hx' : x' < g.size.1.toNat)
    (hy' : y' < g.size.2.toNat) (ch : Color → UInt8) (hch : IsChannel ch) (c c' : Color)
    (hc : canvasPixel f t x y = some c) (hc' : canvasPixel g u x' y' = some c') (hcc : ch c ≤ ch c') (hca : c.a = c'.a)
    (hs : List.Forall₂ (NotBrighter ch) (strokes inflate f sel x y lf.cels) (strokes inflate g sel' x' y' lg.cels))
    (hm : ∀ s ∈ strokes inflate f sel x y lf.cels, rising s.mode = true) :
    ∃ d d', canvasPixel f t' x y = some d ∧ canvasPixel g u' x' y' = some d' ∧ ch d ≤ ch d' ∧ d.a = d'.a := by
  obtain ⟨c, d, h1, h2, h3⟩ := C37_pixels plat b f hf inflate i lf hi sel t t' ht x y hx hy
  obtain ⟨c', d', h1', h2', h3'⟩ := C37_pixels plat b' g hg inflate j lg hj sel' u u' hu x' y' hx' hy'
  rw [hc] at h1
  cases h1
  rw [hc'] at h1'
  cases h1'
  rw [compose_strokes] at h3 h3'
  refine ⟨d, d', h2, h2', ?_⟩
  have hs2 : List.Forall₂ (fun s s' => NotBrighter ch s s' ∧ rising s.mode = true)
      (strokes inflate f sel x y lf.cels) (strokes inflate g sel' x' y' lg.cels) := by
    generalize strokes inflate f sel x y lf.cels = ss at hs hm
    generalize strokes inflate g sel' x' y' lg.cels = ss' at hs
    clear h3 h3'
    induction hs with
    | nil => exact .nil
    | cons h _ ih => exact .cons ⟨h, hm _ List.mem_cons_self⟩ (ih fun s hs => hm s (List.mem_cons_of_mem _ hs))
  refine fold_related plat (fun c c' => ch c ≤ ch c' ∧ c.a = c'.a) _ ?_ hs2 ⟨hcc, hca⟩ h3 h3'
  rintro s s' c c' d d' ⟨⟨e1, e2, e3, e4⟩, hr⟩ ⟨hc, ha⟩ h h'
  have hm : isHsl s.mode = false := by
    revert hr
    cases s.mode <;> simp [rising, isHsl]
  have hm' : isHsl s'.mode = false := e1 ▸ hm
  refine ⟨?_, ?_⟩
  · rw [← toI_le_iff, blend_step plat _ hm _ _ _ _ h ch hch, blend_step plat _ hm' _ _ _ _ h' ch hch, ← e1, ← e2, ← e3,
      ← ha]
    exact stepC_mono _ hr ch _ _ _ hc e4
  · rw [← UInt8.toNat_inj, blend_alpha plat _ hm _ _ _ _ h, blend_alpha plat _ hm' _ _ _ _ h', ha, e2, e3]

-- the second picture is brighter in red, in what was there as well as in what is painted
example :
    let b (x y : UInt8) := Sample.header 1 1 32 ++ Sample.frame 1 [Sample.layer 1 0 9 255 [65], Sample.layer 1 0 6 100 [66],
      Sample.cel 0 0 0 1 1 [x, 80, 5, 200], Sample.cel 1 0 0 1 1 [y, 8, 7, 130]]
    (match AsepriteFile.load ⟨true, 10⟩ (b 10 20), AsepriteFile.load ⟨true, 10⟩ (b 100 21) with
      | .ok f, .ok g =>
        (match f.frames[0]?, g.frames[0]? with
          | some lf, some lg =>
            decide ((strokes (fun _ _ => (.streamEnd, [])) f .all 0 0 lf.cels).map (fun s =>
              (s.mode, s.opacity, s.color.a, s.color.r)) =
              [(.softLight, 255, 200, 10), (.colorDodge, 100, 130, 20)] ∧
            (strokes (fun _ _ => (.streamEnd, [])) g .all 0 0 lg.cels).map (fun s =>
              (s.mode, s.opacity, s.color.a, s.color.r)) =
              [(.softLight, 255, 200, 100), (.colorDodge, 100, 130, 21)])
          | _, _ => false)
      | _, _ => false) = true ∧
    Sample.render ⟨true, 10⟩ (b 10 20) 0 .all [7, 90, 3, 50] = some (.ok (), [8, 75, 3, 220]) ∧
    Sample.render ⟨true, 10⟩ (b 100 21) 0 .all [90, 90, 3, 50] = some (.ok (), [90, 75, 3, 220]) := by
  decide +kernel

end Ase
