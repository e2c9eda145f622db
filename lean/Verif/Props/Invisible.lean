import Verif.Props.Alpha
import Verif.Props.Strokes

/-!
# C95: what cannot be seen does not matter

A fully transparent pixel still has a colour in the file and in the buffer, and a stroke can be so faint that its alpha is
rounded to 0.  Neither has any influence on what can be seen.
-/

namespace Ase

open Spec

/-- Two colours that look the same: the same alpha, and the same colour unless they are fully transparent. -/
def Spec.LooksSame (c d : Color) : Prop := c.a = d.a ∧ (c.a ≠ 0 → c = d)

instance (c d : Color) : Decidable (LooksSame c d) := by unfold LooksSame; infer_instance

/-- A stroke that cannot be seen: its alpha or the opacity of its layer is 0, or, if its mode is not one of the four HSL
modes, their product is nearer to 0 than to 1 (on a scale where 255 is full alpha). -/
def Spec.Stroke.isInvisible (s : Stroke) : Bool :=
  decide (s.color.a = 0 ∨ s.opacity = 0 ∨ (isHsl s.mode = false ∧ 2 * (s.color.a.toNat * s.opacity.toNat) < 255))

theorem Spec.LooksSame.refl (c : Color) : LooksSame c c := ⟨rfl, fun _ => rfl⟩

theorem Spec.LooksSame.symm {c d : Color} (h : LooksSame c d) : LooksSame d c :=
  ⟨h.1.symm, fun hd => (h.2 (by rw [h.1]; exact hd)).symm⟩

theorem Spec.LooksSame.trans {c d e : Color} (h : LooksSame c d) (h' : LooksSame d e) : LooksSame c e :=
  ⟨h.1.trans h'.1, fun hc => (h.2 hc).trans (h'.2 (by rw [← h.1]; exact hc))⟩

theorem ofI32_alpha {plat : Plat} {r g b a : Int} {c : Color} (h : Color.ofI32 plat r g b a = .ok c) : c.a = asU8 a := by
  unfold Color.ofI32 at h
  rcases debugAssert_cases plat (isByte r) with h1 | h1 <;> rw [h1] at h <;> [skip; cases h]
  rw [run_bind_ok] at h
  rcases debugAssert_cases plat (isByte g) with h1 | h1 <;> rw [h1] at h <;> [skip; cases h]
  rw [run_bind_ok] at h
  rcases debugAssert_cases plat (isByte b) with h1 | h1 <;> rw [h1] at h <;> [skip; cases h]
  rw [run_bind_ok] at h
  rcases debugAssert_cases plat (isByte a) with h1 | h1 <;> rw [h1] at h <;> [skip; cases h]
  rw [run_bind_ok] at h
  cases h
  rfl

/-- Every mode that does not fail, in one form: `blender` of some colour with (outside the HSL modes) the alpha of the
source, and transparent if the source is. -/
theorem blend_form {plat : Plat} {m : BlendMode} {back front c : Color} {o : UInt8}
    (h : blend plat m back front o = .ok c) :
    (back.a = 0 ∧ c = normalU back front o) ∨
    ∃ col, c = blenderU back front o (normalU back col o) ∧ (front.a = 0 → col.a = 0) ∧
      (isHsl m = false → col.a = front.a) := by
  cases hf : channelFn m with
  | some f =>
    obtain ⟨g, h1, h2⟩ := mode_eq plat m f hf
    rw [blend, h1, run_bind_ok, h2, modeU] at h
    cases h
    exact .inr ⟨chanU f back front, rfl, fun ha => ha, fun _ => rfl⟩
  | none =>
    by_cases hm : isHsl m = true
    · obtain ⟨r, g, b, h1⟩ := hsl_shape m hm back front
      rw [h1] at h
      by_cases hb : back.a = 0
      · rw [blender_eq _ _ _ _ _ back (fun hn => absurd hb hn)] at h
        cases h
        exact .inl ⟨hb, by simp only [blenderU, hb, ne_eq, not_true_eq_false, if_false]⟩
      · cases hcol : Color.ofF64 plat r g b (toF front.a) with
        | ok col =>
          rw [blender_eq _ _ _ _ _ (normalU back col o) (fun _ => by
            rw [if_pos ⟨rfl, rfl⟩, hcol, run_bind_ok, normal_eq])] at h
          cases h
          refine .inr ⟨col, rfl, fun ha => ?_, fun hn => by rw [hm] at hn; cases hn⟩
          rw [Color.ofF64, toI32_alpha, ha] at hcol
          exact ofI32_alpha hcol
        | err e => exact nomatch e
        | panic k =>
          rw [blender_panic _ _ _ _ _ k hb (by rw [if_pos ⟨rfl, rfl⟩, hcol]; rfl)] at h
          cases h
    · cases m <;> first | exact absurd rfl hm | (simp [channelFn] at hf; done) | skip
      · rw [blend_softLight] at h
        cases h
        exact .inr ⟨softColor back front, rfl, fun ha => ha, fun _ => rfl⟩
      · cases h

theorem normalU_invisible (back front : Color) (o : UInt8) (hb : back.a ≠ 0) (h : timesU front.a o = 0) :
    normalU back front o = back := by
  unfold normalU
  rw [if_neg hb]
  split
  · rfl
  · simp only [h, overC, overA, show timesU back.a 0 = 0 from timesU_zero _, show toI 0 = 0 from rfl, Int.mul_zero,
      Int.zero_tdiv, Int.add_zero, Int.zero_add, Int.sub_zero, asU8_toI]

theorem timesU_small {a o : UInt8} (h : 2 * (a.toNat * o.toNat) < 255) : timesU a o = 0 := by
  apply UInt8.toNat_inj.1
  rw [timesU_toNat]
  simp only [times, roundDiv, show (0 : UInt8).toNat = 0 from rfl]
  omega

theorem blend_clear {plat : Plat} {m : BlendMode} {back front c : Color} {o : UInt8} (hb : back.a = 0)
    (h : blend plat m back front o = .ok c) : c = ⟨front.r, front.g, front.b, timesU front.a o⟩ := by
  rcases blend_form h with ⟨_, h1⟩ | ⟨col, h1, _⟩
  · rw [h1, normalU, if_pos hb]
  · rw [h1, blenderU, if_neg (by simp [hb]), normalU, if_pos hb]

/-- **C95 (one stroke).** In every mode, a stroke that cannot be seen leaves a colour that looks the same. -/
theorem C95_stroke (plat : Plat) (s : Stroke) (hs : s.isInvisible = true) (back c : Color)
    (h : blend plat s.mode back s.color s.opacity = .ok c) : LooksSame back c := by
  have h0 : timesU s.color.a s.opacity = 0 := by
    rcases of_decide_eq_true hs with h1 | h1 | h1
    · rw [h1, zero_timesU]
    · rw [h1, timesU_zero]
    · exact timesU_small h1.2
  by_cases hb : back.a = 0
  · rw [blend_clear hb h]
    exact ⟨by rw [hb, h0], fun hn => absurd hb hn⟩
  · rcases blend_form h with ⟨h1, _⟩ | ⟨col, h1, h2, h3⟩
    · exact absurd h1 hb
    · have h4 : timesU col.a s.opacity = 0 := by
        rcases of_decide_eq_true hs with h5 | h5 | h5
        · rw [h2 h5, zero_timesU]
        · rw [h5, timesU_zero]
        · rw [h3 h5.1]; exact h0
      rw [h1, blenderU, if_pos hb, normalU_invisible back s.color s.opacity hb h0,
        normalU_invisible back col s.opacity hb h4, mergeU_self _ _ hb, mergeU_self _ _ hb]
      exact .refl _

/-- **C95 (one stroke, hidden colours).** On two colours that look the same, the same stroke gives colours that look the
same; on fully transparent ones even the same colour. -/
theorem C95_backdrop (plat : Plat) (s : Stroke) (back back' c c' : Color) (hb : LooksSame back back')
    (h : blend plat s.mode back s.color s.opacity = .ok c) (h' : blend plat s.mode back' s.color s.opacity = .ok c') :
    c = c' := by
  by_cases ha : back.a = 0
  · rw [blend_clear ha h, blend_clear (hb.1 ▸ ha) h']
  · rw [← hb.2 ha, h] at h'
    cases h'
    rfl

theorem foldl_stuck {plat : Plat} (ss : List Stroke) (k : Panic) : ss.foldl (fun (r : Run Color) s =>
    r.bind fun c => blend plat s.mode c s.color s.opacity) (.panic k) = .panic k := by
  induction ss with
  | nil => rfl
  | cons s ss ih => exact ih

/-- Painting the strokes that can be seen, on a colour that looks the same, gives a colour that looks the same. -/
theorem strokes_visible {plat : Plat} (ss : List Stroke) {c d e : Color} (hc : LooksSame c d)
    (h : ss.foldl (fun (r : Run Color) s => r.bind fun c => blend plat s.mode c s.color s.opacity) (.ok c) = .ok e) :
    ∃ e', (ss.filter fun s => !s.isInvisible).foldl
      (fun (r : Run Color) s => r.bind fun c => blend plat s.mode c s.color s.opacity) (.ok d) = .ok e' ∧
      LooksSame e e' := by
  induction ss generalizing c d with
  | nil =>
    cases h
    exact ⟨d, rfl, hc⟩
  | cons s ss ih =>
    rw [List.foldl_cons] at h
    cases hb : blend plat s.mode c s.color s.opacity with
    | err e => exact nomatch e
    | panic k =>
      rw [show (Outcome.ok c : Run Color).bind (fun c => blend plat s.mode c s.color s.opacity) = .panic k from hb] at h
      exact absurd h (by rw [foldl_stuck]; simp)
    | ok c1 =>
      rw [show (Outcome.ok c : Run Color).bind (fun c => blend plat s.mode c s.color s.opacity) = .ok c1 from hb] at h
      rw [List.filter_cons]
      by_cases hs : s.isInvisible = true
      · rw [hs]
        exact ih ((C95_stroke plat s hs c c1 hb).symm.trans hc) h
      · rw [Bool.not_eq_true] at hs
        rw [hs, Bool.not_false, if_pos rfl, List.foldl_cons]
        obtain ⟨d1, hd1⟩ : ∃ d1, blend plat s.mode d s.color s.opacity = .ok d1 := by
          by_cases ha : c.a = 0
          · have hk : isKnown s.mode = true := by
              cases hm : s.mode with
              | unknown n => rw [hm] at hb; cases hb
              | _ => rfl
            obtain ⟨d1, h1, _⟩ := C48_transparent_backdrop plat s.mode hk d s.color s.opacity (hc.1 ▸ ha)
            exact ⟨d1, h1⟩
          · rw [← hc.2 ha]
            exact ⟨c1, hb⟩
        rw [show (Outcome.ok d : Run Color).bind (fun c => blend plat s.mode c s.color s.opacity) = .ok d1 from hd1]
        exact ih (C95_backdrop plat s c d c1 d1 hc hb hd1 ▸ .refl c1) h

/-- **C95.** What cannot be seen does not matter: if two frames, of one sprite or of two, with whatever selections, paint
the same on a pixel of each, apart from strokes that cannot be seen, and the pixels looked the same before, they look the
same after rendering. -/
theorem C95_invisible (plat : Plat) (b b' : Bytes) (f g : AsepriteFile) (hf : AsepriteFile.load plat b = .ok f)
    (hg : AsepriteFile.load plat b' = .ok g) (inflate : Inflater) (i j : Nat) (lf lg : LFrame)
    (hi : f.frames[i]? = some lf) (hj : g.frames[j]? = some lg) (sel sel' : LayerSelection) (t t' u u' : Bytes)
    (ht : f.renderFrame plat inflate i sel t = (.ok (), t')) (hu : g.renderFrame plat inflate j sel' u = (.ok (), u'))
    (x y x' y' : Nat) (hx : x < f.size.1.toNat) (hy : y < f.size.2.toNat) (hx' : x' < g.size.1.toNat)
    (hy' : y' < g.size.2.toNat)
    (hb : ∀ c d, canvasPixel f t x y = some c → canvasPixel g u x' y' = some d → LooksSame c d)
    (hs : (strokes inflate f sel x y lf.cels).filter (fun s => !s.isInvisible) =
      (strokes inflate g sel' x' y' lg.cels).filter (fun s => !s.isInvisible)) :
    ∃ c d, canvasPixel f t' x y = some c ∧ canvasPixel g u' x' y' = some d ∧ LooksSame c d := by
  obtain ⟨c, d, h1, h2, h3⟩ := C37_pixels plat b f hf inflate i lf hi sel t t' ht x y hx hy
  obtain ⟨c', d', h1', h2', h3'⟩ := C37_pixels plat b' g hg inflate j lg hj sel' u u' hu x' y' hx' hy'
  rw [compose_strokes] at h3 h3'
  obtain ⟨e, h4, h5⟩ := strokes_visible _ (hb c c' h1 h1') h3
  obtain ⟨e', h4', h5'⟩ := strokes_visible _ (.refl c') h3'
  rw [hs, h4'] at h4
  cases h4
  exact ⟨d, d', h2, h2', h5.trans h5'.symm⟩

/-- **C95 (layers).** Showing or hiding layers of opacity 0 does not change what can be seen in any frame; nor do the
colours of fully transparent pixels of the buffer. -/
theorem C95_layers (plat : Plat) (b : Bytes) (f : AsepriteFile) (hf : AsepriteFile.load plat b = .ok f)
    (inflate : Inflater) (i : Nat) (sel sel' : LayerSelection) (t t' u u' : Bytes)
    (hsel : ∀ (l : Nat) (layer : LLayer), f.layers[l]? = some layer → layer.opacity ≠ 0 →
      (Selects sel l layer ↔ Selects sel' l layer))
    (ht : f.renderFrame plat inflate i sel t = (.ok (), t')) (hu : f.renderFrame plat inflate i sel' u = (.ok (), u'))
    (x y : Nat) (hx : x < f.size.1.toNat) (hy : y < f.size.2.toNat)
    (hb : ∀ c d, canvasPixel f t x y = some c → canvasPixel f u x y = some d → LooksSame c d) :
    ∃ c d, canvasPixel f t' x y = some c ∧ canvasPixel f u' x y = some d ∧ LooksSame c d := by
  obtain ⟨lf, hi⟩ : ∃ lf, f.frames[i]? = some lf := by
    cases hi : f.frames[i]? with
    | some lf => exact ⟨lf, rfl⟩
    | none =>
      exfalso
      rw [renderFrame_eq, hi] at ht
      split at ht <;> cases ht
  refine C95_invisible plat b b f f hf hf inflate i i lf lf hi hi sel sel' t t' u u' ht hu x y x y hx hy hx hy hb ?_
  unfold strokes
  rw [List.filter_filterMap, List.filter_filterMap]
  congr 1
  funext c
  unfold strokeOf drawnOn
  cases hl : f.layers[c.layerIndex]? with
  | none => rfl
  | some layer =>
    dsimp only
    by_cases ho : layer.opacity = 0
    · have key : ∀ sel : LayerSelection, Option.filter (fun s : Stroke => !s.isInvisible)
          ((if layer.layerType ≠ .group ∧ Selects sel c.layerIndex layer then some layer else none).bind fun layer =>
            (coveredBy c x y).bind fun p => (imageColor inflate f c.imageIndex p).map fun color =>
              (⟨layer.blendMode, layer.opacity, color⟩ : Stroke)) = none := by
        intro sel
        split
        · rw [Option.bind_some]
          cases coveredBy c x y with
          | none => rfl
          | some p =>
            rw [Option.bind_some]
            cases imageColor inflate f c.imageIndex p with
            | none => rfl
            | some color => simp [Stroke.isInvisible, ho, Option.filter]
        · rfl
      rw [key, key]
    · simp only [hsel _ layer hl ho]

-- A layer of opacity 0, a transparent red pixel and a faint one do not show, over a transparent green buffer pixel.
example :
    let b := Sample.header 1 1 32 ++ Sample.frame 1 [Sample.layer 1 0 0 0 [65], Sample.layer 1 0 3 255 [66],
      Sample.layer 1 0 1 12 [67], Sample.layer 1 0 0 255 [68],
      Sample.cel 0 0 0 1 1 [9, 9, 9, 200], Sample.cel 1 0 0 1 1 [200, 0, 0, 0],
      Sample.cel 2 0 0 1 1 [4, 5, 6, 10], Sample.cel 3 0 0 1 1 [1, 8, 7, 130]]
    let b' := Sample.header 1 1 32 ++ Sample.frame 1 [Sample.layer 1 0 0 255 [65], Sample.cel 0 0 0 1 1 [1, 8, 7, 130]]
    (match AsepriteFile.load ⟨true, 10⟩ b, AsepriteFile.load ⟨true, 10⟩ b' with
      | .ok f, .ok g =>
        (match f.frames[0]?, g.frames[0]? with
          | some lf, some lg =>
            decide ((strokes (fun _ _ => (.streamEnd, [])) f .all 0 0 lf.cels).length = 4 ∧
            (strokes (fun _ _ => (.streamEnd, [])) f .all 0 0 lf.cels).filter (fun s => !s.isInvisible) =
              strokes (fun _ _ => (.streamEnd, [])) g .all 0 0 lg.cels)
          | _, _ => false)
      | _, _ => false) = true ∧
    LooksSame ⟨0, 99, 0, 0⟩ ⟨1, 2, 3, 0⟩ ∧ ¬ LooksSame ⟨0, 99, 0, 1⟩ ⟨1, 2, 3, 1⟩ ∧
    Sample.render ⟨true, 10⟩ b 0 .all [0, 99, 0, 0] = some (.ok (), [1, 8, 7, 130]) ∧
    Sample.render ⟨true, 10⟩ b' 0 .all [1, 2, 3, 0] = some (.ok (), [1, 8, 7, 130]) := by
  decide +kernel

/-- The HSL modes are different: a pixel of alpha 1 on a layer of opacity 100, which no other mode would show, is seen
(in release builds; the alpha the mode computes for it is 255). -/
theorem C95_hsl : blend ⟨false, 0⟩ .hue ⟨200, 100, 50, 255⟩ ⟨0, 255, 0, 1⟩ 100 = .ok ⟨126, 160, 34, 255⟩ := by
  decide +kernel

end Ase
