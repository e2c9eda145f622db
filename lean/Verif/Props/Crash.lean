import Verif.Props.Failures

/-!
# C91: what a panic leaves in the buffer

`render_frame` panics on some files that load (C41).  A program that catches the panic still has the buffer.  Here: what
is in it.
-/

namespace Ase

open Spec

/-- `(x, y)` comes before `(x', y')` in reading order: in a row above, or in the same row to the left. -/
def Spec.readsBefore (x y x' y' : Nat) : Bool := decide (y < y' ∨ y = y' ∧ x < x')

theorem u16Range_sorted (n : UInt16) : (u16Range n).Pairwise fun a b => a.toNat < b.toNat := by
  have hn := n.toNat_lt
  unfold u16Range
  rw [List.pairwise_map]
  refine List.Pairwise.imp_of_mem ?_ (List.pairwise_lt_range (n := n.toNat))
  intro a b ha hb hlt
  rw [List.mem_range] at ha hb
  rw [UInt16.toNat_ofNat', UInt16.toNat_ofNat']
  omega

theorem celPixels_sorted (w h : UInt16) :
    (celPixels w h).Pairwise fun a b => readsBefore a.2.toNat a.1.toNat b.2.toNat b.1.toNat = true := by
  unfold celPixels
  have hw := u16Range_sorted w
  have hh := u16Range_sorted h
  generalize u16Range h = ys at hh
  induction ys with
  | nil => simp
  | cons y ys ih =>
    rw [List.pairwise_cons] at hh
    rw [List.flatMap_cons, List.pairwise_append]
    refine ⟨?_, ih hh.2, ?_⟩
    · rw [List.pairwise_map]
      exact hw.imp fun hlt => by simp [readsBefore, hlt]
    · rintro ⟨y1, x1⟩ h1 ⟨y2, x2⟩ h2
      simp only [List.mem_map, Prod.mk.injEq, List.mem_flatMap] at h1 h2
      obtain ⟨_, _, rfl, rfl⟩ := h1
      obtain ⟨y', hy', _, _, rfl, _⟩ := h2
      simp [readsBefore, hh.1 _ hy']

/-- Where a cel pixel is on the canvas. -/
theorem targetOf_some {f : AsepriteFile} {cel : FrameCel} {yx : UInt16 × UInt16} {q : Nat}
    (h : targetOf f cel yx = some q) : ∃ x y : Nat, x < f.file.header.width.toNat ∧ y < f.file.header.height.toNat ∧
      q = y * f.file.header.width.toNat + x ∧ (x : Int) = yx.2.toNat + cel.origin.1.toInt ∧
      (y : Int) = yx.1.toNat + cel.origin.2.toInt := by
  unfold targetOf at h
  dsimp only at h
  split at h
  · next hc =>
    cases h
    exact ⟨_, _, by omega, by omega, rfl, by omega, by omega⟩
  · cases h

theorem targetOf_order {f : AsepriteFile} {cel : FrameCel} {a b : UInt16 × UInt16} {x y x' y' : Nat}
    (hx : x < f.file.header.width.toNat) (hx' : x' < f.file.header.width.toNat)
    (ha : targetOf f cel a = some (y * f.file.header.width.toNat + x))
    (hb : targetOf f cel b = some (y' * f.file.header.width.toNat + x')) :
    readsBefore x y x' y' = readsBefore a.2.toNat a.1.toNat b.2.toNat b.1.toNat := by
  obtain ⟨u, v, hu, hv, e, h1, h2⟩ := targetOf_some ha
  obtain ⟨u', v', hu', hv', e', h1', h2'⟩ := targetOf_some hb
  obtain ⟨rfl, rfl⟩ := row_major_inj hx hu e
  obtain ⟨rfl, rfl⟩ := row_major_inj hx' hu' e'
  unfold readsBefore
  exact decide_eq_decide.2 (by omega)

/-- What one cel leaves when it panics: either nothing has been painted, or the pixels before the first one, in reading
order, on which blending fails. -/
theorem renderCel_crash {plat : Plat} {inflate : Inflater} {f : AsepriteFile} {pal : Palette}
    (hpal : GoodPalette f.file pal) (sel : LayerSelection) {cel : FrameCel} {im : Image} {layer : LLayer}
    (him : f.images[cel.imageIndex]? = some im) (hsize : cel.size = (im.width, im.height))
    (hd : drawnOn f sel cel = some layer) {t t' : Bytes} (ht : canvasBytes f ≤ t.length) {k : Panic}
    (h : f.renderCel plat inflate sel cel t = (.panic k, t')) :
    (t' = t ∧ k ≠ .debugAssertFailed) ∨
    (k = .debugAssertFailed ∧ ∃ x0 y0 c0, x0 < f.file.header.width.toNat ∧ y0 < f.file.header.height.toNat ∧
      canvasPixel f t x0 y0 = some c0 ∧ compose plat inflate f sel x0 y0 [cel] c0 = .panic k ∧
      ∀ x y, x < f.file.header.width.toNat → y < f.file.header.height.toNat → ∃ old now,
        canvasPixel f t x y = some old ∧ canvasPixel f t' x y = some now ∧
        compose plat inflate f sel x y (if readsBefore x y x0 y0 then [cel] else []) old = .ok now) := by
  have hpc : cel.size.1.toNat * cel.size.2.toNat = pixelCount im := by rw [hsize]; rfl
  have hfail := (renderCel_panic (plat := plat) (inflate := inflate) hpal sel him hsize hd ht k).1 (by rw [h])
  rw [renderCel_drawn hd, hpc] at h
  by_cases hh : HasPixels inflate f.file im
  · obtain ⟨c, hc1, hc2, hc3⟩ := (loadImage_fresh hpal inflate him).1 hh
    rw [hc1] at h
    dsimp only at h
    by_cases hk : isKnown layer.blendMode = true
    · obtain ⟨fn, hfn⟩ := (blendFn_known plat layer.blendMode).1 hk
      rw [hfn] at h
      dsimp only at h
      have hkd : k = .debugAssertFailed := by
        cases hfail.1 with
        | rawRgba h1 => exact absurd hh h1
        | undecodable h1 => exact absurd hh h1
        | unknownMode _ h1 => rw [hk] at h1; cases h1
        | pixel => rfl
      refine .inr ⟨hkd, ?_⟩
      have hblend : ∀ back front, blend plat layer.blendMode back front layer.opacity = fn back front layer.opacity := by
        intro back front
        rw [blend, hfn]
        rfl
      have hone : ∀ x y c, compose plat inflate f sel x y [cel] c =
          match (coveredBy cel x y).bind (imageColor inflate f cel.imageIndex) with
          | some front => fn c front layer.opacity
          | none => .ok c := by
        intro x y c
        rw [compose, hd]
        cases (coveredBy cel x y).bind (imageColor inflate f cel.imageIndex) with
        | none => rfl
        | some front =>
          dsimp only
          rw [hblend]
          cases fn c front layer.opacity with
          | ok => rfl
          | err e => exact nomatch e
          | panic => rfl
      have hfront : ∀ yx ∈ celPixels cel.size.1 cel.size.2, ∃ front,
          pixel c (yx.1.toNat * cel.size.1.toNat + yx.2.toNat) = some front ∧
          imageColor inflate f cel.imageIndex (yx.1.toNat * cel.size.1.toNat + yx.2.toNat) = some front := by
        intro yx hyx
        rw [mem_celPixels] at hyx
        have hp := row_major hyx.1 hyx.2
        rw [hpc] at hp
        have hs := pixel_isSome (a := c) (p := yx.1.toNat * cel.size.1.toNat + yx.2.toNat) (by omega)
        obtain ⟨front, hf⟩ := Option.isSome_iff_exists.1 hs
        exact ⟨front, hf, by rw [← hc3 _ hp]; exact hf⟩
      -- the loop up to the pixel that fails
      obtain ⟨pre, yx0, post, t1, hsplit, hpre, hlast⟩ := forEach_panic h
      have hmem : ∀ yx ∈ pre, yx ∈ celPixels cel.size.1 cel.size.2 := fun yx h => by rw [hsplit]; simp [h]
      have hmem0 : yx0 ∈ celPixels cel.size.1 cel.size.2 := by rw [hsplit]; simp
      have hL := pixelLoop (N := canvasBytes f) (target := targetOf f cel)
        (step := fun yx back => fn back ((pixel c (yx.1.toNat * cel.size.1.toNat + yx.2.toNat)).getD ⟨0, 0, 0, 0⟩)
          layer.opacity)
        (fun yx : UInt16 × UInt16 => f.renderPixel plat cel layer fn c yx.1 yx.2) pre
        (by
          intro yx hyx t ht
          have hyx := hmem yx hyx
          obtain ⟨front, hf, -⟩ := hfront yx hyx
          rw [mem_celPixels] at hyx
          rw [renderPixel_eq plat layer fn (by rw [hpc]; exact hc2) hyx.1 hyx.2 ht, hf]
          unfold pixelStep
          rw [show (yx.1, yx.2) = yx from rfl]
          cases targetOf f cel yx with
          | none => rfl
          | some q =>
            dsimp only
            cases pixel t q with
            | none => rfl
            | some back => rfl)
        (by
          intro yx _ q hq
          have := targetOf_lt hq
          unfold canvasBytes
          omega)
        (by
          have hn := celPixels_nodup cel.size.1 cel.size.2
          rw [hsplit] at hn
          refine (List.nodup_append.1 hn).1.imp ?_
          intro a b hne q ha hb
          exact hne (targetOf_inj ha hb))
        t ht
      rw [hpre] at hL
      have ht1 : canvasBytes f ≤ t1.length := by have := hL.length; dsimp only at this; omega
      have hsort := celPixels_sorted cel.size.1 cel.size.2
      rw [hsplit, List.pairwise_append, List.pairwise_cons] at hsort
      obtain ⟨-, ⟨hpost, -⟩, hcross⟩ := hsort
      -- the pixel that fails
      obtain ⟨front0, hf1, hf2⟩ := hfront yx0 hmem0
      have hm0 := mem_celPixels.1 hmem0
      rw [renderPixel_eq plat layer fn (by rw [hpc]; exact hc2) hm0.1 hm0.2 ht1, hf1] at hlast
      cases htg0 : targetOf f cel (yx0.1, yx0.2) with
      | none => rw [htg0] at hlast; cases hlast
      | some q0 =>
        rw [htg0] at hlast
        dsimp only at hlast
        obtain ⟨x0, y0, hx0, hy0, rfl, -, -⟩ := targetOf_some htg0
        obtain ⟨c0, hc0⟩ := canvasPixel_some ht1 hx0 hy0
        rw [show pixel t1 (y0 * f.file.header.width.toNat + x0) = some c0 from hc0] at hlast
        dsimp only at hlast
        have hold0 : canvasPixel f t x0 y0 = some c0 := by
          rw [← hc0, canvasPixel, canvasPixel]
          refine (hL.miss rfl _ fun yx hyx htg => ?_).symm
          have h1 := targetOf_order hx0 hx0 htg htg0
          rw [hcross yx hyx yx0 (by simp)] at h1
          simp [readsBefore] at h1
        have hpanic : fn c0 front0 layer.opacity = .panic k ∧ t1 = t' := by
          cases hfn0 : fn c0 front0 layer.opacity with
          | ok out => rw [hfn0] at hlast; cases hlast
          | err e => exact nomatch e
          | panic k' => rw [hfn0] at hlast; cases hlast; exact ⟨rfl, rfl⟩
        obtain ⟨hpanic, rfl⟩ := hpanic
        refine ⟨x0, y0, c0, hx0, hy0, hold0, ?_, ?_⟩
        · rw [hone, (coveredBy_iff hx0 hy0).2 ⟨yx0, hmem0, htg0, rfl⟩, Option.bind_some, hf2]
          exact hpanic
        · intro x y hx hy
          obtain ⟨old, hold⟩ := canvasPixel_some ht hx hy
          by_cases hex : ∃ yx ∈ pre, targetOf f cel yx = some (y * f.file.header.width.toNat + x)
          · obtain ⟨yx, hyx, htg⟩ := hex
            obtain ⟨back, out, h1, h2, h3⟩ := hL.hit rfl yx hyx _ htg
            obtain ⟨front, hfr1, hfr2⟩ := hfront yx (hmem yx hyx)
            have hb := targetOf_order hx hx0 htg htg0
            rw [hcross yx hyx yx0 (by simp)] at hb
            refine ⟨back, out, h1, h3, ?_⟩
            rw [hb, if_pos rfl, hone, (coveredBy_iff hx hy).2 ⟨yx, hmem yx hyx, htg, rfl⟩, Option.bind_some, hfr2]
            rw [hfr1] at h2
            exact h2
          · refine ⟨old, old, hold, ?_, ?_⟩
            · rw [canvasPixel, hL.miss rfl _ fun yx hyx htg => hex ⟨yx, hyx, htg⟩]
              exact hold
            · split
              · next hb =>
                rw [hone]
                cases hcv : coveredBy cel x y with
                | none => rfl
                | some p =>
                  obtain ⟨yx, hyx, htg, _⟩ := (coveredBy_iff hx hy).1 hcv
                  have ho := targetOf_order hx hx0 htg htg0
                  rw [hb] at ho
                  rw [hsplit, List.mem_append, List.mem_cons] at hyx
                  rcases hyx with hyx | rfl | hyx
                  · exact absurd ⟨yx, hyx, htg⟩ hex
                  · simp [readsBefore] at ho
                  · have hp := hpost yx hyx
                    simp only [readsBefore, decide_eq_true_eq, Bool.true_eq] at hp ho
                    omega
              · rfl
    · rw [Bool.not_eq_true] at hk
      rw [(blendFn_known plat layer.blendMode).2 hk] at h
      cases h
      exact .inl ⟨rfl, by simp⟩
  · have hl := loadImage_fails hpal inflate him hh
    by_cases hraw : im.compressed = false ∧ f.file.header.colorDepth = .rgba
    · have h1 := hl.1 hraw
      rcases hr : f.loadImage inflate cel.imageIndex (List.replicate (pixelCount im * 4) 0) with ⟨_ | _ | _, c⟩ <;>
        rw [hr] at h1 <;> cases h1
      rw [hr] at h
      cases h
      exact .inl ⟨rfl, by simp⟩
    · obtain ⟨e, h1⟩ := hl.2 hraw
      rcases hr : f.loadImage inflate cel.imageIndex (List.replicate (pixelCount im * 4) 0) with ⟨_ | _ | _, c⟩ <;>
        rw [hr] at h1 <;> cases h1
      rw [hr] at h
      cases h
      exact .inl ⟨rfl, by simp⟩

theorem compose_append (plat : Plat) (inflate : Inflater) (f : AsepriteFile) (sel : LayerSelection) (x y : Nat)
    (cs ds : List FrameCel) (c : Color) : compose plat inflate f sel x y (cs ++ ds) c =
      (compose plat inflate f sel x y cs c).bind (compose plat inflate f sel x y ds) := by
  induction cs generalizing c with
  | nil => rfl
  | cons a cs ih =>
    rw [List.cons_append, compose_cons, compose_cons _ _ _ _ _ _ a cs]
    cases compose plat inflate f sel x y [a] c with
    | ok o => exact ih o
    | err e => exact nomatch e
    | panic => rfl

/-- **C91.** Suppose `render_frame` panics.  Then there is a cel, the first one that cannot be drawn, and a place on the
canvas such that the buffer shows the picture of the cels below it, and in front of that place, in reading order, that of
the cel as well.  So every pixel is complete: it has a colour it also has after drawing some of the cels.  If blending is
not what fails, that cel has not been painted at all (the place is the upper left corner); if it is, the place is that of
a pixel where blending the cel fails. -/
theorem C91_crash (plat : Plat) (b : Bytes) (f : AsepriteFile) (h : AsepriteFile.load plat b = .ok f)
    (inflate : Inflater) (i : Nat) (lf : LFrame) (hi : f.frames[i]? = some lf) (sel : LayerSelection) (t t' : Bytes)
    (k : Panic) (hk : f.renderFrame plat inflate i sel t = (.panic k, t')) :
    ∃ before cel after x0 y0, lf.cels = before ++ cel :: after ∧
      (k ≠ .debugAssertFailed → x0 = 0 ∧ y0 = 0) ∧
      (k = .debugAssertFailed → x0 < f.size.1.toNat ∧ y0 < f.size.2.toNat ∧ ∃ old, canvasPixel f t x0 y0 = some old ∧
        compose plat inflate f sel x0 y0 (before ++ [cel]) old = .panic k) ∧
      ∀ x y, x < f.size.1.toNat → y < f.size.2.toNat → ∃ old now,
        canvasPixel f t x y = some old ∧ canvasPixel f t' x y = some now ∧
        compose plat inflate f sel x y (if readsBefore x y x0 y0 then before ++ [cel] else before) old = .ok now := by
  obtain ⟨pal, hpal⟩ := goodPalette_of_load h
  have hcels := celsOk_of_load h hi
  rw [renderFrame_eq] at hk
  by_cases ht : t.length < canvasBytes f
  · rw [if_pos ht] at hk; cases hk
  rw [if_neg ht, hi] at hk
  have ht : canvasBytes f ≤ t.length := by omega
  obtain ⟨before, cel, after, t1, hl, hb, hc⟩ := forEach_panic hk
  have hspec := renderCels_spec (plat := plat) (inflate := inflate) hpal sel before
    (fun c hc => hcels c (by rw [hl]; simp [hc])) t ht
  rw [hb] at hspec
  have ht1 : canvasBytes f ≤ t1.length := by have := hspec.length; dsimp only at this; omega
  obtain ⟨im, him, hsize⟩ := hcels cel (by rw [hl]; simp)
  have hres : ∀ x y, x < f.size.1.toNat → y < f.size.2.toNat → ∃ c out, canvasPixel f t x y = some c ∧
      compose plat inflate f sel x y before c = .ok out ∧ canvasPixel f t1 x y = some out :=
    fun x y hx hy => hspec.result rfl x y hx hy
  cases hd : drawnOn f sel cel with
  | none => rw [renderCel_skip hd] at hc; cases hc
  | some layer =>
    rcases renderCel_crash hpal sel him hsize hd ht1 hc with ⟨rfl, hne⟩ | ⟨hke, x0, y0, c0, hx0, hy0, h1, h2, h3⟩
    · refine ⟨before, cel, after, 0, 0, hl, fun _ => ⟨rfl, rfl⟩, fun h => absurd h hne, fun x y hx hy => ?_⟩
      obtain ⟨c, out, e1, e2, e3⟩ := hres x y hx hy
      exact ⟨c, out, e1, e3, by simpa [readsBefore] using e2⟩
    · refine ⟨before, cel, after, x0, y0, hl, fun h => absurd hke h, fun _ => ⟨hx0, hy0, ?_⟩, fun x y hx hy => ?_⟩
      · obtain ⟨c, out, e1, e2, e3⟩ := hres x0 y0 hx0 hy0
        rw [h1] at e3; cases e3
        exact ⟨c, e1, by rw [compose_append, e2]; exact h2⟩
      · obtain ⟨c, out, e1, e2, e3⟩ := hres x y hx hy
        obtain ⟨old, now, g1, g2, g3⟩ := h3 x y hx hy
        rw [e3] at g1; cases g1
        refine ⟨c, now, e1, g2, ?_⟩
        split at g3
        · next hr => rw [if_pos hr, compose_append, e2]; exact g3
        · next hr => rw [if_neg hr, e2]; cases g3; rfl

/-- **C91 (release builds).** If the panic is not a failed debug assertion (which in a release build it never is), then the
buffer is exactly what rendering the same frame without that cel and those above it leaves. -/
theorem C91_release (plat : Plat) (b : Bytes) (f : AsepriteFile) (h : AsepriteFile.load plat b = .ok f)
    (inflate : Inflater) (i : Nat) (lf : LFrame) (hi : f.frames[i]? = some lf) (sel : LayerSelection) (t t' : Bytes)
    (k : Panic) (hk : f.renderFrame plat inflate i sel t = (.panic k, t')) :
    (plat.debug = false → k ≠ .debugAssertFailed) ∧
    (k ≠ .debugAssertFailed → ∃ before cel after, lf.cels = before ++ cel :: after ∧
      { f with frames := f.frames.set i { lf with cels := before } }.renderFrame plat inflate i sel t = (.ok (), t')) := by
  obtain ⟨pal, hpal⟩ := goodPalette_of_load h
  have hcels := celsOk_of_load h hi
  rw [renderFrame_eq] at hk
  by_cases ht : t.length < canvasBytes f
  · rw [if_pos ht] at hk; cases hk
  rw [if_neg ht, hi] at hk
  have ht' : canvasBytes f ≤ t.length := by omega
  obtain ⟨before, cel, after, t1, hl, hb, hc⟩ := forEach_panic hk
  have hspec := renderCels_spec (plat := plat) (inflate := inflate) hpal sel before
    (fun c hc => hcels c (by rw [hl]; simp [hc])) t ht'
  rw [hb] at hspec
  have ht1 : canvasBytes f ≤ t1.length := by have := hspec.length; dsimp only at this; omega
  obtain ⟨im, him, hsize⟩ := hcels cel (by rw [hl]; simp)
  cases hd : drawnOn f sel cel with
  | none => rw [renderCel_skip hd] at hc; cases hc
  | some layer =>
    constructor
    · intro hdb hke
      have := ((renderCel_panic (plat := plat) (inflate := inflate) hpal sel him hsize hd ht1 k).1 (by rw [hc])).2 hke
      rw [hdb] at this
      cases this
    · intro hne
      rcases renderCel_crash hpal sel him hsize hd ht1 hc with ⟨rfl, _⟩ | ⟨hke, _⟩
      · refine ⟨before, cel, after, hl, ?_⟩
        rw [renderFrame_eq]
        rw [if_neg (by exact ht)]
        have hlen : i < f.frames.length := (List.getElem?_eq_some_iff.1 hi).1
        dsimp only
        rw [List.getElem?_set_self hlen]
        exact hb
      · exact absurd hke hne

/-! A debug build draws a cel with the mode "hue" over a transparent, an opaque and a transparent pixel: the first is painted,
the second fails, the third stays.  An unknown mode on the second layer: the cel on the first layer is painted, that on the
second is not, and that on the third is not reached. -/
example :
    Sample.render ⟨true, 10⟩ (Sample.header 3 1 32 ++ Sample.frame 1
      [Sample.layer 1 0 0 255 [65], Sample.layer 1 0 12 255 [66], Sample.cel 0 1 0 1 1 [9, 9, 9, 255],
       Sample.cel 1 0 0 3 1 [1, 2, 3, 255, 1, 2, 3, 255, 1, 2, 3, 255]]) 0 .all (List.replicate 13 0)
      = some (.panic .debugAssertFailed, [1, 2, 3, 255, 9, 9, 9, 255, 0, 0, 0, 0, 0]) ∧
    Sample.render ⟨false, 10⟩ (Sample.header 1 2 32 ++ Sample.frame 1
      [Sample.layer 1 0 0 255 [65], Sample.layer 1 0 99 255 [66], Sample.layer 1 0 0 255 [67],
       Sample.cel 0 0 1 1 1 [9, 9, 9, 255], Sample.cel 1 0 0 1 2 [1, 2, 3, 255, 1, 2, 3, 255],
       Sample.cel 2 0 0 1 1 [7, 7, 7, 255]]) 0 .all (List.replicate 9 0)
      = some (.panic .explicitPanic, [0, 0, 0, 0, 9, 9, 9, 255, 0]) := by
  decide +kernel

end Ase
