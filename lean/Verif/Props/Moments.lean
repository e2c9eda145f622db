import Verif.Lemmas.Moments
import Verif.Spec.Moments
import Verif.Props.Crash
import Verif.Props.Tasks

/-!
# C106: what is in the buffer while a call runs

Of interest to a program that shows the buffer before the call has returned, or whose call is ended from outside (a killed
process with the buffer in shared memory).  The moments are those between two accesses in the order the source gives; what a
compiler or a processor makes of that order is outside the model.
-/

namespace Ase

open Spec

theorem mix_getElem? (a b : Bytes) (m i : Nat) (h : a.length = b.length) :
    (a.take m ++ b.drop m)[i]? = if i < m then a[i]? else b[i]? := by
  rw [List.getElem?_append, List.length_take]
  split
  · next hi => rw [List.getElem?_take, if_pos (by omega), if_pos (by omega)]
  · next hi =>
    rw [List.getElem?_drop]
    by_cases hm : i < m
    · rw [if_pos hm, List.getElem?_eq_none (by omega), List.getElem?_eq_none (by omega)]
    · rw [if_neg hm]
      by_cases hl : m ≤ a.length
      · congr 1; omega
      · rw [List.getElem?_eq_none (by omega), List.getElem?_eq_none (by omega)]

theorem pixel_mix {a b : Bytes} (m q : Nat) (h : a.length = b.length) {new old : Color} (ha : pixel a q = some new)
    (hb : pixel b q = some old) : pixel (a.take m ++ b.drop m) q = some (torn (m - 4 * q) old new) := by
  rw [pixel_eq_getElem?] at ha hb ⊢
  simp only [mix_getElem? a b m _ h]
  unfold torn
  cases h0 : a[4 * q]? <;> cases h1 : a[4 * q + 1]? <;> cases h2 : a[4 * q + 2]? <;> cases h3 : a[4 * q + 3]? <;>
    rw [h0, h1, h2, h3] at ha <;> cases ha
  cases g0 : b[4 * q]? <;> cases g1 : b[4 * q + 1]? <;> cases g2 : b[4 * q + 2]? <;> cases g3 : b[4 * q + 3]? <;>
    rw [g0, g1, g2, g3] at hb <;> cases hb
  have e0 : (4 * q < m) = (0 < m - 4 * q) := by apply propext; omega
  have e1 : (4 * q + 1 < m) = (1 < m - 4 * q) := by apply propext; omega
  have e2 : (4 * q + 2 < m) = (2 < m - 4 * q) := by apply propext; omega
  have e3 : (4 * q + 3 < m) = (3 < m - 4 * q) := by apply propext; omega
  simp only [e0, e1, e2, e3]
  by_cases f0 : 0 < m - 4 * q <;> by_cases f1 : 1 < m - 4 * q <;> by_cases f2 : 2 < m - 4 * q <;>
    by_cases f3 : 3 < m - 4 * q <;> simp only [f0, f1, f2, f3, if_true, if_false] <;> rfl

theorem torn_same (k : Nat) (c : Color) : torn k c c = c := by
  simp [torn]

/-- Where a cel is in its loop when it is stopped. -/
theorem renderCelP_reach {plat : Plat} {inflate : Inflater} {f : AsepriteFile} {sel : LayerSelection} {cel : FrameCel}
    {t t' : Bytes} (h : (f.renderCelP plat inflate sel cel).Reach t t') : t' = t ∨
      ∃ layer c fn pre rest t1, drawnOn f sel cel = some layer ∧
        f.loadImage inflate cel.imageIndex (List.replicate (cel.size.1.toNat * cel.size.2.toNat * 4) 0) = (.ok (), c) ∧
        blendModeToBlendFn plat layer.blendMode = .ok fn ∧ celPixels cel.size.1 cel.size.2 = pre ++ rest ∧
        Buf.forEach (fun yx : UInt16 × UInt16 => f.renderPixel plat cel layer fn c yx.1 yx.2) pre t = (.ok (), t1) ∧
        (t' = t1 ∨ ∃ yx post, rest = yx :: post ∧ (f.renderPixelP plat cel layer fn c yx.1 yx.2).Reach t1 t') := by
  unfold AsepriteFile.renderCelP at h
  cases hl : f.layers[cel.layerIndex]? with
  | none => rw [hl] at h; exact .inl (Prog.reach_ret h)
  | some layer =>
    rw [hl] at h
    dsimp only at h
    split at h
    · exact .inl (Prog.reach_ret h)
    · next hsel =>
      have hd : drawnOn f sel cel = some layer := by
        unfold drawnOn
        rw [hl]
        dsimp only
        rw [isSelected_iff] at hsel
        rw [if_pos ⟨fun h => hsel (.inl h), Decidable.byContradiction fun h => hsel (.inr h)⟩]
      rcases Prog.reach_bind h with h | ⟨c, t0, hc, h2⟩
      · exact .inl (Prog.reach_ret h)
      · have hc1 : f.celImage inflate cel = .ok c ∧ t0 = t := by
          simp only [Prog.run, Buf.lift, Prod.mk.injEq] at hc
          exact ⟨hc.1, hc.2.symm⟩
        obtain ⟨hc1, rfl⟩ := hc1
        have himg : f.loadImage inflate cel.imageIndex
            (List.replicate (cel.size.1.toNat * cel.size.2.toNat * 4) 0) = (.ok (), c) := by
          unfold AsepriteFile.celImage at hc1
          cases hi : f.loadImage inflate cel.imageIndex
              (List.replicate (cel.size.1.toNat * cel.size.2.toNat * 4) 0) with
          | mk o c' =>
            rw [hi] at hc1
            cases o with
            | ok u => cases hc1; rfl
            | err e => cases hc1
            | panic k => cases hc1
        rcases Prog.reach_bind h2 with h | ⟨fn, t2, hf, h3⟩
        · exact .inl (Prog.reach_ret h)
        · have hfn : blendModeToBlendFn plat layer.blendMode = .ok fn ∧ t2 = t0 := by
            simp only [Prog.run, Buf.lift, Prod.mk.injEq] at hf
            refine ⟨?_, hf.2.symm⟩
            cases hb : blendModeToBlendFn plat layer.blendMode with
            | ok g => rw [hb] at hf; cases hf.1; rfl
            | err e => exact nomatch e
            | panic k => rw [hb] at hf; cases hf.1
          obtain ⟨hfn, rfl⟩ := hfn
          have flat : ∀ ys t, Buf.forEach (fun y => (Prog.forEach (f.renderPixelP plat cel layer fn c y)
              (u16Range cel.size.1)).run) ys t =
              Buf.forEach (fun yx : UInt16 × UInt16 => f.renderPixel plat cel layer fn c yx.1 yx.2)
                (ys.flatMap fun y => (u16Range cel.size.1).map fun x => (y, x)) t := by
            intro ys t
            rw [forEach_flatMap]
            congr 1
            funext y t
            rw [forEach_map, Prog.run_forEach]
            simp only [renderPixelP_run]
          rcases Prog.reach_forEach h3 with h | ⟨ypre, y, ypost, t3, hys, hpre, h4⟩
          · rw [flat] at h
            exact .inr ⟨layer, c, fn, celPixels cel.size.1 cel.size.2, [], t', hd, himg, hfn, by rw [List.append_nil], h,
              .inl rfl⟩
          · rw [flat] at hpre
            have hx : ∀ xs t, Buf.forEach (fun x => (f.renderPixelP plat cel layer fn c y x).run) xs t =
                Buf.forEach (fun yx : UInt16 × UInt16 => f.renderPixel plat cel layer fn c yx.1 yx.2)
                  (xs.map fun x => (y, x)) t := by
              intro xs t
              rw [forEach_map]
              simp only [renderPixelP_run]
            rcases Prog.reach_forEach h4 with h | ⟨xpre, x, xpost, t4, hxs, hpre2, h⟩
            · rw [hx] at h
              refine .inr ⟨layer, c, fn, (ypre.flatMap fun y => (u16Range cel.size.1).map fun x => (y, x)) ++
                (u16Range cel.size.1).map (fun x => (y, x)), ypost.flatMap fun y => (u16Range cel.size.1).map fun x => (y, x),
                t', hd, himg, hfn, ?_, ?_, .inl rfl⟩
              · unfold celPixels
                rw [hys, List.flatMap_append, List.flatMap_cons, List.append_assoc]
              · rw [forEach_append, hpre]
                exact h
            · rw [hx] at hpre2
              refine .inr ⟨layer, c, fn, (ypre.flatMap fun y => (u16Range cel.size.1).map fun x => (y, x)) ++
                xpre.map (fun x => (y, x)), (y, x) :: (xpost.map (fun x => (y, x)) ++
                  ypost.flatMap fun y => (u16Range cel.size.1).map fun x => (y, x)),
                t4, hd, himg, hfn, ?_, ?_, .inr ⟨(y, x), _, rfl, h⟩⟩
              · unfold celPixels
                rw [hys, List.flatMap_append, List.flatMap_cons, hxs]
                simp
              · rw [forEach_append, hpre]
                exact hpre2

/-- The place on the canvas up to which a cel is painted. -/
theorem place (f : AsepriteFile) (cel : FrameCel) (pre rest : List (UInt16 × UInt16))
    (hsplit : celPixels cel.size.1 cel.size.2 = pre ++ rest) : ∃ x0 y0,
      (∀ x y yx, x < f.file.header.width.toNat → yx ∈ celPixels cel.size.1 cel.size.2 →
        targetOf f cel yx = some (y * f.file.header.width.toNat + x) →
        (readsBefore x y x0 y0 = true ↔ yx ∈ pre)) ∧
      ∀ yx post q, rest = yx :: post → targetOf f cel yx = some q →
        x0 < f.file.header.width.toNat ∧ q = y0 * f.file.header.width.toNat + x0 := by
  have hsort := celPixels_sorted cel.size.1 cel.size.2
  rw [hsplit] at hsort
  have hirr : ∀ a : UInt16 × UInt16, ¬ readsBefore a.2.toNat a.1.toNat a.2.toNat a.1.toNat = true := by
    simp [readsBefore]
  induction rest generalizing pre with
  | nil =>
    refine ⟨0, f.file.header.height.toNat, fun x y yx hx hyx htg => ?_, by simp⟩
    rw [hsplit, List.append_nil] at hyx
    obtain ⟨u, v, hu, hv, e, -, -⟩ := targetOf_some htg
    obtain ⟨rfl, rfl⟩ := row_major_inj hx hu e
    simp [readsBefore, hv, hyx]
  | cons a rest ih =>
    cases ha : targetOf f cel a with
    | none =>
      obtain ⟨x0, y0, h1, -⟩ := ih (pre ++ [a]) (by rw [hsplit]; simp) (by simpa using hsort)
      refine ⟨x0, y0, fun x y yx hx hyx htg => ?_, fun yx post q h hq => ?_⟩
      · rw [h1 x y yx hx hyx htg, List.mem_append, List.mem_singleton]
        refine ⟨fun h => h.resolve_right fun e => ?_, .inl⟩
        rw [e, ha] at htg
        cases htg
      · cases h
        rw [ha] at hq
        cases hq
    | some q0 =>
      obtain ⟨x0, y0, hx0, hy0, rfl, -, -⟩ := targetOf_some ha
      rw [List.pairwise_append, List.pairwise_cons] at hsort
      obtain ⟨-, ⟨hpost, -⟩, hcross⟩ := hsort
      refine ⟨x0, y0, fun x y yx hx hyx htg => ?_, fun yx post q h hq => ?_⟩
      · have ho := targetOf_order hx hx0 htg ha
        constructor
        · intro hb
          rw [hb] at ho
          rw [hsplit, List.mem_append, List.mem_cons] at hyx
          rcases hyx with h | rfl | h
          · exact h
          · exact absurd ho.symm (hirr _)
          · have := hpost yx h
            simp only [readsBefore, decide_eq_true_eq, Bool.true_eq] at this ho
            omega
        · intro hin
          rw [ho]
          exact hcross yx hin a (by simp)
      · cases h
        rw [ha] at hq
        cases hq
        exact ⟨hx0, rfl⟩

/-- One cel, stopped. -/
theorem renderCel_moment {plat : Plat} {inflate : Inflater} {f : AsepriteFile} {pal : Palette}
    (hpal : GoodPalette f.file pal) (sel : LayerSelection) {cel : FrameCel} {im : Image}
    (him : f.images[cel.imageIndex]? = some im) (hsize : cel.size = (im.width, im.height))
    {t t' : Bytes} (ht : canvasBytes f ≤ t.length) (h : (f.renderCelP plat inflate sel cel).Reach t t') :
    t'.drop (canvasBytes f) = t.drop (canvasBytes f) ∧ ∃ x0 y0 k,
      ∀ x y, x < f.file.header.width.toNat → y < f.file.header.height.toNat → ∃ old now,
        canvasPixel f t x y = some old ∧ canvasPixel f t' x y = some now ∧
        (readsBefore x y x0 y0 = true → compose plat inflate f sel x y [cel] old = .ok now) ∧
        (readsBefore x y x0 y0 = false → now = old ∨ x = x0 ∧ y = y0 ∧
          ∃ new, compose plat inflate f sel x y [cel] old = .ok new ∧ now = torn k old new) := by
  have hpc : cel.size.1.toNat * cel.size.2.toNat = pixelCount im := by rw [hsize]; rfl
  rcases renderCelP_reach h with rfl | ⟨layer, c, fn, pre, rest, t1, hd, hc1, hfn, hsplit, hpre, hlast⟩
  · refine ⟨rfl, 0, 0, 0, fun x y hx hy => ?_⟩
    obtain ⟨old, hold⟩ := canvasPixel_some ht hx hy
    exact ⟨old, old, hold, hold, by simp [readsBefore], fun _ => .inl rfl⟩
  have hblend : ∀ back front, blend plat layer.blendMode back front layer.opacity = fn back front layer.opacity := by
    intro back front
    rw [blend, hfn]
    rfl
  have hone : ∀ x y c, compose plat inflate f sel x y [cel] c =
      match (coveredBy cel x y).bind (imageColor inflate f cel.imageIndex) with
      | some front => fn c front layer.opacity
      | none => .ok c := by
    intro x y c
    rw [compose, hd]
    cases (coveredBy cel x y).bind (imageColor inflate f cel.imageIndex) with
    | none => rfl
    | some front =>
      dsimp only
      rw [hblend]
      cases fn c front layer.opacity with
      | ok => rfl
      | err e => exact nomatch e
      | panic => rfl
  rw [hpc] at hc1
  have hh : HasPixels inflate f.file im := Classical.byContradiction fun hh =>
    (loadImage_fresh hpal inflate him).2 hh c hc1
  obtain ⟨c', hc1', hc2, hc3⟩ := (loadImage_fresh hpal inflate him).1 hh
  rw [hc1'] at hc1
  cases hc1
  have hfront : ∀ yx ∈ celPixels cel.size.1 cel.size.2, ∃ front,
      pixel c (yx.1.toNat * cel.size.1.toNat + yx.2.toNat) = some front ∧
      imageColor inflate f cel.imageIndex (yx.1.toNat * cel.size.1.toNat + yx.2.toNat) = some front := by
    intro yx hyx
    rw [mem_celPixels] at hyx
    have hp := row_major hyx.1 hyx.2
    rw [hpc] at hp
    have hs := pixel_isSome (a := c) (p := yx.1.toNat * cel.size.1.toNat + yx.2.toNat) (by omega)
    obtain ⟨front, hf⟩ := Option.isSome_iff_exists.1 hs
    exact ⟨front, hf, by rw [← hc3 _ hp]; exact hf⟩
  have hmem : ∀ yx ∈ pre, yx ∈ celPixels cel.size.1 cel.size.2 := fun yx h => by rw [hsplit]; simp [h]
  have hL := pixelLoop (N := canvasBytes f) (target := targetOf f cel)
    (step := fun yx back => fn back ((pixel c (yx.1.toNat * cel.size.1.toNat + yx.2.toNat)).getD ⟨0, 0, 0, 0⟩)
      layer.opacity)
    (fun yx : UInt16 × UInt16 => f.renderPixel plat cel layer fn c yx.1 yx.2) pre
    (by
      intro yx hyx t ht
      have hyx := hmem yx hyx
      obtain ⟨front, hf, -⟩ := hfront yx hyx
      rw [mem_celPixels] at hyx
      rw [renderPixel_eq plat layer fn (by rw [hpc]; exact hc2) hyx.1 hyx.2 ht, hf]
      unfold pixelStep
      rw [show (yx.1, yx.2) = yx from rfl]
      cases targetOf f cel yx with
      | none => rfl
      | some q =>
        dsimp only
        cases pixel t q with
        | none => rfl
        | some back => rfl)
    (by
      intro yx _ q hq
      have := targetOf_lt hq
      unfold canvasBytes
      omega)
    (by
      have hn := celPixels_nodup cel.size.1 cel.size.2
      rw [hsplit] at hn
      refine (List.nodup_append.1 hn).1.imp ?_
      intro a b hne q ha hb
      exact hne (targetOf_inj ha hb))
    t ht
  rw [hpre] at hL
  have hlen1 : t1.length = t.length := hL.length
  have ht1 : canvasBytes f ≤ t1.length := by omega
  obtain ⟨x0, y0, hplace, hnext⟩ := place f cel pre rest hsplit
  -- what is painted when the loop body begins
  have hbegin : ∀ x y, x < f.file.header.width.toNat → y < f.file.header.height.toNat → ∃ old now,
      canvasPixel f t x y = some old ∧ canvasPixel f t1 x y = some now ∧
      (readsBefore x y x0 y0 = true → compose plat inflate f sel x y [cel] old = .ok now) ∧
      (readsBefore x y x0 y0 = false → now = old) := by
    intro x y hx hy
    obtain ⟨old, hold⟩ := canvasPixel_some ht hx hy
    by_cases hex : ∃ yx ∈ pre, targetOf f cel yx = some (y * f.file.header.width.toNat + x)
    · obtain ⟨yx, hyx, htg⟩ := hex
      obtain ⟨back, out, h1, h2, h3⟩ := hL.hit rfl yx hyx _ htg
      obtain ⟨front, hfr1, hfr2⟩ := hfront yx (hmem yx hyx)
      refine ⟨back, out, h1, h3, fun _ => ?_, fun hb => ?_⟩
      · rw [hone, (coveredBy_iff hx hy).2 ⟨yx, hmem yx hyx, htg, rfl⟩, Option.bind_some, hfr2]
        rw [hfr1] at h2
        exact h2
      · rw [(hplace x y yx hx (hmem yx hyx) htg).2 hyx] at hb
        cases hb
    · refine ⟨old, old, hold, ?_, fun hb => ?_, fun _ => rfl⟩
      · rw [canvasPixel, hL.miss rfl _ fun yx hyx htg => hex ⟨yx, hyx, htg⟩]
        exact hold
      · rw [hone]
        cases hcv : coveredBy cel x y with
        | none => rfl
        | some p =>
          obtain ⟨yx, hyx, htg, _⟩ := (coveredBy_iff hx hy).1 hcv
          exact absurd ⟨yx, (hplace x y yx hx hyx htg).1 hb, htg⟩ hex
  rcases hlast with rfl | ⟨yx, post, hrest, hreach⟩
  · refine ⟨hL.drop, x0, y0, 0, fun x y hx hy => ?_⟩
    obtain ⟨old, now, h1, h2, h3, h4⟩ := hbegin x y hx hy
    exact ⟨old, now, h1, h2, h3, fun hb => .inl (h4 hb)⟩
  · obtain ⟨m, -, hm⟩ := (renderPixelP_rising plat f cel layer fn c yx.1 yx.2).reach hreach
    rw [renderPixelP_run] at hm
    have hmem0 : yx ∈ celPixels cel.size.1 cel.size.2 := by rw [hsplit, hrest]; simp
    have hm0 := mem_celPixels.1 hmem0
    obtain ⟨front, hf1, hf2⟩ := hfront yx hmem0
    have hrun := renderPixel_eq plat layer fn (t := t1) (f := f) (cel := cel) (by rw [hpc]; exact hc2) hm0.1 hm0.2 ht1
    rw [hf1, show (yx.1, yx.2) = yx from rfl] at hrun
    -- if the body writes nothing
    have idle : (f.renderPixel plat cel layer fn c yx.1 yx.2 t1).2 = t1 → t' = t1 := by
      intro e
      rw [hm, e, List.take_append_drop]
    have hdone : t' = t1 → t'.drop (canvasBytes f) = t.drop (canvasBytes f) ∧ ∃ x0 y0 k,
        ∀ x y, x < f.file.header.width.toNat → y < f.file.header.height.toNat → ∃ old now,
          canvasPixel f t x y = some old ∧ canvasPixel f t' x y = some now ∧
          (readsBefore x y x0 y0 = true → compose plat inflate f sel x y [cel] old = .ok now) ∧
          (readsBefore x y x0 y0 = false → now = old ∨ x = x0 ∧ y = y0 ∧
            ∃ new, compose plat inflate f sel x y [cel] old = .ok new ∧ now = torn k old new) := by
      rintro rfl
      refine ⟨hL.drop, x0, y0, 0, fun x y hx hy => ?_⟩
      obtain ⟨old, now, h1, h2, h3, h4⟩ := hbegin x y hx hy
      exact ⟨old, now, h1, h2, h3, fun hb => .inl (h4 hb)⟩
    cases htg : targetOf f cel yx with
    | none => rw [htg] at hrun; exact hdone (idle (by rw [hrun]))
    | some q =>
      have hqlt := targetOf_lt htg
      obtain ⟨hx0, hq⟩ := hnext yx post q hrest htg
      rw [htg] at hrun
      dsimp only at hrun
      have hq4 : 4 * q + 4 ≤ t1.length := by unfold canvasBytes at ht1; omega
      obtain ⟨back, hback, -⟩ := split_at_pixel hq4
      rw [hback] at hrun
      dsimp only at hrun
      cases hres : fn back front layer.opacity with
      | err e => exact nomatch e
      | panic k => rw [hres] at hrun; exact hdone (idle (by rw [hrun]))
      | ok out =>
        rw [hres] at hrun
        dsimp only at hrun
        rw [hrun] at hm
        dsimp only at hm
        have hsl : (setPixel t1 q out).length = t1.length := by
          simp only [setPixel, List.length_append, List.length_take, List.length_cons, List.length_drop]
          omega
        refine ⟨?_, x0, y0, m - 4 * q, fun x y hx hy => ?_⟩
        · rw [← hL.drop]
          refine List.ext_getElem? fun i => ?_
          rw [List.getElem?_drop, List.getElem?_drop, hm, mix_getElem? _ _ _ _ hsl,
            setPixel_getElem? hq4 out (.inr (by unfold canvasBytes; omega))]
          split <;> rfl
        · obtain ⟨old, now, h1, h2, h3, h4⟩ := hbegin x y hx hy
          by_cases hxy : y * f.file.header.width.toNat + x = q
          · obtain ⟨rfl, rfl⟩ := row_major_inj hx hx0 (hxy.trans hq)
            have hb : readsBefore x y x y = false := by simp [readsBefore]
            have h5 := h4 hb
            subst h5
            rw [canvasPixel, hxy, hback] at h2
            cases h2
            refine ⟨back, torn (m - 4 * q) back out, h1, ?_, (by rw [hb]; intro h; cases h), fun _ => .inr ⟨rfl, rfl, out, ?_, rfl⟩⟩
            · rw [hm, canvasPixel, hxy]
              refine pixel_mix m q hsl ?_ hback
              exact pixel_setPixel_self hq4 out
            · rw [hone, (coveredBy_iff hx hy).2 ⟨yx, hmem0, by rw [htg, hxy], rfl⟩, Option.bind_some, hf2]
              exact hres
          · refine ⟨old, now, h1, ?_, h3, fun hb => .inl (h4 hb)⟩
            rw [hm, canvasPixel]
            rw [canvasPixel] at h2
            rw [pixel_mix m _ hsl (by rw [pixel_setPixel_ne hq4 out hxy]; exact h2) h2, torn_same]

/-- **C106.** At every moment while `render_frame` (or `combined_frame_image`) runs, whatever else runs, there are a cel and a place on the canvas such
that the buffer shows the cels below that cel, and in front of that place, in reading order, that cel as well.  Only the pixel
at that place may be torn: some of its channels, counted from red, are those it gets from the cel already.  Bytes after the
canvas are as they were. -/
theorem C106_frame (plat : Plat) (b : Bytes) (f : AsepriteFile) (h : AsepriteFile.load plat b = .ok f)
    (inflate : Inflater) (hash : List HashInput → UInt64) (rs : List Request) (memory : Bytes)
    (ha : Apart rs memory.length) (schedule : List Nat) (j i : Nat) (lf : LFrame) (hi : f.frames[i]? = some lf)
    (sel : LayerSelection) (call : Call) (hcall : call = .render i sel ∨ call = .combined i ∧ sel = .visible)
    (start size : Nat) (hj : rs[j]? = some ⟨f, call, start, size⟩)
    (hs : f.size.1.toNat * f.size.2.toNat * 4 ≤ size) :
    let t := (memory.drop start).take size
    let t' := (((launch plat inflate hash rs memory).run schedule).memory.drop start).take size
    t'.drop (f.size.1.toNat * f.size.2.toNat * 4) = t.drop (f.size.1.toNat * f.size.2.toNat * 4) ∧
    ∃ before after x0 y0 k, lf.cels = before ++ after ∧
      ∀ x y, x < f.size.1.toNat → y < f.size.2.toNat → ∃ old below now,
        canvasPixel f t x y = some old ∧ compose plat inflate f sel x y before old = .ok below ∧
        canvasPixel f t' x y = some now ∧
        (readsBefore x y x0 y0 = true → compose plat inflate f sel x y (before ++ after.take 1) old = .ok now) ∧
        (readsBefore x y x0 y0 = false → now = below ∨ x = x0 ∧ y = y0 ∧
          ∃ above, compose plat inflate f sel x y (before ++ after.take 1) old = .ok above ∧ now = torn k below above) := by
  intro t t'
  obtain ⟨pal, hpal⟩ := goodPalette_of_load h
  have hcels := celsOk_of_load h hi
  have hin := ha.1 _ (List.mem_of_getElem? hj)
  dsimp only at hin
  have htl : t.length = size := by simp only [t, List.length_take, List.length_drop]; omega
  have ht : canvasBytes f ≤ t.length := by rw [htl]; exact hs
  have hreach0 : (Call.prog plat inflate hash f call).Reach t t' :=
    ⟨_, (((launch_run plat inflate hash rs memory schedule ha).2.2 j _ hj).2).symm⟩
  have hidle : t' = t → t'.drop (f.size.1.toNat * f.size.2.toNat * 4) = t.drop (f.size.1.toNat * f.size.2.toNat * 4) ∧
      ∃ before after x0 y0 k, lf.cels = before ++ after ∧
      ∀ x y, x < f.size.1.toNat → y < f.size.2.toNat → ∃ old below now,
        canvasPixel f t x y = some old ∧ compose plat inflate f sel x y before old = .ok below ∧
        canvasPixel f t' x y = some now ∧
        (readsBefore x y x0 y0 = true → compose plat inflate f sel x y (before ++ after.take 1) old = .ok now) ∧
        (readsBefore x y x0 y0 = false → now = below ∨ x = x0 ∧ y = y0 ∧
          ∃ above, compose plat inflate f sel x y (before ++ after.take 1) old = .ok above ∧ now = torn k below above) := by
    intro e
    rw [e]
    refine ⟨rfl, [], lf.cels, 0, 0, 0, rfl, fun x y hx hy => ?_⟩
    obtain ⟨old, hold⟩ := canvasPixel_some ht hx hy
    exact ⟨old, old, old, hold, rfl, hold, by simp [readsBefore], fun _ => .inl rfl⟩
  generalize t' = t' at *
  -- the frame, not what is done with its result
  have hreach : (f.renderFrameP plat inflate i sel).Reach t t' := by
    rcases hcall with rfl | ⟨rfl, rfl⟩
    · exact Prog.reach_first hreach0 fun _ _ _ h => Prog.reach_ret h
    · refine Prog.reach_first (Prog.reach_first hreach0 fun _ _ _ h => Prog.reach_ret h) fun _ _ _ h => ?_
      rw [hi] at h
      exact Prog.reach_ret h
  unfold AsepriteFile.renderFrameP at hreach
  rcases Prog.reach_bind hreach with hl | ⟨n, t1, hn, h2⟩
  · rcases Prog.reach_step hl with e | ⟨_, _, e, hr⟩ | ⟨-, e⟩
    · exact hidle e
    · cases e
      exact hidle (Prog.reach_ret hr)
    · exact hidle e
  · cases hn
    rw [if_neg (by show ¬ t.length < canvasBytes f; omega), hi] at h2
    dsimp only at h2
    have hrun : (fun x => (f.renderCelP plat inflate sel x).run) = f.renderCel plat inflate sel :=
      funext fun x => renderCelP_run plat inflate f sel x
    rcases Prog.reach_forEach h2 with h3 | ⟨before, cel, after, t1, hl, hb, hc⟩
    · rw [hrun] at h3
      have hspec := renderCels_spec (plat := plat) (inflate := inflate) hpal sel lf.cels hcels t ht
      rw [h3] at hspec
      refine ⟨hspec.drop, lf.cels, [], 0, 0, 0, by simp, fun x y hx hy => ?_⟩
      obtain ⟨c, out, e1, e2, e3⟩ := hspec.result rfl x y hx hy
      exact ⟨c, out, out, e1, e2, e3, by simp [readsBefore], fun _ => .inl rfl⟩
    · rw [hrun] at hb
      have hspec := renderCels_spec (plat := plat) (inflate := inflate) hpal sel before
        (fun c hc => hcels c (by rw [hl]; simp [hc])) t ht
      rw [hb] at hspec
      have ht1 : canvasBytes f ≤ t1.length := by have := hspec.length; dsimp only at this; omega
      obtain ⟨im, him, hsize⟩ := hcels cel (by rw [hl]; simp)
      obtain ⟨hdrop, x0, y0, k, hpix⟩ := renderCel_moment hpal sel him hsize ht1 hc
      refine ⟨hdrop.trans hspec.drop, before, cel :: after, x0, y0, k, hl, fun x y hx hy => ?_⟩
      obtain ⟨c, out, e1, e2, e3⟩ := hspec.result rfl x y hx hy
      obtain ⟨old, now, g1, g2, g3, g4⟩ := hpix x y hx hy
      dsimp only at e3
      rw [e3] at g1
      cases g1
      refine ⟨c, out, now, e1, e2, g2, fun hb => ?_, fun hb => ?_⟩
      · rw [compose_append, e2]
        exact g3 hb
      · rcases g4 hb with g | ⟨gx, gy, new, g5, g6⟩
        · exact .inl g
        · exact .inr ⟨gx, gy, new, by rw [compose_append, e2]; exact g5, g6⟩

/-- Two cels on a canvas of two pixels: after nineteen steps the first cel is painted, the second on the left pixel, and of
the right pixel the first two channels are new. -/
example :
    let b := Sample.header 2 1 32 ++ Sample.frame 1 [Sample.layer 1 0 0 255 [65], Sample.layer 1 0 0 255 [66],
      Sample.cel 0 0 0 2 1 [1, 2, 3, 255, 4, 5, 6, 255], Sample.cel 1 0 0 2 1 [11, 12, 13, 255, 14, 15, 16, 255]]
    (match AsepriteFile.load ⟨true, 10⟩ b with
      | .ok f =>
        let m := launch ⟨true, 10⟩ Sample.inflate (fun _ => 0) [⟨f, .render 0 .visible, 0, 9⟩] (List.replicate 9 9)
        decide ((m.run (List.replicate 19 0)).memory = [11, 12, 13, 255, 14, 15, 6, 255, 9])
      | _ => false) = true := by
  decide +kernel

/-- **C106 (images).** `load_image` of a greyscale or indexed sprite writes from left to right: at every moment the buffer
begins with the bytes it will hold when the call has returned (or failed) and goes on with those it held before. -/
theorem C106_image (plat : Plat) (inflate : Inflater) (hash : List HashInput → UInt64) (rs : List Request)
    (memory : Bytes) (ha : Apart rs memory.length) (schedule : List Nat) (j i : Nat) (f : AsepriteFile)
    (hd : f.file.header.colorDepth ≠ .rgba) (start size : Nat) (hj : rs[j]? = some ⟨f, .image i, start, size⟩) :
    let t := (memory.drop start).take size
    let t' := (((launch plat inflate hash rs memory).run schedule).memory.drop start).take size
    ∃ m, t' = (f.loadImage inflate i t).2.take m ++ t.drop m := by
  intro t t'
  have hreach0 : (Call.prog plat inflate hash f (.image i)).Reach t t' :=
    ⟨_, (((launch_run plat inflate hash rs memory schedule ha).2.2 j _ hj).2).symm⟩
  generalize t' = t' at *
  have hreach : (f.loadImageP inflate i).Reach t t' := Prog.reach_first hreach0 fun _ _ _ h => Prog.reach_ret h
  obtain ⟨m, -, hm⟩ := (loadImageP_rising inflate f i hd).reach hreach
  rw [loadImageP_run] at hm
  exact ⟨m, hm⟩

/-- A greyscale image of two pixels, after five of its eight bytes. -/
example :
    let b := Sample.header 2 1 16 ++ Sample.frame 1 [Sample.layer 1 0 0 255 [65], Sample.cel 0 0 0 2 1 [1, 255, 2, 128]]
    (match AsepriteFile.load ⟨true, 10⟩ b with
      | .ok f =>
        let m := launch ⟨true, 10⟩ Sample.inflate (fun _ => 0) [⟨f, .image 0, 0, 8⟩] (List.replicate 8 9)
        decide ((m.run (List.replicate 8 0)).memory = [1, 1, 1, 255, 2, 9, 9, 9])
      | _ => false) = true := by
  decide +kernel

end Ase
