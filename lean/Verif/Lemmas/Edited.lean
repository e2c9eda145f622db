import Verif.Spec.Edited
import Verif.Lemmas.Render

/-!
# Drawing cels of any sprite
-/

namespace Ase

open Spec

theorem pixel_zero {n p : Nat} (h : 4 * p + 4 ≤ n) : pixel (List.replicate n 0) p = some ⟨0, 0, 0, 0⟩ := by
  obtain ⟨k, rfl⟩ : ∃ k, n = 4 * p + (k + 1 + 1 + 1 + 1) := ⟨n - 4 * p - 4, by omega⟩
  simp only [pixel, List.drop_replicate, Nat.add_sub_cancel_left, List.replicate_succ]

/-- Decoding an image into a zeroed buffer of any size. -/
theorem loadImage_shown {f : AsepriteFile} (hty : Typed f) (inflate : Inflater) (c : FrameCel) :
    (CelFits inflate f c → ∃ buf, f.loadImage inflate c.imageIndex (List.replicate (c.size.1.toNat * c.size.2.toNat * 4) 0)
        = (.ok (), buf) ∧ buf.length = c.size.1.toNat * c.size.2.toNat * 4 ∧
      ∀ p, p < c.size.1.toNat * c.size.2.toNat → pixel buf p = shownColor inflate f c p) ∧
    (¬ CelFits inflate f c → ∀ buf,
      f.loadImage inflate c.imageIndex (List.replicate (c.size.1.toNat * c.size.2.toNat * 4) 0) ≠ (.ok (), buf)) := by
  unfold CelFits shownColor
  generalize c.size.1.toNat * c.size.2.toNat = n
  cases him : f.images[c.imageIndex]? with
  | none =>
    refine ⟨fun h => ?_, fun _ buf h => ?_⟩
    · obtain ⟨im, h, _⟩ := h
      cases h
    · rw [AsepriteFile.loadImage, him] at h
      cases h
  | some im =>
    have hex : (∃ im', some im = some im' ∧ HasPixels inflate f.file im' ∧
        (f.file.header.colorDepth = .indexed → f.file.palette ≠ none) ∧ pixelCount im' ≤ n) ↔
        HasPixels inflate f.file im ∧ (f.file.header.colorDepth = .indexed → f.file.palette ≠ none) ∧
          pixelCount im ≤ n := by
      constructor
      · rintro ⟨im', h, h2⟩
        cases h
        exact h2
      · exact fun h => ⟨im, rfl, h⟩
    rw [hex]
    by_cases hn : pixelCount im ≤ n
    · have hbig : f.loadImage inflate c.imageIndex (List.replicate (n * 4) 0) =
          ((f.loadImage inflate c.imageIndex (List.replicate (pixelCount im * 4) 0)).1,
            (f.loadImage inflate c.imageIndex (List.replicate (pixelCount im * 4) 0)).2
              ++ List.replicate ((n - pixelCount im) * 4) 0) := by
        rw [loadImage_eq him, loadImage_eq him, if_neg (by simp; omega), if_neg (by simp)]
        simp only [List.take_replicate, List.drop_replicate, Nat.min_self, Nat.sub_self, List.replicate_zero,
          List.append_nil, Nat.sub_mul]
        rw [Nat.min_eq_left (by omega)]
      rw [hbig]
      by_cases hp : f.file.header.colorDepth = .indexed ∧ f.file.palette = none
      · refine ⟨fun h => absurd hp.2 (h.2.1 hp.1), fun _ buf h => ?_⟩
        rw [loadImage_eq him, if_neg (by simp)] at h
        have hne : ∀ t, (f.decodeImage inflate im t).1 ≠ .ok () := by
          intro t
          unfold AsepriteFile.decodeImage
          rw [hp.1]
          cases im.compressed with
          | false =>
            dsimp only
            rw [buf_bind, AsepriteFile.paletteOrErr, hp.2]
            simp [Buf.lift]
          | true =>
            dsimp only
            rw [buf_bind, onFresh_decompress]
            split
            · next h => rw [buf_bind, AsepriteFile.paletteOrErr, hp.2]; simp [Buf.lift]
            · simp
            · simp
        have := congrArg Prod.fst h
        exact hne _ this
      · obtain ⟨pal, hpal⟩ : ∃ pal, GoodPalette f.file pal := by
          cases hq : f.file.palette with
          | none => exact ⟨.default, List.length_replicate .., fun h => absurd ⟨h, hq⟩ hp⟩
          | some pal => exact ⟨pal, hty pal hq, fun _ => hq⟩
        obtain ⟨h1, h2⟩ := loadImage_fresh hpal inflate him
        refine ⟨fun h => ?_, fun h buf hb => ?_⟩
        · obtain ⟨buf, e1, e2, e3⟩ := h1 h.1
          rw [e1]
          refine ⟨_, rfl, ?_, ?_⟩
          · rw [List.length_append, List.length_replicate, e2, ← Nat.add_mul]
            congr 1
            omega
          · intro p hlt
            dsimp only [Option.bind_some]
            by_cases hpp : p < pixelCount im
            · rw [if_pos hpp, pixel_append_left (by omega), e3 p hpp]
            · rw [if_neg hpp]
              have e : 4 * p = buf.length + 4 * (p - pixelCount im) := by omega
              rw [pixel, e, ← List.drop_drop, List.drop_left, ← pixel, pixel_zero (by omega)]
        · exact h2 (fun hh => h ⟨hh, fun hd hq => hp ⟨hd, hq⟩, hn⟩)
            (f.loadImage inflate c.imageIndex (List.replicate (pixelCount im * 4) 0)).2
            (Prod.ext (by have := congrArg Prod.fst hb; exact this) rfl)
    · refine ⟨fun h => absurd h.2.2 hn, fun _ buf h => ?_⟩
      rw [loadImage_eq him, if_pos (by simp; omega)] at h
      cases h

/-- What drawing some cels of any sprite does to the canvas. -/
structure ShownSpec (plat : Plat) (inflate : Inflater) (f : AsepriteFile) (sel : LayerSelection) (cels : List FrameCel)
    (t : Bytes) (r : Outcome LoadImageError Unit × Bytes) : Prop where
  length : r.2.length = t.length
  drop : r.2.drop (canvasBytes f) = t.drop (canvasBytes f)
  no_err : ∀ e, r.1 ≠ .err e
  ok_iff : r.1 = .ok () ↔
    (∀ c ∈ cels, ∀ layer, drawnOn f sel c = some layer → CelFits inflate f c ∧ isKnown layer.blendMode = true) ∧
    (∀ x y c, x < f.file.header.width.toNat → y < f.file.header.height.toNat → canvasPixel f t x y = some c →
      ∃ out, composeShown plat inflate f sel x y cels c = .ok out)
  result : r.1 = .ok () → ∀ x y, x < f.file.header.width.toNat → y < f.file.header.height.toNat →
    ∃ c out, canvasPixel f t x y = some c ∧ composeShown plat inflate f sel x y cels c = .ok out ∧
      canvasPixel f r.2 x y = some out

theorem shown_one_none {plat : Plat} {inflate : Inflater} {f : AsepriteFile} {sel : LayerSelection} {cel : FrameCel}
    (h : drawnOn f sel cel = none) (x y : Nat) (cels : List FrameCel) (c : Color) :
    composeShown plat inflate f sel x y (cel :: cels) c = composeShown plat inflate f sel x y cels c := by
  rw [composeShown, h]

theorem renderCel_shown {plat : Plat} {inflate : Inflater} {f : AsepriteFile}
    (hty : Typed f) (sel : LayerSelection) {cel : FrameCel} {t : Bytes}
    (ht : canvasBytes f ≤ t.length) :
    ShownSpec plat inflate f sel [cel] t (f.renderCel plat inflate sel cel t) := by
  cases hd : drawnOn f sel cel with
  | none =>
    rw [renderCel_skip hd]
    refine ⟨rfl, rfl, by simp, ?_, ?_⟩
    · simp only [true_iff]
      refine ⟨?_, ?_⟩
      · intro c hc layer h1
        rw [List.mem_singleton] at hc
        subst hc
        rw [hd] at h1
        cases h1
      · intro x y c _ _ _
        rw [shown_one_none hd]
        exact ⟨c, rfl⟩
    · intro _ x y hx hy
      obtain ⟨c, hc⟩ := canvasPixel_some ht hx hy
      exact ⟨c, c, hc, by rw [shown_one_none hd]; rfl, hc⟩
  | some layer =>
    have hone : ∀ x y c, composeShown plat inflate f sel x y [cel] c =
        match (coveredBy cel x y).bind (shownColor inflate f cel) with
        | some front => blend plat layer.blendMode c front layer.opacity
        | none => .ok c := by
      intro x y c
      rw [composeShown, hd]
      cases (coveredBy cel x y).bind (shownColor inflate f cel) with
      | none => rfl
      | some front =>
        dsimp only
        cases blend plat layer.blendMode c front layer.opacity with
        | ok => rfl
        | err e => exact nomatch e
        | panic => rfl
    rw [renderCel_drawn hd]
    have hload := loadImage_shown hty inflate cel
    have hfail : ∀ r : Outcome LoadImageError Unit × Bytes, r.2 = t → (∃ k, r.1 = .panic k) →
        ¬ (CelFits inflate f cel ∧ isKnown layer.blendMode = true) →
        ShownSpec plat inflate f sel [cel] t r := by
      rintro ⟨r1, r2⟩ rfl ⟨k, hk⟩ hno
      dsimp only at hk
      subst hk
      refine ⟨rfl, rfl, by simp, ?_, by simp⟩
      simp only [reduceCtorEq, false_iff]
      intro h
      exact hno (h.1 cel List.mem_cons_self layer hd)
    by_cases hh : CelFits inflate f cel
    · obtain ⟨c, hc1, hc2, hc3⟩ := hload.1 hh
      rw [hc1]
      dsimp only
      have hkn := blendFn_known plat layer.blendMode
      by_cases hk : isKnown layer.blendMode = true
      · obtain ⟨fn, hfn⟩ := hkn.1 hk
        rw [hfn]
        dsimp only
        have hblend : ∀ back front, blend plat layer.blendMode back front layer.opacity = fn back front layer.opacity := by
          intro back front
          rw [blend, hfn]
          rfl
        have hfront : ∀ yx ∈ celPixels cel.size.1 cel.size.2, ∃ front,
            pixel c (yx.1.toNat * cel.size.1.toNat + yx.2.toNat) = some front ∧
            shownColor inflate f cel (yx.1.toNat * cel.size.1.toNat + yx.2.toNat) = some front := by
          intro yx hyx
          rw [mem_celPixels] at hyx
          have hp := row_major hyx.1 hyx.2
          have hs := pixel_isSome (a := c) (p := yx.1.toNat * cel.size.1.toNat + yx.2.toNat) (by omega)
          obtain ⟨front, hf⟩ := Option.isSome_iff_exists.1 hs
          exact ⟨front, hf, by rw [← hc3 _ hp]; exact hf⟩
        have hL := pixelLoop (N := canvasBytes f) (target := targetOf f cel)
          (step := fun yx back => fn back ((pixel c (yx.1.toNat * cel.size.1.toNat + yx.2.toNat)).getD ⟨0, 0, 0, 0⟩)
            layer.opacity)
          (fun yx : UInt16 × UInt16 => f.renderPixel plat cel layer fn c yx.1 yx.2) (celPixels cel.size.1 cel.size.2)
          (by
            intro yx hyx t ht
            obtain ⟨front, hf, -⟩ := hfront yx hyx
            rw [mem_celPixels] at hyx
            rw [renderPixel_eq plat layer fn hc2 hyx.1 hyx.2 ht, hf]
            unfold pixelStep
            rw [show (yx.1, yx.2) = yx from rfl]
            cases targetOf f cel yx with
            | none => rfl
            | some q =>
              dsimp only
              cases pixel t q with
              | none => rfl
              | some back => rfl)
          (by
            intro yx _ q hq
            have := targetOf_lt hq
            unfold canvasBytes
            omega)
          (by
            refine (celPixels_nodup _ _).imp ?_
            intro a b hne q ha hb
            exact hne (targetOf_inj ha hb))
          t ht
        have hcomp : ∀ x y, x < f.file.header.width.toNat → y < f.file.header.height.toNat → ∀ back,
            (∀ yx ∈ celPixels cel.size.1 cel.size.2, targetOf f cel yx = some (y * f.file.header.width.toNat + x) →
              composeShown plat inflate f sel x y [cel] back
                = fn back ((pixel c (yx.1.toNat * cel.size.1.toNat + yx.2.toNat)).getD ⟨0, 0, 0, 0⟩) layer.opacity) ∧
            ((∀ yx ∈ celPixels cel.size.1 cel.size.2, targetOf f cel yx ≠ some (y * f.file.header.width.toNat + x)) →
              composeShown plat inflate f sel x y [cel] back = .ok back) := by
          intro x y hx hy back
          constructor
          · intro yx hyx htg
            obtain ⟨front, hf1, hf2⟩ := hfront yx hyx
            rw [hone, (coveredBy_iff hx hy).2 ⟨yx, hyx, htg, rfl⟩]
            dsimp only [Option.bind_some]
            rw [hf2, hf1]
            exact hblend back front
          · intro hno
            have : coveredBy cel x y = none := by
              cases hcv : coveredBy cel x y with
              | none => rfl
              | some p =>
                obtain ⟨yx, hyx, htg, _⟩ := (coveredBy_iff hx hy).1 hcv
                exact absurd htg (hno yx hyx)
            rw [hone, this]
            rfl
        refine ⟨hL.length, hL.drop, hL.no_err, ?_, ?_⟩
        · rw [hL.ok_iff]
          constructor
          · intro h
            refine ⟨?_, ?_⟩
            · intro c' hc' layer' h1
              rw [List.mem_singleton] at hc'
              subst hc'
              rw [hd] at h1; cases h1
              exact ⟨hh, hk⟩
            · intro x y back hx hy hb
              by_cases hex : ∃ yx ∈ celPixels cel.size.1 cel.size.2,
                  targetOf f cel yx = some (y * f.file.header.width.toNat + x)
              · obtain ⟨yx, hyx, htg⟩ := hex
                rw [(hcomp x y hx hy back).1 yx hyx htg]
                exact h yx hyx _ back htg hb
              · refine ⟨back, (hcomp x y hx hy back).2 fun yx hyx htg => hex ⟨yx, hyx, htg⟩⟩
          · intro h yx hyx q back hq hb
            have hq' := hq
            unfold targetOf at hq'
            dsimp only at hq'
            split at hq'
            · next hc =>
              simp only [Option.some.injEq] at hq'
              have hx : ((yx.2.toNat : Int) + cel.origin.1.toInt).toNat < f.file.header.width.toNat := by omega
              have hy : ((yx.1.toNat : Int) + cel.origin.2.toInt).toNat < f.file.header.height.toNat := by omega
              have hb' : canvasPixel f t ((yx.2.toNat : Int) + cel.origin.1.toInt).toNat
                  ((yx.1.toNat : Int) + cel.origin.2.toInt).toNat = some back := by
                rw [canvasPixel, hq']; exact hb
              obtain ⟨out, ho⟩ := h.2 _ _ back hx hy hb'
              rw [(hcomp _ _ hx hy back).1 yx hyx (by rw [hq']; exact hq)] at ho
              exact ⟨out, ho⟩
            · cases hq'
        · intro hok x y hx hy
          by_cases hex : ∃ yx ∈ celPixels cel.size.1 cel.size.2,
              targetOf f cel yx = some (y * f.file.header.width.toNat + x)
          · obtain ⟨yx, hyx, htg⟩ := hex
            obtain ⟨back, out, h1, h2, h3⟩ := hL.hit hok yx hyx _ htg
            exact ⟨back, out, h1, by rw [(hcomp x y hx hy back).1 yx hyx htg]; exact h2, h3⟩
          · obtain ⟨back, hb⟩ := canvasPixel_some ht hx hy
            refine ⟨back, back, hb, (hcomp x y hx hy back).2 fun yx hyx htg => hex ⟨yx, hyx, htg⟩, ?_⟩
            rw [canvasPixel, hL.miss hok _ fun yx hyx htg => hex ⟨yx, hyx, htg⟩]
            exact hb
      · rw [hkn.2 (by simpa using hk)]
        exact hfail _ rfl ⟨_, rfl⟩ fun h => hk h.2
    · have := hload.2 hh
      rcases hr : f.loadImage inflate cel.imageIndex (List.replicate (cel.size.1.toNat * cel.size.2.toNat * 4) 0) with
        ⟨_ | _ | _, c⟩
      · exact absurd hr (this c)
      · exact hfail _ rfl ⟨_, rfl⟩ fun h => hh h.1
      · exact hfail _ rfl ⟨_, rfl⟩ fun h => hh h.1

/-! ## All cels -/

theorem shown_cons (plat : Plat) (inflate : Inflater) (f : AsepriteFile) (sel : LayerSelection) (x y : Nat)
    (cel : FrameCel) (cels : List FrameCel) (c : Color) :
    composeShown plat inflate f sel x y (cel :: cels) c =
      (composeShown plat inflate f sel x y [cel] c).bind (composeShown plat inflate f sel x y cels) := by
  rw [composeShown, composeShown]
  split
  · next layer front h1 h2 =>
    cases blend plat layer.blendMode c front layer.opacity with
    | ok => rfl
    | err e => exact nomatch e
    | panic => rfl
  · rfl

theorem renderCels_shown {plat : Plat} {inflate : Inflater} {f : AsepriteFile}
    (hty : Typed f) (sel : LayerSelection) (cels : List FrameCel) (t : Bytes)
    (ht : canvasBytes f ≤ t.length) :
    ShownSpec plat inflate f sel cels t (Buf.forEach (f.renderCel plat inflate sel) cels t) := by
  induction cels generalizing t with
  | nil =>
    refine ⟨rfl, rfl, by simp [forEach_nil], ?_, ?_⟩
    · simp [forEach_nil, composeShown]
    · intro _ x y hx hy
      obtain ⟨c, hc⟩ := canvasPixel_some ht hx hy
      exact ⟨c, c, hc, rfl, hc⟩
  | cons cel cels ih =>
    have h1 := renderCel_shown (plat := plat) (inflate := inflate) hty sel (cel := cel) ht
    rw [forEach_cons]
    rcases hr : f.renderCel plat inflate sel cel t with ⟨_ | e | k, t1⟩
    · rw [hr] at h1
      dsimp only
      have ht1 : canvasBytes f ≤ t1.length := by have := h1.length; dsimp only at this; omega
      have h2 := ih t1 ht1
      refine ⟨h2.length.trans h1.length, h2.drop.trans h1.drop, h2.no_err, ?_, ?_⟩
      · rw [h2.ok_iff]
        have h1ok := h1.ok_iff.1 rfl
        constructor
        · rintro ⟨ha, hb⟩
          refine ⟨?_, ?_⟩
          · intro c hc
            rcases List.mem_cons.1 hc with rfl | hc
            · exact h1ok.1 c List.mem_cons_self
            · exact ha c hc
          · intro x y c hx hy hc
            obtain ⟨c', out, e1, e2, e3⟩ := h1.result rfl x y hx hy
            rw [hc] at e1; cases e1
            obtain ⟨out2, e4⟩ := hb x y out hx hy e3
            exact ⟨out2, by rw [shown_cons, e2]; exact e4⟩
        · rintro ⟨ha, hb⟩
          refine ⟨fun c hc => ha c (List.mem_cons_of_mem _ hc), ?_⟩
          intro x y c hx hy hc
          obtain ⟨c', out, e1, e2, e3⟩ := h1.result rfl x y hx hy
          rw [hc] at e3; cases e3
          obtain ⟨out2, e4⟩ := hb x y c' hx hy e1
          rw [shown_cons, e2] at e4
          exact ⟨out2, e4⟩
      · intro hk x y hx hy
        obtain ⟨c, out, e1, e2, e3⟩ := h1.result rfl x y hx hy
        obtain ⟨c', out2, e4, e5, e6⟩ := h2.result hk x y hx hy
        rw [e3] at e4; cases e4
        exact ⟨c, out2, e1, by rw [shown_cons, e2]; exact e5, e6⟩
    · exact absurd rfl (by have := h1.no_err e; rw [hr] at this; exact this)
    · rw [hr] at h1
      refine ⟨h1.length, h1.drop, by simp, ?_, by simp⟩
      simp only [reduceCtorEq, false_iff]
      rintro ⟨ha, hb⟩
      have := h1.ok_iff.2 ⟨fun c hc => ha c (by
        rw [List.mem_singleton] at hc
        subst hc
        exact List.mem_cons_self), ?_⟩
      · cases this
      · intro x y c hx hy hc
        obtain ⟨out, e⟩ := hb x y c hx hy hc
        rw [shown_cons] at e
        cases h3 : composeShown plat inflate f sel x y [cel] c with
        | ok o => exact ⟨o, rfl⟩
        | err e => exact nomatch e
        | panic k => rw [h3] at e; cases e


end Ase
