import Verif.Model.Alloc
import Verif.Spec.Alloc
import Verif.Lemmas.Render

namespace Ase

open Spec

theorem mem_bind_back {α β : Type} {x : Mem α} {f : α → Mem β} {t t' : Bytes} {n n' : Nat} {a : α}
    (h : x t n = .back (.ok a) t' n') : (x >>= f) t n = f a t' n' := by
  show Mem.bind x f t n = _
  rw [Mem.bind, h]

theorem mem_bind_aborted {α β : Type} {x : Mem α} {f : α → Mem β} {t t' : Bytes} {n : Nat}
    (h : x t n = .aborted t') : (x >>= f) t n = .aborted t' := by
  show Mem.bind x f t n = _
  rw [Mem.bind, h]

theorem ofBuf_eq {α : Type} (x : Buf α) (t : Bytes) (n : Nat) : Mem.ofBuf x t n = .back (x t).1 (x t).2 n := rfl

theorem mem_bind_ofBuf {α β : Type} (x : Buf α) (f : α → Buf β) (t : Bytes) (n : Nat) :
    (Mem.ofBuf x >>= fun a => Mem.ofBuf (f a)) t n = Mem.ofBuf (x >>= f) t n := by
  show Mem.bind _ _ t n = _
  unfold Mem.bind Mem.ofBuf
  rw [buf_bind]
  rcases x t with ⟨_ | _ | _, _⟩ <;> rfl

theorem mem_fresh (limit n : Nat) (x : Buf Unit) (k : Bytes → Buf Unit) (t : Bytes) (live : Nat) :
    Mem.withVec limit n (fun buf => do
      let (o, buf) ← Mem.onOther buf (Mem.ofBuf x)
      Mem.ofBuf (Buf.lift o)
      Mem.ofBuf (k buf)) t live =
    if live + n ≤ limit then Mem.ofBuf (Buf.onFresh n x >>= k) t live else .aborted t := by
  unfold Mem.withVec
  split
  · dsimp only
    rw [mem_bind_back (x := Mem.onOther (List.replicate n 0) (Mem.ofBuf x)) (a := x (List.replicate n 0)) (t' := t)
      (n' := live + n) rfl]
    unfold Mem.ofBuf
    rw [buf_bind, Buf.onFresh]
    rcases hx : x (List.replicate n 0) with ⟨o, c⟩
    cases o with
    | ok a =>
      dsimp only
      rw [mem_bind_back (x := fun t live => .back (Buf.lift (.ok a) t).1 (Buf.lift (.ok a) t).2 live) (a := ()) (t' := t)
        (n' := live + n) rfl]
      simp
    | err e =>
      show End.back _ _ (live + n - n) = _
      simp [Buf.lift]
    | panic k =>
      show End.back _ _ (live + n - n) = _
      simp [Buf.lift]
  · rfl

theorem decodeImageM_eq (inflate : Inflater) (limit : Nat) (f : AsepriteFile) (im : Image) (t : Bytes) (live : Nat)
    (hl : live ≤ limit) : f.decodeImageM inflate limit im t live =
      if limit < live + unpacked f im then .aborted t else Mem.ofBuf (f.decodeImage inflate im) t live := by
  unfold AsepriteFile.decodeImageM AsepriteFile.decodeImage unpacked
  cases f.file.header.colorDepth <;> cases im.compressed <;> dsimp only
  case grayscale.true =>
    rw [mem_fresh]
    unfold pixelCount
    split <;> split <;> first | rfl | omega
  case indexed.true =>
    rw [mem_fresh limit _ _ fun buf => do
      let palette ← f.paletteOrErr
      indexedToRgba buf palette]
    unfold pixelCount
    split <;> split <;> first | rfl | omega
  all_goals rw [if_neg (by omega)]

theorem loadImageM_eq (inflate : Inflater) (limit : Nat) {f : AsepriteFile} {i : Nat} {im : Image}
    (h : f.images[i]? = some im) (t : Bytes) (live : Nat) (hl : live ≤ limit) :
    f.loadImageM inflate limit i t live =
      if pixelCount im * 4 ≤ t.length ∧ limit < live + unpacked f im then .aborted t
      else Mem.ofBuf (f.loadImage inflate i) t live := by
  unfold Mem.ofBuf
  rw [loadImage_eq h]
  unfold AsepriteFile.loadImageM
  rw [h]
  dsimp only
  rw [mem_bind_back (x := Mem.ofBuf Buf.len) (a := t.length) (t' := t) (n' := live) rfl]
  rw [show im.width.toNat * im.height.toNat * 4 = pixelCount im * 4 from rfl]
  split
  · rw [if_neg (by omega)]
    rfl
  · rw [Mem.onPrefix, if_pos (by omega), decodeImageM_eq inflate limit f im _ live hl]
    by_cases hx : limit < live + unpacked f im
    · rw [if_pos hx, if_pos ⟨by omega, hx⟩]
      dsimp only
      rw [List.take_append_drop]
    · rw [if_neg hx, if_neg (fun h => hx h.2)]
      rfl

theorem renderCelM_eq (plat : Plat) (inflate : Inflater) (limit : Nat) {f : AsepriteFile} (sel : LayerSelection)
    {cel : FrameCel} {im : Image} (him : f.images[cel.imageIndex]? = some im) (hsize : cel.size = (im.width, im.height))
    (t : Bytes) (live : Nat) (hl : live ≤ limit) :
    (Short f sel (limit - live) cel → f.renderCelM plat inflate limit sel cel t live = .aborted t) ∧
    (¬ Short f sel (limit - live) cel →
      f.renderCelM plat inflate limit sel cel t live = Mem.ofBuf (f.renderCel plat inflate sel cel) t live) := by
  have hn : cel.size.1.toNat * cel.size.2.toNat * 4 = pixelCount im * 4 := by rw [hsize]; rfl
  unfold AsepriteFile.renderCelM
  rw [ofBuf_eq]
  cases hd : drawnOn f sel cel with
  | none =>
    refine ⟨fun ⟨layer, _, h, _⟩ => (by rw [hd] at h; cases h), fun _ => ?_⟩
    rw [renderCel_skip hd]
    unfold drawnOn at hd
    cases hly : f.layers[cel.layerIndex]? with
    | none => rfl
    | some layer =>
      rw [hly] at hd
      dsimp only at hd ⊢
      split at hd
      · cases hd
      · next hc =>
        rw [if_pos]
        · rfl
        · rw [isSelected_iff]
          rcases Classical.em (layer.layerType = .group) with h | h
          · exact .inl h
          · exact .inr fun h' => hc ⟨h, h'⟩
  | some layer =>
    have hs : Short f sel (limit - live) cel ↔ limit - live < celNeed f im := by
      refine ⟨fun ⟨_, im', _, h, h'⟩ => ?_, fun h => ⟨layer, im, hd, him, h⟩⟩
      rw [him] at h
      cases h
      exact h'
    rw [hs]
    unfold celNeed
    have hd' := hd
    unfold drawnOn at hd'
    cases hly : f.layers[cel.layerIndex]? with
    | none => rw [hly] at hd'; cases hd'
    | some layer' =>
      rw [hly] at hd'
      dsimp only at hd' ⊢
      split at hd'
      · next hc =>
        cases hd'
        rw [if_neg (by rw [isSelected_iff]; exact fun h => h.elim hc.1 fun h => h hc.2), Mem.withVec, hn]
        split
        · next hfit =>
          have hli := loadImageM_eq inflate limit him (List.replicate (pixelCount im * 4) 0) (live + pixelCount im * 4) hfit
          simp only [List.length_replicate, Nat.le_refl, true_and] at hli
          by_cases hx : limit < live + pixelCount im * 4 + unpacked f im
          · rw [if_pos hx] at hli
            refine ⟨fun _ => ?_, fun h => absurd hx (by omega)⟩
            rw [mem_bind_aborted (t' := t) (by rw [Mem.onOther, hli])]
          · rw [if_neg hx] at hli
            refine ⟨fun h => absurd h (by omega), fun _ => ?_⟩
            rw [ofBuf_eq] at hli
            rw [mem_bind_back (x := Mem.onOther _ _)
              (a := f.loadImage inflate cel.imageIndex (List.replicate (pixelCount im * 4) 0)) (t' := t)
              (n' := live + pixelCount im * 4) (by rw [Mem.onOther, hli])]
            rw [renderCel_drawn hd, hn]
            rcases f.loadImage inflate cel.imageIndex (List.replicate (pixelCount im * 4) 0) with ⟨_ | _ | _, c⟩
            · dsimp only
              rw [mem_bind_back (x := Mem.ofBuf (Buf.lift (.ok ()))) (a := ()) (t' := t) (n' := live + pixelCount im * 4) rfl]
              cases hfn : blendModeToBlendFn plat layer.blendMode with
              | err e => exact nomatch e
              | panic k =>
                show End.back _ _ (live + pixelCount im * 4 - pixelCount im * 4) = _
                simp [Buf.lift, Outcome.lift]
              | ok fn =>
                rw [lift_ok, mem_bind_back (x := Mem.ofBuf (Buf.lift (.ok fn))) (a := fn) (t' := t) (n' := live + pixelCount im * 4) rfl]
                rw [ofBuf_eq]
                dsimp only
                rw [celPixels, forEach_flatMap]
                simp only [Nat.add_sub_cancel]
                have e : (fun y => Buf.forEach (f.renderPixel plat cel layer fn c y) (u16Range cel.size.1)) =
                    fun y => Buf.forEach (fun yx : UInt16 × UInt16 => f.renderPixel plat cel layer fn c yx.1 yx.2)
                      ((u16Range cel.size.1).map fun x => (y, x)) := by
                  funext y t
                  rw [forEach_map]
                rw [e]
            · show End.back _ _ (live + pixelCount im * 4 - pixelCount im * 4) = _
              simp [Buf.lift]
            · show End.back _ _ (live + pixelCount im * 4 - pixelCount im * 4) = _
              simp [Buf.lift]
        · exact ⟨fun _ => rfl, fun h => absurd h (by omega)⟩
      · cases hd'

theorem renderFrameM_eq (plat : Plat) (inflate : Inflater) (limit : Nat) (f : AsepriteFile) (i : Nat)
    (sel : LayerSelection) (t : Bytes) (live : Nat) :
    f.renderFrameM plat inflate limit i sel t live =
      if t.length < canvasBytes f then .back (.err .targetBufferTooSmall) t live
      else
        match f.frames[i]? with
        | none => .back (.panic .indexOutOfBounds) t live
        | some lf => Mem.forEach (f.renderCelM plat inflate limit sel) lf.cels t live := by
  unfold AsepriteFile.renderFrameM
  rw [mem_bind_back (x := Mem.ofBuf Buf.len) (a := t.length) (t' := t) (n' := live) rfl]
  unfold canvasBytes
  split
  · rfl
  · cases f.frames[i]? <;> rfl

/-- Up to the first cel that does not fit, everything is as without a limit. -/
theorem cels_alloc (plat : Plat) (inflate : Inflater) (limit : Nat) {f : AsepriteFile} (sel : LayerSelection)
    (live : Nat) (hl : live ≤ limit) (cels : List FrameCel) (hok : CelsOk f cels) (t : Bytes) :
    (Mem.forEach (f.renderCelM plat inflate limit sel) cels t live =
        Mem.ofBuf (Buf.forEach (f.renderCel plat inflate sel) cels) t live ∧
      ∀ before c after, cels = before ++ c :: after → (Buf.forEach (f.renderCel plat inflate sel) before t).1 = .ok () →
        ¬ Short f sel (limit - live) c) ∨
    ∃ before c after t', cels = before ++ c :: after ∧ (∀ d ∈ before, ¬ Short f sel (limit - live) d) ∧
      Short f sel (limit - live) c ∧ Buf.forEach (f.renderCel plat inflate sel) before t = (.ok (), t') ∧
      Mem.forEach (f.renderCelM plat inflate limit sel) cels t live = .aborted t' := by
  induction cels generalizing t with
  | nil => exact .inl ⟨rfl, fun before c after h => by simp at h⟩
  | cons c cels ih =>
    obtain ⟨im, him, hsize⟩ := hok c (List.mem_cons_self ..)
    have hc := renderCelM_eq plat inflate limit sel him hsize t live hl
    rcases Classical.em (Short f sel (limit - live) c) with hs | hs
    · refine .inr ⟨[], c, cels, t, rfl, by simp, hs, rfl, ?_⟩
      show Mem.bind _ _ t live = _
      rw [Mem.bind, hc.1 hs]
    · have hb : Mem.forEach (f.renderCelM plat inflate limit sel) (c :: cels) t live =
          match f.renderCel plat inflate sel c t with
          | (.ok _, t') => Mem.forEach (f.renderCelM plat inflate limit sel) cels t' live
          | (.err e, t') => .back (.err e) t' live
          | (.panic k, t') => .back (.panic k) t' live := by
        show Mem.bind _ _ t live = _
        rw [Mem.bind, hc.2 hs]
        unfold Mem.ofBuf
        rcases f.renderCel plat inflate sel c t with ⟨_ | _ | _, _⟩ <;> rfl
      rw [hb]
      unfold Mem.ofBuf
      rw [forEach_cons]
      rcases hr : f.renderCel plat inflate sel c t with ⟨o, t1⟩
      have stop : ∀ {o' : Outcome LoadImageError Unit}, o = o' → o' ≠ .ok () → ∀ before d after,
          c :: cels = before ++ d :: after → (Buf.forEach (f.renderCel plat inflate sel) before t).1 = .ok () →
          ¬ Short f sel (limit - live) d := by
        intro o' ho hne before d after he hk
        cases before with
        | nil =>
          cases he
          exact hs
        | cons b before =>
          cases he
          rw [forEach_cons, hr, ho] at hk
          cases o' with
          | ok => exact absurd rfl hne
          | err e => cases hk
          | panic k => cases hk
      cases o with
      | ok u =>
        dsimp only
        rcases ih (fun d hd => hok d (List.mem_cons_of_mem _ hd)) t1 with ⟨h1, h2⟩ | ⟨before, d, after, t', h1, h2, h3, h4, h5⟩
        · refine .inl ⟨h1, fun before d after he hk => ?_⟩
          cases before with
          | nil =>
            cases he
            exact hs
          | cons b before =>
            cases he
            rw [forEach_cons, hr] at hk
            exact h2 before d after rfl hk
        · refine .inr ⟨c :: before, d, after, t', by rw [h1]; rfl, ?_, h3, ?_, h5⟩
          · intro d' hd'
            rcases List.mem_cons.1 hd' with rfl | hd'
            · exact hs
            · exact h2 d' hd'
          · rw [forEach_cons, hr]
            exact h4
      | err e => exact .inl ⟨rfl, stop rfl (by simp)⟩
      | panic k => exact .inl ⟨rfl, stop rfl (by simp)⟩

end Ase
