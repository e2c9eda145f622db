import Verif.Lemmas.Alloc
import Verif.Props.Render

/-!
# C107: rendering with little memory

`limit` is the number of bytes the allocator can hand out, `live` how many of them are taken before the call.
-/

namespace Ase

open Spec

/-- **C107 (no leak).** A call to `load_image` or `render_frame` that comes back, with a result, an error or a panic, has
given back all the memory it took, and its outcome and the buffer are those of the call with unlimited memory. -/
theorem C107_returns (plat : Plat) (inflate : Inflater) (b : Bytes) (f : AsepriteFile)
    (hf : AsepriteFile.load plat b = .ok f) (limit live : Nat) (hl : live ≤ limit) (i : Nat) (sel : LayerSelection)
    (t t' : Bytes) (o : Outcome LoadImageError Unit) (live' : Nat) :
    (f.loadImageM inflate limit i t live = .back o t' live' → (o, t') = f.loadImage inflate i t ∧ live' = live) ∧
    (f.renderFrameM plat inflate limit i sel t live = .back o t' live' →
      (o, t') = f.renderFrame plat inflate i sel t ∧ live' = live) := by
  constructor
  · intro h
    cases him : f.images[i]? with
    | none =>
      unfold AsepriteFile.loadImageM at h
      unfold AsepriteFile.loadImage
      rw [him] at h ⊢
      cases h
      exact ⟨rfl, rfl⟩
    | some im =>
      rw [loadImageM_eq inflate limit him t live hl] at h
      split at h
      · cases h
      · rw [ofBuf_eq] at h
        cases h
        exact ⟨rfl, rfl⟩
  · intro h
    rw [renderFrameM_eq] at h
    rw [renderFrame_eq]
    split at h
    · next hlt =>
      cases h
      rw [if_pos hlt]
      exact ⟨rfl, rfl⟩
    · next hlt =>
      rw [if_neg hlt]
      cases hi : f.frames[i]? with
      | none =>
        rw [hi] at h
        cases h
        exact ⟨rfl, rfl⟩
      | some lf =>
        rw [hi] at h
        dsimp only at h ⊢
        rcases cels_alloc plat inflate limit sel live hl lf.cels (celsOk_of_load hf hi) t with ⟨h1, -⟩ |
          ⟨_, _, _, _, -, -, -, -, h5⟩
        · rw [h1, ofBuf_eq] at h
          cases h
          exact ⟨rfl, rfl⟩
        · rw [h5] at h
          cases h

/-- **C107 (images).** `load_image` runs out of memory exactly if the buffer is large enough for the image and the unpacked
bytes of a compressed greyscale or indexed image do not fit; the buffer is then untouched. -/
theorem C107_image (inflate : Inflater) (f : AsepriteFile) (limit live : Nat) (hl : live ≤ limit) (i : Nat) (t t' : Bytes) :
    f.loadImageM inflate limit i t live = .aborted t' ↔
      t' = t ∧ ∃ im, f.images[i]? = some im ∧ pixelCount im * 4 ≤ t.length ∧ limit - live < unpacked f im := by
  cases him : f.images[i]? with
  | none =>
    unfold AsepriteFile.loadImageM
    rw [him]
    exact ⟨fun h => (by cases h), fun ⟨_, _, h, _⟩ => (by cases h)⟩
  | some im =>
    rw [loadImageM_eq inflate limit him t live hl]
    constructor
    · intro h
      split at h
      · next hc =>
        cases h
        exact ⟨rfl, im, rfl, hc.1, by omega⟩
      · cases h
    · rintro ⟨rfl, im', h, h1, h2⟩
      cases h
      rw [if_pos ⟨h1, by omega⟩]

/-- **C107 (frames).** `render_frame` runs out of memory exactly if the buffer is large enough and some drawn cel on its own
needs more than the free memory, all cels below it being drawn without failure. -/
theorem C107_frame (plat : Plat) (inflate : Inflater) (b : Bytes) (f : AsepriteFile)
    (hf : AsepriteFile.load plat b = .ok f) (limit live : Nat) (hl : live ≤ limit) (i : Nat) (lf : LFrame)
    (hi : f.frames[i]? = some lf) (sel : LayerSelection) (t : Bytes) :
    (∃ t', f.renderFrameM plat inflate limit i sel t live = .aborted t') ↔
      canvasBytes f ≤ t.length ∧ ∃ before c after, lf.cels = before ++ c :: after ∧
        CanDraw plat inflate f sel before t ∧ Short f sel (limit - live) c := by
  obtain ⟨pal, hpal⟩ := goodPalette_of_load hf
  have hok := celsOk_of_load hf hi
  rw [renderFrameM_eq, hi]
  dsimp only
  by_cases hlt : t.length < canvasBytes f
  · rw [if_pos hlt]
    exact ⟨fun ⟨_, h⟩ => (by cases h), fun h => absurd h.1 (by omega)⟩
  · rw [if_neg hlt]
    have hspec : ∀ before c after, lf.cels = before ++ c :: after →
        ((Buf.forEach (f.renderCel plat inflate sel) before t).1 = .ok () ↔ CanDraw plat inflate f sel before t) :=
      fun before c after he =>
        (renderCels_spec hpal sel before (fun d hd => hok d (by rw [he]; exact List.mem_append_left _ hd)) t (by omega)).ok_iff
    rcases cels_alloc plat inflate limit sel live hl lf.cels hok t with ⟨h1, h2⟩ |
      ⟨before, c, after, t', h1, h2, h3, h4, h5⟩
    · rw [h1, ofBuf_eq]
      refine ⟨fun ⟨_, h⟩ => (by cases h), fun ⟨_, before, c, after, he, hc, hs⟩ => ?_⟩
      exact absurd hs (h2 before c after he ((hspec before c after he).2 hc))
    · rw [h5]
      exact ⟨fun _ => ⟨by omega, before, c, after, h1, (hspec before c after h1).1 (by rw [h4]), h3⟩, fun _ => ⟨_, rfl⟩⟩

/-- **C107 (what is left).** If `render_frame` runs out of memory then at the first drawn cel that needs more than the free
memory: the buffer holds the picture of the cels below it and nothing of that cel, and is untouched beyond the canvas. -/
theorem C107_left (plat : Plat) (inflate : Inflater) (b : Bytes) (f : AsepriteFile)
    (hf : AsepriteFile.load plat b = .ok f) (limit live : Nat) (hl : live ≤ limit) (i : Nat) (lf : LFrame)
    (hi : f.frames[i]? = some lf) (sel : LayerSelection) (t t' : Bytes)
    (h : f.renderFrameM plat inflate limit i sel t live = .aborted t') :
    ∃ before c after, lf.cels = before ++ c :: after ∧ Short f sel (limit - live) c ∧
      (∀ d ∈ before, ¬ Short f sel (limit - live) d) ∧
      t'.length = t.length ∧ t'.drop (canvasBytes f) = t.drop (canvasBytes f) ∧
      ∀ x y, x < f.file.header.width.toNat → y < f.file.header.height.toNat → ∃ old new,
        canvasPixel f t x y = some old ∧ compose plat inflate f sel x y before old = .ok new ∧
        canvasPixel f t' x y = some new := by
  obtain ⟨pal, hpal⟩ := goodPalette_of_load hf
  have hok := celsOk_of_load hf hi
  rw [renderFrameM_eq, hi] at h
  dsimp only at h
  by_cases hlt : t.length < canvasBytes f
  · rw [if_pos hlt] at h
    cases h
  · rw [if_neg hlt] at h
    rcases cels_alloc plat inflate limit sel live hl lf.cels hok t with ⟨h1, h2⟩ |
      ⟨before, c, after, t1, h1, h2, h3, h4, h5⟩
    · rw [h1, ofBuf_eq] at h
      cases h
    · rw [h5] at h
      cases h
      have hs := renderCels_spec (plat := plat) (inflate := inflate) hpal sel before
        (fun d hd => hok d (by rw [h1]; exact List.mem_append_left _ hd)) t (by omega)
      rw [h4] at hs
      exact ⟨before, c, after, h1, h3, h2, hs.length, hs.drop, hs.result rfl⟩

/-- **C107 (enough).** A frame that can be rendered with unlimited memory can be rendered with `limit` bytes exactly if each
drawn cel on its own fits into the free memory, however many cels there are: the buffers are not needed at the same
time. -/
theorem C107_enough (plat : Plat) (inflate : Inflater) (b : Bytes) (f : AsepriteFile)
    (hf : AsepriteFile.load plat b = .ok f) (limit live : Nat) (hl : live ≤ limit) (i : Nat) (lf : LFrame)
    (hi : f.frames[i]? = some lf) (sel : LayerSelection) (t picture : Bytes)
    (h : f.renderFrame plat inflate i sel t = (.ok (), picture)) :
    f.renderFrameM plat inflate limit i sel t live = .back (.ok ()) picture live ↔
      ∀ c ∈ lf.cels, ∀ layer im, drawnOn f sel c = some layer → f.images[c.imageIndex]? = some im →
        celNeed f im ≤ limit - live := by
  have hok := celsOk_of_load hf hi
  rw [renderFrame_eq, hi] at h
  rw [renderFrameM_eq, hi]
  dsimp only at h ⊢
  by_cases hlt : t.length < canvasBytes f
  · rw [if_pos hlt] at h
    cases h
  · rw [if_neg hlt] at h ⊢
    rcases cels_alloc plat inflate limit sel live hl lf.cels hok t with ⟨h1, h2⟩ |
      ⟨before, c, after, t1, h1, h2, h3, h4, h5⟩
    · rw [h1, ofBuf_eq, h]
      refine ⟨fun _ c hc layer im hd him => ?_, fun _ => rfl⟩
      obtain ⟨before, after, he⟩ := List.append_of_mem hc
      have hns := h2 before c after he (by
        rw [he, forEach_append] at h
        rcases hr : Buf.forEach (f.renderCel plat inflate sel) before t with ⟨_ | _ | _, _⟩
        · rfl
        · rw [hr] at h; cases h
        · rw [hr] at h; cases h)
      exact Nat.le_of_not_lt fun hgt => hns ⟨layer, im, hd, him, hgt⟩
    · rw [h5]
      refine ⟨fun h => (by cases h), fun hall => ?_⟩
      obtain ⟨layer, im, hd, him, hgt⟩ := h3
      exact absurd (hall c (by rw [h1]; simp) layer im hd him) (by omega)

/-- **C107 (with the hash).** `combined_frame_image` runs out of memory exactly if rendering the visible layers does, and leaves
the same; if it comes back, it does so as with unlimited memory. -/
theorem C107_combined (plat : Plat) (inflate : Inflater) (hash : List HashInput → UInt64) (b : Bytes) (f : AsepriteFile)
    (hf : AsepriteFile.load plat b = .ok f) (limit live : Nat) (hl : live ≤ limit) (i : Nat) (t : Bytes) :
    (∀ t', f.combinedFrameImageM plat inflate hash limit i t live = .aborted t' ↔
      f.renderFrameM plat inflate limit i .visible t live = .aborted t') ∧
    ∀ o t' live', f.combinedFrameImageM plat inflate hash limit i t live = .back o t' live' →
      (o, t') = f.combinedFrameImage plat inflate hash i t ∧ live' = live := by
  have hr := fun o t' live' => (C107_returns plat inflate b f hf limit live hl i .visible t t' o live').2
  unfold AsepriteFile.combinedFrameImageM AsepriteFile.combinedFrameImage
  change (∀ t', Mem.bind _ _ t live = _ ↔ _) ∧ ∀ o t' live', Mem.bind _ _ t live = _ → (o, t') = Buf.bind _ _ t ∧ _
  unfold Mem.bind Buf.bind
  cases hm : f.renderFrameM plat inflate limit i .visible t live with
  | aborted t1 => exact ⟨fun t' => ⟨fun h => (by cases h; rfl), fun h => (by cases h; rfl)⟩, fun o t' live' h => by cases h⟩
  | back o1 t1 live1 =>
    obtain ⟨h1, rfl⟩ := hr o1 t1 live1 hm
    rw [← h1]
    cases o1 with
    | ok _ =>
      cases f.frames[i]? with
      | none =>
        refine ⟨fun t' => ⟨fun h => (by cases h), fun h => (by cases h)⟩, fun o t' live' h => ?_⟩
        cases h
        exact ⟨rfl, rfl⟩
      | some lf =>
        refine ⟨fun t' => ⟨fun h => (by cases h), fun h => (by cases h)⟩, fun o t' live' h => ?_⟩
        cases h
        exact ⟨rfl, rfl⟩
    | err e =>
      refine ⟨fun t' => ⟨fun h => (by cases h), fun h => (by cases h)⟩, fun o t' live' h => ?_⟩
      cases h
      exact ⟨rfl, rfl⟩
    | panic k =>
      refine ⟨fun t' => ⟨fun h => (by cases h), fun h => (by cases h)⟩, fun o t' live' h => ?_⟩
      cases h
      exact ⟨rfl, rfl⟩

/-- Two compressed indexed cels of one and of two pixels: ten bytes are needed, not fifteen, and with nine the picture is left
with the first cel only. -/
example :
    let b := Sample.header 2 1 8 ++ Sample.frame 1 [Sample.palette 0 [[0, 0, 0, 0], [1, 2, 3, 255], [4, 5, 6, 255]],
      Sample.layer 1 0 0 255 [65], Sample.layer 1 0 0 255 [66],
      Sample.zcel 0 0 0 1 1 (Sample.deflate [2]), Sample.zcel 1 0 0 2 1 (Sample.deflate [1, 2])]
    (match AsepriteFile.load ⟨true, 10⟩ b with
      | .ok f =>
        let m := fun limit => f.renderFrameM ⟨true, 10⟩ Sample.inflate limit 0 .visible (List.replicate 8 0) 7
        decide (m 17 = .back (.ok ()) [1, 2, 3, 255, 4, 5, 6, 255] 7 ∧ m 16 = .aborted [4, 5, 6, 255, 0, 0, 0, 0] ∧
          m 11 = .aborted (List.replicate 8 0) ∧
          f.combinedFrameImageM ⟨true, 10⟩ Sample.inflate (fun l => l.length.toUInt64) 17 0 (List.replicate 8 0) 7 =
            .back (.ok 2) [1, 2, 3, 255, 4, 5, 6, 255] 7 ∧
          f.combinedFrameImageM ⟨true, 10⟩ Sample.inflate (fun l => l.length.toUInt64) 16 0 (List.replicate 8 0) 7 =
            .aborted [4, 5, 6, 255, 0, 0, 0, 0])
      | _ => false) = true := by
  decide +kernel

end Ase
