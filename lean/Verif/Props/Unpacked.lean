import Verif.Spec.Unpacked
import Verif.Spec.Joined
import Verif.Props.Possible
import Verif.Props.Image
import Verif.Props.Render

/-!
# C143: every sprite can be stored without compression, in RGBA
-/

namespace Ase

open Spec

theorem inPlainRgba_possible {plat : Plat} {b : Bytes} {f : AsepriteFile} (hf : AsepriteFile.load plat b = .ok f)
    (inflate : Inflater) : Possible (inPlainRgba inflate f) := by
  have hp := C129_possible plat b f hf
  obtain ⟨home, nf⟩ := hp.numbered
  refine ⟨nofun, nofun, fun _ => rfl, hp.layers, hp.tags, hp.frames, hp.origin, hp.sorted, hp.layerIndex, ?_, home, ?_,
    nf.ascending, nf.stored, nf.shown⟩
  · intro fr hfr c hc
    obtain ⟨im, h1, h2⟩ := hp.size fr hfr c hc
    refine ⟨plainImage inflate f c.imageIndex im, ?_, h2⟩
    change (f.images.mapIdx _)[c.imageIndex]? = _
    rw [List.getElem?_mapIdx, show f.images[c.imageIndex]? = some im from h1]
    rfl
  · rw [nf.count]
    exact List.length_mapIdx.symm

theorem unpacked_loadImage {plat : Plat} {b : Bytes} {f g : AsepriteFile} (hf : AsepriteFile.load plat b = .ok f)
    {inflate : Inflater} (he : spriteOf g = inPlainRgba inflate f) {k : Nat} {im : Image} (hk : f.images[k]? = some im)
    (inflate' : Inflater) {t : Bytes} (ht : pixelCount im * 4 ≤ t.length) :
    g.loadImage inflate' k t = (.ok (), (f.loadImage inflate k (List.replicate (pixelCount im * 4) 0)).2
      ++ t.drop (pixelCount im * 4)) := by
  have e1 : g.file.header.colorDepth = .rgba := congrArg Sprite.depth he
  have e2 : g.images = f.images.mapIdx (plainImage inflate f) := congrArg Sprite.images he
  have hi : g.images[k]? = some (plainImage inflate f k im) := by
    rw [e2, List.getElem?_mapIdx, hk]; rfl
  have hl : (f.loadImage inflate k (List.replicate (pixelCount im * 4) 0)).2.length = pixelCount im * 4 := by
    rw [(C43_contract_partial plat b f hf inflate k im hk (List.replicate (pixelCount im * 4) 0)).2.2.1,
      List.length_replicate]
  rw [loadImage_eq hi, show pixelCount (plainImage inflate f k im) = pixelCount im from rfl, if_neg (by omega)]
  have hd : g.decodeImage inflate' (plainImage inflate f k im) (t.take (pixelCount im * 4)) =
      (.ok (), (f.loadImage inflate k (List.replicate (pixelCount im * 4) 0)).2) := by
    rw [AsepriteFile.decodeImage, e1]
    change Buf.copyFromSlice _ _ = _
    rw [Buf.copyFromSlice, if_pos]
    · rfl
    · rw [List.length_take, Nat.min_eq_left ht]
      exact hl.symm
  rw [hd]

theorem forEach_same {α : Type} {x y : α → Buf Unit} : ∀ {l : List α}, (∀ a ∈ l, x a = y a) →
    Buf.forEach x l = Buf.forEach y l
  | [], _ => rfl
  | a :: l, h => by
    rw [Buf.forEach, Buf.forEach, h a List.mem_cons_self, forEach_same fun b hb => h b (List.mem_cons_of_mem _ hb)]

theorem unpacked_renderCel {plat : Plat} {b : Bytes} {f g : AsepriteFile} (hf : AsepriteFile.load plat b = .ok f)
    {inflate : Inflater} (hd : AllDecode inflate f) (he : spriteOf g = inPlainRgba inflate f) {c : FrameCel} {im : Image}
    (hk : f.images[c.imageIndex]? = some im) (hs : c.size = (im.width, im.height)) (p : Plat) (inflate' : Inflater)
    (sel : LayerSelection) : g.renderCel p inflate' sel c = f.renderCel p inflate sel c := by
  funext t
  have e1 : g.layers = f.layers := congrArg Sprite.layers he
  have e2 : g.size = f.size := congrArg Sprite.size he
  have ew : g.file.header.width = f.file.header.width := congrArg Prod.fst e2
  have eh : g.file.header.height = f.file.header.height := congrArg Prod.snd e2
  have hdr : drawnOn g sel c = drawnOn f sel c := by rw [drawnOn, drawnOn, e1]
  cases h0 : drawnOn f sel c with
  | none => rw [renderCel_skip h0, renderCel_skip (hdr.trans h0)]
  | some layer =>
    have hsz : c.size.1.toNat * c.size.2.toNat * 4 = pixelCount im * 4 := by rw [hs]; rfl
    have h1 : f.loadImage inflate c.imageIndex (List.replicate (pixelCount im * 4) 0) =
        g.loadImage inflate' c.imageIndex (List.replicate (pixelCount im * 4) 0) := by
      rw [unpacked_loadImage hf he hk inflate' (by rw [List.length_replicate]; exact Nat.le_refl _),
        List.drop_of_length_le (by rw [List.length_replicate]; exact Nat.le_refl _), List.append_nil]
      exact Prod.ext (hd _ _ hk) rfl
    have h2 : ∀ fn cs y x, g.renderPixel p c layer fn cs y x = f.renderPixel p c layer fn cs y x := by
      intro fn cs y x
      unfold AsepriteFile.renderPixel
      rw [ew, eh]
    rw [renderCel_drawn h0, renderCel_drawn (hdr.trans h0), hsz, h1]
    simp only [h2]

/-- **C143.** Every sprite whose images can be decoded can be stored without compression and without a palette, in RGBA
colours, if that is not too large: there is a file that is loaded as the same sprite (size, layers, frames, tags) with
images that hold the bytes `load_image` gives.  Every frame of it is rendered as before, with every selection, onto every
buffer and in every build, and no decompressor is needed.  The same holds of `combined_frame_image`, hash included. -/
theorem C143_unpacked (plat : Plat) (b : Bytes) (f : AsepriteFile) (hf : AsepriteFile.load plat b = .ok f)
    (inflate : Inflater) (hd : AllDecode inflate f) (hs : Small (inPlainRgba inflate f)) :
    ∃ c g, AsepriteFile.load plat c = .ok g ∧ spriteOf g = inPlainRgba inflate f ∧
      ∀ (p : Plat) (inflate' : Inflater) (i : Nat) (t : Bytes),
        (∀ sel, g.renderFrame p inflate' i sel t = f.renderFrame p inflate i sel t) ∧
        ∀ hash, g.combinedFrameImage p inflate' hash i t = f.combinedFrameImage p inflate hash i t := by
  obtain ⟨c, g, hc, he⟩ := C129_every plat _ (inPlainRgba_possible hf inflate) hs
  have ef : g.frames = f.frames := congrArg Sprite.frames he
  have e2 : g.size = f.size := congrArg Sprite.size he
  have ew : g.file.header.width = f.file.header.width := congrArg Prod.fst e2
  have eh : g.file.header.height = f.file.header.height := congrArg Prod.snd e2
  have hr : ∀ (p : Plat) (inflate' : Inflater) (i : Nat) sel,
      g.renderFrame p inflate' i sel = f.renderFrame p inflate i sel := by
    intro p inflate' i sel
    funext t
    rw [renderFrame_eq, renderFrame_eq, ef, show canvasBytes g = canvasBytes f by rw [canvasBytes, canvasBytes, ew, eh]]
    split
    · rfl
    · cases hi : f.frames[i]? with
      | none => rfl
      | some lf =>
        refine congrFun (forEach_same fun x hx => ?_) t
        obtain ⟨im, h1, h2⟩ := (C129_possible plat b f hf).size lf (List.mem_of_getElem? hi) x hx
        exact unpacked_renderCel hf hd he h1 h2 p inflate' sel
  refine ⟨c, g, hc, he, fun p inflate' i t => ⟨fun sel => by rw [hr], fun hash => ?_⟩⟩
  unfold AsepriteFile.combinedFrameImage
  rw [hr, ef]

/-- **C143 (images).** `load_image` gives the same bytes for the images of this file, for every buffer, if it does not
matter for the image in the first file what the buffer held before. -/
theorem C143_images (plat : Plat) (b : Bytes) (f g : AsepriteFile) (hf : AsepriteFile.load plat b = .ok f)
    (inflate inflate' : Inflater) (he : spriteOf g = inPlainRgba inflate f)
    (k : Nat) (im : Image) (hk : f.images[k]? = some im)
    (hall : ∀ t : Bytes, t.length = im.width.toNat * im.height.toNat * 4 → f.loadImage inflate k t =
      (.ok (), (f.loadImage inflate k (List.replicate (im.width.toNat * im.height.toNat * 4) 0)).2)) (t : Bytes) :
    g.loadImage inflate' k t = f.loadImage inflate k t := by
  by_cases ht : t.length < pixelCount im * 4
  · have hi : g.images[k]? = some (plainImage inflate f k im) := by
      rw [show g.images = _ from congrArg Sprite.images he]
      change (f.images.mapIdx _)[k]? = _
      rw [List.getElem?_mapIdx, hk]; rfl
    rw [loadImage_eq hk, loadImage_eq hi, if_pos ht, if_pos (show t.length < pixelCount (plainImage inflate f k im) * 4 from ht)]
  · have hle : pixelCount im * 4 ≤ t.length := by omega
    rw [unpacked_loadImage hf he hk inflate' hle]
    have h1 := hall (t.take (pixelCount im * 4)) (by rw [List.length_take]; exact Nat.min_eq_left hle)
    rw [loadImage_eq hk, if_neg (by rw [List.length_take]; omega), List.take_take, Nat.min_self,
      List.drop_of_length_le (by rw [List.length_take]; omega), List.append_nil] at h1
    rw [loadImage_eq hk inflate t, if_neg ht]
    have h2 := congrArg Prod.fst h1
    have h3 := congrArg Prod.snd h1
    dsimp only at h2 h3
    rw [h2, h3]
    rfl

/-- Two compressed indexed cels of one and of two pixels: the hypotheses of the theorems hold, the images in RGBA are these,
and the file that stores them (the second one) gives the same picture. -/
example :
    let b := Sample.header 2 1 8 ++ Sample.frame 1 [Sample.palette 0 [[0, 0, 0, 0], [100, 200, 250, 128], [90, 80, 70, 200]],
      Sample.layer 1 0 0 255 [65], Sample.layer 1 0 1 255 [66],
      Sample.zcel 0 0 0 1 1 (Sample.deflate [2]), Sample.zcel 1 0 0 2 1 (Sample.deflate [1, 2])]
    let c := Sample.header 2 1 32 ++ Sample.frame 1 [Sample.layer 1 0 0 255 [65], Sample.layer 1 0 1 255 [66],
      Sample.cel 0 0 0 1 1 [90, 80, 70, 200], Sample.cel 1 0 0 2 1 [100, 200, 250, 128, 90, 80, 70, 200]]
    (match AsepriteFile.load ⟨true, 10⟩ b, AsepriteFile.load ⟨true, 10⟩ c with
      | .ok f, .ok g => decide ((∀ k, k < f.images.length → ∀ im, im ∈ f.images[k]? → (f.loadImage Sample.inflate k
          (List.replicate (im.width.toNat * im.height.toNat * 4) 0)).1 = .ok ()) ∧
          Small (inPlainRgba Sample.inflate f) ∧ g.images = (inPlainRgba Sample.inflate f).images ∧
          g.images.map (·.data) = [[90, 80, 70, 200], [100, 200, 250, 128, 90, 80, 70, 200]] ∧
          f.renderFrame ⟨true, 10⟩ Sample.inflate 0 .all (List.replicate 8 0) = (.ok (), [65, 81, 83, 228, 90, 80, 70, 200]) ∧
          g.renderFrame ⟨true, 10⟩ Sample.inflate 0 .all (List.replicate 8 0) = (.ok (), [65, 81, 83, 228, 90, 80, 70, 200]))
      | _, _ => false) = true := by
  decide +kernel

end Ase
