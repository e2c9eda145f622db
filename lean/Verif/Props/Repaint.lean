import Verif.Spec.Repaint
import Verif.Spec.Joined
import Verif.Props.Possible
import Verif.Props.Image
import Verif.Props.Once

/-!
# C152: any pixels can be stored
-/

namespace Ase

open Spec

theorem withPixels_possible {plat : Plat} {b : Bytes} {f : AsepriteFile} (hf : AsepriteFile.load plat b = .ok f)
    (pixels : Nat → Bytes) : Possible (withPixels f pixels) := by
  have hp := C129_possible plat b f hf
  obtain ⟨home, nf⟩ := hp.numbered
  refine ⟨nofun, nofun, fun _ => rfl, hp.layers, hp.tags, hp.frames, hp.origin, hp.sorted, hp.layerIndex, ?_, home, ?_,
    nf.ascending, nf.stored, nf.shown⟩
  · intro fr hfr c hc
    obtain ⟨im, h1, h2⟩ := hp.size fr hfr c hc
    refine ⟨{ im with data := pixels c.imageIndex, compressed := false }, ?_, h2⟩
    change (f.images.mapIdx _)[c.imageIndex]? = _
    rw [List.getElem?_mapIdx, show f.images[c.imageIndex]? = some im from h1]
    rfl
  · rw [nf.count]
    exact List.length_mapIdx.symm

/-- **C152.** Any pixels can be stored: for every sprite and any bytes for its images, four for each pixel, there is, if no
frame needs 4 GiB, a file that is loaded as the same sprite (size, layers, frames, tags) in RGBA colours with these images.
`load_image` gives exactly these bytes, into every buffer that is large enough, with the rest of the buffer untouched and
whatever the decompressor does.  Each frame can be rendered with each selection of layers with known modes, onto every buffer
that holds the canvas (without HSL modes in a debug build), whether or not the first sprite could be. -/
theorem C152_repainted (plat : Plat) (b : Bytes) (f : AsepriteFile) (hf : AsepriteFile.load plat b = .ok f)
    (pixels : Nat → Bytes) (hl : ∀ (k : Nat) im, f.images[k]? = some im → (pixels k).length = im.width.toNat * im.height.toNat * 4)
    (hs : Small (withPixels f pixels)) :
    ∃ c g, AsepriteFile.load plat c = .ok g ∧ spriteOf g = withPixels f pixels ∧
      (∀ (inflate : Inflater) (k : Nat) im (t : Bytes), f.images[k]? = some im → im.width.toNat * im.height.toNat * 4 ≤ t.length →
        g.loadImage inflate k t = (.ok (), pixels k ++ t.drop (im.width.toNat * im.height.toNat * 4))) ∧
      ∀ (inflate : Inflater) (i : Nat) (sel : LayerSelection) (t : Bytes), i < f.frames.length →
        (∀ l layer, f.layers[l]? = some layer → TakesLayer f sel l → isKnown layer.blendMode = true) →
        NoAssertions plat f sel → HoldsCanvas f t → RendersOk plat inflate g i sel t := by
  obtain ⟨c, g, hc, he⟩ := C129_every plat _ (withPixels_possible hf pixels) hs
  have e1 : g.file.header.colorDepth = .rgba := congrArg Sprite.depth he
  have e2 : g.images = f.images.mapIdx fun k im => { im with data := pixels k, compressed := false } := congrArg Sprite.images he
  have e3 : g.frames = f.frames := congrArg Sprite.frames he
  have e4 : g.layers = f.layers := congrArg Sprite.layers he
  have e5 : g.size = f.size := congrArg Sprite.size he
  have hload : ∀ (inflate : Inflater) (k : Nat) im (t : Bytes), f.images[k]? = some im →
      im.width.toNat * im.height.toNat * 4 ≤ t.length →
      g.loadImage inflate k t = (.ok (), pixels k ++ t.drop (im.width.toNat * im.height.toNat * 4)) := by
    intro inflate k im t hk ht
    have hi : g.images[k]? = some { im with data := pixels k, compressed := false } := by
      rw [e2, List.getElem?_mapIdx, hk]; rfl
    rw [loadImage_eq hi]
    change (if t.length < im.width.toNat * im.height.toNat * 4 then _ else _) = _
    rw [if_neg (by omega)]
    have hd : g.decodeImage inflate { im with data := pixels k, compressed := false }
        (t.take (im.width.toNat * im.height.toNat * 4)) = (.ok (), pixels k) := by
      rw [AsepriteFile.decodeImage, e1]
      change Buf.copyFromSlice _ _ = _
      rw [Buf.copyFromSlice, if_pos]
      rw [List.length_take, Nat.min_eq_left ht]
      exact (hl k im hk).symm
    change ((g.decodeImage inflate _ (t.take (im.width.toNat * im.height.toNat * 4))).1,
      (g.decodeImage inflate _ (t.take (im.width.toNat * im.height.toNat * 4))).2 ++ _) = _
    rw [hd]
    rfl
  refine ⟨c, g, hc, he, hload, fun inflate i sel t hi hm hn ht => ?_⟩
  have htk : ∀ l, TakesLayer g sel l → TakesLayer f sel l := by
    intro l h
    rw [TakesLayer, e4] at h
    exact h
  refine (C134_images plat c g hc inflate i f.frames[i] (by rw [e3, List.getElem?_eq_getElem hi]) sel ?_ t ?_).2 ?_
  · rcases hn with h | h
    · exact .inl h
    · refine .inr fun l layer h1 h2 => ?_
      rw [e4] at h1
      exact h l layer h1 (htk l h2)
  · rw [HoldsCanvas, e5]
    exact ht
  · intro d hd htd
    obtain ⟨im, h1, h2⟩ := (C129_possible plat b f hf).size f.frames[i] (List.getElem_mem hi) d hd
    refine ⟨?_, fun layer h3 => ?_⟩
    · rw [hload inflate d.imageIndex im _ h1 (by rw [List.length_replicate, h2])]
    · rw [e4] at h3
      exact hm _ layer h3 (htk _ htd)

/-- A compressed image that cannot be decoded is replaced by two colours: the hypotheses hold, and the second file stores the
result. -/
example :
    let pixels : Nat → Bytes := fun _ => [1, 2, 3, 255, 5, 6, 7, 128]
    let b := Sample.header 2 1 8 ++ Sample.frame 1 [Sample.palette 0 [[0, 0, 0, 0], [100, 200, 250, 128]],
      Sample.layer 1 0 0 255 [65], Sample.zcel 0 0 0 2 1 [7, 7]]
    let b' := Sample.header 2 1 32 ++ Sample.frame 1 [Sample.layer 1 0 0 255 [65],
      Sample.cel 0 0 0 2 1 [1, 2, 3, 255, 5, 6, 7, 128]]
    (match AsepriteFile.load ⟨true, 10⟩ b, AsepriteFile.load ⟨true, 10⟩ b' with
      | .ok f, .ok g => decide (Small (withPixels f pixels)) &&
          decide (f.images.map (fun im => im.width.toNat * im.height.toNat * 4) = [(pixels 0).length]) &&
          decide ((withPixels f pixels).layers = g.layers ∧ (withPixels f pixels).images = g.images ∧
            (withPixels f pixels).frames = g.frames)
      | _, _ => false) = true ∧
    (Sample.render ⟨true, 10⟩ b 0 .all (List.replicate 8 0)).map (·.1) = some (.panic .unwrapOnErr) ∧
    Sample.render ⟨true, 10⟩ b' 0 .all (List.replicate 8 0) = some (.ok (), [1, 2, 3, 255, 5, 6, 7, 128]) := by
  decide +kernel

end Ase
