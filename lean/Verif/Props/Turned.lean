import Verif.Spec.Turned
import Verif.Spec.Joined
import Verif.Props.ColorMode
import Verif.Props.Once
import Verif.Props.Possible
import Verif.Props.Turn

/-!
# C144: every sprite can be stored flipped, turned and enlarged
-/

namespace Ase

open Spec

/-! ## Images -/

theorem rgbaBytes_length (c : Option Color) : (rgbaBytes c).length = 4 := by cases c <;> rfl

/-- Pixels written one after the other. -/
theorem pixels_written (color : Nat → Option Color) (n : Nat) :
    ((List.range n).flatMap fun p => rgbaBytes (color p)).length = n * 4 ∧
    ∀ p c, p < n → color p = some c → pixel ((List.range n).flatMap fun p => rgbaBytes (color p)) p = some c := by
  induction n with
  | zero => exact ⟨rfl, fun p c h => by omega⟩
  | succ n ih =>
    obtain ⟨h1, h2⟩ := ih
    have e : ((List.range (n + 1)).flatMap fun p => rgbaBytes (color p)) =
        ((List.range n).flatMap fun p => rgbaBytes (color p)) ++ rgbaBytes (color n) := by
      rw [List.range_succ, List.flatMap_append]; simp
    refine ⟨by rw [e, List.length_append, h1, rgbaBytes_length]; omega, fun p c hp hc => ?_⟩
    rw [e]
    by_cases hn : p < n
    · rw [pixel_append_left (by omega)]
      exact h2 p c hn hc
    · obtain rfl : p = n := by omega
      rw [hc, pixel, show 4 * p = ((List.range p).flatMap fun p => rgbaBytes (color p)).length by omega, List.drop_left]
      rfl

/-- Every pixel of an image has a colour. -/
theorem imageColor_isSome {plat : Plat} {b : Bytes} {f : AsepriteFile} (hf : AsepriteFile.load plat b = .ok f)
    (hd : ∀ n, f.file.header.colorDepth ≠ .unknown n) (inflate : Inflater) {i : Nat} {im : Image}
    (hi : f.images[i]? = some im) {p : Nat} (hp : p < pixelCount im) : ∃ c, imageColor inflate f i p = some c := by
  obtain ⟨pal, hpal⟩ := goodPalette_of_load hf
  rw [imageColor, hi, Option.bind_some]
  have hlen : pixelCount im * bytesPerPixel f.file.header.colorDepth ≤ (imageBytes inflate f.file im).length := by
    rw [imageBytes, List.length_append, List.length_replicate]; omega
  have hle : (p + 1) * bytesPerPixel f.file.header.colorDepth ≤ pixelCount im * bytesPerPixel f.file.header.colorDepth :=
    Nat.mul_le_mul_right _ hp
  have hl : ((imageBytes inflate f.file im).take (pixelCount im * bytesPerPixel f.file.header.colorDepth)).length =
      pixelCount im * bytesPerPixel f.file.header.colorDepth := by rw [List.length_take, Nat.min_eq_left hlen]
  rw [← List.take_append_drop (pixelCount im * bytesPerPixel f.file.header.colorDepth) (imageBytes inflate f.file im),
    storedPixel_append (by rw [hl]; exact hle)]
  exact Option.isSome_iff_exists.1 (storedPixel_isSome hpal hd hl p hp)

theorem sourceNumber_lt {k : Change} (hk : k ≠ .enlarge 0) {w h p : Nat} (hp : p < (k.size (w, h)).1 * (k.size (w, h)).2) :
    sourceNumber k w h p < w * h := by
  have hw : 0 < (k.size (w, h)).1 := Nat.pos_of_ne_zero fun h0 => by rw [h0, Nat.zero_mul] at hp; omega
  obtain ⟨h1, h2⟩ := source_lt hk (Nat.mod_lt p hw) ((Nat.div_lt_iff_lt_mul hw).2 (Nat.mul_comm _ _ ▸ hp))
  rw [sourceNumber]
  have h3 : (k.source (w, h) (p % (k.size (w, h)).1, p / (k.size (w, h)).1)).2 * w + w ≤ h * w := by
    rw [← Nat.succ_mul]; exact Nat.mul_le_mul_right _ h2
  have : w * h = h * w := Nat.mul_comm _ _
  omega

section

variable {plat : Plat} {b : Bytes} {f g : AsepriteFile} {inflate : Inflater} {k : Change}

theorem changed_toNat (hm : CanChange k f) : (UInt16.ofNat (k.size (canvasSize f)).1).toNat = (k.size (canvasSize f)).1 ∧
    (UInt16.ofNat (k.size (canvasSize f)).2).toNat = (k.size (canvasSize f)).2 :=
  ⟨UInt16.toNat_ofNat_of_lt' hm.1.1, UInt16.toNat_ofNat_of_lt' hm.1.2⟩

theorem changedSprite_possible (hf : AsepriteFile.load plat b = .ok f) (k : Change) (inflate : Inflater) :
    Possible (changedSprite k inflate f) := by
  have hp := C129_possible plat b f hf
  obtain ⟨home, nf⟩ := hp.numbered
  have hframe : ∀ fr ∈ (changedSprite k inflate f).frames, ∃ fr' ∈ f.frames,
      fr = { fr' with cels := fr'.cels.map (changedCel k f) } := by
    intro fr hfr
    obtain ⟨fr', h1, h2⟩ := List.mem_map.1 hfr
    exact ⟨fr', h1, h2.symm⟩
  refine ⟨nofun, nofun, fun _ => rfl, hp.layers, hp.tags, ?_, ?_, ?_, ?_, ?_, home, ?_, nf.ascending, ?_, ?_⟩
  · have : f.frames ≠ [] := hp.frames
    simpa [changedSprite] using this
  · intro fr hfr
    obtain ⟨fr', h1, rfl⟩ := hframe fr hfr
    exact hp.origin fr' h1
  · intro fr hfr
    obtain ⟨fr', h1, rfl⟩ := hframe fr hfr
    simpa only [List.map_map, Function.comp_def, changedCel] using hp.sorted fr' h1
  · intro fr hfr c hc
    obtain ⟨fr', h1, rfl⟩ := hframe fr hfr
    obtain ⟨c', h2, rfl⟩ := List.mem_map.1 hc
    exact hp.layerIndex fr' h1 c' h2
  · intro fr hfr c hc
    obtain ⟨fr', h1, rfl⟩ := hframe fr hfr
    obtain ⟨c', h2, rfl⟩ := List.mem_map.1 hc
    obtain ⟨im, h3, h4⟩ := hp.size fr' h1 c' h2
    refine ⟨changedImage k inflate f c'.imageIndex im, ?_, ?_⟩
    · change (f.images.mapIdx _)[c'.imageIndex]? = _
      rw [List.getElem?_mapIdx, show f.images[c'.imageIndex]? = some im from h3]
      rfl
    · rw [changedCel, changedImage, celSize, h4]
  · rw [nf.count]
    exact List.length_mapIdx.symm
  · intro n i l hn
    obtain ⟨fr, c, h1, h2, h3, h4⟩ := nf.stored n i l hn
    refine ⟨{ fr with cels := fr.cels.map (changedCel k f) }, changedCel k f c, ?_, List.mem_map_of_mem h2, h3, h4⟩
    change (f.frames.map _)[i]? = _
    rw [List.getElem?_map, show f.frames[i]? = some fr from h1]
    rfl
  · intro i fr c h1 h2
    change (f.frames.map _)[i]? = _ at h1
    rw [List.getElem?_map] at h1
    obtain ⟨fr', h3, rfl⟩ := Option.map_eq_some_iff.1 h1
    obtain ⟨c', h4, rfl⟩ := List.mem_map.1 h2
    exact nf.shown i fr' c' h3 h4

/-- The cels of the changed sprite are changed cels. -/
theorem changedCel_is (hf : AsepriteFile.load plat b = .ok f) (hd : ∀ n, f.file.header.colorDepth ≠ .unknown n)
    (hk : k ≠ .enlarge 0) (hm : CanChange k f) (he : spriteOf g = changedSprite k inflate f) {fr : LFrame}
    (hfr : fr ∈ f.frames) {c : FrameCel} (hc : c ∈ fr.cels) : ChangedCel k inflate f g c (changedCel k f c) := by
  obtain ⟨⟨m1, m2⟩, ⟨m3, m4⟩, m5, m6⟩ := hm.2 fr hfr c hc
  obtain ⟨im, h1, h2⟩ := (C129_possible plat b f hf).size fr hfr c hc
  have e1 : g.file.header.colorDepth = .rgba := congrArg Sprite.depth he
  have e2 : g.images = f.images.mapIdx (changedImage k inflate f) := congrArg Sprite.images he
  have hi : g.images[c.imageIndex]? = some (changedImage k inflate f c.imageIndex im) := by
    rw [e2, List.getElem?_mapIdx, show f.images[c.imageIndex]? = some im from h1]; rfl
  have hcs : celSize c = (im.width.toNat, im.height.toNat) := by rw [celSize, h2]
  have hsz : celSize (changedCel k f c) = k.size (celSize c) := by
    rw [celSize, changedCel]
    dsimp only
    rw [UInt16.toNat_ofNat_of_lt' m1, UInt16.toNat_ofNat_of_lt' m2]
  refine ⟨rfl, hsz, ?_, fun x y hx hy => ?_⟩
  · rw [changedCel]
    dsimp only
    rw [Int16.toInt_ofInt_of_le m3 m4, Int16.toInt_ofInt_of_le m5 m6]
  · rw [hsz] at hx hy ⊢
    rw [hcs] at hx hy ⊢
    have hlt : y * (k.size (im.width.toNat, im.height.toNat)).1 + x <
        (k.size (im.width.toNat, im.height.toNat)).1 * (k.size (im.width.toNat, im.height.toNat)).2 := by
      have := Nat.mul_le_mul_right (k.size (im.width.toNat, im.height.toNat)).1 (Nat.succ_le_of_lt hy)
      rw [Nat.succ_mul] at this
      have h3 := Nat.mul_comm (k.size (im.width.toNat, im.height.toNat)).1 (k.size (im.width.toNat, im.height.toNat)).2
      omega
    have hsrc : sourceNumber k im.width.toNat im.height.toNat (y * (k.size (im.width.toNat, im.height.toNat)).1 + x) =
        (k.source (im.width.toNat, im.height.toNat) (x, y)).2 * im.width.toNat +
          (k.source (im.width.toNat, im.height.toNat) (x, y)).1 := by
      rw [sourceNumber, Nat.add_comm (y * _) x, Nat.add_mul_mod_self_right, Nat.mod_eq_of_lt hx,
        Nat.add_mul_div_right _ _ (by omega), Nat.div_eq_of_lt hx, Nat.zero_add]
    obtain ⟨color, hcolor⟩ := imageColor_isSome hf hd inflate (show f.images[c.imageIndex]? = some im from h1)
      (p := sourceNumber k im.width.toNat im.height.toNat (y * (k.size (im.width.toNat, im.height.toNat)).1 + x))
      (sourceNumber_lt hk hlt)
    rw [← hsrc, hcolor]
    have hw := pixels_written (fun p => imageColor inflate f c.imageIndex (sourceNumber k im.width.toNat im.height.toNat p))
      ((k.size (im.width.toNat, im.height.toNat)).1 * (k.size (im.width.toNat, im.height.toNat)).2)
    rw [show (changedCel k f c).imageIndex = c.imageIndex from rfl, imageColor, hi, Option.bind_some, e1, imageBytes]
    change pixel (_ ++ _) _ = _
    rw [pixel_append_left]
    · exact hw.2 _ _ hlt hcolor
    · change _ ≤ List.length (List.flatMap _ _)
      rw [hw.1]
      omega

/-- The images of the changed sprite can be loaded. -/
theorem changedImage_loads (hf : AsepriteFile.load plat b = .ok f) (hm : CanChange k f)
    (he : spriteOf g = changedSprite k inflate f) (inflate' : Inflater) {fr : LFrame} (hfr : fr ∈ f.frames) {c : FrameCel}
    (hc : c ∈ fr.cels) : (g.loadImage inflate' (changedCel k f c).imageIndex
      (List.replicate ((changedCel k f c).size.1.toNat * (changedCel k f c).size.2.toNat * 4) 0)).1 = .ok () := by
  obtain ⟨⟨m1, m2⟩, -⟩ := hm.2 fr hfr c hc
  obtain ⟨im, h1, h2⟩ := (C129_possible plat b f hf).size fr hfr c hc
  have e1 : g.file.header.colorDepth = .rgba := congrArg Sprite.depth he
  have e2 : g.images = f.images.mapIdx (changedImage k inflate f) := congrArg Sprite.images he
  have hi : g.images[c.imageIndex]? = some (changedImage k inflate f c.imageIndex im) := by
    rw [e2, List.getElem?_mapIdx, show f.images[c.imageIndex]? = some im from h1]; rfl
  have hcs : celSize c = (im.width.toNat, im.height.toNat) := by rw [celSize, h2]
  have hpc : pixelCount (changedImage k inflate f c.imageIndex im) =
      (k.size (im.width.toNat, im.height.toNat)).1 * (k.size (im.width.toNat, im.height.toNat)).2 := by
    rw [hcs] at m1 m2
    rw [pixelCount, changedImage]
    dsimp only
    rw [UInt16.toNat_ofNat_of_lt' m1, UInt16.toNat_ofNat_of_lt' m2]
  have hn : (changedCel k f c).size.1.toNat * (changedCel k f c).size.2.toNat * 4 =
      pixelCount (changedImage k inflate f c.imageIndex im) * 4 := by
    rw [hpc, changedCel]
    dsimp only
    rw [UInt16.toNat_ofNat_of_lt' m1, UInt16.toNat_ofNat_of_lt' m2, hcs]
  rw [hn, show (changedCel k f c).imageIndex = c.imageIndex from rfl, loadImage_eq hi,
    if_neg (by rw [List.length_replicate]; omega)]
  rw [AsepriteFile.decodeImage, e1]
  change (Buf.copyFromSlice _ _).1 = _
  rw [Buf.copyFromSlice, if_pos]
  rw [List.length_take, List.length_replicate, Nat.min_self, hpc]
  exact (pixels_written _ _).1.symm

end

/-- Where no image is compressed the decompressor does not matter. -/
theorem raw_loadImage {g : AsepriteFile} (h : ∀ im ∈ g.images, im.compressed = false) (inflate inflate' : Inflater) (i : Nat) :
    g.loadImage inflate' i = g.loadImage inflate i := by
  unfold AsepriteFile.loadImage
  cases hi : g.images[i]? with
  | none => rfl
  | some im =>
    have : g.decodeImage inflate' im = g.decodeImage inflate im := by
      unfold AsepriteFile.decodeImage
      rw [h im (List.mem_of_getElem? hi)]
      cases g.file.header.colorDepth <;> rfl
    simp only [this]

theorem raw_renderFrame {g : AsepriteFile} (h : ∀ im ∈ g.images, im.compressed = false) (plat : Plat)
    (inflate inflate' : Inflater) (i : Nat) (sel : LayerSelection) :
    g.renderFrame plat inflate' i sel = g.renderFrame plat inflate i sel := by
  unfold AsepriteFile.renderFrame AsepriteFile.renderCel
  simp only [raw_loadImage h inflate inflate']

/-- **C144.** Every sprite in a known colour mode can be stored flipped from left to right or from top to bottom, with rows
and columns exchanged, or enlarged, if the sizes and positions fit: there is a file that is loaded as the changed sprite,
and its pictures are the changed pictures of the first one, for every selection, if what was on the canvases before was.  If
the first one can be rendered so can the second one, unless HSL modes in debug builds are involved.  The second one needs no
decompressor. -/
theorem C144_turned (plat : Plat) (b : Bytes) (f : AsepriteFile) (hf : AsepriteFile.load plat b = .ok f)
    (hd : ∀ n, f.file.header.colorDepth ≠ .unknown n) (inflate : Inflater) (k : Change) (hk : k ≠ .enlarge 0)
    (hm : CanChange k f) (hs : Small (changedSprite k inflate f)) :
    ∃ c g, AsepriteFile.load plat c = .ok g ∧ spriteOf g = changedSprite k inflate f ∧
      canvasSize g = k.size (canvasSize f) ∧
      ∀ (inflate' : Inflater) (i : Nat) (sel : LayerSelection) (t u : Bytes),
        (∀ t' u', f.renderFrame plat inflate i sel t = (.ok (), t') → g.renderFrame plat inflate' i sel u = (.ok (), u') →
          ChangedBuffer k f g t u → ChangedBuffer k f g t' u') ∧
        (NoAssertions plat f sel → RendersOk plat inflate f i sel t → HoldsCanvas g u →
          RendersOk plat inflate' g i sel u) := by
  obtain ⟨c, g, hc, he⟩ := C129_every plat _ (changedSprite_possible hf k inflate) hs
  have el : g.layers = f.layers := congrArg Sprite.layers he
  have ef : g.frames = f.frames.map fun fr => { fr with cels := fr.cels.map (changedCel k f) } := congrArg Sprite.frames he
  have es : g.size = _ := congrArg Sprite.size he
  have hsize : canvasSize g = k.size (canvasSize f) := by
    rw [canvasSize, es]
    exact Prod.ext (changed_toNat hm).1 (changed_toNat hm).2
  have hraw : ∀ im ∈ g.images, im.compressed = false := by
    intro im hm
    rw [show g.images = f.images.mapIdx (changedImage k inflate f) from congrArg Sprite.images he] at hm
    obtain ⟨j, hj, rfl⟩ := List.mem_mapIdx.1 hm
    rfl
  have hframe : ∀ (i : Nat) lf, f.frames[i]? = some lf →
      g.frames[i]? = some { lf with cels := lf.cels.map (changedCel k f) } := by
    intro i lf hi
    rw [ef, List.getElem?_map, hi]; rfl
  refine ⟨c, g, hc, he, hsize, fun inflate' i sel t u => ⟨fun t' u' ht hu hb => ?_, fun hn hok hu => ?_⟩⟩
  · rw [raw_renderFrame hraw plat inflate] at hu
    cases hi : f.frames[i]? with
    | none =>
      have h0 := congrArg Prod.fst ht
      rw [renderFrame_eq, hi] at h0
      split at h0 <;> cases h0
    | some lf =>
      refine C89_changed plat b c f g hf hc k hk hsize el.symm inflate i i lf _ hi (hframe i lf hi) (by simp) ?_ sel t t' u u'
        ht hu hb
      intro n x y hx hy
      change (lf.cels.map _)[n]? = _ at hy
      rw [List.getElem?_map, hx] at hy
      cases hy
      exact changedCel_is hf hd hk hm he (List.mem_of_getElem? hi) (List.mem_of_getElem? hx)
  · have takes : ∀ l, TakesLayer g sel l ↔ TakesLayer f sel l := fun l => by rw [TakesLayer, TakesLayer, el]
    rw [RendersOk, raw_renderFrame hraw plat inflate]
    change RendersOk plat inflate g i sel u
    cases hi : f.frames[i]? with
    | none =>
      rw [RendersOk, renderFrame_eq, hi] at hok
      split at hok <;> cases hok
    | some lf =>
      have hn' : NoAssertions plat g sel := by
        rcases hn with h | h
        · exact .inl h
        · exact .inr fun l layer h1 h2 => h l layer (el ▸ h1) ((takes l).1 h2)
      have h1 := (C134_images plat b f hf inflate i lf hi sel hn t (holds_of_renders hf hok)).1 hok
      refine (C134_images plat c g hc inflate i _ (hframe i lf hi) sel hn' u hu).2 fun x hx hl => ?_
      obtain ⟨x', h2, rfl⟩ := List.mem_map.1 hx
      exact ⟨changedImage_loads hf hm he inflate (List.mem_of_getElem? hi) h2,
        fun layer h3 => (h1 x' h2 ((takes _).1 hl)).2 layer (el ▸ h3)⟩

/-- The sprite of `C89_changed` meets the hypotheses, and the files there are such files. -/
example (k : Change) (hk : k = .flipX ∨ k = .flipY ∨ k = .transpose ∨ k = .enlarge 2) :
    (match AsepriteFile.load ⟨true, 10⟩ Sample.turnable, AsepriteFile.load ⟨true, 10⟩ (Sample.turned k) with
      | .ok f, .ok g =>
        let s := changedSprite k Sample.inflate f
        decide (f.file.header.colorDepth = .rgba ∧ CanChange k f ∧ Small s ∧ g.size = s.size ∧ g.layers = s.layers ∧
          g.frames = s.frames ∧ g.images = s.images ∧ g.frames.map (·.cels.length) = [2])
      | _, _ => false) = true := by
  rcases hk with rfl | rfl | rfl | rfl <;> decide +kernel

end Ase
