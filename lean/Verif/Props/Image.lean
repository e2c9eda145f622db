import Verif.Lemmas.Image

/-!
# C22, C42, C43, C44: decoding images

`inflate` stands for the zlib decoder; the theorems hold for every function that does not write past its buffer
(`Fits`).
-/

namespace Ase

open Spec

/-- Sprites for the examples: one image of 2x1 pixels with the given data, colour depth, and a palette. -/
def Sample.image (depth : UInt16) (compressed : Bool) (data : Bytes) : Bytes :=
  Sample.header 2 1 depth 0 ++ Sample.frame 100
    [Sample.layer 1 0 0 255 [65], Sample.palette 0 [[1, 2, 3, 4], [5, 6, 7, 8], [9, 10, 11, 12]],
     if compressed then Sample.zcel 0 0 0 2 1 data else Sample.cel 0 0 0 2 1 data]

/-- The outcome of loading a sprite and decoding its first image into `t`. -/
def Sample.decode (bytes t : Bytes) : Option (Outcome LoadImageError Unit × Bytes) :=
  match AsepriteFile.load ⟨true, 10⟩ bytes with
  | .ok f => some (f.loadImage Sample.inflate 0 t)
  | _ => none

theorem decodeImage_length {f : AsepriteFile} {pal : Palette} (hpal : GoodPalette f.file pal) (inflate : Inflater)
    (im : Image) (t : Bytes) (ht : t.length = pixelCount im * 4) :
    (f.decodeImage inflate im t).2.length = t.length := by
  rcases known_or_unknown f.file.header.colorDepth with ⟨n, hu⟩ | hn
  · rw [decodeImage_unknown hu]
  · rw [decodeImage_known hpal rfl hn inflate im t ht]
    split
    · split
      · rw [ht]
        apply toRgba_length hn
        rw [overwrite_length]
        split
        · next he => rw [he]; exact ht
        · simp
      · dsimp only
        split
        · exact overwrite_length _ _
        · rfl
    · split
      · next hl => rw [ht]; exact toRgba_length hn pal hl
      · split <;> rfl

/-! ## C43 -/

/-- **C43 (partial).** For every image of a loaded sprite and every buffer:
1. `load_image` returns `TargetBufferTooSmall` exactly if the buffer is shorter than `width * height * 4`, and then
   leaves it alone;
2. whatever happens, the length of the buffer and its bytes from `width * height * 4` on are unchanged;
3. if the buffer is large enough: an unknown colour depth gives `UnsupportedColorDepth`; compressed data gives
   `DecompressError` if zlib does not reach the end of the stream, else success; uncompressed data of the right length
   gives success, of the wrong length `InvalidImageData` for grayscale and indexed images;
4. it panics exactly if the image is uncompressed RGBA and its data has the wrong length.

*Missing:* in case 4 it should return `InvalidImageData`; see `C43_raw_rgba_panics`. -/
theorem C43_contract_partial (plat : Plat) (b : Bytes) (f : AsepriteFile) (h : AsepriteFile.load plat b = .ok f)
    (inflate : Inflater) (i : Nat) (im : Image) (him : f.images[i]? = some im) (t : Bytes) :
    let size := im.width.toNat * im.height.toNat * 4
    let stored := im.width.toNat * im.height.toNat * bytesPerPixel f.file.header.colorDepth
    let result := (f.loadImage inflate i t).1
    let after := (f.loadImage inflate i t).2
    (result = .err .targetBufferTooSmall ↔ t.length < size) ∧
    (t.length < size → after = t) ∧
    after.length = t.length ∧ after.drop size = t.drop size ∧
    (size ≤ t.length →
      (∀ n, f.file.header.colorDepth = .unknown n → result = .err .unsupportedColorDepth) ∧
      ((∀ n, f.file.header.colorDepth ≠ .unknown n) →
        (im.compressed = true → (inflate im.data stored).1 = .streamEnd → result = .ok ()) ∧
        (im.compressed = true → (inflate im.data stored).1 ≠ .streamEnd → result = .err .decompressError) ∧
        (im.compressed = false → im.data.length = stored → result = .ok ()) ∧
        (im.compressed = false → im.data.length ≠ stored → f.file.header.colorDepth ≠ .rgba →
          result = .err .invalidImageData))) ∧
    ((∃ k, result = .panic k) ↔ size ≤ t.length ∧ f.file.header.colorDepth = .rgba ∧ im.compressed = false ∧
      im.data.length ≠ stored) := by
  obtain ⟨h1, h2⟩ := load_ok.1 h
  obtain ⟨pal, hpal⟩ := goodPalette_of_parse h1
  intro size stored result after
  have hsize : size = pixelCount im * 4 := rfl
  have hstored : stored = pixelCount im * bytesPerPixel f.file.header.colorDepth := rfl
  have hl : f.loadImage inflate i t = (result, after) := rfl
  rw [loadImage_eq him, ← hsize] at hl
  by_cases hlt : t.length < size
  · rw [if_pos hlt] at hl
    simp only [Prod.mk.injEq] at hl
    obtain ⟨hr, ha⟩ := hl
    rw [← hr, ← ha]
    refine ⟨by simp [hlt], fun _ => rfl, rfl, rfl, fun h => absurd h (by omega), ?_⟩
    simp only [reduceCtorEq, exists_false, false_iff, not_and]
    intro hle
    omega
  · rw [if_neg hlt] at hl
    have ht : (t.take size).length = pixelCount im * 4 := by rw [List.length_take]; omega
    have hlen := decodeImage_length hpal inflate im (t.take size) ht
    simp only [Prod.mk.injEq] at hl
    obtain ⟨hr, ha⟩ := hl
    have hgen : ∀ x : Bytes, x.length = (t.take size).length →
        (x ++ t.drop size).length = t.length ∧ (x ++ t.drop size).drop size = t.drop size := by
      intro x hx
      rw [List.length_take] at hx
      constructor
      · rw [List.length_append, List.length_drop]; omega
      · rw [List.drop_append, List.drop_eq_nil_of_le (by omega), show size - x.length = 0 by omega]
        rfl
    have hg := hgen _ hlen
    rw [ha] at hg
    rcases known_or_unknown f.file.header.colorDepth with ⟨n, hu⟩ | hn
    · rw [decodeImage_unknown hu] at hr
      rw [← hr]
      refine ⟨by simp [hlt], fun h => absurd h hlt, hg.1, hg.2, fun _ => ⟨fun _ _ => rfl, fun h => absurd hu (h n)⟩, ?_⟩
      simp [hu]
    rw [decodeImage_known hpal rfl hn inflate im _ ht, ← hstored] at hr
    refine ⟨?_, fun h => absurd h hlt, hg.1, hg.2, fun _ => ⟨fun n hu => absurd hu (hn n), fun _ => ?_⟩, ?_⟩
    · simp only [hlt, iff_false]
      rw [← hr]
      repeat' split
      all_goals simp
    · rw [← hr]
      refine ⟨?_, ?_, ?_, ?_⟩
      · intro hc hs; rw [if_pos hc, if_pos hs]
      · intro hc hs; rw [if_pos hc, if_neg hs]
      · intro hc hs; rw [if_neg (by simp [hc]), if_pos hs]
      · intro hc hs hne; rw [if_neg (by simp [hc]), if_neg hs, if_neg hne]
    · rw [← hr]
      by_cases hc : im.compressed = true
      · rw [if_pos hc]
        split <;> simp [hc]
      · rw [if_neg hc]
        split
        · next hs => simp [hs]
        · next hs =>
          split
          · next he => simp [he, hs, hc]; omega
          · next he => simp [he]

/-- All cases occur: success, a too small buffer, bad zlib data, wrong length, unknown depth. -/
example :
    Sample.decode (Sample.image 32 false [1, 2, 3, 4, 5, 6, 7, 8]) (List.replicate 9 0)
      = some (.ok (), [1, 2, 3, 4, 5, 6, 7, 8, 0]) ∧
    Sample.decode (Sample.image 32 false [1, 2, 3, 4, 5, 6, 7, 8]) [1, 2, 3] = some (.err .targetBufferTooSmall, [1, 2, 3]) ∧
    Sample.decode (Sample.image 16 true [1, 2, 3]) (List.replicate 8 0) = some (.err .decompressError, List.replicate 8 0) ∧
    Sample.decode (Sample.image 16 false [1, 2, 3]) (List.replicate 8 0) = some (.err .invalidImageData, List.replicate 8 0) ∧
    Sample.decode (Sample.image 7 false []) (List.replicate 8 0) = some (.err .unsupportedColorDepth, List.replicate 8 0) := by
  decide +kernel

/-- **C43** is false of the code as stated: uncompressed RGBA data of the wrong length makes `load_image` panic. -/
theorem C43_raw_rgba_panics : ∃ b f, AsepriteFile.load ⟨true, 10⟩ b = .ok f ∧ f.images.length = 1 ∧
    ∀ inflate, (f.loadImage inflate 0 (List.replicate 8 0)).1 = .panic .lengthMismatch := by
  have hx : (match AsepriteFile.load ⟨true, 10⟩ (Sample.image 32 false [1, 2, 3]) with
      | .ok f => f.images == [⟨2, 1, [1, 2, 3], false⟩] && f.file.header.colorDepth == .rgba
      | _ => false) = true := by decide +kernel
  refine ⟨Sample.image 32 false [1, 2, 3], ?_⟩
  generalize Sample.image 32 false [1, 2, 3] = b at hx
  split at hx
  · next f hf =>
    simp only [Bool.and_eq_true, beq_iff_eq] at hx
    refine ⟨f, hf, by rw [hx.1]; rfl, fun inflate => ?_⟩
    have hi : f.images[0]? = some ⟨2, 1, [1, 2, 3], false⟩ := by rw [hx.1]; rfl
    rw [loadImage_eq hi]
    obtain ⟨pal, hpal⟩ := goodPalette_of_parse (load_ok.1 hf).1
    rw [decodeImage_known hpal hx.2 (by simp)]
    · rfl
    · rfl
  · cases hx

/-! ## C22 -/

/-- **C22** (loader). Decoding an image of a loaded sprite never fails for lack of a palette. -/
theorem C22_never_missing_palette (plat : Plat) (b : Bytes) (f : AsepriteFile) (h : AsepriteFile.load plat b = .ok f)
    (inflate : Inflater) (i : Nat) (t : Bytes) : (f.loadImage inflate i t).1 ≠ .err .missingPalette := by
  obtain ⟨h1, h2⟩ := load_ok.1 h
  obtain ⟨pal, hpal⟩ := goodPalette_of_parse h1
  cases him : f.images[i]? with
  | none => rw [loadImage_none him]; simp
  | some im =>
    rw [loadImage_eq him]
    split
    · simp
    · next hlt =>
      dsimp only
      rcases known_or_unknown f.file.header.colorDepth with ⟨n, hu⟩ | hn
      · rw [decodeImage_unknown hu]
        simp
      · rw [decodeImage_known hpal rfl hn inflate im _ (by rw [List.length_take]; omega)]
        repeat' split
        all_goals simp

/-! ## C42 -/

theorem loadImage_ok {f : AsepriteFile} {pal : Palette} (hpal : GoodPalette f.file pal) {inflate : Inflater}
    (hfit : Fits inflate) {i : Nat} {im : Image} (him : f.images[i]? = some im) {t t' : Bytes}
    (h : f.loadImage inflate i t = (.ok (), t')) :
    (∀ n, f.file.header.colorDepth ≠ .unknown n) ∧ pixelCount im * 4 ≤ t.length ∧
    ∃ raw, Stored inflate im (pixelCount im * bytesPerPixel f.file.header.colorDepth) raw ∧
      (im.compressed = false → raw.length = pixelCount im * bytesPerPixel f.file.header.colorDepth) ∧
      raw.length ≤ pixelCount im * bytesPerPixel f.file.header.colorDepth ∧
      t' = toRgba f.file.header.colorDepth pal (raw ++
        (if f.file.header.colorDepth = .rgba then t.take (pixelCount im * 4)
          else List.replicate (pixelCount im * bytesPerPixel f.file.header.colorDepth) 0).drop raw.length)
        ++ t.drop (pixelCount im * 4) := by
  rw [loadImage_eq him] at h
  by_cases hlt : t.length < pixelCount im * 4
  · rw [if_pos hlt] at h; cases h
  · rw [if_neg hlt] at h
    have ht : (t.take (pixelCount im * 4)).length = pixelCount im * 4 := by rw [List.length_take]; omega
    have hpad : (if f.file.header.colorDepth = .rgba then t.take (pixelCount im * 4)
        else List.replicate (pixelCount im * bytesPerPixel f.file.header.colorDepth) 0).length
        = pixelCount im * bytesPerPixel f.file.header.colorDepth := by
      split
      · next he => rw [he]; exact ht
      · simp
    rcases known_or_unknown f.file.header.colorDepth with ⟨n, hu⟩ | hn
    · rw [decodeImage_unknown hu] at h
      cases h
    · rw [decodeImage_known hpal rfl hn inflate im _ ht] at h
      refine ⟨hn, by omega, ?_⟩
      by_cases hc : im.compressed = true
      · rw [if_pos hc] at h
        split at h
        · next hs =>
          simp only [Prod.mk.injEq, true_and] at h
          have hf := hfit im.data (pixelCount im * bytesPerPixel f.file.header.colorDepth)
          refine ⟨(inflate im.data (pixelCount im * bytesPerPixel f.file.header.colorDepth)).2, ?_, ?_, hf, ?_⟩
          · rw [Stored, if_pos hc]
            exact ⟨by rw [← hs], hf⟩
          · rw [hc]; simp
          · rw [← h, overwrite, hpad, List.take_of_length_le hf]
        · cases h
      · rw [if_neg hc] at h
        split at h
        · next hs =>
          simp only [Prod.mk.injEq, true_and] at h
          refine ⟨im.data, by rw [Stored, if_neg hc], fun _ => hs, by omega, ?_⟩
          have hdrop := List.drop_eq_nil_of_le (Nat.le_of_eq (hpad.trans hs.symm))
          rw [← h, hdrop, List.append_nil]
        · split at h <;> cases h

/-- **C42.** If `load_image` succeeds on an image of a loaded sprite then the buffer holds, row by row, the colours of
the stored pixels (`raw`: the image data itself, or what it inflates to): pixel `(x, y)` of the image is at position
`y * width + x`. This holds for every pixel the data contains; uncompressed data contains all of them. -/
theorem C42_decoding (plat : Plat) (b : Bytes) (f : AsepriteFile) (h : AsepriteFile.load plat b = .ok f)
    (inflate : Inflater) (hfit : Fits inflate) (i : Nat) (im : Image) (him : f.images[i]? = some im) (t t' : Bytes)
    (hok : f.loadImage inflate i t = (.ok (), t')) :
    let depth := f.file.header.colorDepth
    let stored := im.width.toNat * im.height.toNat * bytesPerPixel depth
    ∃ raw, Stored inflate im stored raw ∧ (im.compressed = false → raw.length = stored) ∧
      ∀ x y, x < im.width.toNat → y < im.height.toNat →
        (y * im.width.toNat + x + 1) * bytesPerPixel depth ≤ raw.length →
        ∃ c, pixel t' (y * im.width.toNat + x) = some c ∧
          storedPixel depth f.file.palette raw (y * im.width.toNat + x) = some c := by
  obtain ⟨h1, h2⟩ := load_ok.1 h
  obtain ⟨pal, hpal⟩ := goodPalette_of_parse h1
  obtain ⟨hn, hle, raw, hst, hcomp, hrl, ht'⟩ := loadImage_ok hpal hfit him hok
  refine ⟨raw, hst, hcomp, ?_⟩
  intro x y hx hy hraw
  have hp : y * im.width.toNat + x + 1 ≤ pixelCount im := by
    have : (y + 1) * im.width.toNat ≤ im.height.toNat * im.width.toNat := Nat.mul_le_mul_right _ (by omega)
    rw [pixelCount, Nat.mul_comm im.width.toNat]
    rw [Nat.add_mul] at this
    omega
  generalize y * im.width.toNat + x = p at *
  have hlen : (raw ++ (if f.file.header.colorDepth = .rgba then t.take (pixelCount im * 4)
      else List.replicate (pixelCount im * bytesPerPixel f.file.header.colorDepth) 0).drop raw.length).length
      = pixelCount im * bytesPerPixel f.file.header.colorDepth := by
    have hpad : (if f.file.header.colorDepth = .rgba then t.take (pixelCount im * 4)
        else List.replicate (pixelCount im * bytesPerPixel f.file.header.colorDepth) 0).length
        = pixelCount im * bytesPerPixel f.file.header.colorDepth := by
      split
      · next he => rw [he, List.length_take]; simp only [bytesPerPixel]; omega
      · simp
    rw [List.length_append, List.length_drop, hpad]
    omega
  have hrl2 := toRgba_length hn pal hlen
  have e1 : pixel t' p = storedPixel f.file.header.colorDepth f.file.palette raw p := by
    rw [ht', pixel_append_left (by omega), pixel_toRgba hpal, storedPixel_append hraw]
  have e2 : (pixel t' p).isSome = true := by
    apply pixel_isSome
    rw [ht', List.length_append]
    omega
  obtain ⟨c, hc⟩ := Option.isSome_iff_exists.1 e2
  exact ⟨c, hc, by rw [← e1]; exact hc⟩

/-- RGBA, grayscale and indexed images, raw and compressed. -/
example :
    Sample.decode (Sample.image 32 true (Sample.deflate [1, 2, 3, 4, 5, 6, 7, 8])) (List.replicate 8 0)
      = some (.ok (), [1, 2, 3, 4, 5, 6, 7, 8]) ∧
    Sample.decode (Sample.image 16 false [10, 20, 30, 40]) (List.replicate 8 0)
      = some (.ok (), [10, 10, 10, 20, 30, 30, 30, 40]) ∧
    Sample.decode (Sample.image 16 true (Sample.deflate [10, 20, 30, 40])) (List.replicate 8 0)
      = some (.ok (), [10, 10, 10, 20, 30, 30, 30, 40]) ∧
    Sample.decode (Sample.image 8 false [2, 0]) (List.replicate 8 0) = some (.ok (), [9, 10, 11, 12, 1, 2, 3, 0]) ∧
    Sample.decode (Sample.image 8 true (Sample.deflate [2, 1])) (List.replicate 8 0)
      = some (.ok (), [9, 10, 11, 12, 5, 6, 7, 8]) := by
  decide +kernel

/-! ## C44 -/

/-- **C44 (partial).** The decoded image does not depend on what the buffer held before, unless the image is compressed
RGBA whose zlib stream is shorter than the image. *Missing:* that case, see `C44_short_stream_keeps_old_bytes`. -/
theorem C44_independent_partial (plat : Plat) (b : Bytes) (f : AsepriteFile) (h : AsepriteFile.load plat b = .ok f)
    (inflate : Inflater) (hfit : Fits inflate) (i : Nat) (im : Image) (him : f.images[i]? = some im)
    (hnot : ¬ (f.file.header.colorDepth = .rgba ∧ im.compressed = true ∧
      (inflate im.data (im.width.toNat * im.height.toNat * 4)).2.length < im.width.toNat * im.height.toNat * 4))
    (t u t' u' : Bytes) (ht : f.loadImage inflate i t = (.ok (), t')) (hu : f.loadImage inflate i u = (.ok (), u')) :
    t'.take (im.width.toNat * im.height.toNat * 4) = u'.take (im.width.toNat * im.height.toNat * 4) := by
  obtain ⟨h1, h2⟩ := load_ok.1 h
  obtain ⟨pal, hpal⟩ := goodPalette_of_parse h1
  obtain ⟨hn, hle, raw, hst, hcomp, hrl, ht'⟩ := loadImage_ok hpal hfit him ht
  obtain ⟨_, hle2, raw2, hst2, hcomp2, hrl2, hu'⟩ := loadImage_ok hpal hfit him hu
  have hraw : raw2 = raw := by
    unfold Stored at hst hst2
    split at hst
    · rw [if_pos (by assumption), hst.1] at hst2
      exact (Prod.mk.inj hst2.1).2.symm
    · rw [if_neg (by assumption)] at hst2
      rw [hst, hst2]
  subst hraw
  have hsame : ∀ x : Bytes, (if f.file.header.colorDepth = .rgba then x.take (pixelCount im * 4)
        else List.replicate (pixelCount im * bytesPerPixel f.file.header.colorDepth) 0).drop raw2.length
      = (if f.file.header.colorDepth = .rgba then ([] : Bytes)
        else List.replicate (pixelCount im * bytesPerPixel f.file.header.colorDepth) 0).drop raw2.length := by
    intro x
    split
    · next he =>
      have hfull : raw2.length = pixelCount im * 4 := by
        rw [he] at hrl hcomp hst
        simp only [bytesPerPixel] at hrl hcomp hst
        by_cases hc : im.compressed = true
        · rw [Stored, if_pos hc] at hst
          have : ¬ raw2.length < pixelCount im * 4 := fun hlt => hnot ⟨he, hc, by
            rw [show im.width.toNat * im.height.toNat * 4 = pixelCount im * 4 from rfl, hst.1]
            exact hlt⟩
          omega
        · exact hcomp (by simpa using hc)
      rw [List.drop_eq_nil_of_le (by rw [List.length_take]; omega)]
      simp
    · rfl
  rw [hsame] at ht' hu'
  have hlen : ∀ x : Bytes, pixelCount im * 4 ≤ x.length → ∀ y : Bytes, y.length = pixelCount im * 4 →
      (y ++ x.drop (pixelCount im * 4)).take (im.width.toNat * im.height.toNat * 4) = y := by
    intro x _ y hy
    rw [show im.width.toNat * im.height.toNat * 4 = pixelCount im * 4 from rfl, ← hy, List.take_left]
  have hy : (toRgba f.file.header.colorDepth pal (raw2 ++ (if f.file.header.colorDepth = .rgba then ([] : Bytes)
        else List.replicate (pixelCount im * bytesPerPixel f.file.header.colorDepth) 0).drop raw2.length)).length
      = pixelCount im * 4 := by
    apply toRgba_length hn
    rw [← hsame t, List.length_append, List.length_drop]
    split
    · next he => rw [List.length_take]; rw [he] at hrl ⊢; simp only [bytesPerPixel] at *; omega
    · rw [List.length_replicate]; omega
  rw [ht', hu', hlen t hle _ hy, hlen u hle2 _ hy]

/-- A zlib stream of full length, grayscale, with a buffer longer than the image: what was there before does not matter. -/
example :
    Sample.decode (Sample.image 16 true (Sample.deflate [7, 255, 9, 100])) [1, 2, 3, 4, 5, 6, 7, 8, 9]
      = some (.ok (), [7, 7, 7, 255, 9, 9, 9, 100, 9]) ∧
    Sample.decode (Sample.image 16 true (Sample.deflate [7, 255, 9, 100])) [50, 60, 70, 80, 90, 1, 2, 3, 4]
      = some (.ok (), [7, 7, 7, 255, 9, 9, 9, 100, 4]) ∧
    Sample.decode (Sample.image 32 true (Sample.deflate [1, 2, 3, 4, 5, 6, 7, 8])) [50, 60, 70, 80, 90, 1, 2, 3]
      = some (.ok (), [1, 2, 3, 4, 5, 6, 7, 8]) := by
  decide +kernel

/-- **C44** is false of the code as stated: a zlib stream with only one of the two RGBA pixels is accepted, and the
second pixel keeps the old contents of the buffer. -/
theorem C44_short_stream_keeps_old_bytes :
    Sample.decode (Sample.image 32 true (Sample.deflate [1, 2, 3, 4])) [0, 0, 0, 0, 50, 60, 70, 80]
      = some (.ok (), [1, 2, 3, 4, 50, 60, 70, 80]) ∧
    Sample.decode (Sample.image 32 true (Sample.deflate [1, 2, 3, 4])) [0, 0, 0, 0, 0, 0, 0, 0]
      = some (.ok (), [1, 2, 3, 4, 0, 0, 0, 0]) := by
  decide +kernel

end Ase
