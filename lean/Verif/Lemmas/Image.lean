import Verif.Spec.Image
import Verif.Lemmas.Loader
import Verif.Props.File

/-!
# Lemmas about decoding images
-/

namespace Ase

open Spec

theorem buf_bind {α β : Type} (x : Buf α) (f : α → Buf β) (t : Bytes) : (x >>= f) t =
    match x t with
    | (.ok a, t') => f a t'
    | (.err e, t') => (.err e, t')
    | (.panic k, t') => (.panic k, t') := rfl

theorem buf_pure {α : Type} (a : α) (t : Bytes) : (pure a : Buf α) t = (.ok a, t) := rfl

theorem buf_bind_ok {α β : Type} {x : Buf α} {f : α → Buf β} {t t' : Bytes} {a : α} (h : x t = (.ok a, t')) :
    (x >>= f) t = f a t' := by rw [buf_bind, h]

theorem buf_bind_pure {α : Type} (x : Buf α) : (x >>= pure) = x := by
  funext t
  rw [buf_bind]
  rcases x t with ⟨_ | _ | _, _⟩ <;> rfl

theorem buf_set {pre post : Bytes} {n : Nat} {r v : UInt8} (h : pre.length = n) :
    Buf.set n v (pre ++ r :: post) = (.ok (), pre ++ v :: post) := by
  subst h
  simp [Buf.set]

/-- Writing four bytes and going on. -/
theorem buf_set4 {α : Type} {pre post : Bytes} {n : Nat} {r0 r1 r2 r3 a b c d : UInt8} (h : pre.length = n)
    (k : Unit → Buf α) :
    (do Buf.set n a; Buf.set (n + 1) b; Buf.set (n + 2) c; let x ← Buf.set (n + 3) d; k x : Buf α)
        (pre ++ r0 :: r1 :: r2 :: r3 :: post) = k () (pre ++ a :: b :: c :: d :: post) := by
  rw [buf_bind_ok (buf_set h)]
  rw [show pre ++ a :: r1 :: r2 :: r3 :: post = (pre ++ [a]) ++ r1 :: r2 :: r3 :: post by simp]
  rw [buf_bind_ok (buf_set (by simp [h]))]
  rw [show (pre ++ [a]) ++ b :: r2 :: r3 :: post = (pre ++ [a, b]) ++ r2 :: r3 :: post by simp]
  rw [buf_bind_ok (buf_set (by simp [h]))]
  rw [show (pre ++ [a, b]) ++ c :: r3 :: post = (pre ++ [a, b, c]) ++ r3 :: post by simp]
  rw [buf_bind_ok (buf_set (by simp [h]))]
  simp

/-! ## The decoding loops -/

/-- (v, a) pixels as RGBA. -/
def grayRgba : Bytes → Bytes
  | v :: a :: rest => v :: v :: v :: a :: grayRgba rest
  | _ => []

/-- A palette colour as RGBA. -/
def colorRgba (c : PColor) : Bytes := [c.red, c.green, c.blue, c.alpha]

/-- Indexed pixels as RGBA. -/
def indexedRgba (pal : Palette) (raw : Bytes) : Bytes :=
  raw.flatMap fun i => colorRgba ((pal.colors[i.toNat]?).getD ⟨0, 0, 0, 0⟩)

theorem four_of_length {t : Bytes} {n : Nat} (h : t.length = n + 4) :
    ∃ a b c d t', t = a :: b :: c :: d :: t' ∧ t'.length = n := by
  match t with
  | a :: b :: c :: d :: t' => exact ⟨a, b, c, d, t', rfl, by simpa using h⟩
  | [] => simp at h
  | [_] => simp at h
  | [_, _] => simp at h
  | [_, _, _] => simp at h

theorem grayscaleLoop_eq (k : Nat) (src pre post : Bytes) (i : Nat) (hs : src.length = 2 * k) (hp : pre.length = i * 4)
    (hq : post.length = 4 * k) : grayscaleLoop i src (pre ++ post) = (.ok (), pre ++ grayRgba src) := by
  induction k generalizing src pre post i with
  | zero =>
    have h1 : src = [] := List.eq_nil_of_length_eq_zero (by omega)
    have h2 : post = [] := List.eq_nil_of_length_eq_zero (by omega)
    subst h1; subst h2
    simp [grayscaleLoop, grayRgba, buf_pure]
  | succ k ih =>
    match src, hs with
    | v :: a :: rest, hs =>
      obtain ⟨r0, r1, r2, r3, post', rfl, hq'⟩ := four_of_length (t := post) (n := 4 * k) (by omega)
      rw [grayscaleLoop, buf_set4 hp]
      rw [show pre ++ v :: v :: v :: a :: post' = (pre ++ [v, v, v, a]) ++ post' by simp]
      rw [ih rest (pre ++ [v, v, v, a]) post' (i + 1) (by simp at hs; omega) (by simp; omega) hq']
      simp [grayRgba]
    | [_], hs => simp at hs; omega
    | [], hs => simp at hs

theorem indexedLoop_eq {pal : Palette} (hpal : pal.colors.length = 256) (src pre post : Bytes) (i : Nat)
    (hp : pre.length = i * 4) (hq : post.length = 4 * src.length) :
    indexedLoop pal i src (pre ++ post) = (.ok (), pre ++ indexedRgba pal src) := by
  induction src generalizing pre post i with
  | nil =>
    have h2 : post = [] := List.eq_nil_of_length_eq_zero (by simpa using hq)
    subst h2
    rfl
  | cons px rest ih =>
    obtain ⟨r0, r1, r2, r3, post', rfl, hq'⟩ := four_of_length (t := post) (n := 4 * rest.length)
      (by simp at hq; omega)
    have hlt : px.toNat < pal.colors.length := by have := px.toNat_lt; omega
    rw [indexedLoop, List.getElem?_eq_getElem hlt]
    simp only
    rw [buf_set4 hp]
    generalize hc : pal.colors[px.toNat] = c
    rw [show pre ++ c.red :: c.green :: c.blue :: c.alpha :: post'
      = (pre ++ [c.red, c.green, c.blue, c.alpha]) ++ post' by simp]
    rw [ih (pre ++ [c.red, c.green, c.blue, c.alpha]) post' (i + 1) (by simp; omega) hq']
    simp [indexedRgba, colorRgba, List.getElem?_eq_getElem hlt, hc]

theorem grayRgba_length (k : Nat) (src : Bytes) (h : src.length = 2 * k) : (grayRgba src).length = 4 * k := by
  induction k generalizing src with
  | zero =>
    have h1 : src = [] := List.eq_nil_of_length_eq_zero (by omega)
    subst h1
    rfl
  | succ k ih =>
    match src, h with
    | v :: a :: rest, h =>
      have := ih rest (by simp at h; omega)
      simp only [grayRgba, List.length_cons, this]
      omega
    | [_], h => simp at h; omega
    | [], h => simp at h

theorem indexedRgba_length (pal : Palette) (src : Bytes) : (indexedRgba pal src).length = 4 * src.length := by
  induction src with
  | nil => rfl
  | cons x xs ih =>
    simp only [indexedRgba, List.flatMap_cons, List.length_append, colorRgba, List.length_cons, List.length_nil] at ih ⊢
    rw [ih]
    omega

/-! ## Whole images -/

/-- The RGBA bytes of stored image data. -/
def toRgba (depth : ColorDepth) (pal : Palette) (raw : Bytes) : Bytes :=
  match depth with
  | .rgba => raw
  | .grayscale => grayRgba raw
  | .indexed => indexedRgba pal raw
  | .unknown _ => []

/-- A file with a complete palette if it is indexed. -/
def GoodPalette (file : File) (pal : Palette) : Prop :=
  pal.colors.length = 256 ∧ (file.header.colorDepth = .indexed → file.palette = some pal)

theorem goodPalette_of_parse {plat : Plat} {b : Bytes} {file : File} (h : parseFile plat b = .ok file) :
    ∃ pal, GoodPalette file pal := by
  by_cases hi : file.header.colorDepth = .indexed
  · obtain ⟨raw, hraw, ha⟩ := parseFile_ok.1 h
    have hh : file.header = raw.header := by
      obtain ⟨p, hp, _, rfl⟩ := (assembleFile_ok (fresh hraw)).1 ha
      rfl
    obtain ⟨p, h1, h2, _⟩ := (C21_palette plat b raw hraw (by rw [← hh]; exact hi)).1 file h
    exact ⟨p, h2, fun _ => h1⟩
  · exact ⟨.default, List.length_replicate .., fun h => absurd h hi⟩

theorem grayscaleToRgba_eq (src t : Bytes) (k : Nat) (ht : t.length = 4 * k) : grayscaleToRgba src t =
    if src.length = 2 * k then (.ok (), grayRgba src) else (.err .invalidImageData, t) := by
  unfold grayscaleToRgba
  rw [buf_bind_ok (x := Buf.len) (a := t.length) (t' := t) rfl]
  by_cases h : src.length = 2 * k
  · rw [if_pos h, if_neg (by omega)]
    exact grayscaleLoop_eq k src [] t 0 h rfl ht
  · rw [if_neg h, if_pos (by omega)]
    rfl

theorem indexedToRgba_eq {pal : Palette} (hpal : pal.colors.length = 256) (src t : Bytes) (k : Nat)
    (ht : t.length = 4 * k) : indexedToRgba src pal t =
    if src.length = k then (.ok (), indexedRgba pal src) else (.err .invalidImageData, t) := by
  unfold indexedToRgba
  rw [buf_bind_ok (x := Buf.len) (a := t.length) (t' := t) rfl]
  by_cases h : src.length = k
  · rw [if_pos h, if_neg (by omega)]
    exact indexedLoop_eq hpal src [] t 0 rfl (by omega)
  · rw [if_neg h, if_pos (by omega)]
    rfl

theorem paletteOrErr_eq {f : AsepriteFile} {pal : Palette} (h : f.file.palette = some pal) (t : Bytes) :
    f.paletteOrErr t = (.ok pal, t) := by
  unfold AsepriteFile.paletteOrErr
  rw [h]
  rfl

/-- The buffer after inflating into it. -/
def overwrite (out old : Bytes) : Bytes := out.take old.length ++ old.drop out.length

theorem overwrite_length (out old : Bytes) : (overwrite out old).length = old.length := by
  simp only [overwrite, List.length_append, List.length_take, List.length_drop]
  omega

theorem decompress_eq (inflate : Inflater) (data t : Bytes) : decompress inflate data t =
    (if (inflate data t.length).1 = .streamEnd then .ok () else .err .decompressError,
      overwrite (inflate data t.length).2 t) := by
  unfold decompress overwrite
  cases h : inflate data t.length with
  | mk s o => cases s <;> rfl

theorem onFresh_decompress (inflate : Inflater) (data t : Bytes) (n : Nat) :
    Buf.onFresh n (decompress inflate data) t =
      (if (inflate data n).1 = .streamEnd then .ok (overwrite (inflate data n).2 (List.replicate n 0))
        else .err .decompressError, t) := by
  unfold Buf.onFresh
  rw [decompress_eq]
  simp only [List.length_replicate]
  split <;> split <;> simp_all

/-- Everything `load_image` does once the buffer is known to be large enough. -/
theorem decodeImage_eq {f : AsepriteFile} {pal : Palette} (hpal : GoodPalette f.file pal) (inflate : Inflater)
    (im : Image) (t : Bytes) (ht : t.length = pixelCount im * 4) :
    f.decodeImage inflate im t =
      match f.file.header.colorDepth with
      | .unknown _ => (.err .unsupportedColorDepth, t)
      | d =>
        if im.compressed then
          if (inflate im.data (pixelCount im * bytesPerPixel d)).1 = .streamEnd then
            (.ok (), toRgba d pal (overwrite (inflate im.data (pixelCount im * bytesPerPixel d)).2
              (if d = .rgba then t else List.replicate (pixelCount im * bytesPerPixel d) 0)))
          else (.err .decompressError,
            if d = .rgba then overwrite (inflate im.data (pixelCount im * bytesPerPixel d)).2 t else t)
        else if im.data.length = pixelCount im * bytesPerPixel d then (.ok (), toRgba d pal im.data)
        else if d = .rgba then (.panic .lengthMismatch, t)
        else (.err .invalidImageData, t) := by
  unfold AsepriteFile.decodeImage
  cases hd : f.file.header.colorDepth with
  | unknown n => cases im.compressed <;> rfl
  | rgba =>
    cases hc : im.compressed with
    | false =>
      simp only [Buf.copyFromSlice, ht, bytesPerPixel, if_true, toRgba, Bool.false_eq_true, if_false]
      by_cases h : pixelCount im * 4 = im.data.length
      · rw [if_pos h, if_pos h.symm]
      · rw [if_neg h, if_neg fun h' => h h'.symm]
    | true =>
      simp only [decompress_eq, ht, bytesPerPixel, if_true, toRgba]
      split <;> rfl
  | grayscale =>
    cases hc : im.compressed with
    | false =>
      simp only [bytesPerPixel, toRgba, Bool.false_eq_true, if_false, reduceCtorEq]
      rw [grayscaleToRgba_eq im.data t (pixelCount im) (by omega), Nat.mul_comm 2]
    | true =>
      simp only [bytesPerPixel, toRgba, if_true, reduceCtorEq, if_false]
      rw [buf_bind, onFresh_decompress]
      rw [show im.width.toNat * im.height.toNat = pixelCount im from rfl]
      split
      · next h =>
        split at h
        · next hs =>
          cases h
          rw [if_pos hs, grayscaleToRgba_eq _ t (pixelCount im) (by omega), if_pos]
          rw [overwrite_length, List.length_replicate, Nat.mul_comm]
        · cases h
      · next h =>
        split at h
        · cases h
        · next hs => cases h; rw [if_neg hs]
      · next h => split at h <;> cases h
  | indexed =>
    have hp := hpal.2 hd
    cases hc : im.compressed with
    | false =>
      simp only [bytesPerPixel, toRgba, Bool.false_eq_true, if_false, reduceCtorEq]
      rw [buf_bind_ok (paletteOrErr_eq hp t), indexedToRgba_eq hpal.1 im.data t (pixelCount im) (by omega), Nat.mul_one]
    | true =>
      simp only [bytesPerPixel, toRgba, if_true, reduceCtorEq, if_false]
      rw [buf_bind, onFresh_decompress]
      rw [show im.width.toNat * im.height.toNat = pixelCount im from rfl, Nat.mul_one]
      split
      · next h =>
        split at h
        · next hs =>
          cases h
          rw [if_pos hs, buf_bind_ok (paletteOrErr_eq hp t), indexedToRgba_eq hpal.1 _ t (pixelCount im) (by omega),
            if_pos]
          rw [overwrite_length, List.length_replicate]
        · cases h
      · next h =>
        split at h
        · cases h
        · next hs => cases h; rw [if_neg hs]
      · next h => split at h <;> cases h

theorem decodeImage_unknown {f : AsepriteFile} {n : UInt16} (hd : f.file.header.colorDepth = .unknown n)
    (inflate : Inflater) (im : Image) (t : Bytes) : f.decodeImage inflate im t = (.err .unsupportedColorDepth, t) := by
  unfold AsepriteFile.decodeImage
  rw [hd]
  cases im.compressed <;> rfl

theorem decodeImage_known {f : AsepriteFile} {pal : Palette} (hpal : GoodPalette f.file pal) {d : ColorDepth}
    (hd : f.file.header.colorDepth = d) (hn : ∀ n, d ≠ .unknown n) (inflate : Inflater)
    (im : Image) (t : Bytes) (ht : t.length = pixelCount im * 4) :
    f.decodeImage inflate im t =
        if im.compressed then
          if (inflate im.data (pixelCount im * bytesPerPixel d)).1 = .streamEnd then
            (.ok (), toRgba d pal (overwrite (inflate im.data (pixelCount im * bytesPerPixel d)).2
              (if d = .rgba then t else List.replicate (pixelCount im * bytesPerPixel d) 0)))
          else (.err .decompressError,
            if d = .rgba then overwrite (inflate im.data (pixelCount im * bytesPerPixel d)).2 t else t)
        else if im.data.length = pixelCount im * bytesPerPixel d then (.ok (), toRgba d pal im.data)
        else if d = .rgba then (.panic .lengthMismatch, t)
        else (.err .invalidImageData, t) := by
  rw [decodeImage_eq hpal inflate im t ht, hd]
  cases d with
  | unknown n => exact absurd rfl (hn n)
  | _ => rfl

theorem known_or_unknown (d : ColorDepth) : (∃ n, d = .unknown n) ∨ ∀ n, d ≠ .unknown n := by
  cases d <;> simp

theorem loadImage_none {f : AsepriteFile} {i : Nat} (h : f.images[i]? = none) (inflate : Inflater) (t : Bytes) :
    f.loadImage inflate i t = (.panic .indexOutOfBounds, t) := by
  unfold AsepriteFile.loadImage
  rw [h]
  rfl

theorem loadImage_eq {f : AsepriteFile} {i : Nat} {im : Image} (h : f.images[i]? = some im) (inflate : Inflater)
    (t : Bytes) : f.loadImage inflate i t =
      if t.length < pixelCount im * 4 then (.err .targetBufferTooSmall, t)
      else ((f.decodeImage inflate im (t.take (pixelCount im * 4))).1,
        (f.decodeImage inflate im (t.take (pixelCount im * 4))).2 ++ t.drop (pixelCount im * 4)) := by
  unfold AsepriteFile.loadImage
  rw [h]
  simp only
  rw [buf_bind_ok (x := Buf.len) (a := t.length) (t' := t) rfl]
  rw [show im.width.toNat * im.height.toNat * 4 = pixelCount im * 4 from rfl]
  split
  · rfl
  · next hlt => rw [Buf.onPrefix, if_pos (by omega)]

/-! ## Pixels -/

theorem pixel_append_left {a b : Bytes} {p : Nat} (h : 4 * p + 4 ≤ a.length) : pixel (a ++ b) p = pixel a p := by
  unfold pixel
  rw [List.drop_append_of_le_length (by omega)]
  obtain ⟨r, g, bl, al, t', h1, _⟩ := four_of_length (t := a.drop (4 * p)) (n := a.length - 4 * p - 4)
    (by rw [List.length_drop]; omega)
  rw [h1]
  rfl

theorem pixel_isSome {a : Bytes} {p : Nat} (h : 4 * p + 4 ≤ a.length) : (pixel a p).isSome = true := by
  unfold pixel
  obtain ⟨r, g, bl, al, t', h1, _⟩ := four_of_length (t := a.drop (4 * p)) (n := a.length - 4 * p - 4)
    (by rw [List.length_drop]; omega)
  rw [h1]
  rfl

theorem pixel_eq_none {a : Bytes} {p : Nat} (h : a.length < 4 * p + 4) : pixel a p = none := by
  unfold pixel
  split
  · next h1 =>
    have := congrArg List.length h1
    simp only [List.length_drop, List.length_cons] at this
    omega
  · rfl

theorem pixel_cons4 (r g b a : UInt8) (t : Bytes) (p : Nat) : pixel (r :: g :: b :: a :: t) (p + 1) = pixel t p := by
  unfold pixel
  rw [show 4 * (p + 1) = 4 * p + 1 + 1 + 1 + 1 by omega]
  simp only [List.drop_succ_cons]

theorem pixel_grayRgba (raw : Bytes) (pal : Option Palette) (p : Nat) :
    pixel (grayRgba raw) p = storedPixel .grayscale pal raw p := by
  induction p generalizing raw with
  | zero =>
    match raw with
    | v :: a :: rest => rfl
    | [_] => rfl
    | [] => rfl
  | succ p ih =>
    match raw with
    | v :: a :: rest =>
      rw [grayRgba, pixel_cons4, ih]
      simp only [storedPixel]
      rw [show 2 * (p + 1) = 2 * p + 1 + 1 by omega]
      rfl
    | [x] => simp [grayRgba, pixel, storedPixel, show 2 * (p + 1) = 2 * p + 1 + 1 by omega]
    | [] => simp [grayRgba, pixel, storedPixel]

theorem pixel_indexedRgba {pal : Palette} (hpal : pal.colors.length = 256) (raw : Bytes) (p : Nat) :
    pixel (indexedRgba pal raw) p = storedPixel .indexed (some pal) raw p := by
  induction raw generalizing p with
  | nil => simp [indexedRgba, pixel, storedPixel]
  | cons x xs ih =>
    have hlt : x.toNat < pal.colors.length := by have := x.toNat_lt; omega
    rw [show indexedRgba pal (x :: xs) = colorRgba ((pal.colors[x.toNat]?).getD ⟨0, 0, 0, 0⟩) ++ indexedRgba pal xs
      from List.flatMap_cons]
    rw [List.getElem?_eq_getElem hlt, Option.getD_some]
    cases p with
    | zero => simp [colorRgba, pixel, storedPixel, List.getElem?_eq_getElem hlt]
    | succ p =>
      simp only [colorRgba, List.cons_append, List.nil_append]
      rw [pixel_cons4, ih]
      simp [storedPixel]

/-- The RGBA bytes of stored data, pixel by pixel. -/
theorem pixel_toRgba {file : File} {pal : Palette} (h : GoodPalette file pal) (raw : Bytes) (p : Nat) :
    pixel (toRgba file.header.colorDepth pal raw) p = storedPixel file.header.colorDepth file.palette raw p := by
  cases hd : file.header.colorDepth with
  | rgba => rfl
  | grayscale => exact pixel_grayRgba raw _ p
  | indexed => rw [h.2 hd]; exact pixel_indexedRgba h.1 raw p
  | unknown n => simp [toRgba, storedPixel, pixel]

theorem toRgba_length {d : ColorDepth} (hd : ∀ n, d ≠ .unknown n) (pal : Palette) {raw : Bytes} {k : Nat}
    (h : raw.length = k * bytesPerPixel d) : (toRgba d pal raw).length = k * 4 := by
  cases d with
  | rgba => exact h
  | grayscale =>
    have := grayRgba_length k raw (by rw [h]; simp only [bytesPerPixel]; omega)
    simp only [toRgba]
    omega
  | indexed =>
    have := indexedRgba_length pal raw
    simp only [toRgba, bytesPerPixel] at *
    omega
  | unknown n => exact absurd rfl (hd n)

/-- A pixel that is complete in the data does not depend on what follows the data. -/
theorem storedPixel_append {d : ColorDepth} {pal : Option Palette} {a b : Bytes} {p : Nat}
    (h : (p + 1) * bytesPerPixel d ≤ a.length) : storedPixel d pal (a ++ b) p = storedPixel d pal a p := by
  cases d with
  | rgba => exact pixel_append_left (by simp only [bytesPerPixel] at h; omega)
  | grayscale =>
    simp only [bytesPerPixel] at h
    simp only [storedPixel]
    rw [List.drop_append_of_le_length (by omega)]
    match hd : a.drop (2 * p) with
    | v :: w :: r => rfl
    | [_] => have := congrArg List.length hd; simp only [List.length_drop, List.length_cons, List.length_nil] at this; omega
    | [] => have := congrArg List.length hd; simp only [List.length_drop, List.length_nil] at this; omega
  | indexed =>
    simp only [bytesPerPixel] at h
    simp only [storedPixel]
    rw [List.getElem?_append_left (by omega)]
  | unknown n => rfl

end Ase
