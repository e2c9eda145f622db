import Verif.Props.Image

/-!
# C94: what a failed or repeated `load_image` leaves in the buffer
-/

namespace Ase

open Spec

/-- A buffer after `out` has been written to its front, as far as it fits into the first `size` bytes. -/
def Spec.WrittenOver (out : Bytes) (size : Nat) (before after : Bytes) : Prop :=
  after.length = before.length ∧
  ∀ n, after[n]? = if n < out.length ∧ n < size ∧ n < before.length then out[n]? else before[n]?

theorem writtenOver_overwrite (out t : Bytes) (size : Nat) (h : size ≤ t.length) :
    WrittenOver out size t (overwrite out (t.take size) ++ t.drop size) := by
  have hl : (overwrite out (t.take size)).length = size := by
    rw [overwrite_length, List.length_take]; omega
  refine ⟨by rw [List.length_append, hl, List.length_drop]; omega, fun n => ?_⟩
  by_cases hn : n < size
  · rw [List.getElem?_append_left (by omega)]
    unfold overwrite
    have ht : (t.take size).length = size := by rw [List.length_take]; omega
    rw [ht]
    by_cases ho : n < out.length
    · rw [if_pos ⟨ho, hn, by omega⟩,
        List.getElem?_append_left (by rw [List.length_take]; omega), List.getElem?_take, if_pos (by omega)]
    · rw [if_neg (by omega), List.getElem?_append_right (by rw [List.length_take]; omega), List.length_take,
        List.getElem?_drop, List.getElem?_take, if_pos (by omega)]
      congr 1
      omega
  · rw [if_neg (by omega), List.getElem?_append_right (by omega), hl, List.getElem?_drop]
    congr 1
    omega

theorem overwrite_twice (out t : Bytes) : overwrite out (overwrite out t) = overwrite out t := by
  unfold overwrite
  simp only [List.length_append, List.length_take, List.length_drop]
  rw [List.drop_append, List.length_take]
  rcases Nat.le_total out.length t.length with h | h
  · rw [Nat.min_eq_right h, List.take_of_length_le (by omega), List.take_of_length_le h,
      List.drop_eq_nil_of_le (Nat.le_refl _), Nat.sub_self]
    rfl
  · rw [show t.drop out.length = [] from List.drop_eq_nil_of_le h, Nat.min_eq_left h,
      List.drop_eq_nil_of_le (by rw [List.length_take]; omega), show t.length + (t.length - out.length) = t.length by omega]
    simp

/-- **C94, failures.** For every loaded sprite, decompressor, image number and buffer: unless the image is a compressed
one of a 32 bit sprite, a call of `load_image` that fails, with an error or a panic, leaves the buffer as it was.  For
a compressed image of a 32 bit sprite a failing call has only written what the decompressor gave out, to the front of the
buffer and not beyond the image; and if the buffer was too small, nothing at all. -/
theorem C94_failed (plat : Plat) (b : Bytes) (f : AsepriteFile) (h : AsepriteFile.load plat b = .ok f)
    (inflate : Inflater) (i : Nat) (t : Bytes) (hfail : (f.loadImage inflate i t).1 ≠ .ok ()) :
    (f.loadImage inflate i t).2 = t ∨
    ∃ im, f.images[i]? = some im ∧ im.compressed = true ∧ f.file.header.colorDepth = .rgba ∧
      (f.loadImage inflate i t).1 = .err .decompressError ∧ im.width.toNat * im.height.toNat * 4 ≤ t.length ∧
      WrittenOver (inflate im.data (im.width.toNat * im.height.toNat * 4)).2 (im.width.toNat * im.height.toNat * 4)
        t (f.loadImage inflate i t).2 := by
  obtain ⟨h1, h2⟩ := load_ok.1 h
  obtain ⟨pal, hpal⟩ := goodPalette_of_parse h1
  cases him : f.images[i]? with
  | none =>
    left
    unfold AsepriteFile.loadImage
    rw [him]
    rfl
  | some im =>
    rw [loadImage_eq him] at hfail ⊢
    by_cases hlt : t.length < pixelCount im * 4
    · rw [if_pos hlt]; exact .inl rfl
    rw [if_neg hlt] at hfail ⊢
    have ht : (t.take (pixelCount im * 4)).length = pixelCount im * 4 := by rw [List.length_take]; omega
    dsimp only at hfail ⊢
    rcases known_or_unknown f.file.header.colorDepth with ⟨n, hu⟩ | hn
    · rw [decodeImage_unknown hu]
      exact .inl (List.take_append_drop ..)
    · rw [decodeImage_known hpal rfl hn inflate im _ ht] at hfail ⊢
      by_cases hc : im.compressed = true
      · rw [if_pos hc] at hfail ⊢
        by_cases hs : (inflate im.data (pixelCount im * bytesPerPixel f.file.header.colorDepth)).1 = .streamEnd
        · rw [if_pos hs] at hfail; exact absurd rfl hfail
        rw [if_neg hs]
        by_cases hd : f.file.header.colorDepth = .rgba
        · refine .inr ⟨im, rfl, hc, hd, rfl, Nat.le_of_not_lt hlt, ?_⟩
          dsimp only
          rw [if_pos hd, hd]
          exact writtenOver_overwrite _ _ _ (Nat.le_of_not_lt hlt)
        · left
          dsimp only
          rw [if_neg hd]
          exact List.take_append_drop ..
      · rw [if_neg hc] at hfail ⊢
        by_cases hl : im.data.length = pixelCount im * bytesPerPixel f.file.header.colorDepth
        · rw [if_pos hl] at hfail; exact absurd rfl hfail
        rw [if_neg hl]
        left
        split <;> exact List.take_append_drop ..

/-- **C94, repetition.** Calling `load_image` a second time with the same image and buffer changes nothing: it reports
the same and leaves the buffer as the first call left it, whether the calls succeed or not. -/
theorem C94_repeated (plat : Plat) (b : Bytes) (f : AsepriteFile) (h : AsepriteFile.load plat b = .ok f)
    (inflate : Inflater) (i : Nat) (t : Bytes) :
    f.loadImage inflate i (f.loadImage inflate i t).2 = f.loadImage inflate i t := by
  obtain ⟨h1, h2⟩ := load_ok.1 h
  obtain ⟨pal, hpal⟩ := goodPalette_of_parse h1
  cases him : f.images[i]? with
  | none =>
    have : ∀ t, f.loadImage inflate i t = (.panic .indexOutOfBounds, t) := by
      intro t
      unfold AsepriteFile.loadImage
      rw [him]
      rfl
    rw [this t, this t]
  | some im =>
    rw [loadImage_eq him inflate t]
    by_cases hlt : t.length < pixelCount im * 4
    · rw [if_pos hlt, loadImage_eq him, if_pos hlt]
    rw [if_neg hlt]
    have ht : (t.take (pixelCount im * 4)).length = pixelCount im * 4 := by rw [List.length_take]; omega
    have hlen := decodeImage_length hpal inflate im _ ht
    dsimp only
    rw [loadImage_eq him, if_neg (by rw [List.length_append, List.length_drop]; omega)]
    rw [List.take_append_of_le_length (by omega), List.take_of_length_le (by omega),
      List.drop_append_of_le_length (by omega), List.drop_eq_nil_of_le (by omega), List.nil_append]
    have key : f.decodeImage inflate im (f.decodeImage inflate im (t.take (pixelCount im * 4))).2 =
        f.decodeImage inflate im (t.take (pixelCount im * 4)) := by
      generalize t.take (pixelCount im * 4) = u at ht hlen
      rcases known_or_unknown f.file.header.colorDepth with ⟨n, hu⟩ | hn
      · rw [decodeImage_unknown hu, decodeImage_unknown hu]
      · rw [decodeImage_known hpal rfl hn inflate im _ (hlen.trans ht), decodeImage_known hpal rfl hn inflate im _ ht]
        by_cases hd : f.file.header.colorDepth = .rgba
        · simp only [if_pos hd]
          split
          · split
            · simp only [hd, toRgba, overwrite_twice]
            · simp only [overwrite_twice]
          · split <;> rfl
        · simp only [if_neg hd]
          repeat' split
          all_goals rfl
    rw [key]

/-- The two cases of a failure: damaged compressed data of a grayscale sprite leave the buffer as it was; of a 32 bit
sprite, they leave what could be decompressed (here a decompressor that gives out three bytes and fails). -/
example :
    (match AsepriteFile.load ⟨true, 10⟩ (Sample.image 16 true [9]) with
      | .ok f => decide ((f.loadImage (fun _ _ => (.error, [1, 2, 3])) 0 (List.replicate 9 7)).2 = List.replicate 9 7) &&
          decide ((f.loadImage (fun _ _ => (.error, [1, 2, 3])) 0 (List.replicate 9 7)).1 = .err .decompressError)
      | _ => false) = true ∧
    (match AsepriteFile.load ⟨true, 10⟩ (Sample.image 32 true [9]) with
      | .ok f => decide ((f.loadImage (fun _ _ => (.error, [1, 2, 3])) 0 (List.replicate 9 7)).2 =
            [1, 2, 3, 7, 7, 7, 7, 7, 7]) &&
          decide ((f.loadImage (fun _ _ => (.error, [1, 2, 3])) 0 (List.replicate 9 7)).1 = .err .decompressError)
      | _ => false) = true := by
  decide +kernel

end Ase
