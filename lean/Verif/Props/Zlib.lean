import Verif.Props.Storage
import Verif.Lemmas.DeflateRun

/-!
# C81: compressed images are zlib streams
-/

namespace Ase

open Spec Spec.Deflate

/-! ## Specification -/

/-- A decompressor that does what RFC 1950 and RFC 1951 say: it reports the end of the stream just when the data begins with
a zlib stream whose content fits into the target, and then it writes this content. -/
def Spec.Conforms (inflate : Inflater) : Prop :=
  ∀ data n out, inflate data n = (.streamEnd, out) ↔ out.length ≤ n ∧ ∃ z rest, data = z ++ rest ∧ IsZlib z out

/-- The data holds, possibly before other bytes, a zlib stream with this content. -/
def Spec.Holds (data content : Bytes) : Prop := ∃ z rest, data = z ++ rest ∧ IsZlib z content

/-! ## Streams -/

/-- There is a conforming decompressor: the executable one of `Model/Inflate.lean`. -/
theorem C81_conforms : Conforms Zlib.inflate ∧ Spec.Fits Zlib.inflate := ⟨Zlib.inflate_iff, Zlib.inflate_fits⟩

/-- Data holds at most one zlib stream at its beginning: where the stream ends and what its content is are determined. -/
theorem C81_unique (z z' rest rest' content content' : Bytes) (h : z ++ rest = z' ++ rest') (hz : IsZlib z content)
    (hz' : IsZlib z' content') : z = z' ∧ content = content' := by
  have h1 := Zlib.stream_run hz rest (content.length + content'.length) (by omega)
  have h2 := Zlib.stream_run hz' rest' (content.length + content'.length) (by omega)
  rw [h, h2] at h1
  simp only [Zlib.atState, Except.ok.injEq, Prod.mk.injEq, Zlib.St.mk.injEq, true_and] at h1
  obtain ⟨e1, _, e2⟩ := h1
  have hl := congrArg List.length e1
  rw [Zlib.bits_length, Zlib.bits_length] at hl
  have hl' := congrArg List.length h
  simp only [List.length_append] at hl'
  exact ⟨(List.append_inj h (by omega)).1, (List.reverse_inj.1 e2).symm⟩

/-- The pieces of some bytes, each of at most 65535 bytes. -/
def Spec.pieces : Nat → Bytes → List Bytes
  | 0, _ => []
  | k + 1, data => data.take 65535 :: pieces k (data.drop 65535)

theorem pieces_flatten (k : Nat) (data : Bytes) (h : data.length ≤ k) : (pieces k data).flatten = data := by
  induction k generalizing data with
  | zero => rw [List.length_eq_zero_iff.1 (Nat.le_zero.1 h)]; rfl
  | succ k ih =>
    rw [pieces, List.flatten_cons]
    by_cases hd : data = []
    · subst hd
      rw [ih _ (by simp)]
      rfl
    · have : 0 < data.length := List.length_pos_iff.2 hd
      rw [ih _ (by rw [List.length_drop]; omega), List.take_append_drop]

/-- Everything can be stored: all bytes are the content of some zlib stream. -/
theorem C81_exists (content : Bytes) : ∃ z, IsZlib z content := by
  have h := Zlib.inflate_storedStream (pieces content.length content) (by
    intro d hd
    have : ∀ k data, ∀ d ∈ pieces k data, d.length < 65536 := by
      intro k
      induction k with
      | zero => intro data d hd; cases hd
      | succ k ih =>
        intro data d hd
        rw [pieces] at hd
        cases hd with
        | head => rw [List.length_take]; omega
        | tail _ hm => exact ih _ d hm
    exact this _ _ d hd) [] content.length (by rw [pieces_flatten _ _ (Nat.le_refl _)]; exact Nat.le_refl _)
  rw [pieces_flatten _ _ (Nat.le_refl _)] at h
  obtain ⟨_, z, _, _, hz⟩ := (Zlib.inflate_iff _ _ _).1 h
  exact ⟨z, hz⟩

/-! ## Images -/

/-- **C81**: a compressed image of a loaded sprite of a known colour depth is decoded just when its data holds a zlib stream
with no more content than the image has pixels, otherwise `DecompressError` is returned; the pixels that are in the content
are those written.  How the stream was made (blocks, codes, matches) does not matter. -/
theorem C81_images (inflate : Inflater) (hc : Conforms inflate) (hfit : Spec.Fits inflate) (plat : Plat) (b : Bytes)
    (f : AsepriteFile) (h : AsepriteFile.load plat b = .ok f) (hn : ∀ n, f.file.header.colorDepth ≠ .unknown n) (i : Nat)
    (im : Image) (him : f.images[i]? = some im) (hz : im.compressed = true) (t : Bytes)
    (ht : im.width.toNat * im.height.toNat * 4 ≤ t.length) :
    let depth := f.file.header.colorDepth
    let room := im.width.toNat * im.height.toNat * bytesPerPixel depth
    let result := (f.loadImage inflate i t).1
    let after := (f.loadImage inflate i t).2
    (result = .ok () ↔ ∃ content, Holds im.data content ∧ content.length ≤ room) ∧
    ((¬ ∃ content, Holds im.data content ∧ content.length ≤ room) → result = .err .decompressError) ∧
    ∀ content, Holds im.data content → content.length ≤ room →
      ∀ x y, x < im.width.toNat → y < im.height.toNat →
        (y * im.width.toNat + x + 1) * bytesPerPixel depth ≤ content.length →
        ∃ c, pixel after (y * im.width.toNat + x) = some c ∧
          storedPixel depth f.file.palette content (y * im.width.toNat + x) = some c := by
  intro depth room result after
  obtain ⟨_, _, _, _, h5, _⟩ := C43_contract_partial plat b f h inflate i im him t
  obtain ⟨h6, h7, _⟩ := (h5 ht).2 hn
  have key : (inflate im.data room).1 = .streamEnd ↔ ∃ content, Holds im.data content ∧ content.length ≤ room := by
    constructor
    · intro hs
      have := (hc im.data room (inflate im.data room).2).1 (Prod.ext hs rfl)
      exact ⟨_, this.2, this.1⟩
    · rintro ⟨content, hh, hl⟩
      rw [(hc im.data room content).2 ⟨hl, hh⟩]
  refine ⟨?_, ?_, ?_⟩
  · constructor
    · intro hr
      apply key.1
      apply Classical.byContradiction
      intro hne
      have := h7 hz hne
      rw [show result = _ from this] at hr
      cases hr
    · intro hx
      exact h6 hz (key.2 hx)
  · intro hx
    exact h7 hz fun hs => hx (key.1 hs)
  · intro content hh hl
    have hr : result = .ok () := h6 hz (key.2 ⟨content, hh, hl⟩)
    obtain ⟨raw, hst, _, hp⟩ := C42_decoding plat b f h inflate hfit i im him t after (Prod.ext hr rfl)
    unfold Stored at hst
    rw [if_pos hz] at hst
    have e : raw = content := by
      have := (hc im.data room content).2 ⟨hl, hh⟩
      have h2 := hst.1
      change inflate im.data room = _ at h2
      rw [this] at h2
      exact (Prod.ext_iff.1 h2).2.symm
    subst e
    exact hp

/-- **C81 and C68**: the pixels stored as they are, and any zlib stream with these pixels as its content, are stored forms of
the same image; so `C68_storage` applies to them. -/
theorem C81_same_image (inflate : Inflater) (hc : Conforms inflate) (depth : ColorDepth) (w h : UInt16) (raw zlib : Bytes)
    (hraw : raw.length = w.toNat * h.toNat * bytesPerPixel depth) (hz : Holds zlib raw) :
    SameImage inflate depth ⟨w, h, raw, false⟩ ⟨w, h, zlib, true⟩ := by
  refine ⟨rfl, rfl, raw, hraw, rfl, ?_⟩
  unfold Stored
  rw [if_pos rfl]
  exact ⟨(hc _ _ _).2 ⟨Nat.le_of_eq hraw, hz⟩, Nat.le_of_eq hraw⟩

/-- **C81 and C68**: so are any two zlib streams with the same content. -/
theorem C81_any_compression (inflate : Inflater) (hc : Conforms inflate) (depth : ColorDepth) (w h : UInt16)
    (raw zlib zlib' : Bytes) (hraw : raw.length = w.toNat * h.toNat * bytesPerPixel depth) (hz : Holds zlib raw)
    (hz' : Holds zlib' raw) : SameImage inflate depth ⟨w, h, zlib, true⟩ ⟨w, h, zlib', true⟩ := by
  refine ⟨rfl, rfl, raw, hraw, ?_, ?_⟩
  · unfold Stored
    rw [if_pos rfl]
    exact ⟨(hc _ _ _).2 ⟨Nat.le_of_eq hraw, hz⟩, Nat.le_of_eq hraw⟩
  · unfold Stored
    rw [if_pos rfl]
    exact ⟨(hc _ _ _).2 ⟨Nat.le_of_eq hraw, hz'⟩, Nat.le_of_eq hraw⟩

/-! ## Examples

The pixels of an image of 4 × 4 pixels, and what zlib 1.3 makes of them. -/

def Sample.pixels16 : Bytes :=
  [97, 98, 99, 99, 99, 97, 97, 97, 97, 99, 97, 97, 98, 97, 99, 97, 97, 97, 97, 100, 99, 97, 97, 98, 99, 99, 97, 98, 97, 97, 98, 99,
   97, 98, 97, 100, 97, 97, 97, 97, 98, 98, 97, 100, 97, 98, 97, 97, 98, 97, 98, 97, 99, 97, 97, 98, 97, 97, 97, 98, 97, 99, 97, 97]

/-- With its own codes and with matches (level 9). -/
def Sample.dynamic16 : Bytes :=
  [120, 218, 45, 138, 177, 13, 0, 48, 12, 194, 110, 197, 228, 255, 27, 2, 109, 24, 192, 178, 16, 182, 149, 164, 208, 163, 41, 70, 210, 73,
   79, 37, 221, 154, 255, 66, 119, 95, 26, 176, 24, 109]

/-- With its own codes, without matches (`Z_HUFFMAN_ONLY`). -/
def Sample.huffman16 : Bytes :=
  [120, 1, 5, 193, 1, 1, 0, 0, 8, 195, 160, 172, 236, 246, 207, 32, 104, 27, 140, 12, 110, 180, 137, 38, 7, 229, 68, 50, 66, 198, 3, 26,
   176, 24, 109]

/-- With the fixed codes (`Z_FIXED`). -/
def Sample.fixed16 : Bytes :=
  [120, 1, 75, 76, 74, 78, 78, 78, 4, 2, 32, 145, 148, 8, 102, 165, 128, 152, 64, 193, 36, 16, 5, 36, 83, 64, 130, 73, 32, 26, 36, 2, 81,
   149, 148, 8, 85, 14, 0, 26, 176, 24, 109]

/-- They are zlib streams with these pixels as their content. -/
theorem Sample.holds16 (z : Bytes) (h : z ∈ [Sample.dynamic16, Sample.huffman16, Sample.fixed16,
    Zlib.storedStream [Sample.pixels16]]) : Holds z Sample.pixels16 := by
  have : ∀ z ∈ [Sample.dynamic16, Sample.huffman16, Sample.fixed16, Zlib.storedStream [Sample.pixels16]],
      Zlib.inflate z 64 = (.streamEnd, Sample.pixels16) := by decide +kernel
  exact ((Zlib.inflate_iff _ _ _).1 (this z h)).2

/-- The hypotheses of `C81_images` hold of a sprite with the image compressed in each of these ways, and so do those of
`C81_any_compression`. -/
example : (∀ z ∈ [Sample.dynamic16, Sample.huffman16, Sample.fixed16, Zlib.storedStream [Sample.pixels16]],
    (match AsepriteFile.load ⟨true, 10⟩ (Sample.header 4 4 32 ++ Sample.frame 100
      [Sample.layer 1 0 0 255 [65], Sample.zcel 0 0 0 4 4 z]) with
    | .ok f => decide (f.images = [⟨4, 4, z, true⟩]) && decide (f.file.header.colorDepth = .rgba) &&
        decide (f.loadImage Zlib.inflate 0 (List.replicate 64 0) = (.ok (), Sample.pixels16))
    | _ => false) = true) ∧
    SameImage Zlib.inflate .rgba ⟨4, 4, Sample.dynamic16, true⟩ ⟨4, 4, Sample.fixed16, true⟩ :=
  ⟨by decide +kernel, C81_any_compression _ C81_conforms.1 .rgba 4 4 Sample.pixels16 _ _ (by decide +kernel)
    (Sample.holds16 _ (by simp)) (Sample.holds16 _ (by simp))⟩

/-- A changed byte is noticed. -/
example : (Zlib.inflate (Sample.fixed16.set 10 5) 64).1 ≠ .streamEnd ∧ (Zlib.inflate (Sample.fixed16.set 42 5) 64).1 ≠ .streamEnd ∧
    (Zlib.inflate Sample.fixed16 63).1 ≠ .streamEnd := by decide +kernel

end Ase
