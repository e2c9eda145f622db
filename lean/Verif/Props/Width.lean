import Verif.Lemmas.Width
import Verif.Props.Memory

/-!
# C69: the width of `usize`

`loadW`, `loadImageW` and `renderFrameW` are `load`, `load_image` and `render_frame` compiled for a `usize` of the given
number of bits (`Model/Width`).  A slice never has more than `isize::MAX` bytes, so on a target of `bits` bits every
input and every buffer is shorter than `2 ^ (bits - 1)`.
-/

namespace Ase

open Spec

theorem u16_product_lt (a b : UInt16) : a.toNat * b.toNat ≤ 65535 * 65535 :=
  Nat.mul_le_mul (by have := a.toNat_lt; omega) (by have := b.toNat_lt; omega)

/-- The data of a loaded image is a part of the input. -/
theorem image_data_le {plat : Plat} {b : Bytes} {f : AsepriteFile} (h : AsepriteFile.load plat b = .ok f) {im : Image}
    (him : im ∈ f.images) : im.data.length ≤ b.length := by
  obtain ⟨pre, post, hb⟩ := C27_zero_copy plat b f h im him
  rw [hb]
  simp
  omega

/-- **C69, 64 bits.** On 64-bit targets no computation with `usize` overflows: the model of the rest of this project,
which computes with natural numbers, gives the same result for every input shorter than 2^62 bytes, every image, frame,
selection and buffer. -/
theorem C69_64_bits (plat : Plat) (b : Bytes) (hb : b.length < 2 ^ 62) :
    AsepriteFile.loadW plat 64 b = AsepriteFile.load plat b ∧
    ∀ f, AsepriteFile.load plat b = .ok f → ∀ (inflate : Inflater) (i : Nat) (sel : LayerSelection) (t : Bytes),
      f.loadImageW plat 64 inflate i t = f.loadImage inflate i t ∧
      f.renderFrameW plat 64 inflate i sel t = f.renderFrame plat inflate i sel t := by
  refine ⟨loadW_eq (N := 2 ^ 62) plat (by decide) (by decide) (by omega), fun f hf inflate i sel t => ?_⟩
  have hi : ∀ im ∈ f.images, ImageFits 64 im := by
    intro im him
    have h1 := u16_product_lt im.width im.height
    have h2 := image_data_le hf him
    constructor
    · unfold pixelCount; omega
    · omega
  refine ⟨by rw [loadImageW_eq hi], ?_⟩
  rw [renderFrameW_eq hi]
  · have := u16_product_lt f.file.header.width f.file.header.height
    omega
  · intro lf _ c _
    have := u16_product_lt c.size.1 c.size.2
    omega

/-- **C69, 32 bits.** On 32-bit targets, for every input shorter than 2^30 bytes, `load` gives the same result as on
64-bit targets; so does `load_image` for every image of less than 2^30 pixels and every buffer; and so does
`render_frame` if the canvas has less than 2^30 pixels and the images of the sprite less than 2^29 (an RGBA buffer for
one has at most `isize::MAX` bytes then).
Missing: larger images and canvases; there the result differs, see `C69_32_bits_overflow` and `C69_32_bits_wrap`. -/
theorem C69_32_bits_partial (plat : Plat) (b : Bytes) (hb : b.length < 2 ^ 30) :
    AsepriteFile.loadW plat 32 b = AsepriteFile.loadW plat 64 b ∧
    ∀ f, AsepriteFile.loadW plat 64 b = .ok f →
      (∀ (inflate : Inflater) (i : Nat) (im : Image) (t : Bytes), f.images[i]? = some im →
        im.width.toNat * im.height.toNat < 2 ^ 30 → t.length < 2 ^ 31 →
        f.loadImageW plat 32 inflate i t = f.loadImageW plat 64 inflate i t) ∧
      (f.size.1.toNat * f.size.2.toNat < 2 ^ 30 → (∀ im ∈ f.images, im.width.toNat * im.height.toNat < 2 ^ 29) →
        ∀ (inflate : Inflater) (i : Nat) (sel : LayerSelection) (t : Bytes),
          f.renderFrameW plat 32 inflate i sel t = f.renderFrameW plat 64 inflate i sel t) := by
  have h64 := C69_64_bits plat b (by omega)
  refine ⟨by rw [h64.1]; exact loadW_eq (N := 2 ^ 30) plat (by decide) (by decide) (by omega), fun f hf => ?_⟩
  rw [h64.1] at hf
  constructor
  · intro inflate i im t him hp ht
    rw [(h64.2 f hf inflate i .all t).1]
    refine loadImageW_at (fun im' him' => ?_) ht
    rw [him] at him'
    cases him'
    have := image_data_le hf (List.mem_of_getElem? him)
    constructor
    · unfold pixelCount; omega
    · omega
  · intro hc hi inflate i sel t
    rw [(h64.2 f hf inflate i sel t).2]
    rw [renderFrameW_eq (bits := 32)]
    · intro im him
      have h1 := hi im him
      have h2 := image_data_le hf him
      constructor
      · unfold pixelCount; omega
      · omega
    · simp only [AsepriteFile.size] at hc
      omega
    · intro lf hlf c hc'
      obtain ⟨_, im, him, hs⟩ := (C31_references plat b f hf lf hlf).1 c hc'
      have := hi im (List.mem_of_getElem? him)
      rw [hs]
      show im.width.toNat * im.height.toNat * 4 < _
      omega

/-- **C69, 32 bits, with overflow checks.** Debug builds for 32-bit targets panic on every image and every canvas of
2^30 pixels or more, whatever the buffer (64-bit builds report that the buffer is too small). -/
theorem C69_32_bits_overflow (stack : Nat) (f : AsepriteFile) (inflate : Inflater) (t : Bytes) :
    (∀ (i : Nat) (im : Image), f.images[i]? = some im → 2 ^ 30 ≤ im.width.toNat * im.height.toNat →
      f.loadImageW ⟨true, stack⟩ 32 inflate i t = (.panic .overflow, t)) ∧
    (2 ^ 30 ≤ f.size.1.toNat * f.size.2.toNat → ∀ (i : Nat) (sel : LayerSelection),
      f.renderFrameW ⟨true, stack⟩ 32 inflate i sel t = (.panic .overflow, t)) := by
  constructor
  · intro i im him hp
    have := u16_product_lt im.width im.height
    unfold AsepriteFile.loadImageW
    rw [him]
    dsimp only
    rw [mulW_ok (by omega), buf_pure_bind, buf_bind]
    unfold Buf.mulW usizeOp
    rw [if_neg (by omega)]
    rfl
  · intro hp i sel
    simp only [AsepriteFile.size] at hp
    have := u16_product_lt f.file.header.width f.file.header.height
    unfold AsepriteFile.renderFrameW
    rw [mulW_ok (by omega), buf_pure_bind, buf_bind]
    unfold Buf.mulW usizeOp
    rw [if_neg (by omega)]
    rfl

/-- **C69, 32 bits, large cels.** A frame whose first drawn cel has 2^29 pixels or more, but less than 2^30, cannot be
rendered on 32-bit targets: the buffer for the cel is larger than a vector can be, and allocating it panics. -/
theorem C69_32_bits_capacity (plat : Plat) (f : AsepriteFile) (inflate : Inflater) (t : Bytes) (i : Nat)
    (sel : LayerSelection) (lf : LFrame) (hi : f.frames[i]? = some lf) (c : FrameCel) (pre post : List FrameCel)
    (hc : lf.cels = pre ++ c :: post) (hpre : ∀ c' ∈ pre, drawnOn f sel c' = none) (hdraw : (drawnOn f sel c).isSome = true)
    (hp : 2 ^ 29 ≤ c.size.1.toNat * c.size.2.toNat) (hp' : c.size.1.toNat * c.size.2.toNat < 2 ^ 30)
    (ht : f.size.1.toNat * f.size.2.toNat * 4 ≤ t.length) (ht' : t.length < 2 ^ 31) :
    f.renderFrameW plat 32 inflate i sel t = (.panic .explicitPanic, t) := by
  simp only [AsepriteFile.size] at ht
  unfold AsepriteFile.renderFrameW
  rw [mulW_ok (by omega), buf_pure_bind, mulW_ok (by omega), buf_pure_bind,
    buf_bind_ok (x := Buf.len) (a := t.length) (t' := t) rfl, if_neg (by omega), hi]
  dsimp only
  rw [hc]
  have hskip : ∀ c' ∈ pre, f.renderCelW plat 32 inflate sel c' = pure () := by
    intro c' hc'
    have h := hpre c' hc'
    unfold AsepriteFile.renderCelW
    unfold drawnOn at h
    cases hl : f.layers[c'.layerIndex]? with
    | none => rfl
    | some layer =>
      rw [hl] at h
      dsimp only at h ⊢
      rw [if_pos]
      rw [isSelected_iff]
      by_cases hg : layer.layerType = .group
      · exact .inl hg
      · refine .inr fun hs => ?_
        rw [if_pos ⟨hg, hs⟩] at h
        cases h
  clear hc hpre
  induction pre with
  | cons c' pre ih =>
    rw [List.cons_append, forEach_cons, hskip c' (List.mem_cons_self ..)]
    exact ih fun d hd => hskip d (List.mem_cons_of_mem _ hd)
  | nil =>
    rw [List.nil_append, forEach_cons]
    have h : f.renderCelW plat 32 inflate sel c t = (.panic .explicitPanic, t) := by
      unfold AsepriteFile.renderCelW
      unfold drawnOn at hdraw
      cases hl : f.layers[c.layerIndex]? with
      | none => rw [hl] at hdraw; cases hdraw
      | some layer =>
        rw [hl] at hdraw
        dsimp only at hdraw ⊢
        split at hdraw
        · next hg =>
          rw [if_neg (by rw [isSelected_iff]; exact fun h => h.elim hg.1 (fun h => h hg.2)), mulW_ok (by omega),
            buf_pure_bind, mulW_ok (by omega), buf_pure_bind]
          refine Eq.trans (buf_bind _ _ _) ?_
          unfold Buf.onFreshW
          rw [if_neg (by omega)]
          rfl
        · cases hdraw
    rw [h]

/-- A sprite of 32768 × 32768 pixels (2^30), its image compressed. -/
def Sample.wideCel : Bytes :=
  Sample.header 32768 32768 32 ++
    Sample.frame 100 [Sample.layer 1 0 0 255 [], Sample.zcel 0 0 0 32768 32768 []]

/-- **C69, 32 bits, without overflow checks.** The size of an image of 32768 × 32768 pixels wraps to 0 in a release
build for a 32-bit target: `load_image` accepts an empty buffer where a 64-bit build reports that it is too small. -/
theorem C69_32_bits_wrap : ∃ f, AsepriteFile.loadW ⟨false, 0⟩ 32 Sample.wideCel = .ok f ∧
    f.images.map (fun im => (im.width, im.height)) = [(32768, 32768)] ∧
    ∀ inflate : Inflater,
      (f.loadImageW ⟨false, 0⟩ 64 inflate 0 []).1 = .err .targetBufferTooSmall ∧
      ((inflate [] 0).1 = .streamEnd → (f.loadImageW ⟨false, 0⟩ 32 inflate 0 []).1 = .ok ()) := by
  have h : (match AsepriteFile.loadW ⟨false, 0⟩ 32 Sample.wideCel with
      | .ok f => decide (f.images = [⟨32768, 32768, [], true⟩] ∧ f.file.header.colorDepth = .rgba)
      | _ => false) = true := by decide +kernel
  split at h
  · next f hf =>
    obtain ⟨h1, h2⟩ := of_decide_eq_true h
    refine ⟨f, hf, by rw [h1]; rfl, fun inflate => ⟨?_, fun hz => ?_⟩⟩
    · unfold AsepriteFile.loadImageW
      rw [h1, show ([⟨32768, 32768, [], true⟩] : List Image)[0]? = some ⟨32768, 32768, [], true⟩ from rfl]
      dsimp only
      rw [mulW_ok (by decide), buf_pure_bind, mulW_ok (by decide), buf_pure_bind,
        buf_bind_ok (x := Buf.len) (a := 0) (t' := []) rfl, if_pos (by decide)]
      rfl
    · have e : f.loadImageW ⟨false, 0⟩ 32 inflate 0 [] = Buf.onPrefix 0 (f.decodeImageW ⟨false, 0⟩ 32 inflate
          ⟨32768, 32768, [], true⟩) [] := by
        unfold AsepriteFile.loadImageW
        rw [h1, show ([⟨32768, 32768, [], true⟩] : List Image)[0]? = some ⟨32768, 32768, [], true⟩ from rfl]
        dsimp only
        rw [mulW_ok (by decide), buf_pure_bind, show Buf.mulW ⟨false, 0⟩ 32
          ((32768 : UInt16).toNat * (32768 : UInt16).toNat) 4 = pure 0 by
            unfold Buf.mulW usizeOp
            rw [if_neg (by decide), if_neg (by decide),
              show (32768 : UInt16).toNat * (32768 : UInt16).toNat * 4 % 2 ^ 32 = 0 by decide]
            rfl, buf_pure_bind, buf_bind_ok (x := Buf.len) (a := 0) (t' := []) rfl, if_neg (by decide)]
      rw [e, Buf.onPrefix, if_pos (Nat.zero_le _)]
      unfold AsepriteFile.decodeImageW
      rw [h2]
      show (decompress inflate [] []).1 = _
      rw [decompress_eq]
      exact if_pos hz
  · cases h

/-- the hypotheses of `C69_32_bits_partial` hold for a sprite with two images -/
example : Sample.twoFrames.length < 2 ^ 30 ∧ (match AsepriteFile.loadW ⟨true, 10⟩ 64 Sample.twoFrames with
    | .ok f => decide (f.size.1.toNat * f.size.2.toNat < 2 ^ 30 ∧ f.images.length = 2 ∧
        ∀ im ∈ f.images, im.width.toNat * im.height.toNat < 2 ^ 29)
    | _ => false) = true := by decide +kernel

/-- the hypotheses of `C69_32_bits_capacity` hold for a small canvas with a large cel -/
example : (match AsepriteFile.load ⟨true, 10⟩ (Sample.header 1 1 32 ++
      Sample.frame 100 [Sample.layer 1 0 0 255 [], Sample.zcel 0 0 0 32767 16385 []]) with
    | .ok f => (match f.frames with
      | [lf] => (match lf.cels with
        | [c] => decide ((drawnOn f .visible c).isSome = true ∧ 2 ^ 29 ≤ c.size.1.toNat * c.size.2.toNat ∧
            c.size.1.toNat * c.size.2.toNat < 2 ^ 30 ∧ f.size.1.toNat * f.size.2.toNat * 4 ≤ 4)
        | _ => false)
      | _ => false)
    | _ => false) = true := by decide +kernel

/-- and the image of `C69_32_bits_overflow` occurs -/
example : (match AsepriteFile.load ⟨true, 10⟩ Sample.wideCel with
    | .ok f => decide (2 ^ 30 ≤ f.size.1.toNat * f.size.2.toNat ∧
        ∃ im ∈ f.images, 2 ^ 30 ≤ im.width.toNat * im.height.toNat)
    | _ => false) = true := by decide +kernel

end Ase
