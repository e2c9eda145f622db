import Verif.Model.Width
import Verif.Lemmas.Panics
import Verif.Lemmas.Image

/-! # Computing with `usize` of any width: when nothing changes -/

namespace Ase

open Spec

/-! ## Parsing -/

/-- Two parsers agree on inputs of at most `N` bytes. -/
def EqUpTo {α : Type} (N : Nat) (p q : P α) : Prop := ∀ b : Bytes, b.length ≤ N → p b = q b

namespace EqUpTo

variable {N : Nat}

theorem refl {α : Type} (p : P α) : EqUpTo N p p := fun _ _ => rfl

theorem bind {α β : Type} {p q : P α} {f g : α → P β} (h : EqUpTo N p q) (hs : Shrinks q)
    (hf : ∀ a, EqUpTo N (f a) (g a)) : EqUpTo N (p >>= f) (q >>= g) := by
  intro b hb
  show P.bind p f b = P.bind q g b
  unfold P.bind
  rw [h b hb]
  cases hq : q b with
  | ok a =>
    have := hs b a.1 a.2 hq
    exact hf a.2 a.1 (by omega)
  | err e => rfl
  | panic k => rfl

theorem map {α β : Type} {p q : P α} {f : α → β} (h : EqUpTo N p q) :
    EqUpTo N (p >>= fun a => pure (f a)) (q >>= fun a => pure (f a)) := by
  intro b hb
  show P.bind p _ b = P.bind q _ b
  unfold P.bind
  rw [h b hb]

theorem takeBind {β : Type} {n : Nat} {f g : Bytes → P β} (hf : ∀ s : Bytes, s.length ≤ N → EqUpTo N (f s) (g s)) :
    EqUpTo N (Ase.take n >>= f) (Ase.take n >>= g) := by
  intro b hb
  show P.bind _ f b = P.bind _ g b
  unfold P.bind Ase.take
  by_cases hn : n ≤ b.length
  · rw [if_pos hn]
    exact hf _ (by rw [List.length_take]; omega) _ (by rw [List.length_drop]; omega)
  · rw [if_neg hn]

theorem count {α : Type} {p q : P α} (h : EqUpTo N p q) (hs : Shrinks q) (n : Nat) :
    EqUpTo N (Ase.count p n) (Ase.count q n) := by
  induction n with
  | zero => exact refl _
  | succ n ih => exact bind h hs fun _ => map ih

theorem cond {α : Type} {p q : P α} (h : EqUpTo N p q) (c : Bool) : EqUpTo N (Ase.cond c p) (Ase.cond c q) := by
  cases c with
  | false => exact refl _
  | true => exact map h

theorem onSlice {α : Type} {p q : P α} (h : EqUpTo N p q) {s : Bytes} (hs : s.length ≤ N) :
    EqUpTo N (P.onSlice p s) (P.onSlice q s) := by
  intro b _
  unfold P.onSlice
  rw [h s hs]

theorem many1Loop {α : Type} {p q : P α} (h : EqUpTo N p q) : EqUpTo N (Ase.many1Loop p) (Ase.many1Loop q) := by
  intro b
  generalize hn : b.length = n
  induction n using Nat.strongRecOn generalizing b with
  | _ n ih =>
    intro hb
    rw [Ase.many1Loop, Ase.many1Loop, h b (by omega)]
    cases q b with
    | ok a =>
      obtain ⟨r, x⟩ := a
      dsimp only
      by_cases hl : r.length < b.length
      · rw [dif_pos hl, dif_pos hl, ih r.length (by omega) r rfl (by omega)]
      · rw [dif_neg hl, dif_neg hl]
    | err e => cases e <;> rfl
    | panic k => rfl

theorem many1 {α : Type} {p q : P α} (h : EqUpTo N p q) (hs : Shrinks q) : EqUpTo N (Ase.many1 p) (Ase.many1 q) :=
  bind h hs fun _ => map (many1Loop h)

theorem allConsuming {α : Type} {p q : P α} (h : EqUpTo N p q) : EqUpTo N (Ase.allConsuming p) (Ase.allConsuming q) := by
  intro b hb
  unfold Ase.allConsuming
  rw [h b hb]

end EqUpTo

theorem outcome_bind_congr {ε α β : Type} {o : Outcome ε α} {f g : α → Outcome ε β} (h : ∀ a, o = .ok a → f a = g a) :
    (o >>= f) = (o >>= g) := by
  cases o with
  | ok a => exact h a rfl
  | err e => rfl
  | panic k => rfl

section Parser

variable {N bits : Nat} (plat : Plat) (hb : N + 8 < 2 ^ bits) (h64 : N + 8 < 2 ^ 64)

include hb h64

theorem parsePropertiesMapsW_eq : EqUpTo N (parsePropertiesMapsW plat bits) (parsePropertiesMaps plat) := by
  refine .bind (.refl _) .parseDwordAsUsize fun size => .bind (.refl _) .parseDwordAsUsize fun num => ?_
  intro b hlen
  show P.bind _ _ b = P.bind _ _ b
  unfold P.bind usizeSub8W usizeSub8
  by_cases h8 : 8 ≤ size
  · rw [if_pos h8, if_pos h8]; rfl
  · rw [if_neg h8, if_neg h8]
    cases plat.debug with
    | true => rfl
    | false =>
      have e1 : ¬ (2 ^ bits + size - 8 ≤ b.length) := by omega
      have e2 : ¬ (2 ^ 64 + size - 8 ≤ b.length) := by omega
      simp only [Bool.false_eq_true, if_false, Outcome.bind]
      show P.bind _ _ b = P.bind _ _ b
      unfold P.bind take
      rw [if_neg e1, if_neg e2]

theorem parseUserDataChunkW_eq : EqUpTo N (parseUserDataChunkW plat bits) (parseUserDataChunk plat) :=
  .bind (.refl _) .dword fun _ => .bind (.refl _) (parses_string.shrinks.cond _) fun _ =>
    .bind (.refl _) ((Parses.of_eq @parseColor_ok).shrinks.cond _) fun _ =>
    .map ((parsePropertiesMapsW_eq plat hb h64).cond _)

theorem parseChunkW_eq : EqUpTo N (parseChunkW plat bits) (parseChunk plat) := by
  refine .bind (.refl _) (.dwordSize _) fun _ => .takeBind fun s hs => .onSlice ?_ hs
  refine .bind (.refl _) shrinks_parseChunkType fun t => ?_
  cases t with
  | error => exact .refl _
  | ok t =>
    cases t with
    | userData => exact .map (parseUserDataChunkW_eq plat hb h64)
    | _ => exact .refl _

theorem parseRawframeW_eq : EqUpTo N (parseRawframeW plat bits) (parseRawframe plat) := by
  refine .bind (.refl _) (.dwordSize _) fun _ => .takeBind fun s hs => .onSlice ?_ hs
  exact .bind (.refl _) (by intro b r x h; obtain ⟨_, rfl⟩ := tag_ok.1 h; simp) fun _ => .bind (.refl _) .word fun _ =>
    .bind (.refl _) .word fun _ => .bind (.refl _) (.take _) fun _ => .bind (.refl _) .parseDwordAsUsize fun _ =>
    .map ((parseChunkW_eq plat hb h64).count (shrinks_sized _) _)

theorem parseRawFileW_eq {b : Bytes} (hN : b.length ≤ N) : parseRawFileW plat bits b = parseRawFile plat b := by
  unfold parseRawFileW parseRawFile parseFrames
  refine outcome_bind_congr fun a ha => ?_
  obtain ⟨r, hd⟩ := a
  have hr : r.length ≤ b.length := parses_header.shrinks b r hd ha
  have e := ((parseRawframeW_eq plat hb h64).many1 (shrinks_sized _)).allConsuming r (by omega)
  dsimp only
  rw [e]

theorem loadW_eq {b : Bytes} (hN : b.length ≤ N) : AsepriteFile.loadW plat bits b = AsepriteFile.load plat b := by
  unfold AsepriteFile.loadW AsepriteFile.load parseFileW parseFile
  rw [parseRawFileW_eq plat hb h64 hN]

end Parser

/-! ## Images -/

section Images

variable {plat : Plat} {bits : Nat}

theorem mulW_ok {a b : Nat} (h : a * b < 2 ^ bits) : Buf.mulW plat bits a b = pure (a * b) := by
  unfold Buf.mulW usizeOp
  rw [if_pos h]
  rfl

theorem addW_ok {a b : Nat} (h : a + b < 2 ^ bits) : Buf.addW plat bits a b = pure (a + b) := by
  unfold Buf.addW usizeOp
  rw [if_pos h]
  rfl

theorem onFreshW_ok {n : Nat} (h : n < 2 ^ (bits - 1)) (x : Buf Unit) : Buf.onFreshW bits n x = Buf.onFresh n x := by
  unfold Buf.onFreshW
  rw [if_pos h]

theorem buf_pure_bind {α β : Type} (a : α) (f : α → Buf β) : (pure a >>= f : Buf β) = f a := rfl

theorem half_le {n : Nat} (h : n < 2 ^ (bits - 1)) : n < 2 ^ bits :=
  Nat.lt_of_lt_of_le h (Nat.pow_le_pow_right (by omega) (by omega))

theorem grayscaleToRgbaW_eq {source : Bytes} (h : source.length * 2 < 2 ^ bits) :
    grayscaleToRgbaW plat bits source = grayscaleToRgba source := by
  unfold grayscaleToRgbaW grayscaleToRgba
  rw [mulW_ok h]
  rfl

theorem indexedToRgbaW_eq {source : Bytes} (h : source.length * 4 < 2 ^ bits) (p : Palette) :
    indexedToRgbaW plat bits source p = indexedToRgba source p := by
  unfold indexedToRgbaW indexedToRgba
  rw [mulW_ok h]
  rfl

theorem onFresh_congr {n : Nat} {inflate : Inflater} {data : Bytes} {f g : Bytes → Buf Unit}
    (h : ∀ s : Bytes, s.length = n → f s = g s) :
    (Buf.onFresh n (decompress inflate data) >>= f) = (Buf.onFresh n (decompress inflate data) >>= g) := by
  funext t
  rw [buf_bind, buf_bind]
  have e : (decompress inflate data (List.replicate n 0)).2.length = n := by
    rw [decompress_eq, overwrite_length, List.length_replicate]
  cases hd : decompress inflate data (List.replicate n 0) with
  | mk o t' =>
    rw [hd] at e
    unfold Buf.onFresh
    rw [hd]
    cases o with
    | ok u => dsimp only; rw [h t' e]
    | err e => rfl
    | panic k => rfl

/-- The sizes an image gives rise to fit: its RGBA pixels into a vector, its data four times into a `usize`. -/
def ImageFits (bits : Nat) (im : Image) : Prop :=
  pixelCount im * 4 < 2 ^ (bits - 1) ∧ im.data.length * 4 < 2 ^ bits

theorem decodeImageW_eq {inflate : Inflater} {f : AsepriteFile} {im : Image} (h : ImageFits bits im) :
    f.decodeImageW plat bits inflate im = f.decodeImage inflate im := by
  obtain ⟨h1, h2⟩ := h
  have h3 := half_le h1
  unfold pixelCount at h1 h3
  have h4 : im.width.toNat * im.height.toNat < 2 ^ bits := by omega
  have h5 : im.width.toNat * im.height.toNat * 2 < 2 ^ bits := by omega
  unfold AsepriteFile.decodeImageW AsepriteFile.decodeImage
  cases f.file.header.colorDepth with
  | unknown n => rfl
  | rgba => cases im.compressed <;> rfl
  | grayscale =>
    cases im.compressed with
    | false => exact grayscaleToRgbaW_eq (by omega)
    | true =>
      dsimp only
      rw [mulW_ok h4, buf_pure_bind, mulW_ok h5, buf_pure_bind, onFreshW_ok (by omega)]
      exact onFresh_congr fun s hs => grayscaleToRgbaW_eq (by omega)
  | indexed =>
    cases im.compressed with
    | false =>
      dsimp only
      congr 1
      funext p
      exact indexedToRgbaW_eq (by omega) p
    | true =>
      dsimp only
      rw [mulW_ok h4, buf_pure_bind, onFreshW_ok (by omega)]
      refine onFresh_congr fun s hs => ?_
      congr 1
      funext p
      exact indexedToRgbaW_eq (by omega) p

theorem loadImageW_eq {inflate : Inflater} {f : AsepriteFile} (hf : ∀ im ∈ f.images, ImageFits bits im) (i : Nat) :
    f.loadImageW plat bits inflate i = f.loadImage inflate i := by
  unfold AsepriteFile.loadImageW AsepriteFile.loadImage
  cases hi : f.images[i]? with
  | none => rfl
  | some im =>
    have h := hf im (List.mem_of_getElem? hi)
    have h3 := half_le h.1
    unfold pixelCount at h3
    dsimp only
    rw [mulW_ok (by omega), buf_pure_bind, mulW_ok h3, buf_pure_bind, decodeImageW_eq h]

/-- For one buffer it is enough that the size of the image fits into a `usize`: buffers have at most `isize::MAX`
bytes, so a larger image is not decoded. -/
theorem loadImageW_at {inflate : Inflater} {f : AsepriteFile} {i : Nat} {t : Bytes}
    (hf : ∀ im, f.images[i]? = some im → pixelCount im * 4 < 2 ^ bits ∧ im.data.length * 4 < 2 ^ bits)
    (ht : t.length < 2 ^ (bits - 1)) : f.loadImageW plat bits inflate i t = f.loadImage inflate i t := by
  unfold AsepriteFile.loadImageW AsepriteFile.loadImage
  cases hi : f.images[i]? with
  | none => rfl
  | some im =>
    obtain ⟨h1, h2⟩ := hf im hi
    have h3 := h1
    unfold pixelCount at h3
    dsimp only
    rw [mulW_ok (by omega), buf_pure_bind, mulW_ok h3, buf_pure_bind,
      buf_bind_ok (x := Buf.len) (a := t.length) (t' := t) rfl, buf_bind_ok (x := Buf.len) (a := t.length) (t' := t) rfl]
    by_cases hn : t.length < im.width.toNat * im.height.toNat * 4
    · rw [if_pos hn, if_pos hn]
    · rw [if_neg hn, if_neg hn, decodeImageW_eq ⟨?_, h2⟩]
      unfold pixelCount
      omega

/-! ## Rendering -/

theorem pixelIndex_lt {x y w h : Nat} (hx : x < w) (hy : y < h) : y * w + x < w * h := by
  have : (y + 1) * w ≤ h * w := Nat.mul_le_mul_right w hy
  rw [Nat.mul_comm h w] at this
  have e : (y + 1) * w = y * w + w := by grind
  omega

theorem renderPixelW_eq {f : AsepriteFile} {cel : FrameCel} {layer : LLayer} {fn : BlendFn} {c : Bytes} {y x : UInt16}
    (hc : f.file.header.width.toNat * f.file.header.height.toNat * 4 < 2 ^ bits)
    (hs : cel.size.1.toNat * cel.size.2.toNat * 4 < 2 ^ bits) (hx : x.toNat < cel.size.1.toNat)
    (hy : y.toNat < cel.size.2.toNat) :
    f.renderPixelW plat bits cel layer fn c y x = f.renderPixel plat cel layer fn c y x := by
  unfold AsepriteFile.renderPixelW AsepriteFile.renderPixel
  cases checkedAddSigned x cel.origin.1 with
  | none => rfl
  | some tx =>
    dsimp only
    by_cases htx : tx ≥ f.file.header.width
    · rw [if_pos htx, if_pos htx]
    · rw [if_neg htx, if_neg htx]
      cases checkedAddSigned y cel.origin.2 with
      | none => rfl
      | some ty =>
        dsimp only
        by_cases hty : ty ≥ f.file.header.height
        · rw [if_pos hty, if_pos hty]
        · rw [if_neg hty, if_neg hty]
          have a1 : tx.toNat < f.file.header.width.toNat := by
            rw [ge_iff_le, UInt16.le_iff_toNat_le] at htx; omega
          have a2 : ty.toNat < f.file.header.height.toNat := by
            rw [ge_iff_le, UInt16.le_iff_toNat_le] at hty; omega
          have b1 := pixelIndex_lt a1 a2
          have b2 := pixelIndex_lt hx hy
          rw [mulW_ok (by omega), buf_pure_bind, addW_ok (by omega), buf_pure_bind, mulW_ok (by omega), buf_pure_bind,
            addW_ok (by omega), buf_pure_bind, mulW_ok (by omega), buf_pure_bind]
          by_cases hce : (y.toNat * cel.size.1.toNat + x.toNat) * 4 + 4 < 2 ^ bits
          · rw [addW_ok hce, buf_pure_bind]
            congr 1
            funext cp
            rw [mulW_ok (by omega), buf_pure_bind]
            by_cases hte : (ty.toNat * f.file.header.width.toNat + tx.toNat) * 4 + 4 < 2 ^ bits
            · rw [addW_ok hte, buf_pure_bind]
            · exfalso; omega
          · exfalso; omega

theorem forEach_congr_mem {α : Type} {f g : α → Buf Unit} {xs : List α} (h : ∀ x ∈ xs, f x = g x) :
    Buf.forEach f xs = Buf.forEach g xs := by
  induction xs with
  | nil => rfl
  | cons x xs ih =>
    rw [Buf.forEach, Buf.forEach, h x (List.mem_cons_self ..), ih fun y hy => h y (List.mem_cons_of_mem _ hy)]

theorem lt_of_mem_u16Range {n x : UInt16} (h : x ∈ u16Range n) : x.toNat < n.toNat := by
  unfold u16Range at h
  obtain ⟨k, hk, rfl⟩ := List.mem_map.1 h
  have := List.mem_range.1 hk
  have := n.toNat_lt
  rw [UInt16.toNat_ofNat']
  omega

theorem renderCelW_eq {inflate : Inflater} {f : AsepriteFile} {sel : LayerSelection} {cel : FrameCel}
    (hf : ∀ im ∈ f.images, ImageFits bits im)
    (hc : f.file.header.width.toNat * f.file.header.height.toNat * 4 < 2 ^ bits)
    (hs : cel.size.1.toNat * cel.size.2.toNat * 4 < 2 ^ (bits - 1)) :
    f.renderCelW plat bits inflate sel cel = f.renderCel plat inflate sel cel := by
  unfold AsepriteFile.renderCelW AsepriteFile.renderCel
  cases f.layers[cel.layerIndex]? with
  | none => rfl
  | some layer =>
    dsimp only
    by_cases hg : layer.layerType = .group ∨ ¬ sel.isSelected cel.layerIndex layer
    · rw [if_pos hg, if_pos hg]
    · rw [if_neg hg, if_neg hg]
      have hs' := half_le hs
      rw [mulW_ok (by omega), buf_pure_bind, mulW_ok hs', buf_pure_bind, onFreshW_ok hs, loadImageW_eq hf]
      congr 1
      · funext t
        unfold Buf.onFresh
        cases f.loadImage inflate cel.imageIndex (List.replicate (cel.size.1.toNat * cel.size.2.toNat * 4) 0) with
        | mk o c => cases o <;> rfl
      · funext c
        congr 1
        funext fn
        refine forEach_congr_mem fun y hy => forEach_congr_mem fun x hx => ?_
        exact renderPixelW_eq hc hs' (lt_of_mem_u16Range hx) (lt_of_mem_u16Range hy)

theorem renderFrameW_eq {inflate : Inflater} {f : AsepriteFile} {sel : LayerSelection}
    (hf : ∀ im ∈ f.images, ImageFits bits im)
    (hc : f.file.header.width.toNat * f.file.header.height.toNat * 4 < 2 ^ bits)
    (hs : ∀ lf ∈ f.frames, ∀ cel ∈ lf.cels, cel.size.1.toNat * cel.size.2.toNat * 4 < 2 ^ (bits - 1)) (i : Nat) :
    f.renderFrameW plat bits inflate i sel = f.renderFrame plat inflate i sel := by
  unfold AsepriteFile.renderFrameW AsepriteFile.renderFrame
  rw [mulW_ok (by omega), buf_pure_bind, mulW_ok hc, buf_pure_bind]
  congr 1
  funext n
  by_cases hn : n < f.file.header.width.toNat * f.file.header.height.toNat * 4
  · rw [if_pos hn, if_pos hn]
  · rw [if_neg hn, if_neg hn]
    cases hi : f.frames[i]? with
    | none => rfl
    | some lf => exact forEach_congr_mem fun c hc' => renderCelW_eq hf hc (hs lf (List.mem_of_getElem? hi) c hc')

end Images

end Ase
