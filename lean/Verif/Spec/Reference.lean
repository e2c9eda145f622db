import Verif.Spec.Assemble
import Verif.Spec.Loader
import Verif.Spec.Render

/-!
# How the format document composes a frame

The picture a frame shows, from the header and the chunks of the file alone, following "Aseprite File Format
(.ase/.aseprite) Specifications":

* "Layer Chunk": layers are drawn in the order of their chunks; the *child level* defines the groups; flag 1 makes a
  layer visible, and a layer in a hidden group is hidden; flag 8 marks the background layer, 64 a reference layer
  (which is not part of the picture); the opacity counts only if bit 0 of the header flags is set.
* "Cel Chunk": a cel has an opacity of its own; the z-index moves it in front of or behind cels of other layers
  (NOTE.5: the order is `layer index + z-index`, and for equal order the z-index decides).
* "Header": in indexed sprites the *transparent index* is transparent "in all non-background layers".

Only files with bit 1 of the header flags clear are described (with bit 1 groups are composed separately first), and
only images (the crate cannot load sprites with tilemap cels).  Used by the properties C58 and C59.
-/

namespace Ase.Spec.Doc

/-- All layers in file order; a layer is identified by its place in this list. -/
def layers (raw : RawFile) : List LayerChunk :=
  (allChunks raw.frames).filterMap fun | .layer l => some l | _ => none

/-- The cel chunks of a frame. -/
def cels (fr : RawFrame) : List CelChunk := fr.chunks.filterMap fun | .cel c => some c | _ => none

/-- The cel of frame `i` on layer `l` (the last one if several chunks claim the place). -/
def celOf (raw : RawFile) (i l : Nat) : Option CelChunk := (raw.frames[i]?).bind fun fr => slot (cels fr) l

/-- The image shown by a cel of layer `l`: its own, or that of the frame it is linked with. -/
def imageOf (raw : RawFile) (l : Nat) (c : CelChunk) : Option Image :=
  match c.content with
  | .image im => some im
  | .linkedCel j => (celOf raw j.toNat l).bind ownImage
  | _ => none

/-- A bit of the flags of a layer. -/
def flag (n : UInt16) (l : LayerChunk) : Bool := l.flags.bits &&& n == n

/-- Layer `j` is a group around layer `i`: it comes before it, and all layers from there up to `i` are deeper. -/
def encloses (ls : List LayerChunk) (j i : Nat) : Bool :=
  match ls[j]? with
  | none => false
  | some g => decide (j < i) && ((ls.take (i + 1)).drop (j + 1)).all fun l => decide (g.childLevel < l.childLevel)

/-- Layer `i` is seen: it is visible, and so is every group around it. -/
def shown (ls : List LayerChunk) (i : Nat) : Bool :=
  (ls[i]?).any (flag 1) && (List.range i).all fun j => !encloses ls j i || (ls[j]?).any (flag 1)

/-- Something to be drawn: an image, as a cel on a layer with its number. -/
structure Item where
  layer : LayerChunk
  number : Nat
  cel : CelChunk
  image : Image

/-- What layer `l` contributes to frame `i`. -/
def item (raw : RawFile) (i : Nat) (layer : LayerChunk) (l : Nat) : Option Item :=
  if layer.layerType = .normal ∧ shown (layers raw) l = true ∧ flag 64 layer = false then
    (celOf raw i l).bind fun c => (imageOf raw l c).map fun im => ⟨layer, l, c, im⟩
  else none

/-- What is to be drawn for frame `i`, by layers from bottom to top. -/
def items (raw : RawFile) (i : Nat) : List Item := (layers raw).zipIdx.filterMap fun (layer, l) => item raw i layer l

/-- `a` is to be drawn before `b`, or may be. -/
def below (a b : Item) : Bool :=
  let oa : Int := a.number + a.cel.zIndex.toInt
  let ob : Int := b.number + b.cel.zIndex.toInt
  decide (oa < ob) || (decide (oa = ob) && decide (a.cel.zIndex ≤ b.cel.zIndex))

/-- Put an item where it belongs in a sorted list. -/
def insert (a : Item) : List Item → List Item
  | [] => [a]
  | b :: bs => if below a b then a :: b :: bs else b :: insert a bs

/-- What is to be drawn for frame `i`, in the right order (`stack_sorted`). -/
def stack (raw : RawFile) (i : Nat) : List Item := (items raw i).foldr insert []

/-- The opacity with which an item is drawn: that of its layer times that of its cel. -/
def opacity (raw : RawFile) (it : Item) : UInt8 :=
  let layer := if raw.header.flags &&& 1 = 1 then it.layer.opacity else 255
  UInt8.ofNat (times layer.toNat it.cel.opacity.toNat)

/-- The bytes of the image of an item; bytes missing at the end count as zero. -/
def bytes (inflate : Inflater) (raw : RawFile) (im : Image) : Bytes :=
  let n := pixelCount im * bytesPerPixel raw.header.colorDepth
  (if im.compressed then (inflate im.data n).2 else im.data) ++ List.replicate n 0

/-- The colour of pixel number `p` of an item: four bytes red, green, blue, alpha; or two bytes value, alpha; or one
byte, an index into the palette. -/
def color (inflate : Inflater) (raw : RawFile) (it : Item) (p : Nat) : Option Color :=
  let bs := bytes inflate raw it.image
  match raw.header.colorDepth with
  | .rgba =>
    match bs.drop (4 * p) with
    | r :: g :: b :: a :: _ => some ⟨r, g, b, a⟩
    | _ => none
  | .grayscale =>
    match bs.drop (2 * p) with
    | v :: a :: _ => some ⟨v, v, v, a⟩
    | _ => none
  | .indexed => (bs[p]?).map fun i =>
      let c := lastWrite (paletteWrites (allChunks raw.frames)) i.toNat
      if i = raw.header.transparentIndex ∧ flag 8 it.layer = false then ⟨c.red, c.green, c.blue, 0⟩
      else ⟨c.red, c.green, c.blue, c.alpha⟩
  | .unknown _ => none

/-- The number of the pixel of an item that lies on the canvas pixel `(x, y)`. -/
def place (it : Item) (x y : Nat) : Option Nat :=
  let dx : Int := x - it.cel.x.toInt
  let dy : Int := y - it.cel.y.toInt
  if 0 ≤ dx ∧ dx < it.image.width.toNat ∧ 0 ≤ dy ∧ dy < it.image.height.toNat then
    some (dy.toNat * it.image.width.toNat + dx.toNat)
  else none

/-- The colour of the canvas pixel `(x, y)` after drawing the items in order, starting from the colour `c`. -/
def draw (plat : Plat) (inflate : Inflater) (raw : RawFile) (x y : Nat) : List Item → Color → Run Color
  | [], c => .ok c
  | it :: rest, c =>
    match (place it x y).bind (color inflate raw it) with
    | some front => (blend plat it.layer.blendMode c front (opacity raw it)).bind (draw plat inflate raw x y rest)
    | none => draw plat inflate raw x y rest c

/-- The colour of the pixel `(x, y)` of frame `i` on a canvas where it had colour `c` before. -/
def picture (plat : Plat) (inflate : Inflater) (raw : RawFile) (i x y : Nat) (c : Color) : Run Color :=
  draw plat inflate raw x y (stack raw i) c

/-- What the crate ignores does not occur in frame `i`. -/
structure Plain (inflate : Inflater) (raw : RawFile) (i : Nat) : Prop where
  /-- groups are not to be composed separately -/
  flat : raw.header.flags &&& 2 = 0
  /-- there are only normal layers and groups (C34) -/
  types : ∀ l ∈ layers raw, l.layerType = .normal ∨ l.layerType = .group
  /-- z-indices do not change the order of the layers -/
  order : (items raw i).Pairwise fun a b => below a b = true
  /-- the layer opacities are valid, and cels have no opacity of their own -/
  opacity : ∀ it ∈ items raw i, it.cel.opacity = 255 ∧ (raw.header.flags &&& 1 = 1 ∨ it.layer.opacity = 255)
  /-- no visible layer with a cel is inside a hidden group or a reference layer -/
  visible : ∀ p ∈ (layers raw).zipIdx, p.1.layerType = .normal → (celOf raw i p.2).isSome = true →
    flag 1 p.1 = true → shown (layers raw) p.2 = true ∧ flag 64 p.1 = false
  /-- on a background layer of an indexed sprite the transparent index is not used -/
  background : raw.header.colorDepth = .indexed → ∀ it ∈ items raw i, flag 8 it.layer = true →
    ∀ p, p < pixelCount it.image → (bytes inflate raw it.image)[p]? ≠ some raw.header.transparentIndex

end Ase.Spec.Doc
