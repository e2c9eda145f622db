import Verif.Model.File

/-!
# Numeric codes of the Aseprite format

The code tables of `ase-file-specs.md`, as association lists.  `decodeBy` is the documented rule "a listed code
has its meaning, any other code is unknown and kept".  Where the crate deviates from that rule at one code, the
deviation is stated explicitly (see property C19).
-/

namespace Ase.Spec

/-- A listed code has its listed meaning, every other code `w` is `unknown w`. -/
def decodeBy {α ω : Type} [BEq ω] (table : List (ω × α)) (unknown : ω → α) (w : ω) : α :=
  (table.lookup w).getD (unknown w)

/-- Colour depth: bits per pixel. -/
def colorDepths : List (UInt16 × ColorDepth) := [(8, .indexed), (16, .grayscale), (32, .rgba)]

/-- Blend modes of layers. -/
def blendModes : List (UInt16 × BlendMode) :=
  [(0, .normal), (1, .multiply), (2, .screen), (3, .overlay), (4, .darken), (5, .lighten),
   (6, .colorDodge), (7, .colorBurn), (8, .hardLight), (9, .softLight), (10, .difference),
   (11, .exclusion), (12, .hue), (13, .saturation), (14, .color), (15, .luminosity), (16, .addition),
   (17, .subtract), (18, .divide)]

/-- Layer types. -/
def layerTypes : List (UInt16 × LayerType) := [(0, .normal), (1, .group), (2, .tilemap)]

/-- Cel types. -/
def celTypes : List (UInt16 × CelType) :=
  [(0, .rawImageData), (1, .linkedCel), (2, .compressedImage), (3, .compressedTilemap)]

/-- Loop animation directions of tags. -/
def animationDirections : List (UInt8 × AnimationDirection) :=
  [(0, .forward), (1, .reverse), (2, .pingPong), (3, .pingPongReverse)]

/-- Colour profile types. -/
def colorProfileTypes : List (UInt16 × ColorProfileType) :=
  [(0, .noColorProfile), (1, .srgb), (2, .embeddedICC)]

/-- Types of external files. -/
def externalFileTypes : List (UInt8 × ExternalFileType) :=
  [(0, .externalPalette), (1, .externalTileset), (2, .extensionNameForProperties)]

/-- Chunk types. -/
def chunkTypes : List (UInt16 × ChunkType) :=
  [(0x0004, .palette0004), (0x0011, .palette0011), (0x2004, .layer), (0x2005, .cel), (0x2006, .celExtra),
   (0x2007, .colorProfile), (0x2008, .externalFile), (0x2016, .mask), (0x2017, .path), (0x2018, .tags),
   (0x2019, .palette), (0x2020, .userData), (0x2022, .slice), (0x2023, .tileset)]

/-- What the crate makes of a colour depth word (as documented). -/
def colorDepthOf (w : UInt16) : ColorDepth := decodeBy colorDepths .unknown w
/-- What the crate makes of a layer type word (as documented). -/
def layerTypeOf (w : UInt16) : LayerType := decodeBy layerTypes .unknown w
/-- What the crate makes of a blend mode word: as documented, but 19 becomes `Unknown(0)`. -/
def blendModeOf (w : UInt16) : BlendMode := if w = 19 then .unknown 0 else decodeBy blendModes .unknown w
/-- What the crate makes of a cel type word: as documented, but 4 becomes `Unknown(0)`. -/
def celTypeOf (w : UInt16) : CelType := if w = 4 then .unknown 0 else decodeBy celTypes .unknown w
/-- What the crate makes of an animation direction byte: as documented, but 4 becomes `Unknown(0)`. -/
def animationDirectionOf (b : UInt8) : AnimationDirection :=
  if b = 4 then .unknown 0 else decodeBy animationDirections .unknown b
/-- What the crate makes of a colour profile word: as documented, but 3 becomes `Unknown(0)`. -/
def colorProfileTypeOf (w : UInt16) : ColorProfileType :=
  if w = 3 then .unknown 0 else decodeBy colorProfileTypes .unknown w
/-- What the crate makes of an external file type byte: as documented, but 3 becomes `Unknown(0)`. -/
def externalFileTypeOf (b : UInt8) : ExternalFileType :=
  if b = 3 then .unknown 0 else decodeBy externalFileTypes .unknown b

end Ase.Spec
