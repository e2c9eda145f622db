import Verif.Model.Loader

/-!
# The texts of errors

`LoadSpriteError::Parse { message }` holds a text.  For a parse error it is `nom::Err`'s `Display`, which uses the derived
`Debug` of `ParseError`, of nom's `Error` and of `std::str::Utf8Error`, modelled from their documentation.
-/

namespace Ase

/-- the characters of a literal text -/
@[irreducible] def lit (s : String) : List Char := s.toList

/-- a number in decimal -/
def decimal (n : Nat) : List Char := Nat.toDigits 10 n

/-- `Debug` of `&[u8]`: what follows an element -/
def debugItems : Bytes → List Char
  | [] => lit "]"
  | x :: xs => lit ", " ++ decimal x.toNat ++ debugItems xs

/-- `Debug` of `&[u8]`: the elements in decimal, between brackets, with commas -/
def debugBytes : Bytes → List Char
  | [] => lit "[]"
  | x :: xs => lit "[" ++ decimal x.toNat ++ debugItems xs

/-- derived `Debug` of nom's `ErrorKind` -/
def ErrorKind.debug : ErrorKind → List Char
  | .eof => lit "Eof"
  | .tag => lit "Tag"
  | .many1 => lit "Many1"

/-- palette.rs:133: derived `Debug` -/
def PaletteError.debug : PaletteError → List Char
  | .missing => lit "Missing"
  | .empty => lit "Empty"
  | .firstColorIndexOutOfBounds => lit "FirstColorIndexOutOfBounds"
  | .lastColorIndexOutOfBounds => lit "LastColorIndexOutOfBounds"
  | .firstColorIndexGreaterThanLastColorIndex => lit "FirstColorIndexGreaterThanLastColorIndex"
  | .indexOutOfBounds => lit "IndexOutOfBounds"

/-- derived `Debug` of `Option<u8>` -/
def debugOption : Option UInt8 → List Char
  | none => lit "None"
  | some k => lit "Some(" ++ decimal k.toNat ++ lit ")"

/-- errors.rs:10: derived `Debug` -/
def ParseError.debug : ParseError → List Char
  | .dwordToUsize n => lit "DwordToUsize(" ++ decimal n.toNat ++ lit ")"
  | .invalidFrameSize n => lit "InvalidFrameSize(" ++ decimal n.toNat ++ lit ")"
  | .invalidChunkSize n => lit "InvalidChunkSize(" ++ decimal n.toNat ++ lit ")"
  | .utf8Error n k => lit "Utf8Error(Utf8Error { valid_up_to: " ++ decimal n ++ lit ", error_len: " ++
      debugOption k ++ lit " })"
  | .paletteError e => lit "PaletteError(" ++ e.debug ++ lit ")"
  | .invalidFrameRange a b => lit "InvalidFrameRange(" ++ decimal a.toNat ++ lit ", " ++ decimal b.toNat ++
      lit ")"
  | .layerIndexOutOfBounds => lit "LayerIndexOutOfBounds"
  | .invalidPropertyType n => lit "InvalidPropertyType(" ++ decimal n.toNat ++ lit ")"
  | .nom input kind => lit "Nom(Error { input: " ++ debugBytes input ++ lit ", code: " ++ kind.debug ++
      lit " })"

/-- `Display` of `nom::Err` -/
def NomErr.display : NomErr → List Char
  | .error e => lit "Parsing Error: " ++ e.debug
  | .failure e => lit "Parsing Failure: " ++ e.debug

/-- mod.rs:131-133, 188-193, 195-197: the field `message` -/
def LoadSpriteError.message : LoadSpriteError → String
  | .parse e => String.ofList e.display
  | .invalidLinkedCel frame layer => String.ofList (lit "invalid linked cel at frame " ++ decimal frame ++
      lit " layer " ++ decimal layer.toNat)
  | .invalidCel => "invalid cel"

/-- mod.rs:411: `Display` of `LoadSpriteError::Parse` -/
def LoadSpriteError.display (e : LoadSpriteError) : String := "parsing failed " ++ e.message

/-- mod.rs:429-445: `Display` of `LoadImageError` -/
def LoadImageError.display : LoadImageError → String
  | .targetBufferTooSmall => "target buffer too small"
  | .missingPalette => "missing palette"
  | .unsupportedColorDepth => "unsupported color depth"
  | .decompressError => "decompression failed"
  | .invalidImageData => "invalid image data"

end Ase
