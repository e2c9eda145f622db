import Verif.Spec.Text

/-!
# The fields of a chunk, and what can be wrong with them

Written from `ase-file-specs.md`: a chunk is a sequence of fields, numbers of a fixed width and texts.  What comes next may
depend on the numbers before.
-/

namespace Ase.Spec

/-- What is expected in a chunk from some place on. -/
inductive Form where
  /-- nothing more: what follows may be anything -/
  | done
  /-- a number of `n` bytes, on which the rest may depend (a field of any kind that has `n` bytes) -/
  | num (n : Nat) (next : Nat → Form)
  /-- a STRING -/
  | text (next : Form)
  /-- the numbers before are not acceptable -/
  | refuse (e : ParseError)

/-- `Problem form b e`: the bytes `b` do not have the form, and `e` says what is wrong with the first field that is wrong.
`Eof` if it is not complete, pointing at the start of the field, or, for a text that is shorter than it should be, at the
start of the text itself; a UTF-8 error if it is a STRING that is not UTF-8. -/
inductive Problem : Form → Bytes → NomErr → Prop
  | short {n next b} : b.length < n → Problem (.num n next) b (.error (.nom b .eof))
  | later {n next x r e} : x < 256 ^ n → Problem (next x) r e → Problem (.num n next) (leBytes n x ++ r) e
  | noLength {next b} : b.length < 2 → Problem (.text next) b (.error (.nom b .eof))
  | shortText {next} {n : UInt16} {b} : b.length < n.toNat → Problem (.text next) (le16 n ++ b) (.error (.nom b .eof))
  | badText {next t n k r} : t.length < 2 ^ 16 → BadText t n k →
      Problem (.text next) (leNat16 t.length ++ t ++ r) (.error (.utf8Error n k))
  | afterText {next s r e} : FitsStr s → Problem next r e → Problem (.text next) (str s ++ r) e
  | refused {e b} : Problem (.refuse e) b (.failure e)

/-- Fields of these widths whose values do not matter. -/
def skips : List Nat → Form → Form
  | [], next => next
  | n :: ns, next => .num n fun _ => skips ns next

/-- The same fields `n` times. -/
def repeated : Nat → (Form → Form) → Form → Form
  | 0, _, next => next
  | n + 1, f, next => f (repeated n f next)

/-- Fields that are there only sometimes. -/
def onlyIf (c : Bool) (f : Form → Form) (next : Form) : Form := if c then f next else next

/-- FIXED: two words. -/
def fixedWidth : List Nat := [2, 2]

/-- Layer chunk (0x2004): the index of the tileset is there for tilemap layers. -/
def layerForm : Form :=
  skips [2] <| .num 2 fun type => skips [2, 2, 2, 2, 1, 3] <| .text <| onlyIf (type == 2) (skips [4]) .done

/-- Cel chunk (0x2005). -/
def celForm : Form :=
  skips [2, 2, 2, 1] <| .num 2 fun type => skips [2, 5] <|
    match type with
    | 0 => skips [2, 2] .done
    | 1 => skips [2] .done
    | 2 => skips [2, 2] .done
    | 3 => skips [2, 2, 2, 4, 4, 4, 4, 10] .done
    | _ => .done

/-- Cel extra chunk (0x2006). -/
def celExtraForm : Form := skips ([4] ++ fixedWidth ++ fixedWidth ++ fixedWidth ++ fixedWidth) .done

/-- Colour profile chunk (0x2007): an ICC profile is a DWORD with its length and that many bytes. -/
def colorProfileForm : Form :=
  .num 2 fun type => skips ([2] ++ fixedWidth ++ [8]) <| onlyIf (type == 2) (fun k => .num 4 fun n => skips [n] k) .done

/-- External files chunk (0x2008). -/
def externalFilesForm : Form :=
  .num 4 fun n => skips [8] <| repeated n (fun k => skips [4, 1, 7] <| .text k) .done

/-- Mask chunk (0x2016). -/
def maskForm : Form := skips [2, 2, 2, 2, 8] <| .text .done

/-- One tag.  The range must not be inverted. -/
def tagForm (k : Form) : Form :=
  .num 2 fun a => .num 2 fun z =>
    if z < a then .refuse (.invalidFrameRange (UInt16.ofNat a) (UInt16.ofNat z)) else skips [1, 2, 6, 3, 1] <| .text k

/-- Tags chunk (0x2018). -/
def tagsForm : Form := .num 2 fun n => skips [8] <| repeated n tagForm .done

/-- One entry of a palette chunk: flags, four colour bytes, the name if bit 0 is set. -/
def paletteEntryForm (k : Form) : Form :=
  .num 2 fun flags => skips [1, 1, 1, 1] <| onlyIf (flags.testBit 0) .text k

/-- Palette chunk (0x2019).  The first number is taken as the number of entries (see property C14); the indices must be
bytes in the right order. -/
def paletteForm : Form :=
  .num 4 fun n => .num 4 fun first =>
    if 255 < first then .refuse (.paletteError .firstColorIndexOutOfBounds)
    else .num 4 fun last =>
      if 255 < last then .refuse (.paletteError .lastColorIndexOutOfBounds)
      else if last < first then .refuse (.paletteError .firstColorIndexGreaterThanLastColorIndex)
      else skips [8] <| repeated n paletteEntryForm .done

/-- Old palette chunks (0x0004 and 0x0011): packets of colours, 0 standing for 256. -/
def oldPaletteForm : Form :=
  .num 2 fun n => repeated n
    (fun k => skips [1] <| .num 1 fun colors => repeated (if colors = 0 then 256 else colors) (skips [1, 1, 1]) k) .done

/-- Slice chunk (0x2022): bit 0 of the flags adds a nine-patch to every key, bit 1 a pivot. -/
def sliceForm : Form :=
  .num 4 fun n => .num 4 fun flags => skips [4] <| .text <| repeated n
    (fun k => skips [4, 4, 4, 4, 4] <| onlyIf (flags.testBit 0) (skips [4, 4, 4, 4]) <|
      onlyIf (flags.testBit 1) (skips [4, 4]) k) .done

/-- Tileset chunk (0x2023): bit 0 of the flags adds a link to an external file, bit 1 the tiles. -/
def tilesetForm : Form :=
  skips [4] <| .num 4 fun flags => skips [4, 2, 2, 2, 14] <| .text <| onlyIf (flags.testBit 0) (skips [4, 4]) <|
    onlyIf (flags.testBit 1) (fun k => .num 4 fun n => skips [n] k) .done

/-- User data chunk (0x2020): bit 0 of the flags adds a text, bit 1 a colour, bit 2 properties.  The size of the properties
counts the two numbers before them; a size below 8 is a panic in debug builds, and in release builds wraps around to a
size that no input has. -/
def userDataForm (debug : Bool) : Form :=
  .num 4 fun flags => onlyIf (flags.testBit 0) .text <| onlyIf (flags.testBit 1) (skips [1, 1, 1, 1]) <|
    onlyIf (flags.testBit 2) (fun k => .num 4 fun size => skips [4] <|
      if 8 ≤ size then skips [size - 8] k else if debug then .done else skips [2 ^ 64 + size - 8] k) .done

/-- The form of the body of a chunk. -/
def bodyForm (debug : Bool) (code : UInt16) : Form :=
  match code.toNat with
  | 0x0004 => oldPaletteForm
  | 0x0011 => oldPaletteForm
  | 0x2004 => layerForm
  | 0x2005 => celForm
  | 0x2006 => celExtraForm
  | 0x2007 => colorProfileForm
  | 0x2008 => externalFilesForm
  | 0x2016 => maskForm
  | 0x2018 => tagsForm
  | 0x2019 => paletteForm
  | 0x2020 => userDataForm debug
  | 0x2022 => sliceForm
  | 0x2023 => tilesetForm
  | _ => .done

/-! ## Properties -/

mutual

/-- A property value: its type, and the value.  Nested at most `d` deep: one that is nested deeper is a stack overflow, not
an error. -/
def valueForm : Nat → Form → Form
  | 0, _ => .done
  | d + 1, k => .num 2 fun type => elementForm d type k

/-- A vector: the number of elements, their type (0 if every element has its own), and the elements. -/
def vectorForm : Nat → Form → Form
  | 0, _ => .done
  | d + 1, k => .num 4 fun n => .num 2 fun type =>
      if type = 0 then repeated n (valueForm d) k
      else if type ≤ 19 then repeated n (elementForm d type) k
      else .refuse (.invalidPropertyType (UInt16.ofNat type))

/-- A map: an id, the number of properties, and a name and a value for each of them. -/
def mapForm : Nat → Form → Form
  | 0, _ => .done
  | d + 1, k => skips [4] <| .num 4 fun n => repeated n (propertyForm d) k

/-- One property. -/
def propertyForm : Nat → Form → Form
  | 0, _ => .done
  | d + 1, k => .text <| valueForm d k

/-- A value of the type with this number; there are 19 types. -/
def elementForm : Nat → Nat → Form → Form
  | d, type, k =>
    match type with
    | 1 => skips [1] k
    | 2 => skips [1] k
    | 3 => skips [1] k
    | 4 => skips [2] k
    | 5 => skips [2] k
    | 6 => skips [4] k
    | 7 => skips [4] k
    | 8 => skips [8] k
    | 9 => skips [8] k
    | 10 => skips fixedWidth k
    | 11 => skips [4] k
    | 12 => skips [8] k
    | 13 => .text k
    | 14 => skips [4, 4] k
    | 15 => skips [4, 4] k
    | 16 => skips [4, 4, 4, 4] k
    | 17 => vectorForm d k
    | 18 => mapForm d k
    | 19 => skips [16] k
    | _ => .refuse (.invalidPropertyType (UInt16.ofNat type))

end

end Ase.Spec
