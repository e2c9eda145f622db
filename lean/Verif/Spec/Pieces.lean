import Verif.Spec.File

/-!
# The texts and byte slices inside what the parsers return

Used by property C27.  Every `&str` and every `&[u8]` in a chunk, and in a parsed file.  (The error inside a user data
chunk with malformed properties is not looked into.)
-/

namespace Ase.Spec

mutual

/-- The texts in a property value. -/
def valueTexts : Value → List String
  | .string s => [s]
  | .vector v => vectorTexts v
  | .mixedVector vs => valuesTexts vs
  | .propertiesMap m => mapTexts m
  | _ => []

/-- The texts in a vector. -/
def vectorTexts : PVector → List String
  | .mixed vs => valuesTexts vs
  | .string vs => vs
  | .vector vs => vectorsTexts vs
  | .propertiesMap vs => mapsTexts vs
  | _ => []

/-- The texts in some values. -/
def valuesTexts : List Value → List String
  | [] => []
  | v :: vs => valueTexts v ++ valuesTexts vs

/-- The texts in some vectors. -/
def vectorsTexts : List PVector → List String
  | [] => []
  | v :: vs => vectorTexts v ++ vectorsTexts vs

/-- The texts in a properties map: the names of its properties and the texts in their values. -/
def mapTexts : PropertiesMap → List String
  | .mk _ props => propertiesTexts props

/-- The texts in some properties maps. -/
def mapsTexts : List PropertiesMap → List String
  | [] => []
  | m :: ms => mapTexts m ++ mapsTexts ms

/-- The texts in a property: its name and the texts in its value. -/
def propertyTexts : Property → List String
  | .mk name value => name :: valueTexts value

/-- The texts in some properties. -/
def propertiesTexts : List Property → List String
  | [] => []
  | p :: ps => propertyTexts p ++ propertiesTexts ps

end

/-- The texts in user data: its text, and those in its properties if these are well formed. -/
def userDataTexts (u : UserDataChunk) : List String :=
  u.text.toList ++ match u.propertiesMaps with | some (.ok v) => mapsTexts v.2 | _ => []

/-- The byte slices in user data: the bytes behind the last properties map. -/
def userDataSlices (u : UserDataChunk) : List Bytes :=
  match u.propertiesMaps with | some (.ok v) => [v.1] | _ => []

/-- The byte slices in the content of a cel. -/
def contentSlices : CelContent → List Bytes
  | .image i => [i.data]
  | .linkedCel _ => []
  | .compressedTilemap _ _ _ _ _ _ _ data => [data]
  | .unknown _ data => [data]

/-- The texts in a chunk. -/
def chunkTexts : Chunk → List String
  | .layer c => c.name :: c.userData.toList.flatMap userDataTexts
  | .cel c => c.userData.toList.flatMap userDataTexts
  | .externalFiles c => c.files.map (·.fileName)
  | .mask c => [c.name]
  | .tags c => c.tags.flatMap fun t => t.name :: t.userData.toList.flatMap userDataTexts
  | .palette c => c.entries.filterMap (·.name)
  | .userData u => userDataTexts u
  | .slice c => c.name :: c.userData.toList.flatMap userDataTexts
  | .tileset c => [c.name]
  | .palette0004 _ | .palette0011 _ | .celExtra _ | .colorProfile _ | .path | .unsupported _ => []

/-- The byte slices in a chunk. -/
def chunkSlices : Chunk → List Bytes
  | .cel c => contentSlices c.content ++ c.userData.toList.flatMap userDataSlices
  | .celExtra c => [c.future]
  | .colorProfile c => match c.profile with | .embeddedICC data => [data] | _ => []
  | .mask c => [c.data]
  | .userData u => userDataSlices u
  | .tileset c => c.tiles.toList
  | .layer c => c.userData.toList.flatMap userDataSlices
  | .tags c => c.tags.flatMap fun t => t.userData.toList.flatMap userDataSlices
  | .slice c => c.userData.toList.flatMap userDataSlices
  | .palette0004 _ | .palette0011 _ | .externalFiles _ | .path | .palette _ | .unsupported _ => []

/-- The user data in a file: that of the sprite, the layers, the tags, the slices and the cels. -/
def fileUserData (f : File) : List UserDataChunk :=
  f.userData.toList ++ f.layers.filterMap (·.userData) ++ f.tags.filterMap (·.userData)
    ++ f.slices.filterMap (·.userData) ++ f.frames.flatMap fun fr => fr.cels.filterMap fun c => c.bind (·.userData)

/-- The texts in a file. -/
def fileTexts (f : File) : List String :=
  f.layers.map (·.name) ++ f.tags.map (·.name) ++ f.slices.map (·.name) ++ (fileUserData f).flatMap userDataTexts

/-- The byte slices in a file. -/
def fileSlices (f : File) : List Bytes :=
  (f.frames.flatMap fun fr => fr.cels.flatMap fun c => c.toList.flatMap fun c => contentSlices c.content)
    ++ (fileUserData f).flatMap userDataSlices

/-! ## How much there is (C28) -/

/-- The size of a text: its length prefix and its bytes. -/
def textSize (s : String) : Nat := 2 + (utf8 s).length

mutual

/-- The size of a property value: two for its type, one for a scalar, the sizes of its texts and elements. -/
def valueItems : Value → Nat
  | .string s => 2 + textSize s
  | .vector v => 2 + vectorItems v
  | .mixedVector vs => 2 + valuesItems vs
  | .propertiesMap m => 2 + mapItems m
  | _ => 3

/-- The size of a vector: six for its length and type, one for every scalar element, the sizes of other elements. -/
def vectorItems : PVector → Nat
  | .mixed vs => 6 + valuesItems vs
  | .bool vs => 6 + vs.length
  | .int8 vs => 6 + vs.length
  | .uint8 vs => 6 + vs.length
  | .int16 vs => 6 + vs.length
  | .uint16 vs => 6 + vs.length
  | .int32 vs => 6 + vs.length
  | .uint32 vs => 6 + vs.length
  | .int64 vs => 6 + vs.length
  | .uint64 vs => 6 + vs.length
  | .fixed vs => 6 + vs.length
  | .float vs => 6 + vs.length
  | .double vs => 6 + vs.length
  | .string vs => 6 + (vs.map textSize).sum
  | .point vs => 6 + vs.length
  | .size vs => 6 + vs.length
  | .rect vs => 6 + vs.length
  | .vector vs => 6 + vectorsItems vs
  | .propertiesMap vs => 6 + mapsItems vs
  | .uuid vs => 6 + vs.length

/-- The size of some values. -/
def valuesItems : List Value → Nat
  | [] => 0
  | v :: vs => valueItems v + valuesItems vs

/-- The size of some vectors. -/
def vectorsItems : List PVector → Nat
  | [] => 0
  | v :: vs => vectorItems v + vectorsItems vs

/-- The size of a properties map: eight for its key and length, the sizes of its properties. -/
def mapItems : PropertiesMap → Nat
  | .mk _ props => 8 + propertiesItems props

/-- The size of some properties maps. -/
def mapsItems : List PropertiesMap → Nat
  | [] => 0
  | m :: ms => mapItems m + mapsItems ms

/-- The size of a property: that of its name and that of its value. -/
def propertyItems : Property → Nat
  | .mk name value => textSize name + valueItems value

/-- The size of some properties. -/
def propertiesItems : List Property → Nat
  | [] => 0
  | p :: ps => propertyItems p + propertiesItems ps

end

/-- The size of user data: that of its text, of its properties maps and of the bytes behind them. -/
def userDataItems (u : UserDataChunk) : Nat :=
  (u.text.toList.map textSize).sum + match u.propertiesMaps with | some (.ok v) => mapsItems v.2 + v.1.length | _ => 0

/-- The size of a chunk: six for its header, the sizes of its texts, the lengths of its byte slices, one for each other
element of its lists. -/
def chunkWeight : Chunk → Nat
  | .userData u => 6 + userDataItems u
  | .celExtra c => 6 + c.future.length
  | .colorProfile c => 6 + match c.profile with | .embeddedICC data => data.length | _ => 0
  | .externalFiles c => 6 + (c.files.map fun f => 1 + textSize f.fileName).sum
  | .tags c => 6 + (c.tags.map fun t => 1 + textSize t.name).sum
  | .palette c => 6 + (c.entries.map fun e => 1 + (e.name.toList.map textSize).sum).sum
  | .layer c => 6 + textSize c.name
  | .mask c => 6 + textSize c.name + c.data.length
  | .slice c => 6 + textSize c.name + c.sliceKeys.length
  | .tileset c => 6 + textSize c.name + (c.tiles.getD []).length
  | .palette0004 c | .palette0011 c => 6 + (c.packets.map fun p => 1 + p.colors.length).sum
  | .cel c => 6 + ((contentSlices c.content).map List.length).sum
  | .path | .unsupported _ => 6

end Ase.Spec
