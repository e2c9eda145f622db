import Verif.Model.Cost

/-!
# Forgetting the step counts

`erase` forgets the number of steps; it turns every counting parser of `Model/Cost` into the parser of the
model.
-/

namespace Ase.Timed

/-- the parser without its step count -/
def erase {α : Type} (p : T α) : P α := fun b => (p b).2

@[simp] theorem erase_pure {α : Type} (a : α) : erase (pure a : T α) = pure a := rfl

@[simp] theorem erase_bind {α β : Type} (p : T α) (f : α → T β) :
    erase (p >>= f) = erase p >>= fun a => erase (f a) := by
  funext b
  show (T.bind p f b).2 = P.bind (erase p) (fun a => erase (f a)) b
  unfold T.bind P.bind erase
  rcases p b with ⟨t, ⟨r, a⟩ | e | k⟩ <;> rfl

@[simp] theorem erase_fail {α : Type} (e : NomErr) : erase (T.fail e : T α) = P.fail e := rfl
@[simp] theorem erase_panic {α : Type} (k : Panic) : erase (T.panic k : T α) = P.panic k := rfl
@[simp] theorem erase_tick (n : Nat) : erase (T.tick n) = pure () := rfl
@[simp] theorem erase_take (n : Nat) : erase (take n) = Ase.take n := rfl
@[simp] theorem erase_tag (t : Bytes) : erase (tag t) = Ase.tag t := rfl
@[simp] theorem erase_remaining : erase T.remaining = P.remaining := rfl
@[simp] theorem erase_skipRest : erase T.skipRest = P.skipRest := rfl

@[simp] theorem erase_lift {α : Type} (x : Outcome NomErr α) :
    erase (T.lift x) = fun b => x.bind fun a => .ok (b, a) := rfl

@[simp] theorem erase_onSlice {α : Type} (p : T α) (s : Bytes) :
    erase (T.onSlice p s) = P.onSlice (erase p) s := by
  funext b
  show (T.onSlice p s b).2 = P.onSlice (erase p) s b
  unfold T.onSlice P.onSlice erase
  rcases p s with ⟨t, ⟨r, a⟩ | e | k⟩ <;> rfl

@[simp] theorem erase_ite {α : Type} (c : Prop) [Decidable c] (p q : T α) :
    erase (if c then p else q) = if c then erase p else erase q := by split <;> rfl

/-- `pure () >>= f` is `f ()` -/
@[simp] theorem P_pure_bind {α β : Type} (a : α) (f : α → P β) : (pure a >>= f : P β) = f a := rfl

@[simp] theorem erase_cond {α : Type} (c : Bool) (p : T α) : erase (cond c p) = Ase.cond c (erase p) := by
  unfold cond Ase.cond
  cases c <;> simp

@[simp] theorem erase_count {α : Type} (p : T α) (n : Nat) : erase (count p n) = Ase.count (erase p) n := by
  induction n with
  | zero => rfl
  | succ n ih => unfold count Ase.count; simp [ih]

theorem erase_many1Loop {α : Type} (p : T α) (b : Bytes) :
    (many1Loop p b).2 = Ase.many1Loop (erase p) b := by
  induction h : b.length using Nat.strongRecOn generalizing b with
  | ind n ih =>
    rw [many1Loop, Ase.many1Loop]
    unfold erase
    rcases hp : p b with ⟨t, ⟨r, a⟩ | e | k⟩
    · simp only
      by_cases hr : r.length < b.length
      · rw [dif_pos hr, dif_pos hr]
        have := ih r.length (h ▸ hr) r rfl
        unfold erase at this
        rw [← this]
        rcases many1Loop p r with ⟨t', ⟨r', xs⟩ | e | k⟩ <;> rfl
      · rw [dif_neg hr, dif_neg hr]
    · cases e <;> rfl
    · rfl

@[simp] theorem erase_many1 {α : Type} (p : T α) : erase (many1 p) = Ase.many1 (erase p) := by
  have h : erase (many1Loop p) = Ase.many1Loop (erase p) := funext fun b => erase_many1Loop p b
  unfold many1 Ase.many1
  refine (erase_bind _ _).trans ?_
  congr; funext x
  refine (erase_bind (many1Loop p : T _) _).trans ?_
  rw [h]
  rfl

@[simp] theorem erase_allConsuming {α : Type} (p : T α) :
    erase (allConsuming p) = Ase.allConsuming (erase p) := by
  funext b
  show (allConsuming p b).2 = Ase.allConsuming (erase p) b
  unfold allConsuming Ase.allConsuming erase
  rcases p b with ⟨t, ⟨r, a⟩ | e | k⟩
  · cases r <;> rfl
  · rfl
  · rfl

/-! ## Scalars -/

@[simp] theorem erase_leUint (n : Nat) : erase (leUint n) = Ase.leUint n := by simp [leUint, Ase.leUint]
@[simp] theorem erase_byte : erase byte = Ase.byte := by simp [byte, Ase.byte]
@[simp] theorem erase_word : erase word = Ase.word := by simp [word, Ase.word]
@[simp] theorem erase_short : erase short = Ase.short := by simp [short, Ase.short]
@[simp] theorem erase_dword : erase dword = Ase.dword := by simp [dword, Ase.dword]
@[simp] theorem erase_long : erase long = Ase.long := by simp [long, Ase.long]
@[simp] theorem erase_leI8 : erase leI8 = Ase.leI8 := by simp [leI8, Ase.leI8]
@[simp] theorem erase_leU64 : erase leU64 = Ase.leU64 := by simp [leU64, Ase.leU64]
@[simp] theorem erase_leI64 : erase leI64 = Ase.leI64 := by simp [leI64, Ase.leI64]
@[simp] theorem erase_parsePoint : erase parsePoint = Ase.parsePoint := by simp [parsePoint, Ase.parsePoint]
@[simp] theorem erase_parseSize : erase parseSize = Ase.parseSize := by simp [parseSize, Ase.parseSize]
@[simp] theorem erase_parseRect : erase parseRect = Ase.parseRect := by simp [parseRect, Ase.parseRect]
@[simp] theorem erase_dwordSize (f : UInt32 → ParseError) : erase (dwordSize f) = Ase.dwordSize f := by
  simp [dwordSize, Ase.dwordSize]
@[simp] theorem erase_parseDwordAsUsize : erase parseDwordAsUsize = Ase.parseDwordAsUsize := by
  simp [parseDwordAsUsize, Ase.parseDwordAsUsize]
@[simp] theorem erase_parseDwordAsU8 (e : ParseError) : erase (parseDwordAsU8 e) = Ase.parseDwordAsU8 e := by
  simp [parseDwordAsU8, Ase.parseDwordAsU8]
@[simp] theorem erase_parseString : erase parseString = Ase.parseString := by
  simp only [parseString, Ase.parseString, erase_bind, erase_word, erase_take, erase_tick, P_pure_bind]
  congr; funext n; congr; funext bs
  cases utf8Decode bs <;> rfl
@[simp] theorem erase_parseUuid : erase parseUuid = Ase.parseUuid := by simp [parseUuid, Ase.parseUuid]
@[simp] theorem erase_fixed : erase fixed = Ase.fixed := by simp [fixed, Ase.fixed]
@[simp] theorem erase_parseColor : erase parseColor = Ase.parseColor := by simp [parseColor, Ase.parseColor]
@[simp] theorem erase_parseRgb : erase parseRgb = Ase.parseRgb := by simp [parseRgb, Ase.parseRgb]

/-! ## User data -/

theorem erase_properties (d : Nat) :
    erase (parseValue d) = Ase.parseValue d ∧ erase (parseVector d) = Ase.parseVector d ∧
    erase (parsePropertiesMap d) = Ase.parsePropertiesMap d ∧ erase (parseProperty d) = Ase.parseProperty d := by
  induction d with
  | zero =>
    refine ⟨?_, ?_, ?_, ?_⟩
    · rw [parseValue, Ase.parseValue]; rfl
    · rw [parseVector, Ase.parseVector]; rfl
    · rw [parsePropertiesMap, Ase.parsePropertiesMap]; rfl
    · rw [parseProperty, Ase.parseProperty]; rfl
  | succ d ih =>
    obtain ⟨h1, h2, h3, h4⟩ := ih
    refine ⟨?_, ?_, ?_, ?_⟩
    · rw [parseValue, Ase.parseValue]
      simp only [erase_bind, erase_word]
      congr; funext code
      cases PropertyType.fromRepr code.toNat with
      | none => rfl
      | some t => cases t <;> simp [h2, h3]
    · rw [parseVector, Ase.parseVector]
      simp only [erase_bind, erase_word, erase_parseDwordAsUsize, erase_ite]
      congr; funext n; congr; funext code
      congr
      · simp [h1]
      · cases PropertyType.fromRepr code.toNat with
        | none => rfl
        | some t => cases t <;> simp [h2, h3]
    · rw [parsePropertiesMap, Ase.parsePropertiesMap]
      simp [h4]
    · rw [parseProperty, Ase.parseProperty]
      simp [h1]

@[simp] theorem erase_parsePropertiesMap (d : Nat) : erase (parsePropertiesMap d) = Ase.parsePropertiesMap d :=
  (erase_properties d).2.2.1

theorem erase_tryOn {α : Type} (p : T α) (s : Bytes) :
    erase (T.tryOn p s) = fun b => match erase p s with
      | .ok v => .ok (b, .ok v)
      | .err e => .ok (b, .error e)
      | .panic k => .panic k := by
  funext b
  show (T.tryOn p s b).2 = _
  unfold T.tryOn erase
  rcases p s with ⟨t, v | e | k⟩ <;> rfl

@[simp] theorem erase_parsePropertiesMaps (plat : Plat) :
    erase (parsePropertiesMaps plat) = Ase.parsePropertiesMaps plat := by
  simp only [parsePropertiesMaps, Ase.parsePropertiesMaps, erase_bind, erase_parseDwordAsUsize, erase_lift,
    erase_take, erase_tryOn, erase_count, erase_parsePropertiesMap]
  congr; funext a; congr; funext n; congr; funext k; congr; funext s; funext b
  cases Ase.count (Ase.parsePropertiesMap plat.stack) n s <;> rfl

@[simp] theorem erase_parseUserDataChunk (plat : Plat) :
    erase (parseUserDataChunk plat) = Ase.parseUserDataChunk plat := by
  simp [parseUserDataChunk, Ase.parseUserDataChunk]

/-! ## Header and chunks -/

@[simp] theorem erase_parseColorDepth : erase parseColorDepth = Ase.parseColorDepth := by
  simp [parseColorDepth, Ase.parseColorDepth]
@[simp] theorem erase_parseHeaderFields : erase parseHeaderFields = Ase.parseHeaderFields := by
  simp [parseHeaderFields, Ase.parseHeaderFields]
@[simp] theorem erase_parseHeader : erase parseHeader = Ase.parseHeader := by
  simp [parseHeader, Ase.parseHeader]
@[simp] theorem erase_parsePacket : erase parsePacket = Ase.parsePacket := by
  simp [parsePacket, Ase.parsePacket]
@[simp] theorem erase_parseOldPaletteChunk : erase parseOldPaletteChunk = Ase.parseOldPaletteChunk := by
  simp [parseOldPaletteChunk, Ase.parseOldPaletteChunk]
@[simp] theorem erase_parseLayerChunk : erase parseLayerChunk = Ase.parseLayerChunk := by
  simp [parseLayerChunk, Ase.parseLayerChunk]
@[simp] theorem erase_parseCelContent (t : CelType) : erase (parseCelContent t) = Ase.parseCelContent t := by
  cases t <;> simp [parseCelContent, Ase.parseCelContent]
@[simp] theorem erase_parseCelChunk : erase parseCelChunk = Ase.parseCelChunk := by
  simp [parseCelChunk, Ase.parseCelChunk]
@[simp] theorem erase_parseCelExtraChunk : erase parseCelExtraChunk = Ase.parseCelExtraChunk := by
  simp [parseCelExtraChunk, Ase.parseCelExtraChunk]
@[simp] theorem erase_parseColorProfileBody (t : ColorProfileType) :
    erase (parseColorProfileBody t) = Ase.parseColorProfileBody t := by
  cases t <;> simp [parseColorProfileBody, Ase.parseColorProfileBody]
@[simp] theorem erase_parseColorProfile : erase parseColorProfile = Ase.parseColorProfile := by
  simp [parseColorProfile, Ase.parseColorProfile]
@[simp] theorem erase_parseExternalFile : erase parseExternalFile = Ase.parseExternalFile := by
  simp [parseExternalFile, Ase.parseExternalFile]
@[simp] theorem erase_parseExternalFilesChunk : erase parseExternalFilesChunk = Ase.parseExternalFilesChunk := by
  simp [parseExternalFilesChunk, Ase.parseExternalFilesChunk]
@[simp] theorem erase_parseMaskChunk : erase parseMaskChunk = Ase.parseMaskChunk := by
  simp [parseMaskChunk, Ase.parseMaskChunk]
@[simp] theorem erase_color3 (bs : Bytes) : erase (color3 bs) = Ase.color3 bs := by
  rcases bs with _ | ⟨c0, _ | ⟨c1, _ | ⟨c2, t⟩⟩⟩ <;> rfl
@[simp] theorem erase_parseTag : erase parseTag = Ase.parseTag := by
  simp [parseTag, Ase.parseTag]
@[simp] theorem erase_parseTagsChunk : erase parseTagsChunk = Ase.parseTagsChunk := by
  simp [parseTagsChunk, Ase.parseTagsChunk]
@[simp] theorem erase_parsePaletteEntry : erase parsePaletteEntry = Ase.parsePaletteEntry := by
  simp [parsePaletteEntry, Ase.parsePaletteEntry]
@[simp] theorem erase_parsePaletteChunk : erase parsePaletteChunk = Ase.parsePaletteChunk := by
  simp [parsePaletteChunk, Ase.parsePaletteChunk]
@[simp] theorem erase_parseNinePatch : erase parseNinePatch = Ase.parseNinePatch := by
  simp [parseNinePatch, Ase.parseNinePatch]
@[simp] theorem erase_parsePivot : erase parsePivot = Ase.parsePivot := by
  simp [parsePivot, Ase.parsePivot]
@[simp] theorem erase_parseSliceKey (f : SliceFlags) : erase (parseSliceKey f) = Ase.parseSliceKey f := by
  simp [parseSliceKey, Ase.parseSliceKey]
@[simp] theorem erase_parseSliceChunk : erase parseSliceChunk = Ase.parseSliceChunk := by
  simp [parseSliceChunk, Ase.parseSliceChunk]
@[simp] theorem erase_parseTilesetExternalFile :
    erase parseTilesetExternalFile = Ase.parseTilesetExternalFile := by
  simp [parseTilesetExternalFile, Ase.parseTilesetExternalFile]
@[simp] theorem erase_parseTiles : erase parseTiles = Ase.parseTiles := by
  simp [parseTiles, Ase.parseTiles]
@[simp] theorem erase_parseTilesetChunk : erase parseTilesetChunk = Ase.parseTilesetChunk := by
  simp [parseTilesetChunk, Ase.parseTilesetChunk]

/-! ## Files -/

@[simp] theorem erase_parseChunkType : erase parseChunkType = Ase.parseChunkType := by
  simp only [parseChunkType, Ase.parseChunkType, erase_bind, erase_word]
  congr; funext n
  cases ChunkType.fromRepr n.toNat <;> rfl
@[simp] theorem erase_parseChunkBody (plat : Plat) (t : Except UInt16 ChunkType) :
    erase (parseChunkBody plat t) = Ase.parseChunkBody plat t := by
  cases t with
  | error c => rfl
  | ok t => cases t <;> simp [parseChunkBody, Ase.parseChunkBody]
@[simp] theorem erase_parseChunk (plat : Plat) : erase (parseChunk plat) = Ase.parseChunk plat := by
  simp [parseChunk, Ase.parseChunk]
@[simp] theorem erase_parseChunks (plat : Plat) (n : Nat) :
    erase (parseChunks plat n) = Ase.parseChunks plat n := by
  simp [parseChunks, Ase.parseChunks]
@[simp] theorem erase_parseRawframeBody (plat : Plat) :
    erase (parseRawframeBody plat) = Ase.parseRawframeBody plat := by
  simp [parseRawframeBody, Ase.parseRawframeBody]
@[simp] theorem erase_parseRawframe (plat : Plat) : erase (parseRawframe plat) = Ase.parseRawframe plat := by
  simp [parseRawframe, Ase.parseRawframe]
@[simp] theorem erase_parseFrames (plat : Plat) : erase (parseFrames plat) = Ase.parseFrames plat := by
  simp [parseFrames, Ase.parseFrames]

/-- Without the counts, `parseRawFile` is the one of the model. -/
theorem erase_parseRawFile (plat : Plat) (b : Bytes) :
    (parseRawFile plat b).2 = Ase.parseRawFile plat b := by
  have h1 : (parseHeader b).2 = Ase.parseHeader b := congrFun erase_parseHeader b
  have h2 : ∀ c, (parseFrames plat c).2 = Ase.parseFrames plat c := congrFun (erase_parseFrames plat)
  unfold parseRawFile Ase.parseRawFile
  rw [← h1]
  rcases parseHeader b with ⟨t, ⟨r, hd⟩ | e | k⟩
  · simp only
    show _ = Outcome.bind (Ase.parseFrames plat r) _
    rw [← h2]
    rcases parseFrames plat r with ⟨t, ⟨r, hd⟩ | e | k⟩ <;> rfl
  · rfl
  · rfl

end Ase.Timed
