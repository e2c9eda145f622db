import Verif.Lemmas.Codes
import Verif.Lemmas.Flags

/-!
# C19, C20: enumeration codes and flag words
-/

namespace Ase

open Spec

/-- **C19 (partial).** Every documented code maps to its meaning and every other code `n` to `Unknown(n)`, for layer
types and colour depths without exception, for the other five enumerations with exactly one exception each: the code
right after the last documented one.  *Missing:* those five codes, see `C19_unknown_code_lost`. -/
theorem C19_codes_partial :
    (∀ w, LayerType.ofWord w = decodeBy layerTypes .unknown w) ∧
    (∀ w, ColorDepth.ofWord w = decodeBy colorDepths .unknown w) ∧
    (∀ w, w ≠ 19 → BlendMode.ofWord w = decodeBy blendModes .unknown w) ∧
    (∀ w, w ≠ 4 → CelType.ofWord w = decodeBy celTypes .unknown w) ∧
    (∀ b, b ≠ 4 → AnimationDirection.ofByte b = decodeBy animationDirections .unknown b) ∧
    (∀ w, w ≠ 3 → ColorProfileType.ofWord w = decodeBy colorProfileTypes .unknown w) ∧
    (∀ b, b ≠ 3 → ExternalFileType.ofByte b = decodeBy externalFileTypes .unknown b) := by
  refine ⟨fun w => LayerType.ofWord_eq w, fun w => ColorDepth.ofWord_eq w, fun w h => ?_, fun w h => ?_, fun w h => ?_,
    fun w h => ?_, fun w h => ?_⟩
  · rw [BlendMode.ofWord_eq, blendModeOf, if_neg h]
  · rw [CelType.ofWord_eq, celTypeOf, if_neg h]
  · rw [AnimationDirection.ofByte_eq, animationDirectionOf, if_neg h]
  · rw [ColorProfileType.ofWord_eq, colorProfileTypeOf, if_neg h]
  · rw [ExternalFileType.ofByte_eq, externalFileTypeOf, if_neg h]

/-- `decodeBy` loses no information for the two exact enumerations: different codes have different meanings. -/
theorem C19_injective :
    (∀ v w, LayerType.ofWord v = LayerType.ofWord w → v = w) ∧
    (∀ v w, ColorDepth.ofWord v = ColorDepth.ofWord w → v = w) := by
  constructor
  · intro v w h
    unfold LayerType.ofWord at h
    repeat' split at h
    all_goals first
      | (cases h; done)
      | (subst_vars; rfl)
      | (injection h)
  · intro v w h
    unfold ColorDepth.ofWord at h
    repeat' split at h
    all_goals first
      | (cases h; done)
      | (subst_vars; rfl)
      | (injection h)

/-- Documented, undocumented codes. -/
example : BlendMode.ofWord 18 = .divide ∧ BlendMode.ofWord 20 = .unknown 20 ∧ LayerType.ofWord 3 = .unknown 3 ∧
    AnimationDirection.ofByte 200 = .unknown 200 := by decide

/-- The full statement of C19 is false: in five enumerations the first undocumented code is turned into
`Unknown(0)`, so that it is lost. -/
theorem C19_unknown_code_lost :
    BlendMode.ofWord 19 = .unknown 0 ∧ CelType.ofWord 4 = .unknown 0 ∧ AnimationDirection.ofByte 4 = .unknown 0 ∧
    ColorProfileType.ofWord 3 = .unknown 0 ∧ ExternalFileType.ofByte 3 = .unknown 0 ∧
    decodeBy blendModes .unknown 19 = .unknown 19 := by decide

/-- **C20 (partial).** The visible flag of a layer is bit 0 of its flag word, and every other named flag tests
exactly its documented bit, with the exception of three layer flags.  Undocumented bits are dropped: the truncated
layer flags are the low seven bits.  *Missing:* `PREFER_LINKED_CELS` (bit 4), `COLLAPSED` (bit 5), `REFERENCE`
(bit 6), see `C20_layer_flag_constants_wrong`. -/
theorem C20_flags_partial :
    (∀ w, (LayerFlags.fromBitsTruncate w).contains LayerFlags.VISIBLE = true ↔ bit16 w 0) ∧
    (∀ w, (LayerFlags.fromBitsTruncate w).contains LayerFlags.EDITABLE = true ↔ bit16 w 1) ∧
    (∀ w, (LayerFlags.fromBitsTruncate w).contains LayerFlags.LOCK_MOVEMENT = true ↔ bit16 w 2) ∧
    (∀ w, (LayerFlags.fromBitsTruncate w).contains LayerFlags.BACKGROUND = true ↔ bit16 w 3) ∧
    (∀ w i, bit16 (LayerFlags.fromBitsTruncate w).bits i ↔ i < 7 ∧ bit16 w i) ∧
    (∀ w, (SliceFlags.fromBitsTruncate w).contains SliceFlags.NINE_PATCH = true ↔ bit32 w 0) ∧
    (∀ w, (SliceFlags.fromBitsTruncate w).contains SliceFlags.PIVOT = true ↔ bit32 w 1) ∧
    (∀ w, (UserDataFlags.fromBitsTruncate w).contains UserDataFlags.HAS_TEXT = true ↔ bit32 w 0) ∧
    (∀ w, (UserDataFlags.fromBitsTruncate w).contains UserDataFlags.HAS_COLOR = true ↔ bit32 w 1) ∧
    (∀ w, (UserDataFlags.fromBitsTruncate w).contains UserDataFlags.HAS_PROPERTIES = true ↔ bit32 w 2) ∧
    (∀ w, (PaletteEntryFlags.fromBitsTruncate w).contains PaletteEntryFlags.HAS_NAME = true ↔ bit16 w 0) ∧
    (∀ w, (TilesetFlags.fromBitsTruncate w).contains TilesetFlags.EXTERNAL_FILE = true ↔ bit32 w 0) ∧
    (∀ w, (TilesetFlags.fromBitsTruncate w).contains TilesetFlags.TILES = true ↔ bit32 w 1) ∧
    (∀ w, (TilesetFlags.fromBitsTruncate w).contains TilesetFlags.TILE_0_EMPTY = true ↔ bit32 w 2) ∧
    (∀ w, (TilesetFlags.fromBitsTruncate w).contains TilesetFlags.XFLIP = true ↔ bit32 w 3) ∧
    (∀ w, (TilesetFlags.fromBitsTruncate w).contains TilesetFlags.YFLIP = true ↔ bit32 w 4) ∧
    (∀ w, (TilesetFlags.fromBitsTruncate w).contains TilesetFlags.DFLIP = true ↔ bit32 w 5) ∧
    (∀ w, (ColorProfileFlags.fromBitsTruncate w).contains ColorProfileFlags.FIXED_GAMMA = true ↔ bit16 w 0) ∧
    (∀ w, (CelExtraFlags.fromBitsTruncate w).contains CelExtraFlags.PRECISE_BOUNDS_ARE_SET = true ↔ bit32 w 0) := by
  refine ⟨fun w => contains16 (by decide) (by decide), fun w => contains16 (by decide) (by decide),
    fun w => contains16 (by decide) (by decide), fun w => contains16 (by decide) (by decide), ?_,
    slice_ninePatch, slice_pivot, userData_hasText, userData_hasColor, userData_hasProperties, paletteEntry_hasName,
    tileset_externalFile, tileset_tiles, fun w => contains32 (by decide) (by decide),
    fun w => contains32 (by decide) (by decide), fun w => contains32 (by decide) (by decide),
    fun w => contains32 (by decide) (by decide), colorProfile_fixedGamma, fun w => contains32 (by decide) (by decide)⟩
  intro w i
  unfold bit16 LayerFlags.fromBitsTruncate
  rw [UInt16.toNat_and, Nat.testBit_and, show LayerFlags.all.toNat = 2 ^ 7 - 1 from rfl, Nat.testBit_two_pow_sub_one]
  simp [and_comm]

/-- The flag word 0x89 is visible, background and has one undocumented bit. -/
example : (LayerFlags.fromBitsTruncate 0x89).bits = 9 ∧
    (LayerFlags.fromBitsTruncate 0x89).contains LayerFlags.VISIBLE = true ∧
    (LayerFlags.fromBitsTruncate 0x89).contains LayerFlags.EDITABLE = false := by decide

/-- The full statement of C20 is false: the documented bit of each of the three remaining layer flags alone is not
recognised, because the constants are 0x16, 0x32 and 0x64 (hexadecimal) instead of 16, 32 and 64. -/
theorem C20_layer_flag_constants_wrong :
    (bit16 16 4 ∧ (LayerFlags.fromBitsTruncate 16).contains LayerFlags.PREFER_LINKED_CELS = false) ∧
    (bit16 32 5 ∧ (LayerFlags.fromBitsTruncate 32).contains LayerFlags.COLLAPSED = false) ∧
    (bit16 64 6 ∧ (LayerFlags.fromBitsTruncate 64).contains LayerFlags.REFERENCE = false) := by
  refine ⟨⟨by unfold bit16; decide, by decide⟩, ⟨by unfold bit16; decide, by decide⟩, ⟨by unfold bit16; decide, by decide⟩⟩

end Ase
