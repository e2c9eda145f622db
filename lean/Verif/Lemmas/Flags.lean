import Verif.Spec.Chunks

/-! # Flag words -/

namespace Ase

open Spec

theorem nat_and_two_pow (n i : Nat) : n &&& 2 ^ i = 2 ^ i ↔ n.testBit i = true := by
  constructor
  · intro h
    have := congrArg (fun m => Nat.testBit m i) h
    simpa using this
  · intro h
    apply Nat.eq_of_testBit_eq
    intro j
    rw [Nat.testBit_and, Nat.testBit_two_pow]
    by_cases hj : i = j
    · subst hj; simp [h]
    · simp [hj]

theorem contains16 {w mask m : UInt16} {i : Nat} (hm : m.toNat = 2 ^ i) (hk : mask.toNat.testBit i = true) :
    (w &&& mask &&& m == m) = true ↔ bit16 w i := by
  rw [beq_iff_eq, ← UInt16.toNat_inj, UInt16.toNat_and, hm, nat_and_two_pow, UInt16.toNat_and,
    Nat.testBit_and, hk, Bool.and_true, bit16]

theorem contains32 {w mask m : UInt32} {i : Nat} (hm : m.toNat = 2 ^ i) (hk : mask.toNat.testBit i = true) :
    (w &&& mask &&& m == m) = true ↔ bit32 w i := by
  rw [beq_iff_eq, ← UInt32.toNat_inj, UInt32.toNat_and, hm, nat_and_two_pow, UInt32.toNat_and,
    Nat.testBit_and, hk, Bool.and_true, bit32]

theorem paletteEntry_hasName (w : UInt16) :
    (PaletteEntryFlags.fromBitsTruncate w).contains PaletteEntryFlags.HAS_NAME = true ↔ bit16 w 0 :=
  contains16 (by decide) (by decide)

theorem slice_ninePatch (w : UInt32) :
    (SliceFlags.fromBitsTruncate w).contains SliceFlags.NINE_PATCH = true ↔ bit32 w 0 :=
  contains32 (by decide) (by decide)

theorem slice_pivot (w : UInt32) :
    (SliceFlags.fromBitsTruncate w).contains SliceFlags.PIVOT = true ↔ bit32 w 1 :=
  contains32 (by decide) (by decide)

theorem userData_hasText (w : UInt32) :
    (UserDataFlags.fromBitsTruncate w).contains UserDataFlags.HAS_TEXT = true ↔ bit32 w 0 :=
  contains32 (by decide) (by decide)

theorem userData_hasColor (w : UInt32) :
    (UserDataFlags.fromBitsTruncate w).contains UserDataFlags.HAS_COLOR = true ↔ bit32 w 1 :=
  contains32 (by decide) (by decide)

theorem userData_hasProperties (w : UInt32) :
    (UserDataFlags.fromBitsTruncate w).contains UserDataFlags.HAS_PROPERTIES = true ↔ bit32 w 2 :=
  contains32 (by decide) (by decide)

theorem tileset_externalFile (w : UInt32) :
    (TilesetFlags.fromBitsTruncate w).contains TilesetFlags.EXTERNAL_FILE = true ↔ bit32 w 0 :=
  contains32 (by decide) (by decide)

theorem tileset_tiles (w : UInt32) :
    (TilesetFlags.fromBitsTruncate w).contains TilesetFlags.TILES = true ↔ bit32 w 1 :=
  contains32 (by decide) (by decide)

theorem colorProfile_fixedGamma (w : UInt16) :
    (ColorProfileFlags.fromBitsTruncate w).contains ColorProfileFlags.FIXED_GAMMA = true ↔ bit16 w 0 :=
  contains16 (by decide) (by decide)

theorem colorProfile_fixedGamma_and (w : UInt16) :
    (ColorProfileFlags.fromBitsTruncate w).contains ColorProfileFlags.FIXED_GAMMA = true ↔ w &&& 1 = 1 := by
  rw [colorProfile_fixedGamma, ← UInt16.toNat_inj, UInt16.toNat_and]
  exact (nat_and_two_pow w.toNat 0).symm

end Ase
