import Verif.Lemmas.Parser

/-! # Scalar parsers against byte layouts -/

namespace Ase

open Spec

theorem UInt8.ofNat_leBytes (x : UInt8) : leBytes 1 x.toNat = [x] := by
  have := x.toNat_lt
  simp [leBytes, Nat.mod_eq_of_lt this]

theorem byte_ok {b r : Bytes} {x : UInt8} : byte b = .ok (r, x) ↔ b = [x] ++ r := by
  rw [← UInt8.ofNat_leBytes]
  exact leUint_map_ok (fun a => a.toNat_lt) (fun a => UInt8.ofNat_toNat)
    (fun v h => by simp [UInt8.toNat_ofNat']; omega)

theorem word_ok {b r : Bytes} {x : UInt16} : word b = .ok (r, x) ↔ b = le16 x ++ r :=
  leUint_map_ok (fun a => a.toNat_lt) (fun a => UInt16.ofNat_toNat)
    (fun v h => by simp [UInt16.toNat_ofNat']; omega)

theorem dword_ok {b r : Bytes} {x : UInt32} : dword b = .ok (r, x) ↔ b = le32 x ++ r :=
  leUint_map_ok (fun a => a.toNat_lt) (fun a => UInt32.ofNat_toNat)
    (fun v h => by simp [UInt32.toNat_ofNat']; omega)

theorem leU64_ok {b r : Bytes} {x : UInt64} : leU64 b = .ok (r, x) ↔ b = le64 x ++ r :=
  leUint_map_ok (fun a => a.toNat_lt) (fun a => UInt64.ofNat_toNat)
    (fun v h => by simp [UInt64.toNat_ofNat']; omega)

theorem parseUuid_ok {b r : Bytes} {x : BitVec 128} : parseUuid b = .ok (r, x) ↔ b = le128 x ++ r :=
  leUint_map_ok (f := BitVec.ofNat 128) (g := BitVec.toNat) (fun a => a.isLt) (fun a => by simp)
    (fun v h => by simp; omega)

theorem Int8.emod_toNat (x : Int8) : (x.toInt % 2 ^ 8).toNat = x.toBitVec.toNat := by
  have h := BitVec.toNat_ofInt (n := 8) x.toInt
  rw [← Int8.toInt_toBitVec, BitVec.ofInt_toInt] at h
  rw [h, Int8.toInt_toBitVec]; rfl

theorem Int16.emod_toNat (x : Int16) : (x.toInt % 2 ^ 16).toNat = x.toBitVec.toNat := by
  have h := BitVec.toNat_ofInt (n := 16) x.toInt
  rw [← Int16.toInt_toBitVec, BitVec.ofInt_toInt] at h
  rw [h, Int16.toInt_toBitVec]; rfl

theorem Int32.emod_toNat (x : Int32) : (x.toInt % 2 ^ 32).toNat = x.toBitVec.toNat := by
  have h := BitVec.toNat_ofInt (n := 32) x.toInt
  rw [← Int32.toInt_toBitVec, BitVec.ofInt_toInt] at h
  rw [h, Int32.toInt_toBitVec]; rfl

theorem Int64.emod_toNat (x : Int64) : (x.toInt % 2 ^ 64).toNat = x.toBitVec.toNat := by
  have h := BitVec.toNat_ofInt (n := 64) x.toInt
  rw [← Int64.toInt_toBitVec, BitVec.ofInt_toInt] at h
  rw [h, Int64.toInt_toBitVec]; rfl

theorem leI8_ok {b r : Bytes} {x : Int8} : leI8 b = .ok (r, x) ↔ b = les8 x ++ r := by
  have := leUint_map_ok (n := 1) (f := fun n => (UInt8.ofNat n).toInt8)
    (g := fun x : Int8 => x.toBitVec.toNat) (b := b) (r := r) (x := x)
    (fun a => a.toBitVec.isLt)
    (fun a => by apply Int8.toBitVec_inj.1; show BitVec.ofNat 8 _ = _; simp)
    (fun v h => by show (BitVec.ofNat 8 v).toNat = v; simp; omega)
  unfold les8; rw [Int8.emod_toNat]; exact this

theorem short_ok {b r : Bytes} {x : Int16} : short b = .ok (r, x) ↔ b = les16 x ++ r := by
  have := leUint_map_ok (n := 2) (f := fun n => (UInt16.ofNat n).toInt16)
    (g := fun x : Int16 => x.toBitVec.toNat) (b := b) (r := r) (x := x)
    (fun a => a.toBitVec.isLt)
    (fun a => by apply Int16.toBitVec_inj.1; show BitVec.ofNat 16 _ = _; simp)
    (fun v h => by show (BitVec.ofNat 16 v).toNat = v; simp; omega)
  unfold les16; rw [Int16.emod_toNat]; exact this

theorem long_ok {b r : Bytes} {x : Int32} : long b = .ok (r, x) ↔ b = les32 x ++ r := by
  have := leUint_map_ok (n := 4) (f := fun n => (UInt32.ofNat n).toInt32)
    (g := fun x : Int32 => x.toBitVec.toNat) (b := b) (r := r) (x := x)
    (fun a => a.toBitVec.isLt)
    (fun a => by apply Int32.toBitVec_inj.1; show BitVec.ofNat 32 _ = _; simp)
    (fun v h => by show (BitVec.ofNat 32 v).toNat = v; simp; omega)
  unfold les32; rw [Int32.emod_toNat]; exact this

theorem leI64_ok {b r : Bytes} {x : Int64} : leI64 b = .ok (r, x) ↔ b = les64 x ++ r := by
  have := leUint_map_ok (n := 8) (f := fun n => (UInt64.ofNat n).toInt64)
    (g := fun x : Int64 => x.toBitVec.toNat) (b := b) (r := r) (x := x)
    (fun a => a.toBitVec.isLt)
    (fun a => by apply Int64.toBitVec_inj.1; show BitVec.ofNat 64 _ = _; simp)
    (fun v h => by show (BitVec.ofNat 64 v).toNat = v; simp; omega)
  unfold les64; rw [Int64.emod_toNat]; exact this

@[simp] theorem le16_length (x : UInt16) : (le16 x).length = 2 := leBytes_length _ _
@[simp] theorem le32_length (x : UInt32) : (le32 x).length = 4 := leBytes_length _ _
@[simp] theorem le64_length (x : UInt64) : (le64 x).length = 8 := leBytes_length _ _
@[simp] theorem le128_length (x : BitVec 128) : (le128 x).length = 16 := leBytes_length _ _
@[simp] theorem leNat16_length (x : Nat) : (leNat16 x).length = 2 := leBytes_length _ _
@[simp] theorem leNat32_length (x : Nat) : (leNat32 x).length = 4 := leBytes_length _ _
@[simp] theorem les8_length (x : Int8) : (les8 x).length = 1 := leBytes_length _ _
@[simp] theorem les16_length (x : Int16) : (les16 x).length = 2 := leBytes_length _ _
@[simp] theorem les32_length (x : Int32) : (les32 x).length = 4 := leBytes_length _ _
@[simp] theorem les64_length (x : Int64) : (les64 x).length = 8 := leBytes_length _ _

theorem leNat32_eq {n : Nat} (h : n < 2 ^ 32) : leNat32 n = le32 (UInt32.ofNat n) := by
  simp [leNat32, le32, UInt32.toNat_ofNat', Nat.mod_eq_of_lt h]

theorem leNat16_eq {n : Nat} (h : n < 2 ^ 16) : leNat16 n = le16 (UInt16.ofNat n) := by
  simp [leNat16, le16, UInt16.toNat_ofNat', Nat.mod_eq_of_lt h]

theorem parseDwordAsUsize_ok {b r : Bytes} {n : Nat} :
    parseDwordAsUsize b = .ok (r, n) ↔ n < 2 ^ 32 ∧ b = leNat32 n ++ r := by
  simp only [parseDwordAsUsize, P.bind_ok, dword_ok, P.pure_ok]
  constructor
  · rintro ⟨x, r', rfl, rfl, rfl⟩; exact ⟨x.toNat_lt, rfl⟩
  · rintro ⟨h, rfl⟩
    exact ⟨UInt32.ofNat n, r, by rw [leNat32_eq h], rfl, by simp [UInt32.toNat_ofNat']; omega⟩

theorem parsePoint_ok {b r : Bytes} {x : Point} : parsePoint b = .ok (r, x) ↔ b = Spec.point x ++ r := by
  obtain ⟨x, y⟩ := x
  simp only [parsePoint, P.bind_ok, long_ok, P.pure_ok, Spec.point, Point.mk.injEq]
  constructor
  · rintro ⟨x, r', rfl, y, r'', rfl, rfl, rfl, rfl⟩; simp
  · rintro rfl; exact ⟨x, _, List.append_assoc .., y, _, rfl, rfl, rfl, rfl⟩

theorem parseSize_ok {b r : Bytes} {x : Size} : parseSize b = .ok (r, x) ↔ b = Spec.size x ++ r := by
  obtain ⟨x, y⟩ := x
  simp only [parseSize, P.bind_ok, long_ok, P.pure_ok, Spec.size, Size.mk.injEq]
  constructor
  · rintro ⟨x, r', rfl, y, r'', rfl, rfl, rfl, rfl⟩; simp
  · rintro rfl; exact ⟨x, _, List.append_assoc .., y, _, rfl, rfl, rfl, rfl⟩

theorem parseRect_ok {b r : Bytes} {x : Rect} : parseRect b = .ok (r, x) ↔ b = Spec.rect x ++ r := by
  obtain ⟨x, y⟩ := x
  simp only [parseRect, P.bind_ok, parsePoint_ok, parseSize_ok, P.pure_ok, Spec.rect, Rect.mk.injEq]
  constructor
  · rintro ⟨x, r', rfl, y, r'', rfl, rfl, rfl, rfl⟩; simp
  · rintro rfl; exact ⟨x, _, List.append_assoc .., y, _, rfl, rfl, rfl, rfl⟩

theorem fixed_ok {b r : Bytes} {x : Fixed} : fixed b = .ok (r, x) ↔ b = Spec.fixed x ++ r := by
  obtain ⟨x, y⟩ := x
  simp only [fixed, P.bind_ok, word_ok, P.pure_ok, Spec.fixed, Fixed.mk.injEq]
  constructor
  · rintro ⟨x, r', rfl, y, r'', rfl, rfl, rfl, rfl⟩; simp
  · rintro rfl; exact ⟨y, _, List.append_assoc .., x, _, rfl, rfl, rfl, rfl⟩

theorem parseColor_ok {b r : Bytes} {x : PColor} : parseColor b = .ok (r, x) ↔ b = Spec.color x ++ r := by
  obtain ⟨x, y, z, w⟩ := x
  simp only [parseColor, P.bind_ok, byte_ok, P.pure_ok, Spec.color, PColor.mk.injEq]
  constructor
  · rintro ⟨x, _, rfl, y, _, rfl, z, _, rfl, w, _, rfl, rfl, rfl, rfl, rfl, rfl⟩; simp
  · rintro rfl; exact ⟨x, _, rfl, y, _, rfl, z, _, rfl, w, _, rfl, rfl, rfl, rfl, rfl, rfl⟩

theorem parseRgb_ok {b r : Bytes} {x : RGB} : parseRgb b = .ok (r, x) ↔ b = Spec.rgb x ++ r := by
  obtain ⟨x, y, z⟩ := x
  simp only [parseRgb, P.bind_ok, byte_ok, P.pure_ok, Spec.rgb, RGB.mk.injEq]
  constructor
  · rintro ⟨x, _, rfl, y, _, rfl, z, _, rfl, rfl, rfl, rfl, rfl⟩; simp
  · rintro rfl; exact ⟨x, _, rfl, y, _, rfl, z, _, rfl, rfl, rfl, rfl, rfl⟩

end Ase
