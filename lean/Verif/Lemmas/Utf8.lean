import Verif.Model.Utf8
import Verif.Lemmas.Scalars

/-! # UTF-8 decoding is the inverse of UTF-8 encoding -/

namespace Ase

open Spec

theorem char_toNat_ofNat {n : Nat} (h : n.isValidChar) : (Char.ofNat n).toNat = n := by
  unfold Char.ofNat
  rw [dif_pos h]
  simp [Char.ofNatAux, Char.toNat, UInt32.toNat]

theorem isCont_iff {b : UInt8} : isCont b = true ↔ 0x80 ≤ b.toNat ∧ b.toNat ≤ 0xBF := by
  simp [isCont]

theorem ok3_iff {b0 b1 : UInt8} : ok3 b0 b1 = true ↔
    (b0.toNat = 0xE0 ∧ 0xA0 ≤ b1.toNat ∧ b1.toNat ≤ 0xBF) ∨
    (0xE1 ≤ b0.toNat ∧ b0.toNat ≤ 0xEC ∧ 0x80 ≤ b1.toNat ∧ b1.toNat ≤ 0xBF) ∨
    (b0.toNat = 0xED ∧ 0x80 ≤ b1.toNat ∧ b1.toNat ≤ 0x9F) ∨
    (0xEE ≤ b0.toNat ∧ b0.toNat ≤ 0xEF ∧ 0x80 ≤ b1.toNat ∧ b1.toNat ≤ 0xBF) := by
  simp [ok3, isCont_iff, and_assoc, or_assoc]

theorem ok4_iff {b0 b1 : UInt8} : ok4 b0 b1 = true ↔
    (b0.toNat = 0xF0 ∧ 0x90 ≤ b1.toNat ∧ b1.toNat ≤ 0xBF) ∨
    (0xF1 ≤ b0.toNat ∧ b0.toNat ≤ 0xF3 ∧ 0x80 ≤ b1.toNat ∧ b1.toNat ≤ 0xBF) ∨
    (b0.toNat = 0xF4 ∧ 0x80 ≤ b1.toNat ∧ b1.toNat ≤ 0x8F) := by
  simp [ok4, isCont_iff, and_assoc, or_assoc]

theorem bytes_cons_eq {b : UInt8} {n : Nat} {t t' : Bytes} (h : b.toNat = n) (ht : t = t') :
    b :: t = UInt8.ofNat n :: t' := by
  rw [← h, UInt8.ofNat_toNat, ht]

theorem utf8Decode_cons (b0 : UInt8) (t0 : Bytes) : utf8Decode (b0 :: t0) =
    if b0.toNat < 0x80 then (utf8Decode t0).map (Char.ofNat b0.toNat :: ·)
    else match t0 with
    | [] => none
    | b1 :: t1 =>
      if 0xC2 ≤ b0.toNat ∧ b0.toNat ≤ 0xDF then
        if isCont b1 then
          (utf8Decode t1).map
            (Char.ofNat ((b0.toNat - 0xC0) * 64 + (b1.toNat - 0x80)) :: ·)
        else none
      else match t1 with
      | [] => none
      | b2 :: t2 =>
        if 0xE0 ≤ b0.toNat ∧ b0.toNat ≤ 0xEF then
          if ok3 b0 b1 && isCont b2 then
            (utf8Decode t2).map
              (Char.ofNat ((b0.toNat - 0xE0) * 4096 + (b1.toNat - 0x80) * 64 + (b2.toNat - 0x80)) :: ·)
          else none
        else match t2 with
        | [] => none
        | b3 :: t3 =>
          if ok4 b0 b1 && isCont b2 && isCont b3 then
            (utf8Decode t3).map
              (Char.ofNat ((b0.toNat - 0xF0) * 262144 + (b1.toNat - 0x80) * 4096
                + (b2.toNat - 0x80) * 64 + (b3.toNat - 0x80)) :: ·)
          else none := by
  rw [utf8Decode.eq_def]
  rfl

/-- Decoding what the encoder wrote for one character. -/
theorem utf8Decode_encode (c : Char) (bs : Bytes) :
    utf8Decode (String.utf8EncodeChar c ++ bs) = (utf8Decode bs).map (c :: ·) := by
  have hv : c.toNat.isValidChar := c.valid
  rw [String.utf8EncodeChar.eq_1]
  have hc : c.val.toNat = c.toNat := rfl
  rw [hc]
  generalize hn : c.toNat = n at *
  have hcn : Char.ofNat n = c := by rw [← hn, Char.ofNat_toNat]
  simp only [Nat.isValidChar] at hv
  by_cases h1 : n ≤ 127
  · have e : (UInt8.ofNat n).toNat = n := by simp [UInt8.toNat_ofNat']; omega
    simp only [h1, if_true, List.cons_append, List.nil_append]
    rw [utf8Decode_cons]
    rw [e, if_pos (by omega), hcn]
  · by_cases h2 : n ≤ 2047
    · have e0 : (UInt8.ofNat (n / 64 % 32 + 192)).toNat = n / 64 + 192 := by
        simp [UInt8.toNat_ofNat']; omega
      have e1 : (UInt8.ofNat (n % 64 + 128)).toNat = n % 64 + 128 := by
        simp [UInt8.toNat_ofNat']; omega
      simp only [h1, h2, if_false, if_true, List.cons_append, List.nil_append]
      rw [utf8Decode_cons]
      rw [if_neg (by omega)]
      simp only
      rw [if_pos (by omega), if_pos (isCont_iff.2 (by omega)), e0, e1]
      rw [show (n / 64 + 192 - 192) * 64 + (n % 64 + 128 - 128) = n by omega, hcn]
    · by_cases h3 : n ≤ 65535
      · have e0 : (UInt8.ofNat (n / 4096 % 16 + 224)).toNat = n / 4096 + 224 := by
          simp [UInt8.toNat_ofNat']; omega
        have e1 : (UInt8.ofNat (n / 64 % 64 + 128)).toNat = n / 64 % 64 + 128 := by
          simp [UInt8.toNat_ofNat']; omega
        have e2 : (UInt8.ofNat (n % 64 + 128)).toNat = n % 64 + 128 := by
          simp [UInt8.toNat_ofNat']; omega
        simp only [h1, h2, h3, if_false, if_true, List.cons_append, List.nil_append]
        rw [utf8Decode_cons]
        rw [if_neg (by omega)]
        simp only
        rw [if_neg (by omega), if_pos (by omega)]
        rw [if_pos (by rw [Bool.and_eq_true, ok3_iff, isCont_iff]; omega), e0, e1, e2]
        rw [show (n / 4096 + 224 - 224) * 4096 + (n / 64 % 64 + 128 - 128) * 64 + (n % 64 + 128 - 128) = n
          by omega, hcn]
      · have e0 : (UInt8.ofNat (n / 262144 % 8 + 240)).toNat = n / 262144 + 240 := by
          simp [UInt8.toNat_ofNat']; omega
        have e1 : (UInt8.ofNat (n / 4096 % 64 + 128)).toNat = n / 4096 % 64 + 128 := by
          simp [UInt8.toNat_ofNat']; omega
        have e2 : (UInt8.ofNat (n / 64 % 64 + 128)).toNat = n / 64 % 64 + 128 := by
          simp [UInt8.toNat_ofNat']; omega
        have e3 : (UInt8.ofNat (n % 64 + 128)).toNat = n % 64 + 128 := by
          simp [UInt8.toNat_ofNat']; omega
        simp only [h1, h2, h3, if_false, List.cons_append, List.nil_append]
        rw [utf8Decode_cons]
        rw [if_neg (by omega)]
        simp only
        rw [if_neg (by omega), if_neg (by omega)]
        rw [if_pos (by rw [Bool.and_eq_true, Bool.and_eq_true, ok4_iff, isCont_iff, isCont_iff]; omega),
          e0, e1, e2, e3]
        rw [show (n / 262144 + 240 - 240) * 262144 + (n / 4096 % 64 + 128 - 128) * 4096
          + (n / 64 % 64 + 128 - 128) * 64 + (n % 64 + 128 - 128) = n by omega, hcn]

theorem utf8Decode_flatMap (cs : List Char) : utf8Decode (cs.flatMap String.utf8EncodeChar) = some cs := by
  induction cs with
  | nil => simp [utf8Decode]
  | cons c cs ih => rw [List.flatMap_cons, utf8Decode_encode, ih]; rfl

/-- The bytes of an accepted sequence are those the encoder produces. -/
theorem encode_ofNat {n : Nat} (hv : n.isValidChar) {l : Bytes}
    (h : l = if n ≤ 127 then [UInt8.ofNat n]
      else if n ≤ 2047 then [UInt8.ofNat (n / 64 % 32 + 192), UInt8.ofNat (n % 64 + 128)]
      else if n ≤ 65535 then
        [UInt8.ofNat (n / 4096 % 16 + 224), UInt8.ofNat (n / 64 % 64 + 128), UInt8.ofNat (n % 64 + 128)]
      else [UInt8.ofNat (n / 262144 % 8 + 240), UInt8.ofNat (n / 4096 % 64 + 128),
            UInt8.ofNat (n / 64 % 64 + 128), UInt8.ofNat (n % 64 + 128)]) :
    l = String.utf8EncodeChar (Char.ofNat n) := by
  rw [String.utf8EncodeChar.eq_1]
  have hc : (Char.ofNat n).val.toNat = n := char_toNat_ofNat hv
  rw [hc, h]

theorem utf8Decode_sound : ∀ (bs : Bytes) (cs : List Char), utf8Decode bs = some cs →
    bs = cs.flatMap String.utf8EncodeChar := by
  intro bs
  induction h : bs.length using Nat.strongRecOn generalizing bs with
  | _ len ih =>
  subst h
  intro cs hd
  cases bs with
  | nil => simp [utf8Decode] at hd; subst hd; rfl
  | cons b0 t0 =>
  rw [utf8Decode_cons] at hd
  have hb0 := b0.toNat_lt
  by_cases h1 : b0.toNat < 128
  · rw [if_pos h1, Option.map_eq_some_iff] at hd
    obtain ⟨cs', hd, rfl⟩ := hd
    rw [List.flatMap_cons, ← ih _ (by simp) t0 rfl cs' hd]
    rw [← encode_ofNat (n := b0.toNat) (l := [b0]) (.inl (by omega))
      (by rw [if_pos (by omega), UInt8.ofNat_toNat])]
    rfl
  rw [if_neg h1] at hd
  cases t0 with
  | nil => cases hd
  | cons b1 t1 =>
  simp only at hd
  have hb1 := b1.toNat_lt
  by_cases h2 : 194 ≤ b0.toNat ∧ b0.toNat ≤ 223
  · rw [if_pos h2] at hd
    split at hd
    · next hk =>
      rw [isCont_iff] at hk
      rw [Option.map_eq_some_iff] at hd
      obtain ⟨cs', hd, rfl⟩ := hd
      rw [List.flatMap_cons, ← ih _ (by simp; omega) t1 rfl cs' hd]
      rw [← encode_ofNat (l := [b0, b1]) (.inl (by omega))
        (by
          rw [if_neg (by omega), if_pos (by omega)]
          exact bytes_cons_eq (by omega) (bytes_cons_eq (by omega) rfl))]
      rfl
    · cases hd
  rw [if_neg h2] at hd
  cases t1 with
  | nil => cases hd
  | cons b2 t2 =>
  simp only at hd
  have hb2 := b2.toNat_lt
  by_cases h3 : 224 ≤ b0.toNat ∧ b0.toNat ≤ 239
  · rw [if_pos h3] at hd
    split at hd
    · next hk =>
      rw [Bool.and_eq_true, ok3_iff, isCont_iff] at hk
      rw [Option.map_eq_some_iff] at hd
      obtain ⟨cs', hd, rfl⟩ := hd
      rw [List.flatMap_cons, ← ih _ (by simp; omega) t2 rfl cs' hd]
      rw [← encode_ofNat (l := [b0, b1, b2]) (by simp only [Nat.isValidChar]; omega)
        (by
          rw [if_neg (by omega), if_neg (by omega), if_pos (by omega)]
          exact bytes_cons_eq (by omega) (bytes_cons_eq (by omega) (bytes_cons_eq (by omega) rfl)))]
      rfl
    · cases hd
  rw [if_neg h3] at hd
  cases t2 with
  | nil => cases hd
  | cons b3 t3 =>
  simp only at hd
  have hb3 := b3.toNat_lt
  split at hd
  · next hk =>
    rw [Bool.and_eq_true, Bool.and_eq_true, ok4_iff, isCont_iff, isCont_iff] at hk
    rw [Option.map_eq_some_iff] at hd
    obtain ⟨cs', hd, rfl⟩ := hd
    rw [List.flatMap_cons, ← ih _ (by simp; omega) t3 rfl cs' hd]
    rw [← encode_ofNat (l := [b0, b1, b2, b3]) (by simp only [Nat.isValidChar]; omega)
      (by
        rw [if_neg (by omega), if_neg (by omega), if_neg (by omega)]
        exact bytes_cons_eq (by omega) (bytes_cons_eq (by omega) (bytes_cons_eq (by omega)
          (bytes_cons_eq (by omega) rfl))))]
    rfl
  · cases hd

theorem utf8Decode_iff {bs : Bytes} {cs : List Char} :
    utf8Decode bs = some cs ↔ bs = cs.flatMap String.utf8EncodeChar :=
  ⟨utf8Decode_sound bs cs, by rintro rfl; exact utf8Decode_flatMap cs⟩

/-- `parse_string` accepts exactly the STRING layout. -/
theorem parseString_ok {b r : Bytes} {s : String} :
    parseString b = .ok (r, s) ↔ FitsStr s ∧ b = str s ++ r := by
  simp only [parseString, P.bind_ok, word_ok, take_ok]
  constructor
  · rintro ⟨n, _, rfl, bs, _, ⟨hl, rfl⟩, h⟩
    cases hd : utf8Decode bs with
    | some cs =>
      rw [hd] at h
      simp only at h
      rw [P.pure_ok] at h
      obtain ⟨rfl, rfl⟩ := h
      rw [utf8Decode_iff] at hd
      have : utf8 (String.ofList cs) = bs := by rw [utf8, String.toList_ofList, hd]
      refine ⟨by rw [FitsStr, this, hl]; exact n.toNat_lt, ?_⟩
      simp [str, this, hl, leNat16, le16]
    | none => rw [hd] at h; cases h
  · rintro ⟨hf, rfl⟩
    refine ⟨UInt16.ofNat (utf8 s).length, utf8 s ++ r, ?_, utf8 s, r, ⟨?_, rfl⟩, ?_⟩
    · rw [str, leNat16_eq hf, List.append_assoc]
    · simp [UInt16.toNat_ofNat']; exact (Nat.mod_eq_of_lt hf).symm
    · have : utf8Decode (utf8 s) = some s.toList := utf8Decode_iff.2 rfl
      rw [this]; simp [P.pure_apply]

end Ase
