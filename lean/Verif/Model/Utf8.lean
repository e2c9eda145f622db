import Verif.Model.Core

/-!
# `std::str::from_utf8`

The validation loop of `core::str::validations::run_utf8_validation`, which `parse_string`
(`src/binary/scalars.rs:135-137`) relies on, together with the decoding of the code points.
-/

namespace Ase

/-- A UTF-8 continuation byte `10xxxxxx`. -/
def isCont (b : UInt8) : Bool := 0x80 ≤ b.toNat && b.toNat ≤ 0xBF

/-- The table of legal first/second byte pairs of three byte sequences (no overlong forms, no surrogates). -/
def ok3 (b0 b1 : UInt8) : Bool :=
  (b0.toNat == 0xE0 && 0xA0 ≤ b1.toNat && b1.toNat ≤ 0xBF) ||
  (0xE1 ≤ b0.toNat && b0.toNat ≤ 0xEC && isCont b1) ||
  (b0.toNat == 0xED && 0x80 ≤ b1.toNat && b1.toNat ≤ 0x9F) ||
  (0xEE ≤ b0.toNat && b0.toNat ≤ 0xEF && isCont b1)

/-- The table of legal first/second byte pairs of four byte sequences (nothing above U+10FFFF). -/
def ok4 (b0 b1 : UInt8) : Bool :=
  (b0.toNat == 0xF0 && 0x90 ≤ b1.toNat && b1.toNat ≤ 0xBF) ||
  (0xF1 ≤ b0.toNat && b0.toNat ≤ 0xF3 && isCont b1) ||
  (b0.toNat == 0xF4 && 0x80 ≤ b1.toNat && b1.toNat ≤ 0x8F)

/-- `std::str::from_utf8`: the decoded text, or `none` where Rust returns `Utf8Error`. -/
def utf8Decode : Bytes → Option (List Char)
  | [] => some []
  | b0 :: t0 =>
    if b0.toNat < 0x80 then (utf8Decode t0).map (Char.ofNat b0.toNat :: ·)
    else match t0 with
    | [] => none
    | b1 :: t1 =>
      if 0xC2 ≤ b0.toNat ∧ b0.toNat ≤ 0xDF then
        if isCont b1 then
          (utf8Decode t1).map
            (Char.ofNat ((b0.toNat - 0xC0) * 64 + (b1.toNat - 0x80)) :: ·)
        else none
      else match t1 with
      | [] => none
      | b2 :: t2 =>
        if 0xE0 ≤ b0.toNat ∧ b0.toNat ≤ 0xEF then
          if ok3 b0 b1 && isCont b2 then
            (utf8Decode t2).map
              (Char.ofNat ((b0.toNat - 0xE0) * 4096 + (b1.toNat - 0x80) * 64 + (b2.toNat - 0x80)) :: ·)
          else none
        else match t2 with
        | [] => none
        | b3 :: t3 =>
          if ok4 b0 b1 && isCont b2 && isCont b3 then
            (utf8Decode t3).map
              (Char.ofNat ((b0.toNat - 0xF0) * 262144 + (b1.toNat - 0x80) * 4096
                + (b2.toNat - 0x80) * 64 + (b3.toNat - 0x80)) :: ·)
          else none

/-- The fields `valid_up_to` and `error_len` of the `Utf8Error` returned for a text that is not valid: where the first
sequence that is not valid starts, and how many bytes are wrong there, `None` if the input ends too early.  `pos` is the
position of the bytes in the text.  (Not called for a valid text.) -/
def utf8Fault (pos : Nat) : Bytes → Nat × Option UInt8
  | [] => (pos, none)
  | b0 :: t0 =>
    if b0.toNat < 0x80 then utf8Fault (pos + 1) t0
    else if 0xC2 ≤ b0.toNat ∧ b0.toNat ≤ 0xDF then
      match t0 with
      | [] => (pos, none)
      | b1 :: t1 => if isCont b1 then utf8Fault (pos + 2) t1 else (pos, some 1)
    else if 0xE0 ≤ b0.toNat ∧ b0.toNat ≤ 0xEF then
      match t0 with
      | [] => (pos, none)
      | b1 :: t1 =>
        if ok3 b0 b1 then
          match t1 with
          | [] => (pos, none)
          | b2 :: t2 => if isCont b2 then utf8Fault (pos + 3) t2 else (pos, some 2)
        else (pos, some 1)
    else if 0xF0 ≤ b0.toNat ∧ b0.toNat ≤ 0xF4 then
      match t0 with
      | [] => (pos, none)
      | b1 :: t1 =>
        if ok4 b0 b1 then
          match t1 with
          | [] => (pos, none)
          | b2 :: t2 =>
            if isCont b2 then
              match t2 with
              | [] => (pos, none)
              | b3 :: t3 => if isCont b3 then utf8Fault (pos + 4) t3 else (pos, some 3)
            else (pos, some 2)
        else (pos, some 1)
    else (pos, some 1)

end Ase
