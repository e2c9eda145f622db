import Verif.Lemmas.Fields
import Verif.Props.UserData

/-!
# The error of a malformed chunk tells which field is wrong (C127)

The forms of the chunks, and what can be wrong with the fields of a form, are in `Verif/Spec/Fields.lean`.
-/

namespace Ase

open Spec

/-- **C127 (chunks).** A chunk is rejected exactly in these cases and with exactly these errors.  There is no room for the
size (`Eof` at the size); the size is below 4 (a failure, reported as an invalid frame size); the chunk is longer than the
rest of the input (`Eof` after the size); there is no room for the type (`Eof` at the type); or the body is not what a
chunk of its type should be, and then the first field that is wrong decides: `Eof` at that field if it is not complete, a
UTF-8 error if it is a text that is not UTF-8, the failure if its value is refused. -/
theorem C127_chunk (plat : Plat) (b : Bytes) (e : NomErr) : parseChunk plat b = .err e ↔
    (b.length < 4 ∧ e = .error (.nom b .eof)) ∨
    (∃ (n : UInt32) (rest : Bytes), b = le32 n ++ rest ∧ n.toNat < 4 ∧ e = .failure (.invalidFrameSize n)) ∨
    (∃ (n : UInt32) (rest : Bytes), b = le32 n ++ rest ∧ 4 ≤ n.toNat ∧ b.length < n.toNat ∧ e = .error (.nom rest .eof)) ∨
    (∃ l rest, b = leNat32 (4 + l.length) ++ l ++ rest ∧ l.length < 2 ∧ e = .error (.nom l .eof)) ∨
    (∃ (code : UInt16) (body rest : Bytes), 6 + body.length < 2 ^ 32 ∧
      b = leNat32 (6 + body.length) ++ le16 code ++ body ++ rest ∧ Problem (bodyForm plat.debug code) body e) := by
  rw [parseChunk_err]
  simp only [fun (code : UInt16) (body : Bytes) => reports_body plat code body e]

/-- A layer whose name should have three bytes and has two: the error points at the name.  A list of two external files, the
second with a name that is not UTF-8.  A palette whose last index is 256.  A slice with a nine-patch that ends after its
first number: the error points at the second one, where there is nothing. -/
example :
    (let fails := fun (b : Bytes) (e : NomErr) =>
       match parseChunk ⟨true, 9⟩ (leNat32 (4 + b.length) ++ b) with | .err e' => decide (e' = e) | _ => false
     fails ([4, 0x20] ++ List.replicate 16 0 ++ [3, 0, 65, 66]) (.error (.nom [65, 66] .eof)) &&
     fails ([8, 0x20, 2, 0, 0, 0] ++ List.replicate 8 0 ++ (List.replicate 12 0 ++ [1, 0, 65])
       ++ (List.replicate 12 0 ++ [2, 0, 65, 0xFF])) (.error (.utf8Error 1 (some 1))) &&
     fails ([0x19, 0x20, 1, 0, 0, 0] ++ [0, 0, 0, 0] ++ [0, 1, 0, 0]) (.failure (.paletteError .lastColorIndexOutOfBounds)) &&
     fails ([0x22, 0x20, 1, 0, 0, 0] ++ [1, 0, 0, 0] ++ [0, 0, 0, 0] ++ [0, 0] ++ List.replicate 20 0 ++ [7, 7, 7, 7])
       (.error (.nom [] .eof))) = true := by decide +kernel

/-- The first of them, as a problem of the form. -/
example : Problem layerForm (List.replicate 16 0 ++ [3, 0, 65, 66]) (.error (.nom [65, 66] .eof)) := by
  refine .later (n := 2) (x := 0) (by decide) <| .later (n := 2) (x := 0) (by decide) <|
    .later (n := 2) (x := 0) (by decide) <| .later (n := 2) (x := 0) (by decide) <|
    .later (n := 2) (x := 0) (by decide) <| .later (n := 2) (x := 0) (by decide) <|
    .later (n := 1) (x := 0) (by decide) <| .later (n := 3) (x := 0) (by decide) <| .shortText (n := 3) (by decide)

/-- **C127 (properties).** The error value that a user data chunk holds instead of its properties is exactly the first thing
that is wrong with them: `n` maps, one after another, in the bytes that the size gives them. -/
theorem C127_properties (plat : Plat) (flags : UInt32) (text : Option String) (color : Option PColor)
    (t k : Bytes) (n : Nat) (payload r : Bytes)
    (ht : Opt (bit32 flags 0) IsStr text t) (hk : Opt (bit32 flags 1) (As Spec.color) color k) (hf : bit32 flags 2)
    (hn : n < 2 ^ 32) (hp : 8 + payload.length < 2 ^ 32)
    (e : NomErr) :
    parseUserDataChunk plat (le32 flags ++ t ++ k ++ (leNat32 (8 + payload.length) ++ leNat32 n ++ payload) ++ r)
      = .ok (r, ⟨text, color, some (.error e)⟩) ↔ Problem (repeated n (mapForm plat.stack) .done) payload e := by
  have hm : parsePropertiesMaps plat (leNat32 (8 + payload.length) ++ (leNat32 n ++ (payload ++ r)))
      = match count (parsePropertiesMap plat.stack) n payload with
        | .ok v => .ok (r, .ok v)
        | .err e => .ok (r, .error e)
        | .panic k => .panic k := by
    refine (P.bind_of_ok (parseDwordAsUsize_ok.2 ⟨hp, rfl⟩)).trans ?_
    refine (P.bind_of_ok (parseDwordAsUsize_ok.2 ⟨hn, rfl⟩)).trans ?_
    refine (P.bind_of_ok (x := payload.length) (r := payload ++ r) ?_).trans ?_
    · simp [usizeSub8, Outcome.bind]
    exact P.bind_of_ok (take_ok.2 ⟨rfl, rfl⟩)
  have key : parseUserDataChunk plat
        (le32 flags ++ t ++ k ++ (leNat32 (8 + payload.length) ++ leNat32 n ++ payload) ++ r)
      = match count (parsePropertiesMap plat.stack) n payload with
        | .ok v => .ok (r, ⟨text, color, some (.ok v)⟩)
        | .err e => .ok (r, ⟨text, color, some (.error e)⟩)
        | .panic k => .panic k := by
    simp only [List.append_assoc]
    refine (P.bind_of_ok (dword_ok.2 rfl)).trans ?_
    refine (P.bind_of_ok ((parses_string.cond_opt (userData_hasText flags)).2 ⟨t, ht, rfl⟩)).trans ?_
    refine (P.bind_of_ok (((Parses.of_eq @parseColor_ok).cond_opt (userData_hasColor flags)).2 ⟨k, hk, rfl⟩)).trans ?_
    rw [(userData_hasProperties flags).2 hf]
    show ((parsePropertiesMaps plat >>= fun x => (pure (some x) : P _)) >>= _) _ = _
    rw [P.bind_assoc']
    simp only [P.bind_def, P.bind, hm]
    cases count (parsePropertiesMap plat.stack) n payload <;> rfl
  rw [key, ← (Follows.toReports (Follows.count (follows_props plat.stack).2.2.1 n)) payload e]
  cases count (parsePropertiesMap plat.stack) n payload with
  | ok v => simp
  | err e' => simp
  | panic => simp

/-- A map with two properties, the value of the second of the type 0x77, which does not exist; and the same map cut off in
the value of the first. -/
example :
    (let holds := fun (payload : Bytes) (e : NomErr) =>
       match parseUserDataChunk ⟨true, 100⟩ ([4, 0, 0, 0] ++ (leNat32 (8 + payload.length) ++ leNat32 1 ++ payload) ++ [5]) with
       | .ok (r, ⟨none, none, some (.error e')⟩) => decide (r = [5]) && decide (e' = e)
       | _ => false
     holds ([9, 0, 0, 0, 2, 0, 0, 0] ++ ([1, 0, 112] ++ [6, 0, 1, 2, 3, 4]) ++ ([1, 0, 113] ++ [0x77, 0, 42]))
       (.failure (.invalidPropertyType 0x77)) &&
     holds ([9, 0, 0, 0, 2, 0, 0, 0] ++ ([1, 0, 112] ++ [6, 0, 1, 2, 3])) (.error (.nom [1, 2, 3] .eof))) = true := by
  decide +kernel

end Ase
