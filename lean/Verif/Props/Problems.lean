import Verif.Spec.Problems
import Verif.Props.Errors
import Verif.Props.Fields

/-!
# The error of a malformed file tells what is wrong first (C127)

What can be wrong is in `Verif/Spec/Problems.lean`.
-/

namespace Ase

open Spec

private theorem header_iff (b : Bytes) (e : NomErr) : parseHeader b = .err e ↔ HeaderProblem b e := by
  rw [C61_header_errors]
  constructor
  · rintro (⟨h, rfl⟩ | ⟨h, h1, rfl⟩ | ⟨h, h1, h2, rfl⟩ | ⟨h, h1, h2, h3, rfl⟩)
    · exact .short h
    · exact .magic h h1
    · exact .firstZero h h1 h2
    · exact .secondZero h h1 h2 h3
  · rintro (h | ⟨h, h1⟩ | ⟨h, h1, h2⟩ | ⟨h, h1, h2, h3⟩)
    · exact .inl ⟨h, rfl⟩
    · exact .inr (.inl ⟨h, h1, rfl⟩)
    · exact .inr (.inr (.inl ⟨h, h1, h2, rfl⟩))
    · exact .inr (.inr (.inr ⟨h, h1, h2, h3, rfl⟩))

private theorem size_iff (b : Bytes) (e : NomErr) : SizeProblem b e ↔
    (b.length < 4 ∧ e = .error (.nom b .eof)) ∨
    (∃ (n : UInt32) (rest : Bytes), b = le32 n ++ rest ∧ n.toNat < 4 ∧ e = .failure (.invalidFrameSize n)) ∨
    (∃ (n : UInt32) (rest : Bytes), b = le32 n ++ rest ∧ 4 ≤ n.toNat ∧ b.length < n.toNat ∧ e = .error (.nom rest .eof)) := by
  constructor
  · rintro (h | ⟨h, h1⟩ | ⟨h, h1, h2⟩)
    · exact .inl ⟨h, rfl⟩
    · exact .inr (.inl ⟨_, _, h, h1, rfl⟩)
    · exact .inr (.inr ⟨_, _, h, h1, h2, rfl⟩)
  · rintro (⟨h, rfl⟩ | ⟨n, r, h, h1, rfl⟩ | ⟨n, r, h, h1, h2, rfl⟩)
    · exact .noSize h
    · exact .tooSmall h h1
    · exact .tooLarge h h1 h2

private theorem chunk_iff (plat : Plat) (b : Bytes) (e : NomErr) : parseChunk plat b = .err e ↔ ChunkProblem plat.debug b e := by
  rw [C127_chunk]
  constructor
  · rintro (h | h | h | ⟨l, r, h, h1, rfl⟩ | ⟨code, body, r, h, h1, h2⟩)
    · exact .size ((size_iff b e).2 (.inl h))
    · exact .size ((size_iff b e).2 (.inr (.inl h)))
    · exact .size ((size_iff b e).2 (.inr (.inr h)))
    · exact .noType h h1
    · exact .body h h1 h2
  · rintro (h | ⟨h, h1⟩ | ⟨h, h1, h2⟩)
    · rcases (size_iff b e).1 h with h | h | h
      · exact .inl h
      · exact .inr (.inl h)
      · exact .inr (.inr (.inl h))
    · exact .inr (.inr (.inr (.inl ⟨_, _, h, h1, rfl⟩)))
    · exact .inr (.inr (.inr (.inr ⟨_, _, _, h, h1, h2⟩)))

/-- The fields of the header of a frame. -/
private theorem fields_iff (l : Bytes) (e : NomErr) : Problem (skips [2, 2, 2, 4] .done) l e ↔
    l.length < 10 ∧ e = .error (.nom (l.drop (firstMissing (l.length + 2) - 2)) .eof) := by
  have short : ∀ (n : Nat) (next : Form) (l : Bytes), l.length < n →
      (Problem (.num n fun _ => next) l e ↔ e = .error (.nom l .eof)) := by
    intro n next l hn
    constructor
    · intro h
      cases h with
      | short h => rfl
      | later _ h => simp at hn; omega
    · rintro rfl; exact .short hn
  have step : ∀ (n : Nat) (next : Form) (l : Bytes), n ≤ l.length →
      (Problem (.num n fun _ => next) l e ↔ Problem next (l.drop n) e) := by
    intro n next l hn
    constructor
    · intro h
      cases h with
      | short h => omega
      | later _ h => simpa using h
    · intro h
      have h1 := leBytes_leNat (l.take n)
      have h2 : (l.take n).length = n := by simp [hn]
      have h3 := leNat_lt (l.take n)
      rw [h2] at h1 h3
      rw [← List.take_append_drop n l, ← h1]
      exact .later h3 h
  have none : ∀ l, ¬ Problem .done l e := by intro l h; cases h
  simp only [skips]
  by_cases h0 : l.length < 2
  · rw [short _ _ _ h0]
    have hm : firstMissing (l.length + 2) = 2 := by
      unfold firstMissing
      repeat first | rw [if_pos (by omega)] | rw [if_neg (by omega)]
    simp [hm, show l.length < 10 by omega]
  rw [step _ _ _ (by omega)]
  by_cases h1 : l.length < 4
  · rw [short _ _ _ (by simp; omega)]
    have hm : firstMissing (l.length + 2) = 4 := by
      unfold firstMissing
      repeat first | rw [if_pos (by omega)] | rw [if_neg (by omega)]
    simp [hm, show l.length < 10 by omega]
  rw [step _ _ _ (by simp; omega)]
  by_cases h2 : l.length < 6
  · rw [short _ _ _ (by simp; omega)]
    have hm : firstMissing (l.length + 2) = 6 := by
      unfold firstMissing
      repeat first | rw [if_pos (by omega)] | rw [if_neg (by omega)]
    simp [hm, show l.length < 10 by omega]
  rw [step _ _ _ (by simp; omega)]
  by_cases h3 : l.length < 10
  · rw [short _ _ _ (by simp; omega)]
    have hm : firstMissing (l.length + 2) = 8 := by
      unfold firstMissing
      repeat first | rw [if_pos (by omega)] | rw [if_neg (by omega)]
    simp [hm, show l.length < 10 by omega]
  rw [step _ _ _ (by simp; omega)]
  simp [none, h3]

/-- **C127 (frames).** A frame is rejected exactly if something is wrong with it, with the error that tells what is wrong
first. -/
theorem C127_frame (plat : Plat) (b : Bytes) (e : NomErr) :
    parseRawframe plat b = .err e ↔ FrameProblem plat.debug (readsUserData plat) b e := by
  have len16 : ∀ x, (le16 x).length = 2 := fun x => leBytes_length _ _
  have len32 : ∀ x, (le32 x).length = 4 := fun x => leBytes_length _ _
  rw [C61_frame_errors]
  constructor
  · rintro (h | h | h | ⟨l, r, hl, h, (⟨h1, rfl⟩ | ⟨h1, h2, rfl⟩ | ⟨old, dur, new, res, cs, cb, bad, hr, rfl, hs, hn, he⟩)⟩)
    · exact .size ((size_iff b e).2 (.inl h))
    · exact .size ((size_iff b e).2 (.inr (.inl h)))
    · exact .size ((size_iff b e).2 (.inr (.inr h)))
    · exact .magic hl h h1
    · obtain ⟨l', rfl⟩ : ∃ l', l = [0xFA, 0xF1] ++ l' := ⟨l.drop 2, by rw [← h1, List.take_append_drop]⟩
      refine .field hl h ((fields_iff l' _).2 ⟨by simp at h2; omega, ?_⟩)
      have : 2 ≤ firstMissing (l'.length + 2) := by unfold firstMissing; split <;> (try split) <;> (try split) <;> omega
      obtain ⟨m, hm⟩ := Nat.exists_eq_add_of_le this
      simp [hm, Nat.add_comm 2 m]
    · have hlen : 4 + ([0xFA, 0xF1] ++ le16 old ++ le16 dur ++ res ++ le32 new ++ cb ++ bad).length
          = 16 + cb.length + bad.length := by
        simp [len16, len32, hr]; omega
      rw [hlen] at h hl
      exact .chunk (old := old) (duration := dur) (new := new) (reserved := res) (cs := cs) (good := cb) (bad := bad)
        (rest := r) hr hl (by simpa using h) hs hn ((chunk_iff plat bad e).1 he)
  · rintro (h | ⟨hl, h, h1⟩ | ⟨hl, h, h1⟩ | ⟨hr, hl, h, hs, hn, he⟩)
    · rcases (size_iff b e).1 h with h | h | h
      · exact .inl h
      · exact .inr (.inl h)
      · exact .inr (.inr (.inl h))
    · exact .inr (.inr (.inr ⟨_, _, hl, h, .inl ⟨h1, rfl⟩⟩))
    · rename_i l' r
      obtain ⟨h2, rfl⟩ := (fields_iff l' _).1 h1
      refine .inr (.inr (.inr ⟨_, _, hl, h, .inr (.inl ⟨by simp, by simp; omega, ?_⟩)⟩))
      have : 2 ≤ firstMissing (l'.length + 2) := by unfold firstMissing; split <;> (try split) <;> (try split) <;> omega
      obtain ⟨m, hm⟩ := Nat.exists_eq_add_of_le this
      simp [hm, Nat.add_comm 2 m]
    · rename_i old dur new res cs cb bad r
      have hlen : 4 + ([0xFA, 0xF1] ++ le16 old ++ le16 dur ++ res ++ le32 new ++ cb ++ bad).length
          = 16 + cb.length + bad.length := by
        simp [len16, len32, hr]; omega
      refine .inr (.inr (.inr ⟨[0xFA, 0xF1] ++ le16 old ++ le16 dur ++ res ++ le32 new ++ cb ++ bad, r, by rw [hlen]; exact hl,
        by rw [hlen, h]; simp, .inr (.inr ⟨old, dur, new, res, cs, cb, bad, hr, rfl, hs, hn, (chunk_iff plat bad e).2 he⟩)⟩))

/-- **C127 (files).** `parse_file` fails exactly if something is wrong with the file, with the error that tells what is
wrong first, in file order: with the header; with a frame, its header, or a field of one of its chunks; with the palette;
with the layer number of a cel. -/
theorem C127_file (plat : Plat) (b : Bytes) (e : NomErr) :
    parseFile plat b = .err e ↔ FileProblem plat.debug (readsUserData plat) b e := by
  rw [C61_file_errors, header_iff]
  simp only [C127_frame]
  constructor
  · rintro (h | ⟨h, header, fs, frames, rest, hh, hs, rfl, (⟨rfl, h1⟩ | ⟨hf, e', h1, rfl⟩ | ⟨hf, hr, ⟨e', h1⟩, rfl⟩ |
      ⟨hf, rfl, hi, pe, h1, rfl⟩ | ⟨hf, rfl, hi, pre, c, post, h1, h2, h3, rfl⟩)⟩)
    · exact .header h
    · cases hs
      exact .firstFrame (by simp) hh h1
    · exact .failure rfl hh hf hs h1
    · exact .laterFrame rfl hh hf hs hr h1
    · exact .palette (by simp) hh hf hs hi h1
    · exact .layerIndex (by simp) hh hf hs hi h1 h2 h3
  · rintro (h | ⟨hb, hh, h1⟩ | ⟨hb, hh, hf, hs, h1⟩ | ⟨hb, hh, hf, hs, hr, h1⟩ | ⟨hb, hh, hf, hs, hi, h1⟩ |
      ⟨hb, hh, hf, hs, hi, h1, h2, h3⟩)
    · exact .inl h
    · exact .inr ⟨_, _, [], [], _, hh, .nil, by simpa using hb, .inl ⟨rfl, h1⟩⟩
    · exact .inr ⟨_, _, _, _, _, hh, hs, hb, .inr (.inl ⟨hf, _, h1, rfl⟩)⟩
    · exact .inr ⟨_, _, _, _, _, hh, hs, hb, .inr (.inr (.inl ⟨hf, hr, ⟨_, h1⟩, rfl⟩))⟩
    · exact .inr ⟨_, _, _, _, [], hh, hs, by simpa using hb, .inr (.inr (.inr (.inl ⟨hf, rfl, hi, _, h1, rfl⟩)))⟩
    · exact .inr ⟨_, _, _, _, [], hh, hs, by simpa using hb,
        .inr (.inr (.inr (.inr ⟨hf, rfl, hi, _, _, _, h1, h2, h3, rfl⟩)))⟩

/-- In the first frame, after a good layer, a cel whose position is cut off: the error points at the position.  The same in
the second frame: the error points at the frame.  A header with another magic number.  A frame that ends in its own
header, at the new number of chunks. -/
example :
    (let fails := fun (b : Bytes) (e : NomErr) =>
       match parseFile ⟨true, 9⟩ b with | .err e' => decide (e' = e) | _ => false
     let good := Sample.frame 0 [Sample.layer 1 0 0 255 [65]]
     let bad := Sample.frame 0 [Sample.layer 1 0 0 255 [65], Sample.chunk 0x2005 [0, 0, 7]]
     fails (Sample.header 1 1 32 ++ bad) (.error (.nom [7] .eof)) &&
     fails (Sample.header 1 1 32 ++ good ++ bad) (.error (.nom bad .eof)) &&
     fails ([0, 0, 0, 0, 0xE0, 0xA6] ++ List.replicate 122 0) (.error (.nom ([0xE0, 0xA6] ++ List.replicate 122 0) .tag)) &&
     fails (Sample.header 1 1 32 ++ [15, 0, 0, 0, 0xFA, 0xF1, 1, 0, 2, 0, 3, 0, 4, 5, 6]) (.error (.nom [4, 5, 6] .eof)))
      = true := by decide +kernel

/-- The second of them, as a problem of the frame. -/
example : FrameProblem true (readsUserData ⟨true, 9⟩) (Sample.frame 0 [Sample.chunk 0x2005 [0, 0, 7]]) (.error (.nom [7] .eof)) :=
  .chunk (old := 0) (duration := 0) (new := 1) (reserved := [0, 0]) (cs := []) (good := [])
    (bad := Sample.chunk 0x2005 [0, 0, 7]) (rest := []) rfl (by decide) (by decide +kernel) .nil (by decide)
    (.body (code := 0x2005) (body := [0, 0, 7]) (rest := []) (by decide) (by decide +kernel)
      (.later (n := 2) (x := 0) (by decide) (.short (by decide))))

end Ase
