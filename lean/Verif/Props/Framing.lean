import Verif.Lemmas.File
import Verif.Lemmas.UserDataChunk

/-!
# C05, C07, C08: framing of chunks, frames and files

The layouts are in `Verif/Spec/File.lean`.
-/

namespace Ase

open Spec

theorem sized_panic {α : Type} {p : P α} {b : Bytes} {k : Panic} (h : sized p b = .panic k) :
    ∃ l r, 4 + l.length < 2 ^ 32 ∧ b = leNat32 (4 + l.length) ++ l ++ r ∧ p l = .panic k := by
  rcases P.bind_panic.1 h with h | ⟨n, r1, h1, h2⟩
  · exact absurd h (NoPanic.dwordSize _ _ _)
  · obtain ⟨h4, rfl⟩ := dwordSize_ok.1 h1
    rcases P.bind_panic.1 h2 with h2 | ⟨l, r2, h2, h3⟩
    · exact absurd h2 take_panic
    · obtain ⟨hl, rfl⟩ := take_ok.1 h2
      have hn := n.toNat_lt
      refine ⟨l, r2, by omega, ?_, P.onSlice_panic.1 h3⟩
      rw [show 4 + l.length = n.toNat by omega]
      show le32 n ++ _ = le32 n ++ l ++ _
      simp

theorem leNat32_append_inj {m n : Nat} (hm : m < 2 ^ 32) (hn : n < 2 ^ 32) {l l' : Bytes}
    (h : leNat32 m ++ l = leNat32 n ++ l') : m = n ∧ l = l' := by
  have h1 : parseDwordAsUsize (leNat32 m ++ l) = .ok (l, m) := parseDwordAsUsize_ok.2 ⟨hm, rfl⟩
  have h2 : parseDwordAsUsize (leNat32 m ++ l) = .ok (l', n) := parseDwordAsUsize_ok.2 ⟨hn, h⟩
  rw [h1] at h2
  cases h2
  exact ⟨rfl, rfl⟩

/-- **C05.** Chunk framing.
1. `parse_chunk` accepts exactly the chunk records (size, type, body; `Spec.IsContent` says what the body of each type
   is and which surplus bytes are ignored).
2. It consumes exactly the number of bytes given by the size field, so the next chunk starts there.
3. What follows the record never matters: it never reads past its end.
4. A size below 6 or past the end of the input is an error (not a panic).
5. Surplus bytes at the end of a chunk's body are ignored (for every type but the three whose last field extends to the
   end of the chunk: cel, cel extra, mask). -/
theorem C05_chunk_framing (plat : Plat) (b : Bytes) :
    (∀ (r : Bytes) (c : Chunk), parseChunk plat b = .ok (r, c) ↔ ∃ l, IsChunk (readsUserData plat) c l ∧ b = l ++ r) ∧
    (∀ (r : Bytes) (c : Chunk) (s : Nat) (rest : Bytes), parseChunk plat b = .ok (r, c) → s < 2 ^ 32 →
      b = leNat32 s ++ rest → 6 ≤ s ∧ s ≤ b.length ∧ r = b.drop s) ∧
    (∀ (l r r' : Bytes) (c : Chunk), parseChunk plat (l ++ r) = .ok (r, c) → parseChunk plat (l ++ r') = .ok (r', c)) ∧
    (∀ (s : Nat) (rest : Bytes), s < 2 ^ 32 → b = leNat32 s ++ rest → (s < 6 ∨ b.length < s) →
      ∃ e, parseChunk plat b = .err e) ∧
    (∀ (code : UInt16) (body extra r : Bytes) (c : Chunk), code ≠ 0x2005 → code ≠ 0x2006 → code ≠ 0x2016 →
      6 + (body ++ extra).length < 2 ^ 32 →
      parseChunk plat (leNat32 (6 + body.length) ++ le16 code ++ body ++ r) = .ok (r, c) →
      parseChunk plat (leNat32 (6 + (body ++ extra).length) ++ le16 code ++ (body ++ extra) ++ r) = .ok (r, c)) := by
  have hsize : ∀ (r : Bytes) (c : Chunk) (s : Nat) (rest : Bytes), parseChunk plat b = .ok (r, c) → s < 2 ^ 32 →
      b = leNat32 s ++ rest → 6 ≤ s ∧ s ≤ b.length ∧ r = b.drop s := by
    intro r c s rest hp hs hb
    obtain ⟨l, ⟨code, body, hl, _, rfl⟩, rfl⟩ := (parses_chunk plat _ _ _).1 hp
    obtain ⟨rfl, _⟩ := leNat32_append_inj (l := le16 code ++ (body ++ r)) hl hs (by rw [← hb]; simp)
    refine ⟨by omega, by simp; omega, ?_⟩
    rw [List.drop_left' (by simp; omega)]
  refine ⟨fun r c => parses_chunk plat b r c, hsize, ?_, ?_, ?_⟩
  · intro l r r' c h
    obtain ⟨l', hl', e⟩ := (parses_chunk plat _ _ _).1 h
    obtain rfl := List.append_cancel_right e
    exact (parses_chunk plat _ _ _).2 ⟨l, hl', rfl⟩
  · intro s rest hs hb hbad
    cases h : parseChunk plat b with
    | ok v =>
      obtain ⟨r, c⟩ := v
      have := hsize r c s rest h hs hb
      omega
    | err e => exact ⟨e, rfl⟩
    | panic k =>
      obtain ⟨l, r, hl, hb', hk⟩ := sized_panic h
      obtain ⟨rfl, rfl⟩ := leNat32_append_inj (l := l ++ r) hl hs (by rw [← hb, hb']; simp)
      rcases P.bind_panic.1 hk with hk | ⟨t, r', ht, _⟩
      · exact absurd hk (noPanic_parseChunkType _ _)
      · obtain ⟨code, rfl, rfl⟩ := parseChunkType_ok.1 ht
        rw [hb] at hbad
        simp at hbad
        omega
  · intro code body extra r c h1 h2 h3 hl hp
    obtain ⟨l, ⟨code', body', hl', hc, hr⟩, e⟩ := (parses_chunk plat _ _ _).1 hp
    obtain rfl := List.append_cancel_right e
    have hbl : 6 + body.length < 2 ^ 32 := by simp at hl; omega
    simp only [List.append_assoc] at hr
    obtain ⟨_, hr⟩ := leNat32_append_inj hbl hl' hr
    have hw : word (le16 code ++ body) = .ok (body, code) := word_ok.2 rfl
    rw [word_ok.2 hr] at hw
    cases hw
    refine (parses_chunk plat _ _ _).2 ⟨_, ⟨code, body ++ extra, hl, ?_, rfl⟩, rfl⟩
    have sw : ∀ {α : Type} {G : α → Bytes → Prop} {x : α}, StartsWith G x body → StartsWith G x (body ++ extra) := by
      rintro α G x ⟨l, ex, hx, rfl⟩; exact ⟨l, ex ++ extra, hx, by simp⟩
    cases c with
    | cel => exact absurd hc.1 h1
    | celExtra => exact absurd hc.1 h2
    | mask => exact absurd hc.1 h3
    | path => exact hc
    | unsupported => exact hc
    | userData u =>
      obtain ⟨hcode, ex, hu⟩ := hc
      have hb1 : body.length < 2 ^ 63 := by omega
      have hb2 : (body ++ extra).length < 2 ^ 63 := by omega
      obtain ⟨flags, t, k, p, ht, hk, hpp, hbe⟩ := (parseUserDataChunk_ok hb1).1 hu
      exact ⟨hcode, ex ++ extra, (parseUserDataChunk_ok hb2).2 ⟨flags, t, k, p, ht, hk, hpp, by rw [hbe]; simp⟩⟩
    | _ => exact ⟨hc.1, sw hc.2⟩

/-- A path chunk of 8 bytes with a following byte; a size that is too small; a size past the end. -/
example : (match parseChunk ⟨true, 10⟩ [8, 0, 0, 0, 0x17, 0x20, 1, 2, 99] with
      | .ok (r, .path) => r == [99] | _ => false) = true ∧
    (match parseChunk ⟨true, 10⟩ [5, 0, 0, 0, 0x17, 0x20, 1, 2, 99] with | .err _ => true | _ => false) = true ∧
    (match parseChunk ⟨true, 10⟩ [10, 0, 0, 0, 0x17, 0x20, 1, 2, 99] with | .err _ => true | _ => false) = true := by
  decide +kernel

/-- **C07.** Frame framing: `parse_rawframe` accepts exactly the frame records (`Spec.IsFrame`: size, magic number,
duration, chunk count from the new field or, if that is zero, from the old one, exactly that many chunks, surplus
bytes ignored), consumes exactly the size field's number of bytes, and never looks past them. -/
theorem C07_frame_framing (plat : Plat) (b : Bytes) :
    (∀ (r : Bytes) (f : RawFrame), parseRawframe plat b = .ok (r, f) ↔
      ∃ l, IsFrame (readsUserData plat) f l ∧ b = l ++ r) ∧
    (∀ (r : Bytes) (f : RawFrame) (s : Nat) (rest : Bytes), parseRawframe plat b = .ok (r, f) → s < 2 ^ 32 →
      b = leNat32 s ++ rest → 16 ≤ s ∧ s ≤ b.length ∧ r = b.drop s) ∧
    (∀ (l r r' : Bytes) (f : RawFrame), parseRawframe plat (l ++ r) = .ok (r, f) →
      parseRawframe plat (l ++ r') = .ok (r', f)) := by
  refine ⟨fun r f => parses_rawframe plat b r f, ?_, ?_⟩
  · intro r f s rest hp hs hb
    obtain ⟨l, ⟨old, new, res, cs, extra, hres, hn, hseq, hl, rfl⟩, rfl⟩ := (parses_rawframe plat _ _ _).1 hp
    obtain ⟨rfl, _⟩ := leNat32_append_inj
      (l := [0xFA, 0xF1] ++ (le16 old ++ (le16 f.duration ++ (res ++ (le32 new ++ (cs ++ (extra ++ r))))))) hl hs
      (by rw [← hb]; simp)
    refine ⟨by omega, by simp [hres]; omega, ?_⟩
    rw [List.drop_left' (by simp [hres]; omega)]
  · intro l r r' f h
    obtain ⟨l', hl', e⟩ := (parses_rawframe plat _ _ _).1 h
    obtain rfl := List.append_cancel_right e
    exact (parses_rawframe plat _ _ _).2 ⟨l, hl', rfl⟩

/-- A frame of duration 100 with one path chunk, counted by the old field, and two surplus bytes. -/
example : (match parseRawframe ⟨true, 10⟩ ([24, 0, 0, 0, 0xFA, 0xF1, 1, 0, 100, 0, 0, 0, 0, 0, 0, 0]
        ++ [6, 0, 0, 0, 0x17, 0x20] ++ [7, 7] ++ [42]) with
      | .ok (r, ⟨d, [.path]⟩) => r == [42] && d == 100 | _ => false) = true := by decide +kernel

/-- **C08.** `parse_raw_file` succeeds exactly on a valid header followed by one or more frame records and nothing else,
and returns that header and those frames in order. -/
theorem C08_file_framing (plat : Plat) (b : Bytes) (f : RawFile) :
    parseRawFile plat b = .ok f ↔
      ∃ header frames, IsHeader f.header header ∧ f.frames ≠ [] ∧ Seq (IsFrame (readsUserData plat)) f.frames frames ∧
        b = header ++ frames :=
  parseRawFile_ok

/-- The smallest file: header and one empty frame; a header alone and a file with a trailing byte are rejected. -/
example :
    let header : Bytes := [0, 0, 0, 0, 0xE0, 0xA5] ++ [1, 0, 1, 0, 1, 0, 32, 0] ++ List.replicate 114 0
    let frame : Bytes := [16, 0, 0, 0, 0xFA, 0xF1, 0, 0, 100, 0, 0, 0, 0, 0, 0, 0]
    (match parseRawFile ⟨true, 10⟩ (header ++ frame ++ frame) with | .ok f => f.frames.length == 2 | _ => false) = true ∧
    (match parseRawFile ⟨true, 10⟩ header with | .err _ => true | _ => false) = true ∧
    (match parseRawFile ⟨true, 10⟩ (header ++ frame ++ [0]) with | .err _ => true | _ => false) = true := by
  decide +kernel

end Ase
