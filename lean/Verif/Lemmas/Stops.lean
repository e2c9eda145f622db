import Verif.Lemmas.File

/-!
# Panics and non-recoverable errors of a chunk stop the whole parse
-/

namespace Ase

open Spec

/-- A panic or a non-recoverable error. -/
inductive Stop where
  | panic (k : Panic)
  | failure (e : ParseError)

/-- The outcome it is. -/
def Stop.out {α : Type} : Stop → Outcome NomErr α
  | .panic k => .panic k
  | .failure e => .err (.failure e)

theorem Stop.bind {α β : Type} {p : P α} {f : α → P β} {b : Bytes} {s : Stop} (h : p b = s.out) :
    (p >>= f) b = s.out := by
  show P.bind p f b = _
  unfold P.bind
  rw [h]
  cases s <;> rfl

theorem Stop.count {α : Type} {p : P α} {G : α → Bytes → Prop} (hp : Parses p G) {xs : List α} {l r : Bytes}
    (hs : Seq G xs l) {n : Nat} (hn : xs.length < n) {s : Stop} (h : p r = s.out) :
    Ase.count p n (l ++ r) = s.out := by
  induction hs generalizing n with
  | nil =>
    cases n with
    | zero => simp at hn
    | succ n => exact Stop.bind h
  | @cons x xs k ks hx _ ih =>
    cases n with
    | zero => simp at hn
    | succ n =>
      simp only [Ase.count]
      rw [P.bind_of_ok ((hp _ (ks ++ r) x).2 ⟨k, hx, by simp⟩)]
      exact Stop.bind (ih (by simpa using hn))

theorem Stop.sized {α : Type} {p : P α} {l r : Bytes} (hl : 4 + l.length < 2 ^ 32) {s : Stop} (h : p l = s.out) :
    Ase.sized p (leNat32 (4 + l.length) ++ l ++ r) = s.out := by
  have hn : (UInt32.ofNat (4 + l.length)).toNat = 4 + l.length := by
    rw [UInt32.toNat_ofNat']; exact Nat.mod_eq_of_lt hl
  unfold Ase.sized
  rw [P.bind_of_ok (dwordSize_ok.2 ⟨by rw [hn]; omega, show _ = le32 (UInt32.ofNat (4 + l.length)) ++ (l ++ r) by
      rw [le32, hn, leNat32]; simp⟩),
    P.bind_of_ok (take_ok.2 ⟨by rw [hn]; omega, rfl⟩)]
  unfold P.onSlice
  rw [h]
  cases s <;> rfl

theorem Stop.many1 {α : Type} {p : P α} {G : α → Bytes → Prop} (hp : Parses p G) (hne : ∀ x l, G x l → l ≠ [])
    {xs : List α} {l r : Bytes} (hs : Seq G xs l) {s : Stop} (h : p r = s.out) :
    Ase.many1Loop p (l ++ r) = s.out ∧ Ase.many1 p (l ++ r) = s.out := by
  have hloop : ∀ {xs : List α} {l : Bytes}, Seq G xs l → Ase.many1Loop p (l ++ r) = s.out := by
    intro xs l hs
    induction hs with
    | nil =>
      rw [List.nil_append, many1Loop_eq, h]
      cases s <;> rfl
    | @cons x xs k ks hx _ ih =>
      rw [many1Loop_eq, (hp _ (ks ++ r) x).2 ⟨k, hx, by simp⟩]
      have : k.length ≠ 0 := fun e => hne _ _ hx (List.length_eq_zero_iff.1 e)
      dsimp only
      rw [if_pos (by simp; omega), ih]
      cases s <;> rfl
  refine ⟨hloop hs, ?_⟩
  cases hs with
  | nil => exact Stop.bind h
  | @cons x xs k ks hx hxs =>
    unfold Ase.many1
    rw [P.bind_of_ok ((hp _ (ks ++ r) x).2 ⟨k, hx, by simp⟩)]
    exact Stop.bind (hloop hxs)

theorem Stop.chunk {plat : Plat} {code : UInt16} {body r : Bytes} (hl : 6 + body.length < 2 ^ 32) {s : Stop}
    (h : parseChunkBody plat (typeOf code) body = s.out) :
    parseChunk plat (leNat32 (6 + body.length) ++ le16 code ++ body ++ r) = s.out := by
  have : (do let t ← parseChunkType; parseChunkBody plat t) (le16 code ++ body) = s.out := by
    rw [P.bind_of_ok (parseChunkType_ok.2 ⟨code, rfl, rfl⟩)]
    exact h
  have key := Stop.sized (l := le16 code ++ body) (r := r) (by simp; omega) this
  have e : 4 + (le16 code ++ body).length = 6 + body.length := by simp; omega
  rw [e] at key
  rw [← key]
  show parseChunk plat _ = parseChunk plat _
  simp

theorem Stop.rawFile {plat : Plat} {b r : Bytes} {h : Header} (hh : parseHeader b = .ok (r, h)) {s : Stop}
    (hs : Ase.many1 (parseRawframe plat) r = s.out) : parseRawFile plat b = s.out := by
  unfold parseRawFile
  show Outcome.bind (parseHeader b) _ = _
  rw [hh]
  show Outcome.bind (parseFrames plat r) _ = _
  unfold parseFrames allConsuming
  rw [hs]
  cases s <;> rfl

/-- A file whose first broken chunk is the one after the frames `fs` and the chunks `cs`. -/
theorem Stop.file {plat : Plat} {h : Header} {hb : Bytes} (hh : IsHeader h hb) {fs : List RawFrame} {fb : Bytes}
    (hfs : Seq (IsFrame (readsUserData plat)) fs fb) {cs : List Chunk} {cb : Bytes}
    (hcs : Seq (IsChunk (readsUserData plat)) cs cb) {old duration : UInt16} {new : UInt32}
    (hn : cs.length < chunkCount old new)
    {code : UInt16} {body : Bytes} {s : Stop} (hs : parseChunkBody plat (typeOf code) body = s.out)
    {reserved extra rest : Bytes} (hres : reserved.length = 2)
    (hlen : 22 + cb.length + body.length + extra.length < 2 ^ 32) :
    parseRawFile plat (hb ++ fb ++ (leNat32 (22 + cb.length + body.length + extra.length) ++ [0xFA, 0xF1] ++ le16 old
      ++ le16 duration ++ reserved ++ le32 new ++ cb ++ (leNat32 (6 + body.length) ++ le16 code ++ body) ++ extra)
      ++ rest) = s.out := by
  have h1 : parseChunk plat (leNat32 (6 + body.length) ++ le16 code ++ body ++ extra) = s.out :=
    Stop.chunk (by omega) hs
  have h2 := Stop.count (parses_chunk plat) hcs hn h1
  have h3 : parseRawframeBody plat (frameMagic ++ (le16 old ++ (le16 duration ++ (reserved ++ (le32 new ++ (cb ++
      ((leNat32 (6 + body.length) ++ le16 code ++ body) ++ extra))))))) = s.out := by
    unfold parseRawframeBody
    rw [P.bind_of_ok (tag_ok.2 ⟨rfl, rfl⟩), P.bind_of_ok (word_ok.2 rfl), P.bind_of_ok (word_ok.2 rfl),
      P.bind_of_ok (take_ok.2 ⟨hres, rfl⟩),
      P.bind_of_ok (b := le32 new ++ _) (parseDwordAsUsize_ok.2 ⟨new.toNat_lt, rfl⟩)]
    refine Stop.bind ?_
    have : (if new.toNat = 0 then old.toNat else new.toNat) = chunkCount old new := by
      unfold chunkCount
      by_cases h : new = 0
      · simp [h]
      · rw [if_neg h, if_neg]; intro e; exact h (UInt32.toNat_inj.1 e)
    unfold parseChunks
    rw [this]
    exact h2
  have hL : 4 + (frameMagic ++ (le16 old ++ (le16 duration ++ (reserved ++ (le32 new ++ (cb ++
      ((leNat32 (6 + body.length) ++ le16 code ++ body) ++ extra))))))).length =
      22 + cb.length + body.length + extra.length := by
    simp [hres, frameMagic]; omega
  have h4 := Stop.sized (r := rest) (by rw [hL]; exact hlen) h3
  rw [hL] at h4
  have h5 := (Stop.many1 (p := parseRawframe plat) (parses_rawframe plat)
    (by
      rintro f l ⟨old, new, res, cs, extra, _, _, _, _, rfl⟩ h
      have := congrArg List.length h
      simp at this) hfs h4).2
  refine Stop.rawFile ((parses_header _ _ _).2 ⟨hb, hh, ?_⟩) h5
  simp [frameMagic]

end Ase
