import Verif.Spec.File
import Verif.Lemmas.Panics

/-! # Chunk, frame and file framing -/

namespace Ase

open Spec

attribute [local irreducible] List.append

theorem dwordSize_ok {f : UInt32 → ParseError} {b r : Bytes} {n : UInt32} :
    dwordSize f b = .ok (r, n) ↔ 4 ≤ n.toNat ∧ b = le32 n ++ r := by
  simp only [dwordSize, P.bind_ok, dword_ok]
  constructor
  · rintro ⟨x, _, rfl, h⟩
    split at h
    · next h4 => obtain ⟨rfl, rfl⟩ := P.pure_ok.1 h; exact ⟨h4, rfl⟩
    · cases h
  · rintro ⟨h4, rfl⟩
    exact ⟨n, r, rfl, by rw [if_pos h4]; rfl⟩

theorem sized_ok {α : Type} {p : P α} {b r : Bytes} {x : α} :
    sized p b = .ok (r, x) ↔
      ∃ l, 4 + l.length < 2 ^ 32 ∧ (∃ extra, p l = .ok (extra, x)) ∧ b = leNat32 (4 + l.length) ++ l ++ r := by
  simp only [sized, P.bind_ok, dwordSize_ok, take_ok, P.onSlice_ok]
  constructor
  · rintro ⟨n, _, ⟨h4, rfl⟩, l, _, ⟨hl, rfl⟩, rfl, extra, hp⟩
    have hn := n.toNat_lt
    refine ⟨l, by omega, ⟨extra, hp⟩, ?_⟩
    rw [show 4 + l.length = n.toNat by omega]
    show _ = le32 n ++ l ++ _
    simp
  · rintro ⟨l, hl, ⟨extra, hp⟩, rfl⟩
    have hn : (UInt32.ofNat (4 + l.length)).toNat = 4 + l.length := by
      rw [UInt32.toNat_ofNat']; exact Nat.mod_eq_of_lt hl
    refine ⟨UInt32.ofNat (4 + l.length), l ++ r, ⟨by omega, ?_⟩, l, r, ⟨by omega, rfl⟩, rfl, extra, hp⟩
    rw [le32, hn, leNat32]; simp

theorem startsWith_iff {α : Type} {p : P α} {G : α → Bytes → Prop} (h : Parses p G) {x : α} {body : Bytes} :
    StartsWith G x body ↔ ∃ extra, p body = .ok (extra, x) := by
  constructor
  · rintro ⟨l, extra, hl, rfl⟩; exact ⟨extra, (h _ _ _).2 ⟨l, hl, rfl⟩⟩
  · rintro ⟨extra, hp⟩
    obtain ⟨l, hl, rfl⟩ := (h _ _ _).1 hp
    exact ⟨l, extra, hl, rfl⟩

theorem map_ok {α β : Type} {p : P α} {f : α → β} {b r : Bytes} {y : β} :
    (do pure (f (← p)) : P β) b = .ok (r, y) ↔ ∃ x, p b = .ok (r, x) ∧ y = f x := by
  simp only [P.bind_ok, P.pure_ok]
  constructor
  · rintro ⟨x, _, h, rfl, rfl⟩; exact ⟨x, h, rfl⟩
  · rintro ⟨x, h, rfl⟩; exact ⟨x, r, h, rfl, rfl⟩

theorem mem_of_lookup {ω α : Type} [BEq ω] [LawfulBEq ω] {t : List (ω × α)} {c : ω} {v : α} (h : t.lookup c = some v) :
    (c, v) ∈ t := by
  induction t with
  | nil => cases h
  | cons p t ih =>
    obtain ⟨d, w⟩ := p
    rw [List.lookup] at h
    split at h
    · next hc => cases h; rw [eq_of_beq hc]; simp
    · exact List.mem_cons_of_mem _ (ih h)

/-- The type of the chunk with a given type code. -/
def typeOf (code : UInt16) : Except UInt16 ChunkType :=
  match chunkTypes.lookup code with
  | some t => .ok t
  | none => .error code

theorem parseChunkType_ok {b r : Bytes} {t : Except UInt16 ChunkType} :
    parseChunkType b = .ok (r, t) ↔ ∃ code, t = typeOf code ∧ b = le16 code ++ r := by
  simp only [parseChunkType, P.bind_ok, word_ok, ChunkType.fromRepr_eq]
  constructor
  · rintro ⟨code, _, rfl, h⟩
    refine ⟨code, ?_, ?_⟩
    · unfold typeOf
      cases hc : chunkTypes.lookup code with
      | some v => rw [hc] at h; exact (P.pure_ok.1 h).2
      | none => rw [hc] at h; exact (P.pure_ok.1 h).2
    · cases hc : chunkTypes.lookup code with
      | some v => rw [hc] at h; rw [(P.pure_ok.1 h).1]
      | none => rw [hc] at h; rw [(P.pure_ok.1 h).1]
  · rintro ⟨code, rfl, rfl⟩
    refine ⟨code, r, rfl, ?_⟩
    unfold typeOf
    cases hc : chunkTypes.lookup code with
    | some v => rfl
    | none => rfl

theorem parseChunkBody_ok {plat : Plat} {code : UInt16} {body : Bytes} {c : Chunk} :
    (∃ extra, parseChunkBody plat (typeOf code) body = .ok (extra, c)) ↔ IsContent (readsUserData plat) c code body := by
  have aux : ∀ {α : Type} {p : P α} {f : α → Chunk} {Q : α → Prop} (_ : ∀ x, (∃ extra, p body = .ok (extra, x)) ↔ Q x),
      (∃ extra, (do pure (f (← p)) : P Chunk) body = .ok (extra, c)) ↔ ∃ x, Q x ∧ c = f x := by
    intro α p f Q hQ
    simp only [map_ok]
    constructor
    · rintro ⟨extra, x, h, rfl⟩; exact ⟨x, (hQ x).1 ⟨extra, h⟩, rfl⟩
    · rintro ⟨x, h, rfl⟩; obtain ⟨extra, h⟩ := (hQ x).2 h; exact ⟨extra, x, h, rfl⟩
  cases h : chunkTypes.lookup code with
  | none =>
    have ht : typeOf code = .error code := by unfold typeOf; rw [h]
    rw [ht]
    show (∃ extra, (pure (Chunk.unsupported code) : P Chunk) body = .ok (extra, c)) ↔ _
    simp only [P.pure_ok]
    constructor
    · rintro ⟨_, _, rfl⟩; exact ⟨h, rfl⟩
    · intro hc
      cases c with
      | unsupported n => obtain ⟨_, rfl⟩ := hc; exact ⟨_, rfl, rfl⟩
      | path => cases (show code = 0x2017 from hc); exact absurd h (by decide)
      | _ => obtain ⟨rfl, _⟩ := hc; exact absurd h (by decide)
  | some t =>
    have ht : typeOf code = .ok t := by unfold typeOf; rw [h]
    rw [ht]
    have hm := mem_of_lookup h
    simp only [chunkTypes, List.mem_cons, Prod.mk.injEq, List.not_mem_nil, or_false] at hm
    clear ht h
    rcases hm with ⟨rfl, rfl⟩ | ⟨rfl, rfl⟩ | ⟨rfl, rfl⟩ | ⟨rfl, rfl⟩ | ⟨rfl, rfl⟩ | ⟨rfl, rfl⟩ |
      ⟨rfl, rfl⟩ | ⟨rfl, rfl⟩ | ⟨rfl, rfl⟩ | ⟨rfl, rfl⟩ | ⟨rfl, rfl⟩ | ⟨rfl, rfl⟩ | ⟨rfl, rfl⟩ | ⟨rfl, rfl⟩
    all_goals first
      | (unfold parseChunkBody
         first
          | rw [aux fun _ => (startsWith_iff parses_oldPalette).symm]
          | rw [aux fun _ => (startsWith_iff parses_layer).symm]
          | rw [aux fun _ => (startsWith_iff parses_colorProfile).symm]
          | rw [aux fun _ => (startsWith_iff parses_externalFiles).symm]
          | rw [aux fun _ => (startsWith_iff parses_tags).symm]
          | rw [aux fun _ => (startsWith_iff parses_palette).symm]
          | rw [aux fun _ => (startsWith_iff parses_slice).symm]
          | rw [aux fun _ => (startsWith_iff parses_tileset).symm]
          | rw [aux (Q := fun x => IsCel { x with content := swapFlips x.content } body) fun _ => by simp [parseCelChunk_ok]]
          | rw [aux (Q := fun x => IsCelExtra x body) fun _ => by simp [parseCelExtraChunk_ok]]
          | rw [aux (Q := fun x => IsMask x body) fun _ => by simp [parseMaskChunk_ok]]
          | rw [aux (Q := fun x => readsUserData plat x body) fun _ => Iff.rfl]
         constructor
         · rintro ⟨x, h, rfl⟩; exact ⟨rfl, h⟩
         · intro hc
           cases c with
           | path => exact absurd (show _ = (_ : UInt16) from hc) (by decide)
           | _ => first | exact ⟨_, hc.2, rfl⟩ | exact absurd hc.1 (by decide))
      | (show (∃ extra, (pure Chunk.path : P Chunk) body = .ok (extra, c)) ↔ _
         simp only [P.pure_ok]
         constructor
         · rintro ⟨_, _, rfl⟩; rfl
         · intro hc
           cases c with
           | path => exact ⟨_, rfl, rfl⟩
           | _ => exact absurd hc.1 (by decide))

theorem parses_chunk (plat : Plat) : Parses (parseChunk plat) (IsChunk (readsUserData plat)) := by
  intro b r c
  show sized _ b = _ ↔ _
  rw [sized_ok]
  constructor
  · rintro ⟨l, hl, ⟨extra, hp⟩, rfl⟩
    obtain ⟨t, body, ht, hb⟩ := P.bind_ok.1 hp
    obtain ⟨code, rfl, rfl⟩ := parseChunkType_ok.1 ht
    refine ⟨_, ⟨code, body, by simpa [← Nat.add_assoc] using hl, parseChunkBody_ok.1 ⟨extra, hb⟩, rfl⟩, ?_⟩
    simp [← Nat.add_assoc]
  · rintro ⟨l, ⟨code, body, hl, hc, rfl⟩, rfl⟩
    obtain ⟨extra, hb⟩ := parseChunkBody_ok.2 hc
    refine ⟨le16 code ++ body, by simpa [← Nat.add_assoc] using hl, ⟨extra, ?_⟩, by simp [← Nat.add_assoc]⟩
    exact P.bind_ok.2 ⟨_, body, parseChunkType_ok.2 ⟨code, rfl, rfl⟩, hb⟩

theorem parseRawframeBody_ok {plat : Plat} {b : Bytes} {f : RawFrame} :
    (∃ extra, parseRawframeBody plat b = .ok (extra, f)) ↔
      ∃ (old : UInt16) (new : UInt32) (reserved chunks extra : Bytes), reserved.length = 2 ∧
        f.chunks.length = chunkCount old new ∧ Seq (IsChunk (readsUserData plat)) f.chunks chunks ∧
        b = [0xFA, 0xF1] ++ le16 old ++ le16 f.duration ++ reserved ++ le32 new ++ chunks ++ extra := by
  have hcc : ∀ (old : UInt16) (new : UInt32),
      (if new.toNat = 0 then old.toNat else new.toNat) = chunkCount old new := by
    intro old new
    unfold chunkCount
    by_cases h : new = 0
    · subst h; rfl
    · rw [if_neg h, if_neg]
      intro h'; exact h (UInt32.toNat_inj.1 h')
  constructor
  · rintro ⟨extra, H0⟩
    unfold parseRawframeBody at H0
    obtain ⟨_, _, h1, H1⟩ := P.bind_ok.1 H0; clear H0
    obtain ⟨rfl, rfl⟩ := tag_ok.1 h1; clear h1
    obtain ⟨old, _, h2, H2⟩ := P.bind_ok.1 H1; clear H1
    obtain rfl := word_ok.1 h2; clear h2
    obtain ⟨dur, _, h3, H3⟩ := P.bind_ok.1 H2; clear H2
    obtain rfl := word_ok.1 h3; clear h3
    obtain ⟨res, _, h4, H4⟩ := P.bind_ok.1 H3; clear H3
    obtain ⟨hres, rfl⟩ := take_ok.1 h4; clear h4
    obtain ⟨newN, _, h5, H5⟩ := P.bind_ok.1 H4; clear H4
    obtain ⟨new, r5, h5', h5''⟩ := P.bind_ok.1 h5; clear h5
    obtain ⟨rfl, rfl⟩ := P.pure_ok.1 h5''; clear h5''
    obtain rfl := dword_ok.1 h5'; clear h5'
    obtain ⟨cs, rest, h6, H6⟩ := P.bind_ok.1 H5; clear H5
    obtain ⟨hn, l, hl, rfl⟩ := ((parses_chunk plat).count _ _ _ _).1 h6; clear h6
    obtain ⟨_, rfl⟩ := P.pure_ok.1 H6
    refine ⟨old, new, res, l, rest, hres, ?_, hl, by simp [frameMagic]⟩
    rw [hcc] at hn; exact hn
  · rintro ⟨old, new, res, cs, extra, hres, hn, hl, rfl⟩
    refine ⟨extra, ?_⟩
    unfold parseRawframeBody
    refine P.bind_ok.2 ⟨_, le16 old ++ (le16 f.duration ++ (res ++ (le32 new ++ (cs ++ extra)))), tag_ok.2 ⟨rfl, by simp [frameMagic]⟩, ?_⟩
    refine P.bind_ok.2 ⟨_, _, word_ok.2 rfl, ?_⟩
    refine P.bind_ok.2 ⟨_, _, word_ok.2 rfl, ?_⟩
    refine P.bind_ok.2 ⟨_, _, take_ok.2 ⟨hres, rfl⟩, ?_⟩
    refine P.bind_ok.2 ⟨new.toNat, _, P.bind_ok.2 ⟨_, _, dword_ok.2 rfl, P.pure_ok.2 ⟨rfl, rfl⟩⟩, ?_⟩
    refine P.bind_ok.2 ⟨f.chunks, extra, ((parses_chunk plat).count _ _ _ _).2 ⟨?_, cs, hl, rfl⟩, P.pure_ok.2 ⟨rfl, rfl⟩⟩
    rw [hcc]; exact hn

theorem parses_rawframe (plat : Plat) : Parses (parseRawframe plat) (IsFrame (readsUserData plat)) := by
  intro b r f
  show sized _ b = _ ↔ _
  rw [sized_ok]
  constructor
  · rintro ⟨l, hl, hp, rfl⟩
    obtain ⟨old, new, res, cs, extra, hres, hn, hs, rfl⟩ := parseRawframeBody_ok.1 hp
    have e : 16 + cs.length + extra.length =
        4 + ([0xFA, 0xF1] ++ le16 old ++ le16 f.duration ++ res ++ le32 new ++ cs ++ extra).length := by
      simp [hres]; omega
    refine ⟨_, ⟨old, new, res, cs, extra, hres, hn, hs, by rw [e]; exact hl, rfl⟩, ?_⟩
    rw [e]; simp
  · rintro ⟨l, ⟨old, new, res, cs, extra, hres, hn, hs, hl, rfl⟩, rfl⟩
    have e : 16 + cs.length + extra.length =
        4 + ([0xFA, 0xF1] ++ le16 old ++ le16 f.duration ++ res ++ le32 new ++ cs ++ extra).length := by
      simp [hres]; omega
    refine ⟨_, by rw [← e]; exact hl, parseRawframeBody_ok.2 ⟨old, new, res, cs, extra, hres, hn, hs, rfl⟩, ?_⟩
    rw [e]; simp

theorem many1Loop_ok {α : Type} {p : P α} {G : α → Bytes → Prop} (h : Parses p G) (hne : ∀ x l, G x l → l ≠ [])
    (hend : ∃ e, p [] = .err (.error e)) {b : Bytes} {xs : List α} : many1Loop p b = .ok ([], xs) ↔ Seq G xs b := by
  constructor
  · intro hb
    induction hn : b.length using Nat.strongRecOn generalizing b xs with
    | _ n ih =>
    subst hn
    rw [many1Loop_eq] at hb
    split at hb
    · next r x hx =>
      split at hb
      · next hl =>
        split at hb
        · next r' xs' hr =>
          cases hb
          obtain ⟨l, hg, rfl⟩ := (h _ _ _).1 hx
          exact .cons hg (ih _ hl hr rfl)
        · cases hb
        · cases hb
      · cases hb
    · cases hb; exact .nil
    · cases hb
    · cases hb
  · intro hs
    induction hs with
    | nil => obtain ⟨e, he⟩ := hend; rw [many1Loop_eq, he]
    | @cons x xs l ls hx _ ih =>
      rw [many1Loop_eq, (h _ _ _).2 ⟨l, hx, rfl⟩]
      have : l.length ≠ 0 := fun e => hne _ _ hx (List.length_eq_zero_iff.1 e)
      dsimp only
      rw [if_pos (by simp; omega), ih]

theorem parseFrames_ok {plat : Plat} {b r : Bytes} {fs : List RawFrame} :
    parseFrames plat b = .ok (r, fs) ↔ r = [] ∧ fs ≠ [] ∧ Seq (IsFrame (readsUserData plat)) fs b := by
  have hloop : ∀ {b : Bytes} {xs : List RawFrame}, many1Loop (parseRawframe plat) b = .ok ([], xs) ↔
      Seq (IsFrame (readsUserData plat)) xs b := by
    intro b xs
    apply many1Loop_ok (parses_rawframe plat)
    · rintro f l ⟨old, new, res, cs, extra, _, _, _, _, rfl⟩ h
      have := congrArg List.length h
      simp at this
    · exact ⟨.nom [] .eof, rfl⟩
  rw [parseFrames, allConsuming_ok, many1]
  constructor
  · rintro ⟨rfl, h⟩
    obtain ⟨f, b1, h1, h2⟩ := P.bind_ok.1 h
    obtain ⟨fs', r', h3, h4⟩ := P.bind_ok.1 h2
    obtain ⟨rfl, rfl⟩ := P.pure_ok.1 h4
    obtain ⟨l, hl, rfl⟩ := (parses_rawframe plat _ _ _).1 h1
    exact ⟨rfl, by simp, .cons hl (hloop.1 h3)⟩
  · rintro ⟨rfl, hne, hs⟩
    refine ⟨rfl, ?_⟩
    cases hs with
    | nil => exact absurd rfl hne
    | @cons f fs l ls hf hs =>
      exact P.bind_ok.2 ⟨f, ls, (parses_rawframe plat _ _ _).2 ⟨l, hf, rfl⟩,
        P.bind_ok.2 ⟨fs, [], hloop.2 hs, P.pure_ok.2 ⟨rfl, rfl⟩⟩⟩

theorem outcome_bind_ok {ε α β : Type} {x : Outcome ε α} {f : α → Outcome ε β} {y : β} :
    (x >>= f) = .ok y ↔ ∃ a, x = .ok a ∧ f a = .ok y := by
  show Outcome.bind x f = _ ↔ _
  cases x with
  | ok a => simp [Outcome.bind]
  | err e => simp [Outcome.bind]
  | panic k => simp [Outcome.bind]

theorem parseRawFile_ok {plat : Plat} {b : Bytes} {f : RawFile} :
    parseRawFile plat b = .ok f ↔ IsFile (readsUserData plat) f b := by
  unfold parseRawFile
  rw [outcome_bind_ok]
  constructor
  · rintro ⟨⟨r, h⟩, h1, h2⟩
    obtain ⟨⟨r', fs⟩, h3, h4⟩ := outcome_bind_ok.1 h2
    cases h4
    obtain ⟨l, hl, rfl⟩ := (parses_header _ _ _).1 h1
    obtain ⟨rfl, hne, hs⟩ := parseFrames_ok.1 h3
    exact ⟨l, r, hl, hne, hs, rfl⟩
  · rintro ⟨l, r, hl, hne, hs, rfl⟩
    exact ⟨(r, f.header), (parses_header _ _ _).2 ⟨l, hl, rfl⟩,
      outcome_bind_ok.2 ⟨([], f.frames), parseFrames_ok.2 ⟨rfl, hne, hs⟩, rfl⟩⟩

end Ase
