import Verif.Spec.Panics
import Verif.Lemmas.UserDataChunk
import Verif.Lemmas.Errors

/-! # Exactly when the parsers of chunks, frames and files panic -/

namespace Ase

open Spec

theorem count_panic {α : Type} {p : P α} {G : α → Bytes → Prop} (hp : Parses p G) {n : Nat} {b : Bytes} {k : Panic} :
    count p n b = .panic k ↔ SomeElem G (fun r => p r = .panic k) n b := by
  unfold SomeElem
  induction n generalizing b with
  | zero =>
    constructor
    · intro h; cases h
    · rintro ⟨_, _, _, _, _, h, _⟩; simp at h
  | succ n ih =>
    constructor
    · intro h
      rcases P.bind_panic.1 h with h | ⟨x, r, h1, h2⟩
      · exact ⟨[], [], b, .nil, rfl, by simp, h⟩
      · rcases P.bind_panic.1 h2 with h3 | ⟨_, _, _, h3⟩
        · obtain ⟨l, hl, rfl⟩ := (hp _ _ _).1 h1
          obtain ⟨xs, l', r', hs, rfl, hn, he⟩ := ih.1 h3
          exact ⟨x :: xs, l ++ l', r', .cons hl hs, by simp, by simpa using hn, he⟩
        · cases h3
    · rintro ⟨xs, l, r, hs, rfl, hn, he⟩
      cases hs with
      | nil => exact P.bind_panic.2 (.inl he)
      | @cons x xs k ks hx hs =>
        refine P.bind_panic.2 (.inr ⟨x, ks ++ r, (hp _ _ _).2 ⟨k, hx, by simp⟩, P.bind_panic.2 (.inl ?_)⟩)
        exact ih.2 ⟨xs, ks, r, hs, rfl, by simpa using hn, he⟩

theorem SomeElem.congr {α : Type} {G : α → Bytes → Prop} {D D' : Bytes → Prop} {n : Nat} {b : Bytes}
    (h : ∀ r, D r ↔ D' r) : SomeElem G D n b ↔ SomeElem G D' n b := by
  unfold SomeElem; simp only [h]

theorem map_panic {α β : Type} {p : P α} {f : α → β} {b : Bytes} {k : Panic} :
    (do pure (f (← p)) : P β) b = .panic k ↔ p b = .panic k := by
  constructor
  · intro h
    rcases P.bind_panic.1 h with h | ⟨x, r, h1, h2⟩
    · exact h
    · cases h2
  · intro h; exact P.bind_panic.2 (.inl h)

theorem bind_panic_of {α β : Type} {p : P α} {f : α → P β} {b : Bytes} {k : Panic} (hp : NoPanic p) :
    (p >>= f) b = .panic k ↔ ∃ x r, p b = .ok (r, x) ∧ f x r = .panic k := by
  rw [P.bind_panic]
  exact ⟨fun h => h.resolve_left (hp _ _), .inr⟩

theorem count_panic_iff {α : Type} {p : P α} {G : α → Bytes → Prop} {D : Bytes → Prop} (hp : Parses p G)
    (hD : ∀ b k, p b = .panic k ↔ k = .stackOverflow ∧ D b) {n : Nat} {b : Bytes} {k : Panic} :
    count p n b = .panic k ↔ k = .stackOverflow ∧ SomeElem G D n b := by
  rw [count_panic hp]
  simp only [SomeElem, hD]
  grind

theorem deep_exact (d : Nat) :
    (∀ b k, parseValue d b = .panic k ↔ k = .stackOverflow ∧ DeepValue d b) ∧
    (∀ b k, parseVector d b = .panic k ↔ k = .stackOverflow ∧ DeepVector d b) ∧
    (∀ b k, parsePropertiesMap d b = .panic k ↔ k = .stackOverflow ∧ DeepMap d b) ∧
    (∀ b k, parseProperty d b = .panic k ↔ k = .stackOverflow ∧ DeepProperty d b) := by
  induction d with
  | zero =>
    have : ∀ {α : Type} {b : Bytes} {k : Panic}, (P.panic .stackOverflow : P α) b = .panic k ↔ k = .stackOverflow ∧ True := by
      intro α b k
      simp [P.panic, eq_comm]
    exact ⟨fun b k => by rw [parseValue, DeepValue]; exact this, fun b k => by rw [parseVector, DeepVector]; exact this,
      fun b k => by rw [parsePropertiesMap, DeepMap]; exact this, fun b k => by rw [parseProperty, DeepProperty]; exact this⟩
  | succ d ih =>
    obtain ⟨i1, i2, i3, i4⟩ := ih
    obtain ⟨p1, p2, p3, p4⟩ := parses_all d
    refine ⟨fun b k => ?_, fun b k => ?_, fun b k => ?_, fun b k => ?_⟩
    · rw [parseValue, DeepValue, bind_panic_of .word]
      constructor
      · rintro ⟨code, r, h1, h2⟩
        obtain rfl := word_ok.1 h1
        cases hc : PropertyType.fromRepr code.toNat with
        | none => rw [hc] at h2; cases h2
        | some t =>
          rw [hc] at h2
          have ht := PropertyType.eq_code hc
          subst ht
          cases t with
          | vector => have := (i2 _ _).1 (map_panic.1 h2); exact ⟨this.1, .inl ⟨r, rfl, this.2⟩⟩
          | propertiesMap => have := (i3 _ _).1 (map_panic.1 h2); exact ⟨this.1, .inr ⟨r, rfl, this.2⟩⟩
          | bool => exact absurd (map_panic.1 h2) (NoPanic.byte _ _)
          | int8 => exact absurd (map_panic.1 h2) (NoPanic.leI8 _ _)
          | uint8 => exact absurd (map_panic.1 h2) (NoPanic.byte _ _)
          | int16 => exact absurd (map_panic.1 h2) (NoPanic.short _ _)
          | uint16 => exact absurd (map_panic.1 h2) (NoPanic.word _ _)
          | int32 => exact absurd (map_panic.1 h2) (NoPanic.long _ _)
          | uint32 => exact absurd (map_panic.1 h2) (NoPanic.dword _ _)
          | int64 => exact absurd (map_panic.1 h2) (NoPanic.leI64 _ _)
          | uint64 => exact absurd (map_panic.1 h2) (NoPanic.leU64 _ _)
          | fixed => exact absurd (map_panic.1 h2) (NoPanic.fixed _ _)
          | float => exact absurd (map_panic.1 h2) (NoPanic.dword _ _)
          | double => exact absurd (map_panic.1 h2) (NoPanic.leU64 _ _)
          | string => exact absurd (map_panic.1 h2) (NoPanic.parseString _ _)
          | point => exact absurd (map_panic.1 h2) (NoPanic.parsePoint _ _)
          | size => exact absurd (map_panic.1 h2) (NoPanic.parseSize _ _)
          | rect => exact absurd (map_panic.1 h2) (NoPanic.parseRect _ _)
          | uuid => exact absurd (map_panic.1 h2) (NoPanic.parseUuid _ _)
      · rintro ⟨rfl, ⟨r, rfl, h⟩ | ⟨r, rfl, h⟩⟩
        · exact ⟨0x11, r, word_ok.2 rfl, map_panic.2 ((i2 _ _).2 ⟨rfl, h⟩)⟩
        · exact ⟨0x12, r, word_ok.2 rfl, map_panic.2 ((i3 _ _).2 ⟨rfl, h⟩)⟩
    · rw [parseVector, DeepVector, bind_panic_of .parseDwordAsUsize]
      constructor
      · rintro ⟨n, r, h1, h2⟩
        obtain ⟨code, r2, h3, h4⟩ := (bind_panic_of .word).1 h2
        obtain rfl := word_ok.1 h3
        obtain ⟨n, _, h5, h6⟩ := P.bind_ok.1 h1
        obtain ⟨rfl, rfl⟩ := P.pure_ok.1 h6
        obtain rfl := dword_ok.1 h5
        by_cases hz : code = 0
        · rw [if_pos hz] at h4
          subst hz
          have := (count_panic_iff p1 i1).1 (map_panic.1 h4)
          exact ⟨this.1, n, r2, .inl ⟨by simp, this.2⟩⟩
        rw [if_neg hz] at h4
        cases hc : PropertyType.fromRepr code.toNat with
        | none => rw [hc] at h4; cases h4
        | some t =>
          rw [hc] at h4
          have ht := PropertyType.eq_code hc
          subst ht
          cases t with
          | vector =>
            have := (count_panic_iff p2 i2).1 (map_panic.1 h4)
            exact ⟨this.1, n, r2, .inr (.inl ⟨by simp [PropertyType.code], this.2⟩)⟩
          | propertiesMap =>
            have := (count_panic_iff p3 i3).1 (map_panic.1 h4)
            exact ⟨this.1, n, r2, .inr (.inr ⟨by simp [PropertyType.code], this.2⟩)⟩
          | bool => exact absurd (map_panic.1 h4) (NoPanic.count (NoPanic.bind .byte fun _ => .pure _) _ _ _)
          | int8 => exact absurd (map_panic.1 h4) (NoPanic.leI8.count _ _ _)
          | uint8 => exact absurd (map_panic.1 h4) (NoPanic.byte.count _ _ _)
          | int16 => exact absurd (map_panic.1 h4) (NoPanic.short.count _ _ _)
          | uint16 => exact absurd (map_panic.1 h4) (NoPanic.word.count _ _ _)
          | int32 => exact absurd (map_panic.1 h4) (NoPanic.long.count _ _ _)
          | uint32 => exact absurd (map_panic.1 h4) (NoPanic.dword.count _ _ _)
          | int64 => exact absurd (map_panic.1 h4) (NoPanic.leI64.count _ _ _)
          | uint64 => exact absurd (map_panic.1 h4) (NoPanic.leU64.count _ _ _)
          | fixed => exact absurd (map_panic.1 h4) (NoPanic.fixed.count _ _ _)
          | float => exact absurd (map_panic.1 h4) (NoPanic.dword.count _ _ _)
          | double => exact absurd (map_panic.1 h4) (NoPanic.leU64.count _ _ _)
          | string => exact absurd (map_panic.1 h4) (NoPanic.parseString.count _ _ _)
          | point => exact absurd (map_panic.1 h4) (NoPanic.parsePoint.count _ _ _)
          | size => exact absurd (map_panic.1 h4) (NoPanic.parseSize.count _ _ _)
          | rect => exact absurd (map_panic.1 h4) (NoPanic.parseRect.count _ _ _)
          | uuid => exact absurd (map_panic.1 h4) (NoPanic.parseUuid.count _ _ _)
      · rintro ⟨rfl, n, r, ⟨rfl, h⟩ | ⟨rfl, h⟩ | ⟨rfl, h⟩⟩ <;>
          refine ⟨n.toNat, _, parseDwordAsUsize_ok.2 ⟨n.toNat_lt, List.append_assoc ..⟩,
            (bind_panic_of .word).2 ⟨_, r, word_ok.2 rfl, ?_⟩⟩
        · exact map_panic.2 ((count_panic_iff p1 i1).2 ⟨rfl, h⟩)
        · exact map_panic.2 ((count_panic_iff p2 i2).2 ⟨rfl, h⟩)
        · exact map_panic.2 ((count_panic_iff p3 i3).2 ⟨rfl, h⟩)
    · rw [parsePropertiesMap, DeepMap, bind_panic_of .dword]
      constructor
      · rintro ⟨key, r, h1, h2⟩
        obtain rfl := dword_ok.1 h1
        obtain ⟨n, r2, h3, h4⟩ := (bind_panic_of .parseDwordAsUsize).1 h2
        obtain ⟨n, _, h5, h6⟩ := P.bind_ok.1 h3
        obtain ⟨rfl, rfl⟩ := P.pure_ok.1 h6
        obtain rfl := dword_ok.1 h5
        have := (count_panic_iff p4 i4).1 (map_panic.1 h4)
        exact ⟨this.1, key, n, _, by simp, this.2⟩
      · rintro ⟨rfl, key, n, r, rfl, h⟩
        exact ⟨key, _, dword_ok.2 (List.append_assoc ..), (bind_panic_of .parseDwordAsUsize).2
          ⟨n.toNat, r, parseDwordAsUsize_ok.2 ⟨n.toNat_lt, rfl⟩, map_panic.2 ((count_panic_iff p4 i4).2 ⟨rfl, h⟩)⟩⟩
    · rw [parseProperty, DeepProperty, bind_panic_of .parseString]
      constructor
      · rintro ⟨name, r, h1, h2⟩
        obtain ⟨hf, rfl⟩ := parseString_ok.1 h1
        have := (i1 _ _).1 (map_panic.1 h2)
        exact ⟨this.1, name, r, hf, rfl, this.2⟩
      · rintro ⟨rfl, name, r, hf, rfl, h⟩
        exact ⟨name, r, parseString_ok.2 ⟨hf, rfl⟩, map_panic.2 ((i1 _ _).2 ⟨rfl, h⟩)⟩

theorem parsePropertiesMaps_panic {plat : Plat} {b : Bytes} {k : Panic} (hb : b.length < 2 ^ 63) :
    parsePropertiesMaps plat b = .panic k ↔ ∃ (size count : UInt32) (r : Bytes), b = le32 size ++ le32 count ++ r ∧
      ((k = .overflow ∧ plat.debug = true ∧ size.toNat < 8) ∨
       (k = .stackOverflow ∧ ∃ maps rest, r = maps ++ rest ∧ size.toNat = 8 + maps.length ∧
          SomeElem (IsMap true true plat.stack) (DeepMap plat.stack) count.toNat maps)) := by
  have hc := @count_panic_iff _ _ _ _ (parses_all plat.stack).2.2.1 (deep_exact plat.stack).2.2.1
  unfold parsePropertiesMaps
  rw [bind_panic_of .parseDwordAsUsize]
  constructor
  · rintro ⟨s, r1, h1, h2⟩
    obtain ⟨s, _, h3, h4⟩ := P.bind_ok.1 h1
    obtain ⟨rfl, rfl⟩ := P.pure_ok.1 h4
    obtain rfl := dword_ok.1 h3
    clear h1 h4
    obtain ⟨n, _, g3, g4⟩ := (bind_panic_of .parseDwordAsUsize).1 h2
    clear h2
    obtain ⟨n, r2, h5, h6⟩ := P.bind_ok.1 g3
    obtain ⟨e1, e2⟩ := P.pure_ok.1 h6
    subst e1 e2
    obtain rfl := dword_ok.1 h5
    refine ⟨s, n, r2, by simp, ?_⟩
    rcases P.bind_panic.1 g4 with h | ⟨m, r3, h5, h6⟩
    · unfold usizeSub8 at h
      split at h
      · cases h
      · next h8 =>
        split at h
        · next hd => cases h; exact .inl ⟨rfl, hd, by omega⟩
        · cases h
    · obtain ⟨maps, r4, h7, h8⟩ := (bind_panic_of (.take _)).1 h6
      obtain ⟨hm, rfl⟩ := take_ok.1 h7
      have hk : m + 8 = s.toNat ∧ r2 = maps ++ r4 := by
        unfold usizeSub8 at h5
        split at h5
        · cases h5; exact ⟨by omega, rfl⟩
        · split at h5
          · cases h5
          · cases h5
            simp at hb
            omega
      obtain ⟨hk, rfl⟩ := hk
      refine .inr ?_
      split at h8
      · cases h8
      · cases h8
      · next k' hk' =>
        cases h8
        have := hc.1 hk'
        exact ⟨this.1, maps, r4, rfl, by omega, this.2⟩
  · rintro ⟨s, n, r, rfl, h⟩
    refine ⟨s.toNat, _, parseDwordAsUsize_ok.2 ⟨s.toNat_lt, List.append_assoc ..⟩, (bind_panic_of .parseDwordAsUsize).2
      ⟨n.toNat, r, parseDwordAsUsize_ok.2 ⟨n.toNat_lt, rfl⟩, ?_⟩⟩
    rcases h with ⟨rfl, hd, h8⟩ | ⟨rfl, maps, rest, rfl, hs, h⟩
    · refine P.bind_panic.2 (.inl ?_)
      unfold usizeSub8
      rw [if_neg (by omega), if_pos hd]
      rfl
    · refine P.bind_panic.2 (.inr ⟨maps.length, maps ++ rest, ?_, (bind_panic_of (.take _)).2
        ⟨maps, rest, take_ok.2 ⟨rfl, rfl⟩, ?_⟩⟩)
      · unfold usizeSub8
        rw [hs, if_pos (by omega)]
        simp [Outcome.bind]
      · rw [hc.2 ⟨rfl, h⟩]

theorem parseUserDataChunk_panic {plat : Plat} {b : Bytes} {k : Panic} (hb : b.length < 2 ^ 63) :
    parseUserDataChunk plat b = .panic k ↔
      (k = .overflow ∧ plat.debug = true ∧ OverflowAt b) ∨ (k = .stackOverflow ∧ TooDeepAt plat.stack b) := by
  have key : parseUserDataChunk plat b = .panic k ↔ ∃ (flags : UInt32) (text : Option String) (color : Option PColor)
      (t c r : Bytes), Opt (bit32 flags 0) IsStr text t ∧ Opt (bit32 flags 1) (As Spec.color) color c ∧ bit32 flags 2 ∧
      b = le32 flags ++ t ++ c ++ r ∧ parsePropertiesMaps plat r = .panic k := by
    unfold parseUserDataChunk
    rw [bind_panic_of .dword]
    constructor
    · rintro ⟨flags, r1, h1, H1⟩
      obtain rfl := dword_ok.1 h1
      obtain ⟨text, r2, h2, H2⟩ := (bind_panic_of (.cond _ .parseString)).1 H1; clear H1
      obtain ⟨t, ht, rfl⟩ := (parses_string.cond_opt (userData_hasText flags)).1 h2
      obtain ⟨color, r3, h3, H3⟩ := (bind_panic_of (.cond _ .parseColor)).1 H2; clear H2
      obtain ⟨c, hc, rfl⟩ := ((Parses.of_eq @parseColor_ok).cond_opt (userData_hasColor flags)).1 h3
      have H4 := map_panic.1 H3
      unfold cond at H4
      split at H4
      · next h => exact ⟨flags, text, color, t, c, r3, ht, hc, (userData_hasProperties flags).1 h, by simp, map_panic.1 H4⟩
      · cases H4
    · rintro ⟨flags, text, color, t, c, r, ht, hc, hp, rfl, h⟩
      refine ⟨flags, t ++ (c ++ r), dword_ok.2 (by simp), (bind_panic_of (.cond _ .parseString)).2 ⟨text, c ++ r,
        (parses_string.cond_opt (userData_hasText flags)).2 ⟨t, ht, rfl⟩, (bind_panic_of (.cond _ .parseColor)).2
        ⟨color, r, ((Parses.of_eq @parseColor_ok).cond_opt (userData_hasColor flags)).2 ⟨c, hc, rfl⟩, map_panic.2 ?_⟩⟩⟩
      unfold cond
      rw [if_pos ((userData_hasProperties flags).2 hp)]
      exact map_panic.2 h
  rw [key]
  constructor
  · rintro ⟨flags, text, color, t, c, r, ht, hc, hp, rfl, h⟩
    obtain ⟨size, n, r, rfl, h'⟩ := (parsePropertiesMaps_panic (by simp at hb; omega)).1 h
    rcases h' with ⟨rfl, hd, h8⟩ | ⟨rfl, maps, rest, rfl, hs, h⟩
    · exact .inl ⟨rfl, hd, size, n, r, ⟨flags, text, color, t, c, ht, hc, hp, by simp⟩, h8⟩
    · exact .inr ⟨rfl, size, n, maps, rest, ⟨flags, text, color, t, c, ht, hc, hp, by simp⟩, hs, h⟩
  · rintro (⟨rfl, hd, size, n, r, ⟨flags, text, color, t, c, ht, hc, hp, rfl⟩, h8⟩ |
      ⟨rfl, size, n, maps, rest, ⟨flags, text, color, t, c, ht, hc, hp, rfl⟩, hs, h⟩)
    · refine ⟨flags, text, color, t, c, le32 size ++ le32 n ++ r, ht, hc, hp, by simp only [List.append_assoc], ?_⟩
      rw [parsePropertiesMaps_panic (by simp at hb ⊢; omega)]
      exact ⟨size, n, r, by simp, .inl ⟨rfl, hd, h8⟩⟩
    · refine ⟨flags, text, color, t, c, le32 size ++ le32 n ++ (maps ++ rest), ht, hc, hp, by simp only [List.append_assoc], ?_⟩
      rw [parsePropertiesMaps_panic (by simp at hb ⊢; omega)]
      exact ⟨size, n, maps ++ rest, by simp, .inr ⟨rfl, maps, rest, rfl, hs, h⟩⟩

/-! ## Chunks, frames, files -/

theorem sized_panic_iff {α : Type} {p : P α} {b : Bytes} {k : Panic} :
    sized p b = .panic k ↔ ∃ l rest, 4 + l.length < 2 ^ 32 ∧ b = leNat32 (4 + l.length) ++ l ++ rest ∧ p l = .panic k := by
  constructor
  · intro h
    unfold sized at h
    obtain ⟨n, rest, h1, h2⟩ := (bind_panic_of (.dwordSize _)).1 h
    obtain ⟨h4, rfl⟩ := dwordSize_ok.1 h1
    obtain ⟨l, r, h3, h5⟩ := (bind_panic_of (.take _)).1 h2
    obtain ⟨hl, rfl⟩ := take_ok.1 h3
    have hn := n.toNat_lt
    refine ⟨l, r, by omega, ?_, P.onSlice_panic.1 h5⟩
    rw [show 4 + l.length = n.toNat by omega]
    show _ = le32 n ++ l ++ _
    simp
  · rintro ⟨l, r, hl, rfl, hp⟩
    have hn : (UInt32.ofNat (4 + l.length)).toNat = 4 + l.length := by
      rw [UInt32.toNat_ofNat']; exact Nat.mod_eq_of_lt hl
    refine P.bind_panic.2 (.inr ⟨UInt32.ofNat (4 + l.length), l ++ r, dwordSize_ok.2 ⟨by omega, ?_⟩,
      P.bind_panic.2 (.inr ⟨l, r, take_ok.2 ⟨by omega, rfl⟩, P.onSlice_panic.2 hp⟩)⟩)
    rw [le32, hn, leNat32]; simp

theorem parseChunkBody_panic {plat : Plat} {code : UInt16} {b : Bytes} {k : Panic} :
    parseChunkBody plat (typeOf code) b = .panic k ↔ code = 0x2020 ∧ parseUserDataChunk plat b = .panic k := by
  constructor
  · intro h
    cases ht : typeOf code with
    | error c => rw [ht] at h; cases h
    | ok t =>
      rw [ht] at h
      cases t with
      | palette0004 => exact absurd (map_panic.1 h) (NoPanic.parseOldPaletteChunk _ _)
      | palette0011 => exact absurd (map_panic.1 h) (NoPanic.parseOldPaletteChunk _ _)
      | layer => exact absurd (map_panic.1 h) (NoPanic.parseLayerChunk _ _)
      | cel => exact absurd (map_panic.1 h) (NoPanic.parseCelChunk _ _)
      | celExtra => exact absurd (map_panic.1 h) (NoPanic.parseCelExtraChunk _ _)
      | colorProfile => exact absurd (map_panic.1 h) (NoPanic.parseColorProfile _ _)
      | externalFile => exact absurd (map_panic.1 h) (NoPanic.parseExternalFilesChunk _ _)
      | mask => exact absurd (map_panic.1 h) (NoPanic.parseMaskChunk _ _)
      | path => cases h
      | tags => exact absurd (map_panic.1 h) (NoPanic.parseTagsChunk _ _)
      | palette => exact absurd (map_panic.1 h) (NoPanic.parsePaletteChunk _ _)
      | slice => exact absurd (map_panic.1 h) (NoPanic.parseSliceChunk _ _)
      | tileset => exact absurd (map_panic.1 h) (NoPanic.parseTilesetChunk _ _)
      | userData =>
        refine ⟨?_, map_panic.1 h⟩
        unfold typeOf at ht
        split at ht
        · next t hl =>
          cases ht
          have hm := mem_of_lookup hl
          simpa [chunkTypes] using hm
        · cases ht
  · rintro ⟨rfl, h⟩
    have : typeOf 0x2020 = .ok .userData := rfl
    rw [this]
    exact map_panic.2 h

theorem parseChunk_panic {plat : Plat} {b : Bytes} {k : Panic} :
    parseChunk plat b = .panic k ↔ ∃ body rest, 6 + body.length < 2 ^ 32 ∧
      b = leNat32 (6 + body.length) ++ le16 0x2020 ++ body ++ rest ∧ parseUserDataChunk plat body = .panic k := by
  show sized _ b = _ ↔ _
  rw [sized_panic_iff]
  constructor
  · rintro ⟨l, rest, hl, rfl, h⟩
    obtain ⟨t, body, h1, h2⟩ := (bind_panic_of noPanic_parseChunkType).1 h
    obtain ⟨code, rfl, rfl⟩ := parseChunkType_ok.1 h1
    obtain ⟨rfl, h3⟩ := parseChunkBody_panic.1 h2
    exact ⟨body, rest, by simpa [← Nat.add_assoc] using hl, by simp [← Nat.add_assoc], h3⟩
  · rintro ⟨body, rest, hl, rfl, h⟩
    refine ⟨le16 0x2020 ++ body, rest, by simpa [← Nat.add_assoc] using hl, by simp [← Nat.add_assoc], ?_⟩
    exact (bind_panic_of noPanic_parseChunkType).2 ⟨_, body, parseChunkType_ok.2 ⟨0x2020, rfl, rfl⟩,
      parseChunkBody_panic.2 ⟨rfl, h⟩⟩

theorem parseRawframeBody_panic {plat : Plat} {l : Bytes} {k : Panic} :
    parseRawframeBody plat l = .panic k ↔
      ∃ (old duration : UInt16) (new : UInt32) (reserved : Bytes) (cs : List Chunk) (cb r : Bytes),
        reserved.length = 2 ∧ l = [0xFA, 0xF1] ++ le16 old ++ le16 duration ++ reserved ++ le32 new ++ cb ++ r ∧
        Seq (IsChunk (readsUserData plat)) cs cb ∧ cs.length < chunkCount old new ∧ parseChunk plat r = .panic k := by
  have hcc : ∀ (old : UInt16) (new : UInt32),
      (if new.toNat = 0 then old.toNat else new.toNat) = chunkCount old new := by
    intro old new
    unfold chunkCount
    by_cases h : new = 0
    · subst h; rfl
    · rw [if_neg h, if_neg]
      intro h'; exact h (UInt32.toNat_inj.1 h')
  unfold parseRawframeBody
  constructor
  · intro H0
    obtain ⟨_, _, g0, H1⟩ := (bind_panic_of (.tag _)).1 H0; clear H0
    obtain ⟨rfl, rfl⟩ := tag_ok.1 g0
    obtain ⟨old, _, g1, H2⟩ := (bind_panic_of .word).1 H1; clear H1
    obtain rfl := word_ok.1 g1
    obtain ⟨duration, _, g2, H3⟩ := (bind_panic_of .word).1 H2; clear H2
    obtain rfl := word_ok.1 g2
    obtain ⟨res, _, g3, H4⟩ := (bind_panic_of (.take _)).1 H3; clear H3
    obtain ⟨hres, rfl⟩ := take_ok.1 g3
    obtain ⟨new, _, g4, H5⟩ := (bind_panic_of .parseDwordAsUsize).1 H4; clear H4
    obtain ⟨new, _, h2, h3⟩ := P.bind_ok.1 g4
    obtain ⟨rfl, rfl⟩ := P.pure_ok.1 h3
    obtain rfl := dword_ok.1 h2
    obtain ⟨cs, cb, r, hs, rfl, hn, he⟩ := (count_panic (parses_chunk plat)).1 (map_panic.1 H5)
    rw [hcc] at hn
    exact ⟨old, duration, new, res, cs, cb, r, hres, by simp [frameMagic], hs, hn, he⟩
  · rintro ⟨old, duration, new, res, cs, cb, r, hres, rfl, hs, hn, he⟩
    simp only [List.append_assoc]
    rw [P.bind_of_ok (p := tag frameMagic) (b := [0xFA, 0xF1] ++ _) (tag_ok.2 ⟨rfl, rfl⟩), P.bind_of_ok (word_ok.2 rfl),
      P.bind_of_ok (word_ok.2 rfl), P.bind_of_ok (take_ok.2 ⟨hres, rfl⟩),
      P.bind_of_ok (b := le32 new ++ _) (parseDwordAsUsize_ok.2 ⟨new.toNat_lt, rfl⟩)]
    refine map_panic.2 ?_
    rw [hcc]
    exact (count_panic (parses_chunk plat)).2 ⟨cs, cb, r, hs, rfl, hn, he⟩

theorem parseFrames_panic {plat : Plat} {b : Bytes} {k : Panic} : parseFrames plat b = .panic k ↔
    ∃ fs l r, Seq (IsFrame (readsUserData plat)) fs l ∧ b = l ++ r ∧ parseRawframe plat r = .panic k := by
  have hp := parses_rawframe plat
  have hall : parseFrames plat b = .panic k ↔ many1 (parseRawframe plat) b = .panic k := by
    unfold parseFrames allConsuming
    cases many1 (parseRawframe plat) b with
    | ok v => obtain ⟨r, x⟩ := v; cases r <;> simp
    | err e => simp
    | panic k => simp
  rw [hall]
  unfold many1
  constructor
  · intro h
    rcases P.bind_panic.1 h with h | ⟨f, b1, h1, h2⟩
    · exact ⟨[], [], b, .nil, rfl, h⟩
    · obtain ⟨l, hl, rfl⟩ := (hp _ _ _).1 h1
      have h3 := map_panic.1 h2
      obtain ⟨xs, l', r', hs', rfl, hst⟩ := many1Loop_stops hp (fun _ _ => isFrame_ne) b1
      rcases hst with ⟨_, _, h4⟩ | ⟨_, _, h4⟩ | ⟨k', h5, h4⟩ <;> rw [h4] at h3 <;> cases h3
      exact ⟨f :: xs, l ++ l', r', .cons hl hs', by simp, h5⟩
  · rintro ⟨fs, l, r, hs, rfl, h⟩
    have hno : ∀ v, parseRawframe plat r ≠ .ok v := by rw [h]; intro v hv; cases hv
    cases hs with
    | nil => exact P.bind_panic.2 (.inl h)
    | @cons x xs k1 ks hx hs =>
      refine P.bind_panic.2 (.inr ⟨x, ks ++ r, (hp _ _ _).2 ⟨k1, hx, by simp⟩, map_panic.2 ?_⟩)
      obtain ⟨ys, l', r', hs', hb, hst⟩ := many1Loop_stops hp (fun _ _ => isFrame_ne) (ks ++ r)
      have hno' : ∀ v, parseRawframe plat r' ≠ .ok v := by
        intro v hv
        rcases hst with ⟨_, h1, _⟩ | ⟨_, h1, _⟩ | ⟨_, h1, _⟩ <;> rw [h1] at hv <;> cases hv
      obtain ⟨_, rfl⟩ := seq_unique hp hs hs' hb hno hno'
      rcases hst with ⟨_, h4, _⟩ | ⟨_, h4, _⟩ | ⟨k', h4, h5⟩ <;> rw [h4] at h <;> cases h
      exact h5

theorem parseRawFile_panic_iff {plat : Plat} {b : Bytes} {k : Panic} : parseRawFile plat b = .panic k ↔
    ∃ body, ReachesUserData (readsUserData plat) b body ∧ parseUserDataChunk plat body = .panic k := by
  have h0 : parseRawFile plat b = .panic k ↔ ∃ h r, parseHeader b = .ok (r, h) ∧ parseFrames plat r = .panic k := by
    unfold parseRawFile
    have := NoPanic.parseHeader b
    cases hh : parseHeader b with
    | ok v =>
      obtain ⟨r, h⟩ := v
      show (parseFrames plat r >>= fun _ => _) = _ ↔ _
      constructor
      · intro hf
        refine ⟨h, r, rfl, ?_⟩
        cases hfr : parseFrames plat r with
        | ok v => rw [hfr] at hf; cases hf
        | err e => rw [hfr] at hf; cases hf
        | panic k => rw [hfr] at hf; cases hf; rfl
      · rintro ⟨h', r', e, hf⟩
        cases e
        rw [hf]
        rfl
    | err e =>
      refine ⟨fun h => (by cases h), ?_⟩
      rintro ⟨_, _, e, _⟩
      cases e
    | panic k => exact absurd hh (this k)
  rw [h0]
  constructor
  · rintro ⟨h, r, h1, h2⟩
    obtain ⟨hb, hh, rfl⟩ := (parses_header _ _ _).1 h1
    obtain ⟨fs, fb, r, hs, rfl, h3⟩ := parseFrames_panic.1 h2
    obtain ⟨frame, rest, hl, rfl, h4⟩ := (show sized _ _ = _ ↔ _ from sized_panic_iff).1 h3
    obtain ⟨old, duration, new, res, cs, cb, r, hres, rfl, hcs, hn, h5⟩ := parseRawframeBody_panic.1 h4
    obtain ⟨body, extra, hbl, rfl, h6⟩ := parseChunk_panic.1 h5
    exact ⟨body, ⟨h, hb, fs, fb, _, rest, old, duration, new, res, cs, cb, extra, hh, hs, hl, by simp, hres, hcs, hn, hbl, rfl⟩, h6⟩
  · rintro ⟨body, ⟨h, hb, fs, fb, frame, rest, old, duration, new, res, cs, cb, extra, hh, hs, hl, rfl, hres, hcs, hn, hbl, hf⟩, h6⟩
    refine ⟨h, _, (parses_header _ _ _).2 ⟨hb, hh, List.append_assoc ..⟩, parseFrames_panic.2 ⟨fs, fb, _, hs, rfl, ?_⟩⟩
    refine (show sized _ _ = _ ↔ _ from sized_panic_iff).2 ⟨frame, rest, hl, rfl, ?_⟩
    refine parseRawframeBody_panic.2 ⟨old, duration, new, res, cs, cb, _, hres, hf, hcs, hn, ?_⟩
    exact parseChunk_panic.2 ⟨body, extra, hbl, rfl, h6⟩

end Ase
