import Verif.Lemmas.Chunks
import Verif.Lemmas.UserData

/-! # Which parsers panic, and when -/

namespace Ase

open Spec

/-! ## Consumption -/

/-- The remaining input is never longer than the input. -/
def Shrinks {α : Type} (p : P α) : Prop := ∀ b r x, p b = .ok (r, x) → r.length ≤ b.length

theorem Parses.shrinks {α : Type} {p : P α} {G : α → Bytes → Prop} (h : Parses p G) : Shrinks p := by
  intro b r x hx
  obtain ⟨l, _, rfl⟩ := (h _ _ _).1 hx
  simp

theorem Shrinks.bind {α β : Type} {p : P α} {f : α → P β} (hp : Shrinks p) (hf : ∀ x, Shrinks (f x)) :
    Shrinks (p >>= f) := by
  intro b r x h
  obtain ⟨y, r', h1, h2⟩ := P.bind_ok.1 h
  exact Nat.le_trans (hf _ _ _ _ h2) (hp _ _ _ h1)

theorem Shrinks.pure {α : Type} (a : α) : Shrinks (Pure.pure a : P α) := by
  intro b r x h
  obtain ⟨rfl, rfl⟩ := P.pure_ok.1 h
  exact Nat.le_refl _

theorem Shrinks.ite {α : Type} {c : Prop} [Decidable c] {p q : P α} (hp : Shrinks p) (hq : Shrinks q) :
    Shrinks (if c then p else q) := by split <;> assumption

theorem Shrinks.count {α : Type} {p : P α} (hp : Shrinks p) (n : Nat) : Shrinks (Ase.count p n) := by
  induction n with
  | zero => exact pure _
  | succ n ih => exact bind hp fun _ => bind ih fun _ => pure _

theorem Shrinks.cond {α : Type} {p : P α} (hp : Shrinks p) (c : Bool) : Shrinks (Ase.cond c p) :=
  ite (bind hp fun _ => pure _) (pure _)

theorem Shrinks.take (n : Nat) : Shrinks (Ase.take n) := by
  intro b r x h
  obtain ⟨_, rfl⟩ := take_ok.1 h
  simp

theorem Shrinks.fail {α : Type} (e : NomErr) : Shrinks (P.fail e : P α) := by intro b r x h; cases h

theorem Shrinks.word : Shrinks Ase.word := (Parses.of_eq @word_ok).shrinks
theorem Shrinks.dword : Shrinks Ase.dword := (Parses.of_eq @dword_ok).shrinks
theorem Shrinks.parseDwordAsUsize : Shrinks Ase.parseDwordAsUsize := bind dword fun _ => pure _
theorem Shrinks.dwordSize (f : UInt32 → ParseError) : Shrinks (Ase.dwordSize f) :=
  bind dword fun _ => ite (pure _) (fail _)

/-- Exactly `n` bytes are consumed on success. -/
def Takes {α : Type} (p : P α) (n : Nat) : Prop := ∀ b r x, p b = .ok (r, x) → r.length + n = b.length

theorem Takes.of_eq {α : Type} {p : P α} {enc : α → Bytes} {n : Nat}
    (h : ∀ {b r : Bytes} {x : α}, p b = .ok (r, x) ↔ b = enc x ++ r) (hl : ∀ x, (enc x).length = n) : Takes p n := by
  intro b r x hx
  obtain rfl := h.1 hx
  simp [hl]; omega

theorem Takes.bind {α β : Type} {p : P α} {f : α → P β} {n m : Nat} (hp : Takes p n) (hf : ∀ x, Takes (f x) m) :
    Takes (p >>= f) (n + m) := by
  intro b r x h
  obtain ⟨y, r', h1, h2⟩ := P.bind_ok.1 h
  have := hp _ _ _ h1
  have := hf _ _ _ _ h2
  omega

theorem Takes.pure {α : Type} (a : α) : Takes (Pure.pure a : P α) 0 := by
  intro b r x h
  obtain ⟨rfl, rfl⟩ := P.pure_ok.1 h
  rfl

theorem Takes.take (n : Nat) : Takes (Ase.take n) n := by
  intro b r x h
  obtain ⟨h, rfl⟩ := take_ok.1 h
  simp; omega

theorem Takes.tag (t : Bytes) : Takes (Ase.tag t) t.length := by
  intro b r x h
  obtain ⟨_, rfl⟩ := tag_ok.1 h
  simp; omega

theorem Takes.byte : Takes Ase.byte 1 := .of_eq byte_ok fun _ => rfl
theorem Takes.word : Takes Ase.word 2 := .of_eq word_ok le16_length
theorem Takes.short : Takes Ase.short 2 := .of_eq short_ok les16_length
theorem Takes.dword : Takes Ase.dword 4 := .of_eq dword_ok le32_length
theorem Takes.parseDwordAsUsize : Takes Ase.parseDwordAsUsize 4 := bind dword fun _ => pure _
theorem Takes.parseColorDepth : Takes Ase.parseColorDepth 2 := bind word fun _ => pure _

/-! ## The header assertion never fires -/

/-- The parser only panics on inputs longer than `n`. -/
def PanicsBeyond {α : Type} (p : P α) (n : Nat) : Prop := ∀ b k, p b = .panic k → n < b.length

theorem PanicsBeyond.bind {α β : Type} {p : P α} {f : α → P β} {n m : Nat} (hp : NoPanic p) (ht : Takes p n)
    (hf : ∀ x, PanicsBeyond (f x) m) : PanicsBeyond (p >>= f) (n + m) := by
  intro b k h
  rcases P.bind_panic.1 h with h | ⟨x, r, h1, h2⟩
  · exact absurd h (hp _ _)
  · have := ht _ _ _ h1
    have := hf _ _ _ h2
    omega

theorem parseHeaderFields_panics : PanicsBeyond parseHeaderFields 128 := by
  have w : ∀ {m : Nat} {α : Type} {f : UInt16 → P α}, (∀ x, PanicsBeyond (f x) m) → PanicsBeyond (word >>= f) (2 + m) :=
    fun h => .bind .word .word h
  have s : ∀ {m : Nat} {α : Type} {f : Int16 → P α}, (∀ x, PanicsBeyond (f x) m) → PanicsBeyond (short >>= f) (2 + m) :=
    fun h => .bind .short .short h
  have d : ∀ {m : Nat} {α : Type} {f : UInt32 → P α}, (∀ x, PanicsBeyond (f x) m) → PanicsBeyond (dword >>= f) (4 + m) :=
    fun h => .bind .dword .dword h
  have y : ∀ {m : Nat} {α : Type} {f : UInt8 → P α}, (∀ x, PanicsBeyond (f x) m) → PanicsBeyond (byte >>= f) (1 + m) :=
    fun h => .bind .byte .byte h
  have t : ∀ {n m : Nat} {α : Type} {f : Bytes → P α}, (∀ x, PanicsBeyond (f x) m) →
      PanicsBeyond (take n >>= f) (n + m) := fun h => .bind (.take _) (.take _) h
  have g : ∀ {m : Nat} {α : Type} {f : Bytes → P α} (l : Bytes), (∀ x, PanicsBeyond (f x) m) →
      PanicsBeyond (tag l >>= f) (l.length + m) := fun l h => .bind (.tag _) (.tag _) h
  unfold parseHeaderFields
  refine d (m := 124) fun _ => g (m := 122) headerMagic fun _ => w (m := 120) fun _ => w (m := 118) fun _ =>
    w (m := 116) fun _ => .bind (m := 114) (.bind .word fun _ => .pure _) .parseColorDepth fun _ =>
    d (m := 110) fun _ => w (m := 108) fun _ => g (m := 104) [0, 0, 0, 0] fun _ => g (m := 100) [0, 0, 0, 0] fun _ =>
    y (m := 99) fun _ => t (m := 96) fun _ => w (m := 94) fun _ => y (m := 93) fun _ => y (m := 92) fun _ =>
    s (m := 90) fun _ => s (m := 88) fun _ => w (m := 86) fun _ => w (m := 84) fun _ => t (m := 0) fun _ => ?_
  intro b k h
  cases b with
  | nil => cases h
  | cons => simp

theorem NoPanic.parseHeader : NoPanic parseHeader := by
  intro b k h
  rcases P.bind_panic.1 h with h | ⟨x, r, h1, h2⟩
  · exact take_panic h
  · have := parseHeaderFields_panics _ _ (P.onSlice_panic.1 h2)
    have := (take_ok.1 h1).1
    omega

/-! ## Chunks that never panic -/

namespace NoPanic

theorem parsePacket : NoPanic Ase.parsePacket :=
  bind byte fun _ => bind byte fun _ => bind (count parseRgb _) fun _ => pure _

theorem parseOldPaletteChunk : NoPanic Ase.parseOldPaletteChunk :=
  bind word fun _ => bind (count parsePacket _) fun _ => pure _

theorem parseLayerChunk : NoPanic Ase.parseLayerChunk :=
  bind word fun _ => bind word fun _ => bind word fun _ => bind word fun _ => bind word fun _ => bind word fun _ =>
  bind byte fun _ => bind (take _) fun _ => bind parseString fun _ => bind (cond _ dword) fun _ => pure _

theorem parseCelContent (t : CelType) : NoPanic (Ase.parseCelContent t) := by
  cases t with
  | rawImageData => exact bind word fun _ => bind word fun _ => bind remaining fun _ => pure _
  | linkedCel => exact bind word fun _ => pure _
  | compressedImage => exact bind word fun _ => bind word fun _ => bind remaining fun _ => pure _
  | compressedTilemap =>
    exact bind word fun _ => bind word fun _ => bind word fun _ => bind dword fun _ => bind dword fun _ =>
      bind dword fun _ => bind dword fun _ => bind (take _) fun _ => bind remaining fun _ => pure _
  | unknown => exact bind remaining fun _ => pure _

theorem parseCelChunk : NoPanic Ase.parseCelChunk :=
  bind word fun _ => bind short fun _ => bind short fun _ => bind byte fun _ => bind word fun _ => bind short fun _ =>
  bind (take _) fun _ => bind (parseCelContent _) fun _ => bind skipRest fun _ => pure _

theorem parseCelExtraChunk : NoPanic Ase.parseCelExtraChunk :=
  bind dword fun _ => bind fixed fun _ => bind fixed fun _ => bind fixed fun _ => bind fixed fun _ =>
  bind remaining fun _ => bind skipRest fun _ => pure _

theorem parseColorProfileBody (t : ColorProfileType) : NoPanic (Ase.parseColorProfileBody t) := by
  cases t with
  | noColorProfile => exact pure _
  | srgb => exact pure _
  | embeddedICC => exact bind dword fun _ => bind (take _) fun _ => pure _
  | unknown => exact pure _

theorem parseColorProfile : NoPanic Ase.parseColorProfile :=
  bind word fun _ => bind word fun _ => bind fixed fun _ => bind (take _) fun _ =>
  bind (parseColorProfileBody _) fun _ => pure _

theorem parseExternalFile : NoPanic Ase.parseExternalFile :=
  bind dword fun _ => bind byte fun _ => bind (take _) fun _ => bind parseString fun _ => pure _

theorem parseExternalFilesChunk : NoPanic Ase.parseExternalFilesChunk :=
  bind parseDwordAsUsize fun _ => bind (take _) fun _ => bind (count parseExternalFile _) fun _ => pure _

theorem parseMaskChunk : NoPanic Ase.parseMaskChunk :=
  bind short fun _ => bind short fun _ => bind word fun _ => bind word fun _ => bind (take _) fun _ =>
  bind parseString fun _ => bind remaining fun _ => bind skipRest fun _ => pure _

/-- The `color[0], color[1], color[2]` of a tag are always there. -/
theorem color3 {c : Bytes} (h : c.length = 3) : NoPanic (Ase.color3 c) := by
  match c, h with
  | [_, _, _], _ => exact pure _

theorem parseTag : NoPanic Ase.parseTag := by
  refine bind word fun _ => bind word fun _ => ite (fail _) (bind byte fun _ => bind word fun _ =>
    bind (take _) fun _ => ?_)
  intro b k h
  rcases P.bind_panic.1 h with h | ⟨x, r, h1, h2⟩
  · exact take_panic h
  · exact bind byte (fun _ => bind parseString fun _ => bind (color3 (take_ok.1 h1).1) fun _ => pure _) _ _ h2

theorem parseTagsChunk : NoPanic Ase.parseTagsChunk :=
  bind word fun _ => bind (take _) fun _ => bind (count parseTag _) fun _ => pure _

theorem parsePaletteEntry : NoPanic Ase.parsePaletteEntry :=
  bind word fun _ => bind parseColor fun _ => bind (cond _ parseString) fun _ => pure _

theorem parsePaletteChunk : NoPanic Ase.parsePaletteChunk :=
  bind parseDwordAsUsize fun _ => bind (parseDwordAsU8 _) fun _ => bind (parseDwordAsU8 _) fun _ =>
  ite (fail _) (bind (take _) fun _ => bind (count parsePaletteEntry _) fun _ => pure _)

theorem parseNinePatch : NoPanic Ase.parseNinePatch :=
  bind long fun _ => bind long fun _ => bind dword fun _ => bind dword fun _ => pure _

theorem parsePivot : NoPanic Ase.parsePivot := bind long fun _ => bind long fun _ => pure _

theorem parseSliceKey (f : SliceFlags) : NoPanic (Ase.parseSliceKey f) :=
  bind dword fun _ => bind long fun _ => bind long fun _ => bind dword fun _ => bind dword fun _ =>
  bind (cond _ parseNinePatch) fun _ => bind (cond _ parsePivot) fun _ => pure _

theorem parseSliceChunk : NoPanic Ase.parseSliceChunk :=
  bind parseDwordAsUsize fun _ => bind dword fun _ => bind dword fun _ => bind parseString fun _ =>
  bind (count (parseSliceKey _) _) fun _ => pure _

theorem parseTilesetExternalFile : NoPanic Ase.parseTilesetExternalFile :=
  bind dword fun _ => bind dword fun _ => pure _

theorem parseTiles : NoPanic Ase.parseTiles := bind dword fun _ => take _

theorem parseTilesetChunk : NoPanic Ase.parseTilesetChunk :=
  bind dword fun _ => bind dword fun _ => bind dword fun _ => bind word fun _ => bind word fun _ => bind short fun _ =>
  bind (take _) fun _ => bind parseString fun _ => bind (cond _ parseTilesetExternalFile) fun _ =>
  bind (cond _ parseTiles) fun _ => pure _

end NoPanic

/-! ## The recursive property parsers only panic by stack exhaustion, and only on long inputs -/

/-- All panics are stack overflows and happen only on inputs of at least `2 * d` bytes. -/
def Deep {α : Type} (p : P α) (d : Nat) : Prop :=
  ∀ b k, p b = .panic k → k = .stackOverflow ∧ 2 * d ≤ b.length

theorem NoPanic.deep {α : Type} {p : P α} (h : NoPanic p) (d : Nat) : Deep p d := fun _ _ e => absurd e (h _ _)

theorem Deep.bind {α β : Type} {p : P α} {f : α → P β} {d : Nat} (hp : Deep p d) (hs : Shrinks p)
    (hf : ∀ x, Deep (f x) d) : Deep (p >>= f) d := by
  intro b k h
  rcases P.bind_panic.1 h with h | ⟨x, r, h1, h2⟩
  · exact hp _ _ h
  · have h3 := hs _ _ _ h1
    have h4 := hf _ _ _ h2
    exact ⟨h4.1, by omega⟩

theorem Deep.map {α β : Type} {p : P α} {f : α → β} {d : Nat} (hp : Deep p d) :
    Deep (do pure (f (← p)) : P β) d := by
  intro b k h
  rcases P.bind_panic.1 h with h | ⟨x, r, h1, h2⟩
  · exact hp _ _ h
  · cases h2

theorem Deep.count {α : Type} {p : P α} {d : Nat} (hp : Deep p d) (hs : Shrinks p) (n : Nat) :
    Deep (Ase.count p n) d := by
  induction n with
  | zero => exact (NoPanic.pure _).deep _
  | succ n ih => exact bind hp hs fun _ => bind ih (hs.count n) fun _ => (NoPanic.pure _).deep _

/-- A header field of at least two bytes in front raises the depth by one. -/
theorem Deep.step {α β : Type} {p : P α} {f : α → P β} {d : Nat} (hp : NoPanic p)
    (ht : ∀ b r x, p b = .ok (r, x) → r.length + 2 ≤ b.length) (hf : ∀ x, Deep (f x) d) : Deep (p >>= f) (d + 1) := by
  intro b k h
  rcases P.bind_panic.1 h with h | ⟨x, r, h1, h2⟩
  · exact absurd h (hp _ _)
  · have h3 := ht _ _ _ h1
    have h4 := hf _ _ _ h2
    exact ⟨h4.1, by omega⟩

theorem parseString_takes (b r : Bytes) (x : String) (h : parseString b = .ok (r, x)) : r.length + 2 ≤ b.length := by
  obtain ⟨_, rfl⟩ := parseString_ok.1 h
  simp [str]
  omega

theorem deep_all (d : Nat) : Deep (parseValue d) d ∧ Deep (parseVector d) d ∧ Deep (parsePropertiesMap d) d ∧
    Deep (parseProperty d) d := by
  induction d with
  | zero =>
    refine ⟨?_, ?_, ?_, ?_⟩ <;>
    · intro b k h
      have : Outcome.panic .stackOverflow = (Outcome.panic k : Outcome NomErr _) := h
      cases this
      exact ⟨rfl, by omega⟩
  | succ d ih =>
    obtain ⟨ih1, ih2, ih3, ih4⟩ := ih
    have hs := parses_all d
    refine ⟨?_, ?_, ?_, ?_⟩
    · unfold parseValue
      refine Deep.step .word (fun b r x h => Nat.le_of_eq (Takes.word b r x h)) fun code => ?_
      split
      · exact (NoPanic.fail _).deep _
      all_goals first
        | exact ih2.map
        | exact ih3.map
        | exact (NoPanic.byte.deep _).map
        | exact (NoPanic.leI8.deep _).map
        | exact (NoPanic.short.deep _).map
        | exact (NoPanic.word.deep _).map
        | exact (NoPanic.long.deep _).map
        | exact (NoPanic.dword.deep _).map
        | exact (NoPanic.leI64.deep _).map
        | exact (NoPanic.leU64.deep _).map
        | exact (NoPanic.fixed.deep _).map
        | exact (NoPanic.parseString.deep _).map
        | exact (NoPanic.parsePoint.deep _).map
        | exact (NoPanic.parseSize.deep _).map
        | exact (NoPanic.parseRect.deep _).map
        | exact (NoPanic.parseUuid.deep _).map
    · unfold parseVector
      refine Deep.step .parseDwordAsUsize (fun b r x h => by have := Takes.parseDwordAsUsize b r x h; omega) fun n => ?_
      refine Deep.bind (NoPanic.word.deep _) .word fun code => ?_
      split
      · exact (ih1.count hs.1.shrinks n).map
      · split
        · exact (NoPanic.fail _).deep _
        all_goals first
          | exact (ih2.count hs.2.1.shrinks n).map
          | exact (ih3.count hs.2.2.1.shrinks n).map
          | exact ((NoPanic.count (NoPanic.bind .byte fun _ => .pure _) n).deep _).map
          | exact ((NoPanic.byte.count n).deep _).map
          | exact ((NoPanic.leI8.count n).deep _).map
          | exact ((NoPanic.short.count n).deep _).map
          | exact ((NoPanic.word.count n).deep _).map
          | exact ((NoPanic.long.count n).deep _).map
          | exact ((NoPanic.dword.count n).deep _).map
          | exact ((NoPanic.leI64.count n).deep _).map
          | exact ((NoPanic.leU64.count n).deep _).map
          | exact ((NoPanic.fixed.count n).deep _).map
          | exact ((NoPanic.parseString.count n).deep _).map
          | exact ((NoPanic.parsePoint.count n).deep _).map
          | exact ((NoPanic.parseSize.count n).deep _).map
          | exact ((NoPanic.parseRect.count n).deep _).map
          | exact ((NoPanic.parseUuid.count n).deep _).map
    · unfold parsePropertiesMap
      refine Deep.step .dword (fun b r x h => by have := Takes.dword b r x h; omega) fun n => ?_
      exact Deep.bind (NoPanic.parseDwordAsUsize.deep _) .parseDwordAsUsize fun n =>
        Deep.map (ih4.count hs.2.2.2.shrinks n)
    · unfold parseProperty
      exact Deep.step .parseString parseString_takes fun n => Deep.map ih1

/-! ## Everything up to `parse_raw_file` -/

/-- The two ways in which the chunk level can panic: the `size_maps - 8` underflow (debug builds), and stack
exhaustion on inputs of at least twice the stack's capacity. -/
def Tame {α : Type} (plat : Plat) (p : P α) : Prop :=
  ∀ b k, p b = .panic k →
    (k = .overflow ∧ plat.debug = true) ∨ (k = .stackOverflow ∧ 2 * plat.stack ≤ b.length)

theorem NoPanic.tame {α : Type} {p : P α} (h : NoPanic p) (plat : Plat) : Tame plat p := fun _ _ e => absurd e (h _ _)

theorem Tame.bind {α β : Type} {plat : Plat} {p : P α} {f : α → P β} (hp : Tame plat p) (hs : Shrinks p)
    (hf : ∀ x, Tame plat (f x)) : Tame plat (p >>= f) := by
  intro b k h
  rcases P.bind_panic.1 h with h | ⟨x, r, h1, h2⟩
  · exact hp _ _ h
  · have h3 := hs _ _ _ h1
    rcases hf _ _ _ h2 with h4 | h4
    · exact .inl h4
    · exact .inr ⟨h4.1, by omega⟩

theorem Tame.map {α β : Type} {plat : Plat} {p : P α} {f : α → β} (hp : Tame plat p) :
    Tame plat (do pure (f (← p)) : P β) := by
  intro b k h
  rcases P.bind_panic.1 h with h | ⟨x, r, h1, h2⟩
  · exact hp _ _ h
  · cases h2

theorem Tame.cond {α : Type} {plat : Plat} {p : P α} (hp : Tame plat p) (c : Bool) : Tame plat (Ase.cond c p) := by
  unfold Ase.cond; split
  · exact map hp
  · exact (NoPanic.pure _).tame _

theorem Tame.count {α : Type} {plat : Plat} {p : P α} (hp : Tame plat p) (hs : Shrinks p) (n : Nat) :
    Tame plat (Ase.count p n) := by
  induction n with
  | zero => exact (NoPanic.pure _).tame _
  | succ n ih => exact bind hp hs fun _ => bind ih (hs.count n) fun _ => (NoPanic.pure _).tame _

theorem tame_parsePropertiesMaps (plat : Plat) : Tame plat (parsePropertiesMaps plat) := by
  unfold parsePropertiesMaps
  refine Tame.bind (NoPanic.parseDwordAsUsize.tame _) .parseDwordAsUsize fun size =>
    Tame.bind (NoPanic.parseDwordAsUsize.tame _) .parseDwordAsUsize fun num => Tame.bind ?_ ?_ fun n => ?_
  · intro b k h
    unfold usizeSub8 at h
    split at h
    · cases h
    · split at h
      · next hd => cases h; exact .inl ⟨rfl, hd⟩
      · cases h
  · intro b r x h
    unfold usizeSub8 at h
    split at h
    · cases h; exact Nat.le_refl _
    · split at h
      · cases h
      · cases h; exact Nat.le_refl _
  · intro b k h
    rcases P.bind_panic.1 h with h | ⟨x, r, h1, h2⟩
    · exact absurd h take_panic
    · obtain ⟨_, rfl⟩ := take_ok.1 h1
      split at h2
      · cases h2
      · cases h2
      · next k' hk =>
        cases h2
        have := (deep_all plat.stack).2.2.1.count (parses_all plat.stack).2.2.1.shrinks num _ _ hk
        exact .inr ⟨this.1, by simp; omega⟩

theorem shrinks_parsePropertiesMaps (plat : Plat) : Shrinks (parsePropertiesMaps plat) := by
  unfold parsePropertiesMaps
  refine Shrinks.bind .parseDwordAsUsize fun size => .bind .parseDwordAsUsize fun num => .bind ?_ fun n =>
    .bind (.take _) fun m => ?_
  · intro b r x h
    unfold usizeSub8 at h
    split at h
    · cases h; exact Nat.le_refl _
    · split at h
      · cases h
      · cases h; exact Nat.le_refl _
  · intro b r x h
    split at h
    · cases h; exact Nat.le_refl _
    · cases h; exact Nat.le_refl _
    · cases h

theorem tame_parseUserDataChunk (plat : Plat) : Tame plat (parseUserDataChunk plat) :=
  .bind (NoPanic.dword.tame _) .dword fun _ =>
  .bind ((NoPanic.parseString.tame _).cond _) (parses_string.shrinks.cond _) fun _ =>
  .bind ((NoPanic.parseColor.tame _).cond _) ((Parses.of_eq @parseColor_ok).shrinks.cond _) fun _ =>
  .map ((tame_parsePropertiesMaps plat).cond _)

theorem tame_parseChunkBody (plat : Plat) (t : Except UInt16 ChunkType) : Tame plat (parseChunkBody plat t) := by
  unfold parseChunkBody
  split
  case _ => exact (NoPanic.parseOldPaletteChunk.tame _).map
  case _ => exact (NoPanic.parseOldPaletteChunk.tame _).map
  case _ => exact (NoPanic.parseLayerChunk.tame _).map
  case _ => exact (NoPanic.parseCelChunk.tame _).map
  case _ => exact (NoPanic.parseCelExtraChunk.tame _).map
  case _ => exact (NoPanic.parseColorProfile.tame _).map
  case _ => exact (NoPanic.parseExternalFilesChunk.tame _).map
  case _ => exact (NoPanic.parseMaskChunk.tame _).map
  case _ => exact (NoPanic.pure _).tame _
  case _ => exact (NoPanic.parseTagsChunk.tame _).map
  case _ => exact (NoPanic.parsePaletteChunk.tame _).map
  case _ => exact (tame_parseUserDataChunk plat).map
  case _ => exact (NoPanic.parseSliceChunk.tame _).map
  case _ => exact (NoPanic.parseTilesetChunk.tame _).map
  case _ => exact (NoPanic.pure _).tame _

theorem noPanic_parseChunkType : NoPanic parseChunkType :=
  .bind .word fun n => by
    cases ChunkType.fromRepr n.toNat with
    | none => exact .pure _
    | some => exact .pure _

theorem shrinks_parseChunkType : Shrinks parseChunkType :=
  .bind .word fun n => by
    cases ChunkType.fromRepr n.toNat with
    | none => exact .pure _
    | some => exact .pure _

/-- A length prefixed record: the size, then a parser that runs on the record's own bytes. -/
def sized {α : Type} (p : P α) : P α := do
  let size ← dwordSize .invalidFrameSize
  let input ← take (size.toNat - 4)
  P.onSlice p input

theorem tame_sized {α : Type} {plat : Plat} {p : P α} (h : Tame plat p) : Tame plat (sized p) := by
  refine Tame.bind ((NoPanic.dwordSize _).tame _) (.dwordSize _) fun size => ?_
  intro b k hk
  rcases P.bind_panic.1 hk with hk | ⟨x, r, h1, h2⟩
  · exact absurd hk take_panic
  · obtain ⟨_, rfl⟩ := take_ok.1 h1
    rcases h _ _ (P.onSlice_panic.1 h2) with h4 | h4
    · exact .inl h4
    · exact .inr ⟨h4.1, by simp; omega⟩

theorem shrinks_sized {α : Type} (p : P α) : Shrinks (sized p) := by
  refine .bind (.dwordSize _) fun size => .bind (.take _) fun s => ?_
  intro b r x h
  obtain ⟨rfl, _⟩ := P.onSlice_ok.1 h
  exact Nat.le_refl _

theorem tame_parseChunk (plat : Plat) : Tame plat (parseChunk plat) :=
  tame_sized (.bind (noPanic_parseChunkType.tame _) shrinks_parseChunkType fun t => tame_parseChunkBody plat t)

theorem tame_parseRawframeBody (plat : Plat) : Tame plat (parseRawframeBody plat) :=
  .bind ((NoPanic.tag _).tame _) (by
    intro b r x h; obtain ⟨_, rfl⟩ := tag_ok.1 h; simp) fun _ =>
  .bind (NoPanic.word.tame _) .word fun _ => .bind (NoPanic.word.tame _) .word fun _ =>
  .bind ((NoPanic.take _).tame _) (.take _) fun _ => .bind (NoPanic.parseDwordAsUsize.tame _) .parseDwordAsUsize fun _ =>
  .map ((tame_parseChunk plat).count (shrinks_sized _) _)

theorem tame_parseRawframe (plat : Plat) : Tame plat (parseRawframe plat) := tame_sized (tame_parseRawframeBody plat)

theorem Tame.many1Loop {α : Type} {plat : Plat} {p : P α} (hp : Tame plat p) : Tame plat (Ase.many1Loop p) := by
  intro b
  induction h : b.length using Nat.strongRecOn generalizing b with
  | _ n ih =>
  subst h
  intro k h
  rw [many1Loop_eq] at h
  split at h
  · next r x _ =>
    split at h
    · next hl =>
      split at h
      · cases h
      · cases h
      · next k' hk =>
        cases h
        rcases ih _ hl r rfl _ hk with h4 | h4
        · exact .inl h4
        · exact .inr ⟨h4.1, by omega⟩
    · cases h
  · cases h
  · cases h
  · next k' hk => cases h; exact hp _ _ hk

theorem tame_parseFrames (plat : Plat) : Tame plat (parseFrames plat) := by
  intro b k h
  unfold parseFrames allConsuming at h
  split at h
  · cases h
  · cases h
  · cases h
  · next k' hk =>
    cases h
    exact Tame.bind (tame_parseRawframe plat) (shrinks_sized _) (fun _ => .map (tame_parseRawframe plat).many1Loop) _ _ hk

theorem tame_parseRawFile (plat : Plat) (b : Bytes) (k : Panic) (h : parseRawFile plat b = .panic k) :
    (k = .overflow ∧ plat.debug = true) ∨ (k = .stackOverflow ∧ 2 * plat.stack ≤ b.length) := by
  have key : Tame plat (parseHeader >>= fun h => parseFrames plat >>= fun fs => pure (RawFile.mk h fs)) :=
    .bind (NoPanic.parseHeader.tame _) parses_header.shrinks fun _ => .map (tame_parseFrames plat)
  apply key
  unfold parseRawFile at h
  show P.bind _ _ _ = _
  unfold P.bind
  change Outcome.bind (parseHeader b) _ = _ at h
  unfold Outcome.bind at h
  split at h
  · next v hv =>
    obtain ⟨r, hd⟩ := v
    rw [hv]
    change Outcome.bind (parseFrames plat r) _ = _ at h
    show P.bind _ _ _ = _
    unfold P.bind
    unfold Outcome.bind at h
    split at h
    · cases h
    · cases h
    · next k' hk => rw [hk]; cases h; rfl
  · cases h
  · next k' hk => rw [hk]; cases h; rfl

end Ase
