import Verif.Lemmas.File
import Verif.Lemmas.Panics
import Verif.Spec.Cut

/-! # What the parsers answer on the beginning of an accepted input -/

namespace Ase

open Spec

theorem unexpectedEnd_mono {α : Type} {b c : Bytes} {o : Outcome NomErr α} (h : UnexpectedEnd c o) (hc : c <:+ b) :
    UnexpectedEnd b o := by
  obtain ⟨s, hs, e⟩ := h
  exact ⟨s, hs.trans hc, e⟩

/-- The property all combinators keep: the answer is "unexpected end", or final; and what is handed back is the end of the
input. -/
def Cuts {α : Type} (p : P α) : Prop :=
  ∀ b more, UnexpectedEnd b (p b) ∨ (p (b ++ more) = extendBy more (p b) ∧ ∀ r v, p b = .ok (r, v) → r <:+ b)

namespace Cuts

theorem final {α : Type} {p : P α} (h : Cuts p) : AnswersAreFinal p := fun b more => (h b more).imp_right And.left

theorem tells {α : Type} {p : P α} (h : Cuts p) : TellsIncomplete p := by
  intro b more r v e
  rcases h b more with h | ⟨h1, h2⟩
  · exact .inr h
  · rw [e] at h1
    cases hb : p b with
    | ok w =>
      obtain ⟨r', v'⟩ := w
      rw [hb] at h1
      cases h1
      exact .inl ⟨r', rfl, h2 _ _ hb, rfl⟩
    | err e' => rw [hb] at h1; cases h1
    | panic k => rw [hb] at h1; cases h1

theorem bind {α β : Type} {p : P α} {f : α → P β} (hp : Cuts p) (hf : ∀ x, Cuts (f x)) : Cuts (p >>= f) := by
  intro b more
  cases hb : p b with
  | ok w =>
    obtain ⟨r, x⟩ := w
    rcases hp b more with ⟨s, _, e⟩ | ⟨h1, h2⟩
    · rw [hb] at e; cases e
    · rw [hb] at h1
      have hs := h2 _ _ hb
      rw [P.bind_of_ok hb, P.bind_of_ok h1]
      rcases hf x r more with h | ⟨h3, h4⟩
      · exact .inl (unexpectedEnd_mono h hs)
      · exact .inr ⟨h3, fun r' v h => (h4 r' v h).trans hs⟩
  | err e =>
    rw [P.bind_of_err hb]
    rcases hp b more with ⟨s, hs, e'⟩ | ⟨h1, _⟩
    · rw [hb] at e'; cases e'
      exact .inl ⟨s, hs, rfl⟩
    · rw [hb] at h1
      exact .inr ⟨P.bind_of_err h1, fun _ _ h => by cases h⟩
  | panic k =>
    have hq : ∀ {c}, p c = .panic k → (p >>= f) c = .panic k := fun h => P.bind_panic.2 (.inl h)
    rw [hq hb]
    rcases hp b more with ⟨s, hs, e'⟩ | ⟨h1, _⟩
    · rw [hb] at e'; cases e'
    · rw [hb] at h1
      exact .inr ⟨hq h1, fun _ _ h => by cases h⟩

/-- A step that does not look at the input. -/
theorem blind {α : Type} {p : P α} {o : Outcome NomErr α}
    (h : ∀ b, p b = match o with | .ok v => .ok (b, v) | .err e => .err e | .panic k => .panic k) : Cuts p := by
  intro b more
  refine .inr ⟨?_, fun r v e => ?_⟩
  · rw [h, h]
    cases o <;> rfl
  · rw [h] at e
    cases o with
    | ok w => cases e; exact List.suffix_refl _
    | err e' => cases e
    | panic k => cases e

theorem pure {α : Type} (a : α) : Cuts (Pure.pure a : P α) := blind (o := .ok a) fun _ => rfl

theorem fail {α : Type} (e : NomErr) : Cuts (P.fail e : P α) := blind (o := .err e) fun _ => rfl

theorem panic {α : Type} (k : Panic) : Cuts (P.panic k : P α) := blind (o := .panic k) fun _ => rfl

theorem ite {α : Type} {c : Prop} [Decidable c] {p q : P α} (hp : Cuts p) (hq : Cuts q) :
    Cuts (if c then p else q) := by split <;> assumption

theorem map {α β : Type} {p : P α} {f : α → β} (hp : Cuts p) : Cuts (do Pure.pure (f (← p)) : P β) :=
  bind hp fun _ => pure _

theorem count {α : Type} {p : P α} (hp : Cuts p) (n : Nat) : Cuts (Ase.count p n) := by
  induction n with
  | zero => exact pure _
  | succ n ih => exact bind hp fun _ => bind ih fun _ => pure _

theorem cond {α : Type} {p : P α} (hp : Cuts p) (c : Bool) : Cuts (Ase.cond c p) :=
  ite (bind hp fun _ => pure _) (pure _)

theorem take (n : Nat) : Cuts (Ase.take n) := by
  intro b more
  by_cases hb : n ≤ b.length
  · have h : Ase.take n b = .ok (b.drop n, b.take n) := take_ok.2 ⟨by simp [hb], (List.take_append_drop n b).symm⟩
    refine .inr ⟨?_, fun r v e => ?_⟩
    · rw [h]
      exact take_ok.2 ⟨by simp [hb], by rw [← List.append_assoc, List.take_append_drop]⟩
    · rw [h] at e
      cases e
      exact List.drop_suffix _ _
  · exact .inl ⟨b, List.suffix_refl _, take_err.2 ⟨by omega, rfl⟩⟩

theorem onSlice {α : Type} (p : P α) (s : Bytes) : Cuts (P.onSlice p s) := by
  refine blind (o := match p s with | .ok (_, v) => .ok v | .err e => .err e | .panic k => .panic k) fun b => ?_
  unfold P.onSlice
  cases p s <;> rfl

theorem leUint (n : Nat) : Cuts (Ase.leUint n) := bind (take n) fun _ => pure _
theorem byte : Cuts Ase.byte := map (leUint _)
theorem word : Cuts Ase.word := map (leUint _)
theorem short : Cuts Ase.short := map (leUint _)
theorem dword : Cuts Ase.dword := map (leUint _)
theorem long : Cuts Ase.long := map (leUint _)
theorem leI8 : Cuts Ase.leI8 := map (leUint _)
theorem leU64 : Cuts Ase.leU64 := map (leUint _)
theorem leI64 : Cuts Ase.leI64 := map (leUint _)
theorem parseUuid : Cuts Ase.parseUuid := map (leUint _)
theorem parsePoint : Cuts Ase.parsePoint := bind long fun _ => bind long fun _ => pure _
theorem parseSize : Cuts Ase.parseSize := bind long fun _ => bind long fun _ => pure _
theorem parseRect : Cuts Ase.parseRect := bind parsePoint fun _ => bind parseSize fun _ => pure _
theorem dwordSize (f : UInt32 → ParseError) : Cuts (Ase.dwordSize f) := bind dword fun _ => ite (pure _) (fail _)
theorem parseDwordAsUsize : Cuts Ase.parseDwordAsUsize := bind dword fun _ => pure _
theorem parseDwordAsU8 (e : ParseError) : Cuts (Ase.parseDwordAsU8 e) := bind dword fun _ => ite (pure _) (fail _)
theorem parseString : Cuts Ase.parseString := bind word fun _ => bind (take _) fun _ => by
  split
  · exact pure _
  · exact fail _
theorem fixed : Cuts Ase.fixed := bind word fun _ => bind word fun _ => pure _
theorem parseColor : Cuts Ase.parseColor :=
  bind byte fun _ => bind byte fun _ => bind byte fun _ => bind byte fun _ => pure _
theorem parseRgb : Cuts Ase.parseRgb := bind byte fun _ => bind byte fun _ => bind byte fun _ => pure _
theorem parseColorDepth : Cuts Ase.parseColorDepth := bind word fun _ => pure _
theorem parseBlendMode : Cuts Ase.parseBlendMode := bind word fun _ => pure _

theorem parseChunkType : Cuts Ase.parseChunkType := bind word fun n => by
  cases ChunkType.fromRepr n.toNat with
  | none => exact pure _
  | some => exact pure _

theorem parseHeader : Cuts Ase.parseHeader := bind (take _) fun _ => onSlice _ _

theorem parsePacket : Cuts Ase.parsePacket :=
  bind byte fun _ => bind byte fun _ => bind (count parseRgb _) fun _ => pure _

theorem parseOldPaletteChunk : Cuts Ase.parseOldPaletteChunk :=
  bind word fun _ => bind (count parsePacket _) fun _ => pure _

theorem parseLayerChunk : Cuts Ase.parseLayerChunk :=
  bind word fun _ => bind word fun _ => bind word fun _ => bind word fun _ => bind word fun _ => bind word fun _ =>
  bind byte fun _ => bind (take _) fun _ => bind parseString fun _ => bind (cond dword _) fun _ => pure _

theorem parseColorProfileBody (t : ColorProfileType) : Cuts (Ase.parseColorProfileBody t) := by
  cases t with
  | noColorProfile => exact pure _
  | srgb => exact pure _
  | embeddedICC => exact bind dword fun _ => bind (take _) fun _ => pure _
  | unknown => exact pure _

theorem parseColorProfile : Cuts Ase.parseColorProfile :=
  bind word fun _ => bind word fun _ => bind fixed fun _ => bind (take _) fun _ =>
  bind (parseColorProfileBody _) fun _ => pure _

theorem parseExternalFile : Cuts Ase.parseExternalFile :=
  bind dword fun _ => bind byte fun _ => bind (take _) fun _ => bind parseString fun _ => pure _

theorem parseExternalFilesChunk : Cuts Ase.parseExternalFilesChunk :=
  bind parseDwordAsUsize fun _ => bind (take _) fun _ => bind (count parseExternalFile _) fun _ => pure _

theorem color3 (c : Bytes) : Cuts (Ase.color3 c) := by
  unfold Ase.color3
  split
  · exact pure _
  · exact panic _

theorem parseTag : Cuts Ase.parseTag :=
  bind word fun _ => bind word fun _ => ite (fail _) (bind byte fun _ => bind word fun _ =>
    bind (take _) fun _ => bind (take _) fun _ => bind byte fun _ => bind parseString fun _ =>
    bind (color3 _) fun _ => pure _)

theorem parseTagsChunk : Cuts Ase.parseTagsChunk :=
  bind word fun _ => bind (take _) fun _ => bind (count parseTag _) fun _ => pure _

theorem parsePaletteEntry : Cuts Ase.parsePaletteEntry :=
  bind word fun _ => bind parseColor fun _ => bind (cond parseString _) fun _ => pure _

theorem parsePaletteChunk : Cuts Ase.parsePaletteChunk :=
  bind parseDwordAsUsize fun _ => bind (parseDwordAsU8 _) fun _ => bind (parseDwordAsU8 _) fun _ =>
  ite (fail _) (bind (take _) fun _ => bind (count parsePaletteEntry _) fun _ => pure _)

theorem parseNinePatch : Cuts Ase.parseNinePatch :=
  bind long fun _ => bind long fun _ => bind dword fun _ => bind dword fun _ => pure _

theorem parsePivot : Cuts Ase.parsePivot := bind long fun _ => bind long fun _ => pure _

theorem parseSliceKey (f : SliceFlags) : Cuts (Ase.parseSliceKey f) :=
  bind dword fun _ => bind long fun _ => bind long fun _ => bind dword fun _ => bind dword fun _ =>
  bind (cond parseNinePatch _) fun _ => bind (cond parsePivot _) fun _ => pure _

theorem parseSliceChunk : Cuts Ase.parseSliceChunk :=
  bind parseDwordAsUsize fun _ => bind dword fun _ => bind dword fun _ => bind parseString fun _ =>
  bind (count (parseSliceKey _) _) fun _ => pure _

theorem parseTilesetExternalFile : Cuts Ase.parseTilesetExternalFile :=
  bind dword fun _ => bind dword fun _ => pure _

theorem parseTiles : Cuts Ase.parseTiles := bind dword fun _ => take _

theorem parseTilesetChunk : Cuts Ase.parseTilesetChunk :=
  bind dword fun _ => bind dword fun _ => bind dword fun _ => bind word fun _ => bind word fun _ => bind short fun _ =>
  bind (take _) fun _ => bind parseString fun _ => bind (cond parseTilesetExternalFile _) fun _ =>
  bind (cond parseTiles _) fun _ => pure _

end Cuts

theorem cuts_all (d : Nat) :
    Cuts (parseValue d) ∧ Cuts (parseVector d) ∧ Cuts (parsePropertiesMap d) ∧ Cuts (parseProperty d) := by
  induction d with
  | zero =>
    refine ⟨?_, ?_, ?_, ?_⟩
    · unfold parseValue; exact .panic _
    · unfold parseVector; exact .panic _
    · unfold parsePropertiesMap; exact .panic _
    · unfold parseProperty; exact .panic _
  | succ d ih =>
    obtain ⟨ih1, ih2, ih3, ih4⟩ := ih
    refine ⟨?_, ?_, ?_, ?_⟩
    · unfold parseValue
      refine .bind .word fun code => ?_
      split
      · exact .fail _
      all_goals first
        | exact .map ih2
        | exact .map ih3
        | exact .map .byte
        | exact .map .leI8
        | exact .map .short
        | exact .map .word
        | exact .map .long
        | exact .map .dword
        | exact .map .leI64
        | exact .map .leU64
        | exact .map .fixed
        | exact .map .parseString
        | exact .map .parsePoint
        | exact .map .parseSize
        | exact .map .parseRect
        | exact .map .parseUuid
    · unfold parseVector
      refine .bind .parseDwordAsUsize fun n => .bind .word fun code => ?_
      split
      · exact .map (.count ih1 n)
      · split
        · exact .fail _
        all_goals first
          | exact .map (.count ih2 n)
          | exact .map (.count ih3 n)
          | exact .map (.count (.map .byte) n)
          | exact .map (.count .byte n)
          | exact .map (.count .leI8 n)
          | exact .map (.count .short n)
          | exact .map (.count .word n)
          | exact .map (.count .long n)
          | exact .map (.count .dword n)
          | exact .map (.count .leI64 n)
          | exact .map (.count .leU64 n)
          | exact .map (.count .fixed n)
          | exact .map (.count .parseString n)
          | exact .map (.count .parsePoint n)
          | exact .map (.count .parseSize n)
          | exact .map (.count .parseRect n)
          | exact .map (.count .parseUuid n)
    · unfold parsePropertiesMap
      exact .bind .dword fun _ => .bind .parseDwordAsUsize fun n => .map (.count ih4 n)
    · unfold parseProperty
      exact .bind .parseString fun _ => .map ih1

theorem cuts_parsePropertiesMaps (plat : Plat) : Cuts (parsePropertiesMaps plat) := by
  unfold parsePropertiesMaps
  refine .bind .parseDwordAsUsize fun size => .bind .parseDwordAsUsize fun num => .bind ?_ fun n =>
    .bind (.take _) fun m => ?_
  · refine .blind (o := usizeSub8 plat size) fun b => ?_
    cases usizeSub8 plat size <;> rfl
  · refine .blind (o := match count (parsePropertiesMap plat.stack) num m with
      | .ok v => .ok (.ok v) | .err e => .ok (.error e) | .panic k => .panic k) fun b => ?_
    cases count (parsePropertiesMap plat.stack) num m <;> rfl

theorem cuts_parseUserDataChunk (plat : Plat) : Cuts (parseUserDataChunk plat) :=
  .bind .dword fun _ => .bind (.cond .parseString _) fun _ => .bind (.cond .parseColor _) fun _ =>
  .map (.cond (cuts_parsePropertiesMaps plat) _)

theorem cuts_parseChunk (plat : Plat) : Cuts (parseChunk plat) :=
  .bind (.dwordSize _) fun _ => .bind (.take _) fun _ => .onSlice _ _

theorem cuts_parseRawframe (plat : Plat) : Cuts (parseRawframe plat) :=
  .bind (.dwordSize _) fun _ => .bind (.take _) fun _ => .onSlice _ _

/-! ## Parsers that take the rest -/

namespace CutsRest

theorem bind {α β : Type} {p : P α} {f : α → P β} (hp : Cuts p) (hf : ∀ x, RefusalsAreFinal (f x)) :
    RefusalsAreFinal (p >>= f) := by
  intro b more
  cases hb : p b with
  | ok w =>
    obtain ⟨r, x⟩ := w
    rcases hp b more with ⟨s, _, e⟩ | ⟨h1, h2⟩
    · rw [hb] at e; cases e
    · rw [hb] at h1
      have hs := h2 _ _ hb
      rw [P.bind_of_ok hb, P.bind_of_ok h1]
      rcases hf x r more with h | h
      · exact .inl (unexpectedEnd_mono h hs)
      · exact .inr h
  | err e =>
    rw [P.bind_of_err hb]
    rcases hp b more with ⟨s, hs, e'⟩ | ⟨h1, _⟩
    · rw [hb] at e'; cases e'
      exact .inl ⟨s, hs, rfl⟩
    · rw [hb] at h1
      exact .inr (.inr (P.bind_of_err h1))
  | panic k =>
    have hq : ∀ {c}, p c = .panic k → (p >>= f) c = .panic k := fun h => P.bind_panic.2 (.inl h)
    rw [hq hb]
    rcases hp b more with ⟨s, hs, e'⟩ | ⟨h1, _⟩
    · rw [hb] at e'; cases e'
    · rw [hb] at h1
      exact .inr (.inr (hq h1))

/-- A step that always succeeds. -/
theorem total {α : Type} {p : P α} (h : ∀ b, ∃ r v, p b = .ok (r, v)) : RefusalsAreFinal p :=
  fun b _ => .inr (.inl (h b))

theorem parseCelContent (t : CelType) (g : CelContent → CelChunk) :
    RefusalsAreFinal (do
      let c ← Ase.parseCelContent t
      P.skipRest
      Pure.pure (g c)) := by
  have lift : ∀ {α : Type} {p : P α} (f : α → P CelContent), Cuts p →
      (∀ x, RefusalsAreFinal (do let c ← f x; P.skipRest; Pure.pure (g c))) →
      RefusalsAreFinal (do let c ← (p >>= f); P.skipRest; Pure.pure (g c)) := by
    intro α p f hp hf
    have e : (do let c ← (p >>= f); P.skipRest; Pure.pure (g c)) =
        p >>= fun x => (do let c ← f x; P.skipRest; Pure.pure (g c) : P CelChunk) := by
      funext b
      simp only [P.bind_def, P.bind]
      cases p b <;> rfl
    rw [e]
    exact bind hp hf
  cases t with
  | rawImageData => exact lift _ .word fun _ => lift _ .word fun _ => total fun b => ⟨_, _, rfl⟩
  | linkedCel => exact lift _ .word fun _ => total fun b => ⟨_, _, rfl⟩
  | compressedImage => exact lift _ .word fun _ => lift _ .word fun _ => total fun b => ⟨_, _, rfl⟩
  | compressedTilemap =>
    exact lift _ .word fun _ => lift _ .word fun _ => lift _ .word fun _ => lift _ .dword fun _ => lift _ .dword fun _ =>
      lift _ .dword fun _ => lift _ .dword fun _ => lift _ (.take _) fun _ => total fun b => ⟨_, _, rfl⟩
  | unknown => exact total fun b => ⟨_, _, rfl⟩

theorem parseCelChunk : RefusalsAreFinal Ase.parseCelChunk :=
  bind .word fun _ => bind .short fun _ => bind .short fun _ => bind .byte fun _ => bind .word fun _ =>
  bind .short fun _ => bind (.take _) fun _ => parseCelContent _ _

theorem parseCelExtraChunk : RefusalsAreFinal Ase.parseCelExtraChunk :=
  bind .dword fun _ => bind .fixed fun _ => bind .fixed fun _ => bind .fixed fun _ => bind .fixed fun _ =>
  total fun _ => ⟨_, _, rfl⟩

theorem parseMaskChunk : RefusalsAreFinal Ase.parseMaskChunk :=
  bind .short fun _ => bind .short fun _ => bind .word fun _ => bind .word fun _ => bind (.take _) fun _ =>
  bind .parseString fun _ => total fun _ => ⟨_, _, rfl⟩

end CutsRest

/-! ## Frames -/

/-- The loop of `many1` stops without an error, or its answer is final. -/
theorem many1Loop_cut {α : Type} {p : P α} (hp : Cuts p) (hne : ∀ b r v, p b = .ok (r, v) → r.length < b.length)
    (b more : Bytes) : (∃ r ys, r <:+ b ∧ many1Loop p b = .ok (r, ys)) ∨
    (∃ e, many1Loop p b = .err e ∧ many1Loop p (b ++ more) = .err e) ∨
    (∃ k, many1Loop p b = .panic k ∧ many1Loop p (b ++ more) = .panic k) := by
  induction hn : b.length using Nat.strongRecOn generalizing b with
  | _ n ih =>
  subst hn
  cases hb : p b with
  | ok w =>
    obtain ⟨r, x⟩ := w
    have hl := hne _ _ _ hb
    rcases hp b more with ⟨s, _, e⟩ | ⟨h1, h2⟩
    · rw [hb] at e; cases e
    · rw [hb] at h1
      have hl' : (r ++ more).length < (b ++ more).length := by simp [hl]
      rw [many1Loop_eq p b, hb, many1Loop_eq p (b ++ more), h1]
      simp only [extendBy, hl, hl', ↓reduceIte]
      rcases ih _ hl r rfl with ⟨r', ys, hs, e⟩ | ⟨e, e1, e2⟩ | ⟨k, e1, e2⟩
      · exact .inl ⟨r', x :: ys, hs.trans (h2 _ _ hb), by rw [e]⟩
      · exact .inr (.inl ⟨e, by rw [e1], by rw [e2]⟩)
      · exact .inr (.inr ⟨k, by rw [e1], by rw [e2]⟩)
  | err e =>
    cases e with
    | error e => exact .inl ⟨b, [], List.suffix_refl _, by rw [many1Loop_eq, hb]⟩
    | failure e =>
      rcases hp b more with ⟨s, _, e'⟩ | ⟨h1, _⟩
      · rw [hb] at e'; cases e'
      · rw [hb] at h1
        exact .inr (.inl ⟨.failure e, by rw [many1Loop_eq, hb], by rw [many1Loop_eq, h1]; rfl⟩)
  | panic k =>
    rcases hp b more with ⟨s, _, e'⟩ | ⟨h1, _⟩
    · rw [hb] at e'; cases e'
    · rw [hb] at h1
      exact .inr (.inr ⟨k, by rw [many1Loop_eq, hb], by rw [many1Loop_eq, h1]; rfl⟩)

theorem parseRawframe_consumes (plat : Plat) (b r : Bytes) (f : RawFrame) (h : parseRawframe plat b = .ok (r, f)) :
    r.length < b.length := by
  obtain ⟨n, r1, h1, h2⟩ := P.bind_ok.1 h
  obtain ⟨l, r2, h3, h4⟩ := P.bind_ok.1 h2
  obtain ⟨hl, rfl⟩ := take_ok.1 h3
  obtain ⟨rfl, _⟩ := P.onSlice_ok.1 h4
  obtain ⟨_, rfl⟩ := dwordSize_ok.1 h1
  simp only [List.length_append, le32_length]
  omega

theorem parseFrames_cut (plat : Plat) : RefusalsAreFinal (parseFrames plat) := by
  intro b more
  have hp := cuts_parseRawframe plat
  unfold parseFrames
  cases hb : parseRawframe plat b with
  | ok w =>
    obtain ⟨r, x⟩ := w
    rcases hp b more with ⟨s, _, e⟩ | ⟨h1, h2⟩
    · rw [hb] at e; cases e
    · rw [hb] at h1
      rcases many1Loop_cut hp (parseRawframe_consumes plat) r more with ⟨r', ys, hs, e⟩ | ⟨e, e1, e2⟩ | ⟨k, e1, e2⟩
      · have hm : many1 (parseRawframe plat) b = .ok (r', x :: ys) := by
          rw [many1, P.bind_of_ok hb, P.bind_of_ok e]; rfl
        cases r' with
        | nil => exact .inr (.inl ⟨[], x :: ys, allConsuming_ok.2 ⟨rfl, hm⟩⟩)
        | cons c cs => exact .inl ⟨c :: cs, hs.trans (h2 _ _ hb), by simp only [allConsuming, hm]⟩
      · have m1 : many1 (parseRawframe plat) b = .err e := by
          rw [many1, P.bind_of_ok hb, P.bind_of_err e1]
        have m2 : many1 (parseRawframe plat) (b ++ more) = .err e := by
          rw [many1, P.bind_of_ok h1, P.bind_of_err e2]
        exact .inr (.inr (by simp only [allConsuming, m1, m2]))
      · have m1 : many1 (parseRawframe plat) b = .panic k := by
          rw [many1, P.bind_of_ok hb]; exact P.bind_panic.2 (.inl e1)
        have m2 : many1 (parseRawframe plat) (b ++ more) = .panic k := by
          rw [many1, P.bind_of_ok h1]; exact P.bind_panic.2 (.inl e2)
        exact .inr (.inr (by simp only [allConsuming, m1, m2]))
  | err e =>
    have m1 : many1 (parseRawframe plat) b = .err e := by rw [many1, P.bind_of_err hb]
    rcases hp b more with ⟨s, hs, e'⟩ | ⟨h1, _⟩
    · rw [hb] at e'; cases e'
      exact .inl ⟨s, hs, by simp only [allConsuming, m1]⟩
    · rw [hb] at h1
      have m2 : many1 (parseRawframe plat) (b ++ more) = .err e := by rw [many1, P.bind_of_err h1]
      exact .inr (.inr (by simp only [allConsuming, m1, m2]))
  | panic k =>
    have m1 : many1 (parseRawframe plat) b = .panic k := P.bind_panic.2 (.inl hb)
    rcases hp b more with ⟨s, hs, e'⟩ | ⟨h1, _⟩
    · rw [hb] at e'; cases e'
    · rw [hb] at h1
      have m2 : many1 (parseRawframe plat) (b ++ more) = .panic k := P.bind_panic.2 (.inl h1)
      exact .inr (.inr (by simp only [allConsuming, m1, m2]))

/-- The raw file: "unexpected end", accepted, or final. -/
theorem parseRawFile_cut (plat : Plat) (b more : Bytes) :
    UnexpectedEnd b (parseRawFile plat b) ∨ (∃ f, parseRawFile plat b = .ok f) ∨
      parseRawFile plat (b ++ more) = parseRawFile plat b := by
  cases hb : parseHeader b with
  | ok w =>
    obtain ⟨r, h⟩ := w
    rcases Cuts.parseHeader b more with ⟨s, _, e⟩ | ⟨h1, h2⟩
    · rw [hb] at e; cases e
    · rw [hb] at h1
      rcases parseFrames_cut plat r more with ⟨s, hs, e⟩ | ⟨r', fs, e⟩ | e
      · exact .inl ⟨s, hs.trans (h2 _ _ hb), by simp only [parseRawFile, hb, e, Bind.bind, Outcome.bind]⟩
      · exact .inr (.inl ⟨⟨h, fs⟩, by simp only [parseRawFile, hb, e, Bind.bind, Outcome.bind]; rfl⟩)
      · exact .inr (.inr (by simp only [parseRawFile, hb, h1, extendBy, e, Bind.bind, Outcome.bind]))
  | err e =>
    rcases Cuts.parseHeader b more with ⟨s, hs, e'⟩ | ⟨h1, _⟩
    · rw [hb] at e'; cases e'
      exact .inl ⟨s, hs, by simp only [parseRawFile, hb, Bind.bind, Outcome.bind]⟩
    · rw [hb] at h1
      exact .inr (.inr (by simp only [parseRawFile, hb, h1, extendBy, Bind.bind, Outcome.bind]))
  | panic k =>
    rcases Cuts.parseHeader b more with ⟨s, hs, e'⟩ | ⟨h1, _⟩
    · rw [hb] at e'; cases e'
    · rw [hb] at h1
      exact .inr (.inr (by simp only [parseRawFile, hb, h1, extendBy, Bind.bind, Outcome.bind]))

end Ase
