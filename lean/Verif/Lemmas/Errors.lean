import Verif.Lemmas.BadText
import Verif.Lemmas.Palette
import Verif.Lemmas.Stops

/-!
# Which errors the parsers return
-/

namespace Ase

open Spec

/-- What `p` returns when it does not succeed: a recoverable error is bad UTF-8 or the end of the input, reported with
what was left there; a failure satisfies `F`.  On success a suffix of the input is left. -/
structure Errs {α : Type} (F : ParseError → Prop) (p : P α) : Prop where
  rest : ∀ {b r : Bytes} {x : α}, p b = .ok (r, x) → r <:+ b
  error : ∀ {b : Bytes} {e : ParseError}, p b = .err (.error e) → TextError b e ∨ ∃ s, s <:+ b ∧ e = .nom s .eof
  failure : ∀ {b : Bytes} {e : ParseError}, p b = .err (.failure e) → F e

namespace Errs

variable {F : ParseError → Prop}

theorem mono {α : Type} {F' : ParseError → Prop} {p : P α} (h : Errs F p) (hF : ∀ e, F e → F' e) : Errs F' p :=
  ⟨h.rest, h.error, fun he => hF _ (h.failure he)⟩

theorem pure {α : Type} (a : α) : Errs F (Pure.pure a : P α) where
  rest h := by rw [(P.pure_ok.1 h).1]; exact List.suffix_refl _
  error h := by cases h
  failure h := by cases h

theorem fail {α : Type} {e : ParseError} (h : F e) : Errs F (P.fail (.failure e) : P α) where
  rest h := by cases h
  error h := by cases h
  failure h := by cases h; assumption

theorem panic {α : Type} {k : Panic} : Errs F (P.panic k : P α) where
  rest h := by cases h
  error h := by cases h
  failure h := by cases h

theorem bind {α β : Type} {p : P α} {f : α → P β} (hp : Errs F p) (hf : ∀ x, Errs F (f x)) : Errs F (p >>= f) where
  rest h := by
    obtain ⟨x, r', h1, h2⟩ := P.bind_ok.1 h
    exact ((hf x).rest h2).trans (hp.rest h1)
  error h := by
    rcases P.bind_err.1 h with h | ⟨x, r', h1, h2⟩
    · exact hp.error h
    · rcases (hf x).error h2 with h | ⟨s, hs, h⟩
      · exact .inl (h.mono (hp.rest h1).isInfix)
      · exact .inr ⟨s, hs.trans (hp.rest h1), h⟩
  failure h := by
    rcases P.bind_err.1 h with h | ⟨x, r', h1, h2⟩
    · exact hp.failure h
    · exact (hf x).failure h2

theorem map {α β : Type} {p : P α} {f : α → β} (hp : Errs F p) : Errs F (p >>= fun a => Pure.pure (f a)) :=
  bind hp fun _ => pure _

theorem ite {α : Type} {c : Prop} [Decidable c] {p q : P α} (hp : Errs F p) (hq : Errs F q) :
    Errs F (if c then p else q) := by split <;> assumption

theorem take (n : Nat) : Errs F (Ase.take n) where
  rest h := by obtain ⟨_, rfl⟩ := take_ok.1 h; exact List.suffix_append _ _
  error h := by obtain ⟨_, h⟩ := take_err.1 h; cases h; exact .inr ⟨_, List.suffix_refl _, rfl⟩
  failure h := by obtain ⟨_, h⟩ := take_err.1 h; cases h

theorem remaining : Errs F P.remaining where
  rest h := by rw [(P.remaining_ok.1 h).1]; exact List.suffix_refl _
  error h := by cases h
  failure h := by cases h

theorem skipRest : Errs F P.skipRest where
  rest h := by rw [P.skipRest_ok.1 h]; exact List.nil_suffix
  error h := by cases h
  failure h := by cases h

theorem count {α : Type} {p : P α} (hp : Errs F p) (n : Nat) : Errs F (Ase.count p n) := by
  induction n with
  | zero => exact pure []
  | succ n ih => exact bind hp fun x => bind ih fun xs => pure _

theorem cond {α : Type} {p : P α} (c : Bool) (hp : Errs F p) : Errs F (Ase.cond c p) :=
  ite (map hp) (pure _)

theorem leUint (n : Nat) : Errs F (Ase.leUint n) := map (take n)
theorem byte : Errs F Ase.byte := map (leUint _)
theorem word : Errs F Ase.word := map (leUint _)
theorem short : Errs F Ase.short := map (leUint _)
theorem dword : Errs F Ase.dword := map (leUint _)
theorem long : Errs F Ase.long := map (leUint _)
theorem leI8 : Errs F Ase.leI8 := map (leUint _)
theorem leU64 : Errs F Ase.leU64 := map (leUint _)
theorem leI64 : Errs F Ase.leI64 := map (leUint _)
theorem parseUuid : Errs F Ase.parseUuid := map (leUint _)
theorem parseDwordAsUsize : Errs F Ase.parseDwordAsUsize := map dword
theorem fixed : Errs F Ase.fixed := bind word fun _ => map word
theorem parsePoint : Errs F Ase.parsePoint := bind long fun _ => map long
theorem parseSize : Errs F Ase.parseSize := bind long fun _ => map long
theorem parseRect : Errs F Ase.parseRect := bind parsePoint fun _ => map parseSize
theorem parseColor : Errs F Ase.parseColor := bind byte fun _ => bind byte fun _ => bind byte fun _ => map byte
theorem parseRgb : Errs F Ase.parseRgb := bind byte fun _ => bind byte fun _ => map byte
theorem parseDwordAsU8 {e : ParseError} (h : F e) : Errs F (Ase.parseDwordAsU8 e) :=
  bind dword fun _ => ite (pure _) (fail h)

theorem parseString : Errs F Ase.parseString where
  rest h := by
    obtain ⟨_, h⟩ := parseString_ok.1 h
    rw [h]
    exact List.suffix_append _ _
  error h := by
    rcases P.bind_err.1 h with h | ⟨n, r, h1, h⟩
    · exact (word (F := F)).error h
    · rcases P.bind_err.1 h with h | ⟨bs, r', h2, h⟩
      · rcases (take (F := F) _).error h with h | ⟨s, hs, h⟩
        · exact .inl (h.mono (word (F := F).rest h1).isInfix)
        · exact .inr ⟨s, hs.trans (word (F := F).rest h1), h⟩
      · left
        cases hu : utf8Decode bs with
        | some cs => rw [hu] at h; cases h
        | none =>
          rw [hu] at h
          cases h
          have hw := word_ok.1 h1
          obtain ⟨hl, he⟩ := take_ok.1 h2
          have hb : ¬ IsText bs := by rw [isText_iff, hu]; simp
          obtain ⟨k, e1, e2⟩ := fault_spec 0 bs hb
          rw [Nat.zero_add] at e1
          rw [e1]
          refine ⟨bs, k, _, ?_, ?_, e2, rfl⟩
          · rw [hl]
            exact n.toNat_lt
          · rw [hw, he, hl, ← List.append_assoc]
            exact (List.prefix_append _ _).isInfix
  failure h := by
    rcases P.bind_err.1 h with h | ⟨n, r, h1, h⟩
    · exact word.failure h
    · rcases P.bind_err.1 h with h | ⟨bs, r', h2, h⟩
      · exact (take _).failure h
      · cases hu : utf8Decode bs <;> rw [hu] at h <;> cases h

theorem parsePacket : Errs F Ase.parsePacket := bind byte fun _ => bind byte fun _ => map (count parseRgb _)
theorem oldPalette : Errs F parseOldPaletteChunk := bind word fun _ => map (count parsePacket _)

theorem layer : Errs F parseLayerChunk :=
  bind word fun _ => bind word fun _ => bind word fun _ => bind word fun _ => bind word fun _ => bind word fun _ =>
    bind byte fun _ => bind (take _) fun _ => bind parseString fun _ => map (cond _ dword)

theorem celContent (t : CelType) : Errs F (parseCelContent t) := by
  cases t with
  | rawImageData => exact bind word fun _ => bind word fun _ => map remaining
  | linkedCel => exact map word
  | compressedImage => exact bind word fun _ => bind word fun _ => map remaining
  | compressedTilemap =>
    exact bind word fun _ => bind word fun _ => bind word fun _ => bind dword fun _ => bind dword fun _ =>
      bind dword fun _ => bind dword fun _ => bind (take _) fun _ => map remaining
  | unknown => exact map remaining

theorem cel : Errs F parseCelChunk :=
  bind word fun _ => bind short fun _ => bind short fun _ => bind byte fun _ => bind word fun _ => bind short fun _ =>
    bind (take _) fun _ => bind (celContent _) fun _ => map skipRest

theorem celExtra : Errs F parseCelExtraChunk :=
  bind dword fun _ => bind fixed fun _ => bind fixed fun _ => bind fixed fun _ => bind fixed fun _ =>
    bind remaining fun _ => map skipRest

theorem colorProfile : Errs F parseColorProfile :=
  bind word fun _ => bind word fun _ => bind fixed fun _ => bind (take _) fun _ => map (by
    cases ColorProfileType.ofWord _ with
    | embeddedICC => exact bind dword fun _ => map (take _)
    | _ => exact pure _)

theorem externalFiles : Errs F parseExternalFilesChunk :=
  bind parseDwordAsUsize fun _ => bind (take _) fun _ => map (count
    (bind dword fun _ => bind byte fun _ => bind (take _) fun _ => map parseString) _)

theorem mask : Errs F parseMaskChunk :=
  bind short fun _ => bind short fun _ => bind word fun _ => bind word fun _ => bind (take _) fun _ =>
    bind parseString fun _ => bind remaining fun _ => map skipRest

theorem color3 (bs : Bytes) : Errs F (Ase.color3 bs) := by
  unfold Ase.color3
  split
  · exact pure _
  · exact panic

theorem tag : Errs (fun e => ∃ a z, z < a ∧ e = .invalidFrameRange a z) parseTag := by
  refine bind word fun a => bind word fun z => ?_
  by_cases h : z < a
  · rw [if_pos h]; exact fail ⟨a, z, h, rfl⟩
  · rw [if_neg h]
    exact bind byte fun _ => bind word fun _ => bind (take _) fun _ => bind (take _) fun _ => bind byte fun _ =>
      bind parseString fun _ => map (color3 _)

theorem tags : Errs (fun e => ∃ a z, z < a ∧ e = .invalidFrameRange a z) parseTagsChunk :=
  bind word fun _ => bind (take _) fun _ => map (count tag _)

theorem paletteEntry : Errs F parsePaletteEntry :=
  bind word fun _ => bind parseColor fun _ => map (cond _ parseString)

theorem palette : Errs (fun e => e = .paletteError .firstColorIndexOutOfBounds ∨
      e = .paletteError .lastColorIndexOutOfBounds ∨ e = .paletteError .firstColorIndexGreaterThanLastColorIndex)
    parsePaletteChunk :=
  bind parseDwordAsUsize fun _ => bind (parseDwordAsU8 (.inl rfl)) fun _ => bind (parseDwordAsU8 (.inr (.inl rfl))) fun _ =>
    ite (fail (.inr (.inr rfl))) (bind (take _) fun _ => map (count paletteEntry _))

theorem sliceKey (fl : SliceFlags) : Errs F (parseSliceKey fl) :=
  bind dword fun _ => bind long fun _ => bind long fun _ => bind dword fun _ => bind dword fun _ =>
    bind (cond _ (bind long fun _ => bind long fun _ => bind dword fun _ => map dword)) fun _ =>
    map (cond _ (bind long fun _ => map long))

theorem slice : Errs F parseSliceChunk :=
  bind parseDwordAsUsize fun _ => bind dword fun _ => bind dword fun _ => bind parseString fun _ =>
    map (count (sliceKey _) _)

theorem tileset : Errs F parseTilesetChunk :=
  bind dword fun _ => bind dword fun _ => bind dword fun _ => bind word fun _ => bind word fun _ => bind short fun _ =>
    bind (take _) fun _ => bind parseString fun _ => bind (cond _ (bind dword fun _ => map dword)) fun _ =>
    map (cond _ (bind dword fun _ => take _))

/-- The error for a property type code outside 0x0001 .. 0x0013. -/
def _root_.Ase.BadProperty (e : ParseError) : Prop := ∃ c : UInt16, (c = 0 ∨ 0x13 < c) ∧ e = .invalidPropertyType c

theorem bad_code {c : UInt16} (h : PropertyType.fromRepr c.toNat = none) : c = 0 ∨ 0x13 < c := by
  by_cases h0 : c = 0
  · exact .inl h0
  · refine .inr (Nat.not_le.1 fun hc => ?_)
    have h1 : c.toNat ≠ 0 := fun e => h0 (UInt16.toNat_inj.1 e)
    have h2 : c.toNat ≤ 19 := hc
    generalize c.toNat = n at *
    have : ∀ n ∈ List.range 20, n ≠ 0 → (PropertyType.fromRepr n).isSome = true := by decide +kernel
    have := this n (List.mem_range.2 (by omega)) h1
    rw [h] at this
    cases this

theorem properties (d : Nat) : Errs (BadProperty) (parseValue d) ∧
    Errs (BadProperty) (parseVector d) ∧
    Errs (BadProperty) (parsePropertiesMap d) ∧
    Errs (BadProperty) (parseProperty d) := by
  induction d with
  | zero => refine ⟨?_, ?_, ?_, ?_⟩ <;> first | rw [parseValue] | rw [parseVector] | rw [parsePropertiesMap] | rw [parseProperty]
            all_goals exact panic
  | succ d ih =>
    obtain ⟨h1, h2, h3, h4⟩ := ih
    refine ⟨?_, ?_, ?_, ?_⟩
    · rw [parseValue]
      refine bind word fun code => ?_
      cases hc : PropertyType.fromRepr code.toNat with
      | none => exact fail ⟨code, bad_code hc, rfl⟩
      | some t =>
        cases t with
        | vector => exact map h2
        | propertiesMap => exact map h3
        | string => exact map parseString
        | point => exact map parsePoint
        | size => exact map parseSize
        | rect => exact map parseRect
        | fixed => exact map fixed
        | uuid => exact map parseUuid
        | _ => first | exact map byte | exact map leI8 | exact map short | exact map word | exact map long | exact map dword
                     | exact map leI64 | exact map leU64
    · rw [parseVector]
      refine bind parseDwordAsUsize fun n => bind word fun code => ?_
      by_cases h0 : code = 0
      · rw [if_pos h0]; exact map (count h1 _)
      · rw [if_neg h0]
        cases hc : PropertyType.fromRepr code.toNat with
        | none => exact fail ⟨code, bad_code hc, rfl⟩
        | some t =>
          cases t with
          | vector => exact map (count h2 _)
          | propertiesMap => exact map (count h3 _)
          | string => exact map (count parseString _)
          | point => exact map (count parsePoint _)
          | size => exact map (count parseSize _)
          | rect => exact map (count parseRect _)
          | fixed => exact map (count fixed _)
          | uuid => exact map (count parseUuid _)
          | bool => exact map (count (map byte) _)
          | _ => first | exact map (count byte _) | exact map (count leI8 _) | exact map (count short _)
                       | exact map (count word _) | exact map (count long _) | exact map (count dword _)
                       | exact map (count leI64 _) | exact map (count leU64 _)
    · rw [parsePropertiesMap]
      exact bind dword fun _ => bind parseDwordAsUsize fun _ => map (count h4 _)
    · rw [parseProperty]
      exact bind parseString fun _ => map h1

theorem quiet {α : Type} {p : P α} (h : ∀ b, (∃ x, p b = .ok (b, x)) ∨ ∃ k, p b = .panic k) : Errs F p where
  rest {b r x} hp := by
    rcases h b with ⟨x, h⟩ | ⟨k, h⟩ <;> rw [h] at hp <;> cases hp
    exact List.suffix_refl _
  error {b e} hp := by rcases h b with ⟨x, h⟩ | ⟨k, h⟩ <;> rw [h] at hp <;> cases hp
  failure {b e} hp := by rcases h b with ⟨x, h⟩ | ⟨k, h⟩ <;> rw [h] at hp <;> cases hp

theorem propertiesMaps (plat : Plat) : Errs F (parsePropertiesMaps plat) := by
  refine bind parseDwordAsUsize fun size => bind parseDwordAsUsize fun num => bind ?_ fun n => bind (take _) fun s => ?_
  · have h : ∀ b : Bytes, (∃ n, (usizeSub8 plat size).bind (fun n => Outcome.ok (b, n)) = .ok (b, n)) ∨
        ∃ k, (usizeSub8 plat size).bind (fun n => (Outcome.ok (b, n) : Outcome NomErr _)) = .panic k := by
      intro b
      cases hs : usizeSub8 plat size with
      | ok n => exact .inl ⟨n, rfl⟩
      | err e => unfold usizeSub8 at hs; (repeat' split at hs) <;> cases hs
      | panic k => exact .inr ⟨k, rfl⟩
    exact quiet h
  · refine quiet fun b => ?_
    cases Ase.count (parsePropertiesMap plat.stack) num s with
    | ok v => exact .inl ⟨_, rfl⟩
    | err e => exact .inl ⟨_, rfl⟩
    | panic k => exact .inr ⟨k, rfl⟩

theorem userData (plat : Plat) : Errs F (parseUserDataChunk plat) :=
  bind dword fun _ => bind (cond _ parseString) fun _ => bind (cond _ parseColor) fun _ => map (cond _ (propertiesMaps plat))

end Errs

/-! ## Records with a size, chunks and frames -/

theorem dword_err {b : Bytes} {e : NomErr} : dword b = .err e ↔ b.length < 4 ∧ e = .error (.nom b .eof) := by
  simp [dword, P.bind_err, leUint_err, P.pure_apply]

theorem word_err {b : Bytes} {e : NomErr} : word b = .err e ↔ b.length < 2 ∧ e = .error (.nom b .eof) := by
  simp [word, P.bind_err, leUint_err, P.pure_apply]

theorem tag_err {t b : Bytes} {e : NomErr} : tag t b = .err e ↔ b.take t.length ≠ t ∧ e = .error (.nom b .tag) := by
  unfold Ase.tag
  by_cases h : b.take t.length = t
  · simp [h]
  · simp [h, eq_comm]

theorem onSlice_err {α : Type} {p : P α} {s b : Bytes} {e : NomErr} : P.onSlice p s b = .err e ↔ p s = .err e := by
  unfold P.onSlice
  cases p s <;> simp

/-- What goes wrong with a record that starts with its size. -/
theorem sized_err {α : Type} {p : P α} {b : Bytes} {e : NomErr} :
    sized p b = .err e ↔
      (b.length < 4 ∧ e = .error (.nom b .eof)) ∨
      (∃ (n : UInt32) (rest : Bytes), b = le32 n ++ rest ∧ n.toNat < 4 ∧ e = .failure (.invalidFrameSize n)) ∨
      (∃ (n : UInt32) (rest : Bytes), b = le32 n ++ rest ∧ 4 ≤ n.toNat ∧ b.length < n.toNat ∧ e = .error (.nom rest .eof)) ∨
      (∃ l rest, 4 + l.length < 2 ^ 32 ∧ b = leNat32 (4 + l.length) ++ l ++ rest ∧ p l = .err e) := by
  constructor
  · intro h
    unfold sized at h
    rcases P.bind_err.1 h with h | ⟨n, rest, h1, h2⟩
    · unfold dwordSize at h
      rcases P.bind_err.1 h with h | ⟨n, rest, h1, h2⟩
      · exact .inl (dword_err.1 h)
      · by_cases h4 : 4 ≤ n.toNat
        · rw [if_pos h4] at h2; cases h2
        · rw [if_neg h4] at h2
          cases h2
          exact .inr (.inl ⟨n, rest, dword_ok.1 h1, by omega, rfl⟩)
    · obtain ⟨h4, rfl⟩ := dwordSize_ok.1 h1
      rcases P.bind_err.1 h2 with h | ⟨l, r, h3, h5⟩
      · obtain ⟨hl, rfl⟩ := take_err.1 h
        exact .inr (.inr (.inl ⟨n, rest, rfl, h4, by simp; omega, rfl⟩))
      · obtain ⟨hl, rfl⟩ := take_ok.1 h3
        have hn := n.toNat_lt
        refine .inr (.inr (.inr ⟨l, r, by omega, ?_, onSlice_err.1 h5⟩))
        rw [show 4 + l.length = n.toNat by omega]
        show _ = le32 n ++ l ++ _
        simp
  · rintro (⟨h, rfl⟩ | ⟨n, rest, rfl, h4, rfl⟩ | ⟨n, rest, rfl, h4, hl, rfl⟩ | ⟨l, r, hl, rfl, hp⟩)
    · exact P.bind_of_err (P.bind_of_err (dword_err.2 ⟨h, rfl⟩))
    · refine P.bind_of_err (P.bind_err.2 (.inr ⟨n, rest, dword_ok.2 rfl, ?_⟩))
      rw [if_neg (by omega)]; rfl
    · refine P.bind_err.2 (.inr ⟨n, rest, dwordSize_ok.2 ⟨h4, rfl⟩, P.bind_of_err (take_err.2 ⟨?_, rfl⟩)⟩)
      simp at hl; omega
    · have hn : (UInt32.ofNat (4 + l.length)).toNat = 4 + l.length := by
        rw [UInt32.toNat_ofNat']; exact Nat.mod_eq_of_lt hl
      refine P.bind_err.2 (.inr ⟨UInt32.ofNat (4 + l.length), l ++ r, dwordSize_ok.2 ⟨by omega, ?_⟩,
        P.bind_err.2 (.inr ⟨l, r, take_ok.2 ⟨by omega, rfl⟩, onSlice_err.2 hp⟩)⟩)
      rw [le32, hn, leNat32]; simp

theorem count_err {α : Type} {p : P α} {G : α → Bytes → Prop} (hp : Parses p G) {n : Nat} {b : Bytes} {e : NomErr} :
    count p n b = .err e ↔ ∃ xs l r, Seq G xs l ∧ b = l ++ r ∧ xs.length < n ∧ p r = .err e := by
  induction n generalizing b with
  | zero =>
    constructor
    · intro h; cases h
    · rintro ⟨_, _, _, _, _, h, _⟩; simp at h
  | succ n ih =>
    constructor
    · intro h
      rcases P.bind_err.1 h with h | ⟨x, r, h1, h2⟩
      · exact ⟨[], [], b, .nil, rfl, by simp, h⟩
      · rcases P.bind_err.1 h2 with h3 | ⟨_, _, _, h3⟩
        · obtain ⟨l, hl, rfl⟩ := (hp _ _ _).1 h1
          obtain ⟨xs, l', r', hs, rfl, hn, he⟩ := ih.1 h3
          exact ⟨x :: xs, l ++ l', r', .cons hl hs, by simp, by simpa using hn, he⟩
        · cases h3
    · rintro ⟨xs, l, r, hs, rfl, hn, he⟩
      cases hs with
      | nil => exact P.bind_of_err he
      | @cons x xs k ks hx hs =>
        refine P.bind_err.2 (.inr ⟨x, ks ++ r, (hp _ _ _).2 ⟨k, hx, by simp⟩, P.bind_of_err ?_⟩)
        exact ih.2 ⟨xs, ks, r, hs, rfl, by simpa using hn, he⟩

theorem parseChunk_err {plat : Plat} {b : Bytes} {e : NomErr} :
    parseChunk plat b = .err e ↔
      (b.length < 4 ∧ e = .error (.nom b .eof)) ∨
      (∃ (n : UInt32) (rest : Bytes), b = le32 n ++ rest ∧ n.toNat < 4 ∧ e = .failure (.invalidFrameSize n)) ∨
      (∃ (n : UInt32) (rest : Bytes), b = le32 n ++ rest ∧ 4 ≤ n.toNat ∧ b.length < n.toNat ∧ e = .error (.nom rest .eof)) ∨
      (∃ l rest, b = leNat32 (4 + l.length) ++ l ++ rest ∧ l.length < 2 ∧ e = .error (.nom l .eof)) ∨
      (∃ (code : UInt16) (body rest : Bytes), 6 + body.length < 2 ^ 32 ∧
        b = leNat32 (6 + body.length) ++ le16 code ++ body ++ rest ∧ parseChunkBody plat (typeOf code) body = .err e) := by
  show sized _ b = _ ↔ _
  rw [sized_err]
  refine or_congr_right (or_congr_right (or_congr_right ?_))
  constructor
  · rintro ⟨l, rest, hl, rfl, h⟩
    rcases P.bind_err.1 h with h | ⟨t, body, h1, h2⟩
    · rcases P.bind_err.1 h with h | ⟨w, _, _, h⟩
      · obtain ⟨h2, rfl⟩ := word_err.1 h
        exact .inl ⟨l, rest, rfl, h2, rfl⟩
      · cases hw : ChunkType.fromRepr w.toNat <;> simp only [hw] at h <;> cases h
    · obtain ⟨code, rfl, rfl⟩ := parseChunkType_ok.1 h1
      refine .inr ⟨code, body, rest, by simpa [← Nat.add_assoc] using hl, by simp [← Nat.add_assoc], h2⟩
  · rintro (⟨l, rest, rfl, hl, rfl⟩ | ⟨code, body, rest, hl, rfl, h⟩)
    · exact ⟨l, rest, by omega, rfl, P.bind_of_err (P.bind_of_err (word_err.2 ⟨hl, rfl⟩))⟩
    · refine ⟨le16 code ++ body, rest, by simpa [← Nat.add_assoc] using hl, by simp [← Nat.add_assoc], ?_⟩
      exact P.bind_err.2 (.inr ⟨_, body, parseChunkType_ok.2 ⟨code, rfl, rfl⟩, h⟩)

/-- Where the first field of a frame that does not fit starts, in the bytes after the size of the frame. -/
def firstMissing (len : Nat) : Nat := if len < 4 then 2 else if len < 6 then 4 else if len < 8 then 6 else 8

theorem parseRawframeBody_err {plat : Plat} {l : Bytes} {e : NomErr} :
    parseRawframeBody plat l = .err e ↔
      (l.take 2 ≠ [0xFA, 0xF1] ∧ e = .error (.nom l .tag)) ∨
      (l.take 2 = [0xFA, 0xF1] ∧ l.length < 12 ∧ e = .error (.nom (l.drop (firstMissing l.length)) .eof)) ∨
      (∃ (old duration : UInt16) (new : UInt32) (reserved : Bytes) (cs : List Chunk) (cb r : Bytes),
        reserved.length = 2 ∧ l = [0xFA, 0xF1] ++ le16 old ++ le16 duration ++ reserved ++ le32 new ++ cb ++ r ∧
        Seq (IsChunk (readsUserData plat)) cs cb ∧ cs.length < chunkCount old new ∧ parseChunk plat r = .err e) := by
  have hcc : ∀ (old : UInt16) (new : UInt32),
      (if new.toNat = 0 then old.toNat else new.toNat) = chunkCount old new := by
    intro old new
    unfold chunkCount
    by_cases h : new = 0
    · subst h; rfl
    · rw [if_neg h, if_neg]
      intro h'; exact h (UInt32.toNat_inj.1 h')
  constructor
  · intro H0
    unfold parseRawframeBody at H0
    rcases P.bind_err.1 H0 with h | ⟨_, _, g0, H1⟩ <;> clear H0
    · exact .inl (tag_err.1 h)
    obtain ⟨rfl, rfl⟩ := tag_ok.1 g0
    refine .inr ?_
    rcases P.bind_err.1 H1 with h | ⟨old, _, g1, H2⟩ <;> clear H1
    · obtain ⟨h, rfl⟩ := word_err.1 h
      refine .inl ⟨rfl, by simp [frameMagic]; omega, ?_⟩
      rw [firstMissing, if_pos (by simp [frameMagic]; omega)]; rfl
    obtain rfl := word_ok.1 g1
    rcases P.bind_err.1 H2 with h | ⟨duration, _, g2, H3⟩ <;> clear H2
    · obtain ⟨h, rfl⟩ := word_err.1 h
      refine .inl ⟨rfl, by simp [frameMagic]; omega, ?_⟩
      rw [firstMissing, if_neg (by simp [frameMagic]), if_pos (by simp [frameMagic]; omega)]
      simp [frameMagic, le16, leBytes]
    obtain rfl := word_ok.1 g2
    rcases P.bind_err.1 H3 with h | ⟨res, _, g3, H4⟩ <;> clear H3
    · obtain ⟨h, rfl⟩ := take_err.1 h
      refine .inl ⟨rfl, by simp [frameMagic]; omega, ?_⟩
      rw [firstMissing, if_neg (by simp [frameMagic]), if_neg (by simp [frameMagic]; omega),
        if_pos (by simp [frameMagic]; omega)]
      simp [frameMagic, le16, leBytes]
    obtain ⟨hres, rfl⟩ := take_ok.1 g3
    rcases P.bind_err.1 H4 with h | ⟨new, _, g4, H5⟩ <;> clear H4
    · rcases P.bind_err.1 h with h | ⟨_, _, _, h⟩
      · obtain ⟨h, rfl⟩ := dword_err.1 h
        refine .inl ⟨rfl, by simp [frameMagic, hres]; omega, ?_⟩
        rw [firstMissing, if_neg (by simp [frameMagic]), if_neg (by simp [frameMagic]; omega),
          if_neg (by simp [frameMagic, hres]; omega)]
        match res, hres with
        | [_, _], _ => simp [frameMagic, le16, leBytes]
      · cases h
    obtain ⟨new, _, h2, h3⟩ := P.bind_ok.1 g4
    obtain ⟨rfl, rfl⟩ := P.pure_ok.1 h3
    obtain rfl := dword_ok.1 h2
    rcases P.bind_err.1 H5 with h | ⟨_, _, _, H6⟩ <;> clear H5
    · obtain ⟨cs, cb, r, hs, rfl, hn, he⟩ := (count_err (parses_chunk plat)).1 h
      rw [hcc] at hn
      exact .inr ⟨old, duration, new, res, cs, cb, r, hres, by simp [frameMagic], hs, hn, he⟩
    · cases H6
  · rintro (⟨h, rfl⟩ | ⟨h2, hl, rfl⟩ | ⟨old, duration, new, res, cs, cb, r, hres, rfl, hs, hn, he⟩)
    · exact P.bind_of_err (tag_err.2 ⟨h, rfl⟩)
    · have h2' : l = frameMagic ++ l.drop 2 := by
        conv => lhs; rw [← List.take_append_drop 2 l, h2]
        rfl
      unfold parseRawframeBody
      rw [P.bind_of_ok (tag_ok.2 ⟨rfl, h2'⟩)]
      have h2l : 2 ≤ l.length := by rw [h2']; simp [frameMagic]
      have hw : ∀ i, i + 2 ≤ l.length → ∃ w, word (l.drop i) = .ok (l.drop (i + 2), w) := by
        intro i hi
        refine ⟨UInt16.ofNat (leNat ((l.drop i).take 2)), P.bind_ok.2 ⟨_, _, P.bind_ok.2 ⟨_, _, ?_, P.pure_ok.2 ⟨rfl, rfl⟩⟩,
          P.pure_ok.2 ⟨rfl, rfl⟩⟩⟩
        simp only [Ase.take]
        rw [if_pos (by simp; omega), List.drop_drop]
      unfold firstMissing
      by_cases a1 : l.length < 4
      · rw [if_pos a1]
        exact P.bind_of_err (word_err.2 ⟨by simp; omega, rfl⟩)
      rw [if_neg a1]
      obtain ⟨w, h⟩ := hw 2 (by omega)
      rw [P.bind_of_ok h]
      by_cases a2 : l.length < 6
      · rw [if_pos a2]
        exact P.bind_of_err (word_err.2 ⟨by simp; omega, rfl⟩)
      rw [if_neg a2]
      obtain ⟨w, h⟩ := hw 4 (by omega)
      rw [P.bind_of_ok h]
      by_cases a3 : l.length < 8
      · rw [if_pos a3]
        exact P.bind_of_err (take_err.2 ⟨by simp; omega, rfl⟩)
      rw [if_neg a3, P.bind_of_ok (take_ok.2 ⟨by simp; omega, (List.take_append_drop 2 (l.drop 6)).symm⟩), List.drop_drop]
      exact P.bind_of_err (P.bind_of_err (dword_err.2 ⟨by simp; omega, rfl⟩))
    · unfold parseRawframeBody
      simp only [List.append_assoc]
      rw [P.bind_of_ok (p := tag frameMagic) (b := [0xFA, 0xF1] ++ _) (tag_ok.2 ⟨rfl, rfl⟩), P.bind_of_ok (word_ok.2 rfl), P.bind_of_ok (word_ok.2 rfl),
        P.bind_of_ok (take_ok.2 ⟨hres, rfl⟩),
        P.bind_of_ok (b := le32 new ++ _) (parseDwordAsUsize_ok.2 ⟨new.toNat_lt, rfl⟩)]
      refine P.bind_of_err ?_
      rw [hcc]
      exact (count_err (parses_chunk plat)).2 ⟨cs, cb, r, hs, rfl, hn, he⟩

/-! ## The frames of a file -/

theorem isFrame_ne {U : UserDataChunk → Bytes → Prop} {f : RawFrame} {l : Bytes} (h : IsFrame U f l) : l ≠ [] := by
  obtain ⟨old, new, res, cs, extra, _, _, _, _, rfl⟩ := h
  intro h
  have := congrArg List.length h
  simp at this

theorem many1Loop_stops {α : Type} {p : P α} {G : α → Bytes → Prop} (hp : Parses p G) (hne : ∀ x l, G x l → l ≠ [])
    (b : Bytes) : ∃ xs l r, Seq G xs l ∧ b = l ++ r ∧
      ((∃ e, p r = .err (.error e) ∧ many1Loop p b = .ok (r, xs)) ∨
       (∃ e, p r = .err (.failure e) ∧ many1Loop p b = .err (.failure e)) ∨
       (∃ k, p r = .panic k ∧ many1Loop p b = .panic k)) := by
  induction hn : b.length using Nat.strongRecOn generalizing b with
  | _ n ih =>
  subst hn
  rw [many1Loop_eq]
  cases h : p b with
  | ok v =>
    obtain ⟨r, x⟩ := v
    obtain ⟨l, hl, rfl⟩ := (hp _ _ _).1 h
    have : l.length ≠ 0 := fun e => hne _ _ hl (List.length_eq_zero_iff.1 e)
    obtain ⟨xs, l', r', hs, hb, hr⟩ := ih r.length (by simp; omega) r rfl
    refine ⟨x :: xs, l ++ l', r', .cons hl hs, by simp [hb], ?_⟩
    dsimp only
    rw [if_pos (by simp; omega)]
    rcases hr with ⟨e, h1, h2⟩ | ⟨e, h1, h2⟩ | ⟨k, h1, h2⟩
    · exact .inl ⟨e, h1, by rw [h2]⟩
    · exact .inr (.inl ⟨e, h1, by rw [h2]⟩)
    · exact .inr (.inr ⟨k, h1, by rw [h2]⟩)
  | err e =>
    cases e with
    | error e => exact ⟨[], [], b, .nil, rfl, .inl ⟨e, h, rfl⟩⟩
    | failure e => exact ⟨[], [], b, .nil, rfl, .inr (.inl ⟨e, h, rfl⟩)⟩
  | panic k => exact ⟨[], [], b, .nil, rfl, .inr (.inr ⟨k, h, rfl⟩)⟩

/-- Two ways to split the input into elements, stopping where there is none, are the same. -/
theorem seq_unique {α : Type} {p : P α} {G : α → Bytes → Prop} (hp : Parses p G) {xs ys : List α} {l m r s : Bytes}
    (h1 : Seq G xs l) (h2 : Seq G ys m) (h : l ++ r = m ++ s) (hr : ∀ v, p r ≠ .ok v) (hs : ∀ v, p s ≠ .ok v) :
    xs = ys ∧ r = s := by
  induction h1 generalizing ys m with
  | nil =>
    cases h2 with
    | nil => exact ⟨rfl, h⟩
    | @cons y ys k ks hy h2 =>
      exact absurd ((hp _ _ _).2 ⟨k, hy, by rw [show r = _ from h, List.append_assoc]⟩) (hr _)
  | @cons x xs k ks hx h1 ih =>
    cases h2 with
    | nil =>
      exact absurd ((hp _ _ _).2 ⟨k, hx, by rw [show s = _ from h.symm, List.append_assoc]⟩) (hs _)
    | @cons y ys k' ks' hy h2 =>
      have e1 := (hp (k ++ ks ++ r) (ks ++ r) x).2 ⟨k, hx, by simp⟩
      have e2 := (hp (k' ++ ks' ++ s) (ks' ++ s) y).2 ⟨k', hy, by simp⟩
      rw [h, e2] at e1
      simp only [Outcome.ok.injEq, Prod.mk.injEq] at e1
      obtain ⟨e1, rfl⟩ := e1
      obtain ⟨rfl, rfl⟩ := ih h2 e1.symm
      exact ⟨rfl, rfl⟩

theorem parseFrames_err {plat : Plat} {b : Bytes} {e : NomErr} : parseFrames plat b = .err e ↔
    ∃ fs l r, Seq (IsFrame (readsUserData plat)) fs l ∧ b = l ++ r ∧
      ((fs = [] ∧ parseRawframe plat r = .err e) ∨
       (fs ≠ [] ∧ r ≠ [] ∧ (∃ e', parseRawframe plat r = .err (.error e')) ∧ e = .error (.nom r .eof)) ∨
       (fs ≠ [] ∧ ∃ e', parseRawframe plat r = .err (.failure e') ∧ e = .failure e')) := by
  have hp := parses_rawframe plat
  unfold parseFrames allConsuming many1
  cases h : parseRawframe plat b with
  | err e' =>
    rw [P.bind_of_err h]
    constructor
    · intro he
      cases he
      exact ⟨[], [], b, .nil, rfl, .inl ⟨rfl, h⟩⟩
    · rintro ⟨fs, l, r, hs, rfl, hr⟩
      have hfs : fs = [] ∧ l ++ r = r := by
        rcases hs with _ | ⟨hx, hs⟩
        · exact ⟨rfl, rfl⟩
        · rw [(hp _ _ _).2 ⟨_, hx, List.append_assoc ..⟩] at h; cases h
      obtain ⟨rfl, hlr⟩ := hfs
      rw [hlr] at h
      rcases hr with ⟨_, h2⟩ | ⟨h2, _⟩ | ⟨h2, _⟩
      · rw [h] at h2; cases h2; rfl
      · exact absurd rfl h2
      · exact absurd rfl h2
  | panic k =>
    have : ((parseRawframe plat >>= fun x => many1Loop (parseRawframe plat) >>= fun xs => pure (x :: xs)) b
        : Outcome NomErr (Bytes × List RawFrame)) = .panic k := P.bind_panic.2 (.inl h)
    rw [this]
    constructor
    · intro he; cases he
    · rintro ⟨fs, l, r, hs, rfl, hr⟩
      rcases hs with _ | ⟨hx, hs⟩
      · rcases hr with ⟨_, h2⟩ | ⟨h2, _⟩ | ⟨h2, _⟩
        · rw [List.nil_append, h2] at h; cases h
        · exact absurd rfl h2
        · exact absurd rfl h2
      · rw [(hp _ _ _).2 ⟨_, hx, List.append_assoc ..⟩] at h; cases h
  | ok v =>
    obtain ⟨b1, f⟩ := v
    rw [P.bind_of_ok h]
    obtain ⟨k, hk, rfl⟩ := (hp _ _ _).1 h
    obtain ⟨xs, l', r', hs', rfl, hst⟩ := many1Loop_stops hp (fun _ _ => isFrame_ne) b1
    have hno : ∀ v, parseRawframe plat r' ≠ .ok v := by
      intro v hv
      rcases hst with ⟨_, h1, _⟩ | ⟨_, h1, _⟩ | ⟨_, h1, _⟩ <;> rw [h1] at hv <;> cases hv
    -- any other splitting is this one
    have uniq : ∀ fs l r, Seq (IsFrame (readsUserData plat)) fs l → k ++ (l' ++ r') = l ++ r →
        (∀ v, parseRawframe plat r ≠ .ok v) → fs = f :: xs ∧ r = r' := by
      intro fs l r hs hb hr
      obtain ⟨h1, h2⟩ := seq_unique hp hs (Seq.cons hk hs') (by rw [List.append_assoc]; exact hb.symm) hr hno
      exact ⟨h1, h2⟩
    have step : ∀ {o : Outcome NomErr (Bytes × List RawFrame)}, many1Loop (parseRawframe plat) (l' ++ r') = o →
        (many1Loop (parseRawframe plat) >>= fun xs => (pure (f :: xs) : P _)) (l' ++ r') =
          match o with | .ok (r, xs) => .ok (r, f :: xs) | .err e => .err e | .panic k => .panic k := by
      rintro o rfl
      show P.bind _ _ _ = _
      unfold P.bind
      cases many1Loop (parseRawframe plat) (l' ++ r') <;> rfl
    constructor
    · intro he
      refine ⟨f :: xs, k ++ l', r', .cons hk hs', by simp, .inr ?_⟩
      rcases hst with ⟨e1, h1, h2⟩ | ⟨e1, h1, h2⟩ | ⟨k1, h1, h2⟩ <;> rw [step h2] at he
      · cases hr' : r' with
        | nil => subst hr'; cases he
        | cons y ys =>
          subst hr'
          cases he
          exact .inl ⟨by simp, by simp, ⟨e1, h1⟩, rfl⟩
      · cases he
        exact .inr ⟨by simp, e1, h1, rfl⟩
      · cases he
    · rintro ⟨fs, l, r, hs, hb, hr⟩
      have hr1 : ∀ v, parseRawframe plat r ≠ .ok v := by
        intro v hv
        rcases hr with ⟨_, h1⟩ | ⟨_, _, ⟨_, h1⟩, _⟩ | ⟨_, _, h1, _⟩ <;> rw [h1] at hv <;> cases hv
      obtain ⟨rfl, rfl⟩ := uniq fs l r hs hb hr1
      rcases hr with ⟨h1, _⟩ | ⟨_, hne, ⟨e1, h1⟩, rfl⟩ | ⟨_, e1, h1, rfl⟩
      · cases h1
      · rcases hst with ⟨e2, h3, h2⟩ | ⟨e2, h3, h2⟩ | ⟨k1, h3, h2⟩ <;> rw [h3] at h1 <;> cases h1
        rw [step h2]
        cases r with
        | nil => exact absurd rfl hne
        | cons y ys => rfl
      · rcases hst with ⟨e2, h3, h2⟩ | ⟨e2, h3, h2⟩ | ⟨k1, h3, h2⟩ <;> rw [h3] at h1 <;> cases h1
        rw [step h2]

/-! ## The header -/

private theorem stepErr {α β : Type} {p : P α} {f : α → P β} {l : Bytes} {i n : Nat} {e : NomErr}
    (h : (p >>= f) (l.drop i) = .err e) (hp : ∃ x, p (l.drop i) = .ok ((l.drop i).drop n, x)) :
    ∃ x, f x (l.drop (i + n)) = .err e := by
  obtain ⟨x, hx⟩ := hp
  rw [List.drop_drop] at hx
  rw [P.bind_of_ok hx] at h
  exact ⟨x, h⟩

private theorem stepTag {β : Type} {t : Bytes} {f : Bytes → P β} {l : Bytes} {i : Nat} {e : NomErr}
    (h : (tag t >>= f) (l.drop i) = .err e) :
    ((l.drop i).take t.length ≠ t ∧ e = .error (.nom (l.drop i) .tag)) ∨
      ((l.drop i).take t.length = t ∧ f t (l.drop (i + t.length)) = .err e) := by
  rcases P.bind_err.1 h with h | ⟨x, r, h1, h2⟩
  · exact .inl (tag_err.1 h)
  · by_cases hm : (l.drop i).take t.length = t
    · refine .inr ⟨hm, ?_⟩
      obtain ⟨rfl, h1⟩ := tag_ok.1 h1
      rw [← List.drop_drop, h1]
      simpa using h2
    · obtain ⟨rfl, h1⟩ := tag_ok.1 h1
      rw [h1] at hm
      simp at hm

theorem headerFields_err {l : Bytes} (hl : l.length = 128) {e : NomErr} (h : parseHeaderFields l = .err e) :
    ((l.drop 4).take 2 ≠ [0xE0, 0xA5] ∧ e = .error (.nom (l.drop 4) .tag)) ∨
    ((l.drop 4).take 2 = [0xE0, 0xA5] ∧ (l.drop 20).take 4 ≠ [0, 0, 0, 0] ∧ e = .error (.nom (l.drop 20) .tag)) ∨
    ((l.drop 4).take 2 = [0xE0, 0xA5] ∧ (l.drop 20).take 4 = [0, 0, 0, 0] ∧ (l.drop 24).take 4 ≠ [0, 0, 0, 0] ∧
      e = .error (.nom (l.drop 24) .tag)) := by
  have u : ∀ {α : Type} (n : Nat) (f : Nat → α) (i : Nat), i + n ≤ 128 →
      ∃ x, (do pure (f (← leUint n)) : P α) (l.drop i) = .ok ((l.drop i).drop n, x) := by
    intro α n f i hi
    refine ⟨f (leNat ((l.drop i).take n)), ?_⟩
    refine P.bind_ok.2 ⟨_, _, ?_, P.pure_ok.2 ⟨rfl, rfl⟩⟩
    refine P.bind_ok.2 ⟨_, _, ?_, P.pure_ok.2 ⟨rfl, rfl⟩⟩
    have : n ≤ (l.drop i).length := by simp; omega
    simp only [take, if_pos this]
  have t : ∀ (n i : Nat), i + n ≤ 128 → ∃ x, take n (l.drop i) = .ok ((l.drop i).drop n, x) := by
    intro n i hi
    have : n ≤ (l.drop i).length := by simp; omega
    exact ⟨(l.drop i).take n, by simp only [take, if_pos this]⟩
  unfold parseHeaderFields at h
  obtain ⟨_, h⟩ := stepErr (l := l) (i := 0) (n := 4) h (u 4 _ _ (by omega))
  rcases stepTag (i := 4) h with h | ⟨m, h⟩
  · exact .inl h
  refine .inr ?_
  obtain ⟨_, h⟩ := stepErr (i := 6) h (u 2 _ _ (by omega))
  obtain ⟨_, h⟩ := stepErr (i := 8) h (u 2 _ _ (by omega))
  obtain ⟨_, h⟩ := stepErr (i := 10) h (u 2 _ _ (by omega))
  obtain ⟨_, h⟩ := stepErr (i := 12) (n := 2) h (by
    obtain ⟨w, hw⟩ := u 2 UInt16.ofNat 12 (by omega)
    exact ⟨.ofWord w, P.bind_ok.2 ⟨_, _, hw, P.pure_ok.2 ⟨rfl, rfl⟩⟩⟩)
  obtain ⟨_, h⟩ := stepErr (i := 14) h (u 4 _ _ (by omega))
  obtain ⟨_, h⟩ := stepErr (i := 18) h (u 2 _ _ (by omega))
  rcases stepTag (i := 20) h with ⟨h1, h2⟩ | ⟨m1, h⟩
  · exact .inl ⟨m, h1, h2⟩
  refine .inr ⟨m, m1, ?_⟩
  rcases stepTag (i := 24) h with h | ⟨m2, h⟩
  · exact h
  obtain ⟨_, h⟩ := stepErr (i := 28) h (u 1 _ _ (by omega))
  obtain ⟨_, h⟩ := stepErr (i := 29) h (t 3 _ (by omega))
  obtain ⟨_, h⟩ := stepErr (i := 32) h (u 2 _ _ (by omega))
  obtain ⟨_, h⟩ := stepErr (i := 34) h (u 1 _ _ (by omega))
  obtain ⟨_, h⟩ := stepErr (i := 35) h (u 1 _ _ (by omega))
  obtain ⟨_, h⟩ := stepErr (i := 36) h (u 2 _ _ (by omega))
  obtain ⟨_, h⟩ := stepErr (i := 38) h (u 2 _ _ (by omega))
  obtain ⟨_, h⟩ := stepErr (i := 40) h (u 2 _ _ (by omega))
  obtain ⟨_, h⟩ := stepErr (i := 42) h (u 2 _ _ (by omega))
  obtain ⟨_, h⟩ := stepErr (i := 44) h (t 84 _ (by omega))
  rw [show l.drop (44 + 84) = [] from List.drop_eq_nil_of_le (by omega)] at h
  cases h

/-! ## Assembling the file -/

theorem outcome_bind_err {ε α β : Type} {x : Outcome ε α} {f : α → Outcome ε β} {e : ε} :
    (x >>= f) = .err e ↔ x = .err e ∨ ∃ a, x = .ok a ∧ f a = .err e := by
  show Outcome.bind x f = _ ↔ _
  cases x <;> simp [Outcome.bind]

theorem badCel_iff {n : Nat} {cels : List CelChunk} {c : CelChunk} : badCel n cels = some c ↔
    n ≤ c.layerIndex.toNat ∧ ∃ pre post, cels = pre ++ c :: post ∧ ∀ c' ∈ pre, c'.layerIndex.toNat < n := by
  unfold badCel
  rw [List.find?_eq_some_iff_append]
  simp

theorem assembleFile_err {raw : RawFile} (h : FreshFrames raw.frames) {e : NomErr} : assembleFile raw = .err e ↔
    (raw.header.colorDepth = .indexed ∧
      ∃ pe, paletteProblem (allChunks raw.frames) = some pe ∧ e = .failure (.paletteError pe)) ∨
    ((raw.header.colorDepth = .indexed → paletteProblem (allChunks raw.frames) = none) ∧
      ∃ pre c post, allCels raw.frames = pre ++ c :: post ∧
        (∀ c' ∈ pre, c'.layerIndex.toNat < (allLayers raw.frames).length) ∧
        (allLayers raw.frames).length < c.layerIndex.toNat ∧ e = .failure .layerIndexOutOfBounds) := by
  rw [assembleFile_eq _ h, filePalette_eq]
  have hbad : ∀ f : File, (match badCel (allLayers raw.frames).length (allCels raw.frames) with
      | some c => rejectCel (allLayers raw.frames).length c
      | none => Outcome.ok f) = .err e ↔
      ∃ pre c post, allCels raw.frames = pre ++ c :: post ∧
        (∀ c' ∈ pre, c'.layerIndex.toNat < (allLayers raw.frames).length) ∧
        (allLayers raw.frames).length < c.layerIndex.toNat ∧ e = .failure .layerIndexOutOfBounds := by
    intro f
    cases hb : badCel (allLayers raw.frames).length (allCels raw.frames) with
    | none =>
      constructor
      · intro h; cases h
      · rintro ⟨pre, c, post, h1, h2, h3, rfl⟩
        rw [badCel_iff.2 ⟨by omega, pre, post, h1, h2⟩] at hb
        cases hb
    | some c =>
      obtain ⟨h0, pre, post, h1, h2⟩ := badCel_iff.1 hb
      simp only [rejectCel]
      constructor
      · intro h
        by_cases hc : (allLayers raw.frames).length < c.layerIndex.toNat
        · rw [if_pos hc] at h; cases h; exact ⟨pre, c, post, h1, h2, hc, rfl⟩
        · rw [if_neg hc] at h; cases h
      · rintro ⟨pre', c', post', h1', h2', h3', rfl⟩
        have := badCel_iff.2 ⟨Nat.le_of_lt h3', pre', post', h1', h2'⟩
        rw [hb] at this
        cases this
        rw [if_pos h3']
  by_cases hd : raw.header.colorDepth = .indexed
  · rw [if_pos hd]
    cases hp : paletteProblem (allChunks raw.frames) with
    | some pe =>
      constructor
      · intro h; cases h; exact .inl ⟨hd, pe, rfl, rfl⟩
      · rintro (⟨_, pe', h, rfl⟩ | ⟨h, _⟩)
        · cases h; rfl
        · cases h hd
    | none =>
      refine (hbad _).trans ⟨fun h => .inr ⟨fun _ => rfl, h⟩, ?_⟩
      rintro (⟨_, pe', h, rfl⟩ | ⟨_, h⟩)
      · cases h
      · exact h
  · rw [if_neg hd]
    refine (hbad _).trans ⟨fun h => .inr ⟨fun hd' => absurd hd' hd, h⟩, ?_⟩
    rintro (⟨h, _⟩ | ⟨_, h⟩)
    · exact absurd h hd
    · exact h

end Ase
