import Verif.Spec.Fields
import Verif.Lemmas.Errors
import Verif.Lemmas.Flags
import Verif.Props.Scalars

/-!
# The parsers follow the forms of `Verif/Spec/Fields.lean`
-/

namespace Ase

open Spec

/-- The parser reports exactly the problems of the form. -/
def Reports {α : Type} (p : P α) (form : Form) : Prop := ∀ b e, p b = .err e ↔ Problem form b e

/-- The parser, and whatever follows it, report the problems of the form, and of what follows it. -/
def Follows {α : Type} (p : P α) (f : Form → Form) : Prop :=
  ∀ {β : Type} {q : α → P β} {k : Form}, (∀ x, Reports (q x) k) → Reports (p >>= q) (f k)

theorem P.bind_assoc' {α β γ : Type} (p : P α) (f : α → P β) (g : β → P γ) :
    ((p >>= f) >>= g) = (p >>= fun x => f x >>= g) := by
  funext b
  simp only [P.bind_def, P.bind]
  cases p b <;> rfl

theorem P.pure_bind' {α β : Type} (a : α) (f : α → P β) : ((Pure.pure a : P α) >>= f) = f a := rfl

namespace Reports

theorem done {α : Type} {p : P α} (h : ∀ b e, p b ≠ .err e) : Reports p .done := fun b e =>
  ⟨fun he => absurd he (h b e), fun he => by cases he⟩

theorem pure {α : Type} (a : α) : Reports (Pure.pure a : P α) .done := done fun _ _ h => by cases h

theorem panic {α : Type} (k : Panic) : Reports (P.panic k : P α) .done := done fun _ _ h => by cases h

theorem fail {α : Type} (e : ParseError) : Reports (P.fail (.failure e) : P α) (.refuse e) := fun b e' =>
  ⟨fun h => by cases h; exact .refused, fun h => by cases h; rfl⟩

theorem num {α : Type} {n : Nat} {q : Nat → P α} {next : Nat → Form} (h : ∀ v, v < 256 ^ n → Reports (q v) (next v)) :
    Reports (leUint n >>= q) (.num n next) := by
  intro b e
  rw [P.bind_err, leUint_err]
  constructor
  · rintro (⟨h1, rfl⟩ | ⟨v, r, h1, h2⟩)
    · exact .short h1
    · obtain ⟨hv, rfl⟩ := leUint_ok.1 h1
      exact .later hv ((h v hv _ _).1 h2)
  · intro hp
    cases hp with
    | short h1 => exact .inl ⟨h1, rfl⟩
    | later hv hp => exact .inr ⟨_, _, leUint_ok.2 ⟨hv, rfl⟩, (h _ hv _ _).2 hp⟩

theorem byte {α : Type} {q : UInt8 → P α} {next : Nat → Form} (h : ∀ x : UInt8, Reports (q x) (next x.toNat)) :
    Reports (Ase.byte >>= q) (.num 1 next) := by
  unfold Ase.byte
  rw [P.bind_assoc']
  refine num fun v hv => ?_
  have := h (UInt8.ofNat v)
  rwa [UInt8.toNat_ofNat', Nat.mod_eq_of_lt hv] at this

theorem word {α : Type} {q : UInt16 → P α} {next : Nat → Form} (h : ∀ x : UInt16, Reports (q x) (next x.toNat)) :
    Reports (Ase.word >>= q) (.num 2 next) := by
  unfold Ase.word
  rw [P.bind_assoc']
  refine num fun v hv => ?_
  have := h (UInt16.ofNat v)
  rwa [UInt16.toNat_ofNat', Nat.mod_eq_of_lt hv] at this

theorem dword {α : Type} {q : UInt32 → P α} {next : Nat → Form} (h : ∀ x : UInt32, Reports (q x) (next x.toNat)) :
    Reports (Ase.dword >>= q) (.num 4 next) := by
  unfold Ase.dword
  rw [P.bind_assoc']
  refine num fun v hv => ?_
  have := h (UInt32.ofNat v)
  rwa [UInt32.toNat_ofNat', Nat.mod_eq_of_lt hv] at this

theorem dwordAsUsize {α : Type} {q : Nat → P α} {next : Nat → Form} (h : ∀ x : Nat, Reports (q x) (next x)) :
    Reports (Ase.parseDwordAsUsize >>= q) (.num 4 next) := by
  unfold Ase.parseDwordAsUsize
  rw [P.bind_assoc']
  exact dword fun x => h x.toNat

theorem ite {α : Type} {c : Prop} [Decidable c] {p q : P α} {f g : Form} (hp : c → Reports p f) (hq : ¬ c → Reports q g) :
    Reports (if c then p else q) (if c then f else g) := by
  by_cases h : c
  · rw [if_pos h, if_pos h]; exact hp h
  · rw [if_neg h, if_neg h]; exact hq h

theorem take {α : Type} {n : Nat} {q : Bytes → P α} {k : Form} (hq : ∀ v, v.length = n → Reports (q v) k) :
    Reports (Ase.take n >>= q) (skips [n] k) := by
  intro b e
  rw [P.bind_err, take_err]
  constructor
  · rintro (⟨h1, rfl⟩ | ⟨v, r, h1, h2⟩)
    · exact .short h1
    · obtain ⟨hv, rfl⟩ := take_ok.1 h1
      have := leBytes_leNat v
      rw [hv] at this
      rw [← this]
      exact .later (by rw [← hv]; exact leNat_lt v) ((hq v hv _ _).1 h2)
  · intro hp
    cases hp with
    | short h1 => exact .inl ⟨h1, rfl⟩
    | later hv hp =>
      exact .inr ⟨_, _, take_ok.2 ⟨leBytes_length _ _, rfl⟩, (hq _ (leBytes_length _ _) _ _).2 hp⟩

end Reports

namespace Follows

theorem toReports {α : Type} {p : P α} {f : Form → Form} (h : Follows p f) : Reports p (f .done) := by
  have := h (q := fun x => (Pure.pure x : P α)) (k := .done) fun x => Reports.pure x
  have e : (p >>= fun x => (Pure.pure x : P α)) = p := by
    funext b
    simp only [P.bind_def, P.bind]
    cases p b <;> rfl
  rwa [e] at this

theorem map {α β : Type} {p : P α} {f : Form → Form} (h : Follows p f) (g : α → β) :
    Follows (p >>= fun x => (Pure.pure (g x) : P β)) f := by
  intro γ q k hq
  rw [P.bind_assoc']
  exact h fun x => hq (g x)

theorem pure {α : Type} (a : α) : Follows (Pure.pure a : P α) id := fun hq => hq a

theorem bind {α β : Type} {p : P α} {q : α → P β} {f g : Form → Form} (hp : Follows p f) (hq : ∀ x, Follows (q x) g) :
    Follows (p >>= q) (fun k => f (g k)) := by
  intro γ r k hr
  rw [P.bind_assoc']
  exact hp fun x => hq x hr

theorem leUint (n : Nat) : Follows (Ase.leUint n) (skips [n]) := fun hq => Reports.num fun v _ => hq v

theorem take (n : Nat) : Follows (Ase.take n) (skips [n]) := fun hq => Reports.take fun v _ => hq v

theorem byte : Follows Ase.byte (skips [1]) := map (leUint _) _
theorem word : Follows Ase.word (skips [2]) := map (leUint _) _
theorem short : Follows Ase.short (skips [2]) := map (leUint _) _
theorem dword : Follows Ase.dword (skips [4]) := map (leUint _) _
theorem long : Follows Ase.long (skips [4]) := map (leUint _) _
theorem leI8 : Follows Ase.leI8 (skips [1]) := map (leUint _) _
theorem leU64 : Follows Ase.leU64 (skips [8]) := map (leUint _) _
theorem leI64 : Follows Ase.leI64 (skips [8]) := map (leUint _) _
theorem parseUuid : Follows Ase.parseUuid (skips [16]) := map (leUint _) _
theorem fixed : Follows Ase.fixed (skips fixedWidth) := bind word fun _ => map word _
theorem parsePoint : Follows Ase.parsePoint (skips [4, 4]) := bind long fun _ => map long _
theorem parseSize : Follows Ase.parseSize (skips [4, 4]) := bind long fun _ => map long _
theorem parseRect : Follows Ase.parseRect (skips [4, 4, 4, 4]) := bind parsePoint fun _ => map parseSize _
theorem parseColor : Follows Ase.parseColor (skips [1, 1, 1, 1]) :=
  bind byte fun _ => bind byte fun _ => bind byte fun _ => map byte _
theorem parseRgb : Follows Ase.parseRgb (skips [1, 1, 1]) := bind byte fun _ => bind byte fun _ => map byte _

theorem parseString : Follows Ase.parseString .text := by
  intro β q k hq b e
  rw [P.bind_err]
  constructor
  · rintro (h | ⟨s, r, h1, h2⟩)
    · rcases P.bind_err.1 h with h | ⟨n, r, h1, h'⟩
      · obtain ⟨h1, rfl⟩ := word_err.1 h
        exact .noLength h1
      · clear h
        obtain rfl := word_ok.1 h1
        rcases P.bind_err.1 h' with h | ⟨bs, r', h2, h⟩
        · obtain ⟨h2, rfl⟩ := take_err.1 h
          exact .shortText h2
        · cases hu : utf8Decode bs with
          | some cs => rw [hu] at h; cases h
          | none =>
            rw [hu] at h
            cases h
            obtain ⟨hl, rfl⟩ := take_ok.1 h2
            have hb : ¬ IsText bs := by rw [isText_iff, hu]; simp
            obtain ⟨j, e1, e2⟩ := fault_spec 0 bs hb
            rw [Nat.zero_add] at e1
            rw [e1]
            have : le16 n = leNat16 bs.length := by rw [hl]; rfl
            rw [this, ← List.append_assoc]
            exact .badText (by rw [hl]; exact n.toNat_lt) e2
    · obtain ⟨hl, rfl⟩ := parseString_ok.1 h1
      exact .afterText hl ((hq _ _ _).1 h2)
  · intro hp
    cases hp with
    | noLength h => exact .inl (P.bind_of_err (word_err.2 ⟨h, rfl⟩))
    | shortText h =>
      exact .inl ((P.bind_of_ok (word_ok.2 rfl)).trans (P.bind_of_err (take_err.2 ⟨h, rfl⟩)))
    | badText hl hb => exact .inl ((C02_bad_text _ _ hl _ _).2 hb)
    | afterText hl hp => exact .inr ⟨_, _, parseString_ok.2 ⟨hl, rfl⟩, (hq _ _ _).2 hp⟩

theorem count {α : Type} {p : P α} {f : Form → Form} (hp : Follows p f) (n : Nat) : Follows (Ase.count p n) (repeated n f) := by
  induction n with
  | zero => exact pure []
  | succ n ih => exact bind hp fun x => map ih _

theorem cond {α : Type} {p : P α} {f : Form → Form} (c : Bool) (hp : Follows p f) : Follows (Ase.cond c p) (onlyIf c f) := by
  intro β q k hq
  unfold Ase.cond onlyIf
  cases c
  · exact hq _
  · exact map hp _ hq

end Follows

/-! ## Chunks -/

theorem eq_testBit16 {c : Bool} {w : UInt16} {i : Nat} (h : c = true ↔ bit16 w i) : c = w.toNat.testBit i :=
  Bool.eq_iff_iff.2 h

theorem eq_testBit32 {c : Bool} {w : UInt32} {i : Nat} (h : c = true ↔ bit32 w i) : c = w.toNat.testBit i :=
  Bool.eq_iff_iff.2 h

theorem reports_oldPalette : Reports parseOldPaletteChunk oldPaletteForm := by
  refine Reports.word fun n => Follows.toReports (Follows.map (Follows.count ?_ _) _)
  intro β q k hq
  unfold parsePacket
  rw [P.bind_assoc']
  refine Follows.byte fun skip => ?_
  rw [P.bind_assoc']
  refine Reports.byte fun m => ?_
  have e : (if m.toNat = 0 then 256 else m.toNat) = (if m = 0 then 256 else m.toNat) := by
    by_cases h : m = 0
    · rw [h]; rfl
    · rw [if_neg h, if_neg fun h' : m.toNat = 0 => h (UInt8.toNat_inj.1 h')]
  rw [e]
  exact Follows.map (Follows.count Follows.parseRgb _) _ hq

theorem reports_layer : Reports parseLayerChunk layerForm := by
  refine Follows.word fun _ => Reports.word fun t => ?_
  refine Follows.word fun _ => Follows.word fun _ => Follows.word fun _ => Follows.word fun _ => Follows.byte fun _ =>
    Follows.take _ fun _ => Follows.parseString fun _ => ?_
  have e : (t.toNat == 2) = decide (LayerType.ofWord t = .tilemap) := by
    unfold LayerType.ofWord
    by_cases h0 : t = 0
    · subst h0; rfl
    by_cases h1 : t = 1
    · subst h1; rfl
    by_cases h2 : t = 2
    · subst h2; rfl
    rw [if_neg h0, if_neg h1, if_neg h2]
    have : t.toNat ≠ 2 := fun h => h2 (UInt16.toNat_inj.1 h)
    simp [this]
  rw [e]
  exact Follows.toReports (Follows.map (Follows.cond _ Follows.dword) _)

theorem reports_cel : Reports parseCelChunk celForm := by
  refine Follows.word fun _ => Follows.short fun _ => Follows.short fun _ => Follows.byte fun _ => Reports.word fun t => ?_
  refine Follows.short fun _ => Follows.take _ fun _ => ?_
  have hd : ∀ {α β : Type} (f : Bytes → α) (g : α → β),
      Reports ((P.remaining >>= fun d => (Pure.pure (f d) : P α)) >>= fun x => P.skipRest >>= fun _ => Pure.pure (g x)) .done :=
    fun f g => Reports.done fun _ _ h => by cases h
  unfold CelType.ofWord CelType.fromRepr
  split <;> rename_i ht <;> try rw [ht]
  · dsimp only [Option.getD, parseCelContent]
    rw [P.bind_assoc']
    refine Follows.word fun _ => ?_
    rw [P.bind_assoc']
    exact Follows.word fun _ => hd _ _
  · dsimp only [Option.getD, parseCelContent]
    rw [P.bind_assoc']
    exact Follows.word fun _ => Reports.done fun _ _ h => by cases h
  · dsimp only [Option.getD, parseCelContent]
    rw [P.bind_assoc']
    refine Follows.word fun _ => ?_
    rw [P.bind_assoc']
    exact Follows.word fun _ => hd _ _
  · dsimp only [Option.getD, parseCelContent]
    rw [P.bind_assoc']
    refine Follows.word fun _ => ?_
    rw [P.bind_assoc']
    refine Follows.word fun _ => ?_
    rw [P.bind_assoc']
    refine Follows.word fun _ => ?_
    rw [P.bind_assoc']
    refine Follows.dword fun _ => ?_
    rw [P.bind_assoc']
    refine Follows.dword fun _ => ?_
    rw [P.bind_assoc']
    refine Follows.dword fun _ => ?_
    rw [P.bind_assoc']
    refine Follows.dword fun _ => ?_
    rw [P.bind_assoc']
    exact Follows.take _ fun _ => hd _ _
  · exact hd _ _
  · rename_i h0 h1 h2 h3
    split
    · exact absurd ‹_› h0
    · exact absurd ‹_› h1
    · exact absurd ‹_› h2
    · exact absurd ‹_› h3
    · exact hd _ _

theorem reports_celExtra : Reports parseCelExtraChunk celExtraForm :=
  Follows.dword fun _ => Follows.fixed fun _ => Follows.fixed fun _ => Follows.fixed fun _ => Follows.fixed fun _ =>
    Reports.done fun _ _ h => by cases h

theorem reports_colorProfile : Reports parseColorProfile colorProfileForm := by
  refine Reports.word fun t => Follows.word fun _ => Follows.fixed fun _ => Follows.take _ fun _ => ?_
  have hp : ∀ {α β : Type} (a : α) (g : α → β), Reports ((Pure.pure a : P α) >>= fun x => (Pure.pure (g x) : P β)) .done :=
    fun a g => Reports.pure _
  unfold ColorProfileType.ofWord ColorProfileType.fromRepr
  split <;> rename_i ht
  · rw [ht]; exact hp _ _
  · rw [ht]; exact hp _ _
  · rw [ht]
    dsimp only [Option.getD, parseColorProfileBody]
    rw [P.bind_assoc']
    refine Reports.dword fun n => ?_
    rw [P.bind_assoc']
    exact Follows.take _ fun _ => hp _ _
  · rw [ht]; exact hp _ _
  · rename_i h2
    have : (t.toNat == 2) = false := by simpa using h2
    rw [this]
    exact hp _ _

theorem reports_externalFiles : Reports parseExternalFilesChunk externalFilesForm :=
  Reports.dwordAsUsize fun n => Follows.take _ fun _ => Follows.toReports (Follows.map (Follows.count
    (Follows.bind Follows.dword fun _ => Follows.bind Follows.byte fun _ => Follows.bind (Follows.take _) fun _ =>
      Follows.map Follows.parseString _) n) _)

theorem reports_mask : Reports parseMaskChunk maskForm :=
  Follows.short fun _ => Follows.short fun _ => Follows.word fun _ => Follows.word fun _ => Follows.take _ fun _ =>
    Follows.parseString fun _ => Reports.done fun _ _ h => by cases h

theorem follows_tag : Follows parseTag tagForm := by
  intro β q k hq
  unfold parseTag
  rw [P.bind_assoc']
  refine Reports.word fun a => ?_
  rw [P.bind_assoc']
  refine Reports.word fun z => ?_
  by_cases h : z < a
  · rw [if_pos h, if_pos (UInt16.lt_iff_toNat_lt.1 h), UInt16.ofNat_toNat, UInt16.ofNat_toNat]
    exact Reports.fail _
  · rw [if_neg h, if_neg fun h' => h (UInt16.lt_iff_toNat_lt.2 h')]
    rw [P.bind_assoc']
    refine Follows.byte fun _ => ?_
    rw [P.bind_assoc']
    refine Follows.word fun _ => ?_
    rw [P.bind_assoc']
    refine Follows.take _ fun _ => ?_
    rw [P.bind_assoc']
    refine Reports.take fun c hc => ?_
    rw [P.bind_assoc']
    refine Follows.byte fun _ => ?_
    rw [P.bind_assoc']
    refine Follows.parseString fun _ => ?_
    rw [P.bind_assoc']
    match c, hc with
    | [c0, c1, c2], _ => exact hq _

theorem reports_tags : Reports parseTagsChunk tagsForm :=
  Reports.word fun _ => Follows.take _ fun _ => Follows.toReports (Follows.map (Follows.count follows_tag _) _)

theorem follows_paletteEntry : Follows parsePaletteEntry paletteEntryForm := by
  intro β q k hq
  unfold parsePaletteEntry
  rw [P.bind_assoc']
  refine Reports.word fun flags => ?_
  rw [P.bind_assoc']
  refine Follows.parseColor fun _ => ?_
  rw [← eq_testBit16 (paletteEntry_hasName flags)]
  exact Follows.map (Follows.cond _ Follows.parseString) _ hq

theorem Reports.dwordAsU8 {α : Type} {q : UInt8 → P α} {next : Nat → Form} {e : ParseError}
    (h : ∀ x : UInt8, Reports (q x) (next x.toNat)) :
    Reports (parseDwordAsU8 e >>= q) (.num 4 fun n => if 255 < n then .refuse e else next n) := by
  unfold parseDwordAsU8
  rw [P.bind_assoc']
  refine Reports.dword fun n => ?_
  by_cases hn : n.toNat < 256
  · rw [if_pos hn, if_neg (by omega)]
    have := h (UInt8.ofNat n.toNat)
    rwa [UInt8.toNat_ofNat', Nat.mod_eq_of_lt hn] at this
  · rw [if_neg hn, if_pos (by omega)]
    exact Reports.fail _

theorem reports_palette : Reports parsePaletteChunk paletteForm := by
  refine Reports.dwordAsUsize fun n => Reports.dwordAsU8 fun first => Reports.dwordAsU8 fun last => ?_
  by_cases h : last < first
  · rw [if_pos h, if_pos (UInt8.lt_iff_toNat_lt.1 h)]
    exact Reports.fail _
  · rw [if_neg h, if_neg fun h' => h (UInt8.lt_iff_toNat_lt.2 h')]
    exact Follows.take _ fun _ => Follows.toReports (Follows.map (Follows.count follows_paletteEntry _) _)

theorem reports_slice : Reports parseSliceChunk sliceForm := by
  refine Reports.dwordAsUsize fun n => Reports.dword fun flags => Follows.dword fun _ => Follows.parseString fun _ => ?_
  refine Follows.toReports (Follows.map (Follows.count ?_ _) _)
  rw [← eq_testBit32 (slice_ninePatch flags), ← eq_testBit32 (slice_pivot flags)]
  exact Follows.bind Follows.dword fun _ => Follows.bind Follows.long fun _ => Follows.bind Follows.long fun _ =>
    Follows.bind Follows.dword fun _ => Follows.bind Follows.dword fun _ =>
    Follows.bind (Follows.cond _ (Follows.bind Follows.long fun _ => Follows.bind Follows.long fun _ =>
      Follows.bind Follows.dword fun _ => Follows.map Follows.dword _)) fun _ =>
    Follows.map (Follows.cond _ (Follows.bind Follows.long fun _ => Follows.map Follows.long _)) _

theorem reports_tileset : Reports parseTilesetChunk tilesetForm := by
  refine Follows.dword fun _ => Reports.dword fun flags => Follows.dword fun _ => Follows.word fun _ => Follows.word fun _ =>
    Follows.short fun _ => Follows.take _ fun _ => Follows.parseString fun _ => ?_
  rw [← eq_testBit32 (tileset_externalFile flags), ← eq_testBit32 (tileset_tiles flags)]
  refine Follows.cond _ (Follows.bind Follows.dword fun _ => Follows.map Follows.dword _) fun _ => ?_
  refine Follows.toReports (Follows.map (Follows.cond _ ?_) _)
  intro β q k hq
  unfold parseTiles
  rw [P.bind_assoc']
  exact Reports.dword fun n => Follows.take _ hq

theorem never_bind {α β : Type} {p : P α} {q : α → P β} (hp : ∀ b e, p b ≠ .err e) (hq : ∀ x b e, q x b ≠ .err e) :
    ∀ b e, (p >>= q) b ≠ .err e := by
  intro b e h
  rcases P.bind_err.1 h with h | ⟨x, r, _, h⟩
  · exact hp _ _ h
  · exact hq _ _ _ h

theorem reports_sized {α β : Type} (plat : Plat) (size : Nat) (m : P Nat) (f : Bytes → P α) (g : α → P β)
    (hm : m = fun b => (usizeSub8 plat size).bind (fun n => .ok (b, n))) (hf : ∀ v b e, f v b ≠ .err e)
    (hg : ∀ x b e, g x b ≠ .err e) : Reports ((m >>= fun n => take n >>= f) >>= g)
      (if 8 ≤ size then skips [size - 8] .done else if plat.debug then .done else skips [2 ^ 64 + size - 8] .done) := by
  have tail : ∀ n, Reports ((take n >>= f) >>= g) (skips [n] .done) := by
    intro n
    rw [P.bind_assoc']
    exact Follows.take n fun v => Reports.done (never_bind (hf v) hg)
  rw [P.bind_assoc']
  by_cases h8 : 8 ≤ size
  · have e : m = pure (size - 8) := by
      rw [hm]
      funext b
      unfold usizeSub8
      rw [if_pos h8]
      rfl
    rw [e, if_pos h8]
    exact tail (size - 8)
  · rw [if_neg h8]
    cases hd : plat.debug with
    | true =>
      have e : m = P.panic .overflow := by
        rw [hm]
        funext b
        unfold usizeSub8
        rw [if_neg h8, if_pos hd]
        rfl
      rw [e, if_pos rfl]
      exact Reports.done fun _ _ h => by cases h
    | false =>
      have e : m = pure (2 ^ 64 + size - 8) := by
        rw [hm]
        funext b
        unfold usizeSub8
        rw [if_neg h8, hd, if_neg (by decide)]
        rfl
      rw [e, if_neg (by decide)]
      exact tail (2 ^ 64 + size - 8)

theorem reports_userData (plat : Plat) : Reports (parseUserDataChunk plat) (userDataForm plat.debug) := by
  refine Reports.dword fun flags => ?_
  rw [← eq_testBit32 (userData_hasText flags), ← eq_testBit32 (userData_hasColor flags),
    ← eq_testBit32 (userData_hasProperties flags)]
  refine Follows.cond _ Follows.parseString fun _ => Follows.cond _ Follows.parseColor fun _ => ?_
  cases (UserDataFlags.fromBitsTruncate flags).contains UserDataFlags.HAS_PROPERTIES with
  | false => exact Reports.pure _
  | true =>
    show Reports ((parsePropertiesMaps plat >>= fun x => (pure (some x) : P _)) >>= _) _
    rw [P.bind_assoc']
    unfold parsePropertiesMaps
    rw [P.bind_assoc']
    refine Reports.dwordAsUsize fun size => ?_
    rw [P.bind_assoc']
    refine Reports.dwordAsUsize fun num => ?_
    refine reports_sized plat size _ _ _ rfl (fun v b e h => ?_) (fun _ _ _ h => by cases h)
    cases hc : count (parsePropertiesMap plat.stack) num v <;> rw [hc] at h <;> cases h

/-- The body of a chunk. -/
theorem reports_body (plat : Plat) (code : UInt16) :
    Reports (parseChunkBody plat (typeOf code)) (bodyForm plat.debug code) := by
  have step : ∀ {α : Type} {p : P α} {f : Form} {g : α → Chunk}, Reports p f →
      Reports (p >>= fun x => (pure (g x) : P Chunk)) f := by
    intro α p f g h b e
    rw [P.bind_err, ← h b e]
    refine ⟨fun h => h.elim id ?_, .inl⟩
    rintro ⟨_, _, _, h⟩
    cases h
  by_cases hc : code ∈ chunkTypes.map Prod.fst
  · simp only [chunkTypes, List.map_cons, List.map_nil, List.mem_cons, List.not_mem_nil, or_false] at hc
    rcases hc with rfl | rfl | rfl | rfl | rfl | rfl | rfl | rfl | rfl | rfl | rfl | rfl | rfl | rfl
    · exact step reports_oldPalette
    · exact step reports_oldPalette
    · exact step reports_layer
    · exact step reports_cel
    · exact step reports_celExtra
    · exact step reports_colorProfile
    · exact step reports_externalFiles
    · exact step reports_mask
    · exact Reports.pure _
    · exact step reports_tags
    · exact step reports_palette
    · exact step (reports_userData plat)
    · exact step reports_slice
    · exact step reports_tileset
  · have ht : typeOf code = .error code := by
      unfold typeOf
      have : chunkTypes.lookup code = none := by
        rw [List.lookup_eq_none_iff]
        intro p hp
        simp only [bne_iff_ne, ne_eq]
        rintro rfl
        exact hc (List.mem_map_of_mem hp)
      rw [this]
    have hf : bodyForm plat.debug code = .done := by
      unfold bodyForm
      split <;> rename_i h <;> first
        | rfl
        | exact absurd (by rw [← UInt16.ofNat_toNat (x := code), h]; decide) hc
    rw [ht, hf]
    exact Reports.done fun _ _ h => by cases h

/-! ## Properties -/

theorem Follows.overflow {α : Type} : Follows (P.panic .stackOverflow : P α) (fun _ => .done) :=
  fun _ => Reports.done fun _ _ h => by cases h

theorem follows_props (d : Nat) :
    Follows (parseValue d) (valueForm d) ∧ Follows (parseVector d) (vectorForm d) ∧
      Follows (parsePropertiesMap d) (mapForm d) ∧ Follows (parseProperty d) (propertyForm d) := by
  induction d with
  | zero =>
    refine ⟨?_, ?_, ?_, ?_⟩ <;> intro β q k hq
    · rw [parseValue, valueForm]; exact Follows.overflow hq
    · rw [parseVector, vectorForm]; exact Follows.overflow hq
    · rw [parsePropertiesMap, mapForm]; exact Follows.overflow hq
    · rw [parseProperty, propertyForm]; exact Follows.overflow hq
  | succ d ih =>
    obtain ⟨ihv, ihw, ihm, ihp⟩ := ih
    refine ⟨?_, ?_, ?_, ?_⟩ <;> intro β q k hq
    · rw [parseValue, valueForm, P.bind_assoc']
      refine Reports.word fun code => ?_
      unfold PropertyType.fromRepr
      split <;> rename_i hc <;> split at hc <;> first | cases hc | skip
      all_goals rename_i heq
      all_goals first
        | (rw [heq, elementForm]
           first
            | exact Follows.map Follows.byte _ hq
            | exact Follows.map Follows.leI8 _ hq
            | exact Follows.map Follows.short _ hq
            | exact Follows.map Follows.word _ hq
            | exact Follows.map Follows.long _ hq
            | exact Follows.map Follows.dword _ hq
            | exact Follows.map Follows.leI64 _ hq
            | exact Follows.map Follows.leU64 _ hq
            | exact Follows.map Follows.fixed _ hq
            | exact Follows.map Follows.parseString _ hq
            | exact Follows.map Follows.parsePoint _ hq
            | exact Follows.map Follows.parseSize _ hq
            | exact Follows.map Follows.parseRect _ hq
            | exact Follows.map ihw _ hq
            | exact Follows.map ihm _ hq
            | exact Follows.map Follows.parseUuid _ hq
           done)
        | (rw [elementForm]
           · rw [UInt16.ofNat_toNat]
             exact Reports.fail _
           all_goals assumption)
    · rw [parseVector, vectorForm, P.bind_assoc']
      refine Reports.dwordAsUsize fun n => ?_
      rw [P.bind_assoc']
      refine Reports.word fun code => ?_
      by_cases h0 : code = 0
      · rw [if_pos h0, if_pos (by rw [h0]; rfl)]
        exact Follows.map (Follows.count ihv _) _ hq
      rw [if_neg h0, if_neg fun h' : code.toNat = 0 => h0 (UInt16.toNat_inj.1 h')]
      unfold PropertyType.fromRepr
      split <;> rename_i hc <;> split at hc <;> first | cases hc | skip
      all_goals rename_i heq
      all_goals first
        | (rw [if_pos (by omega), heq]
           have el : ∀ {m : Nat}, elementForm d m = fun k => elementForm d m k := rfl
           rw [el]
           simp only [elementForm]
           first
            | exact Follows.map (Follows.count Follows.byte _) _ hq
            | exact Follows.map (Follows.count Follows.leI8 _) _ hq
            | exact Follows.map (Follows.count Follows.short _) _ hq
            | exact Follows.map (Follows.count Follows.word _) _ hq
            | exact Follows.map (Follows.count Follows.long _) _ hq
            | exact Follows.map (Follows.count Follows.dword _) _ hq
            | exact Follows.map (Follows.count Follows.leI64 _) _ hq
            | exact Follows.map (Follows.count Follows.leU64 _) _ hq
            | exact Follows.map (Follows.count Follows.fixed _) _ hq
            | exact Follows.map (Follows.count Follows.parseString _) _ hq
            | exact Follows.map (Follows.count Follows.parsePoint _) _ hq
            | exact Follows.map (Follows.count Follows.parseSize _) _ hq
            | exact Follows.map (Follows.count Follows.parseRect _) _ hq
            | exact Follows.map (Follows.count ihw _) _ hq
            | exact Follows.map (Follows.count ihm _) _ hq
            | exact Follows.map (Follows.count Follows.parseUuid _) _ hq
            | exact Follows.map (Follows.count (Follows.map Follows.byte _) _) _ hq
           done)
        | (have hn : code.toNat ≠ 0 := fun h' : code.toNat = 0 => h0 (UInt16.toNat_inj.1 h')
           simp only [imp_false] at *
           rw [if_neg (by omega), UInt16.ofNat_toNat]
           exact Reports.fail _)
    · rw [parsePropertiesMap, mapForm, P.bind_assoc']
      refine Follows.dword fun _ => ?_
      rw [P.bind_assoc']
      exact Reports.dwordAsUsize fun n => Follows.map (Follows.count ihp _) _ hq
    · rw [parseProperty, propertyForm, P.bind_assoc']
      exact Follows.parseString fun _ => Follows.map ihv _ hq

end Ase
