import Verif.Lemmas.Cost

/-!
# Parsing takes at most two steps per byte

`Lin p s d`: on success `p` takes at most two steps per byte it consumes and `s` more, on failure at most
two steps per byte of its input and `d` more.  A negative `s` is what a loop gains in each turn.
-/

namespace Ase.Timed

/-- a run on `n` bytes: two steps per byte, `s` more on success, `d` more on failure -/
def Within {α : Type} (s d : Int) (n : Nat) : Nat × Outcome NomErr (Bytes × α) → Prop
  | (t, .ok (r, _)) => (t : Int) + 2 * r.length ≤ 2 * n + s
  | (t, .err _) => (t : Int) ≤ 2 * n + d
  | (t, .panic _) => (t : Int) ≤ 2 * n + d

/-- two steps per byte, `s` more on success, `d` more on failure -/
def Lin {α : Type} (p : T α) (s d : Int) : Prop := ∀ b, Within s d b.length (p b)

theorem Lin.weaken {α : Type} {p : T α} {s s' d d' : Int} (h : Lin p s' d') (hs : s' ≤ s) (hd : d' ≤ d) :
    Lin p s d := by
  intro b
  have h := h b
  rcases hp : p b with ⟨t, ⟨r, a⟩ | e | k⟩ <;> rw [hp] at h <;> simp only [Within] at h ⊢ <;> omega

theorem Lin.bind {α β : Type} {p : T α} {f : α → T β} {s₁ d₁ s₂ d₂ : Int} (h : Lin p s₁ d₁)
    (hf : ∀ a, Lin (f a) s₂ d₂) : Lin (p >>= f) (s₁ + s₂) (max d₁ (s₁ + d₂)) := by
  intro b
  show Within _ _ _ (T.bind p f b)
  unfold T.bind
  have h := h b
  rcases hp : p b with ⟨t, ⟨r, a⟩ | e | k⟩ <;> rw [hp] at h <;> simp only [Within] at h ⊢
  · have hf := hf a r
    rcases hp : f a r with ⟨t', ⟨r', a'⟩ | e | k⟩ <;> rw [hp] at hf <;>
      simp only [Within, Int.natCast_add] at hf ⊢ <;> omega
  · omega
  · omega

theorem lin_pure {α : Type} (a : α) : Lin (pure a : T α) 0 0 := by
  intro b
  show ((0 : Nat) : Int) + 2 * b.length ≤ 2 * b.length + 0
  omega

theorem lin_fail {α : Type} (e : NomErr) : Lin (T.fail e : T α) (-100) 0 := by
  intro b
  show ((0 : Nat) : Int) ≤ 2 * b.length + 0
  omega

theorem lin_panic {α : Type} (k : Panic) : Lin (T.panic k : T α) (-100) 0 := by
  intro b
  show ((0 : Nat) : Int) ≤ 2 * b.length + 0
  omega

theorem lin_remaining : Lin T.remaining 0 0 := by
  intro b
  show ((0 : Nat) : Int) + 2 * b.length ≤ 2 * b.length + 0
  omega

theorem lin_skipRest : Lin T.skipRest 0 0 := by
  intro b
  show ((0 : Nat) : Int) + 2 * (0 : Nat) ≤ 2 * b.length + 0
  omega

theorem lin_tick (n : Nat) : Lin (T.tick n) n 0 := by
  intro b
  show (n : Int) + 2 * b.length ≤ 2 * b.length + n
  omega

theorem lin_lift {α : Type} (x : Outcome NomErr α) : Lin (T.lift x) 0 0 := by
  intro b
  unfold T.lift
  cases x
  · show ((0 : Nat) : Int) + 2 * b.length ≤ 2 * b.length + 0; omega
  · show ((0 : Nat) : Int) ≤ 2 * b.length + 0; omega
  · show ((0 : Nat) : Int) ≤ 2 * b.length + 0; omega

theorem lin_takeN (n : Nat) : Lin (take n) (1 - 2 * n) 1 := by
  intro b
  unfold take Ase.take
  by_cases h : n ≤ b.length
  · rw [if_pos h]
    simp only [Within, List.length_drop]
    omega
  · rw [if_neg h]
    simp only [Within]
    omega

theorem lin_take (n : Nat) : Lin (take n) 1 1 := (lin_takeN n).weaken (by omega) (by omega)

theorem lin_tag (t : Bytes) : Lin (tag t) 1 1 := by
  intro b
  unfold tag Ase.tag
  by_cases h : b.take t.length = t
  · rw [if_pos h]
    simp only [Within, List.length_drop]
    omega
  · rw [if_neg h]
    simp only [Within]
    omega

theorem Lin.ite {α : Type} {c : Prop} [Decidable c] {p q : T α} {s₁ d₁ s₂ d₂ : Int} (hp : Lin p s₁ d₁)
    (hq : Lin q s₂ d₂) : Lin (if c then p else q) (max s₁ s₂) (max d₁ d₂) := by
  split
  · exact hp.weaken (by omega) (by omega)
  · exact hq.weaken (by omega) (by omega)

theorem Lin.cond {α : Type} {c : Bool} {p : T α} {s d : Int} (hp : Lin p s d) :
    Lin (cond c p) (max s 0) (max d (max s 0)) := by
  unfold Timed.cond
  cases c
  · exact (lin_pure _).weaken (by omega) (by omega)
  · exact ((hp.bind fun a => lin_pure (some a))).weaken (by omega) (by omega)

/-- A loop whose turns each pay for themselves. -/
theorem Lin.count {α : Type} {p : T α} {d : Int} (hp : Lin p (-1) d) (n : Nat) :
    Lin (count p n) 0 (max (d + 1) 0) := by
  induction n with
  | zero => exact (lin_pure _).weaken (by omega) (by omega)
  | succ n ih =>
    unfold Timed.count
    exact ((lin_tick 1).bind fun _ => hp.bind fun x => ih.bind fun xs => lin_pure _).weaken
      (by omega) (by omega)

/-- Work on a slice that was just taken from the input is paid for by the bytes of the slice. -/
theorem Lin.sized {α : Type} {p : T α} {s d : Int} (hp : Lin p s d) (n : Nat) :
    Lin (take n >>= T.onSlice p) (1 + max s 0) (max 1 (1 + max d s)) := by
  intro b
  show Within _ _ _ (T.bind (take n) (T.onSlice p) b)
  unfold T.bind take Ase.take
  by_cases h : n ≤ b.length
  · rw [if_pos h]
    simp only [T.onSlice]
    have hp := hp (b.take n)
    have hl : ((b.take n).length : Int) = n := by rw [List.length_take]; omega
    have hl' : ((b.drop n).length : Int) = b.length - n := by rw [List.length_drop]; omega
    rcases hq : p (b.take n) with ⟨t, ⟨r, a⟩ | e | k⟩ <;> rw [hq] at hp <;>
      simp only [Within, Int.natCast_add] at hp ⊢ <;> omega
  · rw [if_neg h]
    simp only [Within]
    omega

/-- The same if the result on the slice is kept as a value. -/
theorem Lin.sizedTry {α : Type} {p : T α} {s d : Int} (hp : Lin p s d) (n : Nat) :
    Lin (take n >>= T.tryOn p) (1 + max d s) (max 1 (1 + max d s)) := by
  intro b
  show Within _ _ _ (T.bind (take n) (T.tryOn p) b)
  unfold T.bind take Ase.take
  by_cases h : n ≤ b.length
  · rw [if_pos h]
    simp only [T.tryOn]
    have hp := hp (b.take n)
    have hl : ((b.take n).length : Int) = n := by rw [List.length_take]; omega
    have hl' : ((b.drop n).length : Int) = b.length - n := by rw [List.length_drop]; omega
    rcases hq : p (b.take n) with ⟨t, ⟨r, a⟩ | e | k⟩ <;> rw [hq] at hp <;>
      simp only [Within, Int.natCast_add] at hp ⊢ <;> omega
  · rw [if_neg h]
    simp only [Within]
    omega

/-! ## Scalars -/

theorem lin_leUint (n : Nat) : Lin (leUint n) (1 - 2 * n) 1 := by
  unfold leUint
  exact ((lin_takeN n).bind fun bs => lin_pure _).weaken (by omega) (by omega)

theorem lin_map {α β : Type} {p : T α} {s d : Int} (hp : Lin p s d) (f : α → β) :
    Lin (do pure (f (← p))) s (max d s) :=
  (hp.bind fun a => lin_pure (f a)).weaken (by omega) (by omega)

theorem lin_byte : Lin byte (-1) 1 := (lin_map (lin_leUint 1) _).weaken (by omega) (by omega)
theorem lin_word : Lin word (-3) 1 := (lin_map (lin_leUint 2) _).weaken (by omega) (by omega)
theorem lin_short : Lin short (-3) 1 := (lin_map (lin_leUint 2) _).weaken (by omega) (by omega)
theorem lin_dword : Lin dword (-7) 1 := (lin_map (lin_leUint 4) _).weaken (by omega) (by omega)
theorem lin_long : Lin long (-7) 1 := (lin_map (lin_leUint 4) _).weaken (by omega) (by omega)
theorem lin_leI8 : Lin leI8 (-1) 1 := (lin_map (lin_leUint 1) _).weaken (by omega) (by omega)
theorem lin_leU64 : Lin leU64 (-15) 1 := (lin_map (lin_leUint 8) _).weaken (by omega) (by omega)
theorem lin_leI64 : Lin leI64 (-15) 1 := (lin_map (lin_leUint 8) _).weaken (by omega) (by omega)
theorem lin_parseUuid : Lin parseUuid (-31) 1 := (lin_map (lin_leUint 16) _).weaken (by omega) (by omega)
theorem lin_parseDwordAsUsize : Lin parseDwordAsUsize (-7) 1 :=
  (lin_map lin_dword _).weaken (by omega) (by omega)

/-- known parsers -/
syntax "lin1" : tactic
macro_rules | `(tactic| lin1) => `(tactic| fail)
macro_rules | `(tactic| lin1) => `(tactic| with_reducible exact lin_pure _)
macro_rules | `(tactic| lin1) => `(tactic| with_reducible exact lin_fail _)
macro_rules | `(tactic| lin1) => `(tactic| with_reducible exact lin_panic _)
macro_rules | `(tactic| lin1) => `(tactic| with_reducible exact lin_remaining)
macro_rules | `(tactic| lin1) => `(tactic| with_reducible exact lin_skipRest)
macro_rules | `(tactic| lin1) => `(tactic| with_reducible exact lin_lift _)
macro_rules | `(tactic| lin1) => `(tactic| with_reducible exact lin_take _)
macro_rules | `(tactic| lin1) => `(tactic| with_reducible exact lin_tag _)
macro_rules | `(tactic| lin1) => `(tactic| with_reducible exact lin_byte)
macro_rules | `(tactic| lin1) => `(tactic| with_reducible exact lin_word)
macro_rules | `(tactic| lin1) => `(tactic| with_reducible exact lin_short)
macro_rules | `(tactic| lin1) => `(tactic| with_reducible exact lin_dword)
macro_rules | `(tactic| lin1) => `(tactic| with_reducible exact lin_long)
macro_rules | `(tactic| lin1) => `(tactic| with_reducible exact lin_leI8)
macro_rules | `(tactic| lin1) => `(tactic| with_reducible exact lin_leU64)
macro_rules | `(tactic| lin1) => `(tactic| with_reducible exact lin_leI64)
macro_rules | `(tactic| lin1) => `(tactic| with_reducible exact lin_parseUuid)
macro_rules | `(tactic| lin1) => `(tactic| with_reducible exact lin_parseDwordAsUsize)

/-- put a parser together from its parts -/
macro "lin_parts" : tactic => `(tactic| repeat' first
  | lin1
  | with_reducible apply Lin.cond
  | with_reducible apply Lin.count
  | with_reducible apply Lin.ite
  | with_reducible apply Lin.bind
  | intro _)

/-- a bound of a parser from the bounds of its parts -/
macro "lin" : tactic => `(tactic| (
  apply Lin.weaken
  · lin_parts
  · decide
  · decide))

theorem lin_parsePoint : Lin parsePoint (-14) 1 := by
  unfold parsePoint; lin
macro_rules | `(tactic| lin1) => `(tactic| with_reducible exact lin_parsePoint)

theorem lin_parseSize : Lin parseSize (-14) 1 := by
  unfold parseSize; lin
macro_rules | `(tactic| lin1) => `(tactic| with_reducible exact lin_parseSize)

theorem lin_parseRect : Lin parseRect (-28) 1 := by
  unfold parseRect; lin
macro_rules | `(tactic| lin1) => `(tactic| with_reducible exact lin_parseRect)

theorem lin_dwordSize (f : UInt32 → ParseError) : Lin (dwordSize f) (-7) 1 := by
  unfold dwordSize; lin
macro_rules | `(tactic| lin1) => `(tactic| with_reducible exact lin_dwordSize _)

theorem lin_parseDwordAsU8 (e : ParseError) : Lin (parseDwordAsU8 e) (-7) 1 := by
  unfold parseDwordAsU8; lin
macro_rules | `(tactic| lin1) => `(tactic| with_reducible exact lin_parseDwordAsU8 _)

/-- a text: the validation is paid for by its bytes -/
theorem lin_parseString : Lin parseString (-2) 1 := by
  unfold parseString
  have h : ∀ n : Nat, Lin (do
      let bs ← take n
      T.tick bs.length
      match utf8Decode bs with
        | some cs => pure (String.ofList cs)
        | none => T.fail (.error (.utf8Error (utf8Fault 0 bs).1 (utf8Fault 0 bs).2)) : T String) 1 1 := by
    intro n b
    show Within _ _ _ (T.bind (take n) (fun bs => T.bind (T.tick bs.length) fun _ =>
      match utf8Decode bs with
        | some cs => pure (String.ofList cs)
        | none => T.fail (.error (.utf8Error (utf8Fault 0 bs).1 (utf8Fault 0 bs).2))) b)
    unfold T.bind take Ase.take T.tick
    by_cases h : n ≤ b.length
    · rw [if_pos h]
      simp only [List.length_take, Nat.min_eq_left h]
      cases utf8Decode (b.take n) with
      | none =>
        show ((1 + (n + 0) : Nat) : Int) ≤ 2 * b.length + 1
        omega
      | some cs =>
        show ((1 + (n + 0) : Nat) : Int) + 2 * (b.drop n).length ≤ 2 * b.length + 1
        rw [List.length_drop]
        omega
    · rw [if_neg h]
      simp only [Within]
      omega
  exact (lin_word.bind fun n => h n.toNat).weaken (by omega) (by omega)
macro_rules | `(tactic| lin1) => `(tactic| with_reducible exact lin_parseString)

theorem lin_fixed : Lin fixed (-6) 1 := by
  unfold fixed; lin
macro_rules | `(tactic| lin1) => `(tactic| with_reducible exact lin_fixed)

theorem lin_parseColor : Lin parseColor (-4) 1 := by
  unfold parseColor; lin
macro_rules | `(tactic| lin1) => `(tactic| with_reducible exact lin_parseColor)

theorem lin_parseRgb : Lin parseRgb (-1) 1 := by
  unfold parseRgb; lin
macro_rules | `(tactic| lin1) => `(tactic| with_reducible exact lin_parseRgb)

/-! ## User data -/

/-- an element of a vector pays for its turn -/
theorem Lin.elems {α : Type} {p : T α} {s d : Int} (hp : Lin p s d) (n : Nat) (hs : s ≤ -1) (hd : d ≤ 2) :
    Lin (Timed.count p n) 0 3 :=
  ((hp.weaken hs (Int.le_refl d)).count n).weaken (by omega) (by omega)

theorem lin_properties (n : Nat) :
    Lin (parseValue n) (-1) 2 ∧ Lin (parseVector n) (-1) 2 ∧ Lin (parsePropertiesMap n) (-1) 2 ∧
    Lin (parseProperty n) (-1) 2 := by
  induction n with
  | zero =>
    refine ⟨?_, ?_, ?_, ?_⟩
    · rw [parseValue]; lin
    · rw [parseVector]; lin
    · rw [parsePropertiesMap]; lin
    · rw [parseProperty]; lin
  | succ n ih =>
    obtain ⟨h1, h2, h3, h4⟩ := ih
    refine ⟨?_, ?_, ?_, ?_⟩
    · rw [parseValue]
      refine (lin_word.bind (s₂ := 0) (d₂ := 2) fun code => ?_).weaken (by omega) (by omega)
      cases PropertyType.fromRepr code.toNat with
      | none => exact (lin_fail _).weaken (by omega) (by omega)
      | some t =>
        cases t <;> simp only <;> first
          | lin
          | exact (h2.bind fun _ => lin_pure _).weaken (by omega) (by omega)
          | exact (h3.bind fun _ => lin_pure _).weaken (by omega) (by omega)
    · rw [parseVector]
      refine (lin_parseDwordAsUsize.bind (s₂ := 0) (d₂ := 3) fun m => ?_).weaken (by omega) (by omega)
      refine (lin_word.bind (s₂ := 0) (d₂ := 3) fun code => ?_).weaken (by omega) (by omega)
      refine Lin.weaken (Lin.ite (s₁ := 0) (d₁ := 3) (s₂ := 0) (d₂ := 3) ?_ ?_) (by omega) (by omega)
      · exact ((h1.elems m (by omega) (by omega)).bind fun _ => lin_pure _).weaken (by omega) (by omega)
      · cases PropertyType.fromRepr code.toNat with
        | none => exact (lin_fail _).weaken (by omega) (by omega)
        | some t =>
          have key : ∀ {α β : Type} {p : T α} {s d : Int} (_ : Lin p s d) (_ : s ≤ -1) (_ : d ≤ 2)
              (f : List α → β), Lin (do pure (f (← Timed.count p m))) 0 3 := fun hp hs hd f =>
            ((hp.elems m hs hd).bind fun _ => lin_pure _).weaken (by omega) (by omega)
          cases t
          · exact key (lin_map lin_byte _) (by omega) (by omega) _
          · exact key lin_leI8 (by omega) (by omega) _
          · exact key lin_byte (by omega) (by omega) _
          · exact key lin_short (by omega) (by omega) _
          · exact key lin_word (by omega) (by omega) _
          · exact key lin_long (by omega) (by omega) _
          · exact key lin_dword (by omega) (by omega) _
          · exact key lin_leI64 (by omega) (by omega) _
          · exact key lin_leU64 (by omega) (by omega) _
          · exact key lin_fixed (by omega) (by omega) _
          · exact key lin_dword (by omega) (by omega) _
          · exact key lin_leU64 (by omega) (by omega) _
          · exact key lin_parseString (by omega) (by omega) _
          · exact key lin_parsePoint (by omega) (by omega) _
          · exact key lin_parseSize (by omega) (by omega) _
          · exact key lin_parseRect (by omega) (by omega) _
          · exact key h2 (by omega) (by omega) _
          · exact key h3 (by omega) (by omega) _
          · exact key lin_parseUuid (by omega) (by omega) _
    · rw [parsePropertiesMap]
      exact (lin_dword.bind fun _ => lin_parseDwordAsUsize.bind fun m =>
        (h4.elems m (by omega) (by omega)).bind fun _ => lin_pure _).weaken (by omega) (by omega)
    · rw [parseProperty]
      exact (lin_parseString.bind fun _ => h1.bind fun _ => lin_pure _).weaken (by omega) (by omega)

theorem lin_parsePropertiesMaps (plat : Plat) : Lin (parsePropertiesMaps plat) 0 4 := by
  unfold parsePropertiesMaps
  exact (lin_parseDwordAsUsize.bind fun _ => lin_parseDwordAsUsize.bind fun m =>
    (lin_lift _).bind fun n =>
      Lin.sizedTry ((lin_properties plat.stack).2.2.1.elems m (by omega) (by omega)) n).weaken
    (by omega) (by omega)
macro_rules | `(tactic| lin1) => `(tactic| with_reducible exact lin_parsePropertiesMaps _)

theorem lin_parseUserDataChunk (plat : Plat) : Lin (parseUserDataChunk plat) (0) 4 := by
  unfold parseUserDataChunk; lin
macro_rules | `(tactic| lin1) => `(tactic| with_reducible exact lin_parseUserDataChunk _)

/-! ## Header and chunks -/

theorem lin_parseColorDepth : Lin parseColorDepth (-3) 1 := by
  unfold parseColorDepth; lin
macro_rules | `(tactic| lin1) => `(tactic| with_reducible exact lin_parseColorDepth)

theorem lin_parseHeaderFields : Lin parseHeaderFields (0) 1 := by
  unfold parseHeaderFields; lin
macro_rules | `(tactic| lin1) => `(tactic| with_reducible exact lin_parseHeaderFields)

theorem lin_parseHeader : Lin parseHeader 1 2 := by
  unfold parseHeader
  exact (lin_parseHeaderFields.sized 128).weaken (by omega) (by omega)

theorem lin_parsePacket : Lin parsePacket (-1) 2 := by
  unfold parsePacket; lin
macro_rules | `(tactic| lin1) => `(tactic| with_reducible exact lin_parsePacket)

theorem lin_parseOldPaletteChunk : Lin parseOldPaletteChunk (0) 3 := by
  unfold parseOldPaletteChunk; lin
macro_rules | `(tactic| lin1) => `(tactic| with_reducible exact lin_parseOldPaletteChunk)

theorem lin_parseLayerChunk : Lin parseLayerChunk (0) 2 := by
  unfold parseLayerChunk; lin
macro_rules | `(tactic| lin1) => `(tactic| with_reducible exact lin_parseLayerChunk)

theorem lin_parseCelContent (t : CelType) : Lin (parseCelContent t) 1 1 := by
  cases t <;> unfold parseCelContent <;> lin
macro_rules | `(tactic| lin1) => `(tactic| with_reducible exact lin_parseCelContent _)

theorem lin_parseCelChunk : Lin parseCelChunk (0) 2 := by
  unfold parseCelChunk; lin
macro_rules | `(tactic| lin1) => `(tactic| with_reducible exact lin_parseCelChunk)

theorem lin_parseCelExtraChunk : Lin parseCelExtraChunk (0) 2 := by
  unfold parseCelExtraChunk; lin
macro_rules | `(tactic| lin1) => `(tactic| with_reducible exact lin_parseCelExtraChunk)

theorem lin_parseColorProfileBody (t : ColorProfileType) : Lin (parseColorProfileBody t) 0 1 := by
  cases t <;> unfold parseColorProfileBody <;> lin
macro_rules | `(tactic| lin1) => `(tactic| with_reducible exact lin_parseColorProfileBody _)

theorem lin_parseColorProfile : Lin parseColorProfile (0) 2 := by
  unfold parseColorProfile; lin
macro_rules | `(tactic| lin1) => `(tactic| with_reducible exact lin_parseColorProfile)

theorem lin_parseExternalFile : Lin parseExternalFile (-1) 2 := by
  unfold parseExternalFile; lin
macro_rules | `(tactic| lin1) => `(tactic| with_reducible exact lin_parseExternalFile)

theorem lin_parseExternalFilesChunk : Lin parseExternalFilesChunk (0) 3 := by
  unfold parseExternalFilesChunk; lin
macro_rules | `(tactic| lin1) => `(tactic| with_reducible exact lin_parseExternalFilesChunk)

theorem lin_parseMaskChunk : Lin parseMaskChunk (0) 3 := by
  unfold parseMaskChunk; lin
macro_rules | `(tactic| lin1) => `(tactic| with_reducible exact lin_parseMaskChunk)

theorem lin_color3 (bs : Bytes) : Lin (color3 bs) 0 0 := by
  rcases bs with _ | ⟨c0, _ | ⟨c1, _ | ⟨c2, t⟩⟩⟩ <;> unfold color3 <;> lin
macro_rules | `(tactic| lin1) => `(tactic| with_reducible exact lin_color3 _)

theorem lin_parseTag : Lin parseTag (-1) 2 := by
  unfold parseTag; lin
macro_rules | `(tactic| lin1) => `(tactic| with_reducible exact lin_parseTag)

theorem lin_parseTagsChunk : Lin parseTagsChunk (0) 3 := by
  unfold parseTagsChunk; lin
macro_rules | `(tactic| lin1) => `(tactic| with_reducible exact lin_parseTagsChunk)

theorem lin_parsePaletteEntry : Lin parsePaletteEntry (-1) 2 := by
  unfold parsePaletteEntry; lin
macro_rules | `(tactic| lin1) => `(tactic| with_reducible exact lin_parsePaletteEntry)

theorem lin_parsePaletteChunk : Lin parsePaletteChunk (0) 3 := by
  unfold parsePaletteChunk; lin
macro_rules | `(tactic| lin1) => `(tactic| with_reducible exact lin_parsePaletteChunk)

theorem lin_parseNinePatch : Lin parseNinePatch (-1) 2 := by
  unfold parseNinePatch; lin
macro_rules | `(tactic| lin1) => `(tactic| with_reducible exact lin_parseNinePatch)

theorem lin_parsePivot : Lin parsePivot (-1) 2 := by
  unfold parsePivot; lin
macro_rules | `(tactic| lin1) => `(tactic| with_reducible exact lin_parsePivot)

theorem lin_parseSliceKey (f : SliceFlags) : Lin (parseSliceKey f) (-1) 2 := by
  unfold parseSliceKey; lin
macro_rules | `(tactic| lin1) => `(tactic| with_reducible exact lin_parseSliceKey _)

theorem lin_parseSliceChunk : Lin parseSliceChunk (0) 3 := by
  unfold parseSliceChunk; lin
macro_rules | `(tactic| lin1) => `(tactic| with_reducible exact lin_parseSliceChunk)

theorem lin_parseTilesetExternalFile : Lin parseTilesetExternalFile (-1) 2 := by
  unfold parseTilesetExternalFile; lin
macro_rules | `(tactic| lin1) => `(tactic| with_reducible exact lin_parseTilesetExternalFile)

theorem lin_parseTiles : Lin parseTiles (-1) 2 := by
  unfold parseTiles; lin
macro_rules | `(tactic| lin1) => `(tactic| with_reducible exact lin_parseTiles)

theorem lin_parseTilesetChunk : Lin parseTilesetChunk (0) 3 := by
  unfold parseTilesetChunk; lin
macro_rules | `(tactic| lin1) => `(tactic| with_reducible exact lin_parseTilesetChunk)

/-! ## Files -/

theorem lin_parseChunkType : Lin parseChunkType (-3) 1 := by
  unfold parseChunkType
  refine (lin_word.bind (s₂ := 0) (d₂ := 0) fun n => ?_).weaken (by omega) (by omega)
  cases ChunkType.fromRepr n.toNat <;> exact lin_pure _

theorem lin_parseChunkBody (plat : Plat) (t : Except UInt16 ChunkType) : Lin (parseChunkBody plat t) 0 4 := by
  rcases t with c | t
  · unfold parseChunkBody; lin
  · cases t <;> unfold parseChunkBody <;> lin

/-- a chunk pays for its turn in the loop -/
theorem lin_parseChunk (plat : Plat) : Lin (parseChunk plat) (-1) 2 := by
  unfold parseChunk
  exact ((lin_dwordSize _).bind fun n =>
    (lin_parseChunkType.bind fun t => lin_parseChunkBody plat t).sized _).weaken (by omega) (by omega)

theorem lin_parseChunks (plat : Plat) (n : Nat) : Lin (parseChunks plat n) 0 3 :=
  (lin_parseChunk plat).elems n (by omega) (by omega)
macro_rules | `(tactic| lin1) => `(tactic| with_reducible exact lin_parseChunks _ _)

theorem lin_parseRawframeBody (plat : Plat) : Lin (parseRawframeBody plat) 0 3 := by
  unfold parseRawframeBody; lin

theorem lin_parseRawframe (plat : Plat) : Lin (parseRawframe plat) (-1) 1 := by
  unfold parseRawframe
  exact ((lin_dwordSize _).bind fun n => (lin_parseRawframeBody plat).sized _).weaken (by omega) (by omega)

/-- the steps of the loop over the frames: the last, failing turn reads what the others left -/
theorem many1Loop_steps {α : Type} {p : T α} {d : Int} (hp : Lin p (-1) d) (b : Bytes) :
    ((many1Loop p b).1 : Int) ≤ 2 * b.length + d + 1 := by
  induction h : b.length using Nat.strongRecOn generalizing b with
  | ind n ih =>
    rw [many1Loop]
    have hpb := hp b
    rcases hq : p b with ⟨t, ⟨r, a⟩ | e | k⟩ <;> rw [hq] at hpb <;> simp only [Within] at hpb ⊢
    · by_cases hr : r.length < b.length
      · rw [dif_pos hr]
        have := ih r.length (h ▸ hr) r rfl
        rcases hm : many1Loop p r with ⟨t', ⟨r', xs⟩ | e | k⟩ <;> rw [hm] at this <;>
          simp only [Int.natCast_add] at this ⊢ <;> omega
      · rw [dif_neg hr]
        simp only [Int.natCast_add]
        omega
    · cases e <;> simp only [Int.natCast_add] <;> omega
    · simp only [Int.natCast_add]; omega

theorem parseFrames_steps (plat : Plat) (b : Bytes) :
    ((parseFrames plat b).1 : Int) ≤ 2 * b.length + 1 := by
  have h1 : (parseFrames plat b).1 = (many1 (parseRawframe plat) b).1 := by
    unfold parseFrames allConsuming
    rcases many1 (parseRawframe plat) b with ⟨t, ⟨_ | ⟨x, r⟩, a⟩ | e | k⟩ <;> rfl
  rw [h1]
  have h2 := lin_parseRawframe plat b
  show ((T.bind (parseRawframe plat) (fun x => T.bind (many1Loop (parseRawframe plat))
    fun xs => pure (x :: xs)) b).1 : Int) ≤ _
  unfold T.bind
  rcases hq : parseRawframe plat b with ⟨t, ⟨r, a⟩ | e | k⟩ <;> rw [hq] at h2 <;> simp only [Within] at h2 ⊢
  · have h3 := many1Loop_steps (lin_parseRawframe plat) r
    rcases hm : many1Loop (parseRawframe plat) r with ⟨t', ⟨r', xs⟩ | e | k⟩ <;> rw [hm] at h3 <;>
      simp only at h3 ⊢
    · show ((t + (t' + 0) : Nat) : Int) ≤ _
      omega
    · omega
    · omega
  · omega
  · omega

/-- Reading a file, whatever it contains, takes at most two steps per byte and two more. -/
theorem parseRawFile_steps (plat : Plat) (b : Bytes) : (parseRawFile plat b).1 ≤ 2 * b.length + 2 := by
  unfold parseRawFile
  have h1 := lin_parseHeader b
  rcases hq : parseHeader b with ⟨t, ⟨r, a⟩ | e | k⟩ <;> rw [hq] at h1 <;> simp only [Within] at h1 ⊢
  · have h2 := parseFrames_steps plat r
    rcases hm : parseFrames plat r with ⟨t', ⟨r', xs⟩ | e | k⟩ <;> rw [hm] at h2 <;>
      simp only at h2 ⊢ <;> omega
  · omega
  · omega

end Ase.Timed
