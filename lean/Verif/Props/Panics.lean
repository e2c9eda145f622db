import Verif.Props.File
import Verif.Props.Framing
import Verif.Lemmas.Panics

/-!
# C04, C23, C55: when does the parser panic?

`parse_file` can panic (three independent ways, each with a concrete input below); this file proves that these are the
only ones and exactly when they can happen.
-/

namespace Ase

open Spec

/-! ## What every panic looks like -/

theorem many1Loop_panic {α : Type} {p : P α} {b : Bytes} {k : Panic} (h : many1Loop p b = .panic k) :
    ∃ b', p b' = .panic k := by
  induction hn : b.length using Nat.strongRecOn generalizing b with
  | _ n ih =>
  subst hn
  rw [many1Loop_eq] at h
  split at h
  · next r x _ =>
    split at h
    · next hl =>
      split at h
      · cases h
      · cases h
      · next k' hk => cases h; exact ih _ hl hk rfl
    · cases h
  · cases h
  · cases h
  · next k' hk => cases h; exact ⟨b, hk⟩

theorem parseRawFile_panic {plat : Plat} {b : Bytes} {k : Panic} (h : parseRawFile plat b = .panic k) :
    ∃ b', parseRawframe plat b' = .panic k := by
  have outcome_bind_panic : ∀ {α β : Type} {x : Outcome NomErr α} {f : α → Outcome NomErr β},
      (x >>= f) = .panic k → x = .panic k ∨ ∃ a, x = .ok a ∧ f a = .panic k := by
    intro α β x f h
    cases x with
    | ok a => exact .inr ⟨a, rfl, h⟩
    | err => cases h
    | panic => cases h; exact .inl rfl
  unfold parseRawFile at h
  rcases outcome_bind_panic h with h | ⟨⟨r, hd⟩, _, h⟩
  · exact absurd h (NoPanic.parseHeader _ _)
  · rcases outcome_bind_panic h with h | ⟨_, _, h⟩
    · unfold parseFrames allConsuming at h
      split at h
      · cases h
      · cases h
      · cases h
      · next k' hk =>
        cases h
        rcases P.bind_panic.1 hk with hk | ⟨x, r', _, hk⟩
        · exact ⟨_, hk⟩
        · rcases P.bind_panic.1 hk with hk | ⟨_, _, _, hk⟩
          · exact many1Loop_panic hk
          · cases hk
    · cases h

/-- **C04 (partial).** If `parse_file` panics, then it is one of these three cases:
* an arithmetic overflow, in a debug build only (see `C04_overflow_panics`),
* the stack is exhausted, and the input has at least two bytes for every level of recursion the stack can hold (so a
  stack for 2³¹ levels is always enough) (see `C04_stack_overflow`),
* an index is out of bounds, because some cel's layer index equals the number of layers (see
  `C04_index_panics`).

*Missing:* the property itself, that there is no panic at all. It is false. -/
theorem C04_panics_partial (plat : Plat) (b : Bytes) (k : Panic) (h : parseFile plat b = .panic k) :
    (k = .overflow ∧ plat.debug = true) ∨
    (k = .stackOverflow ∧ 2 * plat.stack ≤ b.length ∧ plat.stack < 2 ^ 31) ∨
    (k = .indexOutOfBounds ∧ ∃ raw, parseRawFile plat b = .ok raw ∧
      ∃ c ∈ allCels raw.frames, c.layerIndex.toNat = (allLayers raw.frames).length) := by
  cases hr : parseRawFile plat b with
  | err e =>
    unfold parseFile at h
    rw [hr] at h
    cases h
  | panic k' =>
    unfold parseFile at h
    rw [hr] at h
    cases h
    rcases tame_parseRawFile plat b k hr with h | h
    · exact .inl h
    · refine .inr (.inl ⟨h.1, h.2, ?_⟩)
      obtain ⟨b', hb'⟩ := parseRawFile_panic hr
      obtain ⟨l, r, hl, _, hk⟩ := sized_panic hb'
      rcases tame_parseRawframeBody plat l k hk with h' | h'
      · rw [h.1] at h'; cases h'.1
      · omega
  | ok raw =>
    rw [parseFile_eq hr, assembleFile_eq raw (fresh hr)] at h
    cases hp : filePalette raw with
    | err e => rw [hp] at h; cases h
    | panic k' => exact absurd hp (filePalette_panic raw k')
    | ok p =>
      rw [hp] at h
      simp only [Outcome.bind] at h
      cases hb : badCel (allLayers raw.frames).length (allCels raw.frames) with
      | none => rw [hb] at h; cases h
      | some c =>
        rw [hb] at h
        simp only [rejectCel] at h
        split at h
        · cases h
        · next hlt =>
          cases h
          have h1 := List.find?_some hb
          have h2 := List.mem_of_find?_eq_some hb
          refine .inr (.inr ⟨rfl, raw, rfl, c, h2, ?_⟩)
          simp at h1
          omega

/-! ## The three panics happen -/

theorem isFile_of_no_userData {U U' : UserDataChunk → Bytes → Prop} {f : RawFile} {b : Bytes}
    (h : IsFile U f b) (hn : ∀ fr ∈ f.frames, ∀ c ∈ fr.chunks, isUserData c = false) : IsFile U' f b := by
  have hseq : ∀ {α : Type} {G G' : α → Bytes → Prop} {xs : List α} {l : Bytes}, Seq G xs l →
      (∀ x ∈ xs, ∀ l, G x l → G' x l) → Seq G' xs l := by
    intro α G G' xs l h hx
    induction h with
    | nil => exact .nil
    | cons h1 _ ih =>
      exact .cons (hx _ List.mem_cons_self _ h1) (ih fun x hm => hx x (List.mem_cons_of_mem _ hm))
  obtain ⟨hb, fb, hh, hne, hs, rfl⟩ := h
  refine ⟨hb, fb, hh, hne, hseq hs ?_, rfl⟩
  rintro fr hfr l ⟨old, new, res, cs, extra, h1, h2, h3, h4, rfl⟩
  refine ⟨old, new, res, cs, extra, h1, h2, hseq h3 ?_, h4, rfl⟩
  rintro c hc l ⟨code, body, hl, hcont, rfl⟩
  refine ⟨code, body, hl, ?_, rfl⟩
  have := hn fr hfr c hc
  cases c with
  | userData => cases this
  | _ => exact hcont

/-- A file with a cel but no layer. -/
def Sample.celWithoutLayer : Bytes := Sample.header 1 1 32 ++ Sample.frame 100 [Sample.cel 0 0 0 1 1 [9, 8, 7, 6]]

/-- **C04, C23, counterexample 1.** A file of 164 bytes with one cel on layer 0 and no layer chunk makes `parse_file`
panic with an index out of bounds, in every build and with every stack: line 107 of `file.rs` tests
`layer_index > layers.len()` instead of `>=`. -/
theorem C04_index_panics (plat : Plat) : parseFile plat Sample.celWithoutLayer = .panic .indexOutOfBounds := by
  have h : (match parseRawFile ⟨true, 0⟩ Sample.celWithoutLayer with
      | .ok raw => raw.frames.all (fun f => f.chunks.all fun c => !isUserData c) &&
          (match assembleFile raw with | .panic .indexOutOfBounds => true | _ => false)
      | _ => false) = true := by decide +kernel
  cases hr : parseRawFile ⟨true, 0⟩ Sample.celWithoutLayer with
  | err => rw [hr] at h; cases h
  | panic => rw [hr] at h; cases h
  | ok raw =>
    rw [hr] at h
    simp only [Bool.and_eq_true, List.all_eq_true, Bool.not_eq_true'] at h
    have := parseRawFile_ok.2 (isFile_of_no_userData (U' := readsUserData plat) (parseRawFile_ok.1 hr) h.1)
    rw [parseFile_eq this]
    have h2 := h.2
    split at h2
    · next h3 => exact h3
    · cases h2

/-- **C23, counterexample.** So a cel whose layer index equals the number of layers is not reported as
`LayerIndexOutOfBounds`. -/
theorem C23_index_equal_to_layer_count_panics :
    ¬ ∀ (plat : Plat) (b : Bytes) (raw : RawFile), parseRawFile plat b = .ok raw →
      (∃ c ∈ allCels raw.frames, (allLayers raw.frames).length ≤ c.layerIndex.toNat) →
      ∃ e, parseFile plat b = .err e := by
  intro h
  have hp := C04_index_panics ⟨true, 0⟩
  rcases C04_panics_partial _ _ _ hp with ⟨hk, _⟩ | ⟨hk, _⟩ | ⟨_, raw, hraw, c, hc, he⟩
  · cases hk
  · cases hk
  · obtain ⟨e, he⟩ := h _ _ raw hraw ⟨c, hc, by omega⟩
    rw [hp] at he
    cases he

/-- The bytes of a file with one frame with one user data chunk with the given body. -/
def Sample.userDataFile (body : Bytes) : Bytes :=
  Sample.header 1 1 32 ++ [] ++ (leNat32 (22 + 0 + body.length + 0) ++ [0xFA, 0xF1] ++ le16 0 ++ le16 100 ++ [0, 0] ++ le32 1
    ++ [] ++ (leNat32 (6 + body.length) ++ le16 0x2020 ++ body) ++ []) ++ []

theorem sampleHeader_isHeader : ∃ h, IsHeader h (Sample.header 1 1 32) := by
  have h : (match parseHeader (Sample.header 1 1 32) with | .ok ([], _) => true | _ => false) = true := by decide +kernel
  split at h
  · next v hv =>
    obtain ⟨l, hl, e⟩ := (parses_header _ _ _).1 hv
    rw [List.append_nil] at e
    exact ⟨_, e ▸ hl⟩
  · cases h

theorem userDataFile_stops {plat : Plat} {body : Bytes} (hl : 22 + body.length < 2 ^ 32) {s : Stop}
    (h : parseUserDataChunk plat body = s.out) : parseFile plat (Sample.userDataFile body) = s.out := by
  obtain ⟨hd, hh⟩ := sampleHeader_isHeader
  have hs : parseChunkBody plat (typeOf 0x2020) body = s.out := by
    have : typeOf 0x2020 = .ok .userData := rfl
    rw [this]
    exact Stop.bind h
  unfold parseFile
  have := Stop.file (plat := plat) hh (fs := []) .nil (cs := []) .nil (old := 0) (duration := 100) (new := 1)
    (by decide) hs (reserved := [0, 0]) (extra := []) (rest := []) rfl (by simpa using hl)
  unfold Sample.userDataFile
  simp only [List.length_nil] at this
  rw [this]
  cases s <;> rfl

/-- **C04, counterexample 2.** A user data chunk with properties whose declared size is below 8 makes `parse_file` panic
with an arithmetic overflow in debug builds, whatever the stack size. -/
theorem C04_overflow_panics (stack : Nat) (size count : Nat) (hs : size < 8) (hc : count < 2 ^ 32) :
    parseFile ⟨true, stack⟩ (Sample.userDataFile (le32 4 ++ leNat32 size ++ leNat32 count)) = .panic .overflow := by
  refine userDataFile_stops (s := .panic .overflow) (by simp) ?_
  unfold parseUserDataChunk
  rw [List.append_assoc, P.bind_of_ok (dword_ok.2 rfl)]
  have h1 : (UserDataFlags.fromBitsTruncate 4).contains UserDataFlags.HAS_TEXT = false := by decide +kernel
  have h2 : (UserDataFlags.fromBitsTruncate 4).contains UserDataFlags.HAS_COLOR = false := by decide +kernel
  have h3 : (UserDataFlags.fromBitsTruncate 4).contains UserDataFlags.HAS_PROPERTIES = true := by decide +kernel
  rw [h1, h2, h3]
  have hno : ∀ {α : Type} (p : P α) (b : Bytes), cond false p b = .ok (b, none) := fun _ _ => rfl
  rw [P.bind_of_ok (hno _ _), P.bind_of_ok (hno _ _)]
  refine Stop.bind ?_
  show (parsePropertiesMaps _ >>= _) _ = _
  refine Stop.bind ?_
  unfold parsePropertiesMaps
  rw [P.bind_of_ok (parseDwordAsUsize_ok.2 ⟨by omega, rfl⟩),
    P.bind_of_ok (parseDwordAsUsize_ok.2 ⟨hc, (List.append_nil _).symm⟩)]
  refine Stop.bind ?_
  unfold usizeSub8
  rw [if_neg (by omega)]
  rfl

/-! ## C55 -/

/-- `d` nested vectors. -/
def Sample.nest : Nat → Bytes
  | 0 => []
  | d + 1 => leNat32 1 ++ (le16 0x11 ++ Sample.nest d)

theorem nest_length (d : Nat) : (Sample.nest d).length = 6 * d := by
  induction d with
  | zero => rfl
  | succ d ih => simp [Sample.nest, ih]; omega

theorem parseVector_nest (d : Nat) : parseVector d (Sample.nest d) = .panic .stackOverflow := by
  induction d with
  | zero => simp only [parseVector]; rfl
  | succ d ih =>
    simp only [parseVector, Sample.nest]
    rw [P.bind_of_ok (parseDwordAsUsize_ok.2 ⟨by decide, rfl⟩), P.bind_of_ok (word_ok.2 rfl)]
    have h0 : ¬ (0x11 : UInt16) = 0 := by decide
    rw [if_neg h0]
    have : PropertyType.fromRepr (0x11 : UInt16).toNat = some .vector := by decide +kernel
    rw [this]
    refine Stop.bind (s := .panic .stackOverflow) ?_
    exact Stop.bind (s := .panic .stackOverflow) ih

/-- A property map with one property with the empty name whose value is `d` nested vectors. -/
def Sample.nestedMap (d : Nat) : Bytes := le32 0 ++ (leNat32 1 ++ (leNat16 0 ++ (le16 0x11 ++ Sample.nest d)))

theorem parsePropertiesMap_nested (s : Nat) : parsePropertiesMap s (Sample.nestedMap (s - 3)) = .panic .stackOverflow := by
  match s with
  | 0 => simp only [parsePropertiesMap]; rfl
  | s + 1 =>
    simp only [parsePropertiesMap, Sample.nestedMap]
    rw [P.bind_of_ok (dword_ok.2 rfl), P.bind_of_ok (parseDwordAsUsize_ok.2 ⟨by decide, rfl⟩)]
    refine Stop.bind (s := .panic .stackOverflow) ?_
    refine Stop.bind (s := .panic .stackOverflow) ?_
    match s with
    | 0 => simp only [parseProperty]; rfl
    | s + 1 =>
      simp only [parseProperty]
      have : ∀ r, parseString (leNat16 0 ++ r) = .ok (r, "") := by
        intro r
        refine parseString_ok.2 ⟨by unfold FitsStr; decide +kernel, ?_⟩
        have : str "" = leNat16 0 := by decide +kernel
        rw [this]
      rw [P.bind_of_ok (this _)]
      refine Stop.bind (s := .panic .stackOverflow) ?_
      match s with
      | 0 => simp only [parseValue]; rfl
      | s + 1 =>
        simp only [parseValue]
        rw [P.bind_of_ok (word_ok.2 rfl)]
        have : PropertyType.fromRepr (0x11 : UInt16).toNat = some .vector := by decide +kernel
        rw [this]
        refine Stop.bind (s := .panic .stackOverflow) ?_
        exact parseVector_nest s

/-- **C55, counterexample (and C04, counterexample 3).** There is no bound on the stack the parser needs: whatever
number of nested calls the stack can hold (up to 700 million, which is all a 4 GiB chunk can ask for), there is a file
with a user data chunk with nested vectors that exhausts it, in every build. The file has `6·stack + 192` bytes at most. -/
theorem C55_unbounded_recursion (plat : Plat) (hs : plat.stack ≤ 700000000) :
    ∃ b : Bytes, b.length ≤ 6 * plat.stack + 192 ∧ parseFile plat b = .panic .stackOverflow := by
  have hlen : (Sample.nestedMap (plat.stack - 3)).length = 12 + 6 * (plat.stack - 3) := by
    simp [Sample.nestedMap, nest_length, leNat16]
    omega
  refine ⟨Sample.userDataFile (le32 4 ++ (leNat32 (8 + (Sample.nestedMap (plat.stack - 3)).length) ++
    (leNat32 1 ++ Sample.nestedMap (plat.stack - 3)))), ?_, ?_⟩
  · have : (Sample.header 1 1 32).length = 128 := by decide +kernel
    simp [Sample.userDataFile, this, hlen]
    omega
  · refine userDataFile_stops (s := .panic .stackOverflow) (by simp [hlen]; omega) ?_
    unfold parseUserDataChunk
    rw [P.bind_of_ok (dword_ok.2 rfl)]
    have h1 : (UserDataFlags.fromBitsTruncate 4).contains UserDataFlags.HAS_TEXT = false := by decide +kernel
    have h2 : (UserDataFlags.fromBitsTruncate 4).contains UserDataFlags.HAS_COLOR = false := by decide +kernel
    have h3 : (UserDataFlags.fromBitsTruncate 4).contains UserDataFlags.HAS_PROPERTIES = true := by decide +kernel
    rw [h1, h2, h3]
    have hno : ∀ {α : Type} (p : P α) (b : Bytes), cond false p b = .ok (b, none) := fun _ _ => rfl
    rw [P.bind_of_ok (hno _ _), P.bind_of_ok (hno _ _)]
    refine Stop.bind ?_
    show (parsePropertiesMaps _ >>= _) _ = _
    refine Stop.bind ?_
    unfold parsePropertiesMaps
    have hsub : ∀ b : Bytes, (usizeSub8 plat (8 + (Sample.nestedMap (plat.stack - 3)).length)).bind
        (fun n => (Outcome.ok (b, n) : Outcome NomErr _)) = .ok (b, (Sample.nestedMap (plat.stack - 3)).length) := by
      intro b
      unfold usizeSub8
      rw [if_pos (by omega)]
      simp [Outcome.bind]
    rw [P.bind_of_ok (parseDwordAsUsize_ok.2 ⟨by omega, rfl⟩), P.bind_of_ok (parseDwordAsUsize_ok.2 ⟨by decide, rfl⟩)]
    refine Eq.trans (P.bind_of_ok (hsub _)) ?_
    refine Eq.trans (P.bind_of_ok (take_ok.2 ⟨rfl, (List.append_nil _).symm⟩)) ?_
    have : count (parsePropertiesMap plat.stack) 1 (Sample.nestedMap (plat.stack - 3)) = .panic .stackOverflow :=
      Stop.bind (s := .panic .stackOverflow) (parsePropertiesMap_nested plat.stack)
    simp only [this]
    rfl

/-- **C55 (partial).** The stack is exhausted only by inputs with at least two bytes per level of recursion, and never
if it can hold 2³¹ levels. *Missing:* a bound independent of the input; there is none, see `C55_unbounded_recursion`. -/
theorem C55_recursion_partial (plat : Plat) (b : Bytes) (h : parseFile plat b = .panic .stackOverflow) :
    2 * plat.stack ≤ b.length ∧ plat.stack < 2 ^ 31 := by
  rcases C04_panics_partial _ _ _ h with ⟨hk, _⟩ | ⟨_, h⟩ | ⟨hk, _⟩
  · cases hk
  · exact h
  · cases hk

/-- **C04, counterexample 3.** -/
theorem C04_stack_overflow : ∀ debug, ∀ stack ≤ 700000000, ∃ b, parseFile ⟨debug, stack⟩ b = .panic .stackOverflow := by
  intro debug stack h
  obtain ⟨b, _, hb⟩ := C55_unbounded_recursion ⟨debug, stack⟩ h
  exact ⟨b, hb⟩

end Ase
