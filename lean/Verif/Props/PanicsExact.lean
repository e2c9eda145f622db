import Verif.Lemmas.PanicsExact
import Verif.Props.Profile
import Verif.Props.Load

/-!
# C04, C55: the exact conditions of the panics of the parser

`Props/Panics.lean` shows which panics there are.  Here: for every input, build and stack, exactly when they happen.
-/

namespace Ase

open Spec

theorem assembleFile_panic {raw : RawFile} (h : FreshFrames raw.frames) {k : Panic} : assembleFile raw = .panic k ↔
    k = .indexOutOfBounds ∧ (raw.header.colorDepth = .indexed → paletteProblem (allChunks raw.frames) = none) ∧
      ∃ pre c post, allCels raw.frames = pre ++ c :: post ∧
        (∀ c' ∈ pre, c'.layerIndex.toNat < (allLayers raw.frames).length) ∧
        c.layerIndex.toNat = (allLayers raw.frames).length := by
  rw [assembleFile_eq _ h, filePalette_eq]
  have hbad : ∀ f : File, (match badCel (allLayers raw.frames).length (allCels raw.frames) with
      | some c => rejectCel (allLayers raw.frames).length c
      | none => Outcome.ok f) = .panic k ↔
      k = .indexOutOfBounds ∧ ∃ pre c post, allCels raw.frames = pre ++ c :: post ∧
        (∀ c' ∈ pre, c'.layerIndex.toNat < (allLayers raw.frames).length) ∧
        c.layerIndex.toNat = (allLayers raw.frames).length := by
    intro f
    cases hb : badCel (allLayers raw.frames).length (allCels raw.frames) with
    | none =>
      constructor
      · intro h; cases h
      · rintro ⟨rfl, pre, c, post, h1, h2, h3⟩
        rw [badCel_iff.2 ⟨by omega, pre, post, h1, h2⟩] at hb
        cases hb
    | some c =>
      obtain ⟨h0, pre, post, h1, h2⟩ := badCel_iff.1 hb
      simp only [rejectCel]
      constructor
      · intro h
        by_cases hc : (allLayers raw.frames).length < c.layerIndex.toNat
        · rw [if_pos hc] at h; cases h
        · rw [if_neg hc] at h; cases h; exact ⟨rfl, pre, c, post, h1, h2, by omega⟩
      · rintro ⟨rfl, pre', c', post', h1', h2', h3'⟩
        have := badCel_iff.2 ⟨Nat.le_of_eq h3'.symm, pre', post', h1', h2'⟩
        rw [hb] at this
        cases this
        rw [if_neg (by omega)]
  by_cases hd : raw.header.colorDepth = .indexed
  · rw [if_pos hd]
    cases hp : paletteProblem (allChunks raw.frames) with
    | some pe =>
      constructor
      · intro h; cases h
      · rintro ⟨_, h, _⟩; cases h hd
    | none =>
      refine (hbad _).trans ⟨fun h => ⟨h.1, fun _ => rfl, h.2⟩, fun h => ⟨h.1, h.2.2⟩⟩
  · rw [if_neg hd]
    exact (hbad _).trans ⟨fun h => ⟨h.1, fun hd' => absurd hd' hd, h.2⟩, fun h => ⟨h.1, h.2.2⟩⟩

/-- **C04, exactly when.** `parse_file` panics
* with an arithmetic overflow, if and only if it is a debug build and the file is well formed up to a user data chunk
  with properties that declare a size of less than 8 bytes;
* by exhausting the stack, if and only if the file is well formed up to a user data chunk with properties that are
  nested deeper than the stack can hold (and well formed up to there);
* with an index out of bounds, if and only if all of the file is well formed, there is nothing wrong with its palette,
  and the first cel whose layer index is not that of a layer has the number of layers as its index;

and in no other case.

*Missing:* the property itself, that there is no panic at all. It is false. -/
theorem C04_exact_partial (plat : Plat) (b : Bytes) (k : Panic) : parseFile plat b = .panic k ↔
    (k = .overflow ∧ plat.debug = true ∧ ∃ body, ReachesUserData (readsUserData plat) b body ∧ OverflowAt body) ∨
    (k = .stackOverflow ∧ ∃ body, ReachesUserData (readsUserData plat) b body ∧ TooDeepAt plat.stack body) ∨
    (k = .indexOutOfBounds ∧ ∃ raw, IsFile (readsUserData plat) raw b ∧
      (raw.header.colorDepth = .indexed → paletteProblem (allChunks raw.frames) = none) ∧
      ∃ before c after, allCels raw.frames = before ++ c :: after ∧
        (∀ d ∈ before, d.layerIndex.toNat < (allLayers raw.frames).length) ∧
        c.layerIndex.toNat = (allLayers raw.frames).length) := by
  have hraw : parseRawFile plat b = .panic k ↔
      (k = .overflow ∧ plat.debug = true ∧ ∃ body, ReachesUserData (readsUserData plat) b body ∧ OverflowAt body) ∨
      (k = .stackOverflow ∧ ∃ body, ReachesUserData (readsUserData plat) b body ∧ TooDeepAt plat.stack body) := by
    rw [parseRawFile_panic_iff]
    have hlen : ∀ {body}, ReachesUserData (readsUserData plat) b body → body.length < 2 ^ 63 := by
      rintro body ⟨_, _, _, _, _, _, _, _, _, _, _, _, _, _, _, _, _, _, _, _, h, _⟩
      omega
    constructor
    · rintro ⟨body, h1, h2⟩
      rcases (parseUserDataChunk_panic (hlen h1)).1 h2 with ⟨rfl, hd, h⟩ | ⟨rfl, h⟩
      · exact .inl ⟨rfl, hd, body, h1, h⟩
      · exact .inr ⟨rfl, body, h1, h⟩
    · rintro (⟨rfl, hd, body, h1, h⟩ | ⟨rfl, body, h1, h⟩)
      · exact ⟨body, h1, (parseUserDataChunk_panic (hlen h1)).2 (.inl ⟨rfl, hd, h⟩)⟩
      · exact ⟨body, h1, (parseUserDataChunk_panic (hlen h1)).2 (.inr ⟨rfl, h⟩)⟩
  rw [← or_assoc, ← hraw]
  cases hr : parseRawFile plat b with
  | err e =>
    have : parseFile plat b = .err e := by unfold parseFile; rw [hr]; rfl
    rw [this]
    constructor
    · intro h; cases h
    · rintro (h | ⟨_, raw, h, _⟩)
      · cases h
      · rw [parseRawFile_ok.2 h] at hr; cases hr
  | panic k' =>
    have : parseFile plat b = .panic k' := by unfold parseFile; rw [hr]; rfl
    rw [this]
    constructor
    · intro h; cases h; exact .inl rfl
    · rintro (h | ⟨_, raw, h, _⟩)
      · cases h; rfl
      · rw [parseRawFile_ok.2 h] at hr; cases hr
  | ok raw =>
    rw [parseFile_eq hr, assembleFile_panic (fresh hr)]
    constructor
    · rintro ⟨rfl, h⟩
      exact .inr ⟨rfl, raw, parseRawFile_ok.1 hr, h⟩
    · rintro (h | ⟨rfl, raw', h, h'⟩)
      · cases h
      · have := parseRawFile_ok.2 h
        rw [hr] at this
        cases this
        exact ⟨rfl, h'⟩

/-- All three conditions are met by files. -/
example : (∃ b body, ReachesUserData (readsUserData ⟨true, 10⟩) b body ∧ OverflowAt body) ∧
    (∃ b body, ReachesUserData (readsUserData ⟨false, 10⟩) b body ∧ TooDeepAt 10 body) ∧
    (∃ b raw, IsFile (readsUserData ⟨false, 10⟩) raw b ∧ ∃ c, allCels raw.frames = [] ++ c :: [] ∧
      c.layerIndex.toNat = (allLayers raw.frames).length) := by
  refine ⟨?_, ?_, ?_⟩
  · rcases (C04_exact_partial _ _ _).1 (C04_overflow_panics 10 0 0 (by decide) (by decide)) with
      ⟨_, _, body, h⟩ | ⟨h, _⟩ | ⟨h, _⟩
    · exact ⟨_, body, h⟩
    · cases h
    · cases h
  · obtain ⟨b, hb⟩ := C04_stack_overflow false 10 (by decide)
    rcases (C04_exact_partial _ _ _).1 hb with ⟨h, _⟩ | ⟨_, body, h⟩ | ⟨h, _⟩
    · cases h
    · exact ⟨_, body, h⟩
    · cases h
  · have h : (match parseRawFile ⟨false, 10⟩ Sample.celWithoutLayer with
        | .ok raw => (match allCels raw.frames with
          | [c] => decide (c.layerIndex.toNat = (allLayers raw.frames).length)
          | _ => false)
        | _ => false) = true := by decide +kernel
    split at h
    · next raw hr =>
      split at h
      · next c hc => exact ⟨_, raw, parseRawFile_ok.1 hr, c, hc, of_decide_eq_true h⟩
      · cases h
    · cases h

/-- Counting down to the first failure. -/
theorem exists_threshold {p : Nat → Prop} (hmono : ∀ s s', s ≤ s' → p s' → p s) {n : Nat} (hn : ¬ p n) :
    ∃ m ≤ n, ∀ s, p s ↔ s < m := by
  induction n with
  | zero => exact ⟨0, Nat.le_refl _, fun s => ⟨fun h => absurd (hmono 0 s (Nat.zero_le _) h) hn, fun h => absurd h (Nat.not_lt_zero _)⟩⟩
  | succ n ih =>
    by_cases h : p n
    · refine ⟨n + 1, Nat.le_refl _, fun s => ⟨fun hs => ?_, fun hs => hmono s n (by omega) h⟩⟩
      by_cases hlt : s < n + 1
      · exact hlt
      · exact absurd (hmono (n + 1) s (by omega) hs) hn
    · obtain ⟨m, hm, h'⟩ := ih h
      exact ⟨m, by omega, h'⟩

/-- **C55, the stack an input needs.** Every input needs a definite number of nested calls, at most one more than half the
number of its bytes: with a smaller stack, `parse_file` exhausts it, and with that stack or any larger one it does not, and
the result no longer depends on the stack.
*Missing:* a bound independent of the input; there is none, see `C55_unbounded_recursion`. -/
theorem C55_needed_stack_partial (debug : Bool) (b : Bytes) : ∃ n ≤ b.length / 2 + 1,
    (∀ stack, parseFile ⟨debug, stack⟩ b = .panic .stackOverflow ↔ stack < n) ∧
    ∀ stack, n ≤ stack → parseFile ⟨debug, stack⟩ b = parseFile ⟨debug, n⟩ b := by
  have hsim : ∀ s s', s ≤ s' → parseFile ⟨debug, s⟩ b = parseFile ⟨debug, s'⟩ b ∨
      parseFile ⟨debug, s⟩ b = .panic .stackOverflow := by
    intro s s' hs
    rcases C57_parse (plat := ⟨debug, s⟩) (plat' := ⟨debug, s'⟩) hs (fun h => h) b with h | h | ⟨h1, h2, _⟩
    · exact .inl h
    · exact .inr h
    · simp only at h1 h2
      rw [h1] at h2
      cases h2
  obtain ⟨n, hn, h⟩ := exists_threshold (p := fun s => parseFile ⟨debug, s⟩ b = .panic .stackOverflow) (n := b.length / 2 + 1)
    (fun s s' hs h => by
      rcases hsim s s' hs with h' | h'
      · exact h'.trans h
      · exact h')
    (fun h => by
      have := (C55_recursion_partial _ _ h).1
      simp only at this
      omega)
  refine ⟨n, hn, h, fun s hs => ?_⟩
  rcases hsim n s hs with h' | h'
  · exact h'.symm
  · exact absurd ((h n).1 h') (Nat.lt_irrefl _)

/-- A file whose property is a vector of vectors needs a stack for five nested calls: map, property, value, vector,
vector. -/
example :
    let b := Sample.userDataFile (le32 4 ++ (leNat32 30 ++ (leNat32 1 ++
      (le32 0 ++ (leNat32 1 ++ (leNat16 0 ++ (le16 0x11 ++ (leNat32 1 ++ (le16 0x11 ++ (leNat32 0 ++ le16 3))))))))))
    (∀ s ∈ List.range 5, (match parseFile ⟨true, s⟩ b with | .panic .stackOverflow => true | _ => false) = true) ∧
    (match parseFile ⟨true, 5⟩ b with | .ok _ => true | _ => false) = true := by decide +kernel

end Ase
