import Verif.Lemmas.Profile
import Verif.Props.Panics
import Verif.Props.Render

/-!
# C57: the build profile and the stack size never change a result

A debug build checks integer overflow and debug assertions, and every build stops when its stack is exhausted.  None of
this is visible in a result: two builds either agree completely, or one of them panicked for exactly that reason.
-/

namespace Ase

open Spec

/-! ## Parsing and loading -/

/-- A build with a smaller (or equal) stack and with at least the checks of another one computes the same, or runs out
of stack, or (debug build compared with a release build only) reports an arithmetic overflow. -/
theorem C57_parse {plat plat' : Plat} (hs : plat.stack ≤ plat'.stack) (hd : plat'.debug = true → plat.debug = true)
    (b : Bytes) : parseFile plat b = parseFile plat' b ∨ parseFile plat b = .panic .stackOverflow ∨
      (plat.debug = true ∧ plat'.debug = false ∧ parseFile plat b = .panic .overflow) := by
  rcases parseFile_sim (K := fun k => k = .stackOverflow ∨ (plat.debug = true ∧ plat'.debug = false ∧ k = .overflow)) ⟨hs, hd⟩
    (.inl rfl) (fun h h' => .inr ⟨h, h', rfl⟩) b with h | ⟨k, rfl | ⟨hk, hk', rfl⟩, h⟩
  · exact .inl h
  · exact .inr (.inl h)
  · exact .inr (.inr ⟨hk, hk', h⟩)

theorem C57_load {plat plat' : Plat} (hs : plat.stack ≤ plat'.stack) (hd : plat'.debug = true → plat.debug = true)
    (b : Bytes) : AsepriteFile.load plat b = AsepriteFile.load plat' b ∨ AsepriteFile.load plat b = .panic .stackOverflow ∨
      (plat.debug = true ∧ plat'.debug = false ∧ AsepriteFile.load plat b = .panic .overflow) := by
  rcases load_sim (K := fun k => k = .stackOverflow ∨ (plat.debug = true ∧ plat'.debug = false ∧ k = .overflow)) ⟨hs, hd⟩
    (.inl rfl) (fun h h' => .inr ⟨h, h', rfl⟩) b with h | ⟨k, rfl | ⟨hk, hk', rfl⟩, h⟩
  · exact .inl h
  · exact .inr (.inl h)
  · exact .inr (.inr ⟨hk, hk', h⟩)

/-- A computation that is not a panic of a build. -/
def Finished {ε α : Type} (o : Outcome ε α) : Prop := ∀ k, o ≠ .panic k

/-- Whatever the two builds: if parsing finishes on both, with a file or with an error, it finishes with the same one. -/
theorem C57_parse_agrees (plat plat' : Plat) (b : Bytes) (h : Finished (parseFile plat b))
    (h' : Finished (parseFile plat' b)) : parseFile plat b = parseFile plat' b := by
  let top : Plat := { debug := false, stack := max plat.stack plat'.stack }
  have up : ∀ p : Plat, p.stack ≤ top.stack → Finished (parseFile p b) → parseFile p b = parseFile top b := by
    intro p hp hf
    rcases C57_parse (plat := p) (plat' := top) hp (fun h => nomatch h) b with h | h | ⟨_, _, h⟩
    · exact h
    · exact absurd h (hf _)
    · exact absurd h (hf _)
  exact (up plat (Nat.le_max_left _ _) h).trans (up plat' (Nat.le_max_right _ _) h').symm

theorem C57_load_agrees (plat plat' : Plat) (b : Bytes) (h : Finished (AsepriteFile.load plat b))
    (h' : Finished (AsepriteFile.load plat' b)) : AsepriteFile.load plat b = AsepriteFile.load plat' b := by
  let top : Plat := { debug := false, stack := max plat.stack plat'.stack }
  have up : ∀ p : Plat, p.stack ≤ top.stack → Finished (AsepriteFile.load p b) →
      AsepriteFile.load p b = AsepriteFile.load top b := by
    intro p hp hf
    rcases C57_load (plat := p) (plat' := top) hp (fun h => nomatch h) b with h | h | ⟨_, _, h⟩
    · exact h
    · exact absurd h (hf _)
    · exact absurd h (hf _)
  exact (up plat (Nat.le_max_left _ _) h).trans (up plat' (Nat.le_max_right _ _) h').symm

/-! ## Rendering -/

/-- Rendering in a debug build does what the release build does, to the result and to the buffer, or panics with a
failed check. -/
theorem C57_render {plat plat' : Plat} (hd : plat'.debug = true → plat.debug = true) (inflate : Inflater)
    (f : AsepriteFile) (i : Nat) (sel : LayerSelection) (t : Bytes) :
    f.renderFrame plat inflate i sel t = f.renderFrame plat' inflate i sel t ∨
      (plat.debug = true ∧ ((f.renderFrame plat inflate i sel t).1 = .panic .overflow ∨
        (f.renderFrame plat inflate i sel t).1 = .panic .debugAssertFailed)) := by
  rcases renderFrame_sim (K := fun k => plat.debug = true ∧ (k = .overflow ∨ k = .debugAssertFailed)) hd
    (fun h => ⟨h, .inl rfl⟩) (fun h => ⟨h, .inr rfl⟩) inflate f i sel t with h | ⟨k, ⟨hk, rfl | rfl⟩, h⟩
  · exact .inl h
  · exact .inr ⟨hk, .inl h⟩
  · exact .inr ⟨hk, .inr h⟩

theorem C57_combined {plat plat' : Plat} (hd : plat'.debug = true → plat.debug = true) (inflate : Inflater)
    (hash : List HashInput → UInt64) (f : AsepriteFile) (i : Nat) (t : Bytes) :
    f.combinedFrameImage plat inflate hash i t = f.combinedFrameImage plat' inflate hash i t ∨
      (plat.debug = true ∧ ((f.combinedFrameImage plat inflate hash i t).1 = .panic .overflow ∨
        (f.combinedFrameImage plat inflate hash i t).1 = .panic .debugAssertFailed)) := by
  rcases combinedFrameImage_sim (K := fun k => plat.debug = true ∧ (k = .overflow ∨ k = .debugAssertFailed)) hd
    (fun h => ⟨h, .inl rfl⟩) (fun h => ⟨h, .inr rfl⟩) inflate hash f i t with h | ⟨k, ⟨hk, rfl | rfl⟩, h⟩
  · exact .inl h
  · exact .inr ⟨hk, .inl h⟩
  · exact .inr ⟨hk, .inr h⟩

/-- Whatever the two builds: if rendering finishes on both, the results and the buffers are the same. -/
theorem C57_render_agrees (plat plat' : Plat) (inflate : Inflater) (f : AsepriteFile) (i : Nat) (sel : LayerSelection)
    (t : Bytes) (h : Finished (f.renderFrame plat inflate i sel t).1)
    (h' : Finished (f.renderFrame plat' inflate i sel t).1) :
    f.renderFrame plat inflate i sel t = f.renderFrame plat' inflate i sel t := by
  let top : Plat := { debug := false, stack := 0 }
  have up : ∀ p : Plat, Finished (f.renderFrame p inflate i sel t).1 →
      f.renderFrame p inflate i sel t = f.renderFrame top inflate i sel t := by
    intro p hf
    rcases C57_render (plat := p) (plat' := top) (fun h => nomatch h) inflate f i sel t with h | ⟨_, h | h⟩
    · exact h
    · exact absurd h (hf _)
    · exact absurd h (hf _)
  exact (up plat h).trans (up plat' h').symm

/-! ## The hypotheses are met, and the exceptions happen -/

/-- A debug build with a small stack and a release build with a large one finish loading and rendering a sprite. -/
example : (match AsepriteFile.load ⟨true, 10⟩ Sample.picture, AsepriteFile.load ⟨false, 1000⟩ Sample.picture with
    | .ok f, .ok g => f.frames == g.frames &&
        (match f.renderFrame ⟨true, 10⟩ Sample.inflate 0 .visible (List.replicate 24 0) with
          | (.ok (), t) => t != List.replicate 24 0
          | _ => false)
    | _, _ => false) = true := by decide +kernel

/-- The three exceptions: overflow while parsing, too small a stack, and a failed check while blending (hue). -/
theorem C57_builds_differ :
    (parseFile ⟨true, 10⟩ (Sample.userDataFile (le32 4 ++ leNat32 0 ++ leNat32 0)) = .panic .overflow ∧
      ∃ e, parseFile ⟨false, 10⟩ (Sample.userDataFile (le32 4 ++ leNat32 0 ++ leNat32 0)) = .err e) ∧
    (∃ b, parseFile ⟨false, 10⟩ b = .panic .stackOverflow) ∧
    (Sample.render ⟨true, 10⟩ (Sample.header 1 1 32 ++ Sample.frame 1
        [Sample.layer 1 0 12 255 [65], Sample.cel 0 0 0 1 1 [1, 2, 3, 255]]) 0 .all [9, 9, 9, 255]
      = some (.panic .debugAssertFailed, [9, 9, 9, 255]) ∧
    ∃ t, Sample.render ⟨false, 10⟩ (Sample.header 1 1 32 ++ Sample.frame 1
        [Sample.layer 1 0 12 255 [65], Sample.cel 0 0 0 1 1 [1, 2, 3, 255]]) 0 .all [9, 9, 9, 255] = some (.ok (), t)) := by
  refine ⟨⟨C04_overflow_panics 10 0 0 (by decide) (by decide), ?_⟩, ?_, ?_, ?_⟩
  · have h : (match parseFile ⟨false, 10⟩ (Sample.userDataFile (le32 4 ++ leNat32 0 ++ leNat32 0)) with
        | .err _ => true | _ => false) = true := by decide +kernel
    cases hp : parseFile ⟨false, 10⟩ (Sample.userDataFile (le32 4 ++ leNat32 0 ++ leNat32 0)) with
    | err e => exact ⟨e, rfl⟩
    | ok f => rw [hp] at h; cases h
    | panic k => rw [hp] at h; cases h
  · exact C04_stack_overflow false 10 (by decide)
  · decide +kernel
  · have h : (match Sample.render ⟨false, 10⟩ (Sample.header 1 1 32 ++ Sample.frame 1
        [Sample.layer 1 0 12 255 [65], Sample.cel 0 0 0 1 1 [1, 2, 3, 255]]) 0 .all [9, 9, 9, 255] with
        | some (.ok (), _) => true | _ => false) = true := by decide +kernel
    revert h
    generalize Sample.render ⟨false, 10⟩ _ _ _ _ = r
    intro h
    match r, h with
    | some (.ok (), t), _ => exact ⟨t, rfl⟩

end Ase
