import Verif.Lemmas.Palette
import Verif.Spec.Sample

/-!
# C118: `create_palette` on its own
-/

namespace Ase

open Spec

/-- **C118.** `create_palette` takes any header and any frames, not only parsed ones.  It never panics.  It returns `Missing`
if there is no palette chunk, `IndexOutOfBounds` if the old-style chunks are used and one of them writes past the
last entry, and `Empty` if no colour is written; the other errors do not occur.  Otherwise it returns 256 colours: the
one written last to each index, transparent black where none is written, with alpha 0 at the transparent index. -/
theorem C118_contract (h : Header) (fs : List RawFrame) :
    (∀ p, createPalette h fs = .ok p ↔ paletteProblem (allChunks fs) = none ∧ p.colors.length = 256 ∧
      ∀ i, i < 256 → p.colors[i]? = some
        (if i = h.transparentIndex.toNat then { lastWrite (paletteWrites (allChunks fs)) i with alpha := 0 }
         else lastWrite (paletteWrites (allChunks fs)) i)) ∧
    (∀ e, createPalette h fs = .err e ↔ paletteProblem (allChunks fs) = some e) ∧
    (∀ e, createPalette h fs = .err e → e = .missing ∨ e = .indexOutOfBounds ∨ e = .empty) ∧
    (∀ k, createPalette h fs ≠ .panic k) := by
  have herr : ∀ e, createPalette h fs = .err e ↔ paletteProblem (allChunks fs) = some e := by
    intro e
    rw [createPalette_eq]
    cases paletteProblem (allChunks fs) with
    | some e' => simp
    | none => simp
  refine ⟨fun p => ?_, herr, fun e he => ?_, createPalette_panic h fs⟩
  · rw [createPalette_eq]
    cases paletteProblem (allChunks fs) with
    | some e => simp
    | none =>
      simp only [Outcome.ok.injEq, true_and]
      constructor
      · rintro rfl
        exact ⟨by simp [paletteOf], fun i hi => by simp [paletteOf, hi]⟩
      · rintro ⟨h1, h2⟩
        obtain ⟨cs⟩ := p
        simp only [paletteOf, Palette.mk.injEq]
        apply List.ext_getElem?
        intro i
        by_cases hi : i < 256
        · rw [h2 i hi]
          simp [hi]
        · rw [List.getElem?_eq_none (by simp only [List.length_map, List.length_range]; omega),
            List.getElem?_eq_none (by simp only at h1; omega)]
  · have := (herr e).1 he
    unfold paletteProblem at this
    split at this
    · cases this; exact .inl rfl
    · split at this
      · cases this; exact .inr (.inl rfl)
      · split at this
        · cases this; exact .inr (.inr rfl)
        · cases this

theorem newPalettes_append (cs ds : List Chunk) : newPalettes (cs ++ ds) = newPalettes cs ++ newPalettes ds := by
  simp [newPalettes]

theorem oldPalettes4_append (cs ds : List Chunk) : oldPalettes4 (cs ++ ds) = oldPalettes4 cs ++ oldPalettes4 ds := by
  simp [oldPalettes4]

theorem oldPalettes11_append (cs ds : List Chunk) : oldPalettes11 (cs ++ ds) = oldPalettes11 cs ++ oldPalettes11 ds := by
  simp [oldPalettes11]

theorem allChunks_append (fs gs : List RawFrame) : allChunks (fs ++ gs) = allChunks fs ++ allChunks gs := by
  simp [allChunks]

/-- **C118 (what matters).** Of the header only the transparent index matters, of the frames only the palette chunks
and their order, not the frames they are in: if there are new-style ones, only these, else only the ones of type 0x0004 if there
are any, else only the ones of type 0x0011. -/
theorem C118_depends (h h' : Header) (fs fs' : List RawFrame) (ht : h.transparentIndex = h'.transparentIndex)
    (h1 : newPalettes (allChunks fs) = newPalettes (allChunks fs'))
    (h2 : newPalettes (allChunks fs) = [] → oldPalettes4 (allChunks fs) = oldPalettes4 (allChunks fs'))
    (h3 : newPalettes (allChunks fs) = [] → oldPalettes4 (allChunks fs) = [] →
      oldPalettes11 (allChunks fs) = oldPalettes11 (allChunks fs')) :
    createPalette h fs = createPalette h' fs' := by
  have hold : newPalettes (allChunks fs) = [] → oldPalettes (allChunks fs) = oldPalettes (allChunks fs') := by
    intro hn
    unfold oldPalettes
    rw [← h2 hn]
    split
    · rfl
    · next h4 => exact h3 hn (Decidable.not_not.1 h4)
  have hw : paletteWrites (allChunks fs) = paletteWrites (allChunks fs') := by
    unfold paletteWrites
    rw [← h1]
    split
    · rfl
    · next hn => rw [hold (Decidable.not_not.1 hn)]
  have hp : paletteProblem (allChunks fs) = paletteProblem (allChunks fs') := by
    unfold paletteProblem
    rw [← h1, ← hw]
    by_cases hn : newPalettes (allChunks fs) = []
    · rw [hold hn]
    · simp [hn]
  rw [createPalette_eq, createPalette_eq, hp, hw, ht]

theorem lastWrite_writesAt (ws : List (Nat × PColor)) (i : Nat) (cs : List PColor) (j : Nat) :
    lastWrite (ws ++ writesAt i cs) j = if i ≤ j then (cs[j - i]?).getD (lastWrite ws j) else lastWrite ws j := by
  have key : ((writesAt i cs).filter fun w => w.1 = j).getLast? =
      if i ≤ j then (cs[j - i]?).map fun c => (j, c) else none := by
    induction cs generalizing i with
    | nil => simp [writesAt]
    | cons c cs ih =>
      rw [writesAt_cons, List.filter_cons]
      by_cases h : i = j
      · subst h
        have hnil : ((writesAt (i + 1) cs).filter fun w => w.1 = i) = [] := by
          rw [← List.getLast?_eq_none_iff, ih, if_neg (by omega)]
        simp [hnil]
      · simp only [h, decide_false, Bool.false_eq_true, if_false]
        rw [ih]
        by_cases h' : i ≤ j
        · rw [if_pos h', if_pos (by omega), show j - i = (j - (i + 1)) + 1 by omega]
          simp
        · rw [if_neg h', if_neg (by omega)]
  rw [lastWrite_append, key]
  split
  · cases cs[j - i]? <;> rfl
  · rfl

/-- **C118 (update).** A frame with one new-style palette chunk, after frames that already have new-style ones and make
a palette, replaces the colours of its range, as far as it has entries, and leaves the other ones. -/
theorem C118_update (h : Header) (fs : List RawFrame) (p : Palette) (hp : createPalette h fs = .ok p)
    (hn : newPalettes (allChunks fs) ≠ []) (f : RawFrame) (c : PaletteChunk) (hc : newPalettes f.chunks = [c]) :
    ∃ q, createPalette h (fs ++ [f]) = .ok q ∧ q.colors.length = 256 ∧ ∀ i, i < 256 →
      q.colors[i]? =
        if c.firstIndex.toNat ≤ i ∧ i ≤ c.lastIndex.toNat ∧ i - c.firstIndex.toNat < c.entries.length then
          (c.entries[i - c.firstIndex.toNat]?).map fun e =>
            if i = h.transparentIndex.toNat then { e.color with alpha := 0 } else e.color
        else p.colors[i]? := by
  obtain ⟨h1, _, h2⟩ := ((C118_contract h fs).1 p).1 hp
  have hcat : newPalettes (allChunks (fs ++ [f])) = newPalettes (allChunks fs) ++ [c] := by
    rw [allChunks_append, newPalettes_append, show allChunks [f] = f.chunks by simp [allChunks], hc]
  have hne : newPalettes (allChunks (fs ++ [f])) ≠ [] := by rw [hcat]; simp
  have hw : paletteWrites (allChunks fs) ≠ [] := by
    intro h0
    unfold paletteProblem at h1
    simp [hn, h0] at h1
  have hw' : paletteWrites (allChunks (fs ++ [f])) = paletteWrites (allChunks fs) ++ newWrites c := by
    unfold paletteWrites
    rw [if_pos hne, if_pos hn, hcat, List.flatMap_append]
    simp
  have hprob : paletteProblem (allChunks (fs ++ [f])) = none := by
    unfold paletteProblem
    simp [hne, hw', hw]
  refine ⟨paletteOf h.transparentIndex (paletteWrites (allChunks (fs ++ [f]))), ?_, by simp [paletteOf], fun i hi => ?_⟩
  · rw [createPalette_eq, hprob]
  · rw [h2 i hi, hw', newWrites]
    simp only [paletteOf, List.getElem?_map, List.getElem?_range hi, Option.map_some]
    rw [lastWrite_writesAt]
    by_cases a : c.firstIndex.toNat ≤ i
    · rw [if_pos a]
      by_cases b : i ≤ c.lastIndex.toNat
      · rw [List.getElem?_take_of_lt (by omega), List.getElem?_map]
        by_cases d : i - c.firstIndex.toNat < c.entries.length
        · rw [if_pos (show c.firstIndex.toNat ≤ i ∧ i ≤ c.lastIndex.toNat ∧ i - c.firstIndex.toNat < c.entries.length from
            ⟨a, b, d⟩), List.getElem?_eq_getElem d]
          rfl
        · rw [if_neg (show ¬ (c.firstIndex.toNat ≤ i ∧ i ≤ c.lastIndex.toNat ∧ i - c.firstIndex.toNat < c.entries.length) from
          fun h => d h.2.2), List.getElem?_eq_none (by omega)]
          rfl
      · rw [if_neg (show ¬ (c.firstIndex.toNat ≤ i ∧ i ≤ c.lastIndex.toNat ∧ i - c.firstIndex.toNat < c.entries.length) from
          fun h => b h.2.1), List.getElem?_eq_none (by simp only [List.length_take, List.length_map]; omega)]
        rfl
    · rw [if_neg a, if_neg (show ¬ (c.firstIndex.toNat ≤ i ∧ i ≤ c.lastIndex.toNat ∧ i - c.firstIndex.toNat < c.entries.length) from
          fun h => a h.1)]

/-- **C118 (again).** The same frames once more change nothing. -/
theorem C118_again (h : Header) (fs : List RawFrame) : createPalette h (fs ++ fs) = createPalette h fs := by
  have happ : allChunks (fs ++ fs) = allChunks fs ++ allChunks fs := allChunks_append fs fs
  obtain ⟨cs, hcs⟩ : ∃ cs, cs = allChunks fs := ⟨_, rfl⟩
  have hold : oldPalettes (cs ++ cs) = oldPalettes cs ++ oldPalettes cs := by
    unfold oldPalettes
    rw [oldPalettes4_append, oldPalettes11_append]
    by_cases h4 : oldPalettes4 cs = []
    · simp [h4]
    · simp [h4]
  have hw : paletteWrites (cs ++ cs) = paletteWrites cs ++ paletteWrites cs := by
    unfold paletteWrites
    rw [newPalettes_append, hold]
    by_cases hn : newPalettes cs = []
    · simp [hn]
    · simp [hn]
  have hl : ∀ i, lastWrite (paletteWrites cs ++ paletteWrites cs) i = lastWrite (paletteWrites cs) i := by
    intro i
    rw [lastWrite_append, lastWrite]
    cases ((paletteWrites cs).filter fun w => w.1 = i).getLast? <;> rfl
  have hp : paletteProblem (cs ++ cs) = paletteProblem cs := by
    unfold paletteProblem
    rw [hw, hold, newPalettes_append]
    simp [List.all_append]
  rw [createPalette_eq, createPalette_eq, happ, ← hcs, hp]
  cases paletteProblem cs with
  | some e => rfl
  | none => simp only [paletteOf, hw, hl]

/-! A header and frames put together by hand: the second chunk has more indices than colours. -/

def Sample.paletteFrame (first last : UInt8) (colours : List PColor) : RawFrame :=
  ⟨0, [.mask ⟨0, 0, 0, 0, "m", []⟩, .palette ⟨first, last, colours.map fun c => ⟨c, none⟩⟩]⟩

def Sample.palettes : List RawFrame := [Sample.paletteFrame 0 2 [⟨1, 2, 3, 4⟩, ⟨5, 6, 7, 8⟩, ⟨9, 9, 9, 9⟩]]

def Sample.paletteHeader (transparent : UInt8) : Header :=
  ⟨0, 0, 0, 0, .rgba, 0, 0, transparent, 0, 0, 0, 0, 0, 0, 0⟩

example :
    (match createPalette (Sample.paletteHeader 2) Sample.palettes with
      | .ok p => p.colors.take 4 == [⟨1, 2, 3, 4⟩, ⟨5, 6, 7, 8⟩, ⟨9, 9, 9, 0⟩, ⟨0, 0, 0, 0⟩]
      | _ => false) = true ∧
    newPalettes (allChunks Sample.palettes) ≠ [] ∧
    newPalettes (Sample.paletteFrame 1 200 [⟨20, 20, 20, 20⟩]).chunks = [⟨1, 200, [⟨⟨20, 20, 20, 20⟩, none⟩]⟩] ∧
    (match createPalette (Sample.paletteHeader 2) (Sample.palettes ++ [Sample.paletteFrame 1 200 [⟨20, 20, 20, 20⟩]]) with
      | .ok p => p.colors.take 4 == [⟨1, 2, 3, 4⟩, ⟨20, 20, 20, 20⟩, ⟨9, 9, 9, 0⟩, ⟨0, 0, 0, 0⟩]
      | _ => false) = true ∧
    (match createPalette (Sample.paletteHeader 2) [Sample.paletteFrame 1 0 [⟨20, 20, 20, 20⟩]] with
      | .err .empty => true
      | _ => false) = true ∧
    (match createPalette (Sample.paletteHeader 2) [⟨0, [.palette0004 ⟨[⟨255, [⟨1, 1, 1⟩, ⟨2, 2, 2⟩]⟩]⟩]⟩] with
      | .err .indexOutOfBounds => true
      | _ => false) = true := by
  decide +kernel

end Ase
