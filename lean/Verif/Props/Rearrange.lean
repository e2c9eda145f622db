import Verif.Spec.Rearrange
import Verif.Props.Redraw

/-!
# C113: frames in another order
-/

namespace Ase

open Spec

theorem relinkedCel_own {source : Nat → Nat} {n : Nat} {o o' : Option CelChunk} (h : RelinkedCel source n o o') :
    o.bind ownImage = o'.bind ownImage := by
  cases o with
  | none => cases o' with
    | none => rfl
    | some _ => exact h.elim
  | some c => cases o' with
    | none => exact h.elim
    | some d =>
      obtain ⟨-, -, h⟩ := h
      show ownImage c = ownImage d
      unfold ownImage
      revert h
      cases c.content <;> cases d.content <;> simp [Relinked]

theorem rearranged_imageOf {source : Nat → Nat} {raw raw' : RawFile} (h : Rearranged source raw raw') {l : Nat}
    {c d : CelChunk} (hcd : Relinked source raw'.frames.length c.content d.content) :
    Doc.imageOf raw l c = Doc.imageOf raw' l d := by
  unfold Doc.imageOf
  revert hcd
  cases hc : c.content <;> cases hd : d.content <;> intro hcd <;> try (cases hcd; done)
  case linkedCel.linkedCel k k' =>
    obtain ⟨h1, h2⟩ := hcd
    dsimp only
    rw [← h2]
    exact relinkedCel_own (h.cels _ h1 l)
  all_goals (cases hcd; rfl)

theorem rearranged_shown {source : Nat → Nat} {raw raw' : RawFile} (h : Rearranged source raw raw') {j : Nat}
    (hj : j < raw'.frames.length) (l : Nat) : shown raw (source j) l = shown raw' j l := by
  have hc := h.cels j hj l
  unfold shown
  revert hc
  cases Doc.celOf raw (source j) l <;> cases Doc.celOf raw' j l <;> intro hc <;> try exact hc.elim
  · rfl
  · obtain ⟨hx, hy, hcd⟩ := hc
    rw [Option.bind_some, Option.bind_some, hx, hy, rearranged_imageOf h hcd]

/-- **C113 (pictures).** Frame `j` of the rearranged file is rendered exactly as the frame it came from is in the original
file: same result and same bytes, for every selection and buffer. -/
theorem C113_pictures (plat : Plat) (b b' : Bytes) (raw raw' : RawFile) (hr : parseRawFile plat b = .ok raw)
    (hr' : parseRawFile plat b' = .ok raw') (source : Nat → Nat) (h : Rearranged source raw raw') (f g : AsepriteFile)
    (hf : AsepriteFile.load plat b = .ok f) (hg : AsepriteFile.load plat b' = .ok g) (j : Nat)
    (hj : j < raw'.frames.length) (p : Plat) (inflate : Inflater) (sel : LayerSelection) (t : Bytes) :
    g.renderFrame p inflate j sel t = f.renderFrame p inflate (source j) sel t :=
  (C92_shown plat b b' raw raw' hr hr' f g hf hg h.stage _ j (h.frames j hj) hj (rearranged_shown h hj) p inflate sel t).symm

/-- **C113 (loads).** If the original file loads, so does the rearranged one, with as many frames as it has frame
records. -/
theorem C113_loads (plat : Plat) (b b' : Bytes) (raw raw' : RawFile) (hr : parseRawFile plat b = .ok raw)
    (hr' : parseRawFile plat b' = .ok raw') (source : Nat → Nat) (h : Rearranged source raw raw') (f : AsepriteFile)
    (hf : AsepriteFile.load plat b = .ok f) :
    ∃ g, AsepriteFile.load plat b' = .ok g ∧ g.frames.length = raw'.frames.length ∧ g.size = f.size ∧
      g.layers.map nameless = f.layers.map nameless := by
  have key : ∃ g, AsepriteFile.load plat b' = .ok g := by
    obtain ⟨hp, hidx, hres⟩ := (loads_doc hr).1 ⟨f, hf⟩
    rw [loads_doc hr']
    have hlay : (allLayers raw'.frames).length = (allLayers raw.frames).length := by
      simpa using (congrArg List.length (allLayers_stage h.stage)).symm
    refine ⟨filePalette_stage h.stage ▸ hp, ?_, ?_⟩
    · intro fr' hfr c hc
      obtain ⟨j, hj⟩ := List.getElem?_of_mem hfr
      have hlt := (List.getElem?_eq_some_iff.1 hj).1
      have hs := h.cels j hlt c.layerIndex.toNat
      have hd : ∃ d, Doc.celOf raw' j c.layerIndex.toNat = some d := by
        unfold Doc.celOf
        rw [hj, Option.bind_some]
        unfold slot
        cases hl : (List.filter (fun d : CelChunk => decide (d.layerIndex.toNat = c.layerIndex.toNat)) (Doc.cels fr')).getLast? with
        | some d => exact ⟨d, rfl⟩
        | none =>
          rw [List.getLast?_eq_none_iff, List.filter_eq_nil_iff] at hl
          exact absurd (decide_eq_true rfl) (hl c hc)
      obtain ⟨d, hd⟩ := hd
      rw [hd] at hs
      cases hd0 : Doc.celOf raw (source j) c.layerIndex.toNat with
      | none => rw [hd0] at hs; exact hs.elim
      | some d0 =>
        unfold Doc.celOf at hd0
        obtain ⟨fr, e1, e2⟩ := Option.bind_eq_some_iff.1 hd0
        unfold slot at e2
        have hm := List.mem_filter.1 (List.mem_of_getLast? e2)
        have := hidx fr (List.mem_of_getElem? e1) d0 hm.1
        rw [of_decide_eq_true hm.2] at this
        rw [hlay]
        exact this
    · intro j l d hd
      have hlt : j < raw'.frames.length := by
        unfold Doc.celOf at hd
        obtain ⟨fr, e1, -⟩ := Option.bind_eq_some_iff.1 hd
        exact (List.getElem?_eq_some_iff.1 e1).1
      have hs := h.cels j hlt l
      rw [hd] at hs
      cases hc : Doc.celOf raw (source j) l with
      | none => rw [hc] at hs; exact hs.elim
      | some c =>
        rw [hc] at hs
        rw [← rearranged_imageOf h hs.2.2]
        exact hres _ _ _ hc
  obtain ⟨g, hg⟩ := key
  obtain ⟨h1, -, h3, -, -, h6⟩ := redrawn_setting hr hr' h.stage hf hg
  exact ⟨g, hg, h6, h3.symm, h1.symm⟩

/-! A file with three frames and links to the first one, and one with its frames in the order 2, 0, 0, 1: the links now go
to frame 1 or 2. -/
def Sample.rearranged (frames : List (List Bytes)) : Bytes := Sample.header 2 1 32 ++
  (frames.zipIdx.map fun (cs, i) => Sample.frame 9 ((if i = 0 then [Sample.layer 1 0 0 255 [65], Sample.layer 1 0 0 255 [66]]
    else []) ++ cs)).flatten

def Sample.inOrder : Bytes := Sample.rearranged
  [[Sample.cel 0 0 0 1 1 [1, 2, 3, 255]], [Sample.cel 1 1 0 1 1 [4, 5, 6, 255], Sample.link 0 0],
    [Sample.cel 0 1 0 1 1 [7, 8, 9, 255]]]

def Sample.shuffled : Bytes := Sample.rearranged
  [[Sample.cel 0 1 0 1 1 [7, 8, 9, 255]], [Sample.cel 0 0 0 1 1 [1, 2, 3, 255]], [Sample.cel 0 0 0 1 1 [1, 2, 3, 255]],
    [Sample.link 0 2, Sample.cel 1 1 0 1 1 [4, 5, 6, 255]]]

/-- Two cels in the sense of `RelinkedCel`, decided. -/
def Sample.relinkedCel (source : Nat → Nat) (n : Nat) : Option CelChunk → Option CelChunk → Bool
  | none, none => true
  | some c, some c' => c'.x = c.x && c'.y = c.y && match c.content, c'.content with
    | .linkedCel k, .linkedCel k' => k'.toNat < n && source k'.toNat = k.toNat
    | a, a' => a = a'
  | _, _ => false

theorem Sample.relinkedCel_iff (source : Nat → Nat) (n : Nat) (o o' : Option CelChunk) :
    Sample.relinkedCel source n o o' = true ↔ RelinkedCel source n o o' := by
  cases o <;> cases o' <;> simp only [Sample.relinkedCel, RelinkedCel, reduceCtorEq, Bool.and_eq_true, decide_eq_true_eq, and_assoc]
  rename_i c c'
  cases c.content <;> cases c'.content <;> simp [Relinked]

example :
    (match parseRawFile ⟨true, 10⟩ Sample.inOrder, parseRawFile ⟨true, 10⟩ Sample.shuffled with
      | .ok raw, .ok raw' =>
        let source := fun j => [2, 0, 0, 1].getD j 0
        decide (stage raw = stage raw') && raw.frames.length == 3 && raw'.frames.length == 4 &&
        (List.range 4).all (fun j => decide (source j < 3) && (List.range 3).all fun l =>
          Sample.relinkedCel source 4 (Doc.celOf raw (source j) l) (Doc.celOf raw' j l)) &&
        (raw.frames ++ raw'.frames).all (fun fr => (Doc.cels fr).all fun c => decide (c.layerIndex.toNat < 3)) &&
        (Doc.celOf raw' 3 0).any (fun c => decide (c.content = .linkedCel 2))
      | _, _ => false) = true := by decide +kernel

example :
    let t := List.replicate 8 (0 : UInt8)
    Sample.render ⟨true, 10⟩ Sample.shuffled 3 .visible t = some (.ok (), [1, 2, 3, 255, 4, 5, 6, 255]) ∧
    Sample.render ⟨true, 10⟩ Sample.inOrder 1 .visible t = some (.ok (), [1, 2, 3, 255, 4, 5, 6, 255]) ∧
    Sample.render ⟨true, 10⟩ Sample.shuffled 0 .visible t = some (.ok (), [0, 0, 0, 0, 7, 8, 9, 255]) ∧
    Sample.render ⟨true, 10⟩ Sample.inOrder 2 .visible t = some (.ok (), [0, 0, 0, 0, 7, 8, 9, 255]) := by
  decide +kernel

end Ase
