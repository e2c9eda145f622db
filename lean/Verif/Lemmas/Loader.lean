import Verif.Spec.Loader
import Verif.Props.Assemble

/-!
# Lemmas about `AsepriteFile::load`
-/

namespace Ase

open Spec

/-! ## Lists -/

/-- `mapM` in `Outcome`. -/
def mapO {ε α β : Type} (f : α → Outcome ε β) : List α → Outcome ε (List β)
  | [] => .ok []
  | x :: xs => do
    let y ← f x
    let ys ← mapO f xs
    pure (y :: ys)

theorem mapO_ok {ε α β : Type} (f : α → Outcome ε β) (xs : List α) (ys : List β) :
    mapO f xs = .ok ys ↔ xs.map f = ys.map .ok := by
  induction xs generalizing ys with
  | nil => cases ys <;> simp [mapO]
  | cons x xs ih =>
    simp only [mapO, outcome_bind_def, outcome_pure_def]
    cases ys with
    | nil =>
      cases h : f x with
      | ok y =>
        simp only [Outcome.bind]
        cases h2 : mapO f xs <;> simp
      | err e => simp [Outcome.bind]
      | panic k => simp [Outcome.bind]
    | cons y ys =>
      simp only [List.map_cons, List.cons.injEq, ← ih]
      cases h : f x with
      | ok y' =>
        simp only [Outcome.bind]
        cases h2 : mapO f xs <;> simp
      | err e => simp [Outcome.bind]
      | panic k => simp [Outcome.bind]

theorem mapO_exists {ε α β : Type} (f : α → Outcome ε β) (xs : List α) :
    (∃ ys, mapO f xs = .ok ys) ↔ ∀ x ∈ xs, ∃ y, f x = .ok y := by
  induction xs with
  | nil => simp [mapO]
  | cons x xs ih =>
    simp only [mapO, outcome_bind_def, outcome_pure_def, List.mem_cons, forall_eq_or_imp, ← ih]
    constructor
    · rintro ⟨ys, h⟩
      cases h1 : f x with
      | ok y =>
        rw [h1] at h
        simp only [Outcome.bind] at h
        cases h2 : mapO f xs with
        | ok ys' => exact ⟨⟨y, rfl⟩, ys', rfl⟩
        | err e => rw [h2] at h; simp at h
        | panic k => rw [h2] at h; simp at h
      | err e => rw [h1] at h; simp [Outcome.bind] at h
      | panic k => rw [h1] at h; simp [Outcome.bind] at h
    · rintro ⟨⟨y, h1⟩, ys, h2⟩
      exact ⟨y :: ys, by simp [h1, h2, Outcome.bind]⟩

theorem mapO_panic {ε α β : Type} (f : α → Outcome ε β) (xs : List α) (h : ∀ x ∈ xs, ∀ k, f x ≠ .panic k) (k : Panic) :
    mapO f xs ≠ .panic k := by
  induction xs generalizing k with
  | nil => simp [mapO]
  | cons x xs ih =>
    simp only [mapO, outcome_bind_def, outcome_pure_def]
    have ih := ih fun y hy => h y (List.mem_cons_of_mem _ hy)
    have h1 := h x List.mem_cons_self
    cases h2 : f x with
    | ok y =>
      simp only [Outcome.bind]
      cases h3 : mapO f xs with
      | ok ys => simp
      | err e => simp
      | panic k' => exact absurd h3 (ih k')
    | err e => simp [Outcome.bind]
    | panic k' => exact absurd h2 (h1 k')

theorem mapO_err {ε α β : Type} (f : α → Outcome ε β) (xs : List α) (e : ε) (h : ∀ x ∈ xs, f x ≠ .err e) :
    mapO f xs ≠ .err e := by
  induction xs with
  | nil => simp [mapO]
  | cons x xs ih =>
    simp only [mapO, outcome_bind_def, outcome_pure_def]
    have ih := ih fun y hy => h y (List.mem_cons_of_mem _ hy)
    have h1 := h x List.mem_cons_self
    cases h2 : f x with
    | ok y =>
      simp only [Outcome.bind]
      cases h3 : mapO f xs with
      | ok ys => simp
      | panic k => simp
      | err e' => rw [h3] at ih; simpa using ih
    | panic k => simp [Outcome.bind]
    | err e' => rw [h2] at h1; simpa [Outcome.bind] using h1

theorem mem_filterMap_id {α : Type} {l : List (Option α)} {a : α} : a ∈ l.filterMap id ↔ some a ∈ l := by
  simp [List.mem_filterMap]

/-! ## Slots -/

/-- Every frame has one slot per layer, and the cel in slot `l` has layer index `l`. -/
structure SlotsOk (file : File) : Prop where
  len : ∀ fr ∈ file.frames, fr.cels.length = file.layers.length
  index : ∀ fr ∈ file.frames, ∀ (l : Nat) (c : CelChunk), fr.cels[l]? = some (some c) → c.layerIndex.toNat = l

theorem slotsOk_of_parse {plat : Plat} {b : Bytes} {f : File} (h : parseFile plat b = .ok f) : SlotsOk f := by
  obtain ⟨raw, hraw, ha⟩ := parseFile_ok.1 h
  obtain ⟨p, hp, _, rfl⟩ := (assembleFile_ok (fresh hraw)).1 ha
  constructor
  · intro fr hfr
    obtain ⟨rf, hrf, rfl⟩ := List.mem_map.1 hfr
    simp [slots]
  · intro fr hfr l c hc
    obtain ⟨rf, hrf, rfl⟩ := List.mem_map.1 hfr
    simp only [slots, List.getElem?_map, Option.map_eq_some_iff] at hc
    obtain ⟨j, hj, hc⟩ := hc
    have hj' : j = l := by
      rw [List.getElem?_eq_some_iff] at hj
      obtain ⟨_, hj⟩ := hj
      simpa using hj.symm
    subst hj'
    have := List.mem_of_getLast? hc
    simpa using (List.mem_filter.1 this).2

theorem slots_sorted (slots : List (Option CelChunk)) (off : Nat)
    (h : ∀ (l : Nat) (c : CelChunk), slots[l]? = some (some c) → c.layerIndex.toNat = off + l) :
    (slots.filterMap id).Pairwise (fun c d => c.layerIndex.toNat < d.layerIndex.toNat) ∧
      ∀ c ∈ slots.filterMap id, off ≤ c.layerIndex.toNat := by
  induction slots generalizing off with
  | nil => simp
  | cons s slots ih =>
    have h' := ih (off + 1) fun l c hc => by
      have := h (l + 1) c (by simpa using hc)
      omega
    cases s with
    | none =>
      simp only [List.filterMap_cons, id]
      exact ⟨h'.1, fun c hc => by have := h'.2 c hc; omega⟩
    | some c =>
      have h0 := h 0 c rfl
      simp only [List.filterMap_cons, id, List.pairwise_cons, List.mem_cons, forall_eq_or_imp]
      exact ⟨⟨fun d hd => by have := h'.2 d hd; omega, h'.1⟩, by omega, fun d hd => by have := h'.2 d hd; omega⟩

theorem celAt_eq {file : File} {i l : Nat} {c : CelChunk} :
    celAt file i l = some c ↔ ∃ fr, file.frames[i]? = some fr ∧ fr.cels[l]? = some (some c) := by
  simp [celAt, Option.bind_eq_some_iff, Option.join_eq_some_iff]

theorem mem_cels_iff {file : File} (hs : SlotsOk file) {i : Nat} {fr : Frame} (hfr : file.frames[i]? = some fr)
    {c : CelChunk} : c ∈ fr.cels.filterMap id ↔ celAt file i c.layerIndex.toNat = some c := by
  rw [mem_filterMap_id, celAt_eq]
  constructor
  · intro hc
    obtain ⟨l, hl⟩ := List.mem_iff_getElem?.1 hc
    rw [hs.index fr (List.mem_of_getElem? hfr) l c hl]
    exact ⟨fr, hfr, hl⟩
  · rintro ⟨fr', h1, h2⟩
    rw [hfr] at h1
    cases h1
    exact List.mem_of_getElem? h2

/-! ## The image map -/

/-- The images of the cels of a frame with their keys. -/
def frameKeyed (i : Nat) (cs : List CelChunk) : List ((Nat × Nat) × Image) :=
  cs.filterMap fun c => (ownImage c).map fun im => ((i, c.layerIndex.toNat), im)

/-- The images of all cels with their keys, in order. -/
def keyed (i : Nat) : List Frame → List ((Nat × Nat) × Image)
  | [] => []
  | f :: fs => frameKeyed i (f.cels.filterMap id) ++ keyed (i + 1) fs

/-- The map from keys to positions, newest first. -/
def mapOf (n : Nat) (ks : List ((Nat × Nat) × Image)) : ImageMap :=
  ((ks.zipIdx n).map fun p => (p.1.1, p.2)).reverse

theorem mapOf_append (n : Nat) (a b : List ((Nat × Nat) × Image)) :
    mapOf n (a ++ b) = mapOf (n + a.length) b ++ mapOf n a := by
  simp [mapOf, List.zipIdx_append]

theorem addImage_foldl (i : Nat) (cs : List CelChunk) (acc : List Image × ImageMap) :
    cs.foldl (addImage i) acc
      = (acc.1 ++ (frameKeyed i cs).map (·.2), mapOf acc.1.length (frameKeyed i cs) ++ acc.2) := by
  induction cs generalizing acc with
  | nil => simp [frameKeyed, mapOf]
  | cons c cs ih =>
    rw [List.foldl_cons, ih]
    have hk : frameKeyed i (c :: cs)
        = ((ownImage c).map fun im => ((i, c.layerIndex.toNat), im)).toList ++ frameKeyed i cs := by
      simp only [frameKeyed, List.filterMap_cons]
      cases ownImage c <;> rfl
    rw [hk, mapOf_append]
    unfold addImage ownImage
    cases c.content <;> simp [mapOf]

theorem collectImages_eq (i : Nat) (acc : List Image × ImageMap) (fs : List Frame) :
    collectImages i acc fs = (acc.1 ++ (keyed i fs).map (·.2), mapOf acc.1.length (keyed i fs) ++ acc.2) := by
  induction fs generalizing i acc with
  | nil => simp [collectImages, keyed, mapOf]
  | cons f fs ih =>
    rw [collectImages, ih, addImage_foldl]
    simp [keyed, mapOf_append]

theorem lookup_iff {m : ImageMap} (hnd : (m.map (·.1)).Nodup) (k : Nat × Nat) (v : Nat) :
    m.lookup k = some v ↔ (k, v) ∈ m := by
  induction m with
  | nil => simp
  | cons p m ih =>
    obtain ⟨k', v'⟩ := p
    simp only [List.map_cons, List.nodup_cons] at hnd
    rw [List.lookup_cons]
    by_cases hk : k = k'
    · subst hk
      simp only [beq_self_eq_true, List.mem_cons, Prod.mk.injEq, true_and]
      constructor
      · intro h; cases h; exact .inl rfl
      · rintro (rfl | h)
        · rfl
        · exact absurd (List.mem_map.2 ⟨_, h, rfl⟩) hnd.1
    · have : (k == k') = false := by simpa using hk
      simp only [this, List.mem_cons, Prod.mk.injEq, hk, false_and, false_or]
      exact ih hnd.2

theorem mem_mapOf {ks : List ((Nat × Nat) × Image)} {k : Nat × Nat} {n : Nat} :
    (k, n) ∈ mapOf 0 ks ↔ ∃ im, ks[n]? = some (k, im) := by
  simp only [mapOf, List.mem_reverse, List.mem_map, Prod.mk.injEq]
  constructor
  · rintro ⟨⟨⟨k', im⟩, j⟩, h, rfl, rfl⟩
    exact ⟨im, by simpa using List.mem_zipIdx_iff_getElem?.1 h⟩
  · rintro ⟨im, h⟩
    exact ⟨((k, im), n), List.mem_zipIdx_iff_getElem?.2 (by simpa using h), rfl, rfl⟩

theorem mem_frameKeyed {i j l : Nat} {cs : List CelChunk} {im : Image} :
    ((j, l), im) ∈ frameKeyed i cs ↔ j = i ∧ ∃ c ∈ cs, c.layerIndex.toNat = l ∧ ownImage c = some im := by
  simp only [frameKeyed, List.mem_filterMap, Option.map_eq_some_iff, Prod.mk.injEq]
  constructor
  · rintro ⟨c, hc, im', h1, ⟨rfl, rfl⟩, rfl⟩
    exact ⟨rfl, c, hc, rfl, h1⟩
  · rintro ⟨rfl, c, hc, rfl, h1⟩
    exact ⟨c, hc, im, h1, ⟨rfl, rfl⟩, rfl⟩

theorem mem_keyed {i j l : Nat} {fs : List Frame} {im : Image} :
    ((j, l), im) ∈ keyed i fs ↔ ∃ d fr, j = i + d ∧ fs[d]? = some fr ∧
      ∃ c ∈ fr.cels.filterMap id, c.layerIndex.toNat = l ∧ ownImage c = some im := by
  induction fs generalizing i with
  | nil => simp [keyed]
  | cons f fs ih =>
    simp only [keyed, List.mem_append, mem_frameKeyed, ih]
    constructor
    · rintro (⟨rfl, h⟩ | ⟨d, fr, rfl, h1, h2⟩)
      · exact ⟨0, f, rfl, rfl, h⟩
      · exact ⟨d + 1, fr, by omega, by simpa using h1, h2⟩
    · rintro ⟨d, fr, rfl, h1, h2⟩
      cases d with
      | zero =>
        simp only [List.getElem?_cons_zero, Option.some.injEq] at h1
        subst h1
        exact .inl ⟨rfl, h2⟩
      | succ d => exact .inr ⟨d, fr, by omega, by simpa using h1, h2⟩

theorem mem_keyed_file {file : File} (hs : SlotsOk file) {j l : Nat} {im : Image} :
    ((j, l), im) ∈ keyed 0 file.frames ↔ imageAt file j l = some im := by
  rw [mem_keyed]
  simp only [imageAt, Option.bind_eq_some_iff, celAt_eq]
  constructor
  · rintro ⟨d, fr, rfl, h1, c, hc, rfl, h2⟩
    rw [Nat.zero_add]
    exact ⟨c, celAt_eq.1 ((mem_cels_iff hs h1).1 hc), h2⟩
  · rintro ⟨c, ⟨fr, h1, h2⟩, h3⟩
    have h4 := hs.index fr (List.mem_of_getElem? h1) l c h2
    exact ⟨j, fr, by omega, h1, c, mem_filterMap_id.2 (List.mem_of_getElem? h2), h4, h3⟩

theorem keyed_nodup (fs : List Frame) (i : Nat)
    (h : ∀ fr ∈ fs, ∀ (l : Nat) (c : CelChunk), fr.cels[l]? = some (some c) → c.layerIndex.toNat = l) :
    ((keyed i fs).map (·.1)).Nodup := by
  induction fs generalizing i with
  | nil => simp [keyed]
  | cons f fs ih =>
    rw [keyed, List.map_append, List.nodup_append]
    refine ⟨?_, ih (i + 1) fun fr hfr => h fr (List.mem_cons_of_mem _ hfr), ?_⟩
    · have hs := (slots_sorted f.cels 0 fun l c hc => by
        rw [Nat.zero_add]; exact h f List.mem_cons_self l c hc).1
      generalize f.cels.filterMap id = cs at hs
      clear ih h
      induction cs with
      | nil => simp [frameKeyed]
      | cons c cs ih =>
        rw [List.pairwise_cons] at hs
        have ih := ih hs.2
        simp only [frameKeyed, List.filterMap_cons]
        cases ownImage c with
        | none => exact ih
        | some im =>
          simp only [Option.map_some, List.map_cons, List.nodup_cons]
          refine ⟨?_, ih⟩
          intro hm
          obtain ⟨⟨⟨j, l⟩, im'⟩, h1, h2⟩ := List.mem_map.1 hm
          obtain ⟨rfl, d, hd, h3, h4⟩ := mem_frameKeyed.1 h1
          have := hs.1 d hd
          simp only [Prod.mk.injEq] at h2
          omega
    · intro a ha b hb hab
      subst hab
      obtain ⟨⟨⟨j, l⟩, im⟩, h1, rfl⟩ := List.mem_map.1 ha
      obtain ⟨⟨⟨j', l'⟩, im'⟩, h2, h3⟩ := List.mem_map.1 hb
      obtain ⟨rfl, _⟩ := mem_frameKeyed.1 h1
      obtain ⟨d, fr, rfl, _⟩ := mem_keyed.1 h2
      simp only [Prod.mk.injEq] at h3
      omega

theorem nodup_reverse' {α : Type} {l : List α} (h : l.Nodup) : l.reverse.Nodup := by
  rw [List.Nodup, List.pairwise_reverse]
  exact h.imp fun h => h.symm

theorem map_lookup {file : File} (hs : SlotsOk file) (k : Nat × Nat) (n : Nat) :
    (mapOf 0 (keyed 0 file.frames)).lookup k = some n ↔ ∃ im, (keyed 0 file.frames)[n]? = some (k, im) := by
  rw [lookup_iff, mem_mapOf]
  have := keyed_nodup file.frames 0 hs.index
  simp only [mapOf, List.map_reverse, List.map_map]
  apply nodup_reverse'
  have h2 : ((keyed 0 file.frames).zipIdx 0).map ((fun x => x.1) ∘ fun p => (p.1.1, p.2))
      = (keyed 0 file.frames).map (·.1) := by
    rw [show ((fun x : (Nat × Nat) × Nat => x.1) ∘ fun p : ((Nat × Nat) × Image) × Nat => (p.1.1, p.2))
      = (fun q : (Nat × Nat) × Image => q.1) ∘ Prod.fst from rfl, ← List.map_map, List.zipIdx_map_fst]
  rw [h2]
  exact this

theorem map_lookup_none {file : File} (hs : SlotsOk file) (i l : Nat) :
    (mapOf 0 (keyed 0 file.frames)).lookup (i, l) = none ↔ imageAt file i l = none := by
  constructor
  · intro h
    cases h2 : imageAt file i l with
    | none => rfl
    | some im =>
      obtain ⟨n, hn⟩ := List.mem_iff_getElem?.1 ((mem_keyed_file hs).2 h2)
      have := (map_lookup hs (i, l) n).2 ⟨im, hn⟩
      rw [h] at this
      cases this
  · intro h
    cases h2 : (mapOf 0 (keyed 0 file.frames)).lookup (i, l) with
    | none => rfl
    | some n =>
      obtain ⟨im, hn⟩ := (map_lookup hs (i, l) n).1 h2
      have := (mem_keyed_file hs).1 (List.mem_of_getElem? hn)
      rw [h] at this
      cases this

/-! ## The second pass -/

theorem toFrameCels_eq (images : List Image) (m : ImageMap) (i : Nat) (cs : List CelChunk) :
    toFrameCels images m i cs = mapO (toFrameCel images m i) cs := by
  induction cs with
  | nil => rfl
  | cons c cs ih => simp only [toFrameCels, mapO, ih]

/-- One frame of the second pass. -/
def toLFrame (images : List Image) (m : ImageMap) (p : Frame × Nat) : Outcome LoadSpriteError LFrame := do
  let cels ← toFrameCels images m p.2 (p.1.cels.filterMap id)
  pure { duration := p.1.duration, origin := (0, 0), cels }

theorem toLFrames_eq (images : List Image) (m : ImageMap) (i : Nat) (fs : List Frame) :
    toLFrames images m i fs = mapO (toLFrame images m) (fs.zipIdx i) := by
  induction fs generalizing i with
  | nil => rfl
  | cons f fs ih =>
    simp only [toLFrames, List.zipIdx_cons, mapO, ih, toLFrame, outcome_bind_def, outcome_pure_def]
    cases toFrameCels images m i (f.cels.filterMap id) <;> rfl

/-- The images and the image map of a file. -/
def fileImages (file : File) : List Image := (keyed 0 file.frames).map (·.2)

theorem ofFile_eq (file : File) :
    AsepriteFile.ofFile file =
      (mapO (toLFrame (fileImages file) (mapOf 0 (keyed 0 file.frames))) (file.frames.zipIdx)).bind fun frames =>
        .ok ⟨file, file.layers.filterMap toLLayer, frames, file.tags.map toLTag, fileImages file⟩ := by
  simp only [AsepriteFile.ofFile, collectImages_eq, toLFrames_eq, outcome_bind_def, outcome_pure_def, List.nil_append,
    List.append_nil, List.length_nil, fileImages]

/-- The outcome for one cel of the file. -/
theorem toFrameCel_spec {file : File} (hs : SlotsOk file) {i l : Nat} {c : CelChunk} (hc : celAt file i l = some c)
    (hl : c.layerIndex.toNat = l) :
    (Resolvable file l c → ∃ n im, toFrameCel (fileImages file) (mapOf 0 (keyed 0 file.frames)) i c
        = .ok ⟨(c.x, c.y), (im.width, im.height), l, n⟩ ∧
        (keyed 0 file.frames)[n]? = some ((sourceFrame i c, l), im)) ∧
      (¬ Resolvable file l c → ∃ e, toFrameCel (fileImages file) (mapOf 0 (keyed 0 file.frames)) i c = .err e ∧
        (e = .invalidCel ∨ e = .invalidLinkedCel i c.layerIndex)) := by
  have key : ∀ (j n : Nat) (im : Image), (keyed 0 file.frames)[n]? = some ((j, l), im) →
      (fileImages file)[n]? = some im := by
    intro j n im h
    simp only [fileImages, List.getElem?_map, h, Option.map_some]
  unfold toFrameCel imageIndexOf Resolvable sourceFrame
  cases hcon : c.content with
  | image im =>
    refine ⟨fun _ => ?_, fun h => absurd trivial h⟩
    have h1 : imageAt file i l = some im := by simp [imageAt, hc, ownImage, hcon]
    obtain ⟨n, hn⟩ := List.mem_iff_getElem?.1 ((mem_keyed_file hs).2 h1)
    refine ⟨n, im, ?_, hn⟩
    simp only [hl, (map_lookup hs (i, l) n).2 ⟨im, hn⟩, outcome_bind_def, Outcome.bind, key _ _ _ hn, outcome_pure_def]
  | linkedCel fp =>
    dsimp only
    cases hi : imageAt file fp.toNat l with
    | none =>
      refine ⟨fun h => by simp at h, fun _ => ⟨.invalidLinkedCel i c.layerIndex, ?_, .inr rfl⟩⟩
      rw [hl, (map_lookup_none hs fp.toNat l).2 hi]
      rfl
    | some im =>
      refine ⟨fun _ => ?_, fun h => absurd rfl h⟩
      obtain ⟨n, hn⟩ := List.mem_iff_getElem?.1 ((mem_keyed_file hs).2 hi)
      refine ⟨n, im, ?_, hn⟩
      simp only [hl, (map_lookup hs (fp.toNat, l) n).2 ⟨im, hn⟩, outcome_bind_def, Outcome.bind, key _ _ _ hn,
        outcome_pure_def]
  | compressedTilemap => exact ⟨fun h => h.elim, fun _ => ⟨.invalidCel, rfl, .inl rfl⟩⟩
  | unknown => exact ⟨fun h => h.elim, fun _ => ⟨.invalidCel, rfl, .inl rfl⟩⟩

/-- How a `FrameCel` of frame `i` comes from a cel of the file. -/
structure Shows (file : File) (i : Nat) (c : CelChunk) (fc : FrameCel) : Prop where
  at_ : celAt file i c.layerIndex.toNat = some c
  resolvable : Resolvable file c.layerIndex.toNat c
  origin : fc.origin = (c.x, c.y)
  layer : fc.layerIndex = c.layerIndex.toNat
  image : ∃ im, (keyed 0 file.frames)[fc.imageIndex]? = some ((sourceFrame i c, c.layerIndex.toNat), im) ∧
    fc.size = (im.width, im.height)

theorem toFrameCel_ok {file : File} (hs : SlotsOk file) {i : Nat} {c : CelChunk}
    (hc : celAt file i c.layerIndex.toNat = some c) {fc : FrameCel}
    (h : toFrameCel (fileImages file) (mapOf 0 (keyed 0 file.frames)) i c = .ok fc) : Shows file i c fc := by
  have hspec := toFrameCel_spec hs hc rfl
  by_cases hr : Resolvable file c.layerIndex.toNat c
  · obtain ⟨n, im, h1, h2⟩ := hspec.1 hr
    rw [h] at h1
    cases h1
    exact ⟨hc, hr, rfl, rfl, im, h2, rfl⟩
  · obtain ⟨e, h1, _⟩ := hspec.2 hr
    rw [h] at h1
    cases h1

theorem load_ok {plat : Plat} {b : Bytes} {f : AsepriteFile} :
    AsepriteFile.load plat b = .ok f ↔ parseFile plat b = .ok f.file ∧ AsepriteFile.ofFile f.file = .ok f := by
  simp only [AsepriteFile.load, outcome_bind_def]
  cases h : parseFile plat b with
  | err e => simp [Outcome.mapErr, Outcome.bind]
  | panic k => simp [Outcome.mapErr, Outcome.bind]
  | ok file =>
    simp only [Outcome.mapErr, Outcome.bind, Outcome.ok.injEq]
    constructor
    · intro h2
      have : f.file = file := by
        rw [ofFile_eq] at h2
        cases h3 : mapO (toLFrame (fileImages file) (mapOf 0 (keyed 0 file.frames))) file.frames.zipIdx with
        | ok x => rw [h3] at h2; simp only [Outcome.bind, Outcome.ok.injEq] at h2; rw [← h2]
        | err x => rw [h3] at h2; cases h2
        | panic x => rw [h3] at h2; cases h2
      rw [this]
      exact ⟨rfl, h2⟩
    · rintro ⟨rfl, h2⟩
      exact h2

/-- Everything `load` returns, from the parsed file. -/
theorem ofFile_ok {file : File} {f : AsepriteFile} (h : AsepriteFile.ofFile file = .ok f) :
    f.file = file ∧ f.layers = file.layers.filterMap toLLayer ∧ f.tags = file.tags.map toLTag ∧
      f.images = fileImages file ∧
      (file.frames.zipIdx).map (toLFrame (fileImages file) (mapOf 0 (keyed 0 file.frames))) = f.frames.map .ok := by
  rw [ofFile_eq] at h
  cases h3 : mapO (toLFrame (fileImages file) (mapOf 0 (keyed 0 file.frames))) file.frames.zipIdx with
  | ok x =>
    rw [h3] at h
    simp only [Outcome.bind, Outcome.ok.injEq] at h
    subst h
    exact ⟨rfl, rfl, rfl, rfl, (mapO_ok _ _ _).1 h3⟩
  | err x => rw [h3] at h; cases h
  | panic x => rw [h3] at h; cases h

theorem toLFrame_ok {images : List Image} {m : ImageMap} {fr : Frame} {i : Nat} {lf : LFrame} :
    toLFrame images m (fr, i) = .ok lf ↔ lf.duration = fr.duration ∧ lf.origin = (0, 0) ∧
      (fr.cels.filterMap id).map (toFrameCel images m i) = lf.cels.map .ok := by
  simp only [toLFrame, outcome_bind_def, outcome_pure_def, toFrameCels_eq]
  cases h : mapO (toFrameCel images m i) (fr.cels.filterMap id) with
  | ok x =>
    have h := (mapO_ok _ _ _).1 h
    simp only [Outcome.bind, Outcome.ok.injEq, h]
    constructor
    · rintro rfl
      exact ⟨rfl, rfl, rfl⟩
    · rintro ⟨h1, h2, h3⟩
      have : x = lf.cels := (List.map_inj_right (f := Outcome.ok (ε := LoadSpriteError)) (by
        intro a b h; cases h; rfl)).1 h3
      cases lf
      simp_all
  | err x =>
    simp only [Outcome.bind, reduceCtorEq, false_iff]
    rintro ⟨_, _, h3⟩
    rw [(mapO_ok _ _ _).2 h3] at h
    cases h
  | panic x =>
    simp only [Outcome.bind, reduceCtorEq, false_iff]
    rintro ⟨_, _, h3⟩
    rw [(mapO_ok _ _ _).2 h3] at h
    cases h

theorem map_ok_getElem? {ε α β : Type} {f : α → Outcome ε β} {xs : List α} {ys : List β}
    (h : xs.map f = ys.map .ok) (i : Nat) : (ys[i]?).map Outcome.ok = (xs[i]?).map f := by
  rw [← List.getElem?_map, ← List.getElem?_map, h]

/-- The frames of a loaded file, by index. -/
theorem frames_of_load {file : File} {f : AsepriteFile} (h : AsepriteFile.ofFile file = .ok f) :
    f.frames.length = file.frames.length ∧ ∀ (i : Nat) (fr : Frame) (lf : LFrame),
      file.frames[i]? = some fr → f.frames[i]? = some lf →
      lf.duration = fr.duration ∧ lf.origin = (0, 0) ∧
      (fr.cels.filterMap id).map (toFrameCel (fileImages file) (mapOf 0 (keyed 0 file.frames)) i)
        = lf.cels.map .ok := by
  obtain ⟨-, -, -, -, h⟩ := ofFile_ok h
  constructor
  · have := congrArg List.length h
    simpa using this.symm
  · intro i fr lf h1 h2
    have := map_ok_getElem? h i
    rw [h2, List.getElem?_zipIdx, h1] at this
    simp only [Option.map_some, Nat.zero_add, Option.some.injEq] at this
    exact toLFrame_ok.1 this.symm

/-- The cels of a loaded frame correspond one to one, in order, to the cels of the frame in the file. -/
theorem shows_of_load {file : File} (hs : SlotsOk file) {f : AsepriteFile} (h : AsepriteFile.ofFile file = .ok f)
    {i : Nat} {fr : Frame} {lf : LFrame} (h1 : file.frames[i]? = some fr) (h2 : f.frames[i]? = some lf) :
    lf.cels.length = (fr.cels.filterMap id).length ∧ ∀ (n : Nat) (c : CelChunk) (fc : FrameCel),
      (fr.cels.filterMap id)[n]? = some c → lf.cels[n]? = some fc → Shows file i c fc := by
  obtain ⟨-, -, hm⟩ := (frames_of_load h).2 i fr lf h1 h2
  constructor
  · have := congrArg List.length hm
    simpa using this.symm
  · intro n c fc hc hfc
    have := map_ok_getElem? hm n
    rw [hc, hfc] at this
    simp only [Option.map_some, Option.some.injEq] at this
    exact toFrameCel_ok hs ((mem_cels_iff hs h1).1 (List.mem_of_getElem? hc)) this.symm

theorem exists_frame_of_load {file : File} {f : AsepriteFile} (h : AsepriteFile.ofFile file = .ok f)
    {i : Nat} {lf : LFrame} (h2 : f.frames[i]? = some lf) : ∃ fr, file.frames[i]? = some fr := by
  have hlen := (frames_of_load h).1
  have : i < file.frames.length := by
    rw [← hlen]
    exact (List.getElem?_eq_some_iff.1 h2).1
  exact ⟨_, List.getElem?_eq_getElem this⟩

theorem exists_lframe_of_load {file : File} {f : AsepriteFile} (h : AsepriteFile.ofFile file = .ok f)
    {i : Nat} {fr : Frame} (h2 : file.frames[i]? = some fr) : ∃ lf, f.frames[i]? = some lf := by
  have hlen := (frames_of_load h).1
  have : i < f.frames.length := by
    rw [hlen]
    exact (List.getElem?_eq_some_iff.1 h2).1
  exact ⟨_, List.getElem?_eq_getElem this⟩

/-- Every cel of a loaded frame comes from a cel of the file. -/
theorem shows_of_mem {file : File} (hs : SlotsOk file) {f : AsepriteFile} (h : AsepriteFile.ofFile file = .ok f)
    {i : Nat} {lf : LFrame} (h2 : f.frames[i]? = some lf) {fc : FrameCel} (hfc : fc ∈ lf.cels) :
    ∃ c, Shows file i c fc := by
  obtain ⟨fr, h1⟩ := exists_frame_of_load h h2
  obtain ⟨hlen, hall⟩ := shows_of_load hs h h1 h2
  obtain ⟨n, hn⟩ := List.mem_iff_getElem?.1 hfc
  have : n < (fr.cels.filterMap id).length := by
    rw [← hlen]
    exact (List.getElem?_eq_some_iff.1 hn).1
  exact ⟨_, hall n _ fc (List.getElem?_eq_getElem this) hn⟩

/-- Every cel of the file is shown by a cel of the loaded frame. -/
theorem shown_of_cel {file : File} (hs : SlotsOk file) {f : AsepriteFile} (h : AsepriteFile.ofFile file = .ok f)
    {i l : Nat} {c : CelChunk} (hc : celAt file i l = some c) :
    c.layerIndex.toNat = l ∧ ∃ lf fc, f.frames[i]? = some lf ∧ fc ∈ lf.cels ∧ Shows file i c fc := by
  obtain ⟨fr, h1, h3⟩ := celAt_eq.1 hc
  have hl := hs.index fr (List.mem_of_getElem? h1) l c h3
  refine ⟨hl, ?_⟩
  obtain ⟨lf, h2⟩ := exists_lframe_of_load h h1
  obtain ⟨hlen, hall⟩ := shows_of_load hs h h1 h2
  obtain ⟨n, hn⟩ := List.mem_iff_getElem?.1 (mem_filterMap_id.2 (List.mem_of_getElem? h3))
  have hn' : n < lf.cels.length := by
    rw [hlen]
    exact (List.getElem?_eq_some_iff.1 hn).1
  exact ⟨lf, lf.cels[n], h2, List.getElem_mem hn', hall n c _ hn (List.getElem?_eq_getElem hn')⟩

/-- The layer indices in a loaded frame are strictly increasing. -/
theorem cels_sorted_of_load {file : File} (hs : SlotsOk file) {f : AsepriteFile} (h : AsepriteFile.ofFile file = .ok f)
    {i : Nat} {lf : LFrame} (h2 : f.frames[i]? = some lf) :
    (lf.cels.map (·.layerIndex)).Pairwise (· < ·) := by
  obtain ⟨fr, h1⟩ := exists_frame_of_load h h2
  obtain ⟨hlen, hall⟩ := shows_of_load hs h h1 h2
  have hsort := (slots_sorted fr.cels 0 fun l c hc => by
    rw [Nat.zero_add]; exact hs.index fr (List.mem_of_getElem? h1) l c hc).1
  have heq : lf.cels.map (·.layerIndex) = (fr.cels.filterMap id).map (·.layerIndex.toNat) := by
    apply List.ext_getElem?
    intro n
    simp only [List.getElem?_map]
    by_cases hn : n < lf.cels.length
    · have hn2 : n < (fr.cels.filterMap id).length := by omega
      rw [List.getElem?_eq_getElem hn, List.getElem?_eq_getElem hn2]
      have := (hall n _ _ (List.getElem?_eq_getElem hn2) (List.getElem?_eq_getElem hn)).layer
      simpa using this
    · rw [List.getElem?_eq_none (by omega), List.getElem?_eq_none (by omega)]
      rfl
  rw [heq, List.pairwise_map]
  exact hsort

theorem Shows.image' {file : File} (hs : SlotsOk file) {i : Nat} {c : CelChunk} {fc : FrameCel}
    (h : Shows file i c fc) : ∃ im, (fileImages file)[fc.imageIndex]? = some im ∧
      imageAt file (sourceFrame i c) c.layerIndex.toNat = some im ∧ fc.size = (im.width, im.height) := by
  obtain ⟨im, h1, h2⟩ := h.image
  refine ⟨im, ?_, (mem_keyed_file hs).1 (List.mem_of_getElem? h1), h2⟩
  simp only [fileImages, List.getElem?_map, h1, Option.map_some]

theorem Shows.same_image {file : File} (hs : SlotsOk file) {i j : Nat} {c d : CelChunk} {fc fd : FrameCel}
    (h : Shows file i c fc) (h' : Shows file j d fd) : fc.imageIndex = fd.imageIndex ↔
      sourceFrame i c = sourceFrame j d ∧ c.layerIndex.toNat = d.layerIndex.toNat := by
  obtain ⟨im, h1, h2⟩ := h.image
  obtain ⟨im', h1', h2'⟩ := h'.image
  constructor
  · intro he
    rw [he, h1'] at h1
    simp only [Option.some.injEq, Prod.mk.injEq] at h1
    exact ⟨h1.1.1.symm, h1.1.2.symm⟩
  · rintro ⟨he1, he2⟩
    have a := (map_lookup hs (sourceFrame i c, c.layerIndex.toNat) fc.imageIndex).2 ⟨im, h1⟩
    have b := (map_lookup hs (sourceFrame j d, d.layerIndex.toNat) fd.imageIndex).2 ⟨im', h1'⟩
    rw [he1, he2, b] at a
    exact (Option.some.inj a).symm

/-- `load` after a successful parse: success. -/
theorem ofFile_exists {file : File} (hs : SlotsOk file) :
    (∃ f, AsepriteFile.ofFile file = .ok f) ↔ ∀ i l c, celAt file i l = some c → Resolvable file l c := by
  have e : (∃ f, AsepriteFile.ofFile file = .ok f) ↔
      ∃ x, mapO (toLFrame (fileImages file) (mapOf 0 (keyed 0 file.frames))) file.frames.zipIdx = .ok x := by
    rw [ofFile_eq]
    cases mapO (toLFrame (fileImages file) (mapOf 0 (keyed 0 file.frames))) file.frames.zipIdx <;> simp [Outcome.bind]
  rw [e, mapO_exists]
  constructor
  · intro h i l c hc
    obtain ⟨fr, h1, h2⟩ := celAt_eq.1 hc
    have hl := hs.index fr (List.mem_of_getElem? h1) l c h2
    obtain ⟨lf, h3⟩ := h (fr, i) (List.mem_zipIdx_iff_getElem?.2 h1)
    obtain ⟨-, -, h4⟩ := toLFrame_ok.1 h3
    have h5 := (mapO_exists _ _).1 ⟨_, (mapO_ok _ _ _).2 h4⟩ c (mem_filterMap_id.2 (List.mem_of_getElem? h2))
    obtain ⟨fc, h5⟩ := h5
    subst hl
    exact (toFrameCel_ok hs hc h5).resolvable
  · rintro h ⟨fr, i⟩ hm
    have h1 : file.frames[i]? = some fr := List.mem_zipIdx_iff_getElem?.1 hm
    have : ∃ ys, mapO (toFrameCel (fileImages file) (mapOf 0 (keyed 0 file.frames)) i) (fr.cels.filterMap id)
        = .ok ys := by
      rw [mapO_exists]
      intro c hc
      have hc' := (mem_cels_iff hs h1).1 hc
      obtain ⟨n, im, h2, _⟩ := (toFrameCel_spec hs hc' rfl).1 (h i _ c hc')
      exact ⟨_, h2⟩
    obtain ⟨ys, hy⟩ := this
    exact ⟨⟨fr.duration, (0, 0), ys⟩, toLFrame_ok.2 ⟨rfl, rfl, (mapO_ok _ _ _).1 hy⟩⟩

/-- `load` after a successful parse never panics. -/
theorem ofFile_no_panic {file : File} (hs : SlotsOk file) (k : Panic) : AsepriteFile.ofFile file ≠ .panic k := by
  have h := mapO_panic (toLFrame (fileImages file) (mapOf 0 (keyed 0 file.frames))) file.frames.zipIdx (by
    rintro ⟨fr, i⟩ hm k
    have h1 : file.frames[i]? = some fr := List.mem_zipIdx_iff_getElem?.1 hm
    have h2 := mapO_panic (toFrameCel (fileImages file) (mapOf 0 (keyed 0 file.frames)) i) (fr.cels.filterMap id) (by
      intro c hc k
      have hc' := (mem_cels_iff hs h1).1 hc
      have hsp := toFrameCel_spec hs hc' rfl
      by_cases hr : Resolvable file c.layerIndex.toNat c
      · obtain ⟨n, im, h2, _⟩ := hsp.1 hr
        rw [h2]
        simp
      · obtain ⟨e, h2, _⟩ := hsp.2 hr
        rw [h2]
        simp) k
    simp only [toLFrame, toFrameCels_eq, outcome_bind_def, outcome_pure_def]
    cases h3 : mapO (toFrameCel (fileImages file) (mapOf 0 (keyed 0 file.frames)) i) (fr.cels.filterMap id) with
    | ok x => simp [Outcome.bind]
    | err x => simp [Outcome.bind]
    | panic x => rw [h3] at h2; simpa [Outcome.bind] using h2) k
  rw [ofFile_eq]
  cases h3 : mapO (toLFrame (fileImages file) (mapOf 0 (keyed 0 file.frames))) file.frames.zipIdx with
  | ok x => simp [Outcome.bind]
  | err x => simp [Outcome.bind]
  | panic x => rw [h3] at h; simpa [Outcome.bind] using h

/-- Errors of the second pass are not parse errors. -/
theorem ofFile_not_parse {file : File} (hs : SlotsOk file) (e : NomErr) :
    AsepriteFile.ofFile file ≠ .err (.parse e) := by
  have h := mapO_err (toLFrame (fileImages file) (mapOf 0 (keyed 0 file.frames))) file.frames.zipIdx (.parse e) (by
    rintro ⟨fr, i⟩ hm
    have h1 : file.frames[i]? = some fr := List.mem_zipIdx_iff_getElem?.1 hm
    have h2 := mapO_err (toFrameCel (fileImages file) (mapOf 0 (keyed 0 file.frames)) i) (fr.cels.filterMap id)
        (.parse e) (by
      intro c hc
      have hc' := (mem_cels_iff hs h1).1 hc
      have hsp := toFrameCel_spec hs hc' rfl
      by_cases hr : Resolvable file c.layerIndex.toNat c
      · obtain ⟨n, im, h2, _⟩ := hsp.1 hr
        rw [h2]
        simp
      · obtain ⟨e', h2, h3⟩ := hsp.2 hr
        rw [h2]
        rcases h3 with rfl | rfl <;> simp)
    simp only [toLFrame, toFrameCels_eq, outcome_bind_def, outcome_pure_def]
    cases h3 : mapO (toFrameCel (fileImages file) (mapOf 0 (keyed 0 file.frames)) i) (fr.cels.filterMap id) with
    | ok x => simp [Outcome.bind]
    | panic x => simp [Outcome.bind]
    | err x => rw [h3] at h2; simpa [Outcome.bind] using h2)
  rw [ofFile_eq]
  cases h3 : mapO (toLFrame (fileImages file) (mapOf 0 (keyed 0 file.frames))) file.frames.zipIdx with
  | ok x => simp [Outcome.bind]
  | panic x => simp [Outcome.bind]
  | err x => rw [h3] at h; simpa [Outcome.bind] using h

end Ase
