import Verif.Spec.AsRead
import Verif.Lemmas.Reference

/-!
# The cels of a loaded frame and the file without what the crate ignores
-/

namespace Ase

open Spec

theorem layers_asRead (p : LLayer → Bool) (raw : RawFile) :
    Doc.layers (Doc.asRead p raw) = ((Doc.layers raw).filter isDrawn).map (Doc.readLayer p) := by
  unfold Doc.layers allChunks Doc.asRead
  dsimp only
  induction raw.frames with
  | nil => rfl
  | cons fr frs ih =>
    simp only [List.map_cons, List.flatMap_cons, List.filterMap_append, List.filter_append, List.map_append] at ih ⊢
    rw [ih]
    congr 1
    induction fr.chunks with
    | nil => rfl
    | cons c cs ih =>
      cases c with
      | layer l =>
        by_cases h : l.layerType = .normal ∨ l.layerType = .group
        · have h' : isDrawn l = true := by simpa [isDrawn] using h
          simp [Doc.readChunk, h, h', ih]
        · have h' : isDrawn l = false := by simpa [isDrawn] using h
          simp [Doc.readChunk, h, h', ih]
      | _ => simpa [Doc.readChunk] using ih

theorem cels_asRead (p : LLayer → Bool) (fr : RawFrame) :
    Doc.cels { fr with chunks := fr.chunks.filterMap (Doc.readChunk p) } = (Doc.cels fr).map Doc.readCel := by
  unfold Doc.cels
  dsimp only
  induction fr.chunks with
  | nil => rfl
  | cons c cs ih =>
    cases c with
    | layer l =>
      by_cases h : l.layerType = .normal ∨ l.layerType = .group
      · simpa [Doc.readChunk, h] using ih
      · simpa [Doc.readChunk, h] using ih
    | _ => simpa [Doc.readChunk] using ih

theorem celOf_asRead (p : LLayer → Bool) (raw : RawFile) (i l : Nat) :
    Doc.celOf (Doc.asRead p raw) i l = (Doc.celOf raw i l).map Doc.readCel := by
  unfold Doc.celOf Doc.asRead
  rw [List.getElem?_map]
  cases raw.frames[i]? with
  | none => rfl
  | some fr =>
    simp only [Option.map_some, Option.bind_some, cels_asRead]
    unfold slot
    rw [List.filter_map, List.getLast?_map]
    rfl

theorem imageOf_asRead (p : LLayer → Bool) (raw : RawFile) (l : Nat) (c : CelChunk) :
    Doc.imageOf (Doc.asRead p raw) l (Doc.readCel c) = Doc.imageOf raw l c := by
  unfold Doc.imageOf Doc.readCel
  dsimp only
  cases c.content with
  | linkedCel j =>
    dsimp only
    rw [celOf_asRead]
    cases Doc.celOf raw j.toNat l <;> rfl
  | _ => rfl

theorem palettes_asRead (p : LLayer → Bool) (raw : RawFile) :
    paletteWrites (allChunks (Doc.asRead p raw).frames) = paletteWrites (allChunks raw.frames) := by
  have e : allChunks (Doc.asRead p raw).frames = (allChunks raw.frames).filterMap (Doc.readChunk p) := by
    unfold allChunks Doc.asRead
    rw [List.filterMap_flatMap, List.flatMap_map]
  have h1 : ∀ cs, newPalettes (cs.filterMap (Doc.readChunk p)) = newPalettes cs := by
    intro cs
    unfold newPalettes
    rw [List.filterMap_filterMap]
    congr 1
    funext c
    cases c with
    | layer l => by_cases h : l.layerType = .normal ∨ l.layerType = .group <;> simp [Doc.readChunk, h]
    | _ => rfl
  have h2 : ∀ cs, oldPalettes (cs.filterMap (Doc.readChunk p)) = oldPalettes cs := by
    intro cs
    have h3 : ∀ (g : Chunk → Option OldPaletteChunk), (∀ l, g (.layer l) = none) → (∀ c, g (.cel c) = none) →
        (cs.filterMap (Doc.readChunk p)).filterMap g = cs.filterMap g := by
      intro g g1 g2
      rw [List.filterMap_filterMap]
      congr 1
      funext c
      cases c with
      | layer l => by_cases h : l.layerType = .normal ∨ l.layerType = .group <;> simp [Doc.readChunk, h, g1]
      | cel c => simp [Doc.readChunk, g2]
      | _ => rfl
    have h4 : oldPalettes4 (cs.filterMap (Doc.readChunk p)) = oldPalettes4 cs := h3 _ (fun _ => rfl) (fun _ => rfl)
    have h11 : oldPalettes11 (cs.filterMap (Doc.readChunk p)) = oldPalettes11 cs := h3 _ (fun _ => rfl) (fun _ => rfl)
    unfold oldPalettes
    rw [h4, h11]
  unfold paletteWrites
  rw [e, h1, h2]

theorem shown_asRead (p : LLayer → Bool) (raw : RawFile) {l : Nat} {layer : LayerChunk}
    (h : (Doc.layers (Doc.asRead p raw))[l]? = some layer) :
    Doc.shown (Doc.layers (Doc.asRead p raw)) l = Doc.flag 1 layer := by
  unfold Doc.shown
  rw [h, Option.any_some]
  have : ((List.range l).all fun j => !Doc.encloses (Doc.layers (Doc.asRead p raw)) j l ||
      ((Doc.layers (Doc.asRead p raw))[j]?).any (Doc.flag 1)) = true := by
    rw [List.all_eq_true]
    intro j hj
    have hj := List.mem_range.1 hj
    have : Doc.encloses (Doc.layers (Doc.asRead p raw)) j l = false := by
      unfold Doc.encloses
      cases hg : (Doc.layers (Doc.asRead p raw))[j]? with
      | none => rfl
      | some g =>
        dsimp only
        rw [Bool.and_eq_false_iff]
        right
        rw [List.all_eq_false]
        refine ⟨layer, ?_, ?_⟩
        · rw [List.mem_iff_getElem?]
          refine ⟨l - (j + 1), ?_⟩
          rw [List.getElem?_drop, List.getElem?_take, if_pos (by omega), show j + 1 + (l - (j + 1)) = l by omega, h]
        · rw [layers_asRead] at h
          obtain ⟨a, -, rfl⟩ := List.mem_map.1 (List.mem_of_getElem? h)
          simp [Doc.readLayer]
    rw [this]
    rfl
  rw [this, Bool.and_true]

/-- The layers `layers()` lists. -/
theorem layers_of_load {raw : RawFile} {f : AsepriteFile} (hp : Parsed raw f.file)
    (hlf : f.layers = (f.file.layers.filter isDrawn).map asLayer) :
    f.layers = ((Doc.layers raw).filter isDrawn).map asLayer := by
  rw [hlf, hp.layers]
  have e : ∀ ls : List LayerChunk, (ls.filter isDrawn).map asLayer = ((ls.map bareLayer).filter isDrawn).map asLayer := by
    intro ls
    rw [List.filter_map, List.map_map]
    rfl
  rw [e, allLayers_bare, ← e]

theorem flag_one (b : Bool) : ((if b then 1 else 0 : UInt16) &&& 1 == 1) = b := by cases b <;> rfl
theorem flag_other (b : Bool) (n : UInt16) (hn : n = 8 ∨ n = 64) : ((if b then 1 else 0 : UInt16) &&& n == n) = false := by
  rcases hn with rfl | rfl <;> cases b <;> rfl

/-- What is drawn for a cel of a loaded frame, and what there is in the file for it. -/
theorem asRead_of_shows {raw : RawFile} {f : AsepriteFile} (hp : Parsed raw f.file)
    (hs : SlotsOk f.file) (hload : AsepriteFile.ofFile f.file = .ok f) {i : Nat} {p : LLayer → Bool}
    {c : CelChunk} {fc : FrameCel} (hc : Shows f.file i c fc) {l : Nat} (hl : c.layerIndex.toNat = l)
    (hlf : f.layers = (f.file.layers.filter isDrawn).map asLayer) :
    (drawnOn f (f.selectLayers p) fc = none ∧
      (((Doc.layers (Doc.asRead p raw))[l]?).bind fun layer => Doc.item (Doc.asRead p raw) i layer l) = none) ∨
    ∃ a d im, drawnOn f (f.selectLayers p) fc = some (asLayer a) ∧
      (Doc.layers (Doc.asRead p raw))[l]? = some (Doc.readLayer p a) ∧
      Doc.item (Doc.asRead p raw) i (Doc.readLayer p a) l = some ⟨Doc.readLayer p a, l, Doc.readCel d, im⟩ ∧
      f.images[fc.imageIndex]? = some im ∧ fc.origin = (d.x, d.y) ∧ fc.size = (im.width, im.height) := by
  have hls := layers_of_load hp hlf
  have hlay := layers_asRead p raw
  obtain ⟨d, hd, hcd⟩ := map_bareCel_some (hp.celAt i l) (hl ▸ hc.at_)
  obtain ⟨im, him, himA, hsize⟩ := hc.image' hs
  have himg : f.images[fc.imageIndex]? = some im := by
    rw [(ofFile_ok hload).2.2.2.1]; exact him
  have hdim : Doc.imageOf raw l d = some im := by
    unfold Doc.imageOf
    have hcont := bareCel_content hcd
    have hres := hc.resolvable
    unfold Resolvable at hres
    unfold sourceFrame at himA
    rw [hl] at himA
    rw [← hcont]
    cases hk : c.content with
    | image im' =>
      rw [hk] at himA
      unfold imageAt at himA
      rw [show celAt f.file i l = some c from hl ▸ hc.at_] at himA
      simpa [ownImage, hk] using himA
    | linkedCel j =>
      rw [hk] at himA
      rw [hp.imageAt] at himA
      exact himA
    | compressedTilemap => rw [hk] at hres; exact hres.elim
    | unknown => rw [hk] at hres; exact hres.elim
  have hx : (bareCel c).x = (bareCel d).x := by rw [hcd]
  have hy : (bareCel c).y = (bareCel d).y := by rw [hcd]
  change c.x = d.x at hx
  change c.y = d.y at hy
  have horig : fc.origin = (d.x, d.y) := by rw [hc.origin, hx, hy]
  have hfc : fc.layerIndex = l := by rw [hc.layer, hl]
  cases ha : ((Doc.layers raw).filter isDrawn)[l]? with
  | none =>
    have h1 : drawnOn f (f.selectLayers p) fc = none := by
      unfold drawnOn
      rw [hfc, hls, List.getElem?_map, ha]
      rfl
    refine .inl ⟨h1, ?_⟩
    rw [hlay, List.getElem?_map, ha]
    rfl
  | some a =>
    have hfl : f.layers[l]? = some (asLayer a) := by rw [hls, List.getElem?_map, ha]; rfl
    have hrl : (Doc.layers (Doc.asRead p raw))[l]? = some (Doc.readLayer p a) := by
      rw [hlay, List.getElem?_map, ha]; rfl
    have hda : a.layerType = .normal ∨ a.layerType = .group := by
      have := (List.mem_filter.1 (List.mem_of_getElem? ha)).2
      simpa [isDrawn] using this
    have hsel : Selects (f.selectLayers p) l (asLayer a) ↔ p (asLayer a) = true := by
      simp [Selects, AsepriteFile.selectLayers, hfl]
    have hflag : Doc.flag 1 (Doc.readLayer p a) = p (asLayer a) := flag_one _
    have hitem : Doc.item (Doc.asRead p raw) i (Doc.readLayer p a) l =
        if a.layerType = .normal ∧ p (asLayer a) = true then some ⟨Doc.readLayer p a, l, Doc.readCel d, im⟩ else none := by
      unfold Doc.item
      rw [shown_asRead p raw hrl, hflag, show Doc.flag 64 (Doc.readLayer p a) = false from flag_other _ _ (.inr rfl),
        celOf_asRead, hd, Option.map_some, Option.bind_some, imageOf_asRead, hdim]
      simp [Doc.readLayer]
    by_cases hq : a.layerType = .normal ∧ p (asLayer a) = true
    · refine .inr ⟨a, d, im, ?_, hrl, by rw [hitem, if_pos hq], himg, horig, hsize⟩
      unfold drawnOn
      rw [hfc, hfl]
      dsimp only
      rw [if_pos ⟨by rw [show (asLayer a).layerType = a.layerType from rfl, hq.1]; simp, hsel.2 hq.2⟩]
    · refine .inl ⟨?_, by rw [hrl, Option.bind_some, hitem, if_neg hq]⟩
      unfold drawnOn
      rw [hfc, hfl]
      dsimp only
      rw [if_neg]
      rintro ⟨h1, h2⟩
      exact hq ⟨hda.resolve_right h1, hsel.1 h2⟩

/-- One cel. -/
theorem compose_asRead_item {plat : Plat} {inflate : Inflater} {raw : RawFile} {f : AsepriteFile} (hp : Parsed raw f.file)
    (hs : SlotsOk f.file) (hload : AsepriteFile.ofFile f.file = .ok f) {i : Nat} {p : LLayer → Bool}
    {c : CelChunk} {fc : FrameCel} (hc : Shows f.file i c fc) {l : Nat} (hl : c.layerIndex.toNat = l)
    (hlf : f.layers = (f.file.layers.filter isDrawn).map asLayer) (x y : Nat) (col : Color) :
    compose plat inflate f (f.selectLayers p) x y [fc] col =
      Doc.draw plat inflate (Doc.asRead p raw) x y
        (((Doc.layers (Doc.asRead p raw))[l]?).bind fun layer => Doc.item (Doc.asRead p raw) i layer l).toList col := by
  rw [compose]
  rcases asRead_of_shows hp hs hload (p := p) hc hl hlf with ⟨h1, h2⟩ | ⟨a, d, im, h1, hrl, hitem, himg, horig, hsize⟩
  · rw [h1, h2]
    rfl
  · rw [h1, hrl, Option.bind_some, hitem]
    have hcol : (coveredBy fc x y).bind (imageColor inflate f fc.imageIndex)
        = (Doc.place ⟨Doc.readLayer p a, l, Doc.readCel d, im⟩ x y).bind
            (Doc.color inflate (Doc.asRead p raw) ⟨Doc.readLayer p a, l, Doc.readCel d, im⟩) := by
      have hcov : coveredBy fc x y = Doc.place ⟨Doc.readLayer p a, l, Doc.readCel d, im⟩ x y := by
        unfold coveredBy Doc.place
        rw [horig, hsize]
        rfl
      rw [hcov]
      cases hpc : Doc.place ⟨Doc.readLayer p a, l, Doc.readCel d, im⟩ x y with
      | none => rfl
      | some n =>
        simp only [Option.bind_some]
        unfold imageColor
        rw [himg, Option.bind_some]
        have := color_eq hp inflate (it := ⟨Doc.readLayer p a, l, Doc.readCel d, im⟩) (p := n) (by
          intro _ h8
          rw [show Doc.flag 8 (Doc.readLayer p a) = false from flag_other _ _ (.inl rfl)] at h8
          cases h8)
        rw [this]
        unfold Doc.color
        rw [palettes_asRead]
        rfl
    have hop : Doc.opacity (Doc.asRead p raw) ⟨Doc.readLayer p a, l, Doc.readCel d, im⟩ = a.opacity :=
      opacity_full ⟨rfl, .inl (show (1 : UInt32) &&& 1 = 1 by decide)⟩
    rw [hcol]
    show _ = Doc.draw plat inflate (Doc.asRead p raw) x y [⟨Doc.readLayer p a, l, Doc.readCel d, im⟩] col
    rw [Doc.draw, hop]
    cases (Doc.place ⟨Doc.readLayer p a, l, Doc.readCel d, im⟩ x y).bind
        (Doc.color inflate (Doc.asRead p raw) ⟨Doc.readLayer p a, l, Doc.readCel d, im⟩) with
    | none => rfl
    | some front =>
      show (blend plat a.blendMode col front a.opacity).bind _ = (blend plat a.blendMode col front a.opacity).bind _
      cases blend plat a.blendMode col front a.opacity with
      | ok a => rfl
      | err e => exact nomatch e
      | panic k => rfl

/-- All cels of a frame, slot by slot. -/
theorem compose_asRead_slots {plat : Plat} {inflate : Inflater} {raw : RawFile} {f : AsepriteFile} (hp : Parsed raw f.file)
    (hs : SlotsOk f.file) (hload : AsepriteFile.ofFile f.file = .ok f) {i : Nat} {p : LLayer → Bool}
    (hlf : f.layers = (f.file.layers.filter isDrawn).map asLayer) (x y : Nat) (g : CelChunk → Outcome LoadSpriteError FrameCel)
    (hg : ∀ l c fc, celAt f.file i l = some c → g c = .ok fc → Shows f.file i c fc)
    (ss : List (Option CelChunk)) : ∀ (k : Nat) (fcs : List FrameCel) (col : Color),
      (∀ (j : Nat) c, ss[j]? = some (some c) → celAt f.file i (k + j) = some c ∧ c.layerIndex.toNat = k + j) →
      (∀ j : Nat, ss[j]? = some none → celAt f.file i (k + j) = none) →
      (ss.filterMap id).map g = fcs.map .ok →
      compose plat inflate f (f.selectLayers p) x y fcs col =
        Doc.draw plat inflate (Doc.asRead p raw) x y ((List.range' k ss.length).filterMap fun l =>
          ((Doc.layers (Doc.asRead p raw))[l]?).bind fun layer => Doc.item (Doc.asRead p raw) i layer l) col := by
  induction ss with
  | nil =>
    intro k fcs col _ _ hm
    cases fcs with
    | nil => rfl
    | cons => cases hm
  | cons s ss ih =>
    intro k fcs col hss hnone hm
    have hss' : ∀ (j : Nat) (c : CelChunk), ss[j]? = some (some c) →
        celAt f.file i ((k + 1) + j) = some c ∧ c.layerIndex.toNat = (k + 1) + j := by
      intro j c hj
      rw [Nat.add_assoc, Nat.add_comm 1 j]
      exact hss (j + 1) c hj
    have hnone' : ∀ j : Nat, ss[j]? = some none → celAt f.file i ((k + 1) + j) = none := by
      intro j hj
      rw [Nat.add_assoc, Nat.add_comm 1 j]
      exact hnone (j + 1) hj
    have hsplit : ∀ h : Nat → Option Doc.Item, (List.range' k (s :: ss).length).filterMap h =
        (h k).toList ++ (List.range' (k + 1) ss.length).filterMap h := by
      intro h
      rw [List.length_cons, List.range'_succ, List.filterMap_cons]
      cases h k <;> rfl
    rw [hsplit, draw_append]
    cases s with
    | none =>
      have hi : (((Doc.layers (Doc.asRead p raw))[k]?).bind fun layer => Doc.item (Doc.asRead p raw) i layer k) = none := by
        cases (Doc.layers (Doc.asRead p raw))[k]? with
        | none => rfl
        | some layer =>
          have h1 := hp.celAt i k
          rw [show celAt f.file i k = none from hnone 0 rfl] at h1
          rw [Option.bind_some]
          unfold Doc.item
          rw [celOf_asRead]
          split
          · cases h2 : Doc.celOf raw i k with
            | none => rfl
            | some d => rw [h2] at h1; cases h1
          · rfl
      rw [hi]
      exact ih (k + 1) fcs col hss' hnone' hm
    | some c =>
      obtain ⟨hcat, hcl⟩ := hss 0 c rfl
      rw [Nat.add_zero] at hcat hcl
      cases fcs with
      | nil => cases hm
      | cons fc fcs =>
        simp only [List.filterMap_cons, id, List.map_cons, List.cons.injEq] at hm
        have hshow := hg k c fc hcat hm.1
        rw [compose_cons, compose_asRead_item hp hs hload hshow hcl hlf x y col]
        congr 1
        funext col'
        exact ih (k + 1) fcs col' hss' hnone' hm.2

theorem zipIdx_range {α β : Type} (g : α → Nat → Option β) (ls : List α) : ∀ (k n : Nat), ls.length ≤ n →
    ((ls.zipIdx k).filterMap fun (a, l) => g a l) =
      (List.range' k n).filterMap fun l => (ls[l - k]?).bind fun a => g a l := by
  induction ls with
  | nil =>
    intro k n _
    symm
    rw [List.zipIdx_nil, List.filterMap_nil, List.filterMap_eq_nil_iff]
    intro l _
    rfl
  | cons a ls ih =>
    intro k n hn
    obtain ⟨m, rfl⟩ : ∃ m, n = m + 1 := ⟨n - 1, by simp only [List.length_cons] at hn; omega⟩
    rw [List.zipIdx_cons, List.range'_succ, List.filterMap_cons, List.filterMap_cons, ih (k + 1) m (by simpa using hn)]
    have e : (List.range' (k + 1) m).filterMap (fun l => (ls[l - (k + 1)]?).bind fun a => g a l) =
        (List.range' (k + 1) m).filterMap (fun l => ((a :: ls)[l - k]?).bind fun a => g a l) := by
      have : ∀ L : List Nat, (∀ l ∈ L, k + 1 ≤ l) →
          L.filterMap (fun l => (ls[l - (k + 1)]?).bind fun a => g a l) =
            L.filterMap (fun l => ((a :: ls)[l - k]?).bind fun a => g a l) := by
        intro L
        induction L with
        | nil => exact fun _ => rfl
        | cons l L ih =>
          intro h
          have h1 := h l (.head _)
          rw [List.filterMap_cons, List.filterMap_cons, ih fun l hl => h l (.tail _ hl),
            show l - k = (l - (k + 1)) + 1 by omega, List.getElem?_cons_succ]
      exact this _ fun l hl => (List.mem_range'_1.1 hl).1
    rw [e]
    simp

theorem number_of_item {raw : RawFile} {i l : Nat} {layer : LayerChunk} {it : Doc.Item}
    (h : Doc.item raw i layer l = some it) : it.number = l ∧ Doc.celOf raw i l = some it.cel := by
  unfold Doc.item at h
  split at h
  · obtain ⟨c, h1, h⟩ := Option.bind_eq_some_iff.1 h
    obtain ⟨im, -, rfl⟩ := Option.map_eq_some_iff.1 h
    exact ⟨rfl, h1⟩
  · cases h

theorem stack_asRead (p : LLayer → Bool) (raw : RawFile) (i : Nat) :
    Doc.stack (Doc.asRead p raw) i = Doc.items (Doc.asRead p raw) i := by
  refine stack_of_sorted ?_
  unfold Doc.items
  rw [List.pairwise_filterMap]
  have : ∀ (ls : List LayerChunk) (k : Nat), (ls.zipIdx k).Pairwise fun a b => a.2 < b.2 := by
    intro ls
    induction ls with
    | nil => exact fun _ => .nil
    | cons a ls ih =>
      intro k
      rw [List.zipIdx_cons, List.pairwise_cons]
      refine ⟨fun b hb => ?_, ih (k + 1)⟩
      have := List.le_snd_of_mem_zipIdx hb
      exact this
  refine (this _ 0).imp ?_
  rintro ⟨a, n⟩ ⟨b, m⟩ hnm it hit it' hit'
  obtain ⟨h1, h2⟩ := number_of_item hit
  obtain ⟨h3, h4⟩ := number_of_item hit'
  rw [celOf_asRead] at h2 h4
  obtain ⟨c, -, h2⟩ := Option.map_eq_some_iff.1 h2
  obtain ⟨c', -, h4⟩ := Option.map_eq_some_iff.1 h4
  have hnm' : n < m := hnm
  have z1 : (Doc.readCel c).zIndex.toInt = 0 := rfl
  have z2 : (Doc.readCel c').zIndex.toInt = 0 := rfl
  unfold Doc.below
  rw [h1, h3, ← h2, ← h4, z1, z2]
  simp only [Int.add_zero, Bool.or_eq_true, decide_eq_true_eq]
  left
  omega

/-- Composing the cels of a loaded frame draws the picture of the file as it is read. -/
theorem compose_asRead {plat : Plat} {b : Bytes} {inflate : Inflater} {raw : RawFile} {f : AsepriteFile}
    (hraw : parseRawFile plat b = .ok raw) (h : AsepriteFile.load plat b = .ok f) (p : LLayer → Bool) {i : Nat}
    {lf : LFrame} (hi : f.frames[i]? = some lf) (x y : Nat) (col : Color) :
    compose plat inflate f (f.selectLayers p) x y lf.cels col =
      Doc.picture plat inflate (Doc.asRead p raw) i x y col := by
  obtain ⟨h1, h2⟩ := load_ok.1 h
  have hs := slotsOk_of_parse h1
  have hp := parsed_of_parse hraw h1
  obtain ⟨fr, hfr⟩ := exists_frame_of_load h2 hi
  obtain ⟨-, -, hm⟩ := (frames_of_load h2).2 i fr lf hfr hi
  have hlen : fr.cels.length = (Doc.layers raw).length := by
    rw [hs.len fr (List.mem_of_getElem? hfr), hp.layers]
    have := congrArg List.length (allLayers_bare raw)
    simpa using this
  unfold Doc.picture
  rw [stack_asRead]
  unfold Doc.items
  rw [zipIdx_range (fun layer l => Doc.item (Doc.asRead p raw) i layer l) _ 0 fr.cels.length (by
    rw [layers_asRead, List.length_map, hlen]
    exact List.length_filter_le _ _)]
  refine compose_asRead_slots hp hs h2 (C29_layers plat b f h).2 x y
    (toFrameCel (fileImages f.file) (mapOf 0 (keyed 0 f.file.frames)) i) ?_ fr.cels 0 lf.cels col ?_ ?_ hm
  · intro l c fc hc hok
    refine toFrameCel_ok hs ?_ hok
    obtain ⟨fr', h3, h4⟩ := celAt_eq.1 hc
    rw [hs.index fr' (List.mem_of_getElem? h3) l c h4]
    exact hc
  · intro j c hj
    rw [Nat.zero_add]
    exact ⟨celAt_eq.2 ⟨fr, hfr, hj⟩, hs.index fr (List.mem_of_getElem? hfr) j c hj⟩
  · intro j hj
    rw [Nat.zero_add]
    unfold celAt
    rw [hfr, Option.bind_some, hj]
    rfl

/-- Every cel that is drawn is an item of the file as it is read. -/
theorem asRead_of_drawn {plat : Plat} {b : Bytes} {raw : RawFile} {f : AsepriteFile}
    (hraw : parseRawFile plat b = .ok raw) (h : AsepriteFile.load plat b = .ok f) {p : LLayer → Bool} {i : Nat}
    {lf : LFrame} (hi : f.frames[i]? = some lf) {fc : FrameCel} (hfc : fc ∈ lf.cels)
    {layer : LLayer} (hd : drawnOn f (f.selectLayers p) fc = some layer) :
    ∃ it ∈ Doc.items (Doc.asRead p raw) i, it.layer.blendMode = layer.blendMode ∧
      f.images[fc.imageIndex]? = some it.image := by
  obtain ⟨h1, h2⟩ := load_ok.1 h
  have hs := slotsOk_of_parse h1
  have hp := parsed_of_parse hraw h1
  obtain ⟨c, hc⟩ := shows_of_mem hs h2 hi hfc
  rcases asRead_of_shows hp hs h2 (p := p) hc rfl (C29_layers plat b f h).2 with
    ⟨h3, -⟩ | ⟨a, d, im, h3, hrl, hitem, himg, -, -⟩
  · rw [h3] at hd; cases hd
  · rw [h3] at hd
    cases hd
    exact ⟨_, mem_items hrl hitem, rfl, himg⟩

end Ase
