import Verif.Spec.Reference
import Verif.Props.Load
import Verif.Props.Render

/-!
# From the loaded sprite to the chunks of the file

The cels of a loaded frame correspond to the items of the reference picture (`Spec.Doc`).
-/

namespace Ase

open Spec

/-! ## Forgetting user data -/

def bareLayer (l : LayerChunk) : LayerChunk := { l with userData := none }
def bareCel (c : CelChunk) : CelChunk := { c with userData := none }

theorem layersOf_bare (cs : List Chunk) :
    (layersOf cs).map bareLayer = (cs.filterMap fun | .layer l => some l | _ => none).map bareLayer := by
  induction cs with
  | nil => rfl
  | cons c cs ih => cases c <;> simp_all [layersOf, owned, bareLayer]

theorem celsOf_bare (cs : List Chunk) :
    (celsOf cs).map bareCel = (cs.filterMap fun | .cel c => some c | _ => none).map bareCel := by
  induction cs with
  | nil => rfl
  | cons c cs ih => cases c <;> simp_all [celsOf, owned, bareCel]

theorem allLayers_bare (raw : RawFile) : (allLayers raw.frames).map bareLayer = (Doc.layers raw).map bareLayer := by
  unfold allLayers Doc.layers allChunks
  rw [List.filterMap_flatMap, List.map_flatMap, List.map_flatMap]
  congr 1
  funext fr
  exact layersOf_bare fr.chunks

theorem slot_bare (cs : List CelChunk) (l : Nat) : slot (cs.map bareCel) l = (slot cs l).map bareCel := by
  unfold slot
  rw [List.filter_map, List.getLast?_map]
  rfl

theorem slot_celsOf (fr : RawFrame) (l : Nat) :
    (slot (celsOf fr.chunks) l).map bareCel = (slot (Doc.cels fr) l).map bareCel := by
  rw [← slot_bare, ← slot_bare, celsOf_bare]
  rfl

/-- The layer chunk number `l` of a parsed file. -/
theorem layer_raw {raw : RawFile} (l : Nat) :
    ((allLayers raw.frames)[l]?).map bareLayer = ((Doc.layers raw)[l]?).map bareLayer := by
  rw [← List.getElem?_map, ← List.getElem?_map, allLayers_bare]

/-- What a parsed file contains. -/
structure Parsed (raw : RawFile) (file : File) : Prop where
  header : file.header = raw.header
  layers : file.layers = allLayers raw.frames
  palette : filePalette raw = .ok file.palette
  cels : ∀ c ∈ allCels raw.frames, c.layerIndex.toNat < file.layers.length
  frames : file.frames = raw.frames.map fun f => ⟨f.duration, slots (allLayers raw.frames).length (celsOf f.chunks)⟩

theorem parsed_of_parse {plat : Plat} {b : Bytes} {raw : RawFile} {file : File} (hraw : parseRawFile plat b = .ok raw)
    (h : parseFile plat b = .ok file) : Parsed raw file := by
  rw [parseFile_eq hraw] at h
  obtain ⟨p, hp, hc, rfl⟩ := (assembleFile_ok (fresh hraw)).1 h
  exact ⟨rfl, rfl, hp, hc, rfl⟩

theorem Parsed.celAt {raw : RawFile} {file : File} (h : Parsed raw file) (i l : Nat) :
    (celAt file i l).map bareCel = (Doc.celOf raw i l).map bareCel := by
  unfold Spec.celAt Doc.celOf
  rw [h.frames, List.getElem?_map]
  cases hfr : raw.frames[i]? with
  | none => rfl
  | some fr =>
    simp only [Option.map_some, Option.bind_some]
    by_cases hl : l < (allLayers raw.frames).length
    · simp only [slots, List.getElem?_map, List.getElem?_range hl, Option.map_some, Option.join_some]
      exact slot_celsOf fr l
    · rw [← slot_celsOf]
      have hn : slot (celsOf fr.chunks) l = none := by
        unfold slot
        rw [List.getLast?_eq_none_iff, List.filter_eq_nil_iff]
        intro c hc
        have := h.cels c (List.mem_flatMap.2 ⟨fr, List.mem_of_getElem? hfr, hc⟩)
        rw [h.layers] at this
        simp only [decide_eq_true_eq]
        omega
      rw [hn]
      simp only [slots, List.getElem?_map]
      rw [List.getElem?_eq_none (by simpa using hl)]
      rfl

theorem map_bareCel_some {x y : Option CelChunk} (h : x.map bareCel = y.map bareCel) {c : CelChunk} (hx : x = some c) :
    ∃ d, y = some d ∧ bareCel c = bareCel d := by
  subst hx
  cases y with
  | none => cases h
  | some d => exact ⟨d, rfl, Option.some.inj h⟩

theorem bareCel_content {c d : CelChunk} (h : bareCel c = bareCel d) : c.content = d.content := congrArg (·.content) h

theorem Parsed.imageAt {raw : RawFile} {file : File} (h : Parsed raw file) (i l : Nat) :
    imageAt file i l = (Doc.celOf raw i l).bind ownImage := by
  have hc := h.celAt i l
  unfold Spec.imageAt
  cases h1 : Spec.celAt file i l with
  | none =>
    rw [h1] at hc
    cases h2 : Doc.celOf raw i l with
    | none => rfl
    | some d => rw [h2] at hc; cases hc
  | some c =>
    obtain ⟨d, h2, hb⟩ := map_bareCel_some hc h1
    rw [h2]
    simp only [Option.bind_some, ownImage, bareCel_content hb]

/-! ## One cel -/

theorem draw_append (plat : Plat) (inflate : Inflater) (raw : RawFile) (x y : Nat) (as bs : List Doc.Item) (c : Color) :
    Doc.draw plat inflate raw x y (as ++ bs) c =
      (Doc.draw plat inflate raw x y as c).bind (Doc.draw plat inflate raw x y bs) := by
  induction as generalizing c with
  | nil => rfl
  | cons a as ih =>
    simp only [List.cons_append, Doc.draw]
    split
    · next front _ =>
      cases blend plat a.layer.blendMode c front (Doc.opacity raw a) with
      | ok c' => exact ih c'
      | err e => exact nomatch e
      | panic k => rfl
    · exact ih c

theorem place_lt {it : Doc.Item} {x y p : Nat} (h : Doc.place it x y = some p) : p < pixelCount it.image := by
  unfold Doc.place at h
  dsimp only at h
  split at h
  · next hd =>
    obtain ⟨h1, h2, h3, h4⟩ := hd
    cases h
    generalize (x : Int) - it.cel.x.toInt = dx at *
    generalize (y : Int) - it.cel.y.toInt = dy at *
    unfold pixelCount
    exact row_major (by omega) (by omega)
  · cases h

theorem opacity_full {raw : RawFile} {it : Doc.Item} (h : it.cel.opacity = 255 ∧
    (raw.header.flags &&& 1 = 1 ∨ it.layer.opacity = 255)) : Doc.opacity raw it = it.layer.opacity := by
  unfold Doc.opacity
  rw [h.1]
  have key : ∀ o : UInt8, UInt8.ofNat (times o.toNat (255 : UInt8).toNat) = o := by
    intro o
    have ho := o.toNat_lt
    have : times o.toNat (255 : UInt8).toNat = o.toNat := by
      show (2 * (o.toNat * 255) + 255) / (2 * 255) = o.toNat
      omega
    rw [this, UInt8.ofNat_toNat]
  rcases h.2 with h | h
  · rw [if_pos h]
    exact key _
  · rw [h]
    split <;> exact key _

/-- Colours agree. -/
theorem color_eq {raw : RawFile} {file : File} (hp : Parsed raw file) (inflate : Inflater) {it : Doc.Item} {p : Nat}
    (hb : raw.header.colorDepth = .indexed → Doc.flag 8 it.layer = true →
      (Doc.bytes inflate raw it.image)[p]? ≠ some raw.header.transparentIndex) :
    storedPixel file.header.colorDepth file.palette (imageBytes inflate file it.image) p = Doc.color inflate raw it p := by
  have hbytes : imageBytes inflate file it.image = Doc.bytes inflate raw it.image := by
    unfold imageBytes Doc.bytes
    rw [hp.header]
  rw [hbytes]
  unfold storedPixel Doc.color
  rw [hp.header]
  cases hd : raw.header.colorDepth with
  | rgba => rfl
  | grayscale => rfl
  | unknown n => rfl
  | indexed =>
    have hpal := hp.palette
    rw [filePalette_eq, if_pos hd] at hpal
    split at hpal
    · cases hpal
    · injection hpal with hpal
      rw [← hpal]
      dsimp only
      cases hi : (Doc.bytes inflate raw it.image)[p]? with
      | none => rfl
      | some i =>
        have hlt := i.toNat_lt
        rw [Option.map_some]
        show ((paletteOf raw.header.transparentIndex (paletteWrites (allChunks raw.frames))).colors[i.toNat]?).bind _ = _
        simp only [paletteOf, List.getElem?_map, List.getElem?_range (show i.toNat < 256 from hlt), Option.map_some,
          Option.bind_some]
        by_cases ht : i = raw.header.transparentIndex
        · have hf : Doc.flag 8 it.layer = false := by
            cases h8 : Doc.flag 8 it.layer with
            | false => rfl
            | true => exact absurd (by rw [hi, ht]) (hb hd h8)
          rw [if_pos (by rw [ht]), if_pos ⟨ht, hf⟩]
          rfl
        · rw [if_neg (fun h => ht (UInt8.toNat_inj.1 h)), if_neg (fun h => ht h.1)]
          rfl

/-- A cel of a loaded frame is drawn exactly if its layer contributes to the reference picture, with the same image. -/
theorem item_of_shows {inflate : Inflater} {raw : RawFile} {f : AsepriteFile} (hp : Parsed raw f.file)
    (hs : SlotsOk f.file) (hload : AsepriteFile.ofFile f.file = .ok f) {i : Nat} (hpl : Doc.Plain inflate raw i)
    {c : CelChunk} {fc : FrameCel} (hc : Shows f.file i c fc) {l : Nat} (hl : c.layerIndex.toNat = l)
    {layer : LayerChunk} (hlayer : (Doc.layers raw)[l]? = some layer)
    (hlf : f.layers = (f.file.layers.filter isDrawn).map asLayer) :
    (drawnOn f .visible fc = none ∧ Doc.item raw i layer l = none) ∨
    ∃ d im, drawnOn f .visible fc = some (asLayer layer) ∧ Doc.item raw i layer l = some ⟨layer, l, d, im⟩ ∧
      f.images[fc.imageIndex]? = some im ∧ fc.origin = (d.x, d.y) ∧ fc.size = (im.width, im.height) := by
  obtain ⟨lc, hlc, hbl⟩ : ∃ lc, (allLayers raw.frames)[l]? = some lc ∧ bareLayer lc = bareLayer layer := by
    have := layer_raw (raw := raw) l
    rw [hlayer] at this
    cases h1 : (allLayers raw.frames)[l]? with
    | none => rw [h1] at this; cases this
    | some lc => rw [h1] at this; exact ⟨lc, rfl, Option.some.inj this⟩
  have hfl : f.layers[fc.layerIndex]? = some (asLayer layer) := by
    rw [hc.layer, hl, layer_of_load hlf, hp.layers, hlc]
    · have e : ∀ a : LayerChunk, asLayer a = asLayer (bareLayer a) := fun _ => rfl
      show some (asLayer lc) = some (asLayer layer)
      rw [e lc, hbl, ← e]
    · intro j a hj ha
      rw [hp.layers] at ha
      have := layer_raw (raw := raw) j
      rw [ha] at this
      cases h1 : (Doc.layers raw)[j]? with
      | none => rw [h1] at this; cases this
      | some a' =>
        rw [h1] at this
        have hb : bareLayer a = bareLayer a' := Option.some.inj this
        have ht : a.layerType = a'.layerType := congrArg (·.layerType) hb
        have := hpl.types a' (List.mem_of_getElem? h1)
        rw [← ht] at this
        simpa [isDrawn] using this
  obtain ⟨d, hd, hcd⟩ := map_bareCel_some (hp.celAt i l) (hl ▸ hc.at_)
  -- the image
  obtain ⟨im, him, himA, hsize⟩ := hc.image' hs
  have himg : f.images[fc.imageIndex]? = some im := by
    rw [(ofFile_ok hload).2.2.2.1]; exact him
  have hdim : Doc.imageOf raw l d = some im := by
    unfold Doc.imageOf
    have hcont := bareCel_content hcd
    have hres := hc.resolvable
    unfold Resolvable at hres
    unfold sourceFrame at himA
    rw [hl] at himA
    rw [← hcont]
    cases hk : c.content with
    | image im' =>
      rw [hk] at himA
      unfold imageAt at himA
      rw [show celAt f.file i l = some c from hl ▸ hc.at_] at himA
      simpa [ownImage, hk] using himA
    | linkedCel j =>
      rw [hk] at himA
      rw [hp.imageAt] at himA
      exact himA
    | compressedTilemap => rw [hk] at hres; exact hres.elim
    | unknown => rw [hk] at hres; exact hres.elim
  have hvis : (asLayer layer).visible = Doc.flag 1 layer := by
    show decide (layer.flags.bits &&& 1 = 1) = (layer.flags.bits &&& 1 == 1)
    rw [Bool.eq_iff_iff]
    simp
  by_cases hg : layer.layerType = .group
  · have h1 : drawnOn f .visible fc = none := by
      unfold drawnOn
      rw [hfl]
      dsimp only
      rw [if_neg]
      intro h
      exact h.1 hg
    have h2 : Doc.item raw i layer l = none := by
      unfold Doc.item
      rw [if_neg]
      rintro ⟨h, -⟩
      rw [hg] at h
      cases h
    exact .inl ⟨h1, h2⟩
  · have hn : layer.layerType = .normal := (hpl.types layer (List.mem_of_getElem? hlayer)).resolve_right hg
    by_cases hv : Doc.flag 1 layer = true
    · obtain ⟨hsh, href⟩ := hpl.visible (layer, l) (List.mk_mem_zipIdx_iff_getElem?.2 hlayer) hn
        (by rw [hd]; rfl) hv
      have h1 : drawnOn f .visible fc = some (asLayer layer) := by
        unfold drawnOn
        rw [hfl]
        dsimp only
        rw [if_pos]
        exact ⟨hg, by show (asLayer layer).visible = true; rw [hvis, hv]⟩
      have h2 : Doc.item raw i layer l = some ⟨layer, l, d, im⟩ := by
        unfold Doc.item
        rw [if_pos ⟨hn, hsh, href⟩, hd, Option.bind_some, hdim]
        rfl
      have hx : (bareCel c).x = (bareCel d).x := by rw [hcd]
      have hy : (bareCel c).y = (bareCel d).y := by rw [hcd]
      change c.x = d.x at hx
      change c.y = d.y at hy
      exact .inr ⟨d, im, h1, h2, himg, by rw [hc.origin, hx, hy], hsize⟩
    · have h1 : drawnOn f .visible fc = none := by
        unfold drawnOn
        rw [hfl]
        dsimp only
        rw [if_neg]
        intro h
        have : (asLayer layer).visible = true := h.2
        rw [hvis] at this
        exact hv this
      have h2 : Doc.item raw i layer l = none := by
        unfold Doc.item
        rw [if_neg]
        rintro ⟨-, h, -⟩
        unfold Doc.shown at h
        rw [hlayer] at h
        simp only [Option.any_some, Bool.and_eq_true] at h
        exact hv h.1
      exact .inl ⟨h1, h2⟩

theorem mem_items {raw : RawFile} {i l : Nat} {layer : LayerChunk} {it : Doc.Item}
    (hlayer : (Doc.layers raw)[l]? = some layer) (h : Doc.item raw i layer l = some it) : it ∈ Doc.items raw i := by
  unfold Doc.items
  rw [List.mem_filterMap]
  exact ⟨(layer, l), List.mk_mem_zipIdx_iff_getElem?.2 hlayer, h⟩

/-- What one cel of a loaded frame does is what the layer contributes to the reference picture. -/
theorem compose_item {plat : Plat} {inflate : Inflater} {raw : RawFile} {f : AsepriteFile} (hp : Parsed raw f.file)
    (hs : SlotsOk f.file) (hload : AsepriteFile.ofFile f.file = .ok f) {i : Nat} (hpl : Doc.Plain inflate raw i)
    {c : CelChunk} {fc : FrameCel} (hc : Shows f.file i c fc) {l : Nat} (hl : c.layerIndex.toNat = l)
    {layer : LayerChunk} (hlayer : (Doc.layers raw)[l]? = some layer)
    (hlf : f.layers = (f.file.layers.filter isDrawn).map asLayer) (x y : Nat) (col : Color) :
    compose plat inflate f .visible x y [fc] col = Doc.draw plat inflate raw x y (Doc.item raw i layer l).toList col := by
  rw [compose]
  rcases item_of_shows hp hs hload hpl hc hl hlayer hlf with ⟨h1, h2⟩ | ⟨d, im, h1, h2, himg, horig, hsize⟩
  · rw [h1, h2]
    rfl
  · rw [h1, h2]
    have hmem := mem_items hlayer h2
    have hcov : coveredBy fc x y = Doc.place ⟨layer, l, d, im⟩ x y := by
      unfold coveredBy Doc.place
      rw [horig, hsize]
    have hcol : (coveredBy fc x y).bind (imageColor inflate f fc.imageIndex)
        = (Doc.place ⟨layer, l, d, im⟩ x y).bind (Doc.color inflate raw ⟨layer, l, d, im⟩) := by
      rw [hcov]
      cases hpc : Doc.place ⟨layer, l, d, im⟩ x y with
      | none => rfl
      | some p =>
        simp only [Option.bind_some]
        unfold imageColor
        rw [himg, Option.bind_some]
        exact color_eq hp inflate (it := ⟨layer, l, d, im⟩)
          fun hdep h8 => hpl.background hdep _ hmem h8 p (place_lt hpc)
    have hop := opacity_full (hpl.opacity _ hmem)
    rw [hcol]
    show _ = Doc.draw plat inflate raw x y [⟨layer, l, d, im⟩] col
    rw [Doc.draw, hop]
    cases (Doc.place ⟨layer, l, d, im⟩ x y).bind (Doc.color inflate raw ⟨layer, l, d, im⟩) with
    | none => rfl
    | some front =>
      show (blend plat layer.blendMode col front layer.opacity).bind _
        = (blend plat layer.blendMode col front layer.opacity).bind _
      cases blend plat layer.blendMode col front layer.opacity with
      | ok a => rfl
      | err e => exact nomatch e
      | panic k => rfl

/-! ## All cels of a frame -/

theorem compose_items {plat : Plat} {inflate : Inflater} {raw : RawFile} {f : AsepriteFile} (hp : Parsed raw f.file)
    (hs : SlotsOk f.file) (hload : AsepriteFile.ofFile f.file = .ok f) {i : Nat} (hpl : Doc.Plain inflate raw i)
    (hlf : f.layers = (f.file.layers.filter isDrawn).map asLayer) (x y : Nat) (g : CelChunk → Outcome LoadSpriteError FrameCel)
    (hg : ∀ l c fc, celAt f.file i l = some c → g c = .ok fc → Shows f.file i c fc)
    (ls : List LayerChunk) : ∀ (k : Nat) (ss : List (Option CelChunk)) (fcs : List FrameCel) (col : Color),
      (∀ j, (Doc.layers raw)[k + j]? = ls[j]?) → ss.length = ls.length →
      (∀ j c, ss[j]? = some (some c) → celAt f.file i (k + j) = some c ∧ c.layerIndex.toNat = k + j) →
      (∀ j, ss[j]? = some none → celAt f.file i (k + j) = none) →
      (ss.filterMap id).map g = fcs.map .ok →
      compose plat inflate f .visible x y fcs col =
        Doc.draw plat inflate raw x y ((ls.zipIdx k).filterMap fun (layer, l) => Doc.item raw i layer l) col := by
  induction ls with
  | nil =>
    intro k ss fcs col _ hlen _ _ hm
    cases List.length_eq_zero_iff.1 hlen
    cases fcs with
    | nil => rfl
    | cons => cases hm
  | cons layer ls ih =>
    intro k ss fcs col hls hlen hss hnone hm
    cases ss with
    | nil => cases hlen
    | cons s ss =>
      have hls' : ∀ j, (Doc.layers raw)[(k + 1) + j]? = ls[j]? := fun j => by
        rw [Nat.add_assoc, Nat.add_comm 1 j]; exact hls (j + 1)
      have hss' : ∀ (j : Nat) (c : CelChunk), ss[j]? = some (some c) → celAt f.file i ((k + 1) + j) = some c ∧ c.layerIndex.toNat = (k + 1) + j := by
        intro j c hj
        rw [Nat.add_assoc, Nat.add_comm 1 j]
        exact hss (j + 1) c hj
      have hnone' : ∀ j : Nat, ss[j]? = some none → celAt f.file i ((k + 1) + j) = none := by
        intro j hj
        rw [Nat.add_assoc, Nat.add_comm 1 j]
        exact hnone (j + 1) hj
      have hlen' : ss.length = ls.length := by simpa using hlen
      rw [List.zipIdx_cons]
      have hsplit : ((layer, k) :: ls.zipIdx (k + 1)).filterMap (fun (layer, l) => Doc.item raw i layer l)
          = (Doc.item raw i layer k).toList ++ (ls.zipIdx (k + 1)).filterMap (fun (layer, l) => Doc.item raw i layer l) := by
        rw [List.filterMap_cons]
        dsimp only
        cases Doc.item raw i layer k <;> rfl
      rw [hsplit, draw_append]
      cases s with
      | none =>
        have hi : Doc.item raw i layer k = none := by
          have h0 := hnone 0 rfl
          have h1 := hp.celAt i k
          rw [show celAt f.file i k = none from h0] at h1
          unfold Doc.item
          split
          · cases h2 : Doc.celOf raw i k with
            | none => rfl
            | some d => rw [h2] at h1; cases h1
          · rfl
        rw [hi]
        exact ih (k + 1) ss fcs col hls' hlen' hss' hnone' hm
      | some c =>
        obtain ⟨hcat, hcl⟩ := hss 0 c rfl
        rw [Nat.add_zero] at hcat hcl
        cases fcs with
        | nil => cases hm
        | cons fc fcs =>
          simp only [List.filterMap_cons, id, List.map_cons, List.cons.injEq] at hm
          have hshow := hg k c fc hcat hm.1
          rw [compose_cons, compose_item hp hs hload hpl hshow hcl (by simpa using hls 0) hlf x y col]
          congr 1
          funext col'
          exact ih (k + 1) ss fcs col' hls' hlen' hss' hnone' hm.2

theorem below_total (a b : Doc.Item) (h : Doc.below a b = false) : Doc.below b a = true := by
  unfold Doc.below at *
  simp only [Bool.or_eq_false_iff, Bool.and_eq_false_iff, decide_eq_false_iff_not, Bool.or_eq_true, Bool.and_eq_true,
    decide_eq_true_eq, Int16.le_iff_toInt_le] at *
  omega

theorem below_trans {a b c : Doc.Item} (h : Doc.below a b = true) (h' : Doc.below b c = true) :
    Doc.below a c = true := by
  unfold Doc.below at *
  simp only [Bool.or_eq_true, Bool.and_eq_true, decide_eq_true_eq, Int16.le_iff_toInt_le] at *
  omega

theorem insert_perm (a : Doc.Item) (bs : List Doc.Item) : (Doc.insert a bs).Perm (a :: bs) := by
  induction bs with
  | nil => exact .refl _
  | cons b bs ih =>
    rw [Doc.insert]
    split
    · exact .refl _
    · exact (ih.cons b).trans (.swap a b bs)

theorem insert_sorted (a : Doc.Item) (bs : List Doc.Item) (h : bs.Pairwise fun a b => Doc.below a b = true) :
    (Doc.insert a bs).Pairwise fun a b => Doc.below a b = true := by
  induction bs with
  | nil => exact List.pairwise_singleton _ _
  | cons b bs ih =>
    rw [List.pairwise_cons] at h
    rw [Doc.insert]
    split
    · next hab =>
      rw [List.pairwise_cons, List.pairwise_cons]
      refine ⟨?_, h.1, h.2⟩
      intro c hc
      rcases List.mem_cons.1 hc with rfl | hc
      · exact hab
      · exact below_trans hab (h.1 c hc)
    · next hab =>
      rw [List.pairwise_cons]
      refine ⟨?_, ih h.2⟩
      intro c hc
      rcases List.mem_cons.1 ((insert_perm a bs).mem_iff.1 hc) with rfl | hc
      · exact below_total _ _ (by simpa using hab)
      · exact h.1 c hc

/-- The stack of a frame are its items, sorted. -/
theorem stack_sorted (raw : RawFile) (i : Nat) :
    (Doc.stack raw i).Perm (Doc.items raw i) ∧ (Doc.stack raw i).Pairwise fun a b => Doc.below a b = true := by
  unfold Doc.stack
  induction Doc.items raw i with
  | nil => exact ⟨.refl _, .nil⟩
  | cons a as ih => exact ⟨(insert_perm a _).trans (ih.1.cons a), insert_sorted a _ ih.2⟩

theorem stack_of_sorted {raw : RawFile} {i : Nat} (h : (Doc.items raw i).Pairwise fun a b => Doc.below a b = true) :
    Doc.stack raw i = Doc.items raw i := by
  unfold Doc.stack
  revert h
  induction Doc.items raw i with
  | nil => exact fun _ => rfl
  | cons a as ih =>
    intro h
    rw [List.pairwise_cons] at h
    rw [List.foldr_cons, ih h.2]
    cases as with
    | nil => rfl
    | cons b bs => rw [Doc.insert, if_pos (h.1 b List.mem_cons_self)]

/-- Composing the cels of a loaded frame draws the reference picture. -/
theorem compose_picture {plat : Plat} {b : Bytes} {inflate : Inflater} {raw : RawFile} {f : AsepriteFile}
    (hraw : parseRawFile plat b = .ok raw) (h : AsepriteFile.load plat b = .ok f) {i : Nat}
    (hpl : Doc.Plain inflate raw i) {lf : LFrame} (hi : f.frames[i]? = some lf) (x y : Nat) (col : Color) :
    compose plat inflate f .visible x y lf.cels col = Doc.picture plat inflate raw i x y col := by
  obtain ⟨h1, h2⟩ := load_ok.1 h
  have hs := slotsOk_of_parse h1
  have hp := parsed_of_parse hraw h1
  obtain ⟨fr, hfr⟩ := exists_frame_of_load h2 hi
  obtain ⟨-, -, hm⟩ := (frames_of_load h2).2 i fr lf hfr hi
  unfold Doc.picture
  rw [stack_of_sorted hpl.order]
  unfold Doc.items
  refine compose_items hp hs h2 hpl (C29_layers plat b f h).2 x y
    (toFrameCel (fileImages f.file) (mapOf 0 (keyed 0 f.file.frames)) i) ?_ (Doc.layers raw) 0 fr.cels lf.cels col ?_ ?_ ?_ ?_ hm
  · intro l c fc hc hok
    refine toFrameCel_ok hs ?_ hok
    obtain ⟨fr', h3, h4⟩ := celAt_eq.1 hc
    rw [hs.index fr' (List.mem_of_getElem? h3) l c h4]
    exact hc
  · intro j; rw [Nat.zero_add]
  · rw [hs.len fr (List.mem_of_getElem? hfr), hp.layers]
    have := congrArg List.length (allLayers_bare raw)
    simpa using this
  · intro j c hj
    rw [Nat.zero_add]
    exact ⟨celAt_eq.2 ⟨fr, hfr, hj⟩, hs.index fr (List.mem_of_getElem? hfr) j c hj⟩
  · intro j hj
    rw [Nat.zero_add]
    unfold celAt
    rw [hfr, Option.bind_some, hj]
    rfl

/-- Every drawn cel of a loaded frame is an item of the reference picture. -/
theorem item_of_drawn {plat : Plat} {b : Bytes} {inflate : Inflater} {raw : RawFile} {f : AsepriteFile}
    (hraw : parseRawFile plat b = .ok raw) (h : AsepriteFile.load plat b = .ok f) {i : Nat}
    (hpl : Doc.Plain inflate raw i) {lf : LFrame} (hi : f.frames[i]? = some lf) {fc : FrameCel} (hfc : fc ∈ lf.cels)
    {layer : LLayer} (hd : drawnOn f .visible fc = some layer) :
    ∃ it ∈ Doc.items raw i, asLayer it.layer = layer ∧ f.images[fc.imageIndex]? = some it.image := by
  obtain ⟨h1, h2⟩ := load_ok.1 h
  have hs := slotsOk_of_parse h1
  have hp := parsed_of_parse hraw h1
  obtain ⟨c, hc⟩ := shows_of_mem hs h2 hi hfc
  have hlt : c.layerIndex.toNat < (Doc.layers raw).length := by
    obtain ⟨fr, h5, h6⟩ := celAt_eq.1 hc.at_
    have hl := (List.getElem?_eq_some_iff.1 h6).1
    rw [hs.len fr (List.mem_of_getElem? h5), hp.layers] at hl
    have := congrArg List.length (allLayers_bare raw)
    simp only [List.length_map] at this
    omega
  rcases item_of_shows hp hs h2 hpl hc rfl (List.getElem?_eq_getElem hlt) (C29_layers plat b f h).2 with
    ⟨h3, -⟩ | ⟨d, im, h3, h4, himg, -, -⟩
  · rw [h3] at hd; cases hd
  · rw [h3] at hd
    cases hd
    exact ⟨_, mem_items (List.getElem?_eq_getElem hlt) h4, rfl, himg⟩

end Ase
