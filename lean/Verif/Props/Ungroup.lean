import Verif.Spec.Ungroup
import Verif.Spec.Joined
import Verif.Props.Script

/-!
# C150: groups and links are never needed
-/

namespace Ase

open Spec

/-- What is stored of a cel. -/
def pictureItem (f : AsepriteFile) (c : FrameCel) : Option Item :=
  if OnPicture f c then (f.images[c.imageIndex]?).map fun im => (c.layerIndex, c.origin, im) else none

/-- The frames that are stored. -/
def pictureFrames (f : AsepriteFile) : List (UInt16 × List Item) :=
  f.frames.map fun fr => (fr.duration, fr.cels.filterMap (pictureItem f))

/-- The sprite with its groups made ordinary layers. -/
def ungroupedSprite (f : AsepriteFile) : Sprite :=
  { filmSprite f (f.layers.map fun l => { l with layerType := .normal }) (pictureFrames f) with tags := f.tags }

theorem pictureItem_layer {f : AsepriteFile} {c : FrameCel} {it : Item} (h : pictureItem f c = some it) : it.1 = c.layerIndex := by
  simp only [pictureItem] at h
  split at h
  · obtain ⟨im, _, rfl⟩ := Option.map_eq_some_iff.1 h
    rfl
  · cases h

theorem ungroupedSprite_possible {plat : Plat} {b : Bytes} {f : AsepriteFile} (hf : AsepriteFile.load plat b = .ok f) :
    Possible (ungroupedSprite f) := by
  have hp := C129_possible plat b f hf
  have h : Possible (filmSprite f (f.layers.map fun l => { l with layerType := .normal }) (pictureFrames f)) := by
    refine filmSprite_possible hf (by have : f.frames ≠ [] := hp.frames; simpa [pictureFrames] using this) ?_ ?_ ?_
    · intro l hl
      obtain ⟨l₀, h0, rfl⟩ := List.mem_map.1 hl
      exact ⟨.inl rfl, (hp.layers l₀ h0).2⟩
    · intro x hx
      obtain ⟨fr, hfr, rfl⟩ := List.mem_map.1 hx
      have := hp.sorted fr hfr
      rw [List.pairwise_map] at this ⊢
      refine List.Pairwise.filterMap _ ?_ this
      intro c d hcd x hx y hy
      rw [pictureItem_layer hx, pictureItem_layer hy]
      exact hcd
    · intro x hx it hit
      obtain ⟨fr, hfr, rfl⟩ := List.mem_map.1 hx
      obtain ⟨c, hc, h⟩ := List.mem_filterMap.1 hit
      rw [pictureItem_layer h]
      exact hp.layerIndex fr hfr c hc
  obtain ⟨home, hn⟩ := h.numbered
  exact ⟨h.depth, h.palette, h.noPalette, h.layers, hp.tags, h.frames, h.origin, h.sorted, h.layerIndex, h.size, home,
    ⟨hn.count, hn.ascending, hn.stored, hn.shown⟩⟩

theorem ungrouped_get {plat : Plat} {b : Bytes} {f : AsepriteFile} (hf : AsepriteFile.load plat b = .ok f) {i : Nat} {fr : LFrame}
    (h : (ungroupedSprite f).frames[i]? = some fr) :
    ∃ lf, f.frames[i]? = some lf ∧ fr.duration = lf.duration ∧
      fr.cels.map (celShows (ungroupedSprite f).images) = (lf.cels.filter (OnPicture f)).map (celShows f.images) := by
  have hp := C129_possible plat b f hf
  obtain ⟨d, its, hk, rfl⟩ := filmSprite_frame (f := f) (layers := f.layers.map fun l => { l with layerType := .normal }) h
  have hk' := hk
  rw [pictureFrames, List.getElem?_map] at hk
  obtain ⟨lf, hlf, he⟩ := Option.map_eq_some_iff.1 hk
  cases he
  refine ⟨lf, hlf, rfl, ?_⟩
  have h1 : ((((lf.cels.filterMap (pictureItem f)).zipIdx (startOf ((pictureFrames f).map (·.2)) i)).map fun y : Item × Nat =>
      (⟨y.1.2.1, (y.1.2.2.width, y.1.2.2.height), y.1.1, y.2⟩ : FrameCel)).map (celShows (ungroupedSprite f).images)) =
      (lf.cels.filterMap (pictureItem f)).map fun it => (it.2.1, (it.2.2.width, it.2.2.height), it.1, some it.2.2) := by
    rw [List.map_map]
    conv => rhs; rw [← List.zipIdx_map_fst (startOf ((pictureFrames f).map (·.2)) i) (lf.cels.filterMap (pictureItem f)), List.map_map]
    refine List.map_congr_left fun x hx => ?_
    obtain ⟨h4, h5⟩ := List.mk_mem_zipIdx_iff_le_and_getElem?_sub.1 (show (x.1, x.2) ∈ _ from hx)
    have h6 : ((pictureFrames f).map (·.2))[i]? = some (lf.cels.filterMap (pictureItem f)) := by rw [List.getElem?_map, hk']; rfl
    have h7 := flatten_at h6 h5
    rw [Nat.add_sub_cancel' h4] at h7
    simp only [Function.comp_def, celShows, ungroupedSprite, filmSprite, List.getElem?_map, h7, Option.map_some]
  refine h1.trans ?_
  rw [List.map_filterMap, ← List.filterMap_eq_map, List.filterMap_filter]
  refine List.filterMap_congr fun c hc => ?_
  obtain ⟨im, h2, h3⟩ := hp.size lf (List.mem_of_getElem? hlf) c hc
  have h2' : f.images[c.imageIndex]? = some im := h2
  simp only [pictureItem, h2', Option.map_some]
  split
  · simp only [Option.map_some, Function.comp_def, celShows, h2', h3]
  · rfl

theorem sum_filter_le {α : Type} (p : α → Bool) (φ : α → Nat) : ∀ l : List α, ((l.filter p).map φ).sum ≤ (l.map φ).sum
  | [] => Nat.le_refl _
  | a :: l => by
    have := sum_filter_le p φ l
    simp only [List.filter_cons, List.map_cons, List.sum_cons]
    split
    · simp only [List.map_cons, List.sum_cons]
      omega
    · omega

theorem ungroupedSprite_small {plat : Plat} {b : Bytes} {f : AsepriteFile} (hf : AsepriteFile.load plat b = .ok f)
    (hs : Small (spriteOf f)) : Small (ungroupedSprite f) := by
  intro fr hfr
  obtain ⟨i, hi⟩ := List.mem_iff_getElem?.1 hfr
  obtain ⟨lf, h1, -, h2⟩ := ungrouped_get hf hi
  have h3 := hs lf (List.mem_of_getElem? h1)
  have h4 : (ungroupedSprite f).layers.map (fun l => 64 + (utf8 l.name).length) =
      (spriteOf f).layers.map fun l => 64 + (utf8 l.name).length := by
    show (f.layers.map _).map _ = _
    rw [List.map_map]
    rfl
  have h5 : fr.cels.map (fun c => 64 + dataLength (ungroupedSprite f) c.imageIndex) =
      (lf.cels.filter (OnPicture f)).map fun c => 64 + dataLength (spriteOf f) c.imageIndex := by
    have := congrArg (List.map fun x : (Int16 × Int16) × (UInt16 × UInt16) × Nat × Option Image =>
      64 + (x.2.2.2.map (·.data.length)).getD 0) h2
    rw [List.map_map, List.map_map] at this
    exact this
  have h6 := sum_filter_le (OnPicture f) (fun c => 64 + dataLength (spriteOf f) c.imageIndex) lf.cels
  rw [h4, h5]
  have h7 : (ungroupedSprite f).tags = (spriteOf f).tags := rfl
  rw [h7]
  omega

theorem startOf_succ {α : Type} {ls : List (List α)} {k : Nat} {l : List α} (h : ls[k]? = some l) :
    startOf ls (k + 1) = startOf ls k + l.length := by
  simp only [startOf, List.take_add_one, h, Option.toList_some, List.flatten_append, List.length_append, List.flatten_cons,
    List.flatten_nil, List.append_nil]

theorem startOf_mono {α : Type} (ls : List (List α)) {k m : Nat} (h : k ≤ m) : startOf ls k ≤ startOf ls m := by
  induction h with
  | refl => exact Nat.le_refl _
  | @step n _ ih =>
    refine Nat.le_trans ih ?_
    simp only [startOf, List.take_add_one, List.flatten_append, List.length_append]
    exact Nat.le_add_right _ _

/-- No two cels show the same image. -/
theorem film_own {f : AsepriteFile} {layers : List LLayer} {frs : List (UInt16 × List Item)} {i j : Nat} {fr gr : LFrame}
    (hi : (filmSprite f layers frs).frames[i]? = some fr) (hj : (filmSprite f layers frs).frames[j]? = some gr)
    {c d : FrameCel} (hc : c ∈ fr.cels) (hd : d ∈ gr.cels) (he : c.imageIndex = d.imageIndex) : i = j ∧ c.layerIndex = d.layerIndex := by
  obtain ⟨_, its, h1, rfl⟩ := filmSprite_frame hi
  obtain ⟨_, its', h2, rfl⟩ := filmSprite_frame hj
  obtain ⟨it, a, a1, a2, a3, -, a5⟩ := film_cel h1 hc
  obtain ⟨it', b, b1, b2, b3, -, b5⟩ := film_cel h2 hd
  have ha : a < its.length := (List.getElem?_eq_some_iff.1 a1).1
  have hb : b < its'.length := (List.getElem?_eq_some_iff.1 b1).1
  have s1 := startOf_succ (ls := frs.map (·.2)) (k := i) (l := its) (by rw [List.getElem?_map, h1]; rfl)
  have s2 := startOf_succ (ls := frs.map (·.2)) (k := j) (l := its') (by rw [List.getElem?_map, h2]; rfl)
  refine ⟨?_, ?_⟩
  · rcases Nat.lt_trichotomy i j with h | h | h
    · have := startOf_mono (frs.map (·.2)) (show i + 1 ≤ j from h)
      omega
    · exact h
    · have := startOf_mono (frs.map (·.2)) (show j + 1 ≤ i from h)
      omega
  · rw [he, b5] at a5
    cases a5
    rw [a3, b3]

/-- What is drawn of a cel that shows `x`. -/
def drawnFrom (layers : List LLayer) (sel : LayerSelection) (x : (Int16 × Int16) × (UInt16 × UInt16) × Nat × Option Image) :
    Option ((Int16 × Int16) × (UInt16 × UInt16) × Option Image × BlendMode × UInt8) :=
  (match layers[x.2.2.1]? with
    | some layer => if layer.layerType ≠ .group ∧ Selects sel x.2.2.1 layer then some layer else none
    | none => none : Option LLayer).map fun layer => (x.1, x.2.1, x.2.2.2, layer.blendMode, layer.opacity)

/-- **C150.** Groups and linked cels are never needed: for every sprite of which no frame needs 4 GiB there is a file with the same size,
colour mode, palette, tags and durations in which all layers are ordinary ones, and otherwise as before; its cels are, in
each frame, those of the first sprite that are on a layer and not on a group, with the same places and images, and there are
no linked cels: no two cels in it, of any frames and layers, share an image.  Each frame is rendered with each selection exactly as the frame of the first sprite, onto every buffer, failures included. -/
theorem C150_ungrouped (plat : Plat) (b : Bytes) (f : AsepriteFile) (hf : AsepriteFile.load plat b = .ok f)
    (hs : Small (spriteOf f)) :
    ∃ c g, AsepriteFile.load plat c = .ok g ∧ g.size = f.size ∧ g.file.header.colorDepth = f.file.header.colorDepth ∧
      g.file.palette = f.file.palette ∧ g.tags = f.tags ∧ g.layers = f.layers.map (fun l => { l with layerType := .normal }) ∧
      g.frames.length = f.frames.length ∧
      (∀ (i : Nat) fr lf, g.frames[i]? = some fr → f.frames[i]? = some lf → fr.duration = lf.duration ∧
        fr.cels.map (celShows g.images) = (lf.cels.filter (OnPicture f)).map (celShows f.images)) ∧
      (∀ (i j : Nat) fr gr, g.frames[i]? = some fr → g.frames[j]? = some gr → ∀ c ∈ fr.cels, ∀ d ∈ gr.cels,
        c.imageIndex = d.imageIndex → i = j ∧ c.layerIndex = d.layerIndex) ∧
      ∀ (p : Plat) (inflate : Inflater) (i : Nat) (sel : LayerSelection) (t : Bytes),
        g.renderFrame p inflate i sel t = f.renderFrame p inflate i sel t := by
  obtain ⟨c, g, hc, he⟩ := C129_every plat _ (ungroupedSprite_possible hf) (ungroupedSprite_small hf hs)
  have e1 : g.size = f.size := congrArg Sprite.size he
  have e2 : g.file.header.colorDepth = f.file.header.colorDepth := congrArg Sprite.depth he
  have e3 : g.file.palette = f.file.palette := congrArg Sprite.palette he
  have e4 : g.layers = f.layers.map (fun l => { l with layerType := .normal }) := congrArg Sprite.layers he
  have e5 : g.frames = (ungroupedSprite f).frames := congrArg Sprite.frames he
  have e6 : g.images = (ungroupedSprite f).images := congrArg Sprite.images he
  have hlen : g.frames.length = f.frames.length := by rw [e5]; simp [ungroupedSprite, filmSprite, pictureFrames]
  have hget : ∀ (i : Nat) fr lf, g.frames[i]? = some fr → f.frames[i]? = some lf → fr.duration = lf.duration ∧
      fr.cels.map (celShows g.images) = (lf.cels.filter (OnPicture f)).map (celShows f.images) := by
    intro i fr lf h1 h2
    rw [e5] at h1
    obtain ⟨lf', h3, h4⟩ := ungrouped_get hf h1
    cases h3.symm.trans h2
    rw [e6]
    exact h4
  refine ⟨c, g, hc, e1, e2, e3, congrArg Sprite.tags he, e4, hlen, hget, fun i j fr gr h1 h2 c hc d hd h => ?_,
    fun p inflate i sel t => ?_⟩
  · rw [e5] at h1 h2
    exact film_own (f := f) (layers := f.layers.map fun l => { l with layerType := .normal }) h1 h2 hc hd h
  have cb : canvasBytes g = canvasBytes f := by
    simp only [canvasBytes]
    rw [show g.file.header.width = f.file.header.width from congrArg Prod.fst e1,
      show g.file.header.height = f.file.header.height from congrArg Prod.snd e1]
  rw [renderFrame_eq, renderFrame_eq, cb]
  split
  · rfl
  · cases h1 : f.frames[i]? with
    | none =>
      rw [List.getElem?_eq_none (by have := List.getElem?_eq_none_iff.1 h1; omega)]
    | some lf =>
      have hi : i < g.frames.length := by have := (List.getElem?_eq_some_iff.1 h1).1; omega
      rw [List.getElem?_eq_getElem hi]
      have h2 := (hget i _ lf (List.getElem?_eq_getElem hi) h1).2
      refine forEach_draws e1 e2 e3 p inflate sel sel _ (g.frames[i]).cels lf.cels (Nat.le_refl _) ?_ t
      have h3 : (g.frames[i]).cels.filterMap (cellDraw g sel) =
          ((g.frames[i]).cels.map (celShows g.images)).filterMap (drawnFrom g.layers sel) := by
        rw [List.filterMap_map]
        rfl
      rw [h3, h2, List.filterMap_map, List.filterMap_filter]
      refine List.filterMap_congr fun c _ => ?_
      have hsel : ∀ l : LLayer, Selects sel c.layerIndex { l with layerType := .normal } ↔ Selects sel c.layerIndex l := by
        intro l
        cases sel <;> exact Iff.rfl
      simp only [OnPicture, Function.comp_def, drawnFrom, cellDraw, drawnOn, celShows, e4, List.getElem?_map]
      cases f.layers[c.layerIndex]? with
      | none => rfl
      | some l =>
        by_cases hg : l.layerType = .group
        · simp [hg]
        · simp only [Option.any_some, Option.map_some, hsel, bne_iff_ne, ne_eq, hg, not_false_eq_true, true_and, if_true]
          by_cases hx : Selects sel c.layerIndex l <;> simp [hx]

/-- A cel on an ordinary layer and one on a group: the hypotheses hold, only the first one is kept, and the file without the
other one (the second file) gives the same picture. -/
example :
    let b := Sample.header 2 1 32 ++ Sample.frame 1 [Sample.layer 1 0 0 255 [65], Sample.layer 1 1 0 255 [66],
      Sample.cel 0 0 0 1 1 [90, 80, 70, 255], Sample.cel 1 1 0 1 1 [200, 100, 0, 128]]
    let b' := Sample.header 2 1 32 ++ Sample.frame 1 [Sample.layer 1 0 0 255 [65], Sample.layer 1 0 0 255 [66],
      Sample.cel 0 0 0 1 1 [90, 80, 70, 255]]
    (match AsepriteFile.load ⟨true, 10⟩ b, AsepriteFile.load ⟨true, 10⟩ b' with
      | .ok f, .ok g => decide (Small (spriteOf f)) && decide (f.layers.map (·.layerType) = [.normal, .group]) &&
          decide ((ungroupedSprite f).layers = g.layers ∧ (ungroupedSprite f).images = g.images ∧
            (ungroupedSprite f).frames = g.frames) &&
          decide (f.frames.map (·.cels.map (OnPicture f)) = [[true, false]])
      | _, _ => false) = true ∧
    Sample.render ⟨true, 10⟩ b 0 .all (List.replicate 8 0) = some (.ok (), [90, 80, 70, 255, 0, 0, 0, 0]) ∧
    Sample.render ⟨true, 10⟩ b' 0 .all (List.replicate 8 0) = some (.ok (), [90, 80, 70, 255, 0, 0, 0, 0]) := by
  decide +kernel

end Ase
