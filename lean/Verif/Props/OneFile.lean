import Verif.Model.Inflate
import Verif.Spec.OneFile
import Verif.Props.Edited
import Verif.Props.Possible

/-!
# C138: frames of several sprites in one file
-/

namespace Ase

open Spec

/-- What is stored of a cel: layer, position and image. -/
abbrev Item := Nat × (Int16 × Int16) × Image

/-- The cels of a frame that are on a layer, which is moved up by `k`. -/
def pageItems (k : Nat) (q : AsepriteFile × Nat) : List Item :=
  (pageCels q).filterMap fun c =>
    match q.1.layers[c.layerIndex]?, q.1.images[c.imageIndex]? with
    | some _, some im => some (k + c.layerIndex, c.origin, im)
    | _, _ => none

/-- The cels of all the frames. -/
def allItems : Nat → List (AsepriteFile × Nat) → List Item
  | _, [] => []
  | k, q :: qs => pageItems k q ++ allItems (k + q.1.layers.length) qs

/-- The cels with their own images, in order. -/
def itemCels (items : List Item) : List FrameCel :=
  items.zipIdx.map fun x => ⟨x.1.2.1, (x.1.2.2.width, x.1.2.2.height), x.1.1, x.2⟩

/-- What is drawn of an item. -/
def itemDraw (layers : List LLayer) (sel : LayerSelection) (it : Item) :
    Option ((Int16 × Int16) × (UInt16 × UInt16) × Option Image × BlendMode × UInt8) :=
  match layers[it.1]? with
  | some l => if l.layerType ≠ .group ∧ Selects sel it.1 l then
      some (it.2.1, (it.2.2.width, it.2.2.height), some it.2.2, l.blendMode, l.opacity) else none
  | none => none

theorem itemCels_draw {s : AsepriteFile} {items : List Item} (hi : s.images = items.map (·.2.2)) (sel : LayerSelection) :
    (itemCels items).filterMap (cellDraw s sel) = items.filterMap (itemDraw s.layers sel) := by
  have : items.filterMap (itemDraw s.layers sel) = (items.zipIdx.map Prod.fst).filterMap (itemDraw s.layers sel) := by
    rw [List.zipIdx_map_fst]
  rw [this, itemCels, List.filterMap_map, List.filterMap_map]
  refine List.filterMap_congr fun x hx => ?_
  obtain ⟨it, n⟩ := x
  have hn : items[n]? = some it := List.mem_zipIdx_iff_getElem?.1 hx
  simp only [Function.comp_def, cellDraw, drawnOn, itemDraw, hi, List.getElem?_map, hn, Option.map_some]
  cases s.layers[it.1]? with
  | none => rfl
  | some l => dsimp only; split <;> rfl

theorem pageItems_draw {plat : Plat} {b : Bytes} {q : AsepriteFile × Nat} (h : AsepriteFile.load plat b = .ok q.1)
    (k : Nat) (layers : List LLayer) (sel sel' : LayerSelection)
    (hl : ∀ l x, q.1.layers[l]? = some x → layers[k + l]? = some x ∧ (Selects sel (k + l) x ↔ Selects sel' l x)) :
    (pageItems k q).filterMap (itemDraw layers sel) = (pageCels q).filterMap (cellDraw q.1 sel') := by
  rw [pageItems, List.filterMap_filterMap]
  refine List.filterMap_congr fun c hc => ?_
  obtain ⟨im, e1, e2⟩ : ∃ im, q.1.images[c.imageIndex]? = some im ∧ c.size = (im.width, im.height) := by
    simp only [pageCels] at hc
    cases hf : q.1.frames[q.2]? with
    | none => simp [hf] at hc
    | some fr =>
      rw [hf] at hc
      exact (C129_possible plat b q.1 h).size fr (List.mem_of_getElem? hf) c hc
  simp only [cellDraw, drawnOn, e1]
  cases hx : q.1.layers[c.layerIndex]? with
  | none => rfl
  | some x =>
    obtain ⟨h1, h2⟩ := hl _ x hx
    simp only [Option.bind_some, itemDraw, h1, h2, e2]
    split <;> rfl

theorem pages_drawn {plat : Plat} {s : AsepriteFile} (sel : LayerSelection) (p : Plat) (inflate : Inflater) :
    ∀ (qs : List ((AsepriteFile × Nat) × LayerSelection)) (k : Nat)
      (_ : ∀ q ∈ qs, (∃ b, AsepriteFile.load plat b = .ok q.1.1) ∧ q.1.2 < q.1.1.frames.length ∧ SameMedium s q.1.1)
      (_ : s.layers.drop k = pageLayers (qs.map (·.1)))
      (_ : ∀ (pre post : List ((AsepriteFile × Nat) × LayerSelection)) q, qs = pre ++ q :: post → ∀ l x,
        q.1.1.layers[l]? = some x →
        (Selects sel (k + (pageLayers (pre.map (·.1))).length + l) x ↔ Selects q.2 l x))
      (cs : List FrameCel)
      (_ : cs.filterMap (cellDraw s sel) = (allItems k (qs.map (·.1))).filterMap (itemDraw s.layers sel))
      (t : Bytes) (_ : ¬ t.length < canvasBytes s),
      Buf.forEach (s.renderCel p inflate sel) cs t =
        Buf.forEach (fun q : (AsepriteFile × Nat) × LayerSelection => q.1.1.renderFrame p inflate q.1.2 q.2) qs t := by
  intro qs
  induction qs with
  | nil =>
    intro k _ _ _ cs hcs t _
    exact forEach_draws rfl rfl rfl p inflate sel sel _ cs [] (Nat.le_refl _) hcs t
  | cons q qs ih =>
    intro k hq hL hsel cs hcs t ht
    obtain ⟨⟨b, hb⟩, hi, m1, m2, m3⟩ := hq q List.mem_cons_self
    have hL' : s.layers.drop k = q.1.1.layers ++ pageLayers (qs.map (·.1)) := by rw [hL]; rfl
    have hget : ∀ l x, q.1.1.layers[l]? = some x → s.layers[k + l]? = some x := by
      intro l x hx
      rw [← List.getElem?_drop, hL', List.getElem?_append_left (List.getElem?_eq_some_iff.1 hx).1, hx]
    rw [List.map_cons, allItems, List.filterMap_append,
      pageItems_draw hb k s.layers sel q.2 (fun l x hx => ⟨hget l x hx, by simpa [pageLayers] using hsel [] qs q rfl l x hx⟩)] at hcs
    obtain ⟨cs1, cs2, rfl, e1, e2⟩ := List.filterMap_eq_append_iff.1 hcs
    have cb : canvasBytes q.1.1 = canvasBytes s := by
      simp only [canvasBytes]
      rw [show q.1.1.file.header.width = s.file.header.width from (congrArg Prod.fst m1).symm,
        show q.1.1.file.header.height = s.file.header.height from (congrArg Prod.snd m1).symm]
    have ef := renderFrame_eq p inflate q.1.1 q.1.2 q.2 t
    rw [List.getElem?_eq_getElem hi, cb, if_neg ht] at ef
    have hpc : pageCels q.1 = (q.1.1.frames[q.1.2]).cels := by
      simp only [pageCels, List.getElem?_eq_getElem hi, Option.map_some, Option.getD_some]
    have r1 := forEach_draws m1 m2 m3 p inflate sel q.2 _ cs1 (pageCels q.1) (Nat.le_refl _) e1 t
    rw [hpc] at r1
    dsimp only at ef
    rw [forEach_append, r1, ← ef]
    have hlen : (q.1.1.renderFrame p inflate q.1.2 q.2 t).2.length = t.length :=
      (C110_buffer p q.1.1 (typed_of_load hb) inflate q.1.2 q.2 t).2.2.2.1
    rw [show Buf.forEach (fun q : (AsepriteFile × Nat) × LayerSelection => q.1.1.renderFrame p inflate q.1.2 q.2) (q :: qs) t =
      Buf.bind (q.1.1.renderFrame p inflate q.1.2 q.2) (fun _ => Buf.forEach
        (fun q : (AsepriteFile × Nat) × LayerSelection => q.1.1.renderFrame p inflate q.1.2 q.2) qs) t from rfl, Buf.bind]
    revert hlen
    rcases q.1.1.renderFrame p inflate q.1.2 q.2 t with ⟨_ | _ | _, t'⟩ <;> intro hlen
    · dsimp only at hlen ⊢
      refine ih (k + q.1.1.layers.length) (fun q' h' => hq q' (List.mem_cons_of_mem _ h')) ?_ ?_ cs2 e2 t' (by omega)
      · rw [← List.drop_drop, hL', List.drop_left]
      · intro pre post q' he l x hx
        have := hsel (q :: pre) post q' (by rw [he]; rfl) l x hx
        simpa [pageLayers, Nat.add_assoc] using this
    · rfl
    · rfl

theorem allItems_sorted {plat : Plat} : ∀ (qs : List (AsepriteFile × Nat)) (k : Nat)
    (_ : ∀ q ∈ qs, ∃ b, AsepriteFile.load plat b = .ok q.1),
    ((allItems k qs).map (·.1)).Pairwise (· < ·) ∧
      ∀ it ∈ allItems k qs, k ≤ it.1 ∧ it.1 < k + (pageLayers qs).length := by
  intro qs
  induction qs with
  | nil => intro k _; exact ⟨List.Pairwise.nil, nofun⟩
  | cons q qs ih =>
    intro k hq
    obtain ⟨i1, i2⟩ := ih (k + q.1.layers.length) fun q' h' => hq q' (List.mem_cons_of_mem _ h')
    obtain ⟨b, hb⟩ := hq q List.mem_cons_self
    have hin : ∀ it ∈ pageItems k q, k ≤ it.1 ∧ it.1 < k + q.1.layers.length := by
      intro it hit
      obtain ⟨c, _, hc⟩ := List.mem_filterMap.1 hit
      split at hc
      · rename_i x im hx _
        cases hc
        have := (List.getElem?_eq_some_iff.1 hx).1
        exact ⟨by simp, by simpa using this⟩
      · cases hc
    have hlen : (pageLayers (q :: qs)).length = q.1.layers.length + (pageLayers qs).length := by simp [pageLayers]
    have hp : ((pageItems k q).map (·.1)).Pairwise (· < ·) := by
      have hs : ((pageCels q).map (·.layerIndex)).Pairwise (· < ·) := by
        rw [pageCels]
        cases hf : q.1.frames[q.2]? with
        | none => exact List.Pairwise.nil
        | some fr => exact (C129_possible plat b q.1 hb).sorted fr (List.mem_of_getElem? hf)
      rw [List.pairwise_map] at hs ⊢
      refine List.Pairwise.filterMap _ ?_ hs
      intro c d hcd x hx y hy
      split at hx
      · split at hy
        · cases hx
          cases hy
          exact Nat.add_lt_add_left hcd k
        · cases hy
      · cases hx
    rw [allItems]
    constructor
    · rw [List.map_append, List.pairwise_append]
      refine ⟨hp, i1, fun a ha c hc => ?_⟩
      obtain ⟨x, hx, rfl⟩ := List.mem_map.1 ha
      obtain ⟨y, hy, rfl⟩ := List.mem_map.1 hc
      have := hin x hx
      have := i2 y hy
      omega
    · intro it hit
      rcases List.mem_append.1 hit with h | h
      · have := hin it h
        omega
      · have := i2 it h
        omega

/-- A sprite with a single frame, on the canvas of a given one. -/
def sheet (f : AsepriteFile) (layers : List LLayer) (items : List Item) : Sprite where
  size := f.size
  depth := f.file.header.colorDepth
  transparent := f.file.header.transparentIndex
  palette := f.file.palette
  layers := layers
  frames := [⟨100, (0, 0), itemCels items⟩]
  tags := []
  images := items.map (·.2.2)

theorem mem_itemCels {items : List Item} {c : FrameCel} (h : c ∈ itemCels items) :
    ∃ it, items[c.imageIndex]? = some it ∧ c.layerIndex = it.1 ∧ c.size = (it.2.2.width, it.2.2.height) := by
  obtain ⟨⟨it, n⟩, hx, rfl⟩ := List.mem_map.1 h
  exact ⟨it, List.mem_zipIdx_iff_getElem?.1 hx, rfl, rfl⟩

theorem sheet_possible {plat : Plat} {b : Bytes} {f : AsepriteFile} (hf : AsepriteFile.load plat b = .ok f)
    {layers : List LLayer} {items : List Item}
    (hl : ∀ l ∈ layers, (l.layerType = .normal ∨ l.layerType = .group) ∧ ModeRead l.blendMode ∧ FitsStr l.name)
    (hs : (items.map (·.1)).Pairwise (· < ·)) (hb : ∀ it ∈ items, it.1 < 2 ^ 16) : Possible (sheet f layers items) := by
  have hp := C129_possible plat b f hf
  have hli : (itemCels items).map (·.layerIndex) = items.map (·.1) := by
    rw [itemCels, List.map_map]
    conv => rhs; rw [← List.zipIdx_map_fst 0 items, List.map_map]
    rfl
  refine ⟨hp.depth, hp.palette, hp.noPalette, hl, nofun, by simp [sheet], by simp [sheet], ?_, ?_, ?_,
    items.map fun it => (0, it.1), ?_⟩
  · intro fr hfr
    rw [sheet, List.mem_singleton] at hfr
    subst hfr
    exact hli ▸ hs
  · intro fr hfr c hc
    rw [sheet, List.mem_singleton] at hfr
    subst hfr
    obtain ⟨it, h1, h2, _⟩ := mem_itemCels hc
    exact h2 ▸ hb it (List.mem_of_getElem? h1)
  · intro fr hfr c hc
    rw [sheet, List.mem_singleton] at hfr
    subst hfr
    obtain ⟨it, h1, _, h3⟩ := mem_itemCels hc
    exact ⟨it.2.2, by simp [sheet, h1], h3⟩
  · refine ⟨by simp [sheet], ?_, ?_, ?_⟩
    · rw [List.pairwise_map]
      rw [List.pairwise_map] at hs
      exact hs.imp fun h => .inr ⟨rfl, h⟩
    · intro k i l hk
      rw [List.getElem?_map] at hk
      obtain ⟨it, h1, h2⟩ := Option.map_eq_some_iff.1 hk
      cases h2
      exact ⟨_, ⟨it.2.1, (it.2.2.width, it.2.2.height), it.1, k⟩, rfl,
        List.mem_map.2 ⟨(it, k), List.mem_zipIdx_iff_getElem?.2 h1, rfl⟩, rfl, rfl⟩
    · intro i fr c hfr hc
      match i, hfr with
      | 0, hfr =>
        cases hfr
        obtain ⟨it, h1, h2, _⟩ := mem_itemCels hc
        exact ⟨0, by rw [List.getElem?_map, h1, h2]; rfl, .inl rfl⟩
      | i + 1, hfr => simp [sheet] at hfr

theorem allItems_bytes : ∀ (qs : List (AsepriteFile × Nat)) (k : Nat),
    (((pageLayers qs).map fun l => 64 + (utf8 l.name).length).sum +
      ((allItems k qs).map fun it => 64 + it.2.2.data.length).sum) ≤ (qs.map pageBytes).sum := by
  have one : ∀ (q : AsepriteFile × Nat) (k : Nat) (cs : List FrameCel),
      ((cs.filterMap fun c => match q.1.layers[c.layerIndex]?, q.1.images[c.imageIndex]? with
        | some _, some im => some ((k + c.layerIndex, c.origin, im) : Item)
        | _, _ => none).map fun it => 64 + it.2.2.data.length).sum ≤
      (cs.map fun c => 64 + (((q.1.images[c.imageIndex]?).map (·.data.length)).getD 0)).sum := by
    intro q k cs
    induction cs with
    | nil => exact Nat.le_refl _
    | cons c cs ih =>
      rw [List.filterMap_cons, List.map_cons, List.sum_cons]
      split
      · omega
      · rename_i it hc
        rw [List.map_cons, List.sum_cons]
        split at hc
        · rename_i h2
          cases hc
          rw [h2]
          simp only [Option.map_some, Option.getD_some]
          omega
        · cases hc
  intro qs
  induction qs with
  | nil => intro k; exact Nat.le_refl _
  | cons q qs ih =>
    intro k
    have h1 := ih (k + q.1.layers.length)
    have h2 : ((pageItems k q).map fun it => 64 + it.2.2.data.length).sum ≤ _ := one q k (pageCels q)
    simp only [pageLayers] at h1
    simp only [allItems, pageLayers, List.flatMap_cons, List.map_append, List.sum_append, List.map_cons, List.sum_cons,
      pageBytes]
    omega

theorem sheet_small {f : AsepriteFile} {layers : List LLayer} {items : List Item}
    (h : 2 ^ 23 + (layers.map fun l => 64 + (utf8 l.name).length).sum +
      (items.map fun it => 64 + it.2.2.data.length).sum < 2 ^ 32) : Small (sheet f layers items) := by
  intro fr hfr
  rw [sheet, List.mem_singleton] at hfr
  subst hfr
  have h2 : ((itemCels items).map fun c => 64 + dataLength (sheet f layers items) c.imageIndex) =
      items.map fun it => 64 + it.2.2.data.length := by
    rw [itemCels, List.map_map]
    conv => rhs; rw [← List.zipIdx_map_fst 0 items, List.map_map]
    refine List.map_congr_left fun x hx => ?_
    have hn : items[x.2]? = some x.1 := List.mem_zipIdx_iff_getElem?.1 hx
    simp [dataLength, sheet, hn]
  show 2 ^ 23 + (layers.map fun l => 64 + (utf8 l.name).length).sum + 0 +
    ((itemCels items).map fun c => 64 + dataLength (sheet f layers items) c.imageIndex).sum < 2 ^ 32
  rw [h2]
  omega

theorem forEach_inTurn {α : Type} (body : α → Buf Unit) (xs : List α) (t : Bytes) :
    Buf.forEach body xs t = inTurn (xs.map body) t := by
  induction xs generalizing t with
  | nil => rfl
  | cons x xs ih =>
    show Buf.bind (body x) (fun _ => Buf.forEach body xs) t = _
    rw [Buf.bind, List.map_cons, inTurn]
    rcases body x t with ⟨_ | _ | _, t'⟩
    · exact ih t'
    · rfl
    · rfl

theorem jointMask_get : ∀ (pre post : List ((AsepriteFile × Nat) × LayerSelection)) (q : (AsepriteFile × Nat) × LayerSelection)
    (l : Nat) (x : LLayer), q.1.1.layers[l]? = some x →
    (jointMask (pre ++ q :: post))[(pageLayers (pre.map (·.1))).length + l]? = some (decide (Selects q.2 l x)) := by
  intro pre post q l x hx
  have hlen : (pageLayers (pre.map (·.1))).length = (jointMask pre).length := by
    simp [pageLayers, jointMask, List.length_flatMap, List.map_map, Function.comp_def]
  have e : jointMask (pre ++ q :: post) = jointMask pre ++ ((q.1.1.layers.zipIdx.map fun x => decide (Selects q.2 x.2 x.1)) ++
      jointMask post) := by
    simp [jointMask]
  have hl := (List.getElem?_eq_some_iff.1 hx).1
  rw [e, hlen, List.getElem?_append_right (Nat.le_add_right _ _), Nat.add_sub_cancel_left,
    List.getElem?_append_left (by simpa using hl), List.getElem?_map, List.getElem?_zipIdx, hx]
  simp

/-- **C138.** Frames of any sprites of the same size, colour depth and palette can be put on top of each other in one file
with a single frame, if that is not too large: its layers are the layers of all the sprites, and rendering it does the
same as rendering the frames one after the other into the same buffer, until one fails; be it with the visible layers, with
all layers, or with any layers selected from each of the sprites. -/
theorem C138_one_file (plat : Plat) (parts : List (AsepriteFile × Nat)) (hne : parts ≠ [])
    (hload : ∀ q ∈ parts, (∃ b, AsepriteFile.load plat b = .ok q.1) ∧ q.2 < q.1.frames.length)
    (hmedium : ∀ q ∈ parts, ∀ r ∈ parts, SameMedium q.1 r.1) (hlayers : (pageLayers parts).length ≤ 2 ^ 16)
    (hbytes : 2 ^ 23 + (parts.map pageBytes).sum < 2 ^ 32) :
    ∃ b s, AsepriteFile.load plat b = .ok s ∧ s.frames.length = 1 ∧ s.layers = pageLayers parts ∧
      (∀ q ∈ parts, SameMedium s q.1) ∧
      ∀ (p : Plat) (inflate : Inflater) (t : Bytes),
        (∀ sel, sel = .visible ∨ sel = .all →
          s.renderFrame p inflate 0 sel t = inTurn (parts.map fun q => q.1.renderFrame p inflate q.2 sel) t) ∧
        ∀ qs, qs.map (·.1) = parts →
          s.renderFrame p inflate 0 (.mask (jointMask qs)) t =
            inTurn (qs.map fun q => q.1.1.renderFrame p inflate q.1.2 q.2) t := by
  obtain ⟨q0, rest, hcons⟩ := List.exists_cons_of_ne_nil hne
  have h0 : q0 ∈ parts := by rw [hcons]; exact List.mem_cons_self
  obtain ⟨⟨b0, hb0⟩, -⟩ := hload q0 h0
  obtain ⟨hsorted, hbound⟩ := allItems_sorted parts 0 fun q hq => (hload q hq).1
  obtain ⟨b, s, hs, he⟩ := C129_every plat (sheet q0.1 (pageLayers parts) (allItems 0 parts))
    (sheet_possible hb0 (fun l hl => by
      obtain ⟨q, hq, hl⟩ := List.mem_flatMap.1 hl
      obtain ⟨b, hb⟩ := (hload q hq).1
      exact (C129_possible plat b q.1 hb).layers l hl) hsorted fun it hit => by have := hbound it hit; omega)
    (sheet_small (by have := allItems_bytes parts 0; omega))
  have e1 : s.size = q0.1.size := congrArg Sprite.size he
  have e2 : s.file.header.colorDepth = q0.1.file.header.colorDepth := congrArg Sprite.depth he
  have e3 : s.file.palette = q0.1.file.palette := congrArg Sprite.palette he
  have e4 : s.layers = pageLayers parts := congrArg Sprite.layers he
  have e5 : s.frames = [⟨100, (0, 0), itemCels (allItems 0 parts)⟩] := congrArg Sprite.frames he
  have e6 : s.images = (allItems 0 parts).map (·.2.2) := congrArg Sprite.images he
  have hsame : ∀ q ∈ parts, SameMedium s q.1 := by
    intro q hq
    obtain ⟨m1, m2, m3⟩ := hmedium q0 h0 q hq
    exact ⟨e1.trans m1, e2.trans m2, e3.trans m3⟩
  have main : ∀ (p : Plat) (inflate : Inflater) (t : Bytes) (sel : LayerSelection)
      (qs : List ((AsepriteFile × Nat) × LayerSelection)), qs.map (·.1) = parts →
      (∀ (pre post : List ((AsepriteFile × Nat) × LayerSelection)) q, qs = pre ++ q :: post → ∀ l x,
        q.1.1.layers[l]? = some x → (Selects sel ((pageLayers (pre.map (·.1))).length + l) x ↔ Selects q.2 l x)) →
      s.renderFrame p inflate 0 sel t = inTurn (qs.map fun q => q.1.1.renderFrame p inflate q.1.2 q.2) t := by
    intro p inflate t sel qs hqs hsel
    rw [renderFrame_eq, e5]
    by_cases ht : t.length < canvasBytes s
    · rw [if_pos ht]
      obtain ⟨q, qs', rfl⟩ : ∃ q qs', qs = q :: qs' := List.exists_cons_of_ne_nil (by rintro rfl; exact hne hqs.symm)
      have hq : q.1 ∈ parts := by rw [← hqs]; exact List.mem_cons_self
      have m1 := (hsame q.1 hq).1
      have cb : canvasBytes q.1.1 = canvasBytes s := by
        simp only [canvasBytes]
        rw [show q.1.1.file.header.width = s.file.header.width from (congrArg Prod.fst m1).symm,
          show q.1.1.file.header.height = s.file.header.height from (congrArg Prod.snd m1).symm]
      rw [List.map_cons, inTurn, renderFrame_eq, cb, if_pos ht]
    · rw [if_neg ht, ← forEach_inTurn]
      refine pages_drawn (plat := plat) sel p inflate qs 0 ?_ (by rw [hqs, List.drop_zero, e4]) ?_ _ ?_ t ht
      · intro q hq
        have hq : q.1 ∈ parts := by rw [← hqs]; exact List.mem_map_of_mem hq
        exact ⟨(hload _ hq).1, (hload _ hq).2, hsame _ hq⟩
      · intro pre post q hq l x hx
        rw [Nat.zero_add]
        exact hsel pre post q hq l x hx
      · rw [hqs]
        exact itemCels_draw e6 sel
  refine ⟨b, s, hs, by rw [e5]; rfl, e4, hsame, fun p inflate t => ⟨fun sel hsel => ?_, fun qs hqs => ?_⟩⟩
  · have := main p inflate t sel (parts.map fun q => (q, sel))
      (by rw [List.map_map]; exact List.map_id parts) (by
      intro pre post q hq l x _
      have : q ∈ parts.map fun q => (q, sel) := by rw [hq]; simp
      obtain ⟨r, -, rfl⟩ := List.mem_map.1 this
      rcases hsel with rfl | rfl <;> exact Iff.rfl)
    rw [this, List.map_map]
    rfl
  · refine main p inflate t _ qs hqs ?_
    intro pre post q hq l x hx
    show (jointMask qs)[_]? = some true ↔ _
    rw [hq, jointMask_get pre post q l x hx]
    simp

/-! A body and a hat, the hat twice. -/
example :
    let body := Sample.header 2 1 32 ++ Sample.frame 1 [Sample.layer 1 0 0 255 [65], Sample.cel 0 0 0 2 1
      [100, 90, 80, 255, 70, 60, 50, 255]]
    let hat := Sample.header 2 1 32 ++ Sample.frame 1 [Sample.layer 0 0 0 255 [66], Sample.layer 1 0 3 200 [67],
      Sample.cel 0 0 0 1 1 [7, 7, 7, 255], Sample.cel 1 1 0 1 1 [9, 10, 11, 120]]
    (match AsepriteFile.load ⟨true, 10⟩ body, AsepriteFile.load ⟨true, 10⟩ hat with
      | .ok f, .ok g => let parts := [(f, 0), (g, 0), (g, 0)]
          decide (∀ q ∈ parts, q.2 < q.1.frames.length) && decide (∀ q ∈ parts, ∀ r ∈ parts, SameMedium q.1 r.1) &&
          decide ((pageLayers parts).length ≤ 2 ^ 16) && decide (2 ^ 23 + (parts.map pageBytes).sum < 2 ^ 32) &&
          (pageLayers parts).length == 5 && (allItems 0 parts).length == 5 &&
          jointMask [((f, 0), .all), ((g, 0), .visible), ((g, 0), .mask [true])] == [true, false, true, true, false] &&
          (match inTurn (parts.map fun q => q.1.renderFrame ⟨true, 10⟩ Zlib.inflate q.2 .visible) (List.replicate 8 0) with
            | (.ok (), t) => t.take 4 == [100, 90, 80, 255] && t.drop 4 != [70, 60, 50, 255]
            | _ => false)
      | _, _ => false) = true := by decide +kernel

end Ase
