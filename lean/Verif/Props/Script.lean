import Verif.Spec.Script
import Verif.Props.Joined

/-!
# C141: composite animations
-/

namespace Ase

open Spec

/-- Where the `k`-th list begins when the lists are put one after the other. -/
def startOf {α : Type} (ls : List (List α)) (k : Nat) : Nat := (ls.take k).flatten.length

theorem flatten_at {α : Type} {ls : List (List α)} {k j : Nat} {l : List α} {a : α} (hk : ls[k]? = some l)
    (hj : l[j]? = some a) : ls.flatten[startOf ls k + j]? = some a := by
  obtain ⟨hlt, rfl⟩ := List.getElem?_eq_some_iff.1 hk
  have e : ls.flatten = (ls.take k).flatten ++ (ls[k] ++ (ls.drop (k + 1)).flatten) := by
    conv => lhs; rw [← List.take_append_drop k ls, List.drop_eq_getElem_cons hlt]
    rw [List.flatten_append, List.flatten_cons]
  rw [e, startOf, List.getElem?_append_right (Nat.le_add_right _ _), Nat.add_sub_cancel_left,
    List.getElem?_append_left (List.getElem?_eq_some_iff.1 hj).1, hj]

theorem of_flatten_at {α : Type} : ∀ {ls : List (List α)} {n : Nat} {a : α}, ls.flatten[n]? = some a →
    ∃ k l j, ls[k]? = some l ∧ l[j]? = some a ∧ n = startOf ls k + j
  | [], n, a, h => by simp at h
  | l :: ls, n, a, h => by
    rw [List.flatten_cons] at h
    rcases Nat.lt_or_ge n l.length with hlt | hge
    · rw [List.getElem?_append_left hlt] at h
      exact ⟨0, l, n, rfl, h, by simp [startOf]⟩
    · rw [List.getElem?_append_right hge] at h
      obtain ⟨k, l', j, h1, h2, h3⟩ := of_flatten_at h
      refine ⟨k + 1, l', j, h1, h2, ?_⟩
      have : startOf (l :: ls) (k + 1) = l.length + startOf ls k := by simp [startOf]
      omega

theorem startOf_congr {α β : Type} {ls : List (List α)} {ms : List (List β)} (h : ls.map List.length = ms.map List.length)
    (k : Nat) : startOf ls k = startOf ms k := by
  rw [startOf, startOf, List.length_flatten, List.length_flatten, List.map_take, List.map_take, h]

/-- A sprite with the given frames, every cel with an image of its own. -/
def filmSprite (f : AsepriteFile) (layers : List LLayer) (frs : List (UInt16 × List Item)) : Sprite where
  size := f.size
  depth := f.file.header.colorDepth
  transparent := f.file.header.transparentIndex
  palette := f.file.palette
  layers := layers
  frames := frs.zipIdx.map fun x => ⟨x.1.1, (0, 0), (x.1.2.zipIdx (startOf (frs.map (·.2)) x.2)).map fun y =>
    ⟨y.1.2.1, (y.1.2.2.width, y.1.2.2.height), y.1.1, y.2⟩⟩
  tags := []
  images := (frs.map (·.2)).flatten.map (·.2.2)

theorem filmSprite_frame {f : AsepriteFile} {layers : List LLayer} {frs : List (UInt16 × List Item)} {k : Nat} {fr : LFrame}
    (h : (filmSprite f layers frs).frames[k]? = some fr) : ∃ (d : UInt16) (its : List Item), frs[k]? = some (d, its) ∧
      fr = ⟨d, (0, 0), (its.zipIdx (startOf (frs.map (·.2)) k)).map fun y =>
        ⟨y.1.2.1, (y.1.2.2.width, y.1.2.2.height), y.1.1, y.2⟩⟩ := by
  simp only [filmSprite, List.getElem?_map, List.getElem?_zipIdx] at h
  cases hk : frs[k]? with
  | none => simp [hk] at h
  | some x =>
    simp only [hk, Option.map_some, Nat.zero_add, Option.some.injEq] at h
    exact ⟨x.1, x.2, rfl, h.symm⟩

theorem film_cel {frs : List (UInt16 × List Item)} {k : Nat} {d : UInt16} {its : List Item} (hk : frs[k]? = some (d, its))
    {c : FrameCel} (hc : c ∈ (its.zipIdx (startOf (frs.map (·.2)) k)).map fun y : Item × Nat =>
      (⟨y.1.2.1, (y.1.2.2.width, y.1.2.2.height), y.1.1, y.2⟩ : FrameCel)) :
    ∃ it j, its[j]? = some it ∧ c.imageIndex = startOf (frs.map (·.2)) k + j ∧ c.layerIndex = it.1 ∧
      c.size = (it.2.2.width, it.2.2.height) ∧ (frs.map (·.2)).flatten[c.imageIndex]? = some it := by
  obtain ⟨⟨it, n⟩, hx, rfl⟩ := List.mem_map.1 hc
  obtain ⟨h1, h2⟩ := List.mk_mem_zipIdx_iff_le_and_getElem?_sub.1 hx
  refine ⟨it, n - startOf (frs.map (·.2)) k, h2, by dsimp only; omega, rfl, rfl, ?_⟩
  have h3 : (frs.map (·.2))[k]? = some its := by rw [List.getElem?_map, hk]; rfl
  have := flatten_at h3 h2
  rwa [Nat.add_sub_cancel' h1] at this

theorem filmSprite_possible {plat : Plat} {b : Bytes} {f : AsepriteFile} (hf : AsepriteFile.load plat b = .ok f)
    {layers : List LLayer} {frs : List (UInt16 × List Item)} (hne : frs ≠ [])
    (hl : ∀ l ∈ layers, (l.layerType = .normal ∨ l.layerType = .group) ∧ ModeRead l.blendMode ∧ FitsStr l.name)
    (hs : ∀ fr ∈ frs, (fr.2.map (·.1)).Pairwise (· < ·)) (hb : ∀ fr ∈ frs, ∀ it ∈ fr.2, it.1 < 2 ^ 16) :
    Possible (filmSprite f layers frs) := by
  have hp := C129_possible plat b f hf
  have get : ∀ fr ∈ (filmSprite f layers frs).frames, ∃ (k : Nat) (d : UInt16) (its : List Item), frs[k]? = some (d, its) ∧
      fr = ⟨d, (0, 0), (its.zipIdx (startOf (frs.map (·.2)) k)).map fun y =>
        ⟨y.1.2.1, (y.1.2.2.width, y.1.2.2.height), y.1.1, y.2⟩⟩ := by
    intro fr hfr
    obtain ⟨k, hk⟩ := List.mem_iff_getElem?.1 hfr
    obtain ⟨d, its, h⟩ := filmSprite_frame hk
    exact ⟨k, d, its, h⟩
  have hhome : (frs.zipIdx.map fun x => x.1.2.map fun it => (x.2, it.1)).map List.length = (frs.map (·.2)).map List.length := by
    conv => rhs; rw [← List.zipIdx_map_fst 0 frs, List.map_map, List.map_map]
    rw [List.map_map]
    exact List.map_congr_left fun x _ => by simp
  refine ⟨hp.depth, hp.palette, hp.noPalette, hl, nofun, ?_, ?_, ?_, ?_, ?_,
    (frs.zipIdx.map fun x => x.1.2.map fun it => (x.2, it.1)).flatten, ?_⟩
  · intro h
    apply hne
    have : (filmSprite f layers frs).frames.length = 0 := by rw [h]; rfl
    simp only [filmSprite, List.length_map, List.length_zipIdx] at this
    exact List.eq_nil_of_length_eq_zero this
  · intro fr hfr
    obtain ⟨k, d, its, _, rfl⟩ := get fr hfr
    rfl
  · intro fr hfr
    obtain ⟨k, d, its, hk, rfl⟩ := get fr hfr
    have h1 := hs _ (List.mem_of_getElem? hk)
    have h2 : ((its.zipIdx (startOf (frs.map (·.2)) k)).map fun y : Item × Nat =>
        (⟨y.1.2.1, (y.1.2.2.width, y.1.2.2.height), y.1.1, y.2⟩ : FrameCel)).map (·.layerIndex) = its.map (·.1) := by
      rw [List.map_map]
      conv => rhs; rw [← List.zipIdx_map_fst (startOf (frs.map (·.2)) k) its, List.map_map]
      rfl
    dsimp only at h1 ⊢
    rw [h2]
    exact h1
  · intro fr hfr c hc
    obtain ⟨k, d, its, hk, rfl⟩ := get fr hfr
    obtain ⟨it, j, h1, _, h2, _⟩ := film_cel hk hc
    exact h2 ▸ hb _ (List.mem_of_getElem? hk) it (List.mem_of_getElem? h1)
  · intro fr hfr c hc
    obtain ⟨k, d, its, hk, rfl⟩ := get fr hfr
    obtain ⟨it, j, _, _, _, h3, h4⟩ := film_cel hk hc
    exact ⟨it.2.2, by simp only [filmSprite, List.getElem?_map, h4, Option.map_some], h3⟩
  · refine ⟨?_, ?_, ?_, ?_⟩
    · rw [List.length_flatten, hhome, ← List.length_flatten]
      show _ = ((frs.map (·.2)).flatten.map (·.2.2)).length
      rw [List.length_map]
    · rw [List.pairwise_flatten]
      constructor
      · intro l hl'
        obtain ⟨x, hx, rfl⟩ := List.mem_map.1 hl'
        have hx1 : x.1 ∈ frs := List.fst_mem_of_mem_zipIdx hx
        have := hs x.1 hx1
        rw [List.pairwise_map] at this ⊢
        exact this.imp fun h => .inr ⟨rfl, h⟩
      · rw [List.pairwise_map, List.pairwise_iff_getElem]
        intro i j hi hj hij a ha c hc
        simp only [List.getElem_zipIdx, List.mem_map, Nat.zero_add] at ha hc
        obtain ⟨_, _, rfl⟩ := ha
        obtain ⟨_, _, rfl⟩ := hc
        exact .inl hij
    · intro n i l hn
      obtain ⟨k, hs', j, h1, h2, h3⟩ := of_flatten_at hn
      rw [List.getElem?_map, List.getElem?_zipIdx] at h1
      cases hk : frs[k]? with
      | none => simp [hk] at h1
      | some x =>
        simp only [hk, Option.map_some, Nat.zero_add, Option.some.injEq] at h1
        subst h1
        rw [List.getElem?_map] at h2
        obtain ⟨it, h4, h5⟩ := Option.map_eq_some_iff.1 h2
        cases h5
        refine ⟨⟨x.1, (0, 0), (x.2.zipIdx (startOf (frs.map (·.2)) i)).map fun y =>
            ⟨y.1.2.1, (y.1.2.2.width, y.1.2.2.height), y.1.1, y.2⟩⟩,
          ⟨it.2.1, (it.2.2.width, it.2.2.height), it.1, n⟩, ?_, ?_, rfl, rfl⟩
        · simp [filmSprite, List.getElem?_zipIdx, hk]
        · refine List.mem_map.2 ⟨(it, n), ?_, rfl⟩
          rw [startOf_congr hhome] at h3
          rw [List.mk_mem_zipIdx_iff_le_and_getElem?_sub]
          refine ⟨by omega, ?_⟩
          rw [show n - startOf (frs.map (·.2)) i = j by omega]
          exact h4
    · intro i fr c hfr hc
      obtain ⟨d, its, hk, rfl⟩ := filmSprite_frame hfr
      obtain ⟨it, j, h1, h2, h3, _⟩ := film_cel hk hc
      refine ⟨i, ?_, .inl rfl⟩
      rw [h2, ← startOf_congr hhome]
      refine flatten_at (l := its.map fun it => (i, it.1)) ?_ (by rw [List.getElem?_map, h1, h3]; rfl)
      rw [List.getElem?_map, List.getElem?_zipIdx, hk]
      simp

theorem filmSprite_small {f : AsepriteFile} {layers : List LLayer} {frs : List (UInt16 × List Item)}
    (h : ∀ fr ∈ frs, 2 ^ 23 + (layers.map fun l => 64 + (utf8 l.name).length).sum +
      (fr.2.map fun it => 64 + it.2.2.data.length).sum < 2 ^ 32) : Small (filmSprite f layers frs) := by
  intro fr hfr
  obtain ⟨k, hk⟩ := List.mem_iff_getElem?.1 hfr
  obtain ⟨d, its, h1, rfl⟩ := filmSprite_frame hk
  have h2 := h _ (List.mem_of_getElem? h1)
  have h3 : ((its.zipIdx (startOf (frs.map (·.2)) k)).map fun y : Item × Nat =>
      (⟨y.1.2.1, (y.1.2.2.width, y.1.2.2.height), y.1.1, y.2⟩ : FrameCel)).map
        (fun c => 64 + dataLength (filmSprite f layers frs) c.imageIndex) = its.map fun it => 64 + it.2.2.data.length := by
    rw [List.map_map]
    conv => rhs; rw [← List.zipIdx_map_fst (startOf (frs.map (·.2)) k) its, List.map_map]
    refine List.map_congr_left fun x hx => ?_
    obtain ⟨h4, h5⟩ := List.mk_mem_zipIdx_iff_le_and_getElem?_sub.1 (show (x.1, x.2) ∈ _ from hx)
    have h6 : (frs.map (·.2))[k]? = some its := by rw [List.getElem?_map, h1]; rfl
    have h7 := flatten_at h6 h5
    rw [Nat.add_sub_cancel' h4] at h7
    simp only [Function.comp_def, dataLength, filmSprite, List.getElem?_map, h7, Option.map_some, Option.getD_some]
  show 2 ^ 23 + (layers.map fun l => 64 + (utf8 l.name).length).sum + 0 +
    (((its.zipIdx (startOf (frs.map (·.2)) k)).map fun y : Item × Nat =>
      (⟨y.1.2.1, (y.1.2.2.width, y.1.2.2.height), y.1.1, y.2⟩ : FrameCel)).map
        (fun c => 64 + dataLength (filmSprite f layers frs) c.imageIndex)).sum < 2 ^ 32
  rw [h3]
  dsimp only at h2
  omega

theorem film_draw {s : AsepriteFile} {frs : List (UInt16 × List Item)} {k : Nat} {d : UInt16} {its : List Item}
    (hk : frs[k]? = some (d, its)) (hi : s.images = (frs.map (·.2)).flatten.map (·.2.2)) (sel : LayerSelection) :
    ((its.zipIdx (startOf (frs.map (·.2)) k)).map fun y : Item × Nat =>
      (⟨y.1.2.1, (y.1.2.2.width, y.1.2.2.height), y.1.1, y.2⟩ : FrameCel)).filterMap (cellDraw s sel) =
      its.filterMap (itemDraw s.layers sel) := by
  conv => rhs; rw [← List.zipIdx_map_fst (startOf (frs.map (·.2)) k) its]
  rw [List.filterMap_map, List.filterMap_map]
  refine List.filterMap_congr fun x hx => ?_
  obtain ⟨it, n⟩ := x
  obtain ⟨h4, h5⟩ := List.mk_mem_zipIdx_iff_le_and_getElem?_sub.1 hx
  have h6 : (frs.map (·.2))[k]? = some its := by rw [List.getElem?_map, hk]; rfl
  have h7 := flatten_at h6 h5
  rw [Nat.add_sub_cancel' h4] at h7
  simp only [Function.comp_def, cellDraw, drawnOn, itemDraw, hi, List.getElem?_map, h7, Option.map_some]
  cases s.layers[it.1]? with
  | none => rfl
  | some l => dsimp only; split <;> rfl

/-- Draw a page, or nothing if there is no such frame. -/
def showPage (p : Plat) (inflate : Inflater) (q : (AsepriteFile × Nat) × LayerSelection) : Buf Unit := fun t =>
  if q.1.2 < q.1.1.frames.length then q.1.1.renderFrame p inflate q.1.2 q.2 t else (.ok (), t)

theorem pages_shown {plat : Plat} {s : AsepriteFile} (sel : LayerSelection) (p : Plat) (inflate : Inflater) :
    ∀ (qs : List ((AsepriteFile × Nat) × LayerSelection)) (k : Nat)
      (_ : ∀ q ∈ qs, (∃ b, AsepriteFile.load plat b = .ok q.1.1) ∧ SameMedium s q.1.1)
      (_ : s.layers.drop k = pageLayers (qs.map (·.1)))
      (_ : ∀ (pre post : List ((AsepriteFile × Nat) × LayerSelection)) q, qs = pre ++ q :: post → ∀ l x,
        q.1.1.layers[l]? = some x →
        (Selects sel (k + (pageLayers (pre.map (·.1))).length + l) x ↔ Selects q.2 l x))
      (cs : List FrameCel)
      (_ : cs.filterMap (cellDraw s sel) = (allItems k (qs.map (·.1))).filterMap (itemDraw s.layers sel))
      (t : Bytes) (_ : ¬ t.length < canvasBytes s),
      Buf.forEach (s.renderCel p inflate sel) cs t =
        Buf.forEach (showPage p inflate) qs t := by
  intro qs
  induction qs with
  | nil =>
    intro k _ _ _ cs hcs t _
    exact forEach_draws rfl rfl rfl p inflate sel sel _ cs [] (Nat.le_refl _) hcs t
  | cons q qs ih =>
    intro k hq hL hsel cs hcs t ht
    obtain ⟨⟨b, hb⟩, m1, m2, m3⟩ := hq q List.mem_cons_self
    have hL' : s.layers.drop k = q.1.1.layers ++ pageLayers (qs.map (·.1)) := by rw [hL]; rfl
    have hget : ∀ l x, q.1.1.layers[l]? = some x → s.layers[k + l]? = some x := by
      intro l x hx
      rw [← List.getElem?_drop, hL', List.getElem?_append_left (List.getElem?_eq_some_iff.1 hx).1, hx]
    rw [List.map_cons, allItems, List.filterMap_append,
      pageItems_draw hb k s.layers sel q.2 (fun l x hx => ⟨hget l x hx, by simpa [pageLayers] using hsel [] qs q rfl l x hx⟩)] at hcs
    obtain ⟨cs1, cs2, rfl, e1, e2⟩ := List.filterMap_eq_append_iff.1 hcs
    have cb : canvasBytes q.1.1 = canvasBytes s := by
      simp only [canvasBytes]
      rw [show q.1.1.file.header.width = s.file.header.width from (congrArg Prod.fst m1).symm,
        show q.1.1.file.header.height = s.file.header.height from (congrArg Prod.snd m1).symm]
    have r1 := forEach_draws m1 m2 m3 p inflate sel q.2 _ cs1 (pageCels q.1) (Nat.le_refl _) e1 t
    have ef : showPage p inflate q t = Buf.forEach (q.1.1.renderCel p inflate q.2) (pageCels q.1) t := by
      by_cases hi : q.1.2 < q.1.1.frames.length
      · rw [showPage, if_pos hi, renderFrame_eq, List.getElem?_eq_getElem hi, cb, if_neg ht]
        simp only [pageCels, List.getElem?_eq_getElem hi, Option.map_some, Option.getD_some]
      · rw [showPage, if_neg hi]
        simp only [pageCels, List.getElem?_eq_none (Nat.le_of_not_lt hi), Option.map_none, Option.getD_none]
        rfl
    have hlen : (showPage p inflate q t).2.length = t.length := by
      by_cases hi : q.1.2 < q.1.1.frames.length
      · rw [showPage, if_pos hi]
        exact (C110_buffer p q.1.1 (typed_of_load hb) inflate q.1.2 q.2 t).2.2.2.1
      · rw [showPage, if_neg hi]
    rw [forEach_append, r1, ← ef]
    rw [show Buf.forEach (showPage p inflate) (q :: qs) t =
      Buf.bind (showPage p inflate q) (fun _ => Buf.forEach (showPage p inflate) qs) t from rfl, Buf.bind]
    revert hlen
    rcases showPage p inflate q t with ⟨_ | _ | _, t'⟩ <;> intro hlen
    · dsimp only at hlen ⊢
      refine ih (k + q.1.1.layers.length) (fun q' h' => hq q' (List.mem_cons_of_mem _ h')) ?_ ?_ cs2 e2 t' (by omega)
      · rw [← List.drop_drop, hL', List.drop_left]
      · intro pre post q' he l x hx
        have := hsel (q :: pre) post q' (by rw [he]; rfl) l x hx
        simpa [pageLayers, Nat.add_assoc] using this
    · rfl
    · rfl


theorem calls_shown (p : Plat) (inflate : Inflater) : ∀ (qs : List (AsepriteFile × LayerSelection)) (choice : List (Option Nat))
    (_ : ∀ x ∈ (qs.map (·.1)).zip choice, ∀ i, x.2 = some i → i < x.1.frames.length) (t : Bytes),
    Buf.forEach (showPage p inflate) ((qs.zip choice).map fun x => (pageOf (x.1.1, x.2), x.1.2)) t =
      inTurn (callsFor p inflate qs choice) t
  | [], _, _, t => rfl
  | _ :: _, [], _, t => rfl
  | q :: qs, o :: choice, h, t => by
    have ih := calls_shown p inflate qs choice fun x hx => h x (by simp only [List.map_cons, List.zip_cons_cons]; exact List.mem_cons_of_mem _ hx)
    have h0 := h (q.1, o) (by simp)
    rw [List.zip_cons_cons, List.map_cons]
    show Buf.bind (showPage p inflate (pageOf (q.1, o), q.2)) (fun _ => Buf.forEach (showPage p inflate) _) t = _
    cases o with
    | none =>
      have e : showPage p inflate (pageOf (q.1, none), q.2) = fun t => (.ok (), t) :=
        funext fun t => if_neg (Nat.lt_irrefl _)
      rw [Buf.bind, e]
      exact ih t
    | some i =>
      have e : showPage p inflate (pageOf (q.1, some i), q.2) = q.1.renderFrame p inflate i q.2 :=
        funext fun t => if_pos (show i < q.1.frames.length from h0 i rfl)
      have e2 : callsFor p inflate (q :: qs) (some i :: choice) =
          q.1.renderFrame p inflate i q.2 :: callsFor p inflate qs choice := by simp [callsFor]
      rw [Buf.bind, e, e2, inTurn]
      rcases q.1.renderFrame p inflate i q.2 t with ⟨_ | _ | _, t'⟩
      · exact ih t'
      · rfl
      · rfl

theorem pageLayers_zip : ∀ (sprites : List AsepriteFile) (choice : List (Option Nat)), choice.length = sprites.length →
    pageLayers ((sprites.zip choice).map pageOf) = sprites.flatMap (·.layers)
  | [], _, _ => rfl
  | f :: sprites, [], h => by simp at h
  | f :: sprites, o :: choice, h => by
    have ih := pageLayers_zip sprites choice (by simpa using h)
    rw [List.flatMap_cons, ← ih]
    rfl

/-- **C141.** For any sprites of the same size, colour depth and palette and any script that says for each frame of an
animation how long it is shown and which frame of each sprite is shown in it, if any, there is a file with the layers of all
the sprites and frames of these durations, if that is not too large; and rendering a frame of it into a large enough buffer
does the same as rendering the frames the script names one after the other into the same buffer, until one fails: with the
visible layers, with all layers, and with any layers selected from each of the sprites. -/
theorem C141_script (plat : Plat) (sprites : List AsepriteFile) (script : Script) (hne : sprites ≠ []) (hne' : script ≠ [])
    (hload : ∀ f ∈ sprites, ∃ b, AsepriteFile.load plat b = .ok f)
    (hmedium : ∀ f ∈ sprites, ∀ g ∈ sprites, SameMedium f g) (hfits : PlayableBy script sprites)
    (hlayers : (sprites.flatMap (·.layers)).length ≤ 2 ^ 16)
    (hbytes : ∀ fr ∈ script, 2 ^ 23 + ((sprites.zip fr.2).map fun x => pageBytes (pageOf x)).sum < 2 ^ 32) :
    ∃ b s, AsepriteFile.load plat b = .ok s ∧ s.layers = sprites.flatMap (·.layers) ∧
      s.frames.map (·.duration) = script.map (·.1) ∧ (∀ f ∈ sprites, SameMedium s f) ∧
      ∀ (p : Plat) (inflate : Inflater) (t : Bytes), canvasBytes s ≤ t.length → ∀ (k : Nat) fr, script[k]? = some fr →
        (∀ sel, sel = .visible ∨ sel = .all →
          s.renderFrame p inflate k sel t = inTurn (callsFor p inflate (sprites.map fun f => (f, sel)) fr.2) t) ∧
        ∀ qs, qs.map (·.1) = sprites →
          s.renderFrame p inflate k (.mask (spriteMask qs)) t = inTurn (callsFor p inflate qs fr.2) t := by
  obtain ⟨f0, rest, hcons⟩ := List.exists_cons_of_ne_nil hne
  have h0 : f0 ∈ sprites := by rw [hcons]; exact List.mem_cons_self
  obtain ⟨b0, hb0⟩ := hload f0 h0
  have hpages : ∀ fr ∈ script, ∀ q ∈ (sprites.zip fr.2).map pageOf, ∃ b, AsepriteFile.load plat b = .ok q.1 := by
    intro fr _ q hq
    obtain ⟨x, hx, rfl⟩ := List.mem_map.1 hq
    exact hload _ (List.of_mem_zip hx).1
  have hpl : ∀ fr ∈ script, pageLayers ((sprites.zip fr.2).map pageOf) = sprites.flatMap (·.layers) :=
    fun fr hfr => pageLayers_zip _ _ (hfits fr hfr).1
  obtain ⟨b, s, hs, he⟩ := C129_every plat
    (filmSprite f0 (sprites.flatMap (·.layers)) (script.map fun fr => (fr.1, allItems 0 ((sprites.zip fr.2).map pageOf))))
    (filmSprite_possible hb0 (by simpa using hne')
      (fun l hl => by
        obtain ⟨f, hf, hl⟩ := List.mem_flatMap.1 hl
        obtain ⟨b, hb⟩ := hload f hf
        exact (C129_possible plat b f hb).layers l hl)
      (fun x hx => by
        obtain ⟨fr, hfr, rfl⟩ := List.mem_map.1 hx
        exact (allItems_sorted _ 0 (hpages fr hfr)).1)
      (fun x hx it hit => by
        obtain ⟨fr, hfr, rfl⟩ := List.mem_map.1 hx
        have := (allItems_sorted _ 0 (hpages fr hfr)).2 it hit
        rw [hpl fr hfr] at this
        omega))
    (filmSprite_small (fun x hx => by
      obtain ⟨fr, hfr, rfl⟩ := List.mem_map.1 hx
      have h1 := allItems_bytes ((sprites.zip fr.2).map pageOf) 0
      have h2 := hbytes fr hfr
      rw [hpl fr hfr, List.map_map] at h1
      simp only [Function.comp_def] at h1
      dsimp only
      omega))
  have e1 : s.size = f0.size := congrArg Sprite.size he
  have e2 : s.file.header.colorDepth = f0.file.header.colorDepth := congrArg Sprite.depth he
  have e3 : s.file.palette = f0.file.palette := congrArg Sprite.palette he
  have e4 : s.layers = sprites.flatMap (·.layers) := congrArg Sprite.layers he
  have e5 := congrArg Sprite.frames he
  have e6 := congrArg Sprite.images he
  have hsame : ∀ f ∈ sprites, SameMedium s f := by
    intro f hf
    obtain ⟨m1, m2, m3⟩ := hmedium f0 h0 f hf
    exact ⟨e1.trans m1, e2.trans m2, e3.trans m3⟩
  have main : ∀ (p : Plat) (inflate : Inflater) (t : Bytes), canvasBytes s ≤ t.length → ∀ (k : Nat) fr,
      script[k]? = some fr → ∀ (sel : LayerSelection) (qs : List (AsepriteFile × LayerSelection)), qs.map (·.1) = sprites →
      (∀ (pre post : List (AsepriteFile × LayerSelection)) q, qs = pre ++ q :: post → ∀ l x, q.1.layers[l]? = some x →
        (Selects sel ((pre.flatMap (·.1.layers)).length + l) x ↔ Selects q.2 l x)) →
      s.renderFrame p inflate k sel t = inTurn (callsFor p inflate qs fr.2) t := by
    intro p inflate t ht k fr hk sel qs hqs hsel
    have hfr := List.mem_of_getElem? hk
    obtain ⟨hlen, hin⟩ := hfits fr hfr
    have hlenq : qs.length = fr.2.length := by rw [hlen, ← hqs, List.length_map]
    have hzip : ((qs.zip fr.2).map fun x => (pageOf (x.1.1, x.2), x.1.2)).map (·.1) = (sprites.zip fr.2).map pageOf := by
      rw [← hqs, List.zip_map_left, List.map_map, List.map_map]
      rfl
    rw [← calls_shown p inflate qs fr.2 (by rw [hqs]; exact hin) t, renderFrame_eq, if_neg (by omega)]
    have hk' : (script.map fun fr => (fr.1, allItems 0 ((sprites.zip fr.2).map pageOf)))[k]? =
        some (fr.1, allItems 0 ((sprites.zip fr.2).map pageOf)) := by rw [List.getElem?_map, hk]; rfl
    have hframe : s.frames[k]? = some ⟨fr.1, (0, 0), ((allItems 0 ((sprites.zip fr.2).map pageOf)).zipIdx
        (startOf ((script.map fun fr => (fr.1, allItems 0 ((sprites.zip fr.2).map pageOf))).map (·.2)) k)).map fun y =>
          ⟨y.1.2.1, (y.1.2.2.width, y.1.2.2.height), y.1.1, y.2⟩⟩ := by
      show (spriteOf s).frames[k]? = _
      rw [e5]
      simp only [filmSprite, List.getElem?_map, List.getElem?_zipIdx, hk, Option.map_some, Nat.zero_add]
    rw [hframe]
    dsimp only
    refine pages_shown (plat := plat) sel p inflate _ 0 ?_ (by rw [hzip, hpl fr hfr, List.drop_zero, e4]) ?_ _ ?_ t (by omega)
    · intro q hq
      obtain ⟨x, hx, rfl⟩ := List.mem_map.1 hq
      have : x.1.1 ∈ sprites := by rw [← hqs]; exact List.mem_map_of_mem (List.of_mem_zip hx).1
      exact ⟨hload _ this, hsame _ this⟩
    · intro pre post q hq l x hx
      rw [Nat.zero_add]
      obtain ⟨z1, z2, hz, hz1, hz2⟩ := List.map_eq_append_iff.1 hq
      obtain ⟨z, z3, rfl, hz3, -⟩ := List.map_eq_cons_iff.1 hz2
      have hq1 : qs = z1.map (·.1) ++ z.1 :: z3.map (·.1) := by
        have := congrArg (List.map Prod.fst) hz
        rw [List.map_fst_zip (by omega)] at this
        simpa using this
      have hpre : (pageLayers (pre.map (·.1))).length = ((z1.map (·.1)).flatMap (·.1.layers)).length := by
        rw [← hz1, pageLayers, List.map_map, List.flatMap_map, List.flatMap_map]
        rfl
      rw [hpre]
      subst hz3
      exact hsel _ _ z.1 hq1 l x hx
    · rw [hzip]
      exact film_draw hk' e6 sel
  refine ⟨b, s, hs, e4, ?_, hsame, fun p inflate t ht k fr hk => ⟨fun sel hsel => ?_, fun qs hqs => ?_⟩⟩
  · show (spriteOf s).frames.map (·.duration) = _
    rw [e5]
    simp only [filmSprite, List.map_map]
    conv => rhs; rw [← List.zipIdx_map_fst 0 script, List.map_map]
    rw [List.zipIdx_map, List.map_map]
    rfl
  · refine main p inflate t ht k fr hk sel (sprites.map fun f => (f, sel)) (by rw [List.map_map]; exact List.map_id sprites) ?_
    intro pre post q hq l x _
    have : q ∈ sprites.map fun f => (f, sel) := by rw [hq]; simp
    obtain ⟨r, -, rfl⟩ := List.mem_map.1 this
    rcases hsel with rfl | rfl <;> exact Iff.rfl
  · refine main p inflate t ht k fr hk _ qs hqs ?_
    intro pre post q hq l x hx
    have hj : spriteMask qs = jointMask (qs.map fun q => ((q.1, 0), q.2)) := by
      simp [spriteMask, jointMask, List.flatMap_map]
    have hpre : (pre.flatMap (·.1.layers)).length = (pageLayers ((pre.map fun q => ((q.1, 0), q.2)).map (·.1))).length := by
      simp [pageLayers, List.map_map, List.flatMap_map]
    show (spriteMask qs)[_]? = some true ↔ _
    rw [hj, hpre, hq, List.map_append, List.map_cons, jointMask_get _ _ ((q.1, 0), q.2) l x hx]
    simp

/-- **C141 (one sprite).** So any frames of a sprite, in any order and number and with any durations, make up an animation
that can be stored in a file, with the same layers and pictures. -/
theorem C141_cut (plat : Plat) (b : Bytes) (f : AsepriteFile) (hf : AsepriteFile.load plat b = .ok f)
    (cut : List (UInt16 × Nat)) (hne : cut ≠ []) (hin : ∀ x ∈ cut, x.2 < f.frames.length) (hlayers : f.layers.length ≤ 2 ^ 16)
    (hbytes : ∀ x ∈ cut, 2 ^ 23 + pageBytes (f, x.2) < 2 ^ 32) :
    ∃ c s, AsepriteFile.load plat c = .ok s ∧ s.layers = f.layers ∧ s.frames.map (·.duration) = cut.map (·.1) ∧
      SameMedium s f ∧ ∀ (p : Plat) (inflate : Inflater) (t : Bytes) (k : Nat) x, cut[k]? = some x → ∀ sel,
        s.renderFrame p inflate k sel t = f.renderFrame p inflate x.2 sel t := by
  obtain ⟨c, s, h1, h2, h3, h4, h5⟩ := C141_script plat [f] (cut.map fun x => (x.1, [some x.2])) (by simp) (by simpa using hne)
    (by simpa using ⟨b, hf⟩) (by simp [SameMedium])
    (by
      intro fr hfr
      obtain ⟨x, hx, rfl⟩ := List.mem_map.1 hfr
      refine ⟨rfl, ?_⟩
      intro y hy i hi
      simp only [List.zip_cons_cons, List.zip_nil_right, List.mem_singleton] at hy
      subst hy
      cases hi
      exact hin x hx)
    (by simpa using hlayers)
    (by
      intro fr hfr
      obtain ⟨x, hx, rfl⟩ := List.mem_map.1 hfr
      simpa [pageOf] using hbytes x hx)
  have h2' : s.layers = f.layers := by simpa using h2
  refine ⟨c, s, h1, h2', by simpa [Function.comp_def] using h3, h4 f (by simp), fun p inflate t k x hk sel => ?_⟩
  by_cases ht : t.length < canvasBytes s
  · rw [renderFrame_eq, renderFrame_eq, ← same_canvasBytes (h4 f (by simp)).1, if_pos ht, if_pos ht]
  replace ht := Nat.le_of_not_lt ht
  obtain ⟨-, h7⟩ := h5 p inflate t ht k (x.1, [some x.2]) (by rw [List.getElem?_map, hk]; rfl)
  have h8 := h7 [(f, sel)] rfl
  have e : inTurn (callsFor p inflate [(f, sel)] [some x.2]) t = f.renderFrame p inflate x.2 sel t := by
    show inTurn [f.renderFrame p inflate x.2 sel] t = _
    rw [inTurn]
    rcases f.renderFrame p inflate x.2 sel t with ⟨_ | _ | _, t'⟩ <;> rfl
  rw [← e, ← h8]
  refine renderFrame_congr (drawnOn_congr ?_) k t
  intro l y hl
  show _ ↔ (spriteMask [(f, sel)])[l]? = some true
  rw [h2'] at hl
  simp [spriteMask, List.getElem?_zipIdx, hl]

/-! A runner of two frames on a background of one: the runner comes, waits and goes. -/
example :
    let ground := Sample.header 2 1 32 ++ Sample.frame 1 [Sample.layer 1 0 0 255 [65], Sample.cel 0 0 0 2 1
      [100, 90, 80, 255, 70, 60, 50, 255]]
    let runner := Sample.header 2 1 32 ++ Sample.frame 1 [Sample.layer 0 0 0 255 [66], Sample.layer 1 0 3 200 [67],
      Sample.cel 0 0 0 1 1 [7, 7, 7, 255], Sample.cel 1 0 0 1 1 [9, 10, 11, 120]] ++ Sample.frame 1 [Sample.cel 1 1 0 1 1 [1, 2, 3, 4]]
    (match AsepriteFile.load ⟨true, 10⟩ ground, AsepriteFile.load ⟨true, 10⟩ runner with
      | .ok f, .ok g => let script : Script := [(50, [some 0, none]), (80, [some 0, some 0]), (90, [some 0, some 1]), (9, [none, some 1])]
          decide (∀ u ∈ [f, g], ∀ v ∈ [f, g], SameMedium u v) && decide (PlayableBy script [f, g]) &&
          decide (([f, g].flatMap (·.layers)).length = 3) &&
          decide (∀ fr ∈ script, 2 ^ 23 + (([f, g].zip fr.2).map fun x => pageBytes (pageOf x)).sum < 2 ^ 32) &&
          decide (((callsFor ⟨true, 10⟩ Zlib.inflate [(f, .all), (g, .visible)] [some 0, some 1]).length = 2)) &&
          script.map (fun fr => (allItems 0 (([f, g].zip fr.2).map pageOf)).map (·.1)) == [[0], [0, 1, 2], [0, 2], [2]]
      | _, _ => false) = true := by decide +kernel

end Ase
