import Verif.Props.OneFile

/-!
# C139: every layer in a file of its own
-/

namespace Ase

open Spec

/-- What a frame has on layer `k`, for a file with that layer only. -/
def layerItems (q : AsepriteFile × Nat) (k : Nat) : List Item :=
  ((pageItems 0 q).filter fun it => it.1 == k).map fun it => (0, it.2)

theorem filter_lt_succ {α : Type} (key : α → Nat) (n : Nat) : ∀ (xs : List α), (xs.map key).Pairwise (· < ·) →
    xs.filter (fun x => key x < n + 1) = xs.filter (fun x => key x < n) ++ xs.filter (fun x => key x == n)
  | [], _ => rfl
  | x :: xs, h => by
    rw [List.map_cons, List.pairwise_cons] at h
    have ih := filter_lt_succ key n xs h.2
    have gt : ∀ y ∈ xs, key x < key y := fun y hy => h.1 _ (List.mem_map_of_mem hy)
    rcases Nat.lt_trichotomy (key x) n with hx | hx | hx
    · rw [List.filter_cons_of_pos (by simp; omega), List.filter_cons_of_pos (by simpa using hx),
        List.filter_cons_of_neg (by simp; omega), ih, List.cons_append]
    · have e1 : xs.filter (fun y => key y < n) = [] := by
        rw [List.filter_eq_nil_iff]; intro y hy; have := gt y hy; simp; omega
      rw [List.filter_cons_of_pos (by simp; omega), List.filter_cons_of_neg (by simp; omega),
        List.filter_cons_of_pos (by simpa using hx), ih, e1, List.nil_append, List.nil_append]
    · have e0 : xs.filter (fun y => key y < n + 1) = [] := by
        rw [List.filter_eq_nil_iff]; intro y hy; have := gt y hy; simp; omega
      have e1 : xs.filter (fun y => key y < n) = [] := by
        rw [List.filter_eq_nil_iff]; intro y hy; have := gt y hy; simp; omega
      have e2 : xs.filter (fun y => key y == n) = [] := by
        rw [List.filter_eq_nil_iff]; intro y hy; have := gt y hy; simp; omega
      rw [List.filter_cons_of_neg (by simp; omega), List.filter_cons_of_neg (by simp; omega),
        List.filter_cons_of_neg (by simp; omega), e0, e1, e2, List.nil_append]

/-- A list sorted by keys below `n`, put together from its parts. -/
theorem sorted_parts {α : Type} (key : α → Nat) (n : Nat) (xs : List α) (h : (xs.map key).Pairwise (· < ·)) :
    xs.filter (fun x => key x < n) = (List.range n).flatMap fun k => xs.filter fun x => key x == k := by
  induction n with
  | zero => simp
  | succ n ih => rw [filter_lt_succ key n xs h, ih, List.range_succ, List.flatMap_append]; simp

theorem sum_filter_le {α : Type} (p : α → Bool) (size : α → Nat) (xs : List α) :
    ((xs.filter p).map size).sum ≤ (xs.map size).sum := by
  induction xs with
  | nil => exact Nat.le_refl _
  | cons x xs ih =>
    rw [List.filter_cons]
    split <;> simp only [List.map_cons, List.sum_cons] <;> omega

theorem list_of_exists {α : Type} {P : Nat → α → Prop} : ∀ (n : Nat), (∀ k, k < n → ∃ a, P k a) →
    ∃ as : List α, as.length = n ∧ ∀ k a, as[k]? = some a → P k a
  | 0, _ => ⟨[], rfl, nofun⟩
  | n + 1, h => by
    obtain ⟨as, h1, h2⟩ := list_of_exists n fun k hk => h k (by omega)
    obtain ⟨a, ha⟩ := h n (by omega)
    refine ⟨as ++ [a], by simp [h1], fun k x hx => ?_⟩
    rcases Nat.lt_or_ge k n with hk | hk
    · rw [List.getElem?_append_left (by omega)] at hx
      exact h2 k x hx
    · have hlt := (List.getElem?_eq_some_iff.1 hx).1
      rw [List.length_append, h1, List.length_singleton] at hlt
      obtain rfl : k = n := by omega
      rw [List.getElem?_append_right (by omega), h1, Nat.sub_self] at hx
      cases hx
      exact ha

/-- What the frame of a file made from items shows. -/
theorem pageItems_sheet {g : AsepriteFile} {items : List Item} {d : UInt16} {o : Int16 × Int16}
    (hf : g.frames = [⟨d, o, itemCels items⟩]) (hi : g.images = items.map (·.2.2))
    (hl : ∀ it ∈ items, it.1 < g.layers.length) (k : Nat) :
    pageItems k (g, 0) = items.map fun it => (k + it.1, it.2) := by
  have hc : pageCels (g, 0) = itemCels items := by simp [pageCels, hf]
  rw [pageItems, hc, itemCels, List.filterMap_map]
  conv => rhs; rw [← List.zipIdx_map_fst 0 items, List.map_map, ← List.filterMap_eq_map]
  refine List.filterMap_congr fun x hx => ?_
  obtain ⟨it, n⟩ := x
  have hn : items[n]? = some it := List.mem_zipIdx_iff_getElem?.1 hx
  have hlt := hl it (List.mem_of_getElem? hn)
  simp only [Function.comp_def, hi, List.getElem?_map, hn, Option.map_some, List.getElem?_eq_getElem hlt]

theorem allItems_single (items : List Item) : ∀ (gs : List AsepriteFile) (j : Nat),
    (∀ (k : Nat) g, gs[k]? = some g → g.layers.length = 1 ∧ pageItems (j + k) (g, 0) = items.filter fun it => it.1 == j + k) →
    allItems j (gs.map fun g => (g, 0)) = (List.range gs.length).flatMap fun k => items.filter fun it => it.1 == j + k
  | [], _, _ => rfl
  | g :: gs, j, h => by
    obtain ⟨h1, h2⟩ := h 0 g rfl
    rw [List.map_cons, allItems, h1, allItems_single items gs (j + 1) fun k g' hk => by
        have := h (k + 1) g' hk
        rwa [show j + (k + 1) = j + 1 + k by omega] at this]
    rw [List.length_cons, List.range_succ_eq_map, List.flatMap_cons, List.flatMap_map, ← h2]
    refine congrArg _ (congrArg (fun F => List.flatMap F _) (funext fun k => ?_))
    rw [show j + 1 + k = j + k.succ by omega]

theorem pageLayers_single : ∀ (qs : List (AsepriteFile × Nat)), (∀ q ∈ qs, q.1.layers.length = 1) →
    (pageLayers qs).length = qs.length
  | [], _ => rfl
  | q :: qs, h => by
    have h1 := h q List.mem_cons_self
    have h2 := pageLayers_single qs fun q' h' => h q' (List.mem_cons_of_mem _ h')
    simp only [pageLayers] at h2
    simp only [pageLayers, List.flatMap_cons, List.length_append, List.length_cons, h1, h2]
    omega

theorem pageLayers_files {layers : List LLayer} : ∀ (gs : List AsepriteFile) (j : Nat), j + gs.length = layers.length →
    (∀ (k : Nat) g, gs[k]? = some g → (layers[j + k]?).map ([·]) = some g.layers) →
    pageLayers (gs.map fun g => (g, 0)) = layers.drop j
  | [], j, h, _ => by
    rw [List.drop_of_length_le (by simp at h; omega)]
    rfl
  | g :: gs, j, h, hk => by
    rw [List.length_cons] at h
    have ih := pageLayers_files (layers := layers) gs (j + 1) (by omega) fun k g' hg => by
      have := hk (k + 1) g' hg
      rwa [show j + (k + 1) = j + 1 + k by omega] at this
    have h0 := hk 0 g rfl
    have hj : j < layers.length := by omega
    rw [Nat.add_zero, List.getElem?_eq_getElem hj, Option.map_some] at h0
    rw [List.drop_eq_getElem_cons hj, ← ih]
    show g.layers ++ pageLayers (gs.map fun g => (g, 0)) = _
    rw [← Option.some.inj h0]
    rfl

/-- **C139.** Every layer of a sprite can be put into a file of its own: for every frame of a sprite (with at least one
layer, and not too large) there are files with one frame and one layer each, one for every layer of the sprite and on the
same canvas, and rendering them one after the other into a buffer, the lowest first, does the same as rendering the frame:
with the visible layers, with all layers, and with any mask, of which every file gets its part. -/
theorem C139_layer_files (plat : Plat) (b : Bytes) (f : AsepriteFile) (h : AsepriteFile.load plat b = .ok f) (i : Nat)
    (hi : i < f.frames.length) (hne : f.layers ≠ []) (hbytes : 2 ^ 23 + pageBytes (f, i) < 2 ^ 32) :
    ∃ files : List AsepriteFile, files.length = f.layers.length ∧
      (∀ (k : Nat) g, files[k]? = some g → (∃ b, AsepriteFile.load plat b = .ok g) ∧ g.frames.length = 1 ∧
        (f.layers[k]?).map ([·]) = some g.layers ∧ SameMedium f g) ∧
      ∀ (p : Plat) (inflate : Inflater) (sel : LayerSelection) (t : Bytes),
        f.renderFrame p inflate i sel t =
          inTurn (files.zipIdx.map fun x => x.1.renderFrame p inflate 0 (onLayer sel x.2)) t := by
  obtain ⟨hsorted, hbound⟩ := allItems_sorted (plat := plat) [(f, i)] 0 (by simpa using ⟨b, h⟩)
  have hall : allItems 0 [(f, i)] = pageItems 0 (f, i) := by simp [allItems]
  have hpl : pageLayers [(f, i)] = f.layers := by simp [pageLayers]
  rw [hall, hpl, Nat.zero_add] at hbound
  rw [hall] at hsorted
  have hp := C129_possible plat b f h
  obtain ⟨files, hlen, hfiles⟩ := list_of_exists (P := fun k g => (∃ b, AsepriteFile.load plat b = .ok g) ∧
      ∃ x, f.layers[k]? = some x ∧ spriteOf g = sheet f [x] (layerItems (f, i) k)) f.layers.length (by
    intro k hk
    have hkey : ∀ it ∈ layerItems (f, i) k, it.1 = 0 := by
      intro it hit
      obtain ⟨_, _, rfl⟩ := List.mem_map.1 hit
      rfl
    have hle : (layerItems (f, i) k).length ≤ 1 := by
      rw [layerItems, List.length_map]
      have hs := List.Pairwise.filter (fun it : Item => it.1 == k) (List.pairwise_map.1 hsorted)
      generalize hF : (pageItems 0 (f, i)).filter (fun it => it.1 == k) = F at hs
      match F, hs with
      | [], _ => simp
      | [_], _ => simp
      | x :: y :: _, hs =>
        have hx : x ∈ (pageItems 0 (f, i)).filter (fun it => it.1 == k) := by rw [hF]; simp
        have hy : y ∈ (pageItems 0 (f, i)).filter (fun it => it.1 == k) := by rw [hF]; simp
        have h1 := (List.pairwise_cons.1 hs).1 y (by simp)
        have h2 := (List.mem_filter.1 hx).2
        have h3 := (List.mem_filter.1 hy).2
        simp only [beq_iff_eq] at h2 h3
        omega
    have hx := List.getElem?_eq_getElem hk
    obtain ⟨b', g, hg, he⟩ := C129_every plat (sheet f [f.layers[k]] (layerItems (f, i) k))
      (sheet_possible h (fun l hl => by
          rw [List.mem_singleton] at hl
          subst hl
          exact hp.layers _ (List.getElem_mem hk))
        (by
          match hL : layerItems (f, i) k, hle with
          | [], _ => exact List.Pairwise.nil
          | [_], _ => exact List.pairwise_singleton ..)
        fun it hit => by rw [hkey it hit]; decide)
      (sheet_small (by
        have h1 := allItems_bytes [(f, i)] 0
        rw [hall, hpl, List.map_singleton, List.sum_singleton] at h1
        have h2 : 64 + (utf8 (f.layers[k]).name).length ≤ (f.layers.map fun l => 64 + (utf8 l.name).length).sum :=
          List.le_sum_of_mem (List.mem_map_of_mem (f := fun l : LLayer => 64 + (utf8 l.name).length) (List.getElem_mem hk))
        have h3 : ((layerItems (f, i) k).map fun it => 64 + it.2.2.data.length).sum ≤
            ((pageItems 0 (f, i)).map fun it => 64 + it.2.2.data.length).sum := by
          rw [layerItems, List.map_map]
          exact sum_filter_le _ (fun it : Item => 64 + it.2.2.data.length) _
        simp only [List.map_cons, List.map_nil, List.sum_cons, List.sum_nil]
        omega))
    exact ⟨g, ⟨b', hg⟩, _, hx, he⟩)
  have hdetail : ∀ (k : Nat) g, files[k]? = some g → (∃ b, AsepriteFile.load plat b = .ok g) ∧ g.frames.length = 1 ∧
      (f.layers[k]?).map ([·]) = some g.layers ∧ SameMedium f g := by
    intro k g hg
    obtain ⟨h1, x, h2, h3⟩ := hfiles k g hg
    have e5 : g.frames = [⟨100, (0, 0), itemCels (layerItems (f, i) k)⟩] := congrArg Sprite.frames h3
    have e4 : g.layers = [x] := congrArg Sprite.layers h3
    exact ⟨h1, by rw [e5]; rfl, by rw [h2, e4]; rfl, (congrArg Sprite.size h3).symm, (congrArg Sprite.depth h3).symm,
      (congrArg Sprite.palette h3).symm⟩
  refine ⟨files, hlen, hdetail, fun p inflate sel t => ?_⟩
  have hitems : allItems 0 (files.map fun g => (g, 0)) = pageItems 0 (f, i) := by
    rw [allItems_single (pageItems 0 (f, i)) files 0, hlen]
    · simp only [Nat.zero_add]
      rw [← sorted_parts (fun it : Item => it.1) f.layers.length _ hsorted, List.filter_eq_self]
      intro it hit
      simpa using (hbound it hit).2
    · intro k g hg
      obtain ⟨h1, x, h2, h3⟩ := hfiles k g hg
      have e4 : g.layers = [x] := congrArg Sprite.layers h3
      refine ⟨by rw [e4]; rfl, ?_⟩
      rw [pageItems_sheet (congrArg Sprite.frames h3) (congrArg Sprite.images h3) (by
        intro it hit
        obtain ⟨_, _, rfl⟩ := List.mem_map.1 hit
        rw [e4]
        exact Nat.zero_lt_one), layerItems, List.map_map, Nat.zero_add]
      conv => rhs; rw [← List.map_id ((pageItems 0 (f, i)).filter fun it => it.1 == k)]
      refine List.map_congr_left fun it hit => ?_
      have := (List.mem_filter.1 hit).2
      simp only [beq_iff_eq] at this
      simp [← this]
  have hmap : (files.zipIdx.map fun x => ((x.1, 0), onLayer sel x.2)).map (·.1) = files.map fun g => ((g, 0) : AsepriteFile × Nat) := by
    conv => rhs; rw [← List.zipIdx_map_fst 0 files, List.map_map]
    rw [List.map_map]
    rfl
  have hmem : ∀ q ∈ files.zipIdx.map fun x => ((x.1, 0), onLayer sel x.2), ∃ (k : Nat) (g : AsepriteFile), files[k]? = some g ∧
      q = ((g, 0), onLayer sel k) := by
    intro q hq
    obtain ⟨⟨g, k⟩, hx, rfl⟩ := List.mem_map.1 hq
    exact ⟨k, g, List.mem_zipIdx_iff_getElem?.1 hx, rfl⟩
  have hone : ∀ (k : Nat) g, files[k]? = some g → g.layers.length = 1 := by
    intro k g hg
    obtain ⟨_, x, _, h3⟩ := hfiles k g hg
    rw [show g.layers = [x] from congrArg Sprite.layers h3]
    rfl
  have hturn : inTurn (files.zipIdx.map fun x => x.1.renderFrame p inflate 0 (onLayer sel x.2)) t =
      Buf.forEach (fun q : (AsepriteFile × Nat) × LayerSelection => q.1.1.renderFrame p inflate q.1.2 q.2)
        (files.zipIdx.map fun x => ((x.1, 0), onLayer sel x.2)) t := by
    rw [forEach_inTurn, List.map_map]
    rfl
  rw [hturn, renderFrame_eq, List.getElem?_eq_getElem hi]
  by_cases ht : t.length < canvasBytes f
  · rw [if_pos ht, forEach_inTurn]
    obtain ⟨g, gs, rfl⟩ : ∃ g gs, files = g :: gs := List.exists_cons_of_ne_nil (by
      rintro rfl
      exact hne (List.eq_nil_of_length_eq_zero hlen.symm))
    have m1 := (hdetail 0 g rfl).2.2.2.1
    have cb : canvasBytes g = canvasBytes f := by
      simp only [canvasBytes]
      rw [show g.file.header.width = f.file.header.width from (congrArg Prod.fst m1).symm,
        show g.file.header.height = f.file.header.height from (congrArg Prod.snd m1).symm]
    rw [List.zipIdx_cons, List.map_cons, List.map_cons, inTurn, renderFrame_eq, cb, if_pos ht]
  · rw [if_neg ht]
    dsimp only
    refine pages_drawn (plat := plat) sel p inflate _ 0 ?_ ?_ ?_ _ ?_ t ht
    · intro q hq
      obtain ⟨k, g, hg, rfl⟩ := hmem q hq
      obtain ⟨h1, h2, _, h4⟩ := hdetail k g hg
      exact ⟨h1, by rw [h2]; exact Nat.zero_lt_one, h4⟩
    · rw [hmap, pageLayers_files (layers := f.layers) files 0 (by omega) fun k g hg => by
        rw [Nat.zero_add]
        exact (hdetail k g hg).2.2.1]
    · intro pre post q hq l x hx
      have hq1 : (files.zipIdx.map fun x => (((x.1, 0) : AsepriteFile × Nat), onLayer sel x.2))[pre.length]? = some q := by
        rw [hq, List.getElem?_append_right (Nat.le_refl _), Nat.sub_self]
        rfl
      rw [List.getElem?_map, List.getElem?_zipIdx] at hq1
      cases hg : files[pre.length]? with
      | none => simp [hg] at hq1
      | some g =>
        simp only [hg, Option.map_some, Nat.zero_add, Option.some.injEq] at hq1
        subst hq1
        have hl1 := hone _ g hg
        have hl : l = 0 := by have := (List.getElem?_eq_some_iff.1 hx).1; dsimp only at this; omega
        subst hl
        have hpre : (pageLayers (pre.map (·.1))).length = pre.length := by
          rw [pageLayers_single, List.length_map]
          intro q' hq'
          obtain ⟨q'', h'', rfl⟩ := List.mem_map.1 hq'
          obtain ⟨k, g', hg', rfl⟩ := hmem q'' (by rw [hq]; simp [h''])
          exact hone k g' hg'
        rw [hpre, Nat.zero_add, Nat.add_zero]
        cases sel with
        | visible => exact Iff.rfl
        | all => exact Iff.rfl
        | mask m =>
          show m[pre.length]? = some true ↔ [(m[pre.length]?).getD false][0]? = some true
          cases m[pre.length]? with
          | none => simp
          | some v => simp
    · rw [hmap, hitems, pageItems_draw (q := (f, i)) h 0 f.layers sel sel fun l x hx => ⟨by rwa [Nat.zero_add], by rw [Nat.zero_add]⟩]
      simp only [pageCels, List.getElem?_eq_getElem hi, Option.map_some, Option.getD_some]

/-! Four layers, one of them translucent, one hidden, one a group. -/
example :
    (match AsepriteFile.load ⟨true, 10⟩ Sample.picture with
      | .ok f => decide (0 < f.frames.length) && decide (f.layers ≠ []) && decide (2 ^ 23 + pageBytes (f, 0) < 2 ^ 32) &&
          f.layers.length == 4 && (pageItems 0 (f, 0)).length == 4
      | _ => false) = true := by decide +kernel

end Ase
