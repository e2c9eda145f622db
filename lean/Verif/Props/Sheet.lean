import Verif.Spec.Sheet
import Verif.Spec.Once
import Verif.Props.LayerFiles
import Verif.Props.OneFile
import Verif.Props.Strokes
import Verif.Props.Window

/-!
# C145: all frames side by side in one picture
-/

namespace Ase

open Spec

theorem inTurn_cons (call : Buf Unit) (calls : List (Buf Unit)) (t : Bytes) : inTurn (call :: calls) t =
    match call t with
    | (.ok (), t') => inTurn calls t'
    | failure => failure := rfl

/-- Calls of which all but number `i` leave something as it is. -/
theorem inTurn_keep {α : Type} (what : Bytes → α) : ∀ {calls : List (Buf Unit)} {t t' : Bytes},
    inTurn calls t = (.ok (), t') → (∀ (j : Nat) call, calls[j]? = some call → ∀ u u', call u = (.ok (), u') → what u' = what u) →
    what t' = what t
  | [], t, t', h, _ => by cases h; rfl
  | call :: calls, t, t', h, hk => by
    rw [inTurn_cons] at h
    rcases hc : call t with ⟨_ | e | k, u⟩ <;> rw [hc] at h
    · exact (inTurn_keep what h fun j c hj => hk (j + 1) c hj).trans (hk 0 call rfl t u hc)
    · cases h
    · cases h

theorem inTurn_one {α : Type} (what : Bytes → α) : ∀ {calls : List (Buf Unit)} {t t' : Bytes} {i : Nat} {call : Buf Unit},
    inTurn calls t = (.ok (), t') → calls[i]? = some call →
    (∀ (j : Nat) c, j ≠ i → calls[j]? = some c → ∀ u u', c u = (.ok (), u') → what u' = what u) →
    ∃ u u', call u = (.ok (), u') ∧ what u = what t ∧ what t' = what u'
  | [], _, _, _, _, _, hi, _ => nomatch hi
  | c :: calls, t, t', i, call, h, hi, hk => by
    rw [inTurn_cons] at h
    rcases hc : c t with ⟨_ | e | k, u⟩ <;> rw [hc] at h
    · cases i with
      | zero =>
        cases hi
        exact ⟨t, u, hc, rfl, inTurn_keep what h fun j d hj => hk (j + 1) d (by omega) hj⟩
      | succ i =>
        obtain ⟨v, v', h1, h2, h3⟩ := inTurn_one what h hi fun j d hj => hk (j + 1) d (by omega)
        exact ⟨v, v', h1, h2.trans (hk 0 c (by omega) rfl t u hc), h3⟩
    · cases h
    · cases h

theorem inTurn_succeeds {n : Nat} : ∀ {calls : List (Buf Unit)} {t : Bytes}, t.length = n →
    (∀ call ∈ calls, ∀ u : Bytes, u.length = n → (call u).1 = .ok () ∧ (call u).2.length = n) → (inTurn calls t).1 = .ok ()
  | [], _, _, _ => rfl
  | call :: calls, t, ht, h => by
    obtain ⟨h1, h2⟩ := h call List.mem_cons_self t ht
    rw [inTurn_cons]
    rcases hc : call t with ⟨_ | e | k, u⟩ <;> rw [hc] at h1 h2
    · exact inTurn_succeeds h2 fun c hm => h c (List.mem_cons_of_mem _ hm)
    · cases h1
    · cases h1

/-- **C145.** All frames of a sprite can be put side by side into one picture, if no cel reaches over the left or right edge
of the canvas and the sheet is not too wide or too large: there is a file with one frame, as high as the sprite and as wide
as all its frames, whose layers are those of the sprite, once for each frame.  With every selection, made for each copy of the
layers, the rendered sheet shows frame number `i` from column `i` times the width on, as the sprite does, if the buffers were
the same there before.  If every frame can be rendered so can the sheet, unless HSL modes in debug builds are involved. -/
theorem C145_sheet (plat : Plat) (b : Bytes) (f : AsepriteFile) (hf : AsepriteFile.load plat b = .ok f)
    (hin : InsideSides f) (hwide : f.frames.length * f.size.1.toNat < 2 ^ 15) (hs : Small (spriteOf f))
    (hlayers : f.frames.length * f.layers.length ≤ 2 ^ 16)
    (hbytes : 2 ^ 23 + ((List.range f.frames.length).map fun i => pageBytes (f, i)).sum < 2 ^ 32) :
    ∃ c s, AsepriteFile.load plat c = .ok s ∧ s.frames.length = 1 ∧ s.size.1.toNat = f.frames.length * f.size.1.toNat ∧
      s.size.2 = f.size.2 ∧ s.layers = (List.replicate f.frames.length f.layers).flatten ∧
      ∀ (inflate : Inflater) (sel : LayerSelection) (t : Bytes),
        let sel' := forEachCopy f.frames.length f.layers.length sel
        (∀ t', s.renderFrame plat inflate 0 sel' t = (.ok (), t') → ∀ (i : Nat) (u u' : Bytes),
          f.renderFrame plat inflate i sel u = (.ok (), u') → ∀ x y, x < f.size.1.toNat → y < f.size.2.toNat →
          canvasPixel f u x y = canvasPixel s t (i * f.size.1.toNat + x) y →
          canvasPixel f u' x y = canvasPixel s t' (i * f.size.1.toNat + x) y) ∧
        ((plat.debug = false ∨ ∀ layer ∈ f.layers, isHsl layer.blendMode = false) →
          (∀ i, i < f.frames.length → ∃ u, RendersOk plat inflate f i sel u) → HoldsCanvas s t →
          RendersOk plat inflate s 0 sel' t) := by
  have hne : f.frames ≠ [] := (C129_possible plat b f hf).frames
  have hpos : 0 < f.frames.length := List.length_pos_iff.2 hne
  let wide := UInt16.ofNat (f.frames.length * f.size.1.toNat)
  have hwn : wide.toNat = f.frames.length * f.size.1.toNat := UInt16.toNat_ofNat_of_lt' (by
    have : (2 : Nat) ^ 15 < UInt16.size := by decide
    omega)
  have hmul : ∀ i, i < f.frames.length → i * f.size.1.toNat + f.size.1.toNat ≤ f.frames.length * f.size.1.toNat := by
    intro i hi
    rw [← Nat.succ_mul]
    exact Nat.mul_le_mul_right _ hi
  obtain ⟨gs, hlen, hg⟩ := list_of_exists f.frames.length (P := fun i g => (∃ c, AsepriteFile.load plat c = .ok g) ∧
      spriteOf g = windowOf f (-(i * f.size.1.toNat : Nat)) 0 wide f.size.2 ∧
      MovedPictures plat (i * f.size.1.toNat : Nat) 0 f g) (by
    intro i hi
    have hm : CanBeSeenFrom (-(i * f.size.1.toNat : Nat)) 0 f := by
      intro fr hfr c hc
      obtain ⟨h1, h2⟩ := hin fr hfr c hc
      have h3 := hmul i hi
      have h4 := Int16.le_toInt c.origin.2
      have h5 := Int16.toInt_lt c.origin.2
      refine ⟨⟨by omega, by omega⟩, by omega, by omega⟩
    obtain ⟨c, g, h1, h2, h3⟩ := C142_window plat b f hf (-(i * f.size.1.toNat : Nat)) 0 wide f.size.2 hm hs
    rw [Int.neg_neg, Int.neg_zero] at h3
    exact ⟨g, ⟨c, h1⟩, h2, h3⟩)
  have hlay : ∀ (i : Nat) g, gs[i]? = some g → g.layers = f.layers := fun i g h => congrArg Sprite.layers (hg i g h).2.1
  have hsize : ∀ (i : Nat) g, gs[i]? = some g → g.size = (wide, f.size.2) := fun i g h => congrArg Sprite.size (hg i g h).2.1
  have hfrs : ∀ (i : Nat) g, gs[i]? = some g → g.frames = f.frames.map fun fr =>
      { fr with cels := fr.cels.map (seenFrom (-(i * f.size.1.toNat : Nat)) 0) } :=
    fun i g h => congrArg Sprite.frames (hg i g h).2.1
  have hlt : ∀ (i : Nat) g, gs[i]? = some g → i < f.frames.length := fun i g h =>
    hlen ▸ (List.getElem?_eq_some_iff.1 h).1
  have hpage : ∀ (i : Nat) g, gs[i]? = some g → pageBytes (g, i) = pageBytes (f, i) := by
    intro i g h
    have e1 : g.images = f.images := congrArg Sprite.images (hg i g h).2.1
    simp only [pageBytes, pageCels, hlay i g h, hfrs i g h, e1, List.getElem?_map]
    cases f.frames[i]? <;> simp [seenFrom, Function.comp_def]
  have hparts : ∀ q ∈ gs.zipIdx, gs[q.2]? = some q.1 := by
    intro q hq
    obtain ⟨g, i⟩ := q
    exact List.mem_zipIdx_iff_getElem?.1 hq
  have hpl : pageLayers gs.zipIdx = (List.replicate f.frames.length f.layers).flatten := by
    rw [pageLayers, List.flatMap_def]
    congr 1
    refine List.eq_replicate_iff.2 ⟨by rw [List.length_map, List.length_zipIdx, hlen], fun l hm => ?_⟩
    obtain ⟨q, hq, rfl⟩ := List.mem_map.1 hm
    exact hlay q.2 q.1 (hparts q hq)
  obtain ⟨c, s, hc, hone, hl, hmed, hr⟩ := C138_one_file plat gs.zipIdx
    (by
      intro h0
      have := congrArg List.length h0
      rw [List.length_zipIdx, hlen] at this
      exact absurd this (by simp; omega))
    (fun q hq => ⟨(hg q.2 q.1 (hparts q hq)).1, by
      rw [hfrs q.2 q.1 (hparts q hq), List.length_map]; exact hlt q.2 q.1 (hparts q hq)⟩)
    (fun q hq r hr => by
      obtain ⟨-, h1, -⟩ := hg q.2 q.1 (hparts q hq)
      obtain ⟨-, h2, -⟩ := hg r.2 r.1 (hparts r hr)
      refine ⟨(hsize _ _ (hparts q hq)).trans (hsize _ _ (hparts r hr)).symm, ?_, ?_⟩
      · exact (congrArg Sprite.depth h1).trans (congrArg Sprite.depth h2).symm
      · exact (congrArg Sprite.palette h1).trans (congrArg Sprite.palette h2).symm)
    (by
      rw [hpl, List.length_flatten, List.map_replicate, List.sum_replicate_nat]
      exact hlayers)
    (by
      have : gs.zipIdx.map pageBytes = (List.range f.frames.length).map fun i => pageBytes (f, i) := by
        refine List.ext_getElem? fun k => ?_
        rw [List.getElem?_map, List.getElem?_map, List.getElem?_zipIdx]
        by_cases hk : k < f.frames.length
        · rw [List.getElem?_range hk, List.getElem?_eq_getElem (hlen ▸ hk)]
          simp only [Option.map_some, Nat.zero_add]
          exact congrArg some (hpage k _ (List.getElem?_eq_getElem _))
        · rw [List.getElem?_eq_none (by omega), List.getElem?_eq_none (by simpa using hk)]
          rfl
      rw [this]
      exact hbytes)
  have hss : s.size = (wide, f.size.2) := by
    obtain ⟨g, hg0⟩ : ∃ g, gs[0]? = some g := ⟨gs[0], List.getElem?_eq_getElem (by omega)⟩
    exact (hmed (g, 0) (List.mem_zipIdx_iff_getElem?.2 hg0)).1.trans (hsize 0 g hg0)
  have hcp : ∀ (j : Nat) g, gs[j]? = some g → ∀ t x y, canvasPixel s t x y = canvasPixel g t x y := by
    intro j g hj t x y
    have : s.file.header.width = g.file.header.width := congrArg Prod.fst (hss.trans (hsize j g hj).symm)
    simp only [canvasPixel, this]
  have hcall : ∀ (inflate : Inflater) (sel : LayerSelection) (j : Nat) call,
      (gs.zipIdx.map fun q => q.1.renderFrame plat inflate q.2 sel)[j]? = some call →
      ∃ g, gs[j]? = some g ∧ call = g.renderFrame plat inflate j sel := by
    intro inflate sel j call hj
    rw [List.getElem?_map, List.getElem?_zipIdx] at hj
    cases hgj : gs[j]? with
    | none => rw [hgj] at hj; cases hj
    | some g => rw [hgj] at hj; simp at hj; exact ⟨g, rfl, hj.symm⟩
  have hturn : ∀ (inflate : Inflater) (sel : LayerSelection) (t : Bytes),
      s.renderFrame plat inflate 0 (forEachCopy f.frames.length f.layers.length sel) t =
        inTurn (gs.zipIdx.map fun q => q.1.renderFrame plat inflate q.2 sel) t := by
    intro inflate sel t
    cases sel with
    | visible => exact (hr plat inflate t).1 .visible (.inl rfl)
    | all => exact (hr plat inflate t).1 .all (.inr rfl)
    | mask m =>
      have h := (hr plat inflate t).2 (gs.zipIdx.map fun q => (q, .mask m)) (by rw [List.map_map]; exact List.map_id _)
      rw [List.map_map] at h
      refine Eq.trans ?_ h
      congr 1
      refine congrArg LayerSelection.mask ?_
      rw [jointMask, List.flatMap_map, List.flatMap_def]
      refine congrArg List.flatten (Eq.symm (List.eq_replicate_iff.2 ⟨?_, fun l hm => ?_⟩))
      · rw [List.length_map, List.length_zipIdx, hlen]
      obtain ⟨q, hq, rfl⟩ := List.mem_map.1 hm
      dsimp only
      rw [hlay q.2 q.1 (hparts q hq)]
      refine List.ext_getElem? fun k => ?_
      rw [List.getElem?_map, List.getElem?_map, List.getElem?_zipIdx]
      by_cases hk : k < f.layers.length
      · rw [List.getElem?_range hk, List.getElem?_eq_getElem hk]
        simp only [Option.map_some, Nat.zero_add]
        refine congrArg some (Bool.eq_iff_iff.2 (decide_eq_true_iff.trans ?_))
        change m[k]? = some true ↔ _
        cases m[k]? with
        | none => simp
        | some v => simp
      · rw [List.getElem?_eq_none (by omega), List.getElem?_eq_none (by simpa using hk)]
        rfl
  refine ⟨c, s, hc, hone, ?_, ?_, hl.trans hpl, fun inflate sel t => ⟨fun t' ht i u u' hu x y hx hy hb => ?_, ?_⟩⟩
  · rw [hss]; exact hwn
  · rw [hss]
  · rw [hturn inflate sel t] at ht
    have hi : i < f.frames.length := by
      refine Nat.lt_of_not_le fun hle => ?_
      rw [renderFrame_eq, List.getElem?_eq_none hle] at hu
      split at hu <;> cases hu
    obtain ⟨g, hgi⟩ : ∃ g, gs[i]? = some g := ⟨gs[i], List.getElem?_eq_getElem (by omega)⟩
    obtain ⟨v, v', h1, h2, h3⟩ := inTurn_one (fun b => canvasPixel s b (i * f.size.1.toNat + x) y) ht
      (i := i) (call := g.renderFrame plat inflate i sel) (by
        rw [List.getElem?_map, List.getElem?_zipIdx, hgi]; simp) (by
        intro j call hj hjc v v' hv
        obtain ⟨g', hgj, rfl⟩ := hcall inflate sel j call hjc
        have hlj := hlt j g' hgj
        obtain ⟨⟨c', hc'⟩, -, -⟩ := hg j g' hgj
        have hfr := hfrs j g' hgj
        have hw' := hsize j g' hgj
        have hm1 := hmul i hi
        have hfj : g'.frames[j]? = some { f.frames[j] with
            cels := f.frames[j].cels.map (seenFrom (-(j * f.size.1.toNat : Nat)) 0) } := by
          rw [hfr, List.getElem?_map, List.getElem?_eq_getElem hlj]; rfl
        obtain ⟨c1, c2, p1, p2, p3⟩ := C37_pixels plat c' g' hc' inflate j _ hfj sel v v' hv
          (i * f.size.1.toNat + x) y (by rw [hw']; simp only [hwn]; omega) (by rw [hw']; exact hy)
        have hno : strokes inflate g' sel (i * f.size.1.toNat + x) y
            (f.frames[j].cels.map (seenFrom (-(j * f.size.1.toNat : Nat)) 0)) = [] := by
          refine List.filterMap_eq_nil_iff.2 fun d hd => ?_
          obtain ⟨e, he, rfl⟩ := List.mem_map.1 hd
          obtain ⟨q1, q2⟩ := hin _ (List.getElem_mem hlj) e he
          have hm2 := hmul j hlj
          have hor : (seenFrom (-(j * f.size.1.toNat : Nat)) 0 e).origin.1.toInt =
              e.origin.1.toInt + (j * f.size.1.toNat : Nat) := by
            simp only [seenFrom]
            rw [Int16.toInt_ofInt_of_le (by omega) (by omega)]
            omega
          have hcov : coveredBy (seenFrom (-(j * f.size.1.toNat : Nat)) 0 e) (i * f.size.1.toNat + x) y = none := by
            simp only [coveredBy, hor]
            refine if_neg fun hh => ?_
            obtain ⟨r1, r2, -, -⟩ := hh
            have r3 : ((seenFrom (-(j * f.size.1.toNat : Nat)) 0 e).size.1.toNat : Int) = e.size.1.toNat := rfl
            rw [r3] at r2
            rcases Nat.lt_or_gt_of_ne hj with hlt' | hlt'
            · have hm3 : j * f.size.1.toNat + f.size.1.toNat ≤ i * f.size.1.toNat := by
                rw [← Nat.succ_mul]; exact Nat.mul_le_mul_right _ hlt'
              omega
            · have hm3 : i * f.size.1.toNat + f.size.1.toNat ≤ j * f.size.1.toNat := by
                rw [← Nat.succ_mul]; exact Nat.mul_le_mul_right _ hlt'
              omega
          simp only [strokeOf, hcov, Option.bind_none]
          cases drawnOn g' sel _ <;> rfl
        rw [compose_strokes, hno] at p3
        cases p3
        rw [hcp j g' hgj, hcp j g' hgj, p1, p2])
    have hm1 := hmul i hi
    rw [h3, hcp i g hgi]
    refine (hg i g hgi).2.2.render inflate i sel u u' v v' hu h1 x y _ y hx hy
      (by rw [hsize i g hgi]; simp only [hwn]; omega) (by rw [hsize i g hgi]; exact hy) (by omega) (by omega) ?_
    rw [hb, ← h2, hcp i g hgi]
  · intro hd hall ht
    rw [RendersOk, hturn inflate sel t]
    refine inTurn_succeeds (n := t.length) rfl fun call hm v hv => ?_
    obtain ⟨j, hj⟩ := List.mem_iff_getElem?.1 hm
    obtain ⟨g, hgj, rfl⟩ := hcall inflate sel j call hj
    obtain ⟨⟨c', hc'⟩, -, hmp⟩ := hg j g hgj
    obtain ⟨u, hu⟩ := hall j (hlt j g hgj)
    refine ⟨?_, (C36_buffer plat c' g hc' inflate j sel v).2.2.1.trans hv⟩
    refine (hmp.renders hd inflate j sel u v ?_ ?_).1 hu
    · refine Nat.le_of_not_lt fun hlt' => ?_
      have := (C36_buffer plat b f hf inflate j sel u).1.2 hlt'
      rw [RendersOk, this] at hu
      cases hu
    · rw [hsize j g hgj, hv, ← hss]; exact ht

/-- Two frames, of 2 and 1 cels on two layers, and the sheet of them: the hypotheses hold, and what `C145_sheet` says can be
seen in the rendered pictures. -/
example :
    let layers := [Sample.layer 1 0 0 255 [65], Sample.layer 1 0 1 200 [66]]
    let b := Sample.header 2 1 32 ++ Sample.frame 1 (layers ++ [Sample.cel 0 0 0 2 1 [90, 80, 70, 255, 60, 50, 40, 255],
      Sample.cel 1 1 0 1 1 [200, 100, 0, 128]]) ++ Sample.frame 1 [Sample.cel 1 0 0 1 1 [1, 2, 3, 255]]
    let sheet := Sample.header 4 1 32 ++ Sample.frame 1 (layers ++ layers ++ [
      Sample.cel 0 0 0 2 1 [90, 80, 70, 255, 60, 50, 40, 255], Sample.cel 1 1 0 1 1 [200, 100, 0, 128],
      Sample.cel 3 2 0 1 1 [1, 2, 3, 255]])
    (match AsepriteFile.load ⟨true, 10⟩ b with
      | .ok f => decide (InsideSides f ∧ Small (spriteOf f)) && f.frames.length == 2 && f.layers.length == 2 &&
          decide (2 ^ 23 + ((List.range f.frames.length).map fun i => pageBytes (f, i)).sum < 2 ^ 32)
      | _ => false) = true ∧
    Sample.render ⟨true, 10⟩ b 0 .all (List.replicate 8 0) = some (.ok (), [90, 80, 70, 255, 55, 39, 25, 255]) ∧
    Sample.render ⟨true, 10⟩ b 1 .all (List.replicate 8 0) = some (.ok (), [1, 2, 3, 200, 0, 0, 0, 0]) ∧
    Sample.render ⟨true, 10⟩ sheet 0 .all (List.replicate 16 0) =
      some (.ok (), [90, 80, 70, 255, 55, 39, 25, 255, 1, 2, 3, 200, 0, 0, 0, 0]) ∧
    forEachCopy 2 2 (.mask [true]) = .mask [true, false, true, false] ∧
    Sample.render ⟨true, 10⟩ sheet 0 (.mask [true, false, true, false]) (List.replicate 16 0) =
      some (.ok (), [90, 80, 70, 255, 60, 50, 40, 255, 0, 0, 0, 0, 0, 0, 0, 0]) := by
  decide +kernel

end Ase
