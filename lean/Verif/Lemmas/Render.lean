import Verif.Spec.Render
import Verif.Lemmas.Image
import Verif.Props.Image

/-!
# Lemmas about rendering
-/

namespace Ase

open Spec

/-! ## Writing pixels -/

/-- The buffer with pixel `q` replaced. -/
def setPixel (t : Bytes) (q : Nat) (c : Color) : Bytes :=
  t.take (4 * q) ++ c.r :: c.g :: c.b :: c.a :: t.drop (4 * q + 4)

theorem setPixel_length {t : Bytes} {q : Nat} (h : 4 * q + 4 ≤ t.length) (c : Color) :
    (setPixel t q c).length = t.length := by
  simp only [setPixel, List.length_append, List.length_take, List.length_cons, List.length_drop]
  omega

theorem setPixel_drop {t : Bytes} {q n : Nat} (h : 4 * q + 4 ≤ t.length) (hn : 4 * q + 4 ≤ n) (c : Color) :
    (setPixel t q c).drop n = t.drop n := by
  rw [setPixel, List.drop_append, List.drop_eq_nil_of_le (by rw [List.length_take]; omega), List.nil_append,
    List.length_take, show n - min (4 * q) t.length = (n - (4 * q + 4)) + 1 + 1 + 1 + 1 by omega]
  simp only [List.drop_succ_cons, List.drop_drop]
  congr 1
  omega

theorem split_at_pixel {t : Bytes} {q : Nat} (h : 4 * q + 4 ≤ t.length) :
    ∃ c : Color, pixel t q = some c ∧ t = t.take (4 * q) ++ c.r :: c.g :: c.b :: c.a :: t.drop (4 * q + 4) := by
  obtain ⟨r, g, b, a, t', h1, _⟩ := four_of_length (t := t.drop (4 * q)) (n := t.length - 4 * q - 4)
    (by rw [List.length_drop]; omega)
  refine ⟨⟨r, g, b, a⟩, by rw [pixel, h1], ?_⟩
  have h2 : t.drop (4 * q + 4) = t' := by
    rw [← List.drop_drop, h1]
    rfl
  rw [h2]
  show t = t.take (4 * q) ++ (r :: g :: b :: a :: t')
  rw [← h1, List.take_append_drop]

theorem pixel_setPixel_self {t : Bytes} {q : Nat} (h : 4 * q + 4 ≤ t.length) (c : Color) :
    pixel (setPixel t q c) q = some c := by
  rw [setPixel, pixel, List.drop_append, List.drop_eq_nil_of_le (by rw [List.length_take]; omega), List.nil_append,
    List.length_take, show 4 * q - min (4 * q) t.length = 0 by omega]
  rfl

/-- `pixel` by single bytes. -/
theorem pixel_eq_getElem? (t : Bytes) (q : Nat) :
    pixel t q = (t[4 * q]?).bind fun r => (t[4 * q + 1]?).bind fun g => (t[4 * q + 2]?).bind fun b =>
      (t[4 * q + 3]?).map fun a => ⟨r, g, b, a⟩ := by
  unfold pixel
  have e : ∀ k, t[4 * q + k]? = (t.drop (4 * q))[k]? := fun k => by rw [List.getElem?_drop]
  rw [show t[4 * q]? = (t.drop (4 * q))[0]? from by rw [List.getElem?_drop, Nat.add_zero], e 1, e 2, e 3]
  match t.drop (4 * q) with
  | r :: g :: b :: a :: _ => rfl
  | [] => rfl
  | [_] => rfl
  | [_, _] => rfl
  | [_, _, _] => rfl

theorem setPixel_getElem? {t : Bytes} {q i : Nat} (h : 4 * q + 4 ≤ t.length) (c : Color)
    (hi : i < 4 * q ∨ 4 * q + 4 ≤ i) : (setPixel t q c)[i]? = t[i]? := by
  rw [setPixel, List.getElem?_append, List.length_take]
  rcases hi with hi | hi
  · rw [if_pos (by omega), List.getElem?_take, if_pos hi]
  · rw [if_neg (by omega), show i - min (4 * q) t.length = (i - (4 * q + 4)) + 1 + 1 + 1 + 1 by omega]
    simp only [List.getElem?_cons_succ, List.getElem?_drop]
    congr 1
    omega

theorem pixel_setPixel_ne {t : Bytes} {q p : Nat} (h : 4 * q + 4 ≤ t.length) (c : Color) (hne : p ≠ q) :
    pixel (setPixel t q c) p = pixel t p := by
  rw [pixel_eq_getElem?, pixel_eq_getElem?]
  rw [setPixel_getElem? h c (by omega), setPixel_getElem? h c (by omega), setPixel_getElem? h c (by omega),
    setPixel_getElem? h c (by omega)]

/-! ## One pixel -/

theorem checkedAddSigned_some {x : UInt16} {d : Int16} {r : UInt16} :
    checkedAddSigned x d = some r ↔ (r.toNat : Int) = (x.toNat : Int) + d.toInt := by
  have hr := r.toNat_lt
  unfold checkedAddSigned
  constructor
  · intro h
    dsimp only at h
    split at h
    · next hc =>
      cases h
      rw [UInt16.toNat_ofNat']
      omega
    · cases h
  · intro h
    dsimp only
    rw [if_pos (by omega)]
    congr 1
    rw [← UInt16.toNat_inj, UInt16.toNat_ofNat']
    omega

theorem checkedAddSigned_none {x : UInt16} {d : Int16} :
    checkedAddSigned x d = none ↔ (x.toNat : Int) + d.toInt < 0 ∨ 65535 < (x.toNat : Int) + d.toInt := by
  unfold checkedAddSigned
  dsimp only
  split
  · next h => simp only [reduceCtorEq, false_iff]; omega
  · next h => simp only [true_iff]; omega

/-- The canvas pixel on which pixel `(x, y)` of a cel lies. -/
def targetOf (f : AsepriteFile) (cel : FrameCel) (yx : UInt16 × UInt16) : Option Nat :=
  let tx : Int := (yx.2.toNat : Int) + cel.origin.1.toInt
  let ty : Int := (yx.1.toNat : Int) + cel.origin.2.toInt
  if 0 ≤ tx ∧ tx < f.file.header.width.toNat ∧ 0 ≤ ty ∧ ty < f.file.header.height.toNat then
    some (ty.toNat * f.file.header.width.toNat + tx.toNat)
  else none

theorem row_major {x y w h : Nat} (hx : x < w) (hy : y < h) : y * w + x < w * h := by
  have : (y + 1) * w ≤ h * w := Nat.mul_le_mul_right _ (by omega)
  rw [Nat.mul_comm w h]
  rw [Nat.add_mul] at this
  omega

theorem row_major_inj {x y x' y' w : Nat} (hx : x < w) (hx' : x' < w) (h : y * w + x = y' * w + x') :
    x = x' ∧ y = y' := by
  have h1 : (y * w + x) % w = x := by rw [Nat.mul_comm, Nat.mul_add_mod, Nat.mod_eq_of_lt hx]
  have h2 : (y' * w + x') % w = x' := by rw [Nat.mul_comm, Nat.mul_add_mod, Nat.mod_eq_of_lt hx']
  have h3 : x = x' := by rw [← h1, ← h2, h]
  refine ⟨h3, ?_⟩
  have hw : 0 < w := by omega
  exact Nat.eq_of_mul_eq_mul_right hw (by omega)

theorem targetOf_lt {f : AsepriteFile} {cel : FrameCel} {yx : UInt16 × UInt16} {q : Nat}
    (h : targetOf f cel yx = some q) : q < f.file.header.width.toNat * f.file.header.height.toNat := by
  unfold targetOf at h
  dsimp only at h
  split at h
  · next hc =>
    cases h
    exact row_major (by omega) (by omega)
  · cases h

theorem lift_ok {α : Type} (a : α) : (Outcome.ok a : Run α).lift (ε := LoadImageError) = .ok a := rfl

/-- What the loop body does to one pixel. -/
theorem renderPixel_eq (plat : Plat) {f : AsepriteFile} {cel : FrameCel} (layer : LLayer) (fn : BlendFn)
    {celTarget : Bytes} (hct : celTarget.length = cel.size.1.toNat * cel.size.2.toNat * 4) {y x : UInt16}
    (hx : x.toNat < cel.size.1.toNat) (hy : y.toNat < cel.size.2.toNat) {t : Bytes} (ht : canvasBytes f ≤ t.length) :
    f.renderPixel plat cel layer fn celTarget y x t =
      match targetOf f cel (y, x) with
      | none => (.ok (), t)
      | some q =>
        match pixel t q, pixel celTarget (y.toNat * cel.size.1.toNat + x.toNat) with
        | some back, some front =>
          match fn back front layer.opacity with
          | .ok out => (.ok (), setPixel t q out)
          | .panic k => (.panic k, t)
          | .err e => nomatch e
        | _, _ => (.panic .indexOutOfBounds, t) := by
  unfold AsepriteFile.renderPixel
  cases hcx : checkedAddSigned x cel.origin.1 with
  | none =>
    rw [show targetOf f cel (y, x) = none from ?_]
    · rfl
    · rw [checkedAddSigned_none] at hcx
      have := f.file.header.width.toNat_lt
      unfold targetOf
      dsimp only
      rw [if_neg (by omega)]
  | some tx =>
    have htx := checkedAddSigned_some.1 hcx
    dsimp only
    by_cases hwx : tx ≥ f.file.header.width
    · rw [if_pos hwx]
      rw [show targetOf f cel (y, x) = none from ?_]
      · rfl
      · rw [ge_iff_le, UInt16.le_iff_toNat_le] at hwx
        unfold targetOf
        dsimp only
        rw [if_neg (by omega)]
    · rw [if_neg hwx]
      cases hcy : checkedAddSigned y cel.origin.2 with
      | none =>
        rw [show targetOf f cel (y, x) = none from ?_]
        · rfl
        · rw [checkedAddSigned_none] at hcy
          have := f.file.header.height.toNat_lt
          unfold targetOf
          dsimp only
          rw [if_neg (by omega)]
      | some ty =>
        have hty := checkedAddSigned_some.1 hcy
        dsimp only
        by_cases hhy : ty ≥ f.file.header.height
        · rw [if_pos hhy]
          rw [show targetOf f cel (y, x) = none from ?_]
          · rfl
          · rw [ge_iff_le, UInt16.le_iff_toNat_le] at hhy
            unfold targetOf
            dsimp only
            rw [if_neg (by omega)]
        · rw [if_neg hhy]
          rw [ge_iff_le, UInt16.le_iff_toNat_le] at hwx hhy
          have htarget : targetOf f cel (y, x) = some (ty.toNat * f.file.header.width.toNat + tx.toNat) := by
            unfold targetOf
            dsimp only
            rw [if_pos (by omega), ← htx, ← hty]
            rfl
          rw [htarget]
          dsimp only
          have hq := row_major (x := tx.toNat) (y := ty.toNat) (w := f.file.header.width.toNat)
            (h := f.file.header.height.toNat) (by omega) (by omega)
          have hp := row_major hx hy
          generalize ty.toNat * f.file.header.width.toNat + tx.toNat = q at *
          generalize y.toNat * cel.size.1.toNat + x.toNat = p at *
          have hq4 : 4 * q + 4 ≤ t.length := by unfold canvasBytes at ht; omega
          have hp4 : 4 * p + 4 ≤ celTarget.length := by omega
          obtain ⟨back, hb1, hb2⟩ := split_at_pixel hq4
          obtain ⟨front, hf1, hf2⟩ := split_at_pixel hp4
          rw [hb1, hf1]
          dsimp only
          have four : ∀ (pre post : Bytes) (c : Color) (n : Nat), pre.length = 4 * n →
              ((pre ++ c.r :: c.g :: c.b :: c.a :: post).drop (n * 4)).take (n * 4 + 4 - n * 4)
                = [c.r, c.g, c.b, c.a] := by
            intro pre post c n hn
            rw [List.drop_append, List.drop_eq_nil_of_le (by omega), show n * 4 - pre.length = 0 by omega,
              show n * 4 + 4 - n * 4 = 4 by omega]
            rfl
          have hs1 : sliceOf celTarget (p * 4) (p * 4 + 4) = .ok [front.r, front.g, front.b, front.a] := by
            rw [sliceOf, if_pos (by omega)]
            congr 1
            rw [hf2]
            exact four _ _ front p (by rw [List.length_take]; omega)
          have hs2 : Buf.slice (q * 4) (q * 4 + 4) t = (.ok [back.r, back.g, back.b, back.a], t) := by
            rw [Buf.slice, if_pos (by omega)]
            congr 2
            rw [hb2]
            exact four _ _ back q (by rw [List.length_take]; omega)
          have hcol : ∀ c : Color, Color.ofSlice plat [c.r, c.g, c.b, c.a] = .ok c := by
            intro c
            simp [Color.ofSlice]
          rw [hs1, lift_ok, buf_bind_ok (x := Buf.lift (.ok _)) rfl, buf_bind_ok hs2, hcol, lift_ok,
            buf_bind_ok (x := Buf.lift (.ok _)) rfl, hcol, lift_ok, buf_bind_ok (x := Buf.lift (.ok _)) rfl]
          cases hfn : fn back front layer.opacity with
          | err e => exact nomatch e
          | panic k => rfl
          | ok out =>
            rw [lift_ok, buf_bind_ok (x := Buf.lift (.ok _)) rfl]
            have h4 := buf_set4 (α := Unit) (pre := t.take (4 * q)) (post := t.drop (4 * q + 4)) (n := q * 4)
              (r0 := back.r) (r1 := back.g) (r2 := back.b) (r3 := back.a) (a := out.r) (b := out.g) (c := out.b)
              (d := out.a) (by rw [List.length_take]; omega) pure
            rw [← hb2] at h4
            rw [buf_pure] at h4
            simp only [buf_bind_pure] at h4
            dsimp only
            rw [setPixel, ← h4]

/-! ## Loops -/

theorem forEach_cons {α : Type} (body : α → Buf Unit) (x : α) (xs : List α) (t : Bytes) :
    Buf.forEach body (x :: xs) t =
      match body x t with
      | (.ok _, t') => Buf.forEach body xs t'
      | (.err e, t') => (.err e, t')
      | (.panic k, t') => (.panic k, t') := by
  rw [Buf.forEach, Buf.bind]
  rcases body x t with ⟨_ | _ | _, _⟩ <;> rfl

theorem forEach_nil {α : Type} (body : α → Buf Unit) (t : Bytes) : Buf.forEach body [] t = (.ok (), t) := rfl

theorem forEach_append {α : Type} (body : α → Buf Unit) (xs ys : List α) (t : Bytes) :
    Buf.forEach body (xs ++ ys) t =
      match Buf.forEach body xs t with
      | (.ok _, t') => Buf.forEach body ys t'
      | (.err e, t') => (.err e, t')
      | (.panic k, t') => (.panic k, t') := by
  induction xs generalizing t with
  | nil => rfl
  | cons x xs ih =>
    rw [List.cons_append, forEach_cons, forEach_cons]
    rcases body x t with ⟨_ | _ | _, t'⟩
    · exact ih t'
    · rfl
    · rfl

theorem forEach_map {α β : Type} (g : α → β) (body : β → Buf Unit) (xs : List α) (t : Bytes) :
    Buf.forEach body (xs.map g) t = Buf.forEach (fun x => body (g x)) xs t := by
  induction xs generalizing t with
  | nil => rfl
  | cons x xs ih =>
    rw [List.map_cons, forEach_cons, forEach_cons]
    rcases body (g x) t with ⟨_ | _ | _, t'⟩
    · exact ih t'
    · rfl
    · rfl

theorem forEach_flatMap {α β : Type} (g : α → List β) (body : β → Buf Unit) (xs : List α) (t : Bytes) :
    Buf.forEach body (xs.flatMap g) t = Buf.forEach (fun x => Buf.forEach body (g x)) xs t := by
  induction xs generalizing t with
  | nil => rfl
  | cons x xs ih =>
    rw [List.flatMap_cons, forEach_append, forEach_cons]
    rcases Buf.forEach body (g x) t with ⟨_ | _ | _, t'⟩
    · exact ih t'
    · rfl
    · rfl

/-- A step that changes at most one pixel. -/
def pixelStep (target : Option Nat) (step : Color → Run Color) : Buf Unit := fun t =>
  match target with
  | none => (.ok (), t)
  | some q =>
    match pixel t q with
    | some back =>
      match step back with
      | .ok out => (.ok (), setPixel t q out)
      | .panic k => (.panic k, t)
      | .err e => nomatch e
    | none => (.panic .indexOutOfBounds, t)

/-- What a loop over steps on different pixels does. -/
structure LoopSpec {ι : Type} (N : Nat) (target : ι → Option Nat) (step : ι → Color → Run Color) (L : List ι) (t : Bytes)
    (r : Outcome LoadImageError Unit × Bytes) : Prop where
  length : r.2.length = t.length
  drop : r.2.drop N = t.drop N
  no_err : ∀ e, r.1 ≠ .err e
  ok_iff : r.1 = .ok () ↔ ∀ i ∈ L, ∀ q back, target i = some q → pixel t q = some back → ∃ out, step i back = .ok out
  hit : r.1 = .ok () → ∀ i ∈ L, ∀ q, target i = some q →
    ∃ back out, pixel t q = some back ∧ step i back = .ok out ∧ pixel r.2 q = some out
  miss : r.1 = .ok () → ∀ q, (∀ i ∈ L, target i ≠ some q) → pixel r.2 q = pixel t q

theorem pixelLoop {ι : Type} {N : Nat} {target : ι → Option Nat} {step : ι → Color → Run Color} (body : ι → Buf Unit)
    (L : List ι)
    (hbody : ∀ i ∈ L, ∀ t, N ≤ t.length → body i t = pixelStep (target i) (step i) t)
    (hq : ∀ i ∈ L, ∀ q, target i = some q → 4 * q + 4 ≤ N)
    (hinj : L.Pairwise fun i j => ∀ q, target i = some q → target j ≠ some q)
    (t : Bytes) (ht : N ≤ t.length) : LoopSpec N target step L t (Buf.forEach body L t) := by
  induction L generalizing t with
  | nil => exact ⟨rfl, rfl, by simp [forEach_nil], by simp [forEach_nil], by simp, by simp [forEach_nil]⟩
  | cons i L ih =>
    have ih' := ih (fun j hj => hbody j (List.mem_cons_of_mem _ hj)) (fun j hj => hq j (List.mem_cons_of_mem _ hj))
      (List.pairwise_cons.1 hinj).2
    have hhead := (List.pairwise_cons.1 hinj).1
    rw [forEach_cons, hbody i List.mem_cons_self t ht]
    unfold pixelStep
    cases htg : target i with
    | none =>
      dsimp only
      have h := ih' t ht
      refine ⟨h.length, h.drop, h.no_err, ?_, ?_, ?_⟩
      · rw [h.ok_iff]
        constructor
        · intro h1 j hj
          rcases List.mem_cons.1 hj with rfl | hj
          · intro q back hq'; rw [htg] at hq'; cases hq'
          · exact h1 j hj
        · exact fun h1 j hj => h1 j (List.mem_cons_of_mem _ hj)
      · intro hok j hj q hq'
        rcases List.mem_cons.1 hj with rfl | hj
        · rw [htg] at hq'; cases hq'
        · exact h.hit hok j hj q hq'
      · exact fun hok q hm => h.miss hok q fun j hj => hm j (List.mem_cons_of_mem _ hj)
    | some q =>
      have hqN := hq i List.mem_cons_self q htg
      obtain ⟨back, hb, -⟩ := split_at_pixel (t := t) (q := q) (by omega)
      dsimp only
      rw [hb]
      dsimp only
      cases hst : step i back with
      | err e => exact nomatch e
      | panic k =>
        refine ⟨rfl, rfl, by simp, ?_, by simp, by simp⟩
        simp only [reduceCtorEq, false_iff]
        intro h1
        obtain ⟨out, ho⟩ := h1 i List.mem_cons_self q back htg hb
        rw [hst] at ho
        cases ho
      | ok out =>
        dsimp only
        have hlen := setPixel_length (t := t) (q := q) (by omega) out
        have h := ih' (setPixel t q out) (by omega)
        have hpx : ∀ p, p ≠ q → pixel (setPixel t q out) p = pixel t p := fun p hp =>
          pixel_setPixel_ne (by omega) out hp
        refine ⟨h.length.trans hlen, h.drop.trans (setPixel_drop (by omega) hqN out), h.no_err, ?_, ?_, ?_⟩
        · rw [h.ok_iff]
          constructor
          · intro h1 j hj q' back' hq' hb'
            rcases List.mem_cons.1 hj with rfl | hj
            · rw [htg] at hq'; cases hq'
              rw [hb] at hb'; cases hb'
              exact ⟨out, hst⟩
            · have hne : q' ≠ q := by rintro rfl; exact hhead j hj _ htg hq'
              exact h1 j hj q' back' hq' (by rw [hpx _ hne]; exact hb')
          · intro h1 j hj q' back' hq' hb'
            have hne : q' ≠ q := by rintro rfl; exact hhead j hj _ htg hq'
            rw [hpx _ hne] at hb'
            exact h1 j (List.mem_cons_of_mem _ hj) q' back' hq' hb'
        · intro hok j hj q' hq'
          rcases List.mem_cons.1 hj with rfl | hj
          · rw [htg] at hq'; cases hq'
            refine ⟨back, out, hb, hst, ?_⟩
            rw [h.miss hok q fun j' hj' hq'' => hhead j' hj' _ htg hq'']
            exact pixel_setPixel_self (by omega) out
          · have hne : q' ≠ q := by rintro rfl; exact hhead j hj _ htg hq'
            obtain ⟨b', o', h1, h2, h3⟩ := h.hit hok j hj q' hq'
            exact ⟨b', o', by rw [← hpx _ hne]; exact h1, h2, h3⟩
        · intro hok p hm
          have hne : p ≠ q := by rintro rfl; exact hm i List.mem_cons_self htg
          rw [h.miss hok p fun j hj => hm j (List.mem_cons_of_mem _ hj), hpx _ hne]

/-! ## One cel -/

/-- The pixels of a cel in the order of the loops. -/
def celPixels (w h : UInt16) : List (UInt16 × UInt16) := (u16Range h).flatMap fun y => (u16Range w).map fun x => (y, x)

theorem mem_u16Range {n x : UInt16} : x ∈ u16Range n ↔ x.toNat < n.toNat := by
  have hn := n.toNat_lt
  unfold u16Range
  simp only [List.mem_map, List.mem_range]
  constructor
  · rintro ⟨a, ha, rfl⟩
    rw [UInt16.toNat_ofNat']
    omega
  · intro h
    exact ⟨x.toNat, h, by simp⟩

theorem u16Range_nodup (n : UInt16) : (u16Range n).Nodup := by
  have hn := n.toNat_lt
  unfold u16Range
  rw [List.Nodup, List.pairwise_map]
  have := List.nodup_range (n := n.toNat)
  refine List.Pairwise.imp_of_mem ?_ this
  intro a b ha hb hne h
  have h := congrArg UInt16.toNat h
  rw [List.mem_range] at ha hb
  rw [UInt16.toNat_ofNat', UInt16.toNat_ofNat'] at h
  omega

theorem mem_celPixels {w h : UInt16} {yx : UInt16 × UInt16} :
    yx ∈ celPixels w h ↔ yx.2.toNat < w.toNat ∧ yx.1.toNat < h.toNat := by
  obtain ⟨y, x⟩ := yx
  simp only [celPixels, List.mem_flatMap, List.mem_map, mem_u16Range, Prod.mk.injEq]
  constructor
  · rintro ⟨y', hy, x', hx, rfl, rfl⟩
    exact ⟨hx, hy⟩
  · rintro ⟨hx, hy⟩
    exact ⟨y, hy, x, hx, rfl, rfl⟩

theorem celPixels_nodup (w h : UInt16) : (celPixels w h).Nodup := by
  unfold celPixels
  have hw := u16Range_nodup w
  have hh := u16Range_nodup h
  generalize u16Range h = ys at hh
  induction ys with
  | nil => simp
  | cons y ys ih =>
    rw [List.nodup_cons] at hh
    rw [List.flatMap_cons, List.nodup_append]
    refine ⟨?_, ih hh.2, ?_⟩
    · rw [List.Nodup, List.pairwise_map]
      exact hw.imp fun hne h => hne (Prod.mk.inj h).2
    · rintro ⟨y1, x1⟩ h1 ⟨y2, x2⟩ h2 heq
      cases heq
      simp only [List.mem_map, Prod.mk.injEq, List.mem_flatMap] at h1 h2
      obtain ⟨_, _, rfl, rfl⟩ := h1
      obtain ⟨y', hy', _, _, rfl, _⟩ := h2
      exact hh.1 hy'

theorem targetOf_inj {f : AsepriteFile} {cel : FrameCel} {a b : UInt16 × UInt16} {q : Nat}
    (ha : targetOf f cel a = some q) (hb : targetOf f cel b = some q) : a = b := by
  unfold targetOf at ha hb
  dsimp only at ha hb
  split at ha
  · split at hb
    · next h1 h2 =>
      simp only [Option.some.injEq] at ha hb
      have := row_major_inj (w := f.file.header.width.toNat) (by omega) (by omega) (ha.trans hb.symm)
      obtain ⟨y, x⟩ := a
      obtain ⟨y', x'⟩ := b
      dsimp only at *
      rw [Prod.mk.injEq, ← UInt16.toNat_inj, ← UInt16.toNat_inj]
      omega
    · cases hb
  · cases ha

/-- Which cel pixel lies on a canvas pixel. -/
theorem coveredBy_iff {f : AsepriteFile} {cel : FrameCel} {x y : Nat} (hx : x < f.file.header.width.toNat)
    (hy : y < f.file.header.height.toNat) {p : Nat} :
    coveredBy cel x y = some p ↔ ∃ yx ∈ celPixels cel.size.1 cel.size.2,
      targetOf f cel yx = some (y * f.file.header.width.toNat + x) ∧ p = yx.1.toNat * cel.size.1.toNat + yx.2.toNat := by
  have hw := cel.size.1.toNat_lt
  have hh := cel.size.2.toNat_lt
  unfold coveredBy
  dsimp only
  constructor
  · intro h
    split at h
    · next hc =>
      cases h
      have hdx : ((x : Int) - cel.origin.1.toInt).toNat < cel.size.1.toNat := by omega
      have hdy : ((y : Int) - cel.origin.2.toInt).toNat < cel.size.2.toNat := by omega
      refine ⟨(UInt16.ofNat ((y : Int) - cel.origin.2.toInt).toNat, UInt16.ofNat ((x : Int) - cel.origin.1.toInt).toNat),
        mem_celPixels.2 ?_, ?_, ?_⟩
      · simp only [UInt16.toNat_ofNat']
        omega
      · unfold targetOf
        dsimp only
        rw [UInt16.toNat_ofNat', UInt16.toNat_ofNat', Nat.mod_eq_of_lt (by omega), Nat.mod_eq_of_lt (by omega)]
        rw [show ((((x : Int) - cel.origin.1.toInt).toNat : Nat) : Int) + cel.origin.1.toInt = x by omega]
        rw [show ((((y : Int) - cel.origin.2.toInt).toNat : Nat) : Int) + cel.origin.2.toInt = y by omega]
        rw [if_pos (by omega)]
        rfl
      · dsimp only
        rw [UInt16.toNat_ofNat', UInt16.toNat_ofNat', Nat.mod_eq_of_lt (by omega), Nat.mod_eq_of_lt (by omega)]
    · cases h
  · rintro ⟨⟨v, u⟩, hm, ht, rfl⟩
    rw [mem_celPixels] at hm
    dsimp only at hm ⊢
    unfold targetOf at ht
    dsimp only at ht
    split at ht
    · next hc =>
      simp only [Option.some.injEq] at ht
      obtain ⟨e1, e2⟩ := row_major_inj (w := f.file.header.width.toNat) (by omega) hx ht
      rw [if_pos (by omega)]
      rw [show ((x : Int) - cel.origin.1.toInt).toNat = u.toNat by omega,
        show ((y : Int) - cel.origin.2.toInt).toNat = v.toNat by omega]
    · cases ht

/-- Decoding into a zeroed buffer of the size of the image. -/
theorem loadImage_fresh {f : AsepriteFile} {pal : Palette} (hpal : GoodPalette f.file pal) (inflate : Inflater) {i : Nat}
    {im : Image} (him : f.images[i]? = some im) :
    (HasPixels inflate f.file im → ∃ c, f.loadImage inflate i (List.replicate (pixelCount im * 4) 0) = (.ok (), c) ∧
      c.length = pixelCount im * 4 ∧ ∀ p, p < pixelCount im → pixel c p = imageColor inflate f i p) ∧
    (¬ HasPixels inflate f.file im →
      ∀ c, f.loadImage inflate i (List.replicate (pixelCount im * 4) 0) ≠ (.ok (), c)) := by
  have ht : ((List.replicate (pixelCount im * 4) (0 : UInt8)).take (pixelCount im * 4)).length = pixelCount im * 4 := by
    simp
  rw [loadImage_eq him, if_neg (by simp), List.take_of_length_le (by simp), List.drop_eq_nil_of_le (by simp),
    List.append_nil]
  rw [List.take_of_length_le (by simp)] at ht
  rcases known_or_unknown f.file.header.colorDepth with ⟨n, hu⟩ | hn
  · rw [decodeImage_unknown hu]
    exact ⟨fun h => absurd hu (h.1 n), fun _ c h => by cases h⟩
  · rw [decodeImage_known hpal rfl hn inflate im _ ht]
    generalize hsz : pixelCount im * bytesPerPixel f.file.header.colorDepth = n
    have hpad : (if f.file.header.colorDepth = .rgba then List.replicate (pixelCount im * 4) (0 : UInt8)
        else List.replicate n 0) = List.replicate n 0 := by
      split
      · next he => rw [← hsz, he]; rfl
      · rfl
    rw [hpad]
    have hlt : ∀ p, p < pixelCount im → (p + 1) * bytesPerPixel f.file.header.colorDepth ≤ n := by
      intro p hp
      rw [← hsz]
      exact Nat.mul_le_mul_right _ hp
    unfold HasPixels imageColor imageBytes
    rw [him]
    dsimp only [Option.bind_some]
    rw [hsz]
    by_cases hc : im.compressed = true
    · simp only [hc, if_true]
      by_cases hs : (inflate im.data n).1 = .streamEnd
      · rw [if_pos hs]
        refine ⟨fun _ => ⟨_, rfl, ?_, ?_⟩, fun h => absurd ⟨hn, hs⟩ h⟩
        · exact toRgba_length hn pal (by rw [overwrite_length, List.length_replicate, hsz])
        · intro p hp
          rw [pixel_toRgba hpal]
          have e : overwrite (inflate im.data n).2 (List.replicate n 0)
              = ((inflate im.data n).2 ++ List.replicate n 0).take n := by
            rw [overwrite, List.length_replicate, List.take_append, List.drop_replicate, List.take_replicate]
            congr 2
            omega
          have h2 := storedPixel_append (d := f.file.header.colorDepth) (pal := f.file.palette)
            (a := ((inflate im.data n).2 ++ List.replicate n 0).take n)
            (b := ((inflate im.data n).2 ++ List.replicate n 0).drop n) (p := p) (by
              rw [List.length_take, List.length_append, List.length_replicate]
              have := hlt p hp
              omega)
          rw [List.take_append_drop] at h2
          rw [h2, e]
      · rw [if_neg hs]
        exact ⟨fun h => absurd h.2 hs, fun _ c h => by cases h⟩
    · rw [Bool.not_eq_true] at hc
      simp only [hc, Bool.false_eq_true, if_false]
      by_cases hs : im.data.length = n
      · rw [if_pos hs]
        refine ⟨fun _ => ⟨_, rfl, ?_, ?_⟩, fun h => absurd ⟨hn, hs⟩ h⟩
        · exact toRgba_length hn pal (by rw [hs, hsz])
        · intro p hp
          rw [pixel_toRgba hpal, storedPixel_append (by rw [hs]; exact hlt p hp)]
      · rw [if_neg hs]
        refine ⟨fun h => absurd h.2 hs, fun _ c h => ?_⟩
        split at h <;> cases h

theorem isSelected_iff (sel : LayerSelection) (i : Nat) (layer : LLayer) :
    sel.isSelected i layer = true ↔ Selects sel i layer := by
  cases sel with
  | visible => rfl
  | all => simp [LayerSelection.isSelected, Selects]
  | mask m =>
    simp only [LayerSelection.isSelected, Selects]
    cases m[i]? <;> simp

theorem renderCel_skip {plat : Plat} {inflate : Inflater} {f : AsepriteFile} {sel : LayerSelection} {cel : FrameCel}
    (h : drawnOn f sel cel = none) (t : Bytes) : f.renderCel plat inflate sel cel t = (.ok (), t) := by
  unfold AsepriteFile.renderCel
  unfold drawnOn at h
  cases hl : f.layers[cel.layerIndex]? with
  | none => rfl
  | some layer =>
    rw [hl] at h
    dsimp only at h ⊢
    split at h
    · cases h
    · next hc =>
      rw [if_pos]
      · rfl
      · rw [isSelected_iff]
        by_cases hg : layer.layerType = .group
        · exact .inl hg
        · exact .inr fun hs => hc ⟨hg, hs⟩

theorem renderCel_drawn {plat : Plat} {inflate : Inflater} {f : AsepriteFile} {sel : LayerSelection} {cel : FrameCel}
    {layer : LLayer} (h : drawnOn f sel cel = some layer) (t : Bytes) :
    f.renderCel plat inflate sel cel t =
      match f.loadImage inflate cel.imageIndex (List.replicate (cel.size.1.toNat * cel.size.2.toNat * 4) 0) with
      | (.ok (), c) =>
        match blendModeToBlendFn plat layer.blendMode with
        | .ok fn => Buf.forEach (fun yx : UInt16 × UInt16 => f.renderPixel plat cel layer fn c yx.1 yx.2)
            (celPixels cel.size.1 cel.size.2) t
        | .panic k => (.panic k, t)
        | .err e => nomatch e
      | (.err _, _) => (.panic .unwrapOnErr, t)
      | (.panic k, _) => (.panic k, t) := by
  unfold AsepriteFile.renderCel
  unfold drawnOn at h
  cases hl : f.layers[cel.layerIndex]? with
  | none => rw [hl] at h; cases h
  | some layer' =>
    rw [hl] at h
    dsimp only at h ⊢
    split at h
    · next hc =>
      cases h
      rw [if_neg (by rw [isSelected_iff]; exact fun h => h.elim hc.1 fun h => h hc.2)]
      refine Eq.trans (buf_bind _ _ _) ?_
      rcases f.loadImage inflate cel.imageIndex (List.replicate (cel.size.1.toNat * cel.size.2.toNat * 4) 0)
        with ⟨_ | _ | _, c⟩
      · dsimp only
        cases hfn : blendModeToBlendFn plat layer.blendMode with
        | err e => exact nomatch e
        | panic k => rfl
        | ok fn =>
          rw [lift_ok, buf_bind_ok (x := Buf.lift (.ok _)) rfl]
          dsimp only
          unfold celPixels
          rw [forEach_flatMap]
          congr 1
          funext y t
          rw [forEach_map]
      · rfl
      · rfl
    · cases h

theorem blendFn_known (plat : Plat) (m : BlendMode) :
    (isKnown m = true → ∃ fn, blendModeToBlendFn plat m = .ok fn) ∧
    (isKnown m = false → blendModeToBlendFn plat m = .panic .explicitPanic) := by
  cases m
  case unknown n => exact ⟨fun h => (by cases h), fun _ => rfl⟩
  all_goals exact ⟨fun _ => ⟨_, rfl⟩, fun h => by cases h⟩

/-- The cels refer to images of their size. -/
def CelsOk (f : AsepriteFile) (cels : List FrameCel) : Prop :=
  ∀ c ∈ cels, ∃ im, f.images[c.imageIndex]? = some im ∧ c.size = (im.width, im.height)

/-- What drawing some cels does to the canvas. -/
structure DrawSpec (plat : Plat) (inflate : Inflater) (f : AsepriteFile) (sel : LayerSelection) (cels : List FrameCel)
    (t : Bytes) (r : Outcome LoadImageError Unit × Bytes) : Prop where
  length : r.2.length = t.length
  drop : r.2.drop (canvasBytes f) = t.drop (canvasBytes f)
  no_err : ∀ e, r.1 ≠ .err e
  ok_iff : r.1 = .ok () ↔
    (∀ c ∈ cels, ∀ layer im, drawnOn f sel c = some layer → f.images[c.imageIndex]? = some im →
      HasPixels inflate f.file im ∧ isKnown layer.blendMode = true) ∧
    (∀ x y c, x < f.file.header.width.toNat → y < f.file.header.height.toNat → canvasPixel f t x y = some c →
      ∃ out, compose plat inflate f sel x y cels c = .ok out)
  result : r.1 = .ok () → ∀ x y, x < f.file.header.width.toNat → y < f.file.header.height.toNat →
    ∃ c out, canvasPixel f t x y = some c ∧ compose plat inflate f sel x y cels c = .ok out ∧
      canvasPixel f r.2 x y = some out

theorem canvasPixel_some {f : AsepriteFile} {t : Bytes} (ht : canvasBytes f ≤ t.length) {x y : Nat}
    (hx : x < f.file.header.width.toNat) (hy : y < f.file.header.height.toNat) :
    ∃ c, canvasPixel f t x y = some c := by
  have := row_major hx hy
  unfold canvasBytes at ht
  obtain ⟨c, hc, -⟩ := split_at_pixel (t := t) (q := y * f.file.header.width.toNat + x) (by omega)
  exact ⟨c, hc⟩

theorem compose_one_none {plat : Plat} {inflate : Inflater} {f : AsepriteFile} {sel : LayerSelection} {cel : FrameCel}
    (h : drawnOn f sel cel = none) (x y : Nat) (cels : List FrameCel) (c : Color) :
    compose plat inflate f sel x y (cel :: cels) c = compose plat inflate f sel x y cels c := by
  rw [compose, h]

theorem renderCel_spec {plat : Plat} {inflate : Inflater} {f : AsepriteFile} {pal : Palette}
    (hpal : GoodPalette f.file pal) (sel : LayerSelection) {cel : FrameCel} (hok : CelsOk f [cel]) {t : Bytes}
    (ht : canvasBytes f ≤ t.length) :
    DrawSpec plat inflate f sel [cel] t (f.renderCel plat inflate sel cel t) := by
  obtain ⟨im, him, hsize⟩ := hok cel List.mem_cons_self
  cases hd : drawnOn f sel cel with
  | none =>
    rw [renderCel_skip hd]
    refine ⟨rfl, rfl, by simp, ?_, ?_⟩
    · simp only [true_iff]
      refine ⟨?_, ?_⟩
      · intro c hc layer im' h1
        rw [List.mem_singleton] at hc
        subst hc
        rw [hd] at h1
        cases h1
      · intro x y c _ _ _
        rw [compose_one_none hd]
        exact ⟨c, rfl⟩
    · intro _ x y hx hy
      obtain ⟨c, hc⟩ := canvasPixel_some ht hx hy
      exact ⟨c, c, hc, by rw [compose_one_none hd]; rfl, hc⟩
  | some layer =>
    have hone : ∀ x y c, compose plat inflate f sel x y [cel] c =
        match (coveredBy cel x y).bind (imageColor inflate f cel.imageIndex) with
        | some front => blend plat layer.blendMode c front layer.opacity
        | none => .ok c := by
      intro x y c
      rw [compose, hd]
      cases (coveredBy cel x y).bind (imageColor inflate f cel.imageIndex) with
      | none => rfl
      | some front =>
        dsimp only
        cases blend plat layer.blendMode c front layer.opacity with
        | ok => rfl
        | err e => exact nomatch e
        | panic => rfl
    rw [renderCel_drawn hd]
    have hpc : cel.size.1.toNat * cel.size.2.toNat = pixelCount im := by rw [hsize]; rfl
    rw [hpc]
    have hload := loadImage_fresh hpal inflate him
    have hfail : ∀ r : Outcome LoadImageError Unit × Bytes, r.2 = t → (∃ k, r.1 = .panic k) →
        ¬ (HasPixels inflate f.file im ∧ isKnown layer.blendMode = true) →
        DrawSpec plat inflate f sel [cel] t r := by
      rintro ⟨r1, r2⟩ rfl ⟨k, hk⟩ hno
      dsimp only at hk
      subst hk
      refine ⟨rfl, rfl, by simp, ?_, by simp⟩
      simp only [reduceCtorEq, false_iff]
      intro h
      exact hno (h.1 cel List.mem_cons_self layer im hd him)
    by_cases hh : HasPixels inflate f.file im
    · obtain ⟨c, hc1, hc2, hc3⟩ := hload.1 hh
      rw [hc1]
      dsimp only
      have hkn := blendFn_known plat layer.blendMode
      by_cases hk : isKnown layer.blendMode = true
      · obtain ⟨fn, hfn⟩ := hkn.1 hk
        rw [hfn]
        dsimp only
        have hblend : ∀ back front, blend plat layer.blendMode back front layer.opacity = fn back front layer.opacity := by
          intro back front
          rw [blend, hfn]
          rfl
        have hfront : ∀ yx ∈ celPixels cel.size.1 cel.size.2, ∃ front,
            pixel c (yx.1.toNat * cel.size.1.toNat + yx.2.toNat) = some front ∧
            imageColor inflate f cel.imageIndex (yx.1.toNat * cel.size.1.toNat + yx.2.toNat) = some front := by
          intro yx hyx
          rw [mem_celPixels] at hyx
          have hp := row_major hyx.1 hyx.2
          rw [hpc] at hp
          have hs := pixel_isSome (a := c) (p := yx.1.toNat * cel.size.1.toNat + yx.2.toNat) (by omega)
          obtain ⟨front, hf⟩ := Option.isSome_iff_exists.1 hs
          exact ⟨front, hf, by rw [← hc3 _ hp]; exact hf⟩
        have hL := pixelLoop (N := canvasBytes f) (target := targetOf f cel)
          (step := fun yx back => fn back ((pixel c (yx.1.toNat * cel.size.1.toNat + yx.2.toNat)).getD ⟨0, 0, 0, 0⟩)
            layer.opacity)
          (fun yx : UInt16 × UInt16 => f.renderPixel plat cel layer fn c yx.1 yx.2) (celPixels cel.size.1 cel.size.2)
          (by
            intro yx hyx t ht
            obtain ⟨front, hf, -⟩ := hfront yx hyx
            rw [mem_celPixels] at hyx
            rw [renderPixel_eq plat layer fn (by rw [hpc]; exact hc2) hyx.1 hyx.2 ht, hf]
            unfold pixelStep
            rw [show (yx.1, yx.2) = yx from rfl]
            cases targetOf f cel yx with
            | none => rfl
            | some q =>
              dsimp only
              cases pixel t q with
              | none => rfl
              | some back => rfl)
          (by
            intro yx _ q hq
            have := targetOf_lt hq
            unfold canvasBytes
            omega)
          (by
            refine (celPixels_nodup _ _).imp ?_
            intro a b hne q ha hb
            exact hne (targetOf_inj ha hb))
          t ht
        have hcomp : ∀ x y, x < f.file.header.width.toNat → y < f.file.header.height.toNat → ∀ back,
            (∀ yx ∈ celPixels cel.size.1 cel.size.2, targetOf f cel yx = some (y * f.file.header.width.toNat + x) →
              compose plat inflate f sel x y [cel] back
                = fn back ((pixel c (yx.1.toNat * cel.size.1.toNat + yx.2.toNat)).getD ⟨0, 0, 0, 0⟩) layer.opacity) ∧
            ((∀ yx ∈ celPixels cel.size.1 cel.size.2, targetOf f cel yx ≠ some (y * f.file.header.width.toNat + x)) →
              compose plat inflate f sel x y [cel] back = .ok back) := by
          intro x y hx hy back
          constructor
          · intro yx hyx htg
            obtain ⟨front, hf1, hf2⟩ := hfront yx hyx
            rw [hone, (coveredBy_iff hx hy).2 ⟨yx, hyx, htg, rfl⟩]
            dsimp only [Option.bind_some]
            rw [hf2, hf1]
            exact hblend back front
          · intro hno
            have : coveredBy cel x y = none := by
              cases hcv : coveredBy cel x y with
              | none => rfl
              | some p =>
                obtain ⟨yx, hyx, htg, _⟩ := (coveredBy_iff hx hy).1 hcv
                exact absurd htg (hno yx hyx)
            rw [hone, this]
            rfl
        refine ⟨hL.length, hL.drop, hL.no_err, ?_, ?_⟩
        · rw [hL.ok_iff]
          constructor
          · intro h
            refine ⟨?_, ?_⟩
            · intro c' hc' layer' im' h1 h2
              rw [List.mem_singleton] at hc'
              subst hc'
              rw [hd] at h1; cases h1
              rw [him] at h2; cases h2
              exact ⟨hh, hk⟩
            · intro x y back hx hy hb
              by_cases hex : ∃ yx ∈ celPixels cel.size.1 cel.size.2,
                  targetOf f cel yx = some (y * f.file.header.width.toNat + x)
              · obtain ⟨yx, hyx, htg⟩ := hex
                rw [(hcomp x y hx hy back).1 yx hyx htg]
                exact h yx hyx _ back htg hb
              · refine ⟨back, (hcomp x y hx hy back).2 fun yx hyx htg => hex ⟨yx, hyx, htg⟩⟩
          · intro h yx hyx q back hq hb
            have hq' := hq
            unfold targetOf at hq'
            dsimp only at hq'
            split at hq'
            · next hc =>
              simp only [Option.some.injEq] at hq'
              have hx : ((yx.2.toNat : Int) + cel.origin.1.toInt).toNat < f.file.header.width.toNat := by omega
              have hy : ((yx.1.toNat : Int) + cel.origin.2.toInt).toNat < f.file.header.height.toNat := by omega
              have hb' : canvasPixel f t ((yx.2.toNat : Int) + cel.origin.1.toInt).toNat
                  ((yx.1.toNat : Int) + cel.origin.2.toInt).toNat = some back := by
                rw [canvasPixel, hq']; exact hb
              obtain ⟨out, ho⟩ := h.2 _ _ back hx hy hb'
              rw [(hcomp _ _ hx hy back).1 yx hyx (by rw [hq']; exact hq)] at ho
              exact ⟨out, ho⟩
            · cases hq'
        · intro hok x y hx hy
          by_cases hex : ∃ yx ∈ celPixels cel.size.1 cel.size.2,
              targetOf f cel yx = some (y * f.file.header.width.toNat + x)
          · obtain ⟨yx, hyx, htg⟩ := hex
            obtain ⟨back, out, h1, h2, h3⟩ := hL.hit hok yx hyx _ htg
            exact ⟨back, out, h1, by rw [(hcomp x y hx hy back).1 yx hyx htg]; exact h2, h3⟩
          · obtain ⟨back, hb⟩ := canvasPixel_some ht hx hy
            refine ⟨back, back, hb, (hcomp x y hx hy back).2 fun yx hyx htg => hex ⟨yx, hyx, htg⟩, ?_⟩
            rw [canvasPixel, hL.miss hok _ fun yx hyx htg => hex ⟨yx, hyx, htg⟩]
            exact hb
      · rw [hkn.2 (by simpa using hk)]
        exact hfail _ rfl ⟨_, rfl⟩ fun h => hk h.2
    · have := hload.2 hh
      rcases hr : f.loadImage inflate cel.imageIndex (List.replicate (pixelCount im * 4) 0) with ⟨_ | _ | _, c⟩
      · exact absurd hr (this c)
      · exact hfail _ rfl ⟨_, rfl⟩ fun h => hh h.1
      · exact hfail _ rfl ⟨_, rfl⟩ fun h => hh h.1

/-! ## All cels -/

theorem compose_cons (plat : Plat) (inflate : Inflater) (f : AsepriteFile) (sel : LayerSelection) (x y : Nat)
    (cel : FrameCel) (cels : List FrameCel) (c : Color) :
    compose plat inflate f sel x y (cel :: cels) c =
      (compose plat inflate f sel x y [cel] c).bind (compose plat inflate f sel x y cels) := by
  rw [compose, compose]
  split
  · next layer front h1 h2 =>
    cases blend plat layer.blendMode c front layer.opacity with
    | ok => rfl
    | err e => exact nomatch e
    | panic => rfl
  · rfl

theorem renderCels_spec {plat : Plat} {inflate : Inflater} {f : AsepriteFile} {pal : Palette}
    (hpal : GoodPalette f.file pal) (sel : LayerSelection) (cels : List FrameCel) (hok : CelsOk f cels) (t : Bytes)
    (ht : canvasBytes f ≤ t.length) :
    DrawSpec plat inflate f sel cels t (Buf.forEach (f.renderCel plat inflate sel) cels t) := by
  induction cels generalizing t with
  | nil =>
    refine ⟨rfl, rfl, by simp [forEach_nil], ?_, ?_⟩
    · simp [forEach_nil, compose]
    · intro _ x y hx hy
      obtain ⟨c, hc⟩ := canvasPixel_some ht hx hy
      exact ⟨c, c, hc, rfl, hc⟩
  | cons cel cels ih =>
    have ih := ih fun c hc => hok c (List.mem_cons_of_mem _ hc)
    have h1 := renderCel_spec (plat := plat) (inflate := inflate) hpal sel (cel := cel) (fun c hc => by
      rw [List.mem_singleton] at hc
      subst hc
      exact hok c List.mem_cons_self) ht
    rw [forEach_cons]
    rcases hr : f.renderCel plat inflate sel cel t with ⟨_ | e | k, t1⟩
    · rw [hr] at h1
      dsimp only
      have ht1 : canvasBytes f ≤ t1.length := by have := h1.length; dsimp only at this; omega
      have h2 := ih t1 ht1
      refine ⟨h2.length.trans h1.length, h2.drop.trans h1.drop, h2.no_err, ?_, ?_⟩
      · rw [h2.ok_iff]
        have h1ok := h1.ok_iff.1 rfl
        constructor
        · rintro ⟨ha, hb⟩
          refine ⟨?_, ?_⟩
          · intro c hc
            rcases List.mem_cons.1 hc with rfl | hc
            · exact h1ok.1 c List.mem_cons_self
            · exact ha c hc
          · intro x y c hx hy hc
            obtain ⟨c', out, e1, e2, e3⟩ := h1.result rfl x y hx hy
            rw [hc] at e1; cases e1
            obtain ⟨out2, e4⟩ := hb x y out hx hy e3
            exact ⟨out2, by rw [compose_cons, e2]; exact e4⟩
        · rintro ⟨ha, hb⟩
          refine ⟨fun c hc => ha c (List.mem_cons_of_mem _ hc), ?_⟩
          intro x y c hx hy hc
          obtain ⟨c', out, e1, e2, e3⟩ := h1.result rfl x y hx hy
          rw [hc] at e3; cases e3
          obtain ⟨out2, e4⟩ := hb x y c' hx hy e1
          rw [compose_cons, e2] at e4
          exact ⟨out2, e4⟩
      · intro hk x y hx hy
        obtain ⟨c, out, e1, e2, e3⟩ := h1.result rfl x y hx hy
        obtain ⟨c', out2, e4, e5, e6⟩ := h2.result hk x y hx hy
        rw [e3] at e4; cases e4
        exact ⟨c, out2, e1, by rw [compose_cons, e2]; exact e5, e6⟩
    · exact absurd rfl (by have := h1.no_err e; rw [hr] at this; exact this)
    · rw [hr] at h1
      refine ⟨h1.length, h1.drop, by simp, ?_, by simp⟩
      simp only [reduceCtorEq, false_iff]
      rintro ⟨ha, hb⟩
      have := h1.ok_iff.2 ⟨fun c hc => ha c (by
        rw [List.mem_singleton] at hc
        subst hc
        exact List.mem_cons_self), ?_⟩
      · cases this
      · intro x y c hx hy hc
        obtain ⟨out, e⟩ := hb x y c hx hy hc
        rw [compose_cons] at e
        cases h3 : compose plat inflate f sel x y [cel] c with
        | ok o => exact ⟨o, rfl⟩
        | err e => exact nomatch e
        | panic k => rw [h3] at e; cases e

theorem renderFrame_eq (plat : Plat) (inflate : Inflater) (f : AsepriteFile) (i : Nat) (sel : LayerSelection) (t : Bytes) :
    f.renderFrame plat inflate i sel t =
      if t.length < canvasBytes f then (.err .targetBufferTooSmall, t)
      else
        match f.frames[i]? with
        | none => (.panic .indexOutOfBounds, t)
        | some lf => Buf.forEach (f.renderCel plat inflate sel) lf.cels t := by
  unfold AsepriteFile.renderFrame
  rw [buf_bind_ok (x := Buf.len) (a := t.length) (t' := t) rfl]
  unfold canvasBytes
  split
  · rfl
  · cases f.frames[i]? <;> rfl

end Ase
