import Verif.Spec.Groups
import Verif.Props.Accuracy
import Verif.Props.Merge

/-!
# C108: merging any layers is nearly exact
-/

namespace Ase

open Spec

theorem seen_bounds (ch : Color → UInt8) (v : ℚ) (h0 : 0 ≤ v) (h1 : v ≤ 1) (c : Color) :
    0 ≤ Exact.seen ch v c ∧ Exact.seen ch v c ≤ 1 := by
  have a0 := unit_nonneg c.a
  have a1 := unit_le c.a
  have c0 := unit_nonneg (ch c)
  have c1 := unit_le (ch c)
  unfold Exact.seen
  constructor <;> nlinarith

theorem abs_mul_le {x y a b : ℚ} (hx : |x| ≤ a) (hy : |y| ≤ b) : |x * y| ≤ a * b := by
  rw [abs_mul]
  exact mul_le_mul hx hy (abs_nonneg _) ((abs_nonneg _).trans hx)

/-- **C108 (one stroke).** Normal blending on a pixel of any alpha, seen in front of any background, is within 2 of painting
exactly on what was seen before. -/
theorem C108_stroke (plat : Plat) (back front : Color) (o : UInt8) :
    ∃ c, blend plat .normal back front o = .ok c ∧ ∀ ch : Color → UInt8,
      ch = Color.r ∨ ch = Color.g ∨ ch = Color.b → ∀ v : ℚ, 0 ≤ v → v ≤ 1 →
      |255 * Exact.seen ch v c - 255 * Exact.paint ch (Exact.seen ch v back) ⟨.normal, o, front⟩| ≤ 2 := by
  obtain ⟨c, h1, _, _, h2, h3, _, h4, h5, h6⟩ := C46_normal plat back front o
  refine ⟨c, h1, fun ch hch v hv0 hv1 => ?_⟩
  have hfa := times_near front.a.toNat o.toNat
  have hw : ((front.a.toNat : ℚ) / 255 * (o.toNat / 255)) = Exact.weight ⟨.normal, o, front⟩ := rfl
  rw [hw] at hfa
  obtain ⟨sb0, sb1⟩ := seen_bounds ch v hv0 hv1 back
  have hs0 := unit_nonneg (ch front)
  have hs1 := unit_le (ch front)
  have hdiff : |Exact.unit (ch front) - Exact.seen ch v back| ≤ 1 := by
    rw [abs_le]; constructor <;> linarith
  have hpw := abs_mul_le hdiff hfa
  have hfale : times front.a.toNat o.toNat ≤ 255 := h6.trans (byte_le _)
  have hpaint : 255 * Exact.paint ch (Exact.seen ch v back) ⟨.normal, o, front⟩ =
      255 * Exact.seen ch v back + (Exact.unit (ch front) - Exact.seen ch v back) * (times front.a.toNat o.toNat : Nat) -
      (Exact.unit (ch front) - Exact.seen ch v back) *
        ((times front.a.toNat o.toNat : Nat) - 255 * Exact.weight ⟨.normal, o, front⟩) := by
    simp only [Exact.paint, Exact.channel]; ring
  rw [hpaint]
  generalize hP : (Exact.unit (ch front) - Exact.seen ch v back) *
    (((times front.a.toNat o.toNat : Nat) : ℚ) - 255 * Exact.weight ⟨.normal, o, front⟩) = P at hpw ⊢
  generalize hfadef : times front.a.toNat o.toNat = fa at *
  have main : |255 * Exact.seen ch v c - (255 * Exact.seen ch v back +
      (Exact.unit (ch front) - Exact.seen ch v back) * fa)| ≤ 3 / 2 := by
    by_cases hb : back.a = 0
    · obtain ⟨e1, e2, e3, e4⟩ := h2 hb
      have hch' : ch c = ch front := by rcases hch with rfl | rfl | rfl <;> assumption
      have : 255 * Exact.seen ch v c - (255 * Exact.seen ch v back +
          (Exact.unit (ch front) - Exact.seen ch v back) * fa) = 0 := by
        simp only [Exact.seen, hch', hb]
        rw [show Exact.unit c.a = fa / 255 by rw [Exact.unit, e4], show Exact.unit 0 = 0 by simp [Exact.unit]]
        ring
      rw [this, abs_zero]
      norm_num
    · have h3 := h3 hb
      have key : toI (ch c) = toI (ch back) + ((toI (ch front) - toI (ch back)) * (fa : Nat)).tdiv (toI c.a) := by
        rcases hch with rfl | rfl | rfl
        · exact h3.1
        · exact h3.2.1
        · exact h3.2.2
      have hap : (0 : Int) < toI c.a := by
        have hbp := toI_pos hb
        have : back.a.toNat ≤ c.a.toNat := UInt8.le_iff_toNat_le.1 h5
        simp only [toI] at *
        omega
      have hd := Int.mul_tdiv_add_tmod ((toI (ch front) - toI (ch back)) * (fa : Nat)) (toI c.a)
      have hr : |(Int.tmod ((toI (ch front) - toI (ch back)) * (fa : Nat)) (toI c.a))| ≤ 255 := by
        have h7 := Int.lt_tmod_of_pos ((toI (ch front) - toI (ch back)) * (fa : Nat)) hap
        have h8 := Int.tmod_lt_of_pos ((toI (ch front) - toI (ch back)) * (fa : Nat)) hap
        have h9 := byte_le c.a
        simp only [toI] at *
        rw [abs_le]
        omega
      generalize Int.tmod ((toI (ch front) - toI (ch back)) * (fa : Nat)) (toI c.a) = r at hd hr
      generalize Int.tdiv ((toI (ch front) - toI (ch back)) * (fa : Nat)) (toI c.a) = q at hd key
      have hc : (ch c).toNat * c.a.toNat = ((ch back).toNat * c.a.toNat + ((ch front).toNat - (ch back).toNat) * fa - r : ℚ) := by
        have : toI (ch c) * toI c.a = toI (ch back) * toI c.a + (toI (ch front) - toI (ch back)) * fa - r := by
          rw [key, ← hd]; ring
        have := congrArg (Int.cast (R := ℚ)) this
        simp only [toI] at this
        push_cast at this
        exact this
      have ht := times_near back.a.toNat fa
      have ha := screen_cast back.a.toNat fa hfale
      rw [← h4] at ha
      generalize times back.a.toNat fa = tt at ht ha
      have hrq : |(r : ℚ)| ≤ 255 := by exact_mod_cast hr
      have hbv : |255 * v - (ch back).toNat| ≤ 255 := by
        have b0 : (0 : ℚ) ≤ (ch back).toNat := by positivity
        have b1 : ((ch back).toNat : ℚ) ≤ 255 := by exact_mod_cast byte_le (ch back)
        rw [abs_le]
        constructor <;> linarith
      have hm := abs_mul_le hbv ht
      have e : 255 * (255 * Exact.seen ch v c - (255 * Exact.seen ch v back +
          (Exact.unit (ch front) - Exact.seen ch v back) * fa)) =
          (255 * v - (ch back).toNat) * (tt - 255 * (back.a.toNat / 255 * (fa / 255))) - r := by
        have e0 : 255 * (255 * Exact.seen ch v c) = (ch c).toNat * c.a.toNat + 255 * v * (255 - c.a.toNat) := by
          simp only [Exact.seen, Exact.unit]; ring
        rw [mul_sub, e0, hc, ha]
        simp only [Exact.seen, Exact.unit]
        ring
      have hf : |255 * (255 * Exact.seen ch v c - (255 * Exact.seen ch v back +
          (Exact.unit (ch front) - Exact.seen ch v back) * fa))| ≤ 255 * (1 / 2) + 255 := by
        rw [e]
        exact (abs_sub _ _).trans (add_le_add hm hrq)
      rw [abs_mul, abs_of_pos (by norm_num : (0 : ℚ) < 255)] at hf
      linarith
  rw [abs_le] at *
  constructor <;> linarith [main.1, main.2, hpw.1, hpw.2]

theorem near_step {x p v w e k : ℚ} (h1 : |255 * x - 255 * p| ≤ k) (h2 : |p - w| ≤ |v|) (h3 : 255 * |v| ≤ e) :
    |255 * x - 255 * w| ≤ e + k := by
  rw [abs_le] at *
  constructor <;> linarith [h1.1, h1.2, h2.1, h2.2]

theorem seen_fold (plat : Plat) (ch : Color → UInt8) (hch : ch = Color.r ∨ ch = Color.g ∨ ch = Color.b) (bg : ℚ)
    (h0 : 0 ≤ bg) (h1 : bg ≤ 1) (ss : List Stroke) (hs : ∀ s ∈ ss, s.mode = .normal) (c d : Color)
    (h : ss.foldl (fun (r : Run Color) s => r.bind fun c => blend plat s.mode c s.color s.opacity) (.ok c) = .ok d)
    (v e : ℚ) (hv : |255 * Exact.seen ch bg c - 255 * v| ≤ e) :
    |255 * Exact.seen ch bg d - 255 * ss.foldl (Exact.paint ch) v| ≤ e + 2 * ss.length := by
  induction ss generalizing c v e with
  | nil =>
    cases h
    simpa using hv
  | cons s ss ih =>
    have hn := hs s List.mem_cons_self
    obtain ⟨c1, h2, h3⟩ := C108_stroke plat c s.color s.opacity
    have h4 := h3 ch hch bg h0 h1
    rw [List.foldl_cons] at h
    have h : ss.foldl (fun (r : Run Color) s => r.bind fun c => blend plat s.mode c s.color s.opacity) (.ok c1) = .ok d := by
      rw [← h, ← h2, ← hn]; rfl
    have hse : (⟨.normal, s.opacity, s.color⟩ : Stroke) = s := by
      cases s
      cases hn
      rfl
    rw [hse] at h4
    have h5 := paint_lipschitz s (by rw [hn]; rfl) ch (Exact.seen ch bg c) v
    have h6 : 255 * |Exact.seen ch bg c - v| ≤ e := by
      rw [← abs_of_pos (by norm_num : (0 : ℚ) < 255), ← abs_mul, mul_sub]
      exact hv
    have := ih (fun s hs' => hs s (List.mem_cons_of_mem _ hs')) c1 h _ _ (near_step h4 h5 h6)
    rw [List.foldl_cons, List.length_cons]
    refine this.trans (le_of_eq ?_)
    push_cast
    ring

/-- **C108 (frames).** If all cels on a pixel are painted normally, then what one sees of the rendered pixel in front of any
background is within 2 per cel of painting the cels exactly, one after the other, on what was seen of the pixel before. -/
theorem C108_canvas (plat : Plat) (b : Bytes) (f : AsepriteFile) (h : AsepriteFile.load plat b = .ok f)
    (inflate : Inflater) (i : Nat) (lf : LFrame) (hi : f.frames[i]? = some lf) (sel : LayerSelection) (t t' : Bytes)
    (hok : f.renderFrame plat inflate i sel t = (.ok (), t')) (x y : Nat) (hx : x < f.size.1.toNat)
    (hy : y < f.size.2.toNat) (ss : List Stroke) (hs : ss = strokes inflate f sel x y lf.cels)
    (hm : ∀ s ∈ ss, s.mode = .normal) :
    ∃ before after, canvasPixel f t x y = some before ∧ canvasPixel f t' x y = some after ∧ ∀ ch : Color → UInt8,
      ch = Color.r ∨ ch = Color.g ∨ ch = Color.b → ∀ bg : ℚ, 0 ≤ bg → bg ≤ 1 →
      |255 * Exact.seen ch bg after - 255 * ss.foldl (Exact.paint ch) (Exact.seen ch bg before)| ≤ 2 * ss.length := by
  obtain ⟨c, d, h1, h2, h3⟩ := C37_pixels plat b f h inflate i lf hi sel t t' hok x y hx hy
  rw [compose_strokes, ← hs] at h3
  refine ⟨c, d, h1, h2, fun ch hch bg h0 h1 => ?_⟩
  have := seen_fold plat ch hch bg h0 h1 ss hm c d h3 (Exact.seen ch bg c) 0 (by rw [sub_self, abs_zero])
  rwa [zero_add] at this

/-- Two translucent cels on a translucent pixel, in front of white: exactly 148.8..., rendered 149.2... -/
example :
    let b := Sample.header 1 1 32 ++ Sample.frame 1 [Sample.layer 1 0 0 255 [65], Sample.layer 1 0 0 100 [66],
      Sample.cel 0 0 0 1 1 [90, 80, 70, 100], Sample.cel 1 0 0 1 1 [9, 8, 7, 130]]
    (match AsepriteFile.load ⟨true, 10⟩ b with
      | .ok f =>
        (match f.frames[0]? with
          | some lf =>
            let ss := strokes (fun _ _ => (.streamEnd, [])) f .all 0 0 lf.cels
            decide (ss.length = 2 ∧ ss.all (fun s => decide (s.mode = .normal)) ∧
              255 * ss.foldl (Exact.paint Color.r) (Exact.seen Color.r 1 ⟨200, 2, 3, 50⟩) = 1006692985 / 6765201 ∧
              255 * Exact.seen Color.r 1 ⟨81, 45, 39, 155⟩ = 2537 / 17)
          | _ => false)
      | _ => false) = true ∧
    Sample.render ⟨true, 10⟩ b 0 .all [200, 2, 3, 50] = some (.ok (), [81, 45, 39, 155]) := by
  decide +kernel

/-! ## Layers between two others -/

theorem strokes_of_layers (inflate : Inflater) (f : AsepriteFile) (sel part : LayerSelection) (p : Nat → Bool)
    (hp : ∀ (l : Nat) (x : LLayer), f.layers[l]? = some x → (Selects part l x ↔ Selects sel l x ∧ p l = true))
    (x y : Nat) (cels : List FrameCel) : strokes inflate f part x y cels =
      strokes inflate f sel x y (cels.filter fun c => p c.layerIndex) := by
  unfold strokes
  induction cels with
  | nil => rfl
  | cons c cs ih =>
    have hd : drawnOn f part c = if p c.layerIndex = true then drawnOn f sel c else none := by
      unfold drawnOn
      cases hx : f.layers[c.layerIndex]? with
      | none => simp
      | some l =>
        simp only [hp _ l hx]
        by_cases hc : p c.layerIndex = true
        · simp [hc]
        · simp [hc]
    by_cases hc : p c.layerIndex = true
    · have e : strokeOf inflate f part x y c = strokeOf inflate f sel x y c := by
        unfold strokeOf
        rw [hd, if_pos hc]
      rw [List.filter_cons_of_pos (by exact hc), List.filterMap_cons, List.filterMap_cons, e, ih]
    · have e : strokeOf inflate f part x y c = none := by
        unfold strokeOf
        rw [hd, if_neg hc]
        rfl
      rw [List.filter_cons_of_neg (by exact hc), List.filterMap_cons, e, ih]

/-- The strokes of a frame from bottom to top: those of the layers below `k`, from `k` to below `m`, and from `m` on. -/
theorem strokes_three {plat : Plat} {b : Bytes} {f : AsepriteFile} (hf : AsepriteFile.load plat b = .ok f)
    (inflate : Inflater) {i k m : Nat} (hkm : k ≤ m) {lf : LFrame} (hi : f.frames[i]? = some lf)
    {sel low mid high : LayerSelection}
    (hlow : ∀ (l : Nat) (x : LLayer), f.layers[l]? = some x → (Selects low l x ↔ Selects sel l x ∧ l < k))
    (hmid : ∀ (l : Nat) (x : LLayer), f.layers[l]? = some x → (Selects mid l x ↔ Selects sel l x ∧ k ≤ l ∧ l < m))
    (hhigh : ∀ (l : Nat) (x : LLayer), f.layers[l]? = some x → (Selects high l x ↔ Selects sel l x ∧ m ≤ l)) (x y : Nat) :
    strokes inflate f sel x y lf.cels = strokes inflate f low x y lf.cels ++ strokes inflate f mid x y lf.cels ++
      strokes inflate f high x y lf.cels := by
  have hsort := (C31_references plat b f hf lf (List.mem_of_getElem? hi)).2
  have s1 := sorted_split hsort m
  have s2 := congrArg (List.filter fun c => decide (c.layerIndex < m)) (sorted_split hsort k)
  rw [List.filter_append, List.filter_filter, List.filter_filter] at s2
  have e1 : (fun c : FrameCel => decide (c.layerIndex < m) && decide (c.layerIndex < k)) = fun c => decide (c.layerIndex < k) := by
    funext c
    by_cases h : c.layerIndex < k
    · simp [h, Nat.lt_of_lt_of_le h hkm]
    · simp [h]
  have e2 : (fun c : FrameCel => decide (c.layerIndex < m) && decide (k ≤ c.layerIndex)) =
      fun c => decide (k ≤ c.layerIndex ∧ c.layerIndex < m) := by
    funext c
    rw [Bool.and_comm, ← Bool.decide_and]
  rw [e1, e2] at s2
  rw [strokes_of_layers inflate f sel low (fun l => decide (l < k)) (by simpa using hlow),
    strokes_of_layers inflate f sel mid (fun l => decide (k ≤ l ∧ l < m)) (by simpa using hmid),
    strokes_of_layers inflate f sel high (fun l => decide (m ≤ l)) (by simpa using hhigh)]
  unfold strokes
  rw [← List.filterMap_append, ← List.filterMap_append, ← s2, ← s1]

theorem paint_fold_lipschitz (ch : Color → UInt8) (ss : List Stroke) (hs : ∀ s ∈ ss, Exact.steady s.mode = true) (v w : ℚ) :
    |ss.foldl (Exact.paint ch) v - ss.foldl (Exact.paint ch) w| ≤ |v - w| := by
  induction ss generalizing v w with
  | nil => exact le_refl _
  | cons s ss ih =>
    rw [List.foldl_cons, List.foldl_cons]
    exact (ih (fun s hs' => hs s (List.mem_cons_of_mem _ hs')) _ _).trans
      (paint_lipschitz s (hs s List.mem_cons_self) ch v w)

theorem paint_bounds (ch : Color → UInt8) (ss : List Stroke) (hs : ∀ s ∈ ss, s.mode = .normal) (v : ℚ) (h0 : 0 ≤ v)
    (h1 : v ≤ 1) : 0 ≤ ss.foldl (Exact.paint ch) v ∧ ss.foldl (Exact.paint ch) v ≤ 1 := by
  induction ss generalizing v with
  | nil => exact ⟨h0, h1⟩
  | cons s ss ih =>
    have hn := hs s List.mem_cons_self
    have w0 := weight_nonneg s
    have w1 := weight_le s
    have c0 := unit_nonneg (ch s.color)
    have c1 := unit_le (ch s.color)
    refine ih (fun s hs' => hs s (List.mem_cons_of_mem _ hs')) _ ?_ ?_ <;> simp only [Exact.paint, hn, Exact.channel] <;>
      nlinarith

/-- **C108 (merging).** Merging any layers that follow each other is nearly exact, if all layers are painted normally.
Render the selected layers from `k` to below `m` onto a canvas that is fully transparent; let another sprite of the same
size have, in some frame, one cel with that picture (drawn with mode Normal and full opacity) in their place, above and below
cels that paint the same as the other layers.  Then on every canvas pixel, whatever its colour and alpha was, what one sees
of the two results in front of any background differs by at most 4 for each of the cels on the pixel, plus 2. -/
theorem C108_merge (plat : Plat) (b b' : Bytes) (f g : AsepriteFile) (hf : AsepriteFile.load plat b = .ok f)
    (hg : AsepriteFile.load plat b' = .ok g) (hz : f.size = g.size) (inflate : Inflater) (i j k m : Nat) (hkm : k ≤ m)
    (lf lg : LFrame) (hi : f.frames[i]? = some lf) (hj : g.frames[j]? = some lg) (sel sel' low mid high : LayerSelection)
    (hlow : ∀ (l : Nat) (x : LLayer), f.layers[l]? = some x → (Selects low l x ↔ Selects sel l x ∧ l < k))
    (hmid : ∀ (l : Nat) (x : LLayer), f.layers[l]? = some x → (Selects mid l x ↔ Selects sel l x ∧ k ≤ l ∧ l < m))
    (hhigh : ∀ (l : Nat) (x : LLayer), f.layers[l]? = some x → (Selects high l x ↔ Selects sel l x ∧ m ≤ l))
    (clear merged t t' u' : Bytes) (hm : f.renderFrame plat inflate i mid clear = (.ok (), merged))
    (ht : f.renderFrame plat inflate i sel t = (.ok (), t')) (hu : g.renderFrame plat inflate j sel' t = (.ok (), u'))
    (below above : List FrameCel) (c : FrameCel) (hl : lg.cels = below ++ c :: above)
    (hc : ShowsPicture inflate g sel' c merged) (x y : Nat) (hx : x < f.size.1.toNat) (hy : y < f.size.2.toNat)
    (hclear : ∃ p, canvasPixel f clear x y = some p ∧ p.a = 0)
    (hb : strokes inflate g sel' x y below = strokes inflate f low x y lf.cels)
    (ha : strokes inflate g sel' x y above = strokes inflate f high x y lf.cels)
    (hn : ∀ s ∈ strokes inflate f sel x y lf.cels, s.mode = .normal) :
    ∃ p q, canvasPixel f t' x y = some p ∧ canvasPixel g u' x y = some q ∧ ∀ ch : Color → UInt8,
      ch = Color.r ∨ ch = Color.g ∨ ch = Color.b → ∀ bg : ℚ, 0 ≤ bg → bg ≤ 1 →
      |255 * Exact.seen ch bg p - 255 * Exact.seen ch bg q| ≤ 4 * (strokes inflate f sel x y lf.cels).length + 2 := by
  have hcp : ∀ b x y, canvasPixel g b x y = canvasPixel f b x y := by
    intro b x y
    unfold canvasPixel
    rw [show f.file.header.width = g.file.header.width from congrArg Prod.fst hz]
  have h3 := strokes_three hf inflate hkm hi hlow hmid hhigh x y
  rw [h3] at hn
  have hn1 : ∀ s ∈ strokes inflate f low x y lf.cels, s.mode = .normal := fun s hs => hn s (by simp [hs])
  have hn2 : ∀ s ∈ strokes inflate f mid x y lf.cels, s.mode = .normal := fun s hs => hn s (by simp [hs])
  have hn3 : ∀ s ∈ strokes inflate f high x y lf.cels, s.mode = .normal := fun s hs => hn s (by simp [hs])
  obtain ⟨p0, p, e1, e2, e3⟩ := C108_canvas plat b f hf inflate i lf hi sel t t' ht x y hx hy _ rfl (by rw [h3]; exact hn)
  obtain ⟨z, pm, e4, e5, e6⟩ := C108_canvas plat b f hf inflate i lf hi mid clear merged hm x y hx hy _ rfl hn2
  obtain ⟨z', hz1, hz2⟩ := hclear
  rw [hz1] at e4
  cases e4
  obtain ⟨⟨layer, hd, hmode, hop⟩, hpic⟩ := hc
  have hst : strokeOf inflate g sel' x y c = some ⟨.normal, 255, pm⟩ := by
    have h := hpic x y (hz ▸ hx) (hz ▸ hy)
    rw [hcp, e5] at h
    unfold strokeOf
    rw [hd, Option.bind_some]
    obtain ⟨q, hq, hq'⟩ := Option.bind_eq_some_iff.1 h
    rw [hq, Option.bind_some, hq', Option.map_some, hmode, hop]
  have hsg : strokes inflate g sel' x y lg.cels = strokes inflate f low x y lf.cels ++ ⟨.normal, 255, pm⟩ ::
      strokes inflate f high x y lf.cels := by
    rw [← hb, ← ha, hl]
    unfold strokes
    rw [List.filterMap_append, List.filterMap_cons, hst]
  obtain ⟨p0', q, e7, e8, e9⟩ := C108_canvas plat b' g hg inflate j lg hj sel' t u' hu x y (hz ▸ hx) (hz ▸ hy) _ hsg.symm
    (by
      intro s hs
      rcases List.mem_append.1 hs with h | h
      · exact hn1 s h
      · rcases List.mem_cons.1 h with rfl | h
        · rfl
        · exact hn3 s h)
  rw [hcp, e1] at e7
  cases e7
  refine ⟨p, q, e2, e8, fun ch hch bg h0 h1 => ?_⟩
  have k1 := e3 ch hch bg h0 h1
  have k2 := e9 ch hch bg h0 h1
  obtain ⟨s0, s1⟩ := seen_bounds ch bg h0 h1 p0
  obtain ⟨v0, v1⟩ := paint_bounds ch _ hn1 _ s0 s1
  rw [h3] at k1 ⊢
  rw [List.foldl_append, List.foldl_append] at k1
  rw [List.foldl_append, List.foldl_cons] at k2
  generalize hv : (strokes inflate f low x y lf.cels).foldl (Exact.paint ch) (Exact.seen ch bg p0) = v at *
  have k3 := e6 ch hch v v0 v1
  have ez : Exact.seen ch v z = v := by
    rw [Exact.seen, hz2, show Exact.unit 0 = 0 by simp [Exact.unit]]
    ring
  have epm : Exact.paint ch v ⟨.normal, 255, pm⟩ = Exact.seen ch v pm := by
    simp only [Exact.paint, Exact.channel, Exact.weight, Exact.seen]
    rw [show Exact.unit 255 = 1 by simp [Exact.unit]]
    ring
  rw [ez] at k3
  rw [epm] at k2
  have k4 := paint_fold_lipschitz ch (strokes inflate f high x y lf.cels) (fun s hs => by rw [hn3 s hs]; rfl)
    (Exact.seen ch v pm) ((strokes inflate f mid x y lf.cels).foldl (Exact.paint ch) v)
  rw [← mul_sub, abs_mul, abs_of_pos (by norm_num : (0 : ℚ) < 255)] at k3
  generalize (strokes inflate f high x y lf.cels).foldl (Exact.paint ch) (Exact.seen ch v pm) = A at *
  generalize (strokes inflate f high x y lf.cels).foldl (Exact.paint ch)
    ((strokes inflate f mid x y lf.cels).foldl (Exact.paint ch) v) = B at *
  simp only [List.length_append, List.length_cons] at k1 k2 ⊢
  push_cast at k1 k2 ⊢
  have k5 := abs_le.1 (k4.trans (le_refl _))
  rw [abs_le] at k1 k2 ⊢
  constructor <;> linarith [k1.1, k1.2, k2.1, k2.2, k5.1, k5.2]

/-- Four layers, of which the two in the middle are merged: red becomes 56 instead of 55. -/
example :
    let lower := Sample.cel 0 0 0 1 1 [200, 10, 90, 50]
    let b := Sample.header 1 1 32 ++ Sample.frame 1 [Sample.layer 1 0 0 255 [65], Sample.layer 1 0 0 255 [66],
      Sample.layer 1 0 0 255 [67], Sample.layer 1 0 0 100 [68], lower, Sample.cel 1 0 0 1 1 [10, 80, 5, 100],
      Sample.cel 2 0 0 1 1 [55, 255, 15, 130], Sample.cel 3 0 0 1 1 [60, 50, 40, 130]]
    let b' := Sample.header 1 1 32 ++ Sample.frame 1 [Sample.layer 1 0 0 255 [65], Sample.layer 1 0 0 255 [66],
      Sample.layer 1 0 0 100 [67], lower, Sample.cel 1 0 0 1 1 [42, 207, 12, 179], Sample.cel 2 0 0 1 1 [60, 50, 40, 130]]
    Sample.render ⟨true, 10⟩ b 0 (.mask [false, true, true]) [0, 0, 0, 0] = some (.ok (), [42, 207, 12, 179]) ∧
    Sample.render ⟨true, 10⟩ b 0 .all [0, 0, 0, 0] = some (.ok (), [55, 157, 24, 206]) ∧
    Sample.render ⟨true, 10⟩ b' 0 .all [0, 0, 0, 0] = some (.ok (), [56, 157, 24, 206]) ∧
    (match AsepriteFile.load ⟨true, 10⟩ b, AsepriteFile.load ⟨true, 10⟩ b' with
      | .ok f, .ok g =>
        (match f.frames[0]?, g.frames[0]? with
          | some lf, some lg =>
            let z : Inflater := fun _ _ => (.streamEnd, [])
            decide (f.size = g.size ∧ lg.cels.length = 3 ∧
              strokes z g .all 0 0 (lg.cels.take 1) = strokes z f (.mask [true]) 0 0 lf.cels ∧
              strokes z g .all 0 0 (lg.cels.drop 2) = strokes z f (.mask [false, false, false, true]) 0 0 lf.cels ∧
              (strokes z f .all 0 0 lf.cels).map (·.mode) = List.replicate 4 .normal ∧
              ((lg.cels[1]?).bind fun c => (coveredBy c 0 0).bind (imageColor z g c.imageIndex)) =
                canvasPixel g [42, 207, 12, 179] 0 0)
          | _, _ => false)
      | _, _ => false) = true := by
  decide +kernel

end Ase
