import Verif.Lemmas.Accuracy
import Verif.Lemmas.Algebra
import Verif.Props.Strokes

/-!
# C78: how far rendering is from exact compositing
-/

namespace Ase

open Spec

theorem unit_nonneg (v : UInt8) : 0 ≤ Exact.unit v := by unfold Exact.unit; positivity

theorem unit_le (v : UInt8) : Exact.unit v ≤ 1 := by
  unfold Exact.unit
  rw [div_le_one (by norm_num)]
  exact_mod_cast byte_le v

theorem weight_nonneg (s : Stroke) : 0 ≤ Exact.weight s := mul_nonneg (unit_nonneg _) (unit_nonneg _)

theorem weight_le (s : Stroke) : Exact.weight s ≤ 1 := mul_le_one₀ (unit_le _) (unit_nonneg _) (unit_le _)

/-- On an opaque backdrop a mode is normal blending with its colour. -/
theorem blend_on_opaque (plat : Plat) (m : BlendMode) (f : Nat → Nat → Nat) (hm : channelFn m = some f)
    (back front : Color) (o : UInt8) (hb : back.a = 255) :
    blend plat m back front o = .ok (normalU back (chanU f back front) o) := by
  obtain ⟨g, h1, h2⟩ := mode_eq plat m f hm
  have hb0 : back.a ≠ 0 := by rw [hb]; decide
  have ha := normalU_alpha_ne back (chanU f back front) o hb0
  rw [blend, h1, run_bind_ok, h2, modeU, blenderU, if_pos hb0, hb, mergeU_255 _ _ ha, mergeU_self _ _ ha]

/-- One stroke on an opaque pixel. -/
theorem paint_near (plat : Plat) (m : BlendMode) (f : Nat → Nat → Nat) (hm : channelFn m = some f)
    (back front : Color) (o : UInt8) (hb : back.a = 255) :
    ∃ c, blend plat m back front o = .ok c ∧ c.a = 255 ∧ ∀ ch : Color → UInt8,
      ch = Color.r ∨ ch = Color.g ∨ ch = Color.b →
      |((ch c).toNat : ℚ) - 255 * Exact.paint ch (Exact.unit (ch back)) ⟨m, o, front⟩| ≤
        3 / 2 + (if m = .normal then 0 else 1) * Exact.weight ⟨m, o, front⟩ := by
  refine ⟨_, blend_on_opaque plat m f hm back front o hb, ?_⟩
  have hb0 : back.a ≠ 0 := by rw [hb]; decide
  obtain ⟨c, h1, _, _, _, h2, _, h3, _⟩ := C46_normal plat back (chanU f back front) o
  rw [blend_normal] at h1
  cases h1
  have ha : (normalU back (chanU f back front) o).a = 255 := by
    rw [← UInt8.toNat_inj, h3, hb]
    have h4 := times_le_left front.a.toNat o.toNat (byte_le o)
    have h5 := byte_le front.a
    show screen 255 (times front.a.toNat o.toNat) = 255
    unfold screen
    have : ∀ n ≤ 255, 255 + n - times 255 n = 255 := by decide +kernel
    exact this _ (by omega)
  refine ⟨ha, fun ch hch => ?_⟩
  have h2 := h2 hb0
  rw [ha] at h2
  have key : ∃ x : Nat, x = f (ch back).toNat (ch front).toNat ∧ toI (ch (normalU back (chanU f back front) o)) =
      ((ch back).toNat : Int) + (((x : Int) - (ch back).toNat) * (times front.a.toNat o.toNat : Nat)).tdiv 255 := by
    have h6 : ∀ x y : UInt8, toI (chU f x y) = (f x.toNat y.toNat : Nat) := fun x y => by
      rw [toI, chU_toNat f x y (channelFn_le m f hm _ _ (byte_le x) (byte_le y))]
    have h2' := h2
    simp only [chanU, h6] at h2'
    rcases hch with rfl | rfl | rfl
    · exact ⟨_, rfl, h2'.1⟩
    · exact ⟨_, rfl, h2'.2.1⟩
    · exact ⟨_, rfl, h2'.2.2⟩
  obtain ⟨x, hx, h7⟩ := key
  have hx' : x ≤ 255 := hx ▸ channelFn_le m f hm _ _ (byte_le _) (byte_le _)
  have h8 := over_near (ch back).toNat x front.a.toNat o.toNat (byte_le _) hx'
  rw [← h7] at h8
  have h9 := channel_near m f hm (ch back).toNat (ch front).toNat (byte_le _) (byte_le _)
  rw [← hx] at h9
  have h10 := weight_nonneg ⟨m, o, front⟩
  have e : ((toI (ch (normalU back (chanU f back front) o)) : Int) : ℚ) =
      ((ch (normalU back (chanU f back front) o)).toNat : ℚ) := by rw [toI]; push_cast; rfl
  rw [e] at h8
  have h11 := mul_le_mul_of_nonneg_right h9 h10
  rw [← abs_of_nonneg h10, ← abs_mul, abs_of_nonneg h10] at h11
  refine le_trans (le_trans (le_of_eq ?_) (abs_add_le _ _)) (add_le_add h8 h11)
  congr 1
  simp only [Exact.paint, Exact.weight, Exact.unit]
  ring

/-- **C78 (one stroke).** Painting on an opaque pixel: all modes but soft light and those on hue, saturation and luminosity
give every channel to within 5/2 of the exact value, normal blending to within 3/2. -/
theorem C78_stroke (plat : Plat) (m : BlendMode) (h1 : isKnown m) (h2 : isHsl m = false) (h3 : m ≠ .softLight)
    (back front : Color) (o : UInt8) (hb : back.a = 255) :
    ∃ c, blend plat m back front o = .ok c ∧ c.a = 255 ∧ ∀ ch : Color → UInt8,
      ch = Color.r ∨ ch = Color.g ∨ ch = Color.b →
      |((ch c).toNat : ℚ) - 255 * Exact.paint ch (Exact.unit (ch back)) ⟨m, o, front⟩| ≤
        if m = .normal then 3 / 2 else 5 / 2 := by
  have hm : ∃ f, channelFn m = some f := by
    cases m <;> first | exact ⟨_, rfl⟩ | simp_all [isHsl, isKnown]
  obtain ⟨f, hm⟩ := hm
  obtain ⟨c, h4, h5, h6⟩ := paint_near plat m f hm back front o hb
  refine ⟨c, h4, h5, fun ch hch => (h6 ch hch).trans ?_⟩
  have := weight_le ⟨m, o, front⟩
  split <;> linarith

example : isKnown .colorDodge ∧ isHsl .colorDodge = false ∧
    blend ⟨true, 0⟩ .colorDodge ⟨100, 50, 0, 255⟩ ⟨77, 200, 9, 100⟩ 200 = .ok ⟨113, 105, 0, 255⟩ ∧
    255 * Exact.paint Color.r (Exact.unit 100) ⟨.colorDodge, 200, ⟨77, 200, 9, 100⟩⟩ = 26228900 / 231489 := by
  decide +kernel

/-- **C78 (soft light).** Painting with soft light on an opaque pixel gives red and green to within 2 of the exact value,
and blue to within 2 of what comes of taking the backdrop for the source (C51). -/
theorem C78_soft_light (plat : Plat) (back front : Color) (o : UInt8) (hb : back.a = 255) :
    ∃ c, blend plat .softLight back front o = .ok c ∧ c.a = 255 ∧
      ∀ (ch : Color → UInt8) (s : UInt8), (ch = Color.r ∧ s = front.r ∨ ch = Color.g ∧ s = front.g ∨
        ch = Color.b ∧ s = back.b) →
      |((ch c).toNat : ℝ) - 255 * (((ch back).toNat / 255 : ℝ) +
        (softLight ((ch back).toNat / 255) (s.toNat / 255) - (ch back).toNat / 255) *
          ((front.a.toNat / 255 : ℝ) * (o.toNat / 255)))| ≤ 2 := by
  have hc := blend_softLight plat back front o
  obtain ⟨h1, h2⟩ := blend_opaqueG plat .softLight rfl back front _ o hb hc
  refine ⟨_, hc, h1, fun ch s hch => ?_⟩
  have hch' : IsChannel ch := by
    rcases hch with ⟨h, _⟩ | ⟨h, _⟩ | ⟨h, _⟩
    · exact .inl h
    · exact .inr (.inl h)
    · exact .inr (.inr h)
  have h3 := h2 ch hch'
  have hg : modeG .softLight ch (ch back) (ch front) = softU (ch back) s := by
    rcases hch with ⟨h, h'⟩ | ⟨h, h'⟩ | ⟨h, h'⟩ <;> subst h <;> rw [h'] <;> rfl
  rw [hg] at h3
  have h4 := (softU_spec (ch back) s).2
  have h5 := over_near (ch back).toNat (softU (ch back) s).toNat front.a.toNat o.toNat (byte_le _) (byte_le _)
  rw [toward] at h3
  change ((_ : Nat) : Int) = _ at h3
  simp only [toI] at h3
  rw [← h3] at h5
  unfold SoftLight Rounded at h4
  have h6 : |((ch (blenderU back front o (normalU back (softColor back front) o))).toNat : ℝ) -
      ((ch back).toNat + (((softU (ch back) s).toNat : ℝ) - (ch back).toNat) *
        ((front.a.toNat / 255) * (o.toNat / 255)))| ≤ 3 / 2 := by
    have := (Rat.cast_le (K := ℝ)).2 h5
    push_cast at this
    exact this
  have hw0 : (0 : ℝ) ≤ (front.a.toNat / 255 : ℝ) * (o.toNat / 255) := by positivity
  have hw1 : (front.a.toNat / 255 : ℝ) * (o.toNat / 255) ≤ 1 := by
    have k1 : (front.a.toNat : ℝ) / 255 ≤ 1 := by
      rw [div_le_one (by norm_num)]; exact_mod_cast byte_le front.a
    have k2 : (o.toNat : ℝ) / 255 ≤ 1 := by
      rw [div_le_one (by norm_num)]; exact_mod_cast byte_le o
    exact mul_le_one₀ k1 (by positivity) k2
  generalize (front.a.toNat / 255 : ℝ) * (o.toNat / 255) = w at *
  generalize ((ch (blenderU back front o (normalU back (softColor back front) o))).toNat : ℝ) = z at *
  generalize ((softU (ch back) s).toNat : ℝ) = k at *
  generalize softLight ((ch back).toNat / 255) (s.toNat / 255) = v at *
  generalize ((ch back).toNat : ℝ) = b at *
  rw [abs_le] at *
  obtain ⟨k1, k2⟩ := h4
  constructor <;> nlinarith

example : blend ⟨true, 0⟩ .softLight ⟨100, 100, 100, 255⟩ ⟨200, 200, 200, 255⟩ 128 = .ok ⟨117, 117, 94, 255⟩ := by
  decide +kernel

/-! ## Many strokes -/

theorem channel_lipschitz (m : BlendMode) (hm : Exact.steady m = true) (b b' s : ℚ) (h0 : 0 ≤ s) (h1 : s ≤ 1) :
    |Exact.channel m b s - Exact.channel m b' s| ≤ |b - b'| := by
  have scale : ∀ k x : ℚ, -1 ≤ k → k ≤ 1 → x = (b - b') * k → |x| ≤ |b - b'| := by
    intro k x hk hk' hx
    rw [hx, abs_mul]
    exact mul_le_of_le_one_right (abs_nonneg _) (abs_le.2 ⟨hk, hk'⟩)
  cases m <;> simp only [Exact.steady, reduceCtorEq] at hm <;> simp only [Exact.channel]
  · rw [sub_self, abs_zero]; exact abs_nonneg _
  · exact scale s _ (by linarith) h1 (by rw [Exact.multiply, Exact.multiply]; ring)
  · exact scale (1 - s) _ (by linarith) (by linarith) (by rw [Exact.screen, Exact.screen]; ring)
  · refine (abs_min_sub_min_le_max _ _ _ _).trans ?_
    rw [sub_self, abs_zero, max_eq_left (abs_nonneg _)]
  · refine (abs_max_sub_max_le_max _ _ _ _).trans ?_
    rw [sub_self, abs_zero, max_eq_left (abs_nonneg _)]
  · unfold Exact.hardLight
    split
    · exact scale (2 * s) _ (by linarith) (by linarith) (by rw [Exact.multiply, Exact.multiply]; ring)
    · exact scale (2 - 2 * s) _ (by linarith) (by linarith) (by rw [Exact.screen, Exact.screen]; ring)
  · refine (abs_abs_sub_abs_le_abs_sub _ _).trans ?_
    rw [sub_sub_sub_cancel_right]
  · exact scale (1 - 2 * s) _ (by linarith) (by linarith) (by ring)
  · refine (abs_min_sub_min_le_max _ _ _ _).trans ?_
    rw [sub_self, abs_zero, max_eq_right (abs_nonneg _), add_sub_add_right_eq_sub]
  · refine (abs_max_sub_max_le_max _ _ _ _).trans ?_
    rw [sub_self, abs_zero, max_eq_right (abs_nonneg _), sub_sub_sub_cancel_right]

theorem paint_lipschitz (s : Stroke) (hm : Exact.steady s.mode = true) (ch : Color → UInt8) (v v' : ℚ) :
    |Exact.paint ch v s - Exact.paint ch v' s| ≤ |v - v'| := by
  have h1 := channel_lipschitz s.mode hm v v' (Exact.unit (ch s.color)) (unit_nonneg _) (unit_le _)
  have hw0 := weight_nonneg s
  have hw1 := weight_le s
  have e : Exact.paint ch v s - Exact.paint ch v' s = (1 - Exact.weight s) * (v - v') +
      Exact.weight s * (Exact.channel s.mode v (Exact.unit (ch s.color)) -
        Exact.channel s.mode v' (Exact.unit (ch s.color))) := by
    simp only [Exact.paint]; ring
  rw [e]
  refine (abs_add_le _ _).trans ?_
  rw [abs_mul, abs_mul, abs_of_nonneg hw0, abs_of_nonneg (by linarith : (0 : ℚ) ≤ 1 - Exact.weight s)]
  have := mul_le_mul_of_nonneg_left h1 hw0
  linarith

theorem fold_near (plat : Plat) (K : ℚ) (ch : Color → UInt8) (hch : ch = Color.r ∨ ch = Color.g ∨ ch = Color.b)
    (ss : List Stroke) (hs : ∀ s ∈ ss, Exact.steady s.mode = true)
    (hK : ∀ s ∈ ss, 3 / 2 + (if s.mode = .normal then 0 else 1) * Exact.weight s ≤ K) (c d : Color) (hc : c.a = 255)
    (h : ss.foldl (fun (r : Run Color) s => r.bind fun c => blend plat s.mode c s.color s.opacity) (.ok c) = .ok d)
    (v e : ℚ) (hv : |((ch c).toNat : ℚ) - 255 * v| ≤ e) :
    d.a = 255 ∧ |((ch d).toNat : ℚ) - 255 * ss.foldl (Exact.paint ch) v| ≤ e + K * ss.length := by
  induction ss generalizing c v e with
  | nil =>
    cases h
    exact ⟨hc, by simpa using hv⟩
  | cons s ss ih =>
    have hst := hs s List.mem_cons_self
    obtain ⟨f, hf⟩ : ∃ f, channelFn s.mode = some f := by
      revert hst
      cases s.mode <;> first | exact fun _ => ⟨_, rfl⟩ | exact fun h => nomatch h
    obtain ⟨c1, h1, h2, h3⟩ := paint_near plat s.mode f hf c s.color s.opacity hc
    rw [List.foldl_cons] at h
    have h : ss.foldl (fun (r : Run Color) s => r.bind fun c => blend plat s.mode c s.color s.opacity) (.ok c1) = .ok d := by
      rw [← h, ← h1]; rfl
    have h4 := (h3 ch hch).trans (hK s List.mem_cons_self)
    have h5 := paint_lipschitz s hst ch (Exact.unit (ch c)) v
    have h6 : |Exact.unit (ch c) - v| ≤ e / 255 := by
      rw [le_div_iff₀ (by norm_num), ← abs_of_pos (by norm_num : (0 : ℚ) < 255), ← abs_mul]
      refine le_of_eq_of_le ?_ hv
      congr 1
      rw [Exact.unit]; ring
    have h7 : |((ch c1).toNat : ℚ) - 255 * Exact.paint ch v s| ≤ e + K := by
      have h8 := h5.trans h6
      rw [le_div_iff₀ (by norm_num)] at h8
      rw [abs_le] at h4 ⊢
      have h9 := abs_le.1 (h5.trans h6)
      constructor <;> linarith [h4.1, h4.2, h9.1, h9.2]
    have := ih (fun s hs' => hs s (List.mem_cons_of_mem _ hs')) (fun s hs' => hK s (List.mem_cons_of_mem _ hs')) c1 h2 h
      _ _ h7
    refine ⟨this.1, ?_⟩
    rw [List.foldl_cons, List.length_cons]
    refine this.2.trans (le_of_eq ?_)
    push_cast
    ring

/-- **C78 (frames).** On an opaque canvas, if no mode that magnifies differences is involved, each channel of a pixel is
within 5/2 per cel painted on it of the exactly composited value, and within 3/2 per cel if all are painted normally:
rounding errors add up, and do no more than that. -/
theorem C78_opaque (plat : Plat) (b : Bytes) (f : AsepriteFile) (h : AsepriteFile.load plat b = .ok f)
    (inflate : Inflater) (i : Nat) (lf : LFrame) (hi : f.frames[i]? = some lf) (sel : LayerSelection) (t t' : Bytes)
    (hok : f.renderFrame plat inflate i sel t = (.ok (), t')) (x y : Nat) (hx : x < f.size.1.toNat)
    (hy : y < f.size.2.toNat) (before : Color) (hb : canvasPixel f t x y = some before) (ha : before.a = 255)
    (ss : List Stroke) (hs : ss = strokes inflate f sel x y lf.cels) (hm : ∀ s ∈ ss, Exact.steady s.mode = true) :
    ∃ after, canvasPixel f t' x y = some after ∧ after.a = 255 ∧ ∀ ch : Color → UInt8,
      ch = Color.r ∨ ch = Color.g ∨ ch = Color.b →
      |((ch after).toNat : ℚ) - 255 * ss.foldl (Exact.paint ch) (Exact.unit (ch before))| ≤ 5 / 2 * ss.length ∧
      ((∀ s ∈ ss, s.mode = .normal) →
        |((ch after).toNat : ℚ) - 255 * ss.foldl (Exact.paint ch) (Exact.unit (ch before))| ≤ 3 / 2 * ss.length) := by
  obtain ⟨c, d, h1, h2, h3⟩ := C37_pixels plat b f h inflate i lf hi sel t t' hok x y hx hy
  rw [hb] at h1
  cases h1
  rw [compose_strokes, ← hs] at h3
  have h0 : ∀ ch : Color → UInt8, |((ch before).toNat : ℚ) - 255 * Exact.unit (ch before)| ≤ 0 := by
    intro ch
    rw [Exact.unit, show (255 : ℚ) * ((ch before).toNat / 255) = (ch before).toNat by ring, sub_self, abs_zero]
  have key := fun K hK ch hch => fold_near plat K ch hch ss hm hK before d ha h3 _ _ (h0 ch)
  have k1 := key (5 / 2) fun s _ => by
    have := weight_le s
    split <;> linarith
  refine ⟨d, h2, (k1 Color.r (.inl rfl)).1, fun ch hch => ⟨?_, fun hn => ?_⟩⟩
  · have := (k1 ch hch).2
    rwa [zero_add] at this
  · have := (key (3 / 2) (fun s hs' => by rw [if_pos (hn s hs')]; linarith) ch hch).2
    rwa [zero_add] at this

-- a multiplied and a normal cel on the first pixel, whose exact red is 80.6...
example :
    let b := Sample.header 2 1 32 ++ Sample.frame 1 [Sample.layer 1 0 1 255 [65], Sample.layer 1 0 0 100 [66],
      Sample.cel 0 0 0 1 1 [90, 80, 70, 200], Sample.cel 1 0 0 2 1 [9, 8, 7, 130, 50, 60, 70, 255]]
    (match AsepriteFile.load ⟨true, 10⟩ b with
      | .ok f =>
        (match f.frames[0]? with
          | some lf => decide ((strokes (fun _ _ => (.streamEnd, [])) f .all 0 0 lf.cels).length = 2 ∧
              (strokes (fun _ _ => (.streamEnd, [])) f .all 0 0 lf.cels).foldl (Exact.paint Color.r) (Exact.unit 200) =
                181774960 / 2255067 / 255)
          | _ => false)
      | _ => false) = true ∧
    Sample.render ⟨true, 10⟩ b 0 .all [200, 2, 3, 255, 5, 6, 7, 255] = some (.ok (), [81, 3, 3, 255, 22, 27, 31, 255]) := by
  decide +kernel

/-- **C78 (alpha).** On any canvas, if none of the modes on hue, saturation and luminosity is involved, the alpha of a
pixel is within 1 per cel painted on it of the exactly composited alpha. -/
theorem C78_alpha (plat : Plat) (b : Bytes) (f : AsepriteFile) (h : AsepriteFile.load plat b = .ok f)
    (inflate : Inflater) (i : Nat) (lf : LFrame) (hi : f.frames[i]? = some lf) (sel : LayerSelection) (t t' : Bytes)
    (hok : f.renderFrame plat inflate i sel t = (.ok (), t')) (x y : Nat) (hx : x < f.size.1.toNat)
    (hy : y < f.size.2.toNat) (ss : List Stroke) (hs : ss = strokes inflate f sel x y lf.cels)
    (hm : ∀ s ∈ ss, isHsl s.mode = false) :
    ∃ before after, canvasPixel f t x y = some before ∧ canvasPixel f t' x y = some after ∧
      |(after.a.toNat : ℚ) - 255 * ss.foldl Exact.cover (Exact.unit before.a)| ≤ ss.length := by
  obtain ⟨c, d, h1, h2, h3⟩ := C37_pixels plat b f h inflate i lf hi sel t t' hok x y hx hy
  refine ⟨c, d, h1, h2, ?_⟩
  rw [compose_strokes, ← hs] at h3
  have key : ∀ (ss : List Stroke), (∀ s ∈ ss, isHsl s.mode = false) → ∀ (c : Color) (v e : ℚ),
      |(c.a.toNat : ℚ) - 255 * v| ≤ e →
      ss.foldl (fun (r : Run Color) s => r.bind fun c => blend plat s.mode c s.color s.opacity) (.ok c) = .ok d →
      |(d.a.toNat : ℚ) - 255 * ss.foldl Exact.cover v| ≤ e + ss.length := by
    intro ss
    induction ss with
    | nil => intro _ c v e hv h; cases h; simpa using hv
    | cons s ss ih =>
      intro hm c v e hv h
      rw [List.foldl_cons] at h
      cases hb : blend plat s.mode c s.color s.opacity with
      | err e => exact nomatch e
      | panic k =>
        have stuck : ∀ (ss : List Stroke), ss.foldl (fun (r : Run Color) s =>
            r.bind fun c => blend plat s.mode c s.color s.opacity) (.panic k) = .panic k := by
          intro ss
          induction ss with
          | nil => rfl
          | cons s ss ih => exact ih
        have : (Outcome.bind (.ok c) fun c => blend plat s.mode c s.color s.opacity) = .panic k := hb
        rw [this, stuck] at h
        cases h
      | ok c1 =>
        have : (Outcome.bind (.ok c) fun c => blend plat s.mode c s.color s.opacity) = .ok c1 := hb
        rw [this] at h
        have h4 := blend_alpha plat _ (hm s List.mem_cons_self) _ _ _ _ hb
        have h5 := times_le_left s.color.a.toNat s.opacity.toNat (byte_le _)
        have h5' : times s.color.a.toNat s.opacity.toNat ≤ 255 := h5.trans (byte_le _)
        have h6 := screen_near c.a.toNat _ h5'
        have h7 := times_near s.color.a.toNat s.opacity.toNat
        rw [← h4] at h6
        generalize times s.color.a.toNat s.opacity.toNat = fa at h6 h7
        have hw0 := weight_nonneg s
        have hw1 := weight_le s
        have hc0 := unit_nonneg c.a
        have hc1 := unit_le c.a
        have hc : (c.a.toNat : ℚ) = 255 * Exact.unit c.a := by rw [Exact.unit]; ring
        have hw : ((s.color.a.toNat : ℚ) / 255 * (s.opacity.toNat / 255)) = Exact.weight s := rfl
        rw [hw] at h7
        have h8 : |(c1.a.toNat : ℚ) - 255 * Exact.cover v s| ≤ e + 1 := by
          have e1 : (c1.a.toNat : ℚ) - 255 * Exact.cover v s =
              ((c1.a.toNat : ℚ) - 255 * Exact.screen (c.a.toNat / 255) (fa / 255)) +
              ((1 - Exact.unit c.a) * (fa - 255 * Exact.weight s) + (1 - Exact.weight s) * (c.a.toNat - 255 * v)) := by
            rw [Exact.screen, Exact.cover, hc]; ring
          rw [e1]
          have h9 : |(1 - Exact.unit c.a) * (fa - 255 * Exact.weight s)| ≤ 1 / 2 := by
            rw [abs_mul, abs_of_nonneg (by linarith)]
            exact (mul_le_of_le_one_left (abs_nonneg _) (by linarith)).trans h7
          have h10 : |(1 - Exact.weight s) * (c.a.toNat - 255 * v)| ≤ e := by
            rw [abs_mul, abs_of_nonneg (by linarith)]
            exact (mul_le_of_le_one_left (abs_nonneg _) (by linarith)).trans hv
          refine (abs_add_le _ _).trans ?_
          have := abs_add_le ((1 - Exact.unit c.a) * (fa - 255 * Exact.weight s))
            ((1 - Exact.weight s) * (c.a.toNat - 255 * v))
          linarith
        have := ih (fun s hs => hm s (List.mem_cons_of_mem _ hs)) c1 _ _ h8 h
        rw [List.foldl_cons, List.length_cons]
        refine this.trans (le_of_eq ?_)
        push_cast
        ring
  have := key ss hm c (Exact.unit c.a) 0 (by
    rw [Exact.unit, show (255 : ℚ) * (c.a.toNat / 255) = c.a.toNat by ring, sub_self, abs_zero]) h3
  rwa [zero_add] at this

-- the same picture on a translucent canvas
example :
    let b := Sample.header 2 1 32 ++ Sample.frame 1 [Sample.layer 1 0 1 255 [65], Sample.layer 1 0 0 100 [66],
      Sample.cel 0 0 0 1 1 [90, 80, 70, 200], Sample.cel 1 0 0 2 1 [9, 8, 7, 130, 50, 60, 70, 255]]
    (match AsepriteFile.load ⟨true, 10⟩ b with
      | .ok f =>
        (match f.frames[0]? with
          | some lf => decide ((strokes (fun _ _ => (.streamEnd, [])) f .all 0 0 lf.cels).all (fun s => !isHsl s.mode) ∧
              255 * (strokes (fun _ _ => (.streamEnd, [])) f .all 0 0 lf.cels).foldl Exact.cover (Exact.unit 50) =
                29133350 / 132651)
          | _ => false)
      | _ => false) = true ∧
    Sample.render ⟨true, 10⟩ b 0 .all [200, 2, 3, 50, 5, 6, 7, 0] = some (.ok (), [72, 42, 37, 220, 50, 60, 70, 100]) := by
  decide +kernel

/-- **C78 (no build-up).** If every cel on an opaque pixel is painted normally and hides at least the part `p` of what is
below it, the error is at most `3 / (2 p)`, however many cels there are. -/
theorem C78_no_buildup (plat : Plat) (b : Bytes) (f : AsepriteFile) (h : AsepriteFile.load plat b = .ok f)
    (inflate : Inflater) (i : Nat) (lf : LFrame) (hi : f.frames[i]? = some lf) (sel : LayerSelection) (t t' : Bytes)
    (hok : f.renderFrame plat inflate i sel t = (.ok (), t')) (x y : Nat) (hx : x < f.size.1.toNat)
    (hy : y < f.size.2.toNat) (before : Color) (hb : canvasPixel f t x y = some before) (ha : before.a = 255)
    (ss : List Stroke) (hs : ss = strokes inflate f sel x y lf.cels) (p : ℚ) (hp : 0 < p)
    (hm : ∀ s ∈ ss, s.mode = .normal ∧ p ≤ Exact.weight s) :
    ∃ after, canvasPixel f t' x y = some after ∧ ∀ ch : Color → UInt8,
      ch = Color.r ∨ ch = Color.g ∨ ch = Color.b →
      |((ch after).toNat : ℚ) - 255 * ss.foldl (Exact.paint ch) (Exact.unit (ch before))| ≤ 3 / (2 * p) := by
  obtain ⟨c, d, h1, h2, h3⟩ := C37_pixels plat b f h inflate i lf hi sel t t' hok x y hx hy
  rw [hb] at h1
  cases h1
  rw [compose_strokes, ← hs] at h3
  refine ⟨d, h2, fun ch hch => ?_⟩
  have key : ∀ (ss : List Stroke), (∀ s ∈ ss, s.mode = .normal ∧ p ≤ Exact.weight s) → ∀ (c : Color) (v : ℚ), c.a = 255 →
      |((ch c).toNat : ℚ) - 255 * v| ≤ 3 / (2 * p) →
      ss.foldl (fun (r : Run Color) s => r.bind fun c => blend plat s.mode c s.color s.opacity) (.ok c) = .ok d →
      |((ch d).toNat : ℚ) - 255 * ss.foldl (Exact.paint ch) v| ≤ 3 / (2 * p) := by
    intro ss
    induction ss with
    | nil => intro _ c v _ hv h; cases h; simpa using hv
    | cons s ss ih =>
      intro hm c v hc hv h
      obtain ⟨hn, hw⟩ := hm s List.mem_cons_self
      obtain ⟨c1, h1, h2, h3⟩ := paint_near plat s.mode (fun _ s => s) (by rw [hn]; rfl) c s.color s.opacity hc
      rw [List.foldl_cons] at h
      have h : ss.foldl (fun (r : Run Color) s => r.bind fun c => blend plat s.mode c s.color s.opacity) (.ok c1) =
          .ok d := by rw [← h, ← h1]; rfl
      refine ih (fun s hs => hm s (List.mem_cons_of_mem _ hs)) c1 _ h2 ?_ h
      have h4 := h3 ch hch
      rw [if_pos hn, zero_mul, add_zero] at h4
      have hw1 := weight_le s
      have e1 : ((ch c1).toNat : ℚ) - 255 * Exact.paint ch v s =
          (((ch c1).toNat : ℚ) - 255 * Exact.paint ch (Exact.unit (ch c)) s) +
          (1 - Exact.weight s) * ((ch c).toNat - 255 * v) := by
        simp only [Exact.paint, hn, Exact.channel]
        rw [show ((ch c).toNat : ℚ) = 255 * Exact.unit (ch c) by rw [Exact.unit]; ring]
        ring
      rw [e1]
      refine (abs_add_le _ _).trans ?_
      rw [abs_mul, abs_of_nonneg (by linarith : (0 : ℚ) ≤ 1 - Exact.weight s)]
      have h5 : (1 - Exact.weight s) * |((ch c).toNat : ℚ) - 255 * v| ≤ (1 - p) * (3 / (2 * p)) :=
        mul_le_mul (by linarith) hv (abs_nonneg _) (by linarith)
      have h6 : (1 - p) * (3 / (2 * p)) = 3 / (2 * p) - 3 / 2 := by field_simp
      linarith [h4]
  refine key ss hm before _ ha ?_ h3
  rw [Exact.unit, show (255 : ℚ) * ((ch before).toNat / 255) = (ch before).toNat by ring, sub_self, abs_zero]
  positivity

-- four cels, each hiding four fifths: the error is less than 2, whatever the colours
example :
    let b := Sample.header 1 1 32 ++ Sample.frame 1 ([65, 66, 67, 68].map (fun c => Sample.layer 1 0 0 204 [c]) ++
      [Sample.cel 0 0 0 1 1 [90, 80, 70, 255], Sample.cel 1 0 0 1 1 [9, 8, 7, 255], Sample.cel 2 0 0 1 1 [99, 8, 7, 255],
        Sample.cel 3 0 0 1 1 [250, 8, 7, 255]])
    (match AsepriteFile.load ⟨true, 10⟩ b with
      | .ok f =>
        (match f.frames[0]? with
          | some lf => decide ((strokes (fun _ _ => (.streamEnd, [])) f .all 0 0 lf.cels).all (fun s =>
                decide (s.mode = .normal ∧ 4 / 5 ≤ Exact.weight s)) ∧
              255 * (strokes (fun _ _ => (.streamEnd, [])) f .all 0 0 lf.cels).foldl (Exact.paint Color.r) (Exact.unit 200)
                = 27128 / 125)
          | _ => false)
      | _ => false) = true ∧
    Sample.render ⟨true, 10⟩ b 0 .all [200, 2, 3, 255] = some (.ok (), [217, 9, 8, 255]) := by
  decide +kernel

/-! ## Translucent pixels -/

/-- **C78 (translucent).** Normal blending on a pixel of any alpha gives every channel to within `1 + 255 / a` of the exact
value, where `a` is the alpha of the result. -/
theorem C78_translucent (plat : Plat) (back front : Color) (o : UInt8) :
    ∃ c, blend plat .normal back front o = .ok c ∧ (c.a ≠ 0 → ∀ ch : Color → UInt8,
      ch = Color.r ∨ ch = Color.g ∨ ch = Color.b →
      |((ch c).toNat : ℚ) - 255 * Exact.over ch back ⟨.normal, o, front⟩| ≤ 1 + 255 / c.a.toNat) := by
  obtain ⟨c, h1, _, _, h2, h3, _, h4, _⟩ := C46_normal plat back front o
  refine ⟨c, h1, fun hc ch hch => ?_⟩
  have hcp : (0 : ℚ) < c.a.toNat := by
    have : c.a.toNat ≠ 0 := fun h => hc (UInt8.toNat_inj.1 h)
    exact_mod_cast Nat.pos_of_ne_zero this
  have hfa := times_near front.a.toNat o.toNat
  have hw : ((front.a.toNat : ℚ) / 255 * (o.toNat / 255)) = Exact.weight ⟨.normal, o, front⟩ := rfl
  have hw0 := weight_nonneg ⟨.normal, o, front⟩
  have hw1 := weight_le ⟨.normal, o, front⟩
  rw [hw] at hfa
  by_cases hb : back.a = 0
  · obtain ⟨e1, e2, e3, e4⟩ := h2 hb
    have hch' : ch c = ch front := by rcases hch with rfl | rfl | rfl <;> assumption
    have hwp : Exact.weight ⟨.normal, o, front⟩ ≠ 0 := by
      intro h0
      rw [h0, mul_zero, sub_zero, ← e4, abs_of_pos hcp] at hfa
      have h9 : (1 : ℚ) ≤ c.a.toNat := by exact_mod_cast (by exact_mod_cast hcp : 0 < c.a.toNat)
      linarith
    have : Exact.over ch back ⟨.normal, o, front⟩ = Exact.unit (ch front) := by
      rw [Exact.over, Exact.cover, hb, show Exact.unit 0 = 0 by norm_num [Exact.unit]]
      field_simp
      ring
    rw [this, hch', Exact.unit, show (255 : ℚ) * ((ch front).toNat / 255) = (ch front).toNat by ring, sub_self, abs_zero]
    positivity
  · have h3 := h3 hb
    have key : toI (ch c) = toI (ch back) + ((toI (ch front) - toI (ch back)) * (times front.a.toNat o.toNat : Nat)).tdiv
        (toI c.a) := by
      rcases hch with rfl | rfl | rfl
      · exact h3.1
      · exact h3.2.1
      · exact h3.2.2
    have hsc := screen_near back.a.toNat (times front.a.toNat o.toNat)
      ((times_le_left _ _ (byte_le _)).trans (byte_le _))
    rw [← h4] at hsc
    generalize times front.a.toNat o.toNat = fa at *
    have hA : (0 : ℚ) < Exact.unit back.a := by
      have : back.a.toNat ≠ 0 := fun h => hb (UInt8.toNat_inj.1 h)
      have : (0 : ℚ) < back.a.toNat := by exact_mod_cast Nat.pos_of_ne_zero this
      unfold Exact.unit
      positivity
    have hA1 := unit_le back.a
    have hcov : Exact.cover (Exact.unit back.a) ⟨.normal, o, front⟩ = Exact.unit back.a + Exact.weight ⟨.normal, o, front⟩ -
        Exact.unit back.a * Exact.weight ⟨.normal, o, front⟩ := by rw [Exact.cover]; ring
    have hover : 255 * Exact.over ch back ⟨.normal, o, front⟩ = ((ch back).toNat : ℚ) +
        (((ch front).toNat : ℚ) - (ch back).toNat) * (Exact.weight ⟨.normal, o, front⟩ /
          Exact.cover (Exact.unit back.a) ⟨.normal, o, front⟩) := by
      have hp : Exact.cover (Exact.unit back.a) ⟨.normal, o, front⟩ ≠ 0 := by
        rw [hcov]; nlinarith
      rw [Exact.over]
      have e1 : Exact.unit back.a * (1 - Exact.weight ⟨.normal, o, front⟩) =
          Exact.cover (Exact.unit back.a) ⟨.normal, o, front⟩ - Exact.weight ⟨.normal, o, front⟩ := by rw [hcov]; ring
      rw [e1]
      generalize Exact.cover (Exact.unit back.a) ⟨.normal, o, front⟩ = C at hp
      rw [Exact.unit, Exact.unit]
      field_simp
      ring
    rw [hover]
    have hscr : Exact.screen (back.a.toNat / 255) (fa / 255) =
        Exact.unit back.a + fa / 255 - Exact.unit back.a * (fa / 255) := by
      rw [Exact.screen, Exact.unit]
    rw [hscr] at hsc
    have hkey : ((ch c).toNat : ℚ) = ((toI (ch c) : Int) : ℚ) := by rw [toI]; push_cast; rfl
    have hra : (c.a.toNat : ℚ) = ((toI c.a : Int) : ℚ) := by rw [toI]; push_cast; rfl
    have hrai : 0 < toI c.a := toI_pos hc
    have hd1 : |((ch front).toNat : ℚ) - (ch back).toNat| ≤ 255 := by
      have hb' : ((ch back).toNat : ℚ) ≤ 255 := by exact_mod_cast byte_le _
      have hs' : ((ch front).toNat : ℚ) ≤ 255 := by exact_mod_cast byte_le _
      have hb0 : (0 : ℚ) ≤ (ch back).toNat := by positivity
      have hs0 : (0 : ℚ) ≤ (ch front).toNat := by positivity
      rw [abs_le]
      constructor <;> linarith
    have hd : (((toI (ch front) - toI (ch back) : Int)) : ℚ) = ((ch front).toNat : ℚ) - (ch back).toNat := by
      simp only [toI]; push_cast; rfl
    have hbk : ((toI (ch back) : Int) : ℚ) = ((ch back).toNat : ℚ) := by rw [toI]; push_cast; rfl
    rw [hkey, key]
    generalize toI (ch front) - toI (ch back) = d at hd
    rw [← hd] at hd1 ⊢
    have h5 := Int.mul_tdiv_add_tmod (d * fa) (toI c.a)
    have h6 : |(Int.tmod (d * fa) (toI c.a))| < toI c.a := by
      rw [abs_lt]
      exact ⟨by have := Int.lt_tmod_of_pos (d * fa) hrai; omega, Int.tmod_lt_of_pos _ hrai⟩
    generalize (d * (fa : Int)).tdiv (toI c.a) = q at h5 ⊢
    generalize (d * (fa : Int)).tmod (toI c.a) = r at h5 h6
    have h5' : (toI c.a : ℚ) * q + r = d * fa := by exact_mod_cast h5
    have h6' : |(r : ℚ)| ≤ (toI c.a : ℚ) := by exact_mod_cast h6.le
    rw [hra] at hsc hcp ⊢
    rw [hcov]
    push_cast
    rw [hbk]
    generalize ((toI c.a : Int) : ℚ) = ra at *
    generalize Exact.weight ⟨.normal, o, front⟩ = w at *
    generalize Exact.unit back.a = a at *
    obtain ⟨R, hRe⟩ : ∃ R, R = a + w - a * w := ⟨_, rfl⟩
    rw [← hRe]
    have hR : 0 < R := by nlinarith
    have ha : a ≤ R := by nlinarith
    have hwle : w ≤ R := by nlinarith
    have e1 : ((ch back).toNat : ℚ) + q - ((ch back).toNat + d * (w / R)) =
        -(r / ra) + d / ra * ((((fa : ℚ) - 255 * w) * a - w * (ra - 255 * (a + fa / 255 - a * (fa / 255)))) /
          R) := by
      have hN : ((fa : ℚ) - 255 * w) * a - w * (ra - 255 * (a + fa / 255 - a * (fa / 255))) = fa * R - w * ra := by
        rw [hRe]; ring
      rw [hN]
      have hq : (q : ℚ) = (d * fa - r) / ra := by rw [eq_div_iff hcp.ne']; linarith
      rw [hq]
      have := hcp.ne'
      have := hR.ne'
      field_simp
      ring
    rw [e1]
    refine (abs_add_le _ _).trans ?_
    refine add_le_add ?_ ?_
    · rw [abs_neg, abs_div, abs_of_pos hcp, div_le_one hcp]
      exact h6'
    · rw [abs_mul, abs_div, abs_of_pos hcp]
      refine (mul_le_of_le_one_right (by positivity) ?_).trans
        ((div_le_div_iff_of_pos_right hcp).2 hd1)
      rw [abs_div, abs_of_pos hR, div_le_one hR]
      refine (abs_sub _ _).trans ?_
      rw [abs_mul, abs_mul, abs_of_nonneg hA.le, abs_of_nonneg hw0]
      have := mul_le_mul_of_nonneg_right hfa hA.le
      have := mul_le_mul_of_nonneg_left hsc hw0
      linarith

example : blend ⟨true, 0⟩ .normal ⟨200, 100, 50, 90⟩ ⟨10, 20, 30, 120⟩ 200 = .ok ⟨82, 51, 38, 151⟩ ∧
    255 * Exact.over Color.r ⟨200, 100, 50, 90⟩ ⟨.normal, 200, ⟨10, 20, 30, 120⟩⟩ = 355400 / 4361 := by
  decide +kernel

/-- So it says little about nearly transparent pixels, and rightly so: here the exact value is 84. -/
theorem C78_faint (plat : Plat) :
    blend plat .normal ⟨0, 0, 0, 1⟩ ⟨255, 255, 255, 1⟩ 126 = .ok ⟨0, 0, 0, 1⟩ ∧
      84 < 255 * Exact.over Color.r ⟨0, 0, 0, 1⟩ ⟨.normal, 126, ⟨255, 255, 255, 1⟩⟩ := by
  refine ⟨?_, by decide +kernel⟩
  rw [blend_normal]
  exact congrArg _ (by decide +kernel)

end Ase
