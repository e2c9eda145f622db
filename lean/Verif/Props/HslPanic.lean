import Verif.Props.Hsl

/-!
# C50: exactly when the HSL modes panic
-/

namespace Ase

open F64 Spec.Hsl

/-! ## Clipping a colour -/

theorem lum_shift (c : Colour) (d : ℝ) : lum (fun i => c i + d) = lum c + d := by
  unfold lum
  ring

theorem least_lt_lum {c : Colour} (h : sat c ≠ 0) : least c < lum c ∧ lum c < most c := by
  have a0 := least_le c 0; have a1 := least_le c 1; have a2 := least_le c 2
  have b0 := le_most c 0; have b1 := le_most c 1; have b2 := le_most c 2
  have hs : least c < most c := by
    unfold sat at h
    rcases lt_or_eq_of_le (a0.trans b0) with h1 | h1
    · exact h1
    · exact absurd (by rw [h1]; ring) h
  have hl : least c = c 0 ∨ least c = c 1 ∨ least c = c 2 := by
    unfold least
    rcases min_choice (c 0) (min (c 1) (c 2)) with h1 | h1 <;> rw [h1]
    · exact .inl rfl
    · rcases min_choice (c 1) (c 2) with h2 | h2 <;> rw [h2]
      · exact .inr (.inl rfl)
      · exact .inr (.inr rfl)
  have hm : most c = c 0 ∨ most c = c 1 ∨ most c = c 2 := by
    unfold most
    rcases max_choice (c 0) (max (c 1) (c 2)) with h1 | h1 <;> rw [h1]
    · exact .inl rfl
    · rcases max_choice (c 1) (c 2) with h2 | h2 <;> rw [h2]
      · exact .inr (.inl rfl)
      · exact .inr (.inr rfl)
  unfold lum
  constructor
  · rcases hm with h1 | h1 | h1 <;> linarith
  · rcases hl with h1 | h1 | h1 <;> linarith

theorem sat_shift (c : Colour) (d : ℝ) : sat (fun i => c i + d) = sat c := by
  unfold sat most least
  rw [max_add_add_right, max_add_add_right, min_add_add_right, min_add_add_right]
  ring

/-- A luminosity from 0 to 1 gives channels from 0 to 1. -/
theorem clip_inside {c : Colour} (hs : sat c ≠ 0) (h0 : 0 ≤ lum c) (h1 : lum c ≤ 1) (i : Fin 3) :
    0 ≤ clip c i ∧ clip c i ≤ 1 := by
  obtain ⟨ha, hb⟩ := least_lt_lum hs
  have hl := least_le c i
  have hm := le_most c i
  have low : ∃ low : ℝ, (if least c < 0 then fun i => lum c + (c i - lum c) * lum c / (lum c - least c) else c) i = low ∧
      0 ≤ low ∧ low ≤ most c := by
    refine ⟨_, rfl, ?_⟩
    split
    · next hneg =>
      have hd : 0 < lum c - least c := by linarith
      have e1 : -(lum c) ≤ (c i - lum c) * lum c / (lum c - least c) := by
        rw [le_div_iff₀ hd]
        nlinarith
      have e2 : (c i - lum c) * lum c / (lum c - least c) ≤ most c - lum c := by
        rw [div_le_iff₀ hd]
        nlinarith
      constructor <;> dsimp only <;> linarith
    · next hneg => exact ⟨by linarith, hm⟩
  obtain ⟨low, h2, h3, h4⟩ := low
  have hd : 0 < most c - lum c := by linarith
  unfold clip
  split
  · next hbig =>
    dsimp only
    rw [h2]
    have e1 : -(lum c) ≤ (low - lum c) * (1 - lum c) / (most c - lum c) := by
      rw [le_div_iff₀ hd]
      nlinarith
    have e2 : (low - lum c) * (1 - lum c) / (most c - lum c) ≤ 1 - lum c := by
      rw [div_le_iff₀ hd]
      nlinarith
    constructor <;> linarith
  · next hbig => rw [h2]; exact ⟨h3, by linarith⟩

/-- A luminosity above 1 gives a channel above it. -/
theorem clip_outside {c : Colour} (hs : sat c ≠ 0) (h1 : 1 < lum c) : ∃ i, lum c < clip c i := by
  obtain ⟨ha, hb⟩ := least_lt_lum hs
  obtain ⟨i, hi⟩ : ∃ i, c i = least c := by
    unfold least
    rcases min_choice (c 0) (min (c 1) (c 2)) with h1 | h1 <;> rw [h1]
    · exact ⟨0, rfl⟩
    · rcases min_choice (c 1) (c 2) with h2 | h2 <;> rw [h2]
      · exact ⟨1, rfl⟩
      · exact ⟨2, rfl⟩
  refine ⟨i, ?_⟩
  have low : ∃ low : ℝ, (if least c < 0 then fun i => lum c + (c i - lum c) * lum c / (lum c - least c) else c) i = low ∧
      low < lum c := by
    refine ⟨_, rfl, ?_⟩
    split
    · next hneg =>
      have hd : 0 < lum c - least c := by linarith
      have : (c i - lum c) * lum c / (lum c - least c) < 0 := by
        rw [div_lt_iff₀ hd, hi]
        nlinarith
      dsimp only
      linarith
    · rw [hi]; exact ha
  obtain ⟨low, h2, h3⟩ := low
  have hd : 0 < most c - lum c := by linarith
  unfold clip
  rw [if_pos (by linarith), h2]
  have : 0 < (low - lum c) * (1 - lum c) / (most c - lum c) := by
    apply div_pos _ hd
    nlinarith
  linarith

/-! ## The numbers that are made into bytes -/

theorem target_hundredths (m : BlendMode) (back front : Color) : ∃ N : ℕ, target m back front = N / 100 := by
  have key : ∀ c : Color, ∃ N : ℕ, lum (channels c) = N / 100 := fun c => by
    refine ⟨30 * c.r.toNat + 59 * c.g.toNat + 11 * c.b.toNat, ?_⟩
    have h2 : ¬ (2 : Fin 3) = 0 := by decide
    have h3 : ¬ (2 : Fin 3) = 1 := by decide
    simp only [lum, channels, if_true, h2, h3, if_false, one_ne_zero]
    push_cast
    ring
  cases m <;> first | exact key back | exact key front

theorem truncate_inside {y a : ℝ} (h : |y - 255 * a| ≤ 1 / 20) (h0 : 0 ≤ a) (h1 : a ≤ 1) :
    0 ≤ truncate y ∧ truncate y ≤ 255 := by
  rw [abs_le] at h
  unfold truncate
  split
  · next hy =>
    refine ⟨Int.floor_nonneg.2 hy, ?_⟩
    have : ⌊y⌋ < 256 := by rw [Int.floor_lt]; push_cast; linarith
    omega
  · next hy =>
    have : ⌈y⌉ = 0 := by rw [Int.ceil_eq_zero_iff]; constructor <;> linarith
    omega

theorem truncate_outside {y a : ℝ} (h : |y - 255 * a| ≤ 1 / 20) (h1 : 101 / 100 ≤ a) : 256 ≤ truncate y := by
  rw [abs_le] at h
  unfold truncate
  rw [if_pos (by linarith), Int.le_floor]
  push_cast
  linarith

/-- The number that becomes channel `i`. -/
def hslInt (m : BlendMode) (back front : Color) (i : Fin 3) : Int :=
  toI32 (F64.mul (pick (hslF m back front) i) (.ofInt 255))

theorem hslInt_bytes (m : BlendMode) (hm : Spec.isHsl m) (back front : Color) :
    (∀ i, isByte (hslInt m back front i) = true) ↔ (sat (source m back front) = 0 ∨ target m back front ≤ 1) := by
  unfold hslInt
  obtain ⟨N, hN⟩ := target_hundredths m back front
  have hN0 : 0 ≤ target m back front := by rw [hN]; positivity
  by_cases hs : sat (source m back front) = 0
  · simp only [hs, true_or, iff_true]
    intro i
    obtain ⟨k, c, h1, h2⟩ := hsl_grey m hm back front hs
    rw [h2, pick_greyInt]
    rcases greyInt_spec k c with ⟨h, y, hy, h3⟩ | ⟨-, h3⟩
    · rw [h3]
      have := truncate_inside hy (h1 ▸ hN0) h
      simpa [isByte] using this
    · simp only [List.mem_cons, List.not_mem_nil, or_false] at h3
      rcases h3 with h3 | h3 | h3 <;> rw [h3] <;> decide
  · simp only [hs, false_or]
    have hs' : sat (fun i => source m back front i + (target m back front - lum (source m back front))) ≠ 0 := by
      rwa [sat_shift]
    have hl : lum (fun i => source m back front i + (target m back front - lum (source m back front)))
        = target m back front := by rw [lum_shift]; ring
    constructor
    · intro hall
      by_contra hgt
      rw [not_le] at hgt
      obtain ⟨i, hi⟩ := clip_outside hs' (by rw [hl]; exact hgt)
      rw [hl] at hi
      have h101 : 101 / 100 ≤ target m back front := by
        rw [hN] at hgt ⊢
        have : (100 : ℝ) < N := by linarith
        have : (101 : ℝ) ≤ N := by exact_mod_cast (by exact_mod_cast this : 100 < N)
        linarith
      obtain ⟨h1, h2⟩ := near_hsl m hm back front hs i
      obtain ⟨y, hy, hy'⟩ := near_hslInt h1 h2
      have hb := hall i
      rw [hy'] at hb
      have := truncate_outside hy (h101.trans (le_of_lt hi))
      simp only [isByte, decide_eq_true_eq] at hb
      omega
    · intro hle i
      obtain ⟨h1, h2⟩ := near_hsl m hm back front hs i
      obtain ⟨y, hy, hy'⟩ := near_hslInt h1 h2
      rw [hy']
      obtain ⟨h3, h4⟩ := clip_inside hs' (by rw [hl]; exact hN0) (by rw [hl]; exact hle) i
      have := truncate_inside hy h3 h4
      simpa [isByte] using this

theorem ofI32_bytes {plat : Plat} {r g b a : Int} (hr : isByte r = true) (hg : isByte g = true) (hb : isByte b = true)
    (ha : isByte a = true) : Color.ofI32 plat r g b a = .ok ⟨asU8 r, asU8 g, asU8 b, asU8 a⟩ := by
  simp [Color.ofI32, debugAssert, hr, hg, hb, ha]
  rfl

theorem ofI32_no_bytes {plat : Plat} (hp : plat.debug = true) {r g b a : Int}
    (h : ¬ (isByte r = true ∧ isByte g = true ∧ isByte b = true ∧ isByte a = true)) :
    Color.ofI32 plat r g b a = .panic .debugAssertFailed := by
  have key : ∀ n, debugAssert plat (isByte n) = if isByte n then .ok () else .panic .debugAssertFailed := by
    intro n
    cases hn : isByte n <;> simp [debugAssert, hp]
  unfold Color.ofI32
  rw [key, key, key, key]
  by_cases h1 : isByte r = true
  · rw [if_pos h1, run_bind_ok]
    by_cases h2 : isByte g = true
    · rw [if_pos h2, run_bind_ok]
      by_cases h3 : isByte b = true
      · rw [if_pos h3, run_bind_ok, if_neg fun h4 => h ⟨h1, h2, h3, h4⟩]
        rfl
      · rw [if_neg h3]; rfl
    · rw [if_neg h2]; rfl
  · rw [if_neg h1]; rfl

/-- **C50, exactly.** In a debug build the HSL modes panic on a visible backdrop exactly if the source has an alpha of 2 or
more, or the colour whose luminosity is set has some saturation and the luminosity it is set to (with channels from 0
to 255) is more than 1.  Otherwise, as in every release build, the result is that of the release builds.
Missing: they should never panic. -/
theorem C50_exactly_partial (plat : Plat) (m : BlendMode) (hm : Spec.isHsl m) (back front : Color) (o : UInt8) :
    (plat.debug = true ∧ back.a ≠ 0 ∧ (2 ≤ front.a.toNat ∨ sat (source m back front) ≠ 0 ∧ 1 < target m back front) →
      Spec.blend plat m back front o = .panic .debugAssertFailed) ∧
    (¬ (plat.debug = true ∧ back.a ≠ 0 ∧
        (2 ≤ front.a.toNat ∨ sat (source m back front) ≠ 0 ∧ 1 < target m back front)) →
      ∃ c, Spec.blend plat m back front o = .ok c ∧ ∀ s, Spec.blend ⟨false, s⟩ m back front o = .ok c) := by
  obtain ⟨f, hf, hfe⟩ : ∃ f : BlendFn, Spec.blend plat m back front o = blender plat back front o f ∧
      f back front o = Color.ofI32 plat (hslInt m back front 0) (hslInt m back front 1) (hslInt m back front 2)
        (toI front.a * 255) >>= fun c => normal plat back c o := by
    have e : ∀ x y z, Color.ofF64 plat x y z (toF front.a) = Color.ofI32 plat (F64.mul x (.ofInt 255)).toI32
        (F64.mul y (.ofInt 255)).toI32 (F64.mul z (.ofInt 255)).toI32 (toI front.a * 255) := fun x y z => by
      rw [Color.ofF64, toI32_alpha]
    cases m <;> try cases hm
    · exact ⟨hslHueBaseline plat, rfl, congrArg (fun x : Run Color => x >>= fun c => normal plat back c o)
        (e (hslF .hue back front).1 (hslF .hue back front).2.1 (hslF .hue back front).2.2)⟩
    · exact ⟨hslSaturationBaseline plat, rfl, congrArg (fun x : Run Color => x >>= fun c => normal plat back c o)
        (e (hslF .saturation back front).1 (hslF .saturation back front).2.1 (hslF .saturation back front).2.2)⟩
    · exact ⟨hslColorBaseline plat, rfl, congrArg (fun x : Run Color => x >>= fun c => normal plat back c o)
        (e (hslF .color back front).1 (hslF .color back front).2.1 (hslF .color back front).2.2)⟩
    · exact ⟨hslLuminosityBaseline plat, rfl, congrArg (fun x : Run Color => x >>= fun c => normal plat back c o)
        (e (hslF .luminosity back front).1 (hslF .luminosity back front).2.1 (hslF .luminosity back front).2.2)⟩
  have hbytes := hslInt_bytes m hm back front
  have halpha : isByte (toI front.a * 255) = true ↔ ¬ 2 ≤ front.a.toNat := by
    unfold isByte toI
    rw [decide_eq_true_iff]
    omega
  have hall : (isByte (hslInt m back front 0) = true ∧ isByte (hslInt m back front 1) = true ∧
      isByte (hslInt m back front 2) = true ∧ isByte (toI front.a * 255) = true) ↔
      ¬ (2 ≤ front.a.toNat ∨ sat (source m back front) ≠ 0 ∧ 1 < target m back front) := by
    rw [halpha, not_or, not_and_or, not_not, not_lt, ← hbytes]
    constructor
    · rintro ⟨h0, h1, h2, h3⟩
      refine ⟨h3, fun i => ?_⟩
      fin_cases i
      · exact h0
      · exact h1
      · exact h2
    · rintro ⟨h3, h⟩
      exact ⟨h 0, h 1, h 2, h3⟩
  constructor
  · rintro ⟨hp, hb, h⟩
    rw [hf]
    refine blender_panic _ _ _ _ _ _ hb ?_
    rw [hfe, ofI32_no_bytes hp fun h' => hall.1 h' h]
    rfl
  · intro h
    refine ⟨blenderU back front o (normalU back (hslColour m back front) o), ?_,
      fun s => hsl_blend m hm back front ⟨false, s⟩ o rfl⟩
    by_cases hp : plat.debug = true
    · rw [hf]
      refine blender_eq _ _ _ _ _ _ fun hb => ?_
      obtain ⟨h0, h1, h2, h3⟩ := hall.2 fun h' => h ⟨hp, hb, h'⟩
      rw [hfe, ofI32_bytes h0 h1 h2 h3, run_bind_ok, normal_eq]
      rfl
    · exact hsl_blend m hm back front plat o (by simpa using hp)

/-- Both cases with a transparent source: a backdrop of the luminosity 1.01 and one of the luminosity 1. -/
example : Spec.blend ⟨true, 0⟩ .color ⟨3, 0, 1, 255⟩ ⟨9, 8, 7, 0⟩ 255 = .panic .debugAssertFailed ∧
    Spec.blend ⟨true, 0⟩ .color ⟨1, 1, 1, 255⟩ ⟨9, 8, 7, 0⟩ 255 = .ok ⟨1, 1, 1, 255⟩ := by
  decide +kernel

end Ase
