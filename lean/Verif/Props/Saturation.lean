import Verif.Spec.Saturation
import Verif.Lemmas.Saturation
import Verif.Props.Grey

/-!
# C117: the switch for compatibility with Aseprite
-/

namespace Ase

open Spec
open Spec.Ieee (value IsFinite)

/-! ## The sorts -/

/-- **C117 (sort).** The sort that is used when the switch is off returns three different channels, from the least to the
greatest. -/
theorem C117_sort (r g b : F64) (hr : IsFinite r) (hg : IsFinite g) (hb : IsFinite b) (mn mid mx : Fin 3)
    (h : staticSort3 r g b = (mn, mid, mx)) :
    (mn ≠ mid ∧ mid ≠ mx ∧ mn ≠ mx) ∧
    value (![r, g, b] mn) ≤ value (![r, g, b] mid) ∧ value (![r, g, b] mid) ≤ value (![r, g, b] mx) := by
  have l01 := (C115_compare r g hr hg .nan).1
  have l02 := (C115_compare r b hr hb .nan).1
  have l12 := (C115_compare g b hg hb .nan).1
  have l10 := (C115_compare g r hg hr .nan).1
  by_cases h01 : value r < value g <;> by_cases h02 : value r < value b <;> by_cases h12 : value g < value b <;>
    by_cases h10 : value g < value r <;>
    first
    | (exfalso; linarith)
    | (simp only [staticSort3, l01, l02, l12, l10, h01, h02, h12, h10, if_true, if_false, Prod.mk.injEq] at h
       obtain ⟨rfl, rfl, rfl⟩ := h
       refine ⟨by decide, ?_, ?_⟩ <;> simp <;> linarith)

example : staticSort3 (.ofInt 7) (.ofInt 7) (.ofInt 7) = (2, 1, 0) ∧ staticSort3 (.ofInt 9) (.ofInt 3) (.ofInt 7) = (1, 2, 0) ∧
    staticSort3Orig (.ofInt 7) (.ofInt 7) (.ofInt 7) = (2, 1, 2) := by decide +kernel

/-! ## What the switch changes -/

theorem chN_pick (c : Color) : (toF c.r, toF c.g, toF c.b) = (nat (chN c 0), nat (chN c 1), nat (chN c 2)) := rfl

theorem pick_ext {p q : F64 × F64 × F64} (h : ∀ i, pick p i = pick q i) : p = q := by
  have h0 := h 0; have h1 := h 1; have h2 := h 2
  obtain ⟨a, b, c⟩ := p
  obtain ⟨a', b', c'⟩ := q
  simp only [pick] at h0 h1 h2
  simp at h0 h1 h2
  rw [h0, h1, h2]

theorem nat_inj {a b : ℕ} (ha : a < 2 ^ 53) (hb : b < 2 ^ 53) (h : nat a = nat b) : a = b := by
  have := congrArg value h
  rw [nat_value ha, nat_value hb] at this
  exact_mod_cast this

theorem pick_tie (n : Fin 3 → ℕ) (hn : ∀ i, n i ≤ 255) (s : F64) (i : Fin 3) (ht : Tie n i) :
    pick (setSaturation (nat (n 0)) (nat (n 1)) (nat (n 2)) s) i = nat (n i) := by
  have hb : ∀ j, n j < 2 ^ 53 := fun j => by have := hn j; omega
  obtain ⟨a, b, c, ho⟩ : ∃ a b c, sortN (n 0) (n 1) (n 2) = (a, b, c) := ⟨_, _, _, rfl⟩
  have ho' : staticSort3Orig (nat (n 0)) (nat (n 1)) (nat (n 2)) = (a, b, c) :=
    (sort_nat (nat_near (hb 0)) (nat_near (hb 1)) (nat_near (hb 2))).trans ho
  obtain ⟨t1, t2, t3⟩ := (sortN_spec n a b c ho i).2.2.2 ht
  rw [pick_setSaturation _ _ _ _ a b c ho', if_neg t1, if_neg t2, if_neg t3, if_neg t3, if_neg t2, ite_self]
  unfold pick
  fin_cases i <;> rfl

theorem forgotten_iff (c : Color) : Forgotten c ↔ ∃ i, Tie (chN c) i ∧ chN c i ≠ 0 := by
  have z : ∀ x : UInt8, x ≠ 0 ↔ x.toNat ≠ 0 := fun x => by rw [Ne, ← UInt8.toNat_inj]; rfl
  unfold Forgotten Tie
  rw [z, z, ← UInt8.toNat_inj, ← UInt8.toNat_inj, UInt8.le_iff_toNat_le, UInt8.lt_iff_toNat_lt]
  change (chN c 0 = chN c 1 ∧ chN c 1 ≤ chN c 2 ∧ chN c 0 ≠ 0) ∨ (chN c 1 = chN c 2 ∧ chN c 2 < chN c 0 ∧ chN c 1 ≠ 0) ↔ _
  constructor
  · rintro (⟨h1, h2, h3⟩ | ⟨h1, h2, h3⟩)
    · exact ⟨0, .inl ⟨rfl, h1, h2⟩, h3⟩
    · exact ⟨1, .inr ⟨rfl, h1, h2⟩, h3⟩
  · rintro ⟨i, ⟨rfl, h1, h2⟩ | ⟨rfl, h1, h2⟩, h3⟩
    · exact .inl ⟨h1, h2, h3⟩
    · exact .inr ⟨h1, h2, h3⟩

/-- **C117 (saturation).** Setting the saturation of a pixel gives the same colour with the switch on and off, except for
pixels with a forgotten channel; for these it always gives different colours. -/
theorem C117_setSaturation (c d : Color) :
    setSaturationC false (toF c.r) (toF c.g) (toF c.b) (saturation (toF d.r) (toF d.g) (toF d.b)) =
      setSaturationC true (toF c.r) (toF c.g) (toF c.b) (saturation (toF d.r) (toF d.g) (toF d.b)) ↔ ¬ Forgotten c := by
  obtain ⟨S, hS, hs⟩ := saturation_nat d
  rw [hs, setSaturationC_true]
  have key := fun i => setSaturationC_false (chN c) S (chN_le c) hS i
  have keyT := fun i h => pick_tie (chN c) (chN_le c) (nat S) i h
  rw [forgotten_iff]
  constructor
  · rintro h ⟨i, ht, hi⟩
    have e := (key i).1 ht
    have e' := keyT i ht
    change setSaturationC false (nat (chN c 0)) (nat (chN c 1)) (nat (chN c 2)) _ = _ at h
    rw [h] at e
    refine hi (nat_inj ?_ ?_ (e'.symm.trans e))
    · have := chN_le c i; omega
    · norm_num
  · intro h
    refine pick_ext fun i => ?_
    by_cases ht : Tie (chN c) i
    · have h0 : chN c i = 0 := by
        by_contra h0
        exact h ⟨i, ht, h0⟩
      refine ((key i).1 ht).trans ?_
      refine Eq.trans ?_ (keyT i ht).symm
      rw [h0]
    · exact (key i).2 ht

/-- **C117 (formula).** With the switch off, the colour whose saturation is set is that of the W3C: its channels differ from
those of `SetSat` by at most 2 to the power of -43, for every pixel.  With the switch on that is so for the pixels
without a forgotten channel. -/
theorem C117_formula (k : Bool) (c d : Color) (hk : k = true → ¬ Forgotten c) (i : Fin 3) :
    |value (![(setSaturationC k (toF c.r) (toF c.g) (toF c.b) (saturation (toF d.r) (toF d.g) (toF d.b))).1,
      (setSaturationC k (toF c.r) (toF c.g) (toF c.b) (saturation (toF d.r) (toF d.g) (toF d.b))).2.1,
      (setSaturationC k (toF c.r) (toF c.g) (toF c.b) (saturation (toF d.r) (toF d.g) (toF d.b))).2.2] i) -
      Hsl.setSat (Hsl.channels c) (Hsl.sat (Hsl.channels d)) i| ≤ 2 ^ (-43 : ℤ) := by
  have hp : ∀ p : F64 × F64 × F64, ![p.1, p.2.1, p.2.2] i = pick p i := by
    intro p
    unfold pick
    fin_cases i <;> rfl
  rw [hp]
  have hoff : setSaturationC k (toF c.r) (toF c.g) (toF c.b) (saturation (toF d.r) (toF d.g) (toF d.b)) =
      setSaturationC false (toF c.r) (toF c.g) (toF c.b) (saturation (toF d.r) (toF d.g) (toF d.b)) := by
    cases k
    · rfl
    · exact ((C117_setSaturation c d).2 (hk rfl)).symm
  rw [hoff]
  obtain ⟨S, hS, hs⟩ := saturation_nat d
  have key := setSaturationC_false (chN c) S (chN_le c) hS i
  have htie : ((i = 0 ∧ Hsl.channels c 0 = Hsl.channels c 1 ∧ Hsl.channels c 1 ≤ Hsl.channels c 2) ∨
      (i = 1 ∧ Hsl.channels c 1 = Hsl.channels c 2 ∧ Hsl.channels c 2 < Hsl.channels c 0)) ↔ Tie (chN c) i := by
    unfold Tie
    simp only [channels_eq, Nat.cast_inj, Nat.cast_le, Nat.cast_lt]
  by_cases ht : Tie (chN c) i
  · have h1 : pick (setSaturationC false (toF c.r) (toF c.g) (toF c.b) (saturation (toF d.r) (toF d.g) (toF d.b))) i = nat 0 := by
      rw [hs]
      exact key.1 ht
    have h2 : Hsl.channels c i = Hsl.least (Hsl.channels c) := by
      rcases htie.2 ht with ⟨rfl, t1, t2⟩ | ⟨rfl, t1, t2⟩
      · unfold Hsl.least
        rw [t1, min_eq_left t2, min_self]
      · unfold Hsl.least
        rw [t1, min_self, min_eq_right t2.le]
    rw [h1, nat_value (by norm_num), Hsl.setSat, h2, sub_self, zero_mul, zero_div, Nat.cast_zero, sub_self, abs_zero]
    positivity
  · have h1 : pick (setSaturationC false (toF c.r) (toF c.g) (toF c.b) (saturation (toF d.r) (toF d.g) (toF d.b))) i =
        pick (setSaturation (toF c.r) (toF c.g) (toF c.b) (saturation (toF d.r) (toF d.g) (toF d.b))) i := by
      rw [hs]
      exact key.2 ht
    have h2 : Hsl.setSatTies (Hsl.channels c) (Hsl.sat (Hsl.channels d)) i =
        Hsl.setSat (Hsl.channels c) (Hsl.sat (Hsl.channels d)) i := by
      unfold Hsl.setSatTies
      rw [if_neg fun h => ht (htie.1 h)]
    have h3 := near_source_sat c d i
    rw [h1, ← h2]
    obtain ⟨s, m, e, h4, _, h5⟩ := h3
    rw [F64.value_eq]
    exact h5

example : ∃ c d : Color, ¬ Forgotten c ∧ Forgotten d ∧ c.r = c.g ∧ d.g = d.b := ⟨⟨9, 9, 3, 255⟩, ⟨9, 7, 7, 255⟩, by decide⟩

/-! ## The blend functions -/

theorem hue_same (plat : Plat) {back front : Color} (h : ¬ Forgotten front) (o : UInt8) :
    hslHueBaselineC false plat back front o = hslHueBaselineC true plat back front o := by
  have := (C117_setSaturation front back).2 h
  simp only [hslHueBaselineC, this]

theorem sat_same (plat : Plat) {back front : Color} (h : ¬ Forgotten back) (o : UInt8) :
    hslSaturationBaselineC false plat back front o = hslSaturationBaselineC true plat back front o := by
  have := (C117_setSaturation back front).2 h
  simp only [hslSaturationBaselineC, this]

/-- **C117.** With the switch on, the blend functions are the ones that the crate uses.  With the switch off, every mode,
every pair of pixels and every opacity give the same pixel or panic, except for hue if the upper pixel has a forgotten
channel, and for saturation if the lower one has. -/
theorem C117_same (plat : Plat) (m : BlendMode) (back front : Color) (o : UInt8) :
    blendC true plat m back front o = blend plat m back front o ∧
    ((m = .hue → ¬ Forgotten front) → (m = .saturation → ¬ Forgotten back) →
      blendC false plat m back front o = blend plat m back front o) := by
  have cong : ∀ f g : BlendFn, f back front o = g back front o → blender plat back front o f = blender plat back front o g := by
    intro f g h
    unfold blender
    rw [h]
  refine ⟨by cases m <;> rfl, fun h1 h2 => ?_⟩
  cases m <;> try rfl
  · exact cong _ _ (hue_same plat (h1 rfl) o)
  · exact cong _ _ (sat_same plat (h2 rfl) o)

theorem normal_grey {back front : Color} (hb : IsGrey back) (hf : IsGrey front) (o : UInt8) : IsGrey (normalU back front o) :=
  blend_grey_separable (plat := ⟨false, 0⟩) (m := .normal) rfl (by intro h; cases h) hb hf (normal_eq ⟨false, 0⟩ back front o)

theorem merge_grey {back front : Color} (hb : IsGrey back) (hf : IsGrey front) (o : UInt8) : IsGrey (mergeU back front o) := by
  unfold mergeU
  unfold IsGrey at hb hf ⊢
  split
  · exact ⟨rfl, rfl⟩
  split
  · exact hf
  split
  · exact hb
  · simp only [hb.1, hb.2, hf.1, hf.2]
    exact ⟨trivial, trivial⟩

theorem setSaturationC_grey {c : Color} (hc : IsGrey c) (d : Color) :
    setSaturationC false (toF c.r) (toF c.g) (toF c.b) (saturation (toF d.r) (toF d.g) (toF d.b)) =
      (nat 0, nat 0, nat 0) := by
  obtain ⟨S, hS, hs⟩ := saturation_nat d
  have h1 : ∀ i, chN c i = chN c 0 := by
    intro i
    unfold chN
    rw [← hc.2, ← hc.1]
    simp
  rw [hs]
  obtain ⟨a, b, e, hf⟩ : ∃ a b e, staticSort3 (nat (chN c 0)) (nat (chN c 1)) (nat (chN c 2)) = (a, b, e) := ⟨_, _, _, rfl⟩
  have hb : ∀ j, chN c j < 2 ^ 53 := fun j => by have := chN_le c j; omega
  have sf := staticSort3_spec (chN c) hb a b e hf
  refine pick_ext fun i => ?_
  refine (setSaturationC_channel false (chN c) S (chN_le c) hS a b e hf (fun i => (sf i).1) (fun i => (sf i).2.1) i
    (sf i).2.2).trans ?_
  unfold satChannel
  rw [if_pos (by rw [h1, h1 a])]
  unfold pick
  fin_cases i <;> rfl

theorem ofF64_grey {plat : Plat} {x a : F64} {c : Color} (h : Color.ofF64 plat x x x a = .ok c) : IsGrey c := by
  unfold Color.ofF64 Color.ofI32 debugAssert at h
  split at h
  · cases h
  · rw [run_bind_ok, run_bind_ok, run_bind_ok] at h
    split at h
    · cases h
    · cases h
      exact ⟨rfl, rfl⟩

theorem setLuminocity_grey (x lum : F64) : ∃ y, setLuminocity x x x lum = (y, y, y) := by
  unfold setLuminocity clipColor
  dsimp only
  split <;> split <;> exact ⟨_, rfl⟩

/-- A colour that is grey before its luminosity is set, composited with a grey. -/
theorem baseline_grey {plat : Plat} {back : Color} (hb : IsGrey back) {p : F64 × F64 × F64} (hp : p = (nat 0, nat 0, nat 0))
    {lum a : F64} {o : UInt8} {c : Color}
    (h : (Color.ofF64 plat (setLuminocity p.1 p.2.1 p.2.2 lum).1 (setLuminocity p.1 p.2.1 p.2.2 lum).2.1
      (setLuminocity p.1 p.2.1 p.2.2 lum).2.2 a >>= fun c => normal plat back c o) = .ok c) : IsGrey c := by
  subst hp
  obtain ⟨y, hy⟩ := setLuminocity_grey (nat 0) lum
  simp only [hy] at h
  cases hc : Color.ofF64 plat y y y a with
  | err k => cases k
  | panic k =>
    rw [hc] at h
    cases h
  | ok c' =>
    rw [hc, run_bind_ok, normal_eq] at h
    cases h
    exact normal_grey hb (ofF64_grey hc) o

theorem blender_grey {plat : Plat} {back front c : Color} {o : UInt8} (hb : IsGrey back) (hf : IsGrey front) {f : BlendFn}
    (hg : ∀ c, f back front o = .ok c → IsGrey c) (h : blender plat back front o f = .ok c) : IsGrey c := by
  by_cases ha : back.a = 0
  · have := blender_eq plat back front o f ⟨0, 0, 0, 0⟩ fun h => absurd ha h
    rw [this] at h
    cases h
    rw [blenderU, if_neg (by simpa using ha)]
    exact normal_grey hb hf o
  · cases hc : f back front o with
    | err k => cases k
    | panic k =>
      rw [blender_panic plat back front o f k ha hc] at h
      cases h
    | ok e =>
      rw [blender_eq plat back front o f e fun _ => hc] at h
      cases h
      have ge := hg e hc
      rw [blenderU, if_pos ha]
      exact merge_grey (merge_grey (normal_grey hb hf o) ge _) ge _

/-- **C117 (greys).** With the switch off, all modes but soft light keep greys grey: what the crate cannot promise for hue and
saturation (C88) is a consequence of the switch being on. -/
theorem C117_grey (plat : Plat) (m : BlendMode) (hm : m ≠ .softLight) (back front c : Color) (o : UInt8) (hb : IsGrey back)
    (hf : IsGrey front) (h : blendC false plat m back front o = .ok c) : IsGrey c := by
  by_cases hh : m = .hue
  · subst hh
    exact blender_grey hb hf (fun e he => baseline_grey hb (setSaturationC_grey hf back) he) h
  by_cases hs : m = .saturation
  · subst hs
    exact blender_grey hb hf (fun e he => baseline_grey hb (setSaturationC_grey hb front) he) h
  rw [(C117_same plat m back front o).2 (fun h => absurd h hh) (fun h => absurd h hs)] at h
  exact blend_grey (by cases m <;> first | rfl | exact absurd rfl hm | exact absurd rfl hh | exact absurd rfl hs) hb hf h

/-- Where the switch matters: a dark grey with a half transparent black on it, in hue and in saturation, is red with
the switch on (as in `C88_not_grey`), and grey with the switch off. -/
theorem C117_matters : ∀ m ∈ [BlendMode.hue, .saturation],
    blendC true ⟨false, 10⟩ m ⟨7, 7, 7, 255⟩ ⟨1, 1, 1, 128⟩ 255 = .ok ⟨131, 71, 71, 255⟩ ∧
    blendC false ⟨false, 10⟩ m ⟨7, 7, 7, 255⟩ ⟨1, 1, 1, 128⟩ 255 = .ok ⟨4, 4, 4, 255⟩ := by
  decide +kernel

/-- And colours on which it does not matter. -/
example : ¬ Forgotten ⟨10, 200, 30, 255⟩ ∧
    blendC false ⟨false, 10⟩ .hue ⟨90, 10, 10, 255⟩ ⟨10, 200, 30, 128⟩ 200 =
      blendC true ⟨false, 10⟩ .hue ⟨90, 10, 10, 255⟩ ⟨10, 200, 30, 128⟩ 200 := by
  decide +kernel

end Ase
