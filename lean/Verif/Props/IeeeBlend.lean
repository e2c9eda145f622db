import Verif.Lemmas.IeeeBlend

/-!
# C115: blending does not depend on the machine
-/

namespace Ase

open Spec.Ieee

/-- **C115 (blending).** With every arithmetic that obeys the rules of the standard, whichever zero its minimum and maximum
take, every blend mode gives the same colours. -/
theorem C115_blend (A : Arith) (hA : IsIeee A) (plat : Plat) (mode : BlendMode) :
    blendModeToBlendFnA A plat mode = blendModeToBlendFn plat mode := by
  have t := fun x : UInt8 => (toF_spec x).1.number
  have lum := fun c : Color => luminosityA_eq hA (t c.r) (t c.g) (t c.b)
  have nlum := fun c : Color => number_luminosity (t c.r) (t c.g) (t c.b)
  have sat := fun c : Color => saturationA_eq hA c.r c.g c.b
  cases mode with
  | softLight =>
    have : softLightBaselineA A plat = softLightBaseline plat := by
      funext b f o
      unfold softLightBaselineA softLightBaseline
      rw [blendSoftLightA_eq hA, blendSoftLightA_eq hA, blendSoftLightA_eq hA]
    unfold blendModeToBlendFnA blendModeToBlendFn
    rw [this]
  | hue =>
    have : hslHueBaselineA A plat = hslHueBaseline plat := by
      funext b f o
      unfold hslHueBaselineA hslHueBaseline
      obtain ⟨e, n1, n2, n3⟩ := setSaturationA_eq hA (t f.r) (t f.g) (t f.b) (sat b).2
      have n := number_setLum n1 n2 n3 (nlum b)
      rw [(sat b).1, lum b]
      dsimp only
      rw [e]
      rw [setLuminocityA_eq hA n1 n2 n3 (nlum b)]
      rw [ofF64A_eq hA plat n.1 n.2.1 n.2.2 (t f.a)]
    unfold blendModeToBlendFnA blendModeToBlendFn
    rw [this]
  | saturation =>
    have : hslSaturationBaselineA A plat = hslSaturationBaseline plat := by
      funext b f o
      unfold hslSaturationBaselineA hslSaturationBaseline
      obtain ⟨e, n1, n2, n3⟩ := setSaturationA_eq hA (t b.r) (t b.g) (t b.b) (sat f).2
      have n := number_setLum n1 n2 n3 (nlum b)
      rw [(sat f).1, lum b]
      dsimp only
      rw [e]
      rw [setLuminocityA_eq hA n1 n2 n3 (nlum b)]
      rw [ofF64A_eq hA plat n.1 n.2.1 n.2.2 (t f.a)]
    unfold blendModeToBlendFnA blendModeToBlendFn
    rw [this]
  | color =>
    have : hslColorBaselineA A plat = hslColorBaseline plat := by
      funext b f o
      unfold hslColorBaselineA hslColorBaseline
      have n := number_setLum (t f.r) (t f.g) (t f.b) (nlum b)
      rw [lum b]
      dsimp only
      rw [setLuminocityA_eq hA (t f.r) (t f.g) (t f.b) (nlum b)]
      rw [ofF64A_eq hA plat n.1 n.2.1 n.2.2 (t f.a)]
    unfold blendModeToBlendFnA blendModeToBlendFn
    rw [this]
  | luminosity =>
    have : hslLuminosityBaselineA A plat = hslLuminosityBaseline plat := by
      funext b f o
      unfold hslLuminosityBaselineA hslLuminosityBaseline
      have n := number_setLum (t b.r) (t b.g) (t b.b) (nlum f)
      rw [lum f]
      dsimp only
      rw [setLuminocityA_eq hA (t b.r) (t b.g) (t b.b) (nlum f)]
      rw [ofF64A_eq hA plat n.1 n.2.1 n.2.2 (t f.a)]
    unfold blendModeToBlendFnA blendModeToBlendFn
    rw [this]
  | _ => rfl

/-- **C115 (machines).** So two machines show the same colours. -/
theorem C115_machines (A B : Arith) (hA : IsIeee A) (hB : IsIeee B) (plat : Plat) (mode : BlendMode) :
    blendModeToBlendFnA A plat mode = blendModeToBlendFnA B plat mode := by
  rw [C115_blend A hA, C115_blend B hB]

/-- An arithmetic with another minimum of two zeros than the model's. -/
def C115_other : Arith :=
  { C115_arith with min := fun x y => if x = .fin false 0 (-1074) ∧ y = .fin true 0 (-1074) then y else x.min y }

example : C115_other.min (.fin false 0 (-1074)) (.fin true 0 (-1074)) ≠
    C115_arith.min (.fin false 0 (-1074)) (.fin true 0 (-1074)) := by
  decide +kernel

/-- It obeys the rules, too. -/
example : IsIeee C115_other :=
  { C115_ieee with
    min := fun x y hx hy => by
      have h := C115_ieee.min x y hx hy
      unfold C115_other
      dsimp only
      split
      · next hc =>
        obtain ⟨rfl, rfl⟩ := hc
        exact ⟨.inr rfl, by simp [value]⟩
      · exact h
    min_nan := fun x => by
      unfold C115_other
      dsimp only
      rw [if_neg (by simp), if_neg (by simp)]
      exact C115_ieee.min_nan x
    min_inf := fun x hx => by
      unfold C115_other
      dsimp only
      rw [if_neg (by simp), if_neg (by simp), if_neg (by simp), if_neg (by simp)]
      exact C115_ieee.min_inf x hx }

/-- Fused multiplication and addition, or any other error in the last place, is not allowed: a result other than the nearest
one breaks the rules. -/
example : ¬ IsIeee { C115_arith with mul := fun _ _ => .fin false (2 ^ 52) 0 } := fun h => by
  have := (h.mul (.fin true (2 ^ 52) (-52)) (.fin false (2 ^ 52) (-52)) ⟨by norm_num, by omega, by omega, .inl le_rfl⟩
    ⟨by norm_num, by omega, by omega, .inl le_rfl⟩).2
  revert this
  decide

end Ase
