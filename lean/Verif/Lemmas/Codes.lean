import Verif.Spec.Codes

/-! # The enum conversions of the model against the documented code tables -/

namespace Ase

open Spec

/-- Two functions of a word agree if they agree on the codes below `n`, and from there on. -/
theorem u16_cases {p : UInt16 → Prop} (n : Nat) (h : ∀ m < n, p (UInt16.ofNat m))
    (h' : ∀ w : UInt16, n ≤ w.toNat → p w) (w : UInt16) : p w := by
  by_cases hw : w.toNat < n
  · have := h _ hw; rwa [UInt16.ofNat_toNat] at this
  · exact h' w (by omega)

theorem u8_cases {p : UInt8 → Prop} (n : Nat) (h : ∀ m < n, p (UInt8.ofNat m))
    (h' : ∀ w : UInt8, n ≤ w.toNat → p w) (w : UInt8) : p w := by
  by_cases hw : w.toNat < n
  · have := h _ hw; rwa [UInt8.ofNat_toNat] at this
  · exact h' w (by omega)

theorem u16_ne {w c : UInt16} (h : c.toNat < w.toNat) : (w == c) = false := by
  rw [beq_eq_false_iff_ne]; rintro rfl; omega

theorem u8_ne {w c : UInt8} (h : c.toNat < w.toNat) : (w == c) = false := by
  rw [beq_eq_false_iff_ne]; rintro rfl; omega

theorem BlendMode.ofWord_eq (w : UInt16) : BlendMode.ofWord w = blendModeOf w := by
  refine u16_cases (p := fun w => BlendMode.ofWord w = blendModeOf w) 20 (by decide) ?_ w
  intro w hw
  have h19 : w ≠ 19 := by rintro rfl; revert hw; decide
  have : BlendMode.fromRepr w.toNat = none := by
    unfold BlendMode.fromRepr; split <;> first | omega | rfl
  rw [BlendMode.ofWord, this, blendModeOf, if_neg h19, decodeBy, blendModes]
  simp only [List.lookup]
  repeat rw [u16_ne (show _ < w.toNat from Nat.lt_of_lt_of_le (by decide) hw)]

theorem CelType.ofWord_eq (w : UInt16) : CelType.ofWord w = celTypeOf w := by
  refine u16_cases (p := fun w => CelType.ofWord w = celTypeOf w) 5 (by decide) ?_ w
  intro w hw
  have h19 : w ≠ 4 := by rintro rfl; revert hw; decide
  have : CelType.fromRepr w.toNat = none := by
    unfold CelType.fromRepr; split <;> first | omega | rfl
  rw [CelType.ofWord, this, celTypeOf, if_neg h19, decodeBy, celTypes]
  simp only [List.lookup]
  repeat rw [u16_ne (show _ < w.toNat from Nat.lt_of_lt_of_le (by decide) hw)]

theorem ColorProfileType.ofWord_eq (w : UInt16) : ColorProfileType.ofWord w = colorProfileTypeOf w := by
  refine u16_cases (p := fun w => ColorProfileType.ofWord w = colorProfileTypeOf w) 4 (by decide) ?_ w
  intro w hw
  have h19 : w ≠ 3 := by rintro rfl; revert hw; decide
  have : ColorProfileType.fromRepr w.toNat = none := by
    unfold ColorProfileType.fromRepr; split <;> first | omega | rfl
  rw [ColorProfileType.ofWord, this, colorProfileTypeOf, if_neg h19, decodeBy, colorProfileTypes]
  simp only [List.lookup]
  repeat rw [u16_ne (show _ < w.toNat from Nat.lt_of_lt_of_le (by decide) hw)]

theorem AnimationDirection.ofByte_eq (w : UInt8) : AnimationDirection.ofByte w = animationDirectionOf w := by
  refine u8_cases (p := fun w => AnimationDirection.ofByte w = animationDirectionOf w) 5 (by decide) ?_ w
  intro w hw
  have h19 : w ≠ 4 := by rintro rfl; revert hw; decide
  have : AnimationDirection.fromRepr w.toNat = none := by
    unfold AnimationDirection.fromRepr; split <;> first | omega | rfl
  rw [AnimationDirection.ofByte, this, animationDirectionOf, if_neg h19, decodeBy, animationDirections]
  simp only [List.lookup]
  repeat rw [u8_ne (show _ < w.toNat from Nat.lt_of_lt_of_le (by decide) hw)]

theorem ExternalFileType.ofByte_eq (w : UInt8) : ExternalFileType.ofByte w = externalFileTypeOf w := by
  refine u8_cases (p := fun w => ExternalFileType.ofByte w = externalFileTypeOf w) 4 (by decide) ?_ w
  intro w hw
  have h19 : w ≠ 3 := by rintro rfl; revert hw; decide
  have : ExternalFileType.fromRepr w.toNat = none := by
    unfold ExternalFileType.fromRepr; split <;> first | omega | rfl
  rw [ExternalFileType.ofByte, this, externalFileTypeOf, if_neg h19, decodeBy, externalFileTypes]
  simp only [List.lookup]
  repeat rw [u8_ne (show _ < w.toNat from Nat.lt_of_lt_of_le (by decide) hw)]

theorem LayerType.ofWord_eq (w : UInt16) : LayerType.ofWord w = layerTypeOf w := by
  refine u16_cases (p := fun w => LayerType.ofWord w = layerTypeOf w) 3 (by decide) ?_ w
  intro w hw
  have h0 : w ≠ 0 := by rintro rfl; revert hw; decide
  have h1 : w ≠ 1 := by rintro rfl; revert hw; decide
  have h2 : w ≠ 2 := by rintro rfl; revert hw; decide
  rw [LayerType.ofWord, if_neg h0, if_neg h1, if_neg h2, layerTypeOf, decodeBy, layerTypes]
  simp [List.lookup, beq_eq_false_iff_ne.2 h0, beq_eq_false_iff_ne.2 h1, beq_eq_false_iff_ne.2 h2]

theorem ColorDepth.ofWord_eq (w : UInt16) : ColorDepth.ofWord w = colorDepthOf w := by
  rw [ColorDepth.ofWord, colorDepthOf, decodeBy, colorDepths]
  by_cases h0 : w = 32
  · subst h0; decide
  by_cases h1 : w = 16
  · subst h1; decide
  by_cases h2 : w = 8
  · subst h2; decide
  rw [if_neg h0, if_neg h1, if_neg h2]
  simp [List.lookup, beq_eq_false_iff_ne.2 h0, beq_eq_false_iff_ne.2 h1, beq_eq_false_iff_ne.2 h2]

theorem lookup_u16_cons {α : Type} (w c : UInt16) (v : α) (t : List (UInt16 × α)) :
    List.lookup w ((c, v) :: t) = if w.toNat = c.toNat then some v else List.lookup w t := by
  by_cases h : w = c
  · subst h; simp [List.lookup]
  · have h' : ¬ w.toNat = c.toNat := fun e => h (UInt16.toNat_inj.1 e)
    rw [if_neg h', List.lookup, beq_eq_false_iff_ne.2 h]

theorem ChunkType.fromRepr_eq (w : UInt16) : ChunkType.fromRepr w.toNat = chunkTypes.lookup w := by
  unfold ChunkType.fromRepr chunkTypes
  repeat rw [lookup_u16_cons]
  rfl

end Ase
