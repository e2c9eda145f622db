import Verif.Spec.Encode
import Verif.Lemmas.UserDataChunk

/-!
# The encoder produces the documented layouts
-/

namespace Ase
open Spec

theorem seq_flatMap {α : Type} {G : α → Bytes → Prop} {enc : α → Bytes} {xs : List α} (h : ∀ x ∈ xs, G x (enc x)) :
    Seq G xs (xs.flatMap enc) := by
  induction xs with
  | nil => exact .nil
  | cons x xs ih => exact .cons (h x (by simp)) (ih fun y hy => h y (by simp [hy]))

theorem seq_map_flatMap {α : Type} {G : α → Bytes → Prop} {enc : α → Bytes} {g : α → α} {xs : List α}
    (h : ∀ x ∈ xs, G (g x) (enc x)) : Seq G (xs.map g) (xs.flatMap enc) := by
  induction xs with
  | nil => exact .nil
  | cons x xs ih => exact .cons (h x (by simp)) (ih fun y hy => h y (by simp [hy]))

theorem and_eq_of_le16 {w : UInt16} {n : Nat} (hn : n ≤ 16) (h : w.toNat < 2 ^ n) : w = w &&& UInt16.ofNat (2 ^ n - 1) := by
  apply UInt16.toNat_inj.1
  have : (2 ^ n - 1) < 2 ^ 16 := by
    have := Nat.pow_le_pow_right (n := 2) (by decide) hn
    have := Nat.pos_of_ne_zero (n := 2 ^ n) (by simp)
    omega
  rw [UInt16.toNat_and, UInt16.toNat_ofNat', Nat.mod_eq_of_lt this, Nat.and_two_pow_sub_one_eq_mod,
    Nat.mod_eq_of_lt h]

theorem and_eq_of_le32 {w : UInt32} {n : Nat} (hn : n ≤ 32) (h : w.toNat < 2 ^ n) : w = w &&& UInt32.ofNat (2 ^ n - 1) := by
  apply UInt32.toNat_inj.1
  have : (2 ^ n - 1) < 2 ^ 32 := by
    have := Nat.pow_le_pow_right (n := 2) (by decide) hn
    have := Nat.pos_of_ne_zero (n := 2 ^ n) (by simp)
    omega
  rw [UInt32.toNat_and, UInt32.toNat_ofNat', Nat.mod_eq_of_lt this, Nat.and_two_pow_sub_one_eq_mod,
    Nat.mod_eq_of_lt h]

/-! ## Codes -/

theorem colorDepthOf_code {d : ColorDepth} (h : FitsColorDepth d) : d = colorDepthOf (colorDepthCode d) := by
  cases d with
  | unknown n => simp [colorDepthOf, colorDepthCode, decodeBy, show colorDepths.lookup n = none from h]
  | _ => decide

theorem layerTypeOf_code {d : LayerType} (h : FitsLayerType d) : d = layerTypeOf (layerTypeCode d) := by
  cases d with
  | unknown n => simp [layerTypeOf, layerTypeCode, decodeBy, show layerTypes.lookup n = none from h]
  | _ => decide

theorem blendModeOf_code {d : BlendMode} (h : FitsBlendMode d) : d = blendModeOf (blendModeCode d) := by
  cases d with
  | unknown n =>
    obtain ⟨h1, h2⟩ : blendModes.lookup n = none ∧ n ≠ 19 := h
    simp [blendModeOf, blendModeCode, decodeBy, h1, h2]
  | _ => decide

theorem animationDirectionOf_code {d : AnimationDirection} (h : FitsDirection d) :
    d = animationDirectionOf (directionCode d) := by
  cases d with
  | unknown n =>
    obtain ⟨h1, h2⟩ : animationDirections.lookup n = none ∧ n ≠ 4 := h
    simp [animationDirectionOf, directionCode, decodeBy, h1, h2]
  | _ => decide

theorem externalFileTypeOf_code {d : ExternalFileType} (h : FitsExternalType d) :
    d = externalFileTypeOf (externalFileCode d) := by
  cases d with
  | unknown n =>
    obtain ⟨h1, h2⟩ : externalFileTypes.lookup n = none ∧ n ≠ 3 := h
    simp [externalFileTypeOf, externalFileCode, decodeBy, h1, h2]
  | _ => decide

/-! ## Records -/

theorem isHeader_bytes {h : Header} (hf : FitsColorDepth h.colorDepth) : IsHeader h (headerBytes h) :=
  ⟨colorDepthCode h.colorDepth, zeros 3, zeros 84, rfl, by simp [zeros], colorDepthOf_code hf,
    by simp [headerBytes, zeros, List.append_assoc]⟩

theorem opt_map {α : Type} {p : Prop} {enc : α → Bytes} {x : Option α} (h : x.isSome ↔ p) :
    Opt p (As enc) x ((x.map enc).getD []) := by
  cases x with
  | none => exact ⟨fun hp => absurd (h.2 hp) (by simp), rfl⟩
  | some y => exact ⟨h.1 rfl, rfl⟩

theorem layerTypeCode_tilemap {t : LayerType} (h : FitsLayerType t) : t = .tilemap ↔ layerTypeCode t = 2 := by
  cases t with
  | unknown n =>
    refine ⟨nofun, fun e => ?_⟩
    have e : n = 2 := e
    subst e
    exact absurd (show layerTypes.lookup 2 = none from h) (by decide)
  | _ => decide

theorem isLayer_bytes {c : LayerChunk} (h : FitsLayer c) : IsLayer c (layerBytes c) := by
  obtain ⟨h1, h2, h3, h4, h5, h6⟩ := h
  refine ⟨c.flags.bits, layerTypeCode c.layerType, 0, 0, blendModeCode c.blendMode, zeros 3, _, rfl, h4, ?_,
    layerTypeOf_code h2, blendModeOf_code h3, opt_map (h5.trans (layerTypeCode_tilemap h2)), h6, ?_⟩
  · have h1 := UInt16.le_iff_toNat_le.1 h1
    exact and_eq_of_le16 (n := 7) (by decide) (by simp at h1; omega)
  · simp [layerBytes, zeros, le16, leBytes]

theorem isCel_bytes {c : CelChunk} (h : FitsCel c) : IsCel c (celBytes c) := by
  refine ⟨celCode c.content, zeros 5, celContentBytes c.content, rfl, ?_, h.2, rfl⟩
  cases hc : c.content with
  | image i => cases hi : i.compressed <;> simp [IsCelBody, celCode, celContentBytes, hi]
  | linkedCel f => exact ⟨rfl, [], by simp [celContentBytes]⟩
  | compressedTilemap => exact ⟨rfl, zeros 10, by simp [zeros], rfl⟩
  | unknown t d =>
    obtain ⟨h1, h2⟩ : celTypes.lookup t = none ∧ t ≠ 4 := h.1 t d hc
    simp [IsCelBody, celCode, celContentBytes, celTypeOf, decodeBy, h1, h2]

theorem isCelExtra_bytes {c : CelExtraChunk} (h : c.flags.bits ≤ 1) : IsCelExtra c (celExtraBytes c) := by
  refine ⟨c.flags.bits, ?_, rfl⟩
  have h := UInt32.le_iff_toNat_le.1 h
  exact and_eq_of_le32 (n := 1) (by decide) (by simp at h; omega)

theorem isColorProfile_bytes {c : ColorProfileChunk} (h : FitsColorProfile c) : IsColorProfile c (colorProfileBytes c) := by
  obtain ⟨gamma, profile⟩ := c
  refine ⟨colorProfileCode profile, if gamma.isSome then 1 else 0, gamma.getD ⟨0, 0⟩, zeros 8,
    (match profile with | .embeddedICC data => leNat32 data.length ++ data | _ => []), rfl, ?_, ?_, ?_⟩
  · cases gamma <;> simp
  · cases profile with
    | unknown n =>
      obtain ⟨h1, h2⟩ : colorProfileTypes.lookup n = none ∧ n ≠ 3 := h
      simp [colorProfileTypeOf, decodeBy, h1, h2, colorProfileCode]
    | embeddedICC d => exact ⟨rfl, h, rfl⟩
    | _ => exact ⟨rfl, rfl⟩
  · cases gamma <;> cases profile <;>
      simp [colorProfileBytes, zeros, Spec.fixed, le16, leBytes]

theorem isExternalFiles_bytes {c : ExternalFilesChunk} (h : FitsExternalFiles c) :
    IsExternalFiles c (externalFilesBytes c) :=
  ⟨zeros 8, _, rfl, h.1, seq_flatMap fun f hf => ⟨_, zeros 7, rfl, (h.2 f hf).2, externalFileTypeOf_code (h.2 f hf).1,
    rfl⟩, rfl⟩

theorem isMask_bytes {c : MaskChunk} (h : FitsStr c.name) : IsMask c (maskBytes c) := ⟨zeros 8, rfl, h, rfl⟩

theorem isTags_bytes {c : TagsChunk} (h : FitsTags c) : IsTags c (tagsBytes c) :=
  ⟨zeros 8, _, rfl, h.1, seq_flatMap fun t ht => ⟨_, 0, zeros 6, rfl, (h.2 t ht).2.1, (h.2 t ht).2.2.1,
    animationDirectionOf_code (h.2 t ht).1, (h.2 t ht).2.2.2, rfl⟩, rfl⟩

theorem isPalette_bytes {c : PaletteChunk} (h : FitsPalette c) : IsPalette c.entries.length c (paletteBytes c) := by
  refine ⟨zeros 8, _, rfl, h.1, h.2.1, seq_flatMap fun e he => ?_, rfl⟩
  obtain ⟨color, name⟩ := e
  cases name with
  | none => exact ⟨0, [], ⟨by simp [bit16], rfl⟩, by simp [paletteEntryBytes]⟩
  | some n => exact ⟨1, str n, ⟨by simp [bit16], h.2.2 _ he n rfl, rfl⟩, rfl⟩

theorem isOldPalette_bytes {c : OldPaletteChunk} (h : FitsOldPalette c) : IsOldPalette c (oldPaletteBytes c) :=
  ⟨_, h.1, seq_flatMap fun p hp => ⟨_, (h.2 p hp).1, (h.2 p hp).2, seq_flatMap fun _ _ => rfl, rfl⟩, rfl⟩

theorem isSlice_bytes {c : SliceChunk} (h : FitsSlice c) : IsSlice c (sliceBytes c) := by
  obtain ⟨h1, h2, h3, h4, h5⟩ := h
  refine ⟨c.flags.bits, 0, _, h1, h3, ?_, h4,
    seq_flatMap fun k hk => ⟨_, _, opt_map (h5 k hk).1, opt_map (h5 k hk).2, rfl⟩, rfl⟩
  have h := UInt32.le_iff_toNat_le.1 h2
  exact and_eq_of_le32 (n := 2) (by decide) (by simp at h; omega)

theorem isTileset_bytes {c : TilesetChunk} (h : FitsTileset c) : IsTileset c (tilesetBytes c) := by
  obtain ⟨h1, h2, h3, h4, h5⟩ := h
  refine ⟨c.flags.bits, zeros 14, _, _, rfl, h2, ?_, opt_map h3, ?_, rfl⟩
  · have h := UInt32.le_iff_toNat_le.1 h1
    exact and_eq_of_le32 (n := 6) (by decide) (by simp at h; omega)
  · cases ht : c.tiles with
    | none => exact ⟨fun hp => by simp [ht, hp] at h4, rfl⟩
    | some d => exact ⟨h4.1 (by simp [ht]), h5 d ht, rfl⟩

/-! ## Property values -/

theorem seq_depth {α : Type} {G : Nat → α → Bytes → Prop} (hc : ∀ d' d v l, l.length < 2 * d → G d' v l → G d v l)
    {x : α} {xs : List α} {b bs : Bytes} (h1 : ∃ d, G d x b) (h2 : ∃ d, Seq (G d) xs bs) :
    ∃ d, Seq (G d) (x :: xs) (b ++ bs) := by
  obtain ⟨d1, h1⟩ := h1
  obtain ⟨d2, h2⟩ := h2
  refine ⟨b.length + bs.length + 1, .cons (hc _ _ _ _ (by omega) h1) (seq_imp h2 fun y _ l hl hy => hc _ _ _ _ (by omega) hy)⟩

theorem isBool_byte (b : Bool) : IsBool b (boolByte b) := by cases b <;> exact ⟨_, by decide, rfl⟩

theorem elems_as {α : Type} {code : UInt16} {enc : α → Bytes} {xs : List α} (h : xs.length < 2 ^ 32) :
    Elems code (As enc) xs (elems code enc xs) :=
  ⟨_, h, seq_flatMap fun _ _ => rfl, rfl⟩

mutual

theorem isValue_bytes : ∀ v, FitsValue v → ∃ d, IsValue false d v (valueBytes v)
  | .bool b, _ => ⟨1, by rw [IsValue]; exact ⟨_, isBool_byte b, by rw [valueBytes]⟩⟩
  | .int8 _, _ => ⟨1, by rw [IsValue, valueBytes]⟩
  | .uint8 _, _ => ⟨1, by rw [IsValue, valueBytes]⟩
  | .int16 _, _ => ⟨1, by rw [IsValue, valueBytes]⟩
  | .uint16 _, _ => ⟨1, by rw [IsValue, valueBytes]⟩
  | .int32 _, _ => ⟨1, by rw [IsValue, valueBytes]⟩
  | .uint32 _, _ => ⟨1, by rw [IsValue, valueBytes]⟩
  | .int64 _, _ => ⟨1, by rw [IsValue, valueBytes]⟩
  | .uint64 _, _ => ⟨1, by rw [IsValue, valueBytes]⟩
  | .fixed _, _ => ⟨1, by rw [IsValue, valueBytes]⟩
  | .float _, _ => ⟨1, by rw [IsValue, valueBytes]⟩
  | .double _, _ => ⟨1, by rw [IsValue, valueBytes]⟩
  | .string s, h => ⟨1, by rw [IsValue, valueBytes]; rw [FitsValue] at h; exact ⟨h, rfl⟩⟩
  | .point _, _ => ⟨1, by rw [IsValue, valueBytes]⟩
  | .size _, _ => ⟨1, by rw [IsValue, valueBytes]⟩
  | .rect _, _ => ⟨1, by rw [IsValue, valueBytes]⟩
  | .vector v, h => by
      rw [FitsValue] at h
      obtain ⟨d, hd⟩ := isVector_bytes v h
      exact ⟨d + 1, by rw [IsValue, valueBytes]; exact ⟨_, hd, rfl⟩⟩
  | .mixedVector _, h => by rw [FitsValue] at h; exact h.elim
  | .propertiesMap m, h => by
      rw [FitsValue] at h
      obtain ⟨d, hd⟩ := isNested_bytes m h
      exact ⟨d + 1, by rw [IsValue, valueBytes]; exact ⟨_, hd, rfl⟩⟩
  | .uuid _, _ => ⟨1, by rw [IsValue, valueBytes]⟩

theorem isVector_bytes : ∀ v, FitsVector v → ∃ d, IsVector false d v (vectorBytes v)
  | .mixed vs, h => by
      rw [FitsVector] at h
      obtain ⟨d, hd⟩ := isValues_bytes vs h.2
      exact ⟨d + 1, by rw [IsVector, vectorBytes]; exact ⟨_, h.1, hd, rfl⟩⟩
  | .bool vs, h => ⟨1, by
      rw [FitsVector] at h
      rw [IsVector, vectorBytes]
      exact ⟨_, h, seq_flatMap fun b _ => isBool_byte b, rfl⟩⟩
  | .int8 _, h => ⟨1, by rw [FitsVector] at h; rw [IsVector, vectorBytes]; exact elems_as h⟩
  | .uint8 _, h => ⟨1, by rw [FitsVector] at h; rw [IsVector, vectorBytes]; exact elems_as h⟩
  | .int16 _, h => ⟨1, by rw [FitsVector] at h; rw [IsVector, vectorBytes]; exact elems_as h⟩
  | .uint16 _, h => ⟨1, by rw [FitsVector] at h; rw [IsVector, vectorBytes]; exact elems_as h⟩
  | .int32 _, h => ⟨1, by rw [FitsVector] at h; rw [IsVector, vectorBytes]; exact elems_as h⟩
  | .uint32 _, h => ⟨1, by rw [FitsVector] at h; rw [IsVector, vectorBytes]; exact elems_as h⟩
  | .int64 _, h => ⟨1, by rw [FitsVector] at h; rw [IsVector, vectorBytes]; exact elems_as h⟩
  | .uint64 _, h => ⟨1, by rw [FitsVector] at h; rw [IsVector, vectorBytes]; exact elems_as h⟩
  | .fixed _, h => ⟨1, by rw [FitsVector] at h; rw [IsVector, vectorBytes]; exact elems_as h⟩
  | .float _, h => ⟨1, by rw [FitsVector] at h; rw [IsVector, vectorBytes]; exact elems_as h⟩
  | .double _, h => ⟨1, by rw [FitsVector] at h; rw [IsVector, vectorBytes]; exact elems_as h⟩
  | .string vs, h => ⟨1, by
      rw [FitsVector] at h
      rw [IsVector, vectorBytes]
      exact ⟨_, h.1, seq_flatMap fun s hs => ⟨h.2 s hs, rfl⟩, rfl⟩⟩
  | .point _, h => ⟨1, by rw [FitsVector] at h; rw [IsVector, vectorBytes]; exact elems_as h⟩
  | .size _, h => ⟨1, by rw [FitsVector] at h; rw [IsVector, vectorBytes]; exact elems_as h⟩
  | .rect _, h => ⟨1, by rw [FitsVector] at h; rw [IsVector, vectorBytes]; exact elems_as h⟩
  | .vector vs, h => by
      rw [FitsVector] at h
      obtain ⟨d, hd⟩ := isVectors_bytes vs h.2
      exact ⟨d + 1, by rw [IsVector, vectorBytes]; exact ⟨_, h.1, hd, rfl⟩⟩
  | .propertiesMap ms, h => by
      rw [FitsVector] at h
      obtain ⟨d, hd⟩ := isNesteds_bytes ms h.2
      exact ⟨d + 1, by rw [IsVector, vectorBytes]; exact ⟨_, h.1, hd, rfl⟩⟩
  | .uuid _, h => ⟨1, by rw [FitsVector] at h; rw [IsVector, vectorBytes]; exact elems_as h⟩

theorem isValues_bytes : ∀ vs, FitsValues vs → ∃ d, Seq (IsValue false d) vs (valuesBytes vs)
  | [], _ => ⟨0, by rw [valuesBytes]; exact .nil⟩
  | v :: vs, h => by
      rw [FitsValues] at h
      rw [valuesBytes]
      exact seq_depth (fun d' d => (depth_change false false d' d).1) (isValue_bytes v h.1) (isValues_bytes vs h.2)

theorem isVectors_bytes : ∀ vs, FitsVectors vs → ∃ d, Seq (IsVector false d) vs (vectorsBytes vs)
  | [], _ => ⟨0, by rw [vectorsBytes]; exact .nil⟩
  | v :: vs, h => by
      rw [FitsVectors] at h
      rw [vectorsBytes]
      exact seq_depth (fun d' d => (depth_change false false d' d).2.1) (isVector_bytes v h.1) (isVectors_bytes vs h.2)

theorem isNesteds_bytes : ∀ ms, FitsNesteds ms → ∃ d, Seq (IsMap false false d) ms (mapsBytes ms)
  | [], _ => ⟨0, by rw [mapsBytes]; exact .nil⟩
  | m :: ms, h => by
      rw [FitsNesteds] at h
      rw [mapsBytes]
      exact seq_depth (fun d' d => (depth_change false false d' d).2.2.1) (isNested_bytes m h.1) (isNesteds_bytes ms h.2)

theorem isNested_bytes : ∀ m, FitsNested m → ∃ d, IsMap false false d m (mapBytes m)
  | .mk key props, h => by
      rw [FitsNested] at h
      obtain ⟨d, hd⟩ := isProps_bytes props h.2.2
      exact ⟨d + 1, by rw [IsMap, mapBytes]; exact ⟨[], _, ⟨rfl, h.1⟩, h.2.1, hd, rfl⟩⟩

theorem isProps_bytes : ∀ ps, FitsProps ps → ∃ d, Seq (IsProperty false d) ps (propsBytes ps)
  | [], _ => ⟨0, by rw [propsBytes]; exact .nil⟩
  | p :: ps, h => by
      rw [FitsProps] at h
      rw [propsBytes]
      exact seq_depth (fun d' d => (depth_change false false d' d).2.2.2) (isProp_bytes p h.1) (isProps_bytes ps h.2)

theorem isProp_bytes : ∀ p, FitsProp p → ∃ d, IsProperty false d p (propBytes p)
  | .mk name v, h => by
      rw [FitsProp] at h
      obtain ⟨d, hd⟩ := isValue_bytes v h.2
      exact ⟨d + 1, by rw [IsProperty, propBytes]; exact ⟨_, h.1, hd, rfl⟩⟩

end

theorem isMap_bytes (m : PropertiesMap) (h : FitsMap m) : ∃ d, IsMap false true d m (keyedMapBytes m) := by
  obtain ⟨key, props⟩ := m
  obtain ⟨d, hd⟩ := isProps_bytes props h.2
  refine ⟨d + 1, ?_⟩
  rw [IsMap, keyedMapBytes, mapBytes]
  exact ⟨_, _, rfl, h.1, hd, by simp [List.append_assoc]⟩

theorem isMaps_bytes (ms : List PropertiesMap) (h : ∀ m ∈ ms, FitsMap m) :
    ∃ d, Seq (IsMap false true d) ms (ms.flatMap keyedMapBytes) := by
  induction ms with
  | nil => exact ⟨0, .nil⟩
  | cons m ms ih =>
    exact seq_depth (fun d' d => (depth_change false true d' d).2.2.1) (isMap_bytes m (h m (by simp)))
      (ih fun m hm => h m (by simp [hm]))

theorem isProperties_bytes {v : Bytes × List PropertiesMap} (hn : v.2.length < 2 ^ 32) (h : ∀ m ∈ v.2, FitsMap m)
    (hl : (propertiesBytes v).length < 2 ^ 32) : IsProperties false v (propertiesBytes v) := by
  obtain ⟨d, hd⟩ := isMaps_bytes v.2 h
  refine ⟨d, _, ?_, hn, hd, rfl⟩
  simp [propertiesBytes, leNat32, leBytes] at hl ⊢
  omega

theorem userData_flags (a b c : Bool) :
    let f : UInt32 := (if a then 1 else 0) ||| (if b then 2 else 0) ||| (if c then 4 else 0)
    (bit32 f 0 ↔ a = true) ∧ (bit32 f 1 ↔ b = true) ∧ (bit32 f 2 ↔ c = true) := by
  simp only [bit32]
  cases a <;> cases b <;> cases c <;> decide

/-- The parsed properties maps without the possibility of an error. -/
def okProps (c : UserDataChunk) : Option (Bytes × List PropertiesMap) :=
  match c.propertiesMaps with
  | some (.ok v) => some v
  | _ => none

theorem isUserData_bytes {c : UserDataChunk} (h : FitsUserData c) (hl : (userDataBytes c).length < 2 ^ 32) :
    IsUserData false c.text c.color (okProps c) (userDataBytes c) := by
  obtain ⟨h1, h2⟩ := h
  obtain ⟨f1, f2, f3⟩ := userData_flags c.text.isSome c.color.isSome c.propertiesMaps.isSome
  refine ⟨_, _, _, _, ?_, opt_map f2.symm, ?_, rfl⟩
  · cases ht : c.text with
    | none => exact ⟨fun hp => by simp [ht] at f1; exact f1 (by simpa [ht] using hp), rfl⟩
    | some s => exact ⟨by simpa [ht] using f1, h1 s ht, rfl⟩
  · unfold okProps
    cases hp : c.propertiesMaps with
    | none => exact ⟨fun h => by simp [hp] at f3; exact f3 (by simpa [hp] using h), rfl⟩
    | some x =>
      obtain ⟨v, rfl, h3, h4⟩ := h2 x hp
      refine ⟨by simpa [hp] using f3, isProperties_bytes h3 h4 ?_⟩
      simp [userDataBytes, hp] at hl
      omega

end Ase
