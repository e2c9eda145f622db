import Verif.Spec.Rewrite
import Verif.Props.RoundTrip

/-! # What was read can be written (C121) -/

namespace Ase
open Spec

/-! ## Sequences -/

theorem seq_rewrite {α : Type} {G G' : α → Bytes → Prop} {enc : α → Bytes} {xs : List α} {l : Bytes} (h : Seq G xs l)
    (hq : ∀ x ∈ xs, ∀ l', G x l' → G' x (enc x) ∧ (enc x).length ≤ l'.length) :
    Seq G' xs (xs.flatMap enc) ∧ (xs.flatMap enc).length ≤ l.length := by
  induction h with
  | nil => exact ⟨.nil, Nat.le_refl _⟩
  | @cons x xs b bs hx _ ih =>
    obtain ⟨h1, h2⟩ := hq x (by simp) b hx
    obtain ⟨h3, h4⟩ := ih fun y hy => hq y (by simp [hy])
    rw [List.flatMap_cons]
    exact ⟨.cons h1 h3, by simp only [List.length_append]; omega⟩

theorem elems_rewrite {α : Type} {G : α → Bytes → Prop} {enc : α → Bytes} {c : UInt16} {xs : List α} {l : Bytes}
    (h : Elems c G xs l) (hq : ∀ x ∈ xs, ∀ l', G x l' → G x (enc x) ∧ (enc x).length ≤ l'.length) :
    Elems c G xs (elems c enc xs) ∧ (elems c enc xs).length ≤ l.length := by
  obtain ⟨e, h1, h2, rfl⟩ := h
  obtain ⟨h3, h4⟩ := seq_rewrite h2 hq
  refine ⟨⟨_, h1, h3, rfl⟩, ?_⟩
  simp only [elems, List.length_append]
  omega

theorem as_rewrite {α : Type} {enc : α → Bytes} {x : α} {l : Bytes} (h : As enc x l) :
    As enc x (enc x) ∧ (enc x).length ≤ l.length := by
  cases h
  exact ⟨rfl, Nat.le_refl _⟩

theorem elems_as_rewrite {α : Type} {enc : α → Bytes} {c : UInt16} {xs : List α} {l : Bytes}
    (h : Elems c (As enc) xs l) : Elems c (As enc) xs (elems c enc xs) ∧ (elems c enc xs).length ≤ l.length :=
  elems_rewrite h fun _ _ _ => as_rewrite

theorem bool_rewrite {b : Bool} {l : Bytes} (h : IsBool b l) : IsBool b (boolByte b) ∧ (boolByte b).length ≤ l.length := by
  obtain ⟨c, -, rfl⟩ := h
  exact ⟨isBool_byte b, by simp [boolByte]⟩

theorem str_rewrite {s : String} {l : Bytes} (h : IsStr s l) : IsStr s (str s) ∧ (str s).length ≤ l.length := by
  obtain ⟨h, rfl⟩ := h
  exact ⟨⟨h, rfl⟩, Nat.le_refl _⟩

theorem valuesBytes_eq (vs : List Value) : valuesBytes vs = vs.flatMap valueBytes := by
  induction vs with
  | nil => rw [valuesBytes]; rfl
  | cons v vs ih => rw [valuesBytes, ih, List.flatMap_cons]

theorem vectorsBytes_eq (vs : List PVector) : vectorsBytes vs = vs.flatMap vectorBytes := by
  induction vs with
  | nil => rw [vectorsBytes]; rfl
  | cons v vs ih => rw [vectorsBytes, ih, List.flatMap_cons]

theorem propsBytes_eq (ps : List Property) : propsBytes ps = ps.flatMap propBytes := by
  induction ps with
  | nil => rw [propsBytes]; rfl
  | cons v vs ih => rw [propsBytes, ih, List.flatMap_cons]

/-! ## Property values -/

theorem value_rewrite (d : Nat) :
    (∀ v l, mapFree v = true → IsValue true d v l → IsValue true d v (valueBytes v) ∧ (valueBytes v).length ≤ l.length) ∧
    (∀ v l, vectorMapFree v = true → IsVector true d v l →
      IsVector true d v (vectorBytes v) ∧ (vectorBytes v).length ≤ l.length) := by
  induction d with
  | zero => refine ⟨?_, ?_⟩ <;> intro v l _ h <;> simp only [IsValue, IsVector] at h
  | succ d ih =>
    obtain ⟨ih1, ih2⟩ := ih
    refine ⟨?_, ?_⟩
    · intro v l hf h
      cases v with
      | bool b =>
        simp only [IsValue] at h ⊢
        obtain ⟨e, h, rfl⟩ := h
        obtain ⟨h1, h2⟩ := bool_rewrite h
        rw [valueBytes]
        exact ⟨⟨_, h1, rfl⟩, by simp only [List.length_append]; omega⟩
      | vector v =>
        simp only [IsValue] at h ⊢
        obtain ⟨e, h, rfl⟩ := h
        obtain ⟨h1, h2⟩ := ih2 _ _ (by simpa [mapFree] using hf) h
        rw [valueBytes]
        exact ⟨⟨_, h1, rfl⟩, by simp only [List.length_append]; omega⟩
      | mixedVector => simp only [IsValue] at h
      | propertiesMap v => simp [mapFree] at hf
      | string s =>
        simp only [IsValue] at h ⊢
        obtain ⟨h, rfl⟩ := h
        rw [valueBytes]
        exact ⟨⟨h, rfl⟩, Nat.le_refl _⟩
      | _ =>
        simp only [IsValue] at h ⊢
        subst h
        rw [valueBytes]
        exact ⟨rfl, Nat.le_refl _⟩
    · intro v l hf h
      cases v with
      | mixed v =>
        simp only [IsVector] at h ⊢
        rw [vectorMapFree, valuesMapFree_iff] at hf
        rw [vectorBytes, valuesBytes_eq]
        exact elems_rewrite h fun x hx l' => ih1 _ _ (hf x hx)
      | vector v =>
        simp only [IsVector] at h ⊢
        rw [vectorMapFree, vectorsMapFree_iff] at hf
        rw [vectorBytes, vectorsBytes_eq]
        exact elems_rewrite h fun x hx l' => ih2 _ _ (hf x hx)
      | propertiesMap v => simp [vectorMapFree] at hf
      | bool v => simp only [IsVector] at h ⊢; rw [vectorBytes]; exact elems_rewrite h fun _ _ _ => bool_rewrite
      | string v => simp only [IsVector] at h ⊢; rw [vectorBytes]; exact elems_rewrite h fun _ _ _ => str_rewrite
      | _ => simp only [IsVector] at h ⊢; rw [vectorBytes]; exact elems_as_rewrite h

theorem map_rewrite {d : Nat} {m : PropertiesMap} {l : Bytes} (hf : propsMapFree m = true) (h : IsMap true true d m l) :
    IsMap true true d m (keyedMapBytes m) ∧ (keyedMapBytes m).length ≤ l.length := by
  cases d with
  | zero => simp only [IsMap] at h
  | succ d =>
  obtain ⟨key, props⟩ := m
  simp only [IsMap, if_true] at h ⊢
  obtain ⟨kb, e, rfl, h2, h3, rfl⟩ := h
  rw [propsMapFree, List.all_eq_true] at hf
  obtain ⟨h4, h5⟩ := seq_rewrite (G' := IsProperty true d) (enc := propBytes) h3 fun x hx l' h => by
    have hx := hf x hx
    obtain ⟨n, v⟩ := x
    cases d with
    | zero => simp only [IsProperty] at h
    | succ d =>
      simp only [IsProperty] at h ⊢
      obtain ⟨e, h1, h2, rfl⟩ := h
      obtain ⟨h3, h4⟩ := (value_rewrite d).1 _ _ hx h2
      rw [propBytes]
      exact ⟨⟨_, h1, h3, rfl⟩, by simp only [List.length_append]; omega⟩
  have e' : keyedMapBytes (.mk key props) = le32 key ++ leNat32 props.length ++ props.flatMap propBytes := by
    simp only [keyedMapBytes, mapBytes, propsBytes_eq, List.append_assoc]
  rw [e']
  exact ⟨⟨_, _, rfl, h2, h4, rfl⟩, by simp only [List.length_append]; omega⟩

/-! ## Chunks -/

theorem userData_rewrite {plat : Plat} {c : UserDataChunk} {body : Bytes} (hl : body.length < 2 ^ 32)
    (hf : ReadFaithfully (.userData c)) (h : readsUserData plat c body) :
    readsUserData plat c (userDataBytes c) ∧ (userDataBytes c).length ≤ body.length := by
  obtain ⟨extra, h⟩ := h
  obtain ⟨flags, t, k, p, h1, h2, h3, e⟩ := (parseUserDataChunk_ok (by omega)).1 h
  have ht : (c.text.map str).getD [] = t := by
    cases hc : c.text with
    | none => rw [hc] at h1; exact h1.2.symm
    | some s => rw [hc] at h1; exact h1.2.2.symm
  have hk : (c.color.map color).getD [] = k := by
    cases hc : c.color with
    | none => rw [hc] at h2; exact h2.2.symm
    | some s => rw [hc] at h2; exact h2.2.symm
  have hp : ∃ p', (match c.propertiesMaps with | some (.ok v) => propertiesBytes v | _ => []) = p' ∧
      p'.length ≤ p.length ∧ ∀ q : Prop, (q ↔ c.propertiesMaps.isSome) → Opt q (PropsOutcome plat) c.propertiesMaps p' := by
    cases hc : c.propertiesMaps with
    | none => exact ⟨[], rfl, Nat.zero_le _, fun q hq => ⟨by simpa using hq, rfl⟩⟩
    | some x =>
      obtain ⟨v, rfl, hm⟩ := hf x hc
      rw [hc] at h3
      obtain ⟨-, n, payload, h4, h5, rfl, h6⟩ := h3
      obtain ⟨rest, ms⟩ := v
      obtain ⟨rfl, e', h7, rfl⟩ := ((parses_all plat.stack).2.2.1.count _ _ _ _).1 h6
      obtain ⟨h8, h9⟩ := seq_rewrite (enc := keyedMapBytes) h7 fun m hm' l' h => map_rewrite (hm m hm') h
      simp only [List.length_append] at h4
      refine ⟨_, rfl, ?_, fun q hq => ⟨by simpa using hq, ?_⟩⟩
      · simp only [propertiesBytes, leNat32, List.length_append]
        simp only [leBytes, List.length_cons, List.length_nil]
        omega
      · refine ⟨ms.length, ms.flatMap keyedMapBytes ++ rest, ?_, h5, ?_, ?_⟩
        · simp only [List.length_append]; omega
        · simp only [propertiesBytes, List.length_append, Nat.add_assoc, List.append_assoc]
        · exact ((parses_all plat.stack).2.2.1.count _ _ _ _).2 ⟨rfl, _, h8, rfl⟩
  obtain ⟨p', e1, e2, h4⟩ := hp
  have hud : userDataBytes c = le32 ((if c.text.isSome then 1 else 0) ||| (if c.color.isSome then 2 else 0) |||
      (if c.propertiesMaps.isSome then 4 else 0)) ++ t ++ k ++ p' := by rw [← ht, ← hk, ← e1]; rfl
  have hlen : (userDataBytes c).length ≤ body.length := by
    have := congrArg List.length e
    simp only [hud, le32, leBytes, List.length_append, List.length_cons, List.length_nil] at this ⊢
    omega
  refine ⟨⟨[], (parseUserDataChunk_ok (by omega)).2 ?_⟩, hlen⟩
  have hb := userData_flags c.text.isSome c.color.isSome c.propertiesMaps.isSome
  refine ⟨_, t, k, p', ?_, ?_, h4 _ hb.2.2, ?_⟩
  · cases hc : c.text with
    | none => rw [hc] at h1 hb; exact ⟨by simpa using hb.1, h1.2⟩
    | some s => rw [hc] at h1 hb; exact ⟨by simpa using hb.1, h1.2⟩
  · cases hc : c.color with
    | none => rw [hc] at h2 hb; exact ⟨by simpa using hb.2.1, h2.2⟩
    | some s => rw [hc] at h2 hb; exact ⟨by simpa using hb.2.1, h2.2⟩
  · rw [hud, List.append_nil]

theorem decode_fits {ω α : Type} [BEq ω] [LawfulBEq ω] {table : List (ω × α)} {unknown : ω → α} {Fit : α → Prop} {w : ω}
    (ht : ∀ x ∈ table, Fit x.2) (hu : table.lookup w = none → Fit (unknown w)) : Fit (decodeBy table unknown w) := by
  unfold decodeBy
  cases hl : table.lookup w with
  | none => exact hu hl
  | some m => exact ht _ (mem_of_lookup hl)

theorem colorDepth_read (w : UInt16) : FitsColorDepth (colorDepthOf w) :=
  decode_fits (by simp [colorDepths, FitsColorDepth]) fun h => h

theorem layerType_read (w : UInt16) : FitsLayerType (layerTypeOf w) :=
  decode_fits (by simp [layerTypes, FitsLayerType]) fun h => h

theorem blendMode_read {w : UInt16} (h : blendModeOf w ≠ .unknown 0) : FitsBlendMode (blendModeOf w) := by
  unfold blendModeOf at h ⊢
  split
  · rename_i hw; rw [if_pos hw] at h; exact absurd rfl h
  · rename_i hw; exact decode_fits (by simp [blendModes, FitsBlendMode]) fun h => ⟨h, hw⟩

theorem direction_read {w : UInt8} (h : animationDirectionOf w ≠ .unknown 0) : FitsDirection (animationDirectionOf w) := by
  unfold animationDirectionOf at h ⊢
  split
  · rename_i hw; rw [if_pos hw] at h; exact absurd rfl h
  · rename_i hw; exact decode_fits (by simp [animationDirections, FitsDirection]) fun h => ⟨h, hw⟩

theorem externalType_read {w : UInt8} (h : externalFileTypeOf w ≠ .unknown 0) :
    FitsExternalType (externalFileTypeOf w) := by
  unfold externalFileTypeOf at h ⊢
  split
  · rename_i hw; rw [if_pos hw] at h; exact absurd rfl h
  · rename_i hw; exact decode_fits (by simp [externalFileTypes, FitsExternalType]) fun h => ⟨h, hw⟩

theorem celType_read {w t : UInt16} (h : celTypeOf w = .unknown t) (h0 : t ≠ 0) : Unlisted celTypes 4 t := by
  unfold celTypeOf at h
  split at h
  · cases h; exact absurd rfl h0
  · rename_i hw
    unfold decodeBy at h
    cases hl : celTypes.lookup w with
    | none => rw [hl] at h; cases h; exact ⟨hl, hw⟩
    | some m =>
      rw [hl] at h
      have : ∀ x ∈ celTypes, x.2 ≠ .unknown t := by simp [celTypes]
      exact absurd h (this _ (mem_of_lookup hl))

theorem profileType_read {w t : UInt16} (h : colorProfileTypeOf w = .unknown t) (h0 : t ≠ 0) :
    Unlisted colorProfileTypes 3 t := by
  unfold colorProfileTypeOf at h
  split at h
  · cases h; exact absurd rfl h0
  · rename_i hw
    unfold decodeBy at h
    cases hl : colorProfileTypes.lookup w with
    | none => rw [hl] at h; cases h; exact ⟨hl, hw⟩
    | some m =>
      rw [hl] at h
      have : ∀ x ∈ colorProfileTypes, x.2 ≠ .unknown t := by simp [colorProfileTypes]
      exact absurd h (this _ (mem_of_lookup hl))

theorem and_le16 (w m : UInt16) : w &&& m ≤ m := by
  rw [UInt16.le_iff_toNat_le, UInt16.toNat_and]
  exact Nat.and_le_right

theorem and_le32 (w m : UInt32) : w &&& m ≤ m := by
  rw [UInt32.le_iff_toNat_le, UInt32.toNat_and]
  exact Nat.and_le_right

theorem layer_rewrite {c : LayerChunk} {l : Bytes} (hf : c.blendMode ≠ .unknown 0) (h : IsLayer c l) :
    FitsLayer c ∧ (layerBytes c).length ≤ l.length := by
  obtain ⟨flags, type, dw, dh, blend, future, tileset, h1, h2, h3, h4, h5, h6, h7, rfl⟩ := h
  have ht : layerTypeOf type = .tilemap ↔ type = 2 := by
    unfold layerTypeOf decodeBy
    rcases Nat.lt_or_ge type.toNat 3 with hlt | hge
    · have : ∀ n : Fin 3, (layerTypes.lookup (UInt16.ofNat n)).getD (.unknown (UInt16.ofNat n)) = .tilemap ↔
          UInt16.ofNat n = 2 := by decide
      have := this ⟨type.toNat, hlt⟩
      simpa using this
    · have h0 : type ≠ 0 := by rintro rfl; simp at hge
      have h1 : type ≠ 1 := by rintro rfl; simp at hge
      have h2 : type ≠ 2 := by rintro rfl; simp at hge
      have : layerTypes.lookup type = none := by
        simp only [layerTypes, List.lookup, beq_eq_false_iff_ne.2 h0, beq_eq_false_iff_ne.2 h1, beq_eq_false_iff_ne.2 h2]
      rw [this]
      simp [h2]
  have hts : c.tilesetIndex.isSome ↔ c.layerType = .tilemap := by
    rw [h4, ht]
    cases hc : c.tilesetIndex with
    | none => rw [hc] at h6; simp [h6.1]
    | some x => rw [hc] at h6; simp [h6.1]
  refine ⟨⟨by rw [h3]; exact and_le16 _ _, by rw [h4]; exact layerType_read _, by rw [h5] at hf ⊢; exact blendMode_read hf,
    h2, hts, h7⟩, ?_⟩
  have : (c.tilesetIndex.map le32).getD [] = tileset := by
    cases hc : c.tilesetIndex with
    | none => rw [hc] at h6; exact h6.2.symm
    | some s => rw [hc] at h6; exact h6.2.symm
  simp only [layerBytes, this, zeros, le16, leBytes, List.length_append, List.length_cons, List.length_nil,
    List.length_replicate]
  omega

theorem cel_rewrite {c : CelChunk} {l : Bytes} (hf : ∀ data, c.content ≠ .unknown 0 data) (h : IsCel c l) :
    FitsCel c ∧ (celBytes c).length ≤ l.length := by
  obtain ⟨type, future, body, h1, h2, h3, rfl⟩ := h
  refine ⟨⟨fun t d hc => ?_, h3⟩, ?_⟩
  · rw [hc] at h2
    exact celType_read h2.1 fun h0 => hf d (by rw [hc, h0])
  · have : (celContentBytes c.content).length ≤ body.length := by
      unfold IsCelBody at h2
      split at h2 <;> rename_i hc <;> rw [hc] <;> simp only [celContentBytes]
      · rw [h2.2]; exact Nat.le_refl _
      · obtain ⟨-, extra, rfl⟩ := h2; simp
      · obtain ⟨-, r, hr, rfl⟩ := h2; simp [zeros, hr]; omega
      · rw [h2.2]; exact Nat.le_refl _
    simp only [celBytes, zeros, le16, les16, leBytes, List.length_append, List.length_cons, List.length_nil,
      List.length_replicate]
    omega

theorem colorProfile_rewrite {c : ColorProfileChunk} {l : Bytes} (hf : c.profile ≠ .unknown 0) (h : IsColorProfile c l) :
    FitsColorProfile c ∧ (colorProfileBytes c).length ≤ l.length := by
  obtain ⟨type, flags, gamma, reserved, icc, h1, h2, h3, rfl⟩ := h
  obtain ⟨fg, profile⟩ := c
  cases profile with
  | noColorProfile =>
    refine ⟨trivial, ?_⟩
    cases fg <;> simp [colorProfileBytes, zeros, le16, leBytes, Spec.fixed, h1] <;> omega
  | srgb =>
    refine ⟨trivial, ?_⟩
    cases fg <;> simp [colorProfileBytes, zeros, le16, leBytes, Spec.fixed, h1] <;> omega
  | embeddedICC data =>
    obtain ⟨-, hl, rfl⟩ := h3
    refine ⟨hl, ?_⟩
    cases fg <;> simp [colorProfileBytes, zeros, le16, leBytes, Spec.fixed, h1] <;> omega
  | unknown t =>
    refine ⟨profileType_read h3.1 fun h0 => hf (by rw [h0]), ?_⟩
    cases fg <;> simp [colorProfileBytes, zeros, le16, leBytes, Spec.fixed, h1] <;> omega

theorem seq_fits {α : Type} {G : α → Bytes → Prop} {Fit : α → Prop} {enc : α → Bytes} {xs : List α} {l : Bytes}
    (h : Seq G xs l) (hq : ∀ x ∈ xs, ∀ l', G x l' → Fit x ∧ (enc x).length ≤ l'.length) :
    (∀ x ∈ xs, Fit x) ∧ (xs.flatMap enc).length ≤ l.length := by
  induction h with
  | nil => exact ⟨by simp, Nat.le_refl _⟩
  | @cons x xs b bs hx _ ih =>
    obtain ⟨h1, h2⟩ := hq x (by simp) b hx
    obtain ⟨h3, h4⟩ := ih fun y hy => hq y (by simp [hy])
    rw [List.flatMap_cons]
    exact ⟨by simpa using ⟨h1, h3⟩, by simp only [List.length_append]; omega⟩

theorem externalFiles_rewrite {c : ExternalFilesChunk} {l : Bytes} (hf : ∀ f ∈ c.files, f.fileType ≠ .unknown 0)
    (h : IsExternalFiles c l) : FitsExternalFiles c ∧ (externalFilesBytes c).length ≤ l.length := by
  obtain ⟨reserved, entries, h1, h2, h3, rfl⟩ := h
  obtain ⟨h4, h5⟩ := seq_fits (Fit := fun f => FitsExternalType f.fileType ∧ FitsStr f.fileName) (enc := externalFileBytes) h3
    fun f hm l' ⟨type, res, g1, g2, g3, g4⟩ => by
      refine ⟨⟨?_, g2⟩, ?_⟩
      · have := hf f hm
        rw [g3] at this ⊢
        exact externalType_read this
      · rw [g4]; simp [externalFileBytes, zeros, g1]; omega
  refine ⟨⟨h2, h4⟩, ?_⟩
  simp only [externalFilesBytes, zeros, List.length_append, List.length_replicate]
  omega

theorem tags_rewrite {c : TagsChunk} {l : Bytes} (hf : ∀ t ∈ c.tags, t.animationDirection ≠ .unknown 0)
    (h : IsTags c l) : FitsTags c ∧ (tagsBytes c).length ≤ l.length := by
  obtain ⟨reserved, entries, h1, h2, h3, rfl⟩ := h
  obtain ⟨h4, h5⟩ := seq_fits (Fit := fun t => FitsDirection t.animationDirection ∧ FitsStr t.name ∧
      t.framesStart.toNat ≤ t.framesEnd.toNat ∧ t.userData = none) (enc := tagBytes) h3
    fun t hm l' ⟨dir, extra, fut, g1, g2, g3, g4, g5, g6⟩ => by
      refine ⟨⟨?_, g2, g3, g5⟩, ?_⟩
      · have := hf t hm
        rw [g4] at this ⊢
        exact direction_read this
      · rw [g6]; simp [tagBytes, zeros, g1]; omega
  refine ⟨⟨h2, h4⟩, ?_⟩
  simp only [tagsBytes, zeros, List.length_append, List.length_replicate]
  omega

theorem palette_rewrite {c : PaletteChunk} {l : Bytes} (h : IsPalette c.entries.length c l) :
    FitsPalette c ∧ (paletteBytes c).length ≤ l.length := by
  obtain ⟨future, entries, h1, h2, h3, h4, rfl⟩ := h
  obtain ⟨h5, h6⟩ := seq_fits (Fit := fun e => ∀ n, e.name = some n → FitsStr n) (enc := paletteEntryBytes) h4
    fun e hm l' ⟨flags, name, g1, g2⟩ => by
      cases hn : e.name with
      | none => exact ⟨by simp, by rw [g2]; simp [paletteEntryBytes, hn, le16, leBytes]⟩
      | some n =>
        rw [hn] at g1
        obtain ⟨-, g3, rfl⟩ := g1
        exact ⟨by rintro _ ⟨⟩; exact g3, by rw [g2]; simp [paletteEntryBytes, hn, le16, leBytes]⟩
  refine ⟨⟨h2, h3, h5⟩, ?_⟩
  simp only [paletteBytes, zeros, List.length_append, List.length_replicate]
  omega

theorem oldPalette_rewrite {c : OldPaletteChunk} {l : Bytes} (h : IsOldPalette c l) :
    FitsOldPalette c ∧ (oldPaletteBytes c).length ≤ l.length := by
  obtain ⟨packets, h1, h2, rfl⟩ := h
  obtain ⟨h5, h6⟩ := seq_fits (Fit := fun p => 1 ≤ p.colors.length ∧ p.colors.length ≤ 256) (enc := packetBytes) h2
    fun p hm l' ⟨colors, g1, g2, g3, g4⟩ => by
      obtain ⟨-, g5⟩ := seq_fits (Fit := fun _ => True) (enc := rgb) g3 fun x _ l' h => ⟨trivial, (as_rewrite h).2⟩
      refine ⟨⟨g1, g2⟩, ?_⟩
      rw [g4]
      simp only [packetBytes, List.length_append, List.length_cons, List.length_nil]
      omega
  refine ⟨⟨h1, h5⟩, ?_⟩
  simp only [oldPaletteBytes, List.length_append]
  omega

theorem bit_and {w m : UInt32} {i : Nat} (h : m.toNat.testBit i = true) : bit32 (w &&& m) i ↔ bit32 w i := by
  unfold bit32
  rw [UInt32.toNat_and, Nat.testBit_and, h, Bool.and_true]

theorem opt_isSome {α : Type} {p : Prop} {G : α → Bytes → Prop} {x : Option α} {l : Bytes} (h : Opt p G x l) :
    x.isSome ↔ p := by
  cases x with
  | none => simp [h.1]
  | some y => simp [h.1]

theorem opt_as_length {α : Type} {p : Prop} {enc : α → Bytes} {x : Option α} {l : Bytes} (h : Opt p (As enc) x l) :
    (x.map enc).getD [] = l := by
  cases x with
  | none => exact h.2.symm
  | some y => exact h.2.symm

theorem slice_rewrite {c : SliceChunk} {l : Bytes} (h : IsSlice c l) : FitsSlice c ∧ (sliceBytes c).length ≤ l.length := by
  obtain ⟨flags, reserved, keys, h1, h2, h3, h4, h5, rfl⟩ := h
  obtain ⟨h6, h7⟩ := seq_fits (Fit := fun k => (k.ninePatch.isSome ↔ bit32 c.flags.bits 0) ∧
      (k.pivot.isSome ↔ bit32 c.flags.bits 1)) (enc := sliceKeyBytes) h5
    fun k hm l' ⟨nine, piv, g1, g2, g3⟩ => by
      rw [h3, bit_and (by decide), bit_and (by decide)]
      refine ⟨⟨opt_isSome g1, opt_isSome g2⟩, ?_⟩
      rw [g3]
      simp only [sliceKeyBytes, opt_as_length g1, opt_as_length g2]
      exact Nat.le_refl _
  refine ⟨⟨h1, by rw [h3]; exact and_le32 _ _, h2, h4, h6⟩, ?_⟩
  simp only [sliceBytes, zeros, le32, leBytes, List.length_append, List.length_replicate, List.length_cons, List.length_nil]
  omega

theorem tileset_rewrite {c : TilesetChunk} {l : Bytes} (h : IsTileset c l) :
    FitsTileset c ∧ (tilesetBytes c).length ≤ l.length := by
  obtain ⟨flags, reserved, ext, tiles, h1, h2, h3, h4, h5, rfl⟩ := h
  refine ⟨⟨by rw [h3]; exact and_le32 _ _, h2, ?_, ?_, ?_⟩, ?_⟩
  · rw [h3, bit_and (by decide)]; exact opt_isSome h4
  · rw [h3, bit_and (by decide)]; exact opt_isSome h5
  · intro d hd
    rw [hd] at h5
    exact h5.2.1
  · cases ht : c.tiles with
    | none =>
      rw [ht] at h5
      simp only [tilesetBytes, ht, opt_as_length h4, zeros, le32, leBytes, List.length_append, List.length_replicate,
        List.length_cons, List.length_nil]
      omega
    | some d =>
      rw [ht] at h5
      obtain ⟨-, -, rfl⟩ := h5
      simp only [tilesetBytes, ht, opt_as_length h4, zeros, le32, leBytes, List.length_append, List.length_replicate,
        List.length_cons, List.length_nil]
      omega

theorem content_rewrite {plat : Plat} {c : Chunk} {code : UInt16} {body : Bytes} (hl : body.length < 2 ^ 32)
    (hf : ReadFaithfully c) (h : IsContent (readsUserData plat) c code body) :
    IsContent (readsUserData plat) (readAs c) (chunkCode c) (contentBytes c) ∧ (contentBytes c).length ≤ body.length := by
  cases c with
  | palette0004 c =>
    obtain ⟨-, l, extra, h, rfl⟩ := h
    obtain ⟨h1, h2⟩ := oldPalette_rewrite h
    exact ⟨⟨rfl, _, [], isOldPalette_bytes h1, by simp [contentBytes]⟩, by simp only [contentBytes, List.length_append]; omega⟩
  | palette0011 c =>
    obtain ⟨-, l, extra, h, rfl⟩ := h
    obtain ⟨h1, h2⟩ := oldPalette_rewrite h
    exact ⟨⟨rfl, _, [], isOldPalette_bytes h1, by simp [contentBytes]⟩, by simp only [contentBytes, List.length_append]; omega⟩
  | layer c =>
    obtain ⟨-, l, extra, h, rfl⟩ := h
    obtain ⟨h1, h2⟩ := layer_rewrite hf h
    exact ⟨⟨rfl, _, [], isLayer_bytes h1, by simp [contentBytes]⟩, by simp only [contentBytes, List.length_append]; omega⟩
  | cel c =>
    obtain ⟨-, h⟩ := h
    obtain ⟨h1, h2⟩ := cel_rewrite (c := { c with content := swapFlips c.content }) (fun data hc => by
      refine hf data ?_
      obtain ⟨_, _, _, _, _, content, _⟩ := c
      cases content <;> cases hc <;> rfl) h
    have hb : (celBytes { c with content := swapFlips c.content }).length = (celBytes c).length := by
      obtain ⟨_, _, _, _, _, content, _⟩ := c
      cases content <;> simp [celBytes, swapFlips, celContentBytes, celCode, le16, le32, leBytes]
    have h3 : FitsCel c := by
      refine ⟨fun t d hc => h1.1 t d ?_, h1.2⟩
      simp only [hc, swapFlips]
    refine ⟨⟨rfl, ?_⟩, Nat.le_trans (Nat.le_of_eq hb.symm) h2⟩
    rw [show swapFlips (swapFlips c.content) = c.content by cases c.content <;> rfl]
    exact isCel_bytes h3
  | celExtra c =>
    obtain ⟨-, flags, h1, rfl⟩ := h
    refine ⟨⟨rfl, isCelExtra_bytes (by rw [h1]; exact and_le32 _ _)⟩, ?_⟩
    simp [contentBytes, celExtraBytes, le32, leBytes]
  | colorProfile c =>
    obtain ⟨-, l, extra, h, rfl⟩ := h
    obtain ⟨h1, h2⟩ := colorProfile_rewrite hf h
    exact ⟨⟨rfl, _, [], isColorProfile_bytes h1, by simp [contentBytes]⟩, by simp only [contentBytes, List.length_append]; omega⟩
  | externalFiles c =>
    obtain ⟨-, l, extra, h, rfl⟩ := h
    obtain ⟨h1, h2⟩ := externalFiles_rewrite hf h
    exact ⟨⟨rfl, _, [], isExternalFiles_bytes h1, by simp [contentBytes]⟩, by simp only [contentBytes, List.length_append]; omega⟩
  | mask c =>
    obtain ⟨-, future, h1, h2, rfl⟩ := h
    exact ⟨⟨rfl, isMask_bytes h2⟩, by simp [contentBytes, maskBytes, zeros, h1]; omega⟩
  | path => exact ⟨rfl, by simp [contentBytes]⟩
  | tags c =>
    obtain ⟨-, l, extra, h, rfl⟩ := h
    obtain ⟨h1, h2⟩ := tags_rewrite hf h
    exact ⟨⟨rfl, _, [], isTags_bytes h1, by simp [contentBytes]⟩, by simp only [contentBytes, List.length_append]; omega⟩
  | palette c =>
    obtain ⟨-, l, extra, h, rfl⟩ := h
    obtain ⟨h1, h2⟩ := palette_rewrite h
    exact ⟨⟨rfl, _, [], isPalette_bytes h1, by simp [contentBytes]⟩, by simp only [contentBytes, List.length_append]; omega⟩
  | userData c =>
    obtain ⟨-, h⟩ := h
    obtain ⟨h1, h2⟩ := userData_rewrite hl hf h
    exact ⟨⟨rfl, h1⟩, h2⟩
  | slice c =>
    obtain ⟨-, l, extra, h, rfl⟩ := h
    obtain ⟨h1, h2⟩ := slice_rewrite h
    exact ⟨⟨rfl, _, [], isSlice_bytes h1, by simp [contentBytes]⟩, by simp only [contentBytes, List.length_append]; omega⟩
  | tileset c =>
    obtain ⟨-, l, extra, h, rfl⟩ := h
    obtain ⟨h1, h2⟩ := tileset_rewrite h
    exact ⟨⟨rfl, _, [], isTileset_bytes h1, by simp [contentBytes]⟩, by simp only [contentBytes, List.length_append]; omega⟩
  | unsupported n =>
    obtain ⟨h, rfl⟩ := h
    exact ⟨⟨h, rfl⟩, by simp [contentBytes]⟩

theorem chunk_rewrite {plat : Plat} {c : Chunk} {l : Bytes} (hf : ReadFaithfully c)
    (h : IsChunk (readsUserData plat) c l) :
    IsChunk (readsUserData plat) (readAs c) (chunkBytes c) ∧ (chunkBytes c).length ≤ l.length := by
  obtain ⟨code, body, h1, h2, rfl⟩ := h
  obtain ⟨h3, h4⟩ := content_rewrite (by omega) hf h2
  refine ⟨⟨_, _, by omega, h3, rfl⟩, ?_⟩
  simp only [chunkBytes, leNat32, le16, leBytes, List.length_append, List.length_cons, List.length_nil]
  omega

/-! ## Frames and files -/

theorem seq_rewrite_map {α : Type} {G G' : α → Bytes → Prop} {enc : α → Bytes} {g : α → α} {xs : List α} {l : Bytes}
    (h : Seq G xs l) (hq : ∀ x ∈ xs, ∀ l', G x l' → G' (g x) (enc x) ∧ (enc x).length ≤ l'.length) :
    Seq G' (xs.map g) (xs.flatMap enc) ∧ (xs.flatMap enc).length ≤ l.length := by
  induction h with
  | nil => exact ⟨.nil, Nat.le_refl _⟩
  | @cons x xs b bs hx _ ih =>
    obtain ⟨h1, h2⟩ := hq x (by simp) b hx
    obtain ⟨h3, h4⟩ := ih fun y hy => hq y (by simp [hy])
    rw [List.flatMap_cons, List.map_cons]
    exact ⟨.cons h1 h3, by simp only [List.length_append]; omega⟩

theorem frame_rewrite {plat : Plat} {f : RawFrame} {l : Bytes} (hf : ∀ c ∈ f.chunks, ReadFaithfully c)
    (h : IsFrame (readsUserData plat) f l) :
    IsFrame (readsUserData plat) { f with chunks := f.chunks.map readAs } (frameBytes f) ∧
      (frameBytes f).length ≤ l.length := by
  obtain ⟨old, new, reserved, chunks, extra, h1, h2, h3, h4, rfl⟩ := h
  obtain ⟨h5, h6⟩ := seq_rewrite_map (g := readAs) (enc := chunkBytes) h3 fun c hc l' h => chunk_rewrite (hf c hc) h
  have hn := length_le_chunks f.chunks
  refine ⟨?_, ?_⟩
  · refine ⟨UInt16.ofNat (min f.chunks.length 0xFFFF), UInt32.ofNat f.chunks.length, zeros 2, _, [], rfl, ?_, h5, ?_, ?_⟩
    · rw [List.length_map]
      unfold chunkCount
      split
      · rename_i h0
        have h0 := congrArg UInt32.toNat h0
        rw [UInt32.toNat_ofNat', Nat.mod_eq_of_lt (by omega)] at h0
        have h0 : f.chunks.length = 0 := h0
        rw [h0]
        rfl
      · rw [UInt32.toNat_ofNat', Nat.mod_eq_of_lt (by omega)]
    · rw [List.length_nil]
      omega
    · simp only [frameBytes, le32, le16, leNat32, leNat16, UInt32.toNat_ofNat', UInt16.toNat_ofNat', List.append_nil,
        List.length_nil, Nat.add_zero]
      rw [Nat.mod_eq_of_lt (a := f.chunks.length) (by omega), Nat.mod_eq_of_lt (a := min _ _) (by omega)]
  · simp only [frameBytes, leNat32, leNat16, le16, le32, leBytes, zeros, List.length_append, List.length_cons,
      List.length_nil, List.length_replicate]
    omega

theorem file_rewrite {plat : Plat} {raw : RawFile} {b : Bytes} (h : parseRawFile plat b = .ok raw)
    (hf : ∀ fr ∈ raw.frames, ∀ c ∈ fr.chunks, ReadFaithfully c) :
    parseRawFile plat (fileBytes raw) = .ok (readFileAs raw) ∧ (fileBytes raw).length ≤ b.length := by
  obtain ⟨hb, fb, h1, h2, h3, rfl⟩ := parseRawFile_ok.1 h
  obtain ⟨h4, h5⟩ := seq_rewrite_map (g := fun fr => { fr with chunks := fr.chunks.map readAs }) (enc := frameBytes) h3
    fun fr hfr l' h => frame_rewrite (hf fr hfr) h
  have hh : FitsColorDepth raw.header.colorDepth := by
    obtain ⟨depth, _, _, _, _, e, _⟩ := h1
    rw [e]
    exact colorDepth_read _
  refine ⟨parseRawFile_ok.2 ⟨_, _, isHeader_bytes hh, by simpa [readFileAs] using h2, h4, rfl⟩, ?_⟩
  have hhl := isHeader_length h1
  have hhl' := isHeader_length (isHeader_bytes hh)
  simp only [fileBytes, List.length_append]
  omega

end Ase
