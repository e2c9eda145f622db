import Verif.Spec.PossibleFile
import Verif.Lemmas.Possible

/-! # Which files can be parsed (C132): lemmas -/

namespace Ase
open Spec

/-! ## What can be read -/

theorem layerRead_of {l : LayerChunk} {b : Bytes} (h : IsLayer l b) (u : Option UserDataChunk) :
    LayerRead { l with userData := u } := by
  obtain ⟨flags, type, _, _, w, _, _, -, hn, hf, ht, hb, ho, -, -⟩ := h
  refine ⟨by show l.flags.bits ≤ _; rw [hf]; exact and_le16 _ _, by show FitsLayerType l.layerType; rw [ht]; exact layerType_read _,
    (modeRead_iff _).2 ⟨w, hb⟩, hn, ?_⟩
  show l.tilesetIndex.isSome ↔ l.layerType = .tilemap
  rw [opt_isSome ho, ht, layerTypeOf_tilemap]

theorem layer_of_read {l : LayerChunk} (h : LayerRead l) : ∃ b, IsLayer { l with userData := none } b ∧
    b.length ≤ 32 + (utf8 l.name).length := by
  obtain ⟨h1, h2, h3, h4, h5⟩ := h
  obtain ⟨w, hw⟩ := (modeRead_iff _).1 h3
  refine ⟨_, ⟨l.flags.bits, layerTypeCode l.layerType, 0, 0, w, zeros 3, (l.tilesetIndex.map le32).getD [], rfl, h4, ?_,
    layerTypeOf_code h2, hw, opt_map (h5.trans (layerTypeCode_tilemap h2)), rfl, rfl⟩, ?_⟩
  · show l.flags.bits = _
    have h1 := UInt16.le_iff_toNat_le.1 h1
    rw [← UInt16.toNat_inj, UInt16.toNat_and]
    have : (0x7F : UInt16).toNat = 2 ^ 7 - 1 := rfl
    rw [this] at h1 ⊢
    rw [Nat.and_two_pow_sub_one_eq_mod, Nat.mod_eq_of_lt (by omega)]
  · cases l.tilesetIndex <;> simp [le16, le32, leBytes, str, leNat16, zeros] <;> omega

theorem tagRead_of {t : Tag} {b : Bytes} (h : IsTag t b) (u : Option UserDataChunk) : TagRead { t with userData := u } := by
  obtain ⟨w, _, _, -, hn, hr, hd, -, -⟩ := h
  exact ⟨hr, (directionRead_iff _).2 ⟨w, hd⟩, hn⟩

theorem tag_of_read {t : Tag} (h : TagRead t) : ∃ b, IsTags ⟨[{ t with userData := none }]⟩ b ∧
    b.length ≤ 32 + (utf8 t.name).length := by
  obtain ⟨h1, h2, h3⟩ := h
  obtain ⟨w, hw⟩ := (directionRead_iff _).1 h2
  refine ⟨_, ⟨zeros 8, _, rfl, by simp, .cons ⟨w, 0, zeros 6, rfl, h3, h1, hw, rfl, rfl⟩ .nil, rfl⟩, ?_⟩
  simp [le16, leBytes, str, leNat16, zeros]
  omega

theorem sliceRead_of {s : SliceChunk} {b : Bytes} (h : IsSlice s b) (u : Option UserDataChunk) :
    SliceRead { s with userData := u } := by
  obtain ⟨flags, _, _, h1, h2, h3, -, h4, -⟩ := h
  refine ⟨h1, by show s.flags.bits ≤ _; rw [h3]; exact and_le32 _ _, h2, ?_⟩
  intro k hk
  obtain ⟨_, ⟨_, _, h5, h6, -⟩, -⟩ := seq_mem h4 hk
  show (_ ↔ bit32 s.flags.bits 0) ∧ (_ ↔ bit32 s.flags.bits 1)
  rw [h3, bit_and (by decide), bit_and (by decide)]
  exact ⟨opt_isSome h5, opt_isSome h6⟩

theorem slice_of_read {s : SliceChunk} (h : SliceRead s) : ∃ b, IsSlice { s with userData := none } b ∧
    b.length ≤ 32 + (utf8 s.name).length + 64 * s.sliceKeys.length := by
  obtain ⟨h1, h2, h3, h4⟩ := h
  refine ⟨_, isSlice_bytes (c := { s with userData := none }) ⟨h1, h2, h3, rfl, h4⟩, ?_⟩
  have : ∀ ks : List SliceKey, (ks.flatMap sliceKeyBytes).length ≤ 64 * ks.length := by
    intro ks
    induction ks with
    | nil => simp
    | cons k ks ih =>
      rw [List.flatMap_cons, List.length_append, List.length_cons]
      have : (sliceKeyBytes k).length ≤ 64 := by
        cases hn : k.ninePatch <;> cases hp : k.pivot <;>
          simp [sliceKeyBytes, hn, hp, le32, les32, leBytes, ninePatch, pivot]
      omega
  have := this s.sliceKeys
  simp only [sliceBytes, List.length_append]
  simp only [leNat32, le32, leBytes, str, leNat16, zeros, List.length_append, List.length_replicate, List.length_cons, List.length_nil]
  omega

theorem celTypeOf_unknown (t : UInt16) : (∃ w, celTypeOf w = .unknown t) ↔ t = 0 ∨ 4 < t.toNat := by
  constructor
  · rintro ⟨w, h⟩
    by_cases h0 : t = 0
    · exact .inl h0
    · obtain ⟨h1, h2⟩ := celType_read h h0
      refine .inr (Nat.lt_of_not_le fun hle => ?_)
      have ht : t = UInt16.ofNat t.toNat := by simp
      have : t.toNat = 0 ∨ t.toNat = 1 ∨ t.toNat = 2 ∨ t.toNat = 3 ∨ t.toNat = 4 := by omega
      rcases this with h | h | h | h | h <;> rw [h] at ht <;> subst ht
      · exact h0 rfl
      · cases h1
      · cases h1
      · cases h1
      · exact h2 rfl
  · rintro (rfl | h)
    · exact ⟨4, rfl⟩
    · have hne : ∀ k : UInt16, k.toNat ≤ 4 → (t == k) = false := by
        intro k hk
        rw [beq_eq_false_iff_ne]
        rintro rfl
        omega
      have h4 : t ≠ 4 := by rintro rfl; simp at h
      refine ⟨t, ?_⟩
      unfold celTypeOf decodeBy
      rw [if_neg h4]
      simp [celTypes, List.lookup, hne]

theorem celRead_of {U : UserDataChunk → Bytes → Prop} {c : CelChunk} {code : UInt16} {b : Bytes}
    (h : IsContent U (.cel c) code b) (u : Option UserDataChunk) : CelRead { c with userData := u } := by
  obtain ⟨-, w, _, body, -, h, -, -⟩ := h
  intro t d hc
  rw [show c.content = .unknown t d from hc] at h
  exact (celTypeOf_unknown t).1 ⟨w, h.1⟩

theorem cel_of_read {U : UserDataChunk → Bytes → Prop} {c : CelChunk} (h : CelRead c) :
    ∃ code b, IsContent U (.cel { c with userData := none }) code b ∧ b.length ≤ 32 + (celContentBytes c.content).length := by
  have ⟨w, body, hb, hl⟩ : ∃ w body, IsCelBody w (swapFlips c.content) body ∧
      body.length ≤ (celContentBytes c.content).length := by
    cases hc : c.content with
    | image i =>
      refine ⟨if i.compressed then 2 else 0, celContentBytes (.image i), ?_, Nat.le_refl _⟩
      cases hi : i.compressed <;> simp [IsCelBody, swapFlips, hi, celContentBytes]
    | linkedCel f => exact ⟨1, celContentBytes (.linkedCel f), ⟨rfl, [], by simp [celContentBytes]⟩, Nat.le_refl _⟩
    | compressedTilemap width height bits tileId xFlip yFlip diagonalFlip data =>
      refine ⟨3, celContentBytes (swapFlips (.compressedTilemap width height bits tileId xFlip yFlip diagonalFlip data)),
        ⟨rfl, zeros 10, rfl, rfl⟩, ?_⟩
      simp [swapFlips, celContentBytes, le32, leBytes]
    | unknown t d =>
      obtain ⟨w, hw⟩ := (celTypeOf_unknown t).2 (h t d hc)
      exact ⟨w, d, ⟨hw, rfl⟩, Nat.le_refl _⟩
  refine ⟨0x2005, _, ⟨rfl, w, zeros 5, body, rfl, hb, rfl, rfl⟩, ?_⟩
  simp [le16, les16, leBytes, zeros]
  omega

/-! ## User data -/

theorem mem_of_run {cs : List Chunk} {u : UserDataChunk} (h : u ∈ run cs) : .userData u ∈ cs := by
  induction cs with
  | nil => cases h
  | cons c cs ih =>
    cases c with
    | userData v =>
      simp only [run, List.mem_cons] at h
      rcases h with rfl | h
      · simp
      · exact List.mem_cons_of_mem _ (ih h)
    | _ => cases h

theorem mem_of_owner {cs : List Chunk} {p : Chunk × List UserDataChunk} (h : p ∈ owned cs) {u : UserDataChunk}
    (hu : u ∈ p.2) : .userData u ∈ cs := by
  induction cs with
  | nil => simp [owned] at h
  | cons c cs ih =>
    cases c with
    | userData v => exact List.mem_cons_of_mem _ (ih (by simpa [owned] using h))
    | _ =>
      simp only [owned, List.mem_cons] at h
      rcases h with rfl | h
      · exact List.mem_cons_of_mem _ (mem_of_run hu)
      · exact List.mem_cons_of_mem _ (ih h)

/-- Chunks with their user data, one after the other. -/
def lay (ps : List (Chunk × Option UserDataChunk)) : List Chunk :=
  ps.flatMap fun p => p.1 :: (p.2.map Chunk.userData).toList

theorem lay_cons (p : Chunk × Option UserDataChunk) (ps : List (Chunk × Option UserDataChunk)) :
    lay (p :: ps) = p.1 :: (p.2.map Chunk.userData).toList ++ lay ps := rfl

theorem run_lay {ps : List (Chunk × Option UserDataChunk)} (h : ∀ p ∈ ps, ∀ u, p.1 ≠ .userData u) : run (lay ps) = [] := by
  cases ps with
  | nil => rfl
  | cons p ps =>
    have := h p (by simp)
    rw [lay_cons]
    cases hp : p.1 with
    | userData u => exact absurd hp (this u)
    | _ => rfl

theorem owned_lay {ps : List (Chunk × Option UserDataChunk)} (h : ∀ p ∈ ps, ∀ u, p.1 ≠ .userData u) :
    owned (lay ps) = ps.map fun p => (p.1, p.2.toList) := by
  induction ps with
  | nil => rfl
  | cons p ps ih =>
    have h1 := h p (by simp)
    have ih := ih fun q hq => h q (by simp [hq])
    have hr := run_lay (ps := ps) fun q hq => h q (by simp [hq])
    obtain ⟨c, u⟩ := p
    rw [lay_cons, List.map_cons]
    cases u with
    | none =>
      simp only [Option.map_none, Option.toList_none, List.cons_append, List.nil_append]
      cases c with
      | userData u => exact absurd rfl (h1 u)
      | _ => simp only [owned, hr, ih]
    | some u =>
      simp only [Option.map_some, Option.toList_some, List.cons_append, List.nil_append]
      cases c with
      | userData u => exact absurd rfl (h1 u)
      | _ => simp only [owned, run, hr, ih]

/-! ## Writing -/

theorem write_chunks_room (room : Chunk → Nat) {U : UserDataChunk → Bytes → Prop} {cs : List Chunk}
    (h : ∀ c ∈ cs, ∃ code body, IsContent U c code body ∧ 6 + body.length ≤ room c)
    (hsum : (cs.map room).sum < 2 ^ 32) :
    ∃ l, Seq (IsChunk U) cs l ∧ l.length ≤ (cs.map room).sum := by
  induction cs with
  | nil => exact ⟨[], .nil, by simp⟩
  | cons c cs ih =>
    simp only [List.map_cons, List.sum_cons] at hsum ⊢
    obtain ⟨l, hl, hlen⟩ := ih (fun d hd => h d (by simp [hd])) (by omega)
    obtain ⟨code, body, hb, hr⟩ := h c (by simp)
    refine ⟨_, .cons ⟨code, body, by omega, hb, rfl⟩ hl, ?_⟩
    simp [leNat32, le16, leBytes]
    omega

theorem write_frame_room (room : Chunk → Nat) {U : UserDataChunk → Bytes → Prop} {fr : RawFrame}
    (h : ∀ c ∈ fr.chunks, ∃ code body, IsContent U c code body ∧ 6 + body.length ≤ room c)
    (hsum : 16 + (fr.chunks.map room).sum < 2 ^ 32) : ∃ l, IsFrame U fr l := by
  obtain ⟨l, hl, hlen⟩ := write_chunks_room room h (by omega)
  have hcount : fr.chunks.length ≤ (fr.chunks.map room).sum := by
    have : ∀ cs : List Chunk, (∀ c ∈ cs, 1 ≤ room c) → cs.length ≤ (cs.map room).sum := by
      intro cs
      induction cs with
      | nil => simp
      | cons c cs ih =>
        intro h
        have h1 := h c (by simp)
        have h2 := ih fun d hd => h d (by simp [hd])
        simp only [List.length_cons, List.map_cons, List.sum_cons]
        omega
    refine this _ fun c hc => ?_
    obtain ⟨_, _, -, hr⟩ := h c hc
    omega
  refine ⟨_, 0, UInt32.ofNat fr.chunks.length, [0, 0], l, [], rfl, ?_, hl, by simp; omega, rfl⟩
  unfold chunkCount
  have e : (UInt32.ofNat fr.chunks.length).toNat = fr.chunks.length := by
    rw [UInt32.toNat_ofNat_of_lt']
    show _ < 2 ^ 32
    omega
  split
  · rename_i h0
    rw [h0] at e
    simpa using e.symm
  · exact e.symm

end Ase
