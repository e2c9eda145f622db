import Verif.Spec.Possible
import Verif.Lemmas.Rewrite
import Verif.Props.Access
import Verif.Props.Palette
import Verif.Props.RoundTrip

/-! # Which sprites can be loaded (C129): lemmas -/

namespace Ase
open Spec

/-! ## Codes -/

theorem modeRead_iff (m : BlendMode) : ModeRead m ↔ ∃ w, m = blendModeOf w := by
  constructor
  · intro h
    cases m with
    | unknown n =>
      rcases h with rfl | h
      · exact ⟨19, rfl⟩
      · refine ⟨n, ?_⟩
        have hne : ∀ k : UInt16, k.toNat ≤ 19 → (n == k) = false := by
          intro k hk
          rw [beq_eq_false_iff_ne]
          rintro rfl
          omega
        have h19 : n ≠ 19 := by rintro rfl; simp at h
        unfold blendModeOf decodeBy
        rw [if_neg h19]
        simp [blendModes, List.lookup, hne]
    | normal => exact ⟨0, rfl⟩
    | multiply => exact ⟨1, rfl⟩
    | screen => exact ⟨2, rfl⟩
    | overlay => exact ⟨3, rfl⟩
    | darken => exact ⟨4, rfl⟩
    | lighten => exact ⟨5, rfl⟩
    | colorDodge => exact ⟨6, rfl⟩
    | colorBurn => exact ⟨7, rfl⟩
    | hardLight => exact ⟨8, rfl⟩
    | softLight => exact ⟨9, rfl⟩
    | difference => exact ⟨10, rfl⟩
    | exclusion => exact ⟨11, rfl⟩
    | hue => exact ⟨12, rfl⟩
    | saturation => exact ⟨13, rfl⟩
    | color => exact ⟨14, rfl⟩
    | luminosity => exact ⟨15, rfl⟩
    | addition => exact ⟨16, rfl⟩
    | subtract => exact ⟨17, rfl⟩
    | divide => exact ⟨18, rfl⟩
  · rintro ⟨w, rfl⟩
    by_cases hw : w.toNat ≤ 19
    · obtain ⟨n, hn, rfl⟩ : ∃ n, n ≤ 19 ∧ w = UInt16.ofNat n := ⟨w.toNat, hw, by simp⟩
      have : ∀ n ∈ List.range 20, ModeRead (blendModeOf (UInt16.ofNat n)) := by
        intro n hn
        simp only [List.range, List.range.loop, List.mem_cons, List.not_mem_nil, or_false] at hn
        rcases hn with rfl | rfl | rfl | rfl | rfl | rfl | rfl | rfl | rfl | rfl | rfl | rfl | rfl | rfl | rfl | rfl | rfl |
          rfl | rfl | rfl
        all_goals first | exact trivial | exact .inl rfl
      exact this n (List.mem_range.2 (by omega))
    · have hne : ∀ k : UInt16, k.toNat ≤ 19 → (w == k) = false := by
        intro k hk
        rw [beq_eq_false_iff_ne]
        rintro rfl
        omega
      have h19 : w ≠ 19 := by rintro rfl; simp at hw
      have : blendModeOf w = .unknown w := by
        unfold blendModeOf decodeBy
        rw [if_neg h19]
        simp [blendModes, List.lookup, hne]
      rw [this]
      exact .inr (by omega)

theorem directionRead_iff (m : AnimationDirection) : DirectionRead m ↔ ∃ w, m = animationDirectionOf w := by
  constructor
  · intro h
    cases m with
    | unknown n =>
      rcases h with rfl | h
      · exact ⟨4, rfl⟩
      · refine ⟨n, ?_⟩
        have hne : ∀ k : UInt8, k.toNat ≤ 4 → (n == k) = false := by
          intro k hk
          rw [beq_eq_false_iff_ne]
          rintro rfl
          omega
        have h4 : n ≠ 4 := by rintro rfl; simp at h
        unfold animationDirectionOf decodeBy
        rw [if_neg h4]
        simp [animationDirections, List.lookup, hne]
    | forward => exact ⟨0, rfl⟩
    | reverse => exact ⟨1, rfl⟩
    | pingPong => exact ⟨2, rfl⟩
    | pingPongReverse => exact ⟨3, rfl⟩
  · rintro ⟨w, rfl⟩
    by_cases hw : w.toNat ≤ 4
    · obtain ⟨n, hn, rfl⟩ : ∃ n, n ≤ 4 ∧ w = UInt8.ofNat n := ⟨w.toNat, hw, by simp⟩
      have : n = 0 ∨ n = 1 ∨ n = 2 ∨ n = 3 ∨ n = 4 := by omega
      rcases this with rfl | rfl | rfl | rfl | rfl
      all_goals first | exact trivial | exact .inl rfl
    · have hne : ∀ k : UInt8, k.toNat ≤ 4 → (w == k) = false := by
        intro k hk
        rw [beq_eq_false_iff_ne]
        rintro rfl
        omega
      have h4 : w ≠ 4 := by rintro rfl; simp at hw
      have : animationDirectionOf w = .unknown w := by
        unfold animationDirectionOf decodeBy
        rw [if_neg h4]
        simp [animationDirections, List.lookup, hne]
      rw [this]
      exact .inr (by omega)

theorem depth_read {d : ColorDepth} : (∀ n, d = .unknown n → n ≠ 8 ∧ n ≠ 16 ∧ n ≠ 32) ↔ FitsColorDepth d := by
  cases d with
  | unknown n =>
    show _ ↔ colorDepths.lookup n = none
    simp only [ColorDepth.unknown.injEq, forall_eq', colorDepths, List.lookup]
    by_cases h8 : n = 8
    · subst h8; decide
    · by_cases h16 : n = 16
      · subst h16; decide
      · by_cases h32 : n = 32
        · subst h32; decide
        · have e8 : (n == 8) = false := by simpa using h8
          have e16 : (n == 16) = false := by simpa using h16
          have e32 : (n == 32) = false := by simpa using h32
          simp [h8, h16, h32, e8, e16, e32]
  | _ => simp [FitsColorDepth]

/-! ## Palettes -/

/-- A palette chunk that sets all colours. -/
def paletteFor (p : Palette) : PaletteChunk := ⟨0, 255, p.colors.map (⟨·, none⟩)⟩

theorem newWrites_paletteFor {p : Palette} (h : p.colors.length = 256) : newWrites (paletteFor p) = writesAt 0 p.colors := by
  unfold newWrites paletteFor
  simp only [List.map_map]
  rw [show (PaletteEntry.color ∘ fun c : PColor => (⟨c, none⟩ : PaletteEntry)) = id from rfl, List.map_id,
    List.take_of_length_le (by rw [h]; decide)]
  rfl

theorem paletteOf_paletteFor {p : Palette} {t : UInt8} {c : PColor} (h : p.colors.length = 256)
    (hc : p.colors[t.toNat]? = some c) (ha : c.alpha = 0) : paletteOf t (newWrites (paletteFor p)) = p := by
  rw [newWrites_paletteFor h]
  obtain ⟨colors⟩ := p
  simp only at h hc
  unfold paletteOf
  congr 1
  apply List.ext_getElem (by simp [h])
  intro i h1 h2
  have hw : lastWrite (writesAt 0 colors) i = colors[i] := by
    have := lastWrite_writesAt [] 0 colors i
    rw [List.nil_append] at this
    rw [this]
    simp [h2]
  simp only [List.getElem_map, List.getElem_range, hw]
  split
  · rename_i hi
    subst hi
    have : colors[t.toNat] = c := by
      rw [List.getElem?_eq_getElem h2] at hc
      exact Option.some.inj hc
    rw [this]
    cases c
    simp only at ha
    rw [ha]
  · rfl

/-! ## Sorted lists -/

/-- Two strictly sorted lists with the same members are equal. -/
theorem sorted_unique {α : Type} {R : α → α → Prop} (irr : ∀ a, ¬ R a a) (tr : ∀ a b c, R a b → R b c → R a c)
    {xs ys : List α} (hx : xs.Pairwise R) (hy : ys.Pairwise R) (h : ∀ a, a ∈ xs ↔ a ∈ ys) : xs = ys := by
  induction xs generalizing ys with
  | nil =>
    cases ys with
    | nil => rfl
    | cons y ys => exact absurd ((h y).2 (by simp)) (by simp)
  | cons x xs ih =>
    cases ys with
    | nil => exact absurd ((h x).1 (by simp)) (by simp)
    | cons y ys =>
      rw [List.pairwise_cons] at hx hy
      have e : x = y := by
        rcases List.mem_cons.1 ((h x).1 (by simp)) with e | hm
        · exact e
        · rcases List.mem_cons.1 ((h y).2 (by simp)) with e | hm'
          · exact e.symm
          · exact absurd (tr _ _ _ (hx.1 y hm') (hy.1 x hm)) (irr x)
      subst e
      congr 1
      refine ih hx.2 hy.2 fun a => ⟨fun ha => ?_, fun ha => ?_⟩
      · rcases List.mem_cons.1 ((h a).1 (by simp [ha])) with rfl | hm
        · exact absurd (hx.1 _ ha) (irr _)
        · exact hm
      · rcases List.mem_cons.1 ((h a).2 (by simp [ha])) with rfl | hm
        · exact absurd (hy.1 _ ha) (irr _)
        · exact hm

theorem earlier_irrefl (p : Nat × Nat) : ¬ Earlier p p := by unfold Earlier; omega

theorem earlier_trans (p q r : Nat × Nat) (h : Earlier p q) (h' : Earlier q r) : Earlier p r := by
  unfold Earlier at *; omega

theorem ascending_inj {home : List (Nat × Nat)} (h : home.Pairwise Earlier) {j k : Nat} {p : Nat × Nat}
    (hj : home[j]? = some p) (hk : home[k]? = some p) : j = k := by
  obtain ⟨h1, e1⟩ := List.getElem?_eq_some_iff.1 hj
  obtain ⟨h2, e2⟩ := List.getElem?_eq_some_iff.1 hk
  rw [List.pairwise_iff_getElem] at h
  rcases Nat.lt_trichotomy j k with hlt | he | hlt
  · have := h j k h1 h2 hlt; rw [e1, e2] at this; exact absurd this (earlier_irrefl p)
  · exact he
  · have := h k j h2 h1 hlt; rw [e1, e2] at this; exact absurd this (earlier_irrefl p)

/-- The images of a file are listed by frame and layer. -/
theorem keyed_sorted (fs : List Frame) (i : Nat)
    (h : ∀ fr ∈ fs, ∀ (l : Nat) (c : CelChunk), fr.cels[l]? = some (some c) → c.layerIndex.toNat = l) :
    (keyed i fs).Pairwise fun a b => Earlier a.1 b.1 := by
  induction fs generalizing i with
  | nil => simp [keyed]
  | cons f fs ih =>
    rw [keyed, List.pairwise_append]
    refine ⟨?_, ih (i + 1) fun fr hfr => h fr (List.mem_cons_of_mem _ hfr), ?_⟩
    · have hs := (slots_sorted f.cels 0 fun l c hc => by
        rw [Nat.zero_add]; exact h f List.mem_cons_self l c hc).1
      unfold frameKeyed
      rw [List.pairwise_filterMap]
      refine hs.imp ?_
      intro c d hcd b hb b' hb'
      simp only [Option.map_eq_some_iff] at hb hb'
      obtain ⟨_, -, rfl⟩ := hb
      obtain ⟨_, -, rfl⟩ := hb'
      exact .inr ⟨rfl, hcd⟩
    · rintro ⟨⟨j, l⟩, im⟩ ha ⟨⟨j', l'⟩, im'⟩ hb
      obtain ⟨rfl, _⟩ := mem_frameKeyed.1 ha
      obtain ⟨d, fr, rfl, _⟩ := mem_keyed.1 hb
      exact .inl (show j < j + 1 + d by omega)

/-! ## Chunks of a file that was read -/

theorem chunk_of_parse {plat : Plat} {b : Bytes} {raw : RawFile} (h : parseRawFile plat b = .ok raw)
    {fr : RawFrame} (hfr : fr ∈ raw.frames) {c : Chunk} (hc : c ∈ fr.chunks) :
    ∃ l, IsChunk (readsUserData plat) c l := by
  obtain ⟨_, _, -, -, hs, -⟩ := parseRawFile_ok.1 h
  obtain ⟨_, ⟨_, _, _, _, _, -, -, hcs, -, -⟩, -⟩ := seq_mem hs hfr
  obtain ⟨l, hl, -⟩ := seq_mem hcs hc
  exact ⟨l, hl⟩

theorem mem_of_owned {cs : List Chunk} {p : Chunk × List UserDataChunk} (h : p ∈ owned cs) : p.1 ∈ cs := by
  induction cs with
  | nil => simp [owned] at h
  | cons c cs ih =>
    cases c with
    | userData u => exact List.mem_cons_of_mem _ (ih (by simpa [owned] using h))
    | _ =>
      simp only [owned, List.mem_cons] at h
      rcases h with rfl | h
      · simp
      · exact List.mem_cons_of_mem _ (ih h)

/-- Without user data chunks. -/
theorem owned_plain {cs : List Chunk} (h : ∀ c ∈ cs, ∀ u, c ≠ .userData u) : owned cs = cs.map fun c => (c, []) := by
  induction cs with
  | nil => rfl
  | cons c cs ih =>
    have hrun : run cs = [] := by
      cases cs with
      | nil => rfl
      | cons d ds =>
        cases d with
        | userData u => exact absurd rfl (h _ (by simp) u)
        | _ => rfl
    have ih := ih fun d hd => h d (by simp [hd])
    cases c with
    | userData u => exact absurd rfl (h _ (by simp) u)
    | _ => simp only [owned, hrun, ih, List.map_cons]

/-! ## Cels in their slots -/

theorem slot_of_sorted {cs : List CelChunk} (hs : cs.Pairwise fun c d => c.layerIndex.toNat < d.layerIndex.toNat)
    {i : Nat} {c : CelChunk} : slot cs i = some c ↔ c ∈ cs ∧ c.layerIndex.toNat = i := by
  have fwd : ∀ d, slot cs i = some d → d ∈ cs ∧ d.layerIndex.toNat = i := by
    intro d h
    have := List.mem_of_getLast? h
    simpa using this
  refine ⟨fwd c, ?_⟩
  rintro ⟨hc, hi⟩
  cases hd : slot cs i with
  | none =>
    unfold slot at hd
    rw [List.getLast?_eq_none_iff] at hd
    have hm : c ∈ cs.filter fun c => c.layerIndex.toNat = i := List.mem_filter.2 ⟨hc, by simpa using hi⟩
    rw [hd] at hm
    cases hm
  | some d =>
    obtain ⟨h1, h2⟩ := fwd d hd
    congr 1
    obtain ⟨m, hm⟩ := List.mem_iff_getElem.1 hc
    obtain ⟨n, hn⟩ := List.mem_iff_getElem.1 h1
    obtain ⟨hm, rfl⟩ := hm
    obtain ⟨hn, rfl⟩ := hn
    rw [List.pairwise_iff_getElem] at hs
    rcases Nat.lt_trichotomy m n with hlt | he | hlt
    · have := hs m n hm hn hlt; omega
    · subst he; rfl
    · have := hs n m hn hm hlt; omega

theorem slots_filterMap {n : Nat} {cs : List CelChunk}
    (hs : cs.Pairwise fun c d => c.layerIndex.toNat < d.layerIndex.toNat) (hn : ∀ c ∈ cs, c.layerIndex.toNat < n) :
    (slots n cs).filterMap id = cs := by
  refine sorted_unique (R := fun c d => c.layerIndex.toNat < d.layerIndex.toNat) (fun _ => Nat.lt_irrefl _)
    (fun _ _ _ => Nat.lt_trans) ?_ hs ?_
  · refine (slots_sorted _ 0 ?_).1
    intro l c hc
    rw [slots, List.getElem?_map, Option.map_eq_some_iff] at hc
    obtain ⟨j, hj, hc⟩ := hc
    have hjl : j = l := by
      obtain ⟨_, h⟩ := List.getElem?_eq_some_iff.1 hj
      simpa using h.symm
    subst hjl
    rw [((slot_of_sorted hs).1 hc).2, Nat.zero_add]
  · intro c
    rw [mem_filterMap_id, slots, List.mem_map]
    constructor
    · rintro ⟨i, -, h⟩
      exact ((slot_of_sorted hs).1 h).1
    · intro hc
      exact ⟨_, List.mem_range.2 (hn c hc), (slot_of_sorted hs).2 ⟨hc, rfl⟩⟩

/-! ## Writing chunks -/

/-- An upper bound for the size of a chunk. -/
def chunkRoom : Chunk → Nat
  | .layer l => 64 + (utf8 l.name).length
  | .tags t => 64 + (t.tags.map fun t => (utf8 t.name).length).sum
  | .palette c => 64 + 64 * c.entries.length
  | .cel c => 64 + ((ownImage c).map (·.data.length)).getD 0
  | _ => 0

theorem write_chunks {U : UserDataChunk → Bytes → Prop} {cs : List Chunk}
    (h : ∀ c ∈ cs, ∃ code body, IsContent U c code body ∧ 6 + body.length ≤ chunkRoom c)
    (hsum : (cs.map chunkRoom).sum < 2 ^ 32) :
    ∃ l, Seq (IsChunk U) cs l ∧ l.length ≤ (cs.map chunkRoom).sum := by
  induction cs with
  | nil => exact ⟨[], .nil, by simp⟩
  | cons c cs ih =>
    simp only [List.map_cons, List.sum_cons] at hsum ⊢
    obtain ⟨l, hl, hlen⟩ := ih (fun d hd => h d (by simp [hd])) (by omega)
    obtain ⟨code, body, hb, hr⟩ := h c (by simp)
    refine ⟨_, .cons ⟨code, body, by omega, hb, rfl⟩ hl, ?_⟩
    simp [leNat32, le16, leBytes]
    omega

theorem write_frame {U : UserDataChunk → Bytes → Prop} {fr : RawFrame}
    (h : ∀ c ∈ fr.chunks, ∃ code body, IsContent U c code body ∧ 6 + body.length ≤ chunkRoom c)
    (hsum : 16 + (fr.chunks.map chunkRoom).sum < 2 ^ 32) : ∃ l, IsFrame U fr l := by
  obtain ⟨l, hl, hlen⟩ := write_chunks h (by omega)
  have hcount : fr.chunks.length ≤ (fr.chunks.map chunkRoom).sum := by
    have : ∀ cs : List Chunk, (∀ c ∈ cs, 1 ≤ chunkRoom c) → cs.length ≤ (cs.map chunkRoom).sum := by
      intro cs
      induction cs with
      | nil => simp
      | cons c cs ih =>
        intro h
        have h1 := h c (by simp)
        have h2 := ih fun d hd => h d (by simp [hd])
        simp only [List.length_cons, List.map_cons, List.sum_cons]
        omega
    refine this _ fun c hc => ?_
    obtain ⟨_, _, -, hr⟩ := h c hc
    omega
  refine ⟨_, 0, UInt32.ofNat fr.chunks.length, [0, 0], l, [], rfl, ?_, hl, by simp; omega, rfl⟩
  unfold chunkCount
  have e : (UInt32.ofNat fr.chunks.length).toNat = fr.chunks.length := by
    rw [UInt32.toNat_ofNat_of_lt']
    show _ < 2 ^ 32
    omega
  split
  · rename_i h0
    rw [h0] at e
    simpa using e.symm
  · exact e.symm

theorem write_seq {α : Type} {G : α → Bytes → Prop} {xs : List α} (h : ∀ x ∈ xs, ∃ l, G x l) : ∃ l, Seq G xs l := by
  induction xs with
  | nil => exact ⟨[], .nil⟩
  | cons x xs ih =>
    obtain ⟨l, hl⟩ := ih fun y hy => h y (by simp [hy])
    obtain ⟨b, hb⟩ := h x (by simp)
    exact ⟨_, .cons hb hl⟩

end Ase
