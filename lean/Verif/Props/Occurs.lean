import Verif.Spec.Occurs
import Verif.Lemmas.BadText
import Verif.Props.Errors
import Verif.Props.Fields
import Verif.Props.LoadErrors
import Verif.Props.Possible
import Verif.Props.Render
import Verif.Model.Inflate

/-!
# C130: which errors can occur

The errors of `parse_file`, `load`, `load_image` and of rendering are listed exactly: no input gives another one, and each
of those listed, with any numbers and bytes in it, is given by some input.
-/

namespace Ase
open Spec

/-! ## UTF-8 errors -/

/-- The bytes of a text that a UTF-8 error needs after the valid ones. -/
def faultRoom : Option UInt8 → Nat
  | none => 1
  | some k => if k = 1 then 1 else k.toNat + 1

theorem fault_range (pos : Nat) (t : Bytes) (h : ¬ IsText t) : (utf8Fault pos t).1 + faultRoom (utf8Fault pos t).2 ≤ pos + t.length ∧
    ∀ k, (utf8Fault pos t).2 = some k → k = 1 ∨ k = 2 ∨ k = 3 := by
  have hc := @isText_cons
  fun_induction utf8Fault pos t with
  | case1 => exact (h isText_nil).elim
  | case2 pos b0 t0 h1 ih =>
    have := ih (fun ht => h (by rw [isText_cons]; grind))
    exact ⟨by simp only [List.length_cons]; omega, this.2⟩
  | case4 pos b0 h1 h2 b1 t h3 ih =>
    have := ih (fun ht => h (by rw [isText_cons]; grind))
    exact ⟨by simp only [List.length_cons]; omega, this.2⟩
  | case8 pos b0 h1 h2 h3 b1 h4 b2 t h5 ih =>
    have := ih (fun ht => h (by rw [isText_cons]; grind))
    exact ⟨by simp only [List.length_cons]; omega, this.2⟩
  | case14 pos b0 h1 h2 h3 h4 b1 h5 b2 h6 b3 t h7 ih =>
    have := ih (fun ht => h (by rw [isText_cons]; grind))
    exact ⟨by simp only [List.length_cons]; omega, this.2⟩
  | _ => simp [faultRoom] <;> omega

theorem badText_range {t : Bytes} {n : Nat} {k : Option UInt8} (h : BadText t n k) (ht : t.length < 2 ^ 16) :
    Occurs (.error (.utf8Error n k)) := by
  obtain ⟨m, h1, h2⟩ := fault_spec 0 t h.bad
  obtain ⟨rfl, rfl⟩ := h2.unique h
  have h3 := fault_range 0 t h.bad
  rw [h1] at h3
  cases hk : (utf8Fault 0 t).2 with
  | none =>
    rw [hk] at h3
    simp only [faultRoom] at h3
    show m < 65535
    omega
  | some k =>
    rw [hk] at h3
    obtain ⟨h4, h5⟩ := h3
    show (k = 1 ∧ m < 65535) ∨ (k = 2 ∧ m < 65533) ∨ (k = 3 ∧ m < 65532)
    rcases h5 k rfl with rfl | rfl | rfl <;> simp [faultRoom] at h4 <;> simp <;> omega

theorem badText_after (n : Nat) {t : Bytes} {k : Option UInt8} (h : BadText t 0 k) :
    BadText (List.replicate n 65 ++ t) n k := by
  have := BadText.after (c := List.replicate n 65) (t := t) (n := 0) (k := k) ?_ h
  · simpa using this
  · intro x
    induction n with
    | zero => simp
    | succ n ih =>
      rw [List.replicate_succ, List.cons_append, isText_cons]
      have : (65 : UInt8).toNat = 65 := rfl
      grind

theorem badText_occurs {n : Nat} {k : Option UInt8} (h : Occurs (.error (.utf8Error n k))) :
    ∃ t, t.length < 2 ^ 16 ∧ BadText t n k := by
  have key : ∀ (t : Bytes), ¬ IsText t → ∀ k, utf8Fault 0 t = (0, k) → n + t.length < 2 ^ 16 →
      ∃ t, t.length < 2 ^ 16 ∧ BadText t n k := by
    intro t ht k hk hl
    obtain ⟨m, h1, h2⟩ := fault_spec 0 t ht
    rw [hk] at h1 h2
    have : m = 0 := by simpa using h1.symm
    subst this
    exact ⟨_, by simpa using hl, badText_after n h2⟩
  have no : ∀ t, utf8Decode t = none → ¬ IsText t := by
    intro t h0 h1
    rw [isText_iff, h0] at h1
    cases h1
  cases k with
  | none =>
    have h : n < 65535 := h
    exact key [0xC3] (no _ (by decide +kernel)) _ (by decide +kernel) (by simp; omega)
  | some k =>
    rcases h with ⟨rfl, h⟩ | ⟨rfl, h⟩ | ⟨rfl, h⟩
    · exact key [0xFF] (no _ (by decide +kernel)) _ (by decide +kernel) (by simp; omega)
    · exact key [0xE2, 0x82, 65] (no _ (by decide +kernel)) _ (by decide +kernel) (by simp; omega)
    · exact key [0xF0, 0x9F, 0x98, 65] (no _ (by decide +kernel)) _ (by decide +kernel) (by simp; omega)

/-! ## Inputs that give an error -/

/-- Some header. -/
def anyHeader (d : ColorDepth) : Header :=
  { (rawFor ⟨(1, 1), d, 0, none, [], [], [], []⟩ []).header with colorDepth := d }

theorem occurs_frame {plat : Plat} {r : Bytes} {e : NomErr} (h : parseRawframe plat r = .err e) :
    ∃ b, parseFile plat b = .err e :=
  ⟨_, (C61_file_errors plat _ e).2 (.inr ⟨anyHeader .rgba, _, [], [], r, isHeader_bytes trivial, .nil, rfl, .inl ⟨rfl, h⟩⟩)⟩

theorem occurs_chunk {plat : Plat} {r : Bytes} {e : NomErr} (h : parseChunk plat r = .err e) (hr : r.length < 2 ^ 20) :
    ∃ b, parseFile plat b = .err e := by
  refine occurs_frame (r := leNat32 (4 + ([0xFA, 0xF1] ++ le16 1 ++ le16 0 ++ [0, 0] ++ le32 1 ++ [] ++ r).length) ++
    ([0xFA, 0xF1] ++ le16 1 ++ le16 0 ++ [0, 0] ++ le32 1 ++ [] ++ r) ++ []) ((C61_frame_errors plat _ e).2 ?_)
  refine .inr (.inr (.inr ⟨_, [], ?_, rfl, .inr (.inr ⟨1, 0, 1, [0, 0], [], [], r, rfl, rfl, .nil, by decide, h⟩)⟩))
  simp [le16, le32, leBytes_length]
  omega

theorem occurs_body {plat : Plat} (code : UInt16) {body : Bytes} {e : NomErr} (h : Problem (bodyForm plat.debug code) body e)
    (hb : body.length < 2 ^ 19) : ∃ b, parseFile plat b = .err e := by
  refine occurs_chunk (r := leNat32 (6 + body.length) ++ le16 code ++ body ++ []) ((C127_chunk plat _ e).2 ?_) ?_
  · exact .inr (.inr (.inr (.inr ⟨code, body, [], by omega, rfl, h⟩)))
  · simp [leNat32, le16, leBytes_length]
    omega

theorem occurs_file {plat : Plat} (d : ColorDepth) (cs : List Chunk) {e : NomErr} (hd : FitsColorDepth d)
    (hc : FitsFrame ⟨0, cs⟩) (hu : ∀ c ∈ cs, ∀ u, c ≠ .userData u)
    (he : (d = .indexed ∧ ∃ pe, paletteProblem (allChunks [⟨0, cs.map readAs⟩]) = some pe ∧ e = .failure (.paletteError pe)) ∨
     ((d = .indexed → paletteProblem (allChunks [⟨0, cs.map readAs⟩]) = none) ∧
         ∃ pre c post, allCels [⟨0, cs.map readAs⟩] = pre ++ c :: post ∧
           (∀ c' ∈ pre, c'.layerIndex.toNat < (allLayers [⟨0, cs.map readAs⟩]).length) ∧
           (allLayers [⟨0, cs.map readAs⟩]).length < c.layerIndex.toNat ∧ e = .failure .layerIndexOutOfBounds)) :
    ∃ b, parseFile plat b = .err e := by
  have h1 : ∀ c ∈ cs, NoNestedMaps c := by
    intro c hc
    cases c <;> first | trivial | exact absurd rfl (hu _ hc _)
  have h2 : ∀ c ∈ cs, StackFor plat c := by
    intro c hc
    cases c <;> first | trivial | exact absurd rfl (hu _ hc _)
  have h3 := isFrame_bytes hc h1 h2
  refine ⟨_, (C61_file_errors plat _ e).2 (.inr ⟨anyHeader d, _, [⟨0, cs.map readAs⟩], _, [], isHeader_bytes hd,
    .cons h3 .nil, rfl, ?_⟩)⟩
  rcases he with he | he
  · exact .inr (.inr (.inr (.inl ⟨by simp, rfl, he⟩)))
  · exact .inr (.inr (.inr (.inr ⟨by simp, rfl, he⟩)))

theorem occurs_palette (plat : Plat) (pe : PaletteError) : ∃ b, parseFile plat b = .err (.failure (.paletteError pe)) := by
  cases pe with
  | missing =>
    refine occurs_file .indexed [] trivial ⟨by simp, by decide +kernel⟩ (by simp) (.inl ⟨rfl, _, ?_, rfl⟩)
    decide +kernel
  | empty =>
    refine occurs_file .indexed [.palette ⟨0, 0, []⟩] trivial ⟨?_, by decide +kernel⟩ (by simp) (.inl ⟨rfl, _, ?_, rfl⟩)
    · simp only [List.mem_singleton, forall_eq]
      exact ⟨⟨by decide, by decide, by simp⟩, by decide +kernel⟩
    · decide +kernel
  | indexOutOfBounds =>
    refine occurs_file .indexed [.palette0004 ⟨[⟨255, [⟨1, 2, 3⟩, ⟨1, 2, 3⟩]⟩]⟩] trivial ⟨?_, by decide +kernel⟩ (by simp)
      (.inl ⟨rfl, _, ?_, rfl⟩)
    · simp only [List.mem_singleton, forall_eq]
      exact ⟨⟨by decide, by simp⟩, by decide +kernel⟩
    · decide +kernel
  | firstColorIndexOutOfBounds =>
    exact occurs_body 0x2019 (body := leBytes 4 0 ++ (leBytes 4 256 ++ []))
      (.later (by decide) (.later (x := 256) (by decide) .refused)) (by decide)
  | lastColorIndexOutOfBounds =>
    exact occurs_body 0x2019 (body := leBytes 4 0 ++ (leBytes 4 0 ++ (leBytes 4 256 ++ [])))
      (.later (by decide) (.later (x := 0) (by decide) (.later (x := 256) (by decide) .refused))) (by decide)
  | firstColorIndexGreaterThanLastColorIndex =>
    exact occurs_body 0x2019 (body := leBytes 4 0 ++ (leBytes 4 1 ++ (leBytes 4 0 ++ [])))
      (.later (by decide) (.later (x := 1) (by decide) (.later (x := 0) (by decide) .refused))) (by decide)

/-! ## The errors of `parse_file` -/

theorem tag_frame {plat : Plat} {r s : Bytes} (h : parseRawframe plat r = .err (.error (.nom s .tag))) :
    s.length + 4 < 2 ^ 32 ∧ s.take 2 ≠ [0xFA, 0xF1] := by
  rcases (C61_frame_errors plat _ _).1 h with ⟨_, h⟩ | ⟨_, _, _, _, h⟩ | ⟨_, _, _, _, _, h⟩ | ⟨l, r, hl, _, h | h | h⟩
  · simp at h
  · simp at h
  · simp at h
  · obtain ⟨h1, h2⟩ := h
    cases h2
    exact ⟨by omega, h1⟩
  · simp at h
  · obtain ⟨_, _, _, _, _, _, _, _, _, _, _, h⟩ := h
    rcases (C61_chunk_errors plat _ _).1 h with ⟨_, h⟩ | ⟨_, _, _, _, h⟩ | ⟨_, _, _, _, _, h⟩ | ⟨_, _, _, _, h⟩ | ⟨_, _, _, _, _, h⟩
    · simp at h
    · simp at h
    · simp at h
    · simp at h
    · rcases C61_content_errors plat _ _ _ h with ⟨_, _, h⟩ | ⟨_, ⟨_, _, _, _, _, _, rfl⟩, h⟩ | ⟨_, _, _, _, h⟩ | ⟨_, h | h | h⟩ <;>
        simp at h

/-- **C130.** Every error of `parse_file` is one of those listed. -/
theorem C130_only (plat : Plat) (b : Bytes) (e : NomErr) (h : parseFile plat b = .err e) : Occurs e := by
  rcases C62_positions plat b e h with ⟨s, kind, rfl, rfl | rfl, -⟩ | ⟨_, ⟨t, n, k, h1, h2, h3, rfl⟩, rfl⟩ |
      ⟨n, rfl, h1, h2⟩ | ⟨a, z, rfl, h1, h2⟩ | ⟨p, rfl⟩ | rfl
  · trivial
  · rcases (C61_file_errors plat b _).1 h with h | ⟨h, hb, fs, fb, r, _, _, rfl, hr⟩
    · rcases (C61_header_errors b _).1 h with ⟨_, h⟩ | ⟨h1, h2, h⟩ | ⟨h1, _, h2, h⟩ | ⟨h1, _, _, h2, h⟩
      · simp at h
      all_goals
        cases h
        refine .inr ?_
      · refine .inl ⟨by simp; omega, ?_⟩
        rwa [List.drop_take, List.take_take]
      · refine .inr ⟨.inl (by simp; omega), ?_⟩
        rwa [List.drop_take, List.take_take]
      · refine .inr ⟨.inr (by simp; omega), ?_⟩
        rwa [List.drop_take, List.take_take]
    · rcases hr with ⟨_, he⟩ | ⟨_, e', he, h⟩ | ⟨_, _, _, h⟩ | ⟨_, _, _, pe, _, h⟩ | ⟨_, _, _, _, _, _, _, _, _, h⟩
      · exact .inl (tag_frame he)
      all_goals simp at h
  · exact badText_range h3 h1
  · exact h1
  · exact h1
  · trivial
  · trivial

/-- **C130.** Each of those listed is the error of some input, in every build, however small the stack is. -/
theorem C130_each (plat : Plat) (e : NomErr) (h : Occurs e) (hs : PointsAtLess e) : ∃ b, parseFile plat b = .err e := by
  match e, h with
  | .error (.nom s .eof), _ =>
    have hs := hs s rfl
    have hn : (UInt32.ofNat (s.length + 5)).toNat = s.length + 5 := UInt32.toNat_ofNat_of_lt (by simpa using hs)
    refine occurs_frame (r := le32 (UInt32.ofNat (s.length + 5)) ++ s) ((C61_frame_errors plat _ _).2 ?_)
    refine .inr (.inr (.inl ⟨_, s, rfl, by omega, ?_, rfl⟩))
    rw [hn, List.length_append, le32, leBytes_length]
    omega
  | .error (.nom s .tag), h =>
    rcases h with ⟨h1, h2⟩ | ⟨h1, h2⟩ | ⟨h1 | h1, h2⟩
    · refine occurs_frame (r := leNat32 (4 + s.length) ++ s ++ []) ((C61_frame_errors plat _ _).2 ?_)
      exact .inr (.inr (.inr ⟨s, [], by omega, rfl, .inl ⟨h2, rfl⟩⟩))
    · refine ⟨zeros 4 ++ s, (C61_file_errors plat _ _).2 (.inl ((C61_header_errors _ _).2 (.inr (.inl ⟨?_, ?_, ?_⟩))))⟩
      · simp [zeros, h1]
      · simpa [zeros] using h2
      · rw [List.take_of_length_le (by simp [zeros, h1])]
        simp [zeros]
    · refine ⟨zeros 4 ++ ([0xE0, 0xA5] ++ (zeros 14 ++ s)),
        (C61_file_errors plat _ _).2 (.inl ((C61_header_errors _ _).2 (.inr (.inr (.inl ⟨?_, ?_, ?_, ?_⟩)))))⟩
      · simp [zeros, h1]
      · simp [zeros]
      · simpa [zeros] using h2
      · rw [List.take_of_length_le (by simp [zeros, h1])]
        simp [zeros]
    · refine ⟨zeros 4 ++ ([0xE0, 0xA5] ++ (zeros 18 ++ s)),
        (C61_file_errors plat _ _).2 (.inl ((C61_header_errors _ _).2 (.inr (.inr (.inr ⟨?_, ?_, ?_, ?_, ?_⟩)))))⟩
      · simp [zeros, h1]
      · simp [zeros]
      · simp [zeros]
      · simpa [zeros] using h2
      · rw [List.take_of_length_le (by simp [zeros, h1])]
        simp [zeros]
  | .error (.utf8Error n k), h =>
    obtain ⟨t, h1, h2⟩ := badText_occurs h
    refine occurs_body 0x2020 (body := leBytes 4 1 ++ (leNat16 t.length ++ t ++ []))
      (.later (by decide) (Problem.badText (next := _) h1 h2)) ?_
    simp [leNat16, leBytes_length]
    omega
  | .failure (.invalidFrameSize n), h =>
    exact occurs_frame (r := le32 n ++ []) ((C61_frame_errors plat _ _).2 (.inr (.inl ⟨n, [], rfl, h, rfl⟩)))
  | .failure (.invalidFrameRange a z), h =>
    refine occurs_body 0x2018 (body := leBytes 2 1 ++ (leBytes 8 0 ++ (leBytes 2 a.toNat ++ (leBytes 2 z.toNat ++ []))))
      (.later (by decide) (.later (by decide) (.later (x := a.toNat) a.toNat_lt (.later (x := z.toNat) z.toNat_lt ?_)))) ?_
    · have : z.toNat < a.toNat := h
      rw [if_pos this, UInt16.ofNat_toNat, UInt16.ofNat_toNat]
      exact .refused
    · simp [leBytes_length]
  | .failure (.paletteError pe), _ => exact occurs_palette plat pe
  | .failure .layerIndexOutOfBounds, _ =>
    refine occurs_file .rgba [.cel ⟨1, 0, 0, 0, 0, .linkedCel 0, none⟩] trivial ⟨?_, by decide +kernel⟩ (by simp) (.inr ⟨by simp, ?_⟩)
    · simp only [List.mem_singleton, forall_eq]
      exact ⟨⟨nofun, rfl⟩, by decide +kernel⟩
    · exact ⟨[], _, [], rfl, by simp, by decide, rfl⟩

/-- **C130.** So these are exactly the errors of `parse_file`. -/
theorem C130_exactly (plat : Plat) (e : NomErr) (hs : PointsAtLess e) : (∃ b, parseFile plat b = .err e) ↔ Occurs e :=
  ⟨fun ⟨b, h⟩ => C130_only plat b e h, fun h => C130_each plat e h hs⟩

/-! ## The errors of `load` -/

/-- A cel without an image. -/
def emptyCel (l : UInt16) (content : CelContent) : CelChunk :=
  { layerIndex := l, x := 0, y := 0, opacity := 0, zIndex := 0, content, userData := none }

/-- Frame `k` of a file whose only cel is `c`, in frame `i`. -/
def loneFrame (i : Nat) (c : CelChunk) (k : Nat) : RawFrame :=
  ⟨0, (if k = 0 then List.replicate (2 ^ 16) (.layer unseenLayer) else []) ++ if k = i then [.cel c] else []⟩

/-- A file whose only cel is `c`, in frame `i`. -/
def loneFile (i : Nat) (c : CelChunk) : RawFile := ⟨anyHeader .rgba, (List.range (i + 1)).map (loneFrame i c)⟩

theorem loneFrame_plain (i : Nat) (c : CelChunk) (k : Nat) : ∀ x ∈ (loneFrame i c k).chunks, ∀ u, x ≠ .userData u := by
  intro x hx u
  simp only [loneFrame, List.mem_append] at hx
  rcases hx with hx | hx
  · split at hx
    · rw [List.eq_of_mem_replicate hx]; nofun
    · cases hx
  · split at hx
    · rw [List.mem_singleton.1 hx]; nofun
    · cases hx

theorem celsOf_loneFrame (i : Nat) (l : UInt16) (content : CelContent) (k : Nat) :
    celsOf (loneFrame i (emptyCel l content) k).chunks = if k = i then [emptyCel l content] else [] := by
  rw [celsOf_plain (loneFrame_plain _ _ _)]
  simp only [loneFrame, List.filterMap_append]
  have : ((if k = 0 then List.replicate (2 ^ 16) (Chunk.layer unseenLayer) else []) : List Chunk).filterMap celOnly = [] := by
    rw [List.filterMap_eq_nil_iff]
    intro x hx
    split at hx
    · rw [List.eq_of_mem_replicate hx]; rfl
    · cases hx
  rw [this, List.nil_append]
  split <;> rfl

theorem layersOf_loneFrame (i : Nat) (c : CelChunk) (k : Nat) :
    layersOf (loneFrame i c k).chunks = if k = 0 then List.replicate (2 ^ 16) unseenLayer else [] := by
  rw [layersOf_plain (loneFrame_plain _ _ _)]
  simp only [loneFrame, List.filterMap_append]
  have : ((if k = i then [.cel c] else []) : List Chunk).filterMap layerOnly = [] := by
    split <;> rfl
  rw [this, List.append_nil]
  split
  · rw [List.filterMap_replicate]
    rfl
  · rfl

theorem allLayers_loneFile (i : Nat) (c : CelChunk) : (allLayers (loneFile i c).frames).length = 2 ^ 16 := by
  rw [allLayers, loneFile, List.flatMap_map]
  simp only [layersOf_loneFrame]
  rw [List.range_succ_eq_map, List.flatMap_cons, if_pos rfl, List.flatMap_map]
  rw [show ((List.range i).flatMap fun a => if a.succ = 0 then List.replicate (2 ^ 16) unseenLayer else []) = [] from
    List.flatMap_eq_nil_iff.2 (by simp), List.append_nil, List.length_replicate]

theorem loneFile_parses (plat : Plat) (i : Nat) (l : UInt16) (content : CelContent)
    (hu : ∀ t d, content = .unknown t d → Unlisted celTypes 4 t) (hsw : swapFlips content = content)
    (hlen : (celContentBytes content).length ≤ 32) (hown : ownImage (emptyCel l content) = none) :
    ∃ b file, parseFile plat b = .ok file ∧ ∀ i' l' c, celAt file i' l' = some c ↔
      i' = i ∧ l' = l.toNat ∧ c = emptyCel l content := by
  have hcontent : ∀ k, ∀ x ∈ (loneFrame i (emptyCel l content) k).chunks, ∃ code body,
      IsContent (readsUserData plat) x code body ∧ 6 + body.length ≤ chunkRoom x := by
    intro k x hx
    simp only [loneFrame, List.mem_append] at hx
    rcases hx with hx | hx
    · split at hx
      · rw [List.eq_of_mem_replicate hx]; exact content_unseen
      · cases hx
    · split at hx
      · rw [List.mem_singleton.1 hx]
        refine ⟨0x2005, celBytes (emptyCel l content), ⟨rfl, ?_⟩, ?_⟩
        · rw [show swapFlips (emptyCel l content).content = (emptyCel l content).content from hsw]
          exact isCel_bytes ⟨hu, rfl⟩
        · simp only [chunkRoom, celBytes, emptyCel]
          simp [le16, les16, leBytes, zeros]
          omega
      · cases hx
  have hroom : ∀ k, 16 + ((loneFrame i (emptyCel l content) k).chunks.map chunkRoom).sum < 2 ^ 32 := by
    intro k
    have h1 : (((if k = 0 then List.replicate (2 ^ 16) (Chunk.layer unseenLayer) else []) : List Chunk).map chunkRoom).sum ≤ 2 ^ 22 := by
      split
      · rw [List.map_replicate, List.sum_replicate_nat]
        decide +kernel
      · simp
    have h2 : (((if k = i then [.cel (emptyCel l content)] else []) : List Chunk).map chunkRoom).sum ≤ 64 := by
      split
      · simp [chunkRoom, hown]
      · simp
    simp only [loneFrame, List.map_append, List.sum_append]
    omega
  obtain ⟨bs, hbs⟩ := write_seq (G := IsFrame (readsUserData plat)) (xs := (loneFile i (emptyCel l content)).frames) (by
    intro fr hfr
    simp only [loneFile, List.mem_map] at hfr
    obtain ⟨k, -, rfl⟩ := hfr
    exact write_frame (hcontent k) (hroom k))
  have hraw : parseRawFile plat (headerBytes (anyHeader .rgba) ++ bs) = .ok (loneFile i (emptyCel l content)) :=
    parseRawFile_ok.2 ⟨_, bs, isHeader_bytes trivial, by simp [loneFile], hbs, rfl⟩
  have hcels : ∀ c ∈ allCels (loneFile i (emptyCel l content)).frames,
      c.layerIndex.toNat < (allLayers (loneFile i (emptyCel l content)).frames).length := by
    intro c _
    rw [allLayers_loneFile]
    exact c.layerIndex.toNat_lt
  have hpal : filePalette (loneFile i (emptyCel l content)) = .ok none := by
    rw [filePalette_eq]
    rfl
  refine ⟨_, _, parseFile_ok.2 ⟨_, hraw, (assembleFile_ok (fresh hraw)).2 ⟨none, hpal, hcels, rfl⟩⟩, ?_⟩
  intro i' l' c
  have hslot : ∀ k, slot (if k = i then [emptyCel l content] else []) l' = some c ↔
      k = i ∧ l' = l.toNat ∧ c = emptyCel l content := by
    intro k
    by_cases hk : k = i
    · rw [if_pos hk, slot_cons]
      by_cases hl : l.toNat = l'
      · simp [slot, emptyCel, hl, hk, eq_comm]
      · simp [slot, emptyCel, hl, hk, Ne.symm hl]
    · simp [slot, hk]
  rw [celAt_eq]
  constructor
  · rintro ⟨fr, h1, h2⟩
    simp only [List.getElem?_map, Option.map_eq_some_iff, loneFile] at h1
    obtain ⟨_, ⟨k, h3, rfl⟩, rfl⟩ := h1
    obtain ⟨hlt, h4⟩ := List.getElem?_eq_some_iff.1 h3
    rw [List.getElem_range] at h4
    subst h4
    simp only [slots, List.getElem?_map, Option.map_eq_some_iff] at h2
    obtain ⟨m, h5, h6⟩ := h2
    obtain ⟨_, h7⟩ := List.getElem?_eq_some_iff.1 h5
    rw [List.getElem_range] at h7
    subst h7
    rw [celsOf_loneFrame] at h6
    exact (hslot _).1 h6
  · intro h
    obtain ⟨h1, h2, h3⟩ := h
    refine ⟨⟨0, slots (allLayers (loneFile i (emptyCel l content)).frames).length
      (celsOf (loneFrame i (emptyCel l content) i').chunks)⟩, ?_, ?_⟩
    · rw [loneFile, List.getElem?_map, List.getElem?_map, List.getElem?_range (by omega)]
      rfl
    · have := l.toNat_lt
      simp only [slots, List.getElem?_map]
      rw [List.getElem?_range (by rw [allLayers_loneFile]; omega), celsOf_loneFrame, Option.map_some, (hslot i').2 ⟨h1, h2, h3⟩]

theorem lone_error (plat : Plat) (i : Nat) (l : UInt16) (content : CelContent)
    (hu : ∀ t d, content = .unknown t d → Unlisted celTypes 4 t) (hsw : swapFlips content = content)
    (hlen : (celContentBytes content).length ≤ 32) (hown : ownImage (emptyCel l content) = none) :
    ∃ b, AsepriteFile.load plat b = .err (complaint i (emptyCel l content)) := by
  obtain ⟨b, file, hb, h⟩ := loneFile_parses plat i l content hu hsw hlen hown
  refine ⟨b, (C33_cause plat b file hb _).2 ⟨i, l.toNat, _, ⟨(h _ _ _).2 ⟨rfl, rfl, rfl⟩, ?_, ?_, ?_⟩, rfl⟩⟩
  · have hno : ∀ i' l', imageAt file i' l' = none := by
      intro i' l'
      rw [imageAt]
      cases hc : celAt file i' l' with
      | none => rfl
      | some c =>
        rw [((h _ _ _).1 hc).2.2]
        exact hown
    cases content with
    | image im => cases hown
    | linkedCel f => simp [Resolvable, emptyCel, hno]
    | _ => simp [Resolvable, emptyCel]
  · intro i' l' c' hlt hc
    have := ((h _ _ _).1 hc).1
    omega
  · intro l' c' hlt hc
    have := ((h _ _ _).1 hc).2.1
    omega

/-- **C130.** These are exactly the errors of `load`. -/
theorem C130_load (plat : Plat) (e : LoadSpriteError) (hs : ∀ e', e = .parse e' → PointsAtLess e') :
    (∃ b, AsepriteFile.load plat b = .err e) ↔ LoadOccurs e := by
  cases e with
  | parse e =>
    simp only [(C33_load_succeeds plat _).2.2.1]
    exact C130_exactly plat e (hs e rfl)
  | invalidLinkedCel i l =>
    refine ⟨fun _ => trivial, fun _ => ?_⟩
    exact lone_error plat i l (.linkedCel 0) nofun rfl (by decide) rfl
  | invalidCel =>
    refine ⟨fun _ => trivial, fun _ => ?_⟩
    exact lone_error plat 0 0 (.unknown 9 []) (fun t d h => by cases h; exact ⟨by decide, by decide⟩) rfl (by decide) rfl

/-! ## The errors of `load_image` and of rendering -/

/-- A sprite with one image. -/
def oneImage (d : ColorDepth) (im : Image) : Sprite where
  size := (1, 1)
  depth := d
  transparent := 0
  palette := none
  layers := []
  frames := [⟨0, (0, 0), [⟨(0, 0), (im.width, im.height), 0, 0⟩]⟩]
  tags := []
  images := [im]

theorem oneImage_loaded (plat : Plat) (d : ColorDepth) (im : Image) (hd : d ≠ .indexed)
    (hu : ∀ n, d = .unknown n → n ≠ 8 ∧ n ≠ 16 ∧ n ≠ 32) (hlen : im.data.length < 2 ^ 20) :
    ∃ b f, AsepriteFile.load plat b = .ok f ∧ f.file.header.colorDepth = d ∧ f.images = [im] := by
  obtain ⟨b, f, h1, h2⟩ := C129_every plat (oneImage d im) (by
    refine ⟨hu, fun h => absurd h hd, fun _ => rfl, by simp [oneImage], by simp [oneImage], by simp [oneImage],
      by simp [oneImage], by simp [oneImage], by simp [oneImage], by simp [oneImage], [(0, 0)], rfl, by simp, ?_, ?_⟩
    · intro k i l hk
      match k, hk with
      | 0, hk => cases hk; exact ⟨_, _, rfl, .head _, rfl, rfl⟩
      | k + 1, hk => simp at hk
    · intro i fr c hfr hc
      match i, hfr with
      | 0, hfr =>
        cases hfr
        rw [List.mem_singleton.1 hc]
        exact ⟨0, rfl, .inl rfl⟩
      | i + 1, hfr => simp [oneImage] at hfr) (by
    simp only [Small, oneImage, dataLength, List.mem_singleton, forall_eq]
    simp
    omega)
  exact ⟨b, f, h1, congrArg Sprite.depth h2, congrArg Sprite.images h2⟩

/-- **C130.** `load_image` can return every error but `MissingPalette`. -/
theorem C130_load_image (plat : Plat) (e : LoadImageError) :
    (∃ b f i t, AsepriteFile.load plat b = .ok f ∧ (f.loadImage Zlib.inflate i t).1 = .err e) ↔ e ≠ .missingPalette := by
  constructor
  · rintro ⟨b, f, i, t, h, h1⟩ rfl
    exact C22_never_missing_palette plat b f h _ i t h1
  · intro he
    have key : ∀ d im, d ≠ .indexed → (∀ n, d = .unknown n → n ≠ 8 ∧ n ≠ 16 ∧ n ≠ 32) → im.data.length < 2 ^ 20 →
        (∀ b f, AsepriteFile.load plat b = .ok f → f.file.header.colorDepth = d → f.images[0]? = some im →
          ∃ t, (f.loadImage Zlib.inflate 0 t).1 = .err e) →
        ∃ b f i t, AsepriteFile.load plat b = .ok f ∧ (f.loadImage Zlib.inflate i t).1 = .err e := by
      intro d im h1 h2 h3 h4
      obtain ⟨b, f, h5, h6, h7⟩ := oneImage_loaded plat d im h1 h2 h3
      obtain ⟨t, h8⟩ := h4 b f h5 h6 (by rw [h7]; rfl)
      exact ⟨b, f, 0, t, h5, h8⟩
    cases e with
    | missingPalette => exact absurd rfl he
    | targetBufferTooSmall =>
      refine key .rgba ⟨1, 1, [], false⟩ nofun nofun (by decide) fun b f h hd him => ⟨[], ?_⟩
      exact (C43_contract_partial plat b f h Zlib.inflate 0 _ him []).1.2 (by decide)
    | unsupportedColorDepth =>
      refine key (.unknown 24) ⟨0, 0, [], false⟩ nofun (by simp) (by decide) fun b f h hd him => ⟨[], ?_⟩
      exact ((C43_contract_partial plat b f h Zlib.inflate 0 _ him []).2.2.2.2.1 (by decide)).1 _ hd
    | decompressError =>
      refine key .rgba ⟨0, 0, [], true⟩ nofun nofun (by decide) fun b f h hd him => ⟨[], ?_⟩
      refine (((C43_contract_partial plat b f h Zlib.inflate 0 _ him []).2.2.2.2.1 (by decide)).2 (by rw [hd]; nofun)).2.1 rfl ?_
      rw [hd]
      decide +kernel
    | invalidImageData =>
      refine key .grayscale ⟨0, 0, [1], false⟩ nofun nofun (by decide) fun b f h hd him => ⟨[], ?_⟩
      refine (((C43_contract_partial plat b f h Zlib.inflate 0 _ him []).2.2.2.2.1 (by decide)).2 (by rw [hd]; nofun)).2.2.2
        rfl ?_ (by rw [hd]; nofun)
      rw [hd]
      decide

/-- **C130.** Rendering a frame can return no error but `TargetBufferTooSmall`: problems of images are panics. -/
theorem C130_render (plat : Plat) (hash : List HashInput → UInt64) (sel : LayerSelection) (e : LoadImageError) :
    ((∃ b f i t, AsepriteFile.load plat b = .ok f ∧ (f.renderFrame plat Zlib.inflate i sel t).1 = .err e) ↔
      e = .targetBufferTooSmall) ∧
    ((∃ b f i t, AsepriteFile.load plat b = .ok f ∧ (f.combinedFrameImage plat Zlib.inflate hash i t).1 = .err e) ↔
      e = .targetBufferTooSmall) := by
  have key : ∀ sel, (∃ b f i t, AsepriteFile.load plat b = .ok f ∧ (f.renderFrame plat Zlib.inflate i sel t).1 = .err e) ↔
      e = .targetBufferTooSmall := by
    intro sel
    constructor
    · rintro ⟨b, f, i, t, h, h1⟩
      by_cases ht : t.length < f.size.1.toNat * f.size.2.toNat * 4
      · rw [(C36_buffer plat b f h Zlib.inflate i sel t).1.2 ht] at h1
        cases h1
        rfl
      · cases hi : f.frames[i]? with
        | none =>
          rw [renderFrame_eq, if_neg (show ¬ t.length < canvasBytes f from ht), hi] at h1
          cases h1
        | some lf =>
          rcases (C41_failures_partial plat b f h Zlib.inflate i lf hi sel t (by omega)).1 with h2 | ⟨k, h2⟩ <;>
            rw [h2] at h1 <;> cases h1
    · rintro rfl
      obtain ⟨b, f, h1, h2⟩ := C129_every plat Sample.linkedSprite Sample.linkedSprite_possible
        (show ∀ fr ∈ Sample.linkedSprite.frames, _ by decide +kernel)
      refine ⟨b, f, 0, [], h1, (C36_buffer plat b f h1 Zlib.inflate 0 sel []).1.2 ?_⟩
      rw [show f.size = (2, 1) from congrArg Sprite.size h2]
      decide
  refine ⟨key sel, ?_⟩
  simp only [(C52_combined plat Zlib.inflate hash _ _ _).2.1]
  exact key .visible

/-! ## Examples -/

-- any numbers may be in an error
example : Occurs (.error (.utf8Error 1234 (some 3))) ∧ PointsAtLess (.error (.utf8Error 1234 (some 3))) := by
  exact ⟨.inr (.inr ⟨rfl, by decide⟩), nofun⟩

-- but not all errors that can be written down occur
example : ¬ Occurs (.failure (.invalidChunkSize 3)) ∧ ¬ Occurs (.error (.utf8Error 65533 (some 2))) ∧
    ¬ Occurs (.error (.invalidPropertyType 9)) ∧ ¬ Occurs (.failure (.dwordToUsize 1)) := by
  refine ⟨id, ?_, id, id⟩
  show ¬ (_ ∨ _)
  decide

end Ase
