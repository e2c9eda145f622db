import Verif.Spec.Reserved
import Verif.Lemmas.File
import Verif.Props.Framing
import Verif.Props.Attach

/-!
# Exchanging reserved bytes in records
-/

namespace Ase

open Spec

/-- The records described by `G` begin with their size. -/
def SizedBy {α : Type} (G : α → Bytes → Prop) : Prop :=
  ∀ x l, G x l → ∃ l', 4 + l'.length < 2 ^ 32 ∧ l = sizedRecord l'

theorem sized_isChunk (U : UserDataChunk → Bytes → Prop) : SizedBy (IsChunk U) := by
  rintro c l ⟨code, body, hl, _, rfl⟩
  have h : 4 + (le16 code ++ body).length = 6 + body.length := by simp; omega
  exact ⟨le16 code ++ body, by omega, by simp [sizedRecord, ← h]⟩

theorem sized_isFrame (U : UserDataChunk → Bytes → Prop) : SizedBy (IsFrame U) := by
  rintro f l ⟨old, new, res, chunks, extra, hr, _, _, hl, rfl⟩
  have h : 4 + ([0xFA, 0xF1] ++ le16 old ++ le16 f.duration ++ res ++ le32 new ++ chunks ++ extra : Bytes).length =
      16 + chunks.length + extra.length := by simp; omega
  exact ⟨[0xFA, 0xF1] ++ le16 old ++ le16 f.duration ++ res ++ le32 new ++ chunks ++ extra, by omega,
    by rw [sizedRecord, h]; simp only [List.append_assoc]⟩

theorem sizedRecord_inj {l l' r r' : Bytes} (h : 4 + l.length < 2 ^ 32) (h' : 4 + l'.length < 2 ^ 32)
    (he : sizedRecord l ++ r = sizedRecord l' ++ r') : l = l' ∧ r = r' := by
  simp only [sizedRecord, List.append_assoc] at he
  obtain ⟨h1, h2⟩ := leNat32_append_inj h h' he
  exact List.append_inj h2 (by omega)

theorem sizedRecord_ne_nil (l r : Bytes) : sizedRecord l ++ r ≠ [] := by
  intro h
  have := congrArg List.length h
  simp [sizedRecord] at this

/-- A record behind other records may be exchanged for one that describes the same; what follows the records is free. -/
theorem seq_exchange {α : Type} {G : α → Bytes → Prop} (hG : SizedBy G) {pre : Bytes} (hp : Records pre) {l l' : Bytes}
    (hl : 4 + l.length < 2 ^ 32) (hl' : l'.length = l.length)
    (he : ∀ x, G x (sizedRecord l) → G x (sizedRecord l')) :
    ∀ (xs : List α) (a extra rest : Bytes), Seq G xs a → a ++ extra = pre ++ (sizedRecord l ++ rest) →
      ∃ a' extra', Seq G xs a' ∧ a'.length = a.length ∧ extra'.length = extra.length ∧
        a' ++ extra' = pre ++ (sizedRecord l' ++ rest) ∧ (extra = [] → extra' = []) := by
  induction hp with
  | nil =>
    intro xs a extra rest hs hb
    cases hs with
    | nil =>
      refine ⟨[], sizedRecord l' ++ rest, .nil, rfl, ?_, rfl, fun h => ?_⟩
      · rw [show extra = sizedRecord l ++ rest from hb]
        simp [sizedRecord, hl']
      · subst h; exact absurd hb.symm (sizedRecord_ne_nil _ _)
    | @cons x xs b bs hx hs =>
      obtain ⟨k, hk, rfl⟩ := hG _ _ hx
      rw [List.append_assoc] at hb
      obtain ⟨rfl, hb2⟩ := sizedRecord_inj hk hl hb
      exact ⟨sizedRecord l' ++ bs, extra, .cons (he _ hx) hs, by simp [sizedRecord, hl'], rfl, by simp [← hb2], id⟩
  | @cons m r hm hr ih =>
    intro xs a extra rest hs hb
    cases hs with
    | nil =>
      refine ⟨[], sizedRecord m ++ r ++ (sizedRecord l' ++ rest), .nil, rfl, ?_, rfl, fun h => ?_⟩
      · rw [show extra = sizedRecord m ++ r ++ (sizedRecord l ++ rest) from hb]
        simp [sizedRecord, hl']
      · subst h
        rw [List.append_assoc] at hb
        exact absurd hb.symm (sizedRecord_ne_nil _ _)
    | @cons x xs b bs hx hs =>
      obtain ⟨k, hk, rfl⟩ := hG _ _ hx
      rw [List.append_assoc, List.append_assoc] at hb
      obtain ⟨rfl, hb2⟩ := sizedRecord_inj hk hm hb
      obtain ⟨a', extra', h1, h2, h3, h4, h5⟩ := ih xs bs extra rest hs hb2
      exact ⟨sizedRecord k ++ a', extra', .cons hx h1, by simp [h2], h3, by simp [h4], h5⟩

/-- In a list `P ++ (M ++ Q)` the middle is where it is. -/
theorem middle {p P m M q Q : Bytes} (h : p ++ (m ++ q) = P ++ (M ++ Q)) (hp : p.length = P.length)
    (hm : m.length = M.length) : p = P ∧ m = M ∧ q = Q := by
  obtain ⟨h1, h2⟩ := List.append_inj h hp
  obtain ⟨h3, h4⟩ := List.append_inj h2 hm
  exact ⟨h1, h3, h4⟩

theorem eq_le16 (m : Bytes) (h : m.length = 2) : ∃ x, m = le16 x := by
  have h1 := leBytes_leNat m
  have h2 := leNat_lt m
  rw [h] at h1 h2
  exact ⟨UInt16.ofNat (leNat m), by rw [le16, UInt16.toNat_ofNat_of_lt' (by simpa using h2), h1]⟩

theorem eq_le32 (m : Bytes) (h : m.length = 4) : ∃ x, m = le32 x := by
  have h1 := leBytes_leNat m
  have h2 := leNat_lt m
  rw [h] at h1 h2
  exact ⟨UInt32.ofNat (leNat m), by rw [le32, UInt32.toNat_ofNat_of_lt' (by simpa using h2), h1]⟩

/-- Reserved bytes of a header. -/
theorem header_reserved {h : Header} {a m m' z : Bytes} (hr : (a.length, m.length) ∈ reservedHeader)
    (hm : m'.length = m.length) (hh : IsHeader h (a ++ (m ++ z))) : IsHeader h (a ++ (m' ++ z)) := by
  obtain ⟨depth, ign, fut, hi, hf, hd, hl⟩ := hh
  simp only [reservedHeader, List.mem_cons, Prod.mk.injEq, List.not_mem_nil, or_false] at hr
  rcases hr with ⟨h1, h2⟩ | ⟨h1, h2⟩
  · have hl : a ++ (m ++ z) = (le32 h.fileSize ++ [0xE0, 0xA5] ++ le16 h.frames ++ le16 h.width ++ le16 h.height ++
        le16 depth ++ le32 h.flags ++ le16 h.speed ++ [0, 0, 0, 0] ++ [0, 0, 0, 0] ++ [h.transparentIndex]) ++ (ign ++
        (le16 h.colorCount ++ [h.pixelWidth] ++ [h.pixelHeight] ++ les16 h.gridX ++ les16 h.gridY ++
        le16 h.gridWidth ++ le16 h.gridHeight ++ fut)) := by rw [hl]; simp only [List.append_assoc]
    obtain ⟨rfl, rfl, rfl⟩ := middle hl
      (by simp only [h1, List.length_append, List.length_cons, List.length_nil, le16_length, le32_length]) (by omega)
    exact ⟨depth, m', fut, by omega, hf, hd, by simp only [List.append_assoc]⟩
  · have hl : a ++ (m ++ z) = (le32 h.fileSize ++ [0xE0, 0xA5] ++ le16 h.frames ++ le16 h.width ++ le16 h.height ++
        le16 depth ++ le32 h.flags ++ le16 h.speed ++ [0, 0, 0, 0] ++ [0, 0, 0, 0] ++ [h.transparentIndex] ++ ign ++
        le16 h.colorCount ++ [h.pixelWidth] ++ [h.pixelHeight] ++ les16 h.gridX ++ les16 h.gridY ++
        le16 h.gridWidth ++ le16 h.gridHeight) ++ (fut ++ []) := by rw [hl]; simp only [List.append_assoc, List.append_nil]
    obtain ⟨e1, e2, e3⟩ := middle (M := fut) (Q := []) hl
      (by simp only [h1, hi, List.length_append, List.length_cons, List.length_nil, le16_length, le32_length, les16_length])
      (by omega)
    rw [e1, e3]
    exact ⟨depth, ign, m', hi, by omega, hd, by simp only [List.append_assoc, List.append_nil]⟩

/-- Reserved bytes of a frame. -/
theorem frame_reserved {U : UserDataChunk → Bytes → Prop} {f : RawFrame} {a m m' y : Bytes} (ha : a.length = 6)
    (hm : m.length = 2) (hm' : m'.length = 2) (hl : 4 + (a ++ m ++ y).length < 2 ^ 32)
    (h : IsFrame U f (sizedRecord (a ++ m ++ y))) : IsFrame U f (sizedRecord (a ++ m' ++ y)) := by
  obtain ⟨old, new, res, chunks, extra, hr, hn, hs, hb, he⟩ := h
  have he : sizedRecord (a ++ m ++ y) ++ [] = leNat32 (16 + chunks.length + extra.length) ++
      (([0xFA, 0xF1] ++ le16 old ++ le16 f.duration) ++ (res ++ (le32 new ++ chunks ++ extra))) := by
    rw [he]; simp only [List.append_assoc, List.append_nil]
  rw [sizedRecord, List.append_assoc] at he
  obtain ⟨h1, h2⟩ := leNat32_append_inj hl hb he
  rw [List.append_nil, List.append_assoc] at h2
  obtain ⟨rfl, rfl, rfl⟩ := middle h2 (by rw [ha]; simp) (by omega)
  refine ⟨old, new, m', chunks, extra, hm', hn, hs, hb, ?_⟩
  rw [← h1, sizedRecord]
  simp only [List.length_append, List.append_assoc, hm, hm']

/-- Reserved bytes of a chunk. -/
theorem content_reserved {U : UserDataChunk → Bytes → Prop} {c : Chunk} {code : UInt16} {p m m' q : Bytes}
    (hr : (code, p.length, m.length) ∈ reservedChunk) (hm : m'.length = m.length)
    (h : IsContent U c code (p ++ (m ++ q))) : IsContent U c code (p ++ (m' ++ q)) := by
  simp only [reservedChunk, List.mem_cons, Prod.mk.injEq, List.not_mem_nil, or_false] at hr
  rcases hr with ⟨rfl, h1, h2⟩ | ⟨rfl, h1, h2⟩ | ⟨rfl, h1, h2⟩ | ⟨rfl, h1, h2⟩ | ⟨rfl, h1, h2⟩ | ⟨rfl, h1, h2⟩ |
    ⟨rfl, h1, h2⟩ | ⟨rfl, h1, h2⟩ | ⟨rfl, h1, h2⟩ | ⟨rfl, h1, h2⟩
  · cases c <;> first | (exact absurd h.1 (by decide)) | (exact absurd (id h : _ = (0x2017 : UInt16)) (by decide)) | skip
    rename_i x
    obtain ⟨_, l, extra, ⟨fl, ty, dw, dh, bl, fut, ti, hf, hn, e1, e2, e3, e4, e5, rfl⟩, he⟩ := h
    have he : p ++ (m ++ q) = (le16 fl ++ le16 ty ++ le16 x.childLevel) ++ ((le16 dw ++ le16 dh) ++
        (le16 bl ++ [x.opacity] ++ fut ++ str x.name ++ ti ++ extra)) := by rw [he]; simp only [List.append_assoc]
    obtain ⟨rfl, rfl, rfl⟩ := middle he (by rw [h1]; simp) (by rw [h2]; simp)
    obtain ⟨dw', hw⟩ := eq_le16 (m'.take 2) (by simp [hm])
    obtain ⟨dh', hh⟩ := eq_le16 (m'.drop 2) (by simp [hm])
    refine ⟨rfl, _, extra, ⟨fl, ty, dw', dh', bl, fut, ti, hf, hn, e1, e2, e3, e4, e5, rfl⟩, ?_⟩
    rw [← hw, ← hh, ← List.take_append_drop 2 m']
    simp only [List.append_assoc, List.take_append_drop]
  · cases c <;> first | (exact absurd h.1 (by decide)) | (exact absurd (id h : _ = (0x2017 : UInt16)) (by decide)) | skip
    rename_i x
    obtain ⟨_, l, extra, ⟨fl, ty, dw, dh, bl, fut, ti, hf, hn, e1, e2, e3, e4, e5, rfl⟩, he⟩ := h
    have he : p ++ (m ++ q) = (le16 fl ++ le16 ty ++ le16 x.childLevel ++ le16 dw ++ le16 dh ++
        le16 bl ++ [x.opacity]) ++ (fut ++ (str x.name ++ ti ++ extra)) := by rw [he]; simp only [List.append_assoc]
    obtain ⟨rfl, rfl, rfl⟩ := middle he (by rw [h1]; simp) (by rw [h2]; omega)
    exact ⟨rfl, _, extra, ⟨fl, ty, dw, dh, bl, m', ti, by omega, hn, e1, e2, e3, e4, e5, rfl⟩,
      by simp only [List.append_assoc]⟩
  · cases c <;> first | (exact absurd h.1 (by decide)) | (exact absurd (id h : _ = (0x2017 : UInt16)) (by decide)) | skip
    rename_i x
    obtain ⟨_, ty, fut, body, hf, hb, hu, he⟩ := h
    have he : p ++ (m ++ q) = (le16 x.layerIndex ++ les16 x.x ++ les16 x.y ++ [x.opacity] ++ le16 ty ++
        les16 x.zIndex) ++ (fut ++ body) := by rw [he]; simp only [List.append_assoc]
    obtain ⟨rfl, rfl, rfl⟩ := middle he (by rw [h1]; simp) (by rw [h2]; omega)
    exact ⟨rfl, ty, m', q, by omega, hb, hu, by simp only [List.append_assoc]⟩
  · cases c <;> first | (exact absurd h.1 (by decide)) | (exact absurd (id h : _ = (0x2017 : UInt16)) (by decide)) | skip
    rename_i x
    obtain ⟨_, l, extra, ⟨ty, fl, ga, res, icc, hf, e1, e2, rfl⟩, he⟩ := h
    have he : p ++ (m ++ q) = (le16 ty ++ le16 fl ++ Spec.fixed ga) ++ (res ++ (icc ++ extra)) := by
      rw [he]; simp only [List.append_assoc]
    obtain ⟨rfl, rfl, rfl⟩ := middle he (by rw [h1]; simp [Spec.fixed]) (by rw [h2]; omega)
    exact ⟨rfl, _, extra, ⟨ty, fl, ga, m', icc, by omega, e1, e2, rfl⟩, by simp only [List.append_assoc]⟩
  · cases c <;> first | (exact absurd h.1 (by decide)) | (exact absurd (id h : _ = (0x2017 : UInt16)) (by decide)) | skip
    rename_i x
    obtain ⟨_, l, extra, ⟨res, en, hf, e1, e2, rfl⟩, he⟩ := h
    have he : p ++ (m ++ q) = (leNat32 x.files.length) ++ (res ++ (en ++ extra)) := by
      rw [he]; simp only [List.append_assoc]
    obtain ⟨rfl, rfl, rfl⟩ := middle he (by rw [h1]; simp) (by rw [h2]; omega)
    exact ⟨rfl, _, extra, ⟨m', en, by omega, e1, e2, rfl⟩, by simp only [List.append_assoc]⟩
  · cases c <;> first | (exact absurd h.1 (by decide)) | (exact absurd (id h : _ = (0x2017 : UInt16)) (by decide)) | skip
    rename_i x
    obtain ⟨_, fut, hf, hn, he⟩ := h
    have he : p ++ (m ++ q) = (les16 x.x ++ les16 x.y ++ le16 x.width ++ le16 x.height) ++
        (fut ++ (str x.name ++ x.data)) := by rw [he]; simp only [List.append_assoc]
    obtain ⟨rfl, rfl, rfl⟩ := middle he (by rw [h1]; simp) (by rw [h2]; omega)
    exact ⟨rfl, m', by omega, hn, by simp only [List.append_assoc]⟩
  · cases c <;> first | (exact absurd h.1 (by decide)) | (exact absurd (id h : _ = (0x2017 : UInt16)) (by decide)) | skip
    rename_i x
    obtain ⟨_, l, extra, ⟨res, en, hf, e1, e2, rfl⟩, he⟩ := h
    have he : p ++ (m ++ q) = (leNat16 x.tags.length) ++ (res ++ (en ++ extra)) := by
      rw [he]; simp only [List.append_assoc]
    obtain ⟨rfl, rfl, rfl⟩ := middle he (by rw [h1]; simp) (by rw [h2]; omega)
    exact ⟨rfl, _, extra, ⟨m', en, by omega, e1, e2, rfl⟩, by simp only [List.append_assoc]⟩
  · cases c <;> first | (exact absurd h.1 (by decide)) | (exact absurd (id h : _ = (0x2017 : UInt16)) (by decide)) | skip
    rename_i x
    obtain ⟨_, l, extra, ⟨res, en, hf, e1, e2, e3, rfl⟩, he⟩ := h
    have he : p ++ (m ++ q) = (leNat32 x.entries.length ++ leNat32 x.firstIndex.toNat ++ leNat32 x.lastIndex.toNat) ++
        (res ++ (en ++ extra)) := by rw [he]; simp only [List.append_assoc]
    obtain ⟨rfl, rfl, rfl⟩ := middle he (by rw [h1]; simp) (by rw [h2]; omega)
    exact ⟨rfl, _, extra, ⟨m', en, by omega, e1, e2, e3, rfl⟩, by simp only [List.append_assoc]⟩
  · cases c <;> first | (exact absurd h.1 (by decide)) | (exact absurd (id h : _ = (0x2017 : UInt16)) (by decide)) | skip
    rename_i x
    obtain ⟨_, l, extra, ⟨fl, res, ke, e0, e1, e2, e3, e4, rfl⟩, he⟩ := h
    have he : p ++ (m ++ q) = (leNat32 x.sliceKeys.length ++ le32 fl) ++
        (le32 res ++ (str x.name ++ ke ++ extra)) := by rw [he]; simp only [List.append_assoc]
    obtain ⟨rfl, rfl, rfl⟩ := middle he (by rw [h1]; simp) (by rw [h2]; simp)
    obtain ⟨res', rfl⟩ := eq_le32 m' (by omega)
    exact ⟨rfl, _, extra, ⟨fl, res', ke, e0, e1, e2, e3, e4, rfl⟩, by simp only [List.append_assoc]⟩
  · cases c <;> first | (exact absurd h.1 (by decide)) | (exact absurd (id h : _ = (0x2017 : UInt16)) (by decide)) | skip
    rename_i x
    obtain ⟨_, l, extra, ⟨fl, res, ex, ti, hf, e1, e2, e3, e4, rfl⟩, he⟩ := h
    have he : p ++ (m ++ q) = (le32 x.id ++ le32 fl ++ le32 x.numberOfTiles ++ le16 x.width ++ le16 x.height ++
        les16 x.baseIndex) ++ (res ++ (str x.name ++ ex ++ ti ++ extra)) := by rw [he]; simp only [List.append_assoc]
    obtain ⟨rfl, rfl, rfl⟩ := middle he (by rw [h1]; simp) (by rw [h2]; omega)
    exact ⟨rfl, _, extra, ⟨fl, m', ex, ti, by omega, e1, e2, e3, e4, rfl⟩, by simp only [List.append_assoc]⟩

theorem chunk_reserved {U : UserDataChunk → Bytes → Prop} {c : Chunk} {code : UInt16} {p m m' q : Bytes}
    (hr : (code, p.length, m.length) ∈ reservedChunk) (hm : m'.length = m.length)
    (hl : 4 + (le16 code ++ p ++ m ++ q).length < 2 ^ 32)
    (h : IsChunk U c (sizedRecord (le16 code ++ p ++ m ++ q))) : IsChunk U c (sizedRecord (le16 code ++ p ++ m' ++ q)) := by
  obtain ⟨code', body, hb, hc, he⟩ := h
  rw [sizedRecord, List.append_assoc (leNat32 _) (le16 code')] at he
  obtain ⟨h1, h2⟩ := leNat32_append_inj hl hb he
  simp only [List.append_assoc] at h2
  obtain ⟨h3, rfl⟩ := List.append_inj h2 (by simp)
  have h3 : code = code' := by
    have := congrArg leNat h3
    simp only [le16, leNat_leBytes] at this
    have a := code.toNat_lt
    have b := code'.toNat_lt
    exact UInt16.toNat_inj.1 (by omega)
  subst h3
  refine ⟨code, p ++ (m' ++ q), by simp only [List.length_append, hm] at hb ⊢; omega, content_reserved hr hm hc, ?_⟩
  have h4 : 4 + (le16 code ++ p ++ m' ++ q).length = 6 + (p ++ (m' ++ q)).length := by simp; omega
  rw [sizedRecord, h4]
  simp only [List.append_assoc]

/-- A chunk of a frame may be exchanged for one that describes the same. -/
theorem frame_chunk {U : UserDataChunk → Bytes → Prop} {f : RawFrame} {fh chunks l l' y : Bytes} (hf : fh.length = 12)
    (hp : Records chunks) (hl : 4 + l.length < 2 ^ 32) (hl' : l'.length = l.length)
    (he : ∀ c, IsChunk U c (sizedRecord l) → IsChunk U c (sizedRecord l'))
    (hb : 4 + (fh ++ chunks ++ sizedRecord l ++ y).length < 2 ^ 32)
    (h : IsFrame U f (sizedRecord (fh ++ chunks ++ sizedRecord l ++ y))) :
    IsFrame U f (sizedRecord (fh ++ chunks ++ sizedRecord l' ++ y)) := by
  obtain ⟨old, new, res, cs, extra, hr, hn, hs, hb2, h⟩ := h
  have h : sizedRecord (fh ++ chunks ++ sizedRecord l ++ y) = leNat32 (16 + cs.length + extra.length) ++
      (([0xFA, 0xF1] ++ le16 old ++ le16 f.duration ++ res ++ le32 new) ++ (cs ++ extra)) := by
    rw [h]; simp only [List.append_assoc]
  rw [sizedRecord] at h
  obtain ⟨h1, h2⟩ := leNat32_append_inj hb hb2 h
  rw [List.append_assoc, List.append_assoc] at h2
  obtain ⟨h3, h4⟩ := List.append_inj h2 (by simp [hf, hr])
  obtain ⟨cs', extra', k1, k2, k3, k4, _⟩ :=
    seq_exchange (sized_isChunk U) hp hl hl' he f.chunks cs extra y hs h4.symm
  refine ⟨old, new, res, cs', extra', hr, hn, k1, by omega, ?_⟩
  have h5 : (fh ++ chunks ++ sizedRecord l' ++ y).length = (fh ++ chunks ++ sizedRecord l ++ y).length := by
    simp [sizedRecord, hl']
  rw [sizedRecord, h5, h1, k2, k3, List.append_assoc fh, List.append_assoc fh, List.append_assoc chunks, ← k4, h3]
  simp only [List.append_assoc]

theorem Spec.SameButReserved.symm {b b' : Bytes} (h : SameButReserved b b') : SameButReserved b' b := by
  induction h with
  | refl b => exact .refl b
  | trans _ _ h1 h2 => exact .trans h2 h1
  | header a m m' z hr hm => exact .header a m' m z (by rw [hm]; exact hr) hm.symm
  | frame head frames a m m' y z h1 h2 h3 h4 h5 h6 =>
    exact .frame head frames a m' m y z h1 h2 h3 h5 h4 (by simpa [h4, h5] using h6)
  | chunk head frames fh chunks p m m' q y z code h1 h2 h3 h4 h5 h6 h7 h8 =>
    exact .chunk head frames fh chunks p m' m q y z code h1 h2 h3 h4 (by rw [h6]; exact h5) h6.symm
      (by simpa [h6] using h7) (by simpa [h6, sizedRecord] using h8)

/-- Exchanging a frame. -/
theorem file_frame {U : UserDataChunk → Bytes → Prop} {raw : RawFile} {head frames l l' z : Bytes}
    (hh : head.length = 128) (hp : Records frames) (hl : 4 + l.length < 2 ^ 32) (hl' : l'.length = l.length)
    (he : ∀ f, IsFrame U f (sizedRecord l) → IsFrame U f (sizedRecord l'))
    (h : IsFile U raw (head ++ frames ++ sizedRecord l ++ z)) : IsFile U raw (head ++ frames ++ sizedRecord l' ++ z) := by
  obtain ⟨header, fs, k1, k2, k3, k4⟩ := h
  rw [List.append_assoc, List.append_assoc] at k4
  obtain ⟨rfl, rfl⟩ := List.append_inj k4 (by rw [hh, isHeader_length k1])
  obtain ⟨a', extra', e1, _, _, e4, e5⟩ :=
    seq_exchange (sized_isFrame U) hp hl hl' he raw.frames _ [] z k3 (List.append_nil _)
  rw [e5 rfl, List.append_nil] at e4
  refine ⟨head, a', k1, k2, e1, ?_⟩
  rw [e4]
  simp only [List.append_assoc]

/-- Two files that differ only in reserved bytes have the same contents. -/
theorem file_reserved {U : UserDataChunk → Bytes → Prop} {raw : RawFile} {b b' : Bytes} (h : SameButReserved b b') :
    IsFile U raw b → IsFile U raw b' := by
  induction h with
  | refl b => exact id
  | trans _ _ h1 h2 => exact h2 ∘ h1
  | header a m m' z hr hm =>
    rintro ⟨header, fs, k1, k2, k3, k4⟩
    have h128 := isHeader_length k1
    have hle : (a ++ m).length ≤ header.length := by
      simp only [reservedHeader, List.mem_cons, Prod.mk.injEq, List.not_mem_nil, or_false] at hr
      rw [List.length_append]
      omega
    obtain ⟨z1, rfl, rfl⟩ : ∃ z1, header = (a ++ m) ++ z1 ∧ z = z1 ++ fs := by
      rcases List.append_eq_append_iff.1 k4 with ⟨c, e1, e2⟩ | ⟨c, e1, e2⟩
      · exact ⟨c, e1, e2⟩
      · have : c = [] := by
          have := congrArg List.length e1
          rw [List.length_append (as := header)] at this
          exact List.length_eq_zero_iff.1 (by omega)
        subst this
        exact ⟨[], by simpa using e1.symm, by simpa using e2.symm⟩
    rw [List.append_assoc] at k1
    exact ⟨a ++ (m' ++ z1), fs, header_reserved hr hm k1, k2, k3, by simp only [List.append_assoc]⟩
  | frame head frames a m m' y z h1 h2 h3 h4 h5 h6 =>
    exact file_frame h1 h2 h6 (by simp [h4, h5]) fun f hf => frame_reserved h3 h4 h5 h6 hf
  | chunk head frames fh chunks p m m' q y z code h1 h2 h3 h4 h5 h6 h7 h8 =>
    exact file_frame h1 h2 h8 (by simp [h6, sizedRecord]) fun f hf =>
      frame_chunk h3 h4 h7 (by simp [h6]) (fun c hc => chunk_reserved h5 h6 h7 hc) h8 hf

end Ase
