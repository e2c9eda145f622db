import Verif.Spec.Damage
import Verif.Lemmas.Reserved
import Verif.Props.Storage

/-!
# Exchanging bytes of an image
-/

namespace Ase

open Spec

variable {α β : Type} {R : α → α → Prop} {S : β → β → Prop}

theorem Spec.OneChanged.imp {R' : α → α → Prop} (h : ∀ x x', R x x' → R' x x') {xs xs' : List α}
    (hc : OneChanged R xs xs') : OneChanged R' xs xs' := by
  induction hc with
  | same xs => exact .same xs
  | here xs hr => exact .here xs (h _ _ hr)
  | there x _ ih => exact .there x ih

theorem Spec.OneChanged.symm {R' : α → α → Prop} (h : ∀ x x', R x x' → R' x' x) {xs xs' : List α}
    (hc : OneChanged R xs xs') : OneChanged R' xs' xs := by
  induction hc with
  | same xs => exact .same xs
  | here xs hr => exact .here xs (h _ _ hr)
  | there x _ ih => exact .there x ih

theorem Spec.OneChanged.append_left (zs : List α) {xs xs' : List α} (hc : OneChanged R xs xs') :
    OneChanged R (zs ++ xs) (zs ++ xs') := by
  induction zs with
  | nil => exact hc
  | cons z zs ih => exact .there z ih

theorem Spec.OneChanged.append_right (zs : List α) {xs xs' : List α} (hc : OneChanged R xs xs') :
    OneChanged R (xs ++ zs) (xs' ++ zs) := by
  induction hc with
  | same xs => exact .same _
  | here xs hr => exact .here _ hr
  | there x _ ih => exact .there x ih

theorem Spec.OneChanged.flatMap {g : α → List β} (h : ∀ x x', R x x' → OneChanged S (g x) (g x')) {xs xs' : List α}
    (hc : OneChanged R xs xs') : OneChanged S (xs.flatMap g) (xs'.flatMap g) := by
  induction hc with
  | same xs => exact .same _
  | here xs hr => rw [List.flatMap_cons, List.flatMap_cons]; exact (h _ _ hr).append_right _
  | there x _ ih => rw [List.flatMap_cons, List.flatMap_cons]; exact ih.append_left _

theorem Spec.OneChanged.map {g : α → β} (h : ∀ x x', R x x' → S (g x) (g x')) {xs xs' : List α}
    (hc : OneChanged R xs xs') : OneChanged S (xs.map g) (xs'.map g) := by
  induction hc with
  | same xs => exact .same _
  | here xs hr => exact .here _ (h _ _ hr)
  | there x _ ih => exact .there _ ih

theorem Spec.OneChanged.filterMap {g : α → Option β}
    (h : ∀ x x', R x x' → g x = g x' ∨ ∃ y y', g x = some y ∧ g x' = some y' ∧ S y y') {xs xs' : List α}
    (hc : OneChanged R xs xs') : OneChanged S (xs.filterMap g) (xs'.filterMap g) := by
  induction hc with
  | same xs => exact .same _
  | @here x x' xs hr =>
    rcases h _ _ hr with e | ⟨y, y', e, e', hs⟩
    · rw [List.filterMap_cons, List.filterMap_cons, e]; exact .same _
    · rw [List.filterMap_cons_some e, List.filterMap_cons_some e']; exact .here _ hs
  | there x _ ih =>
    rw [List.filterMap_cons, List.filterMap_cons]
    cases g x with
    | none => exact ih
    | some y => exact .there y ih

theorem Spec.OneChanged.map_eq {g : α → β} (h : ∀ x x', R x x' → g x = g x') {xs xs' : List α}
    (hc : OneChanged R xs xs') : xs.map g = xs'.map g := by
  induction hc with
  | same xs => rfl
  | here xs hr => rw [List.map_cons, List.map_cons, h _ _ hr]
  | there x _ ih => rw [List.map_cons, List.map_cons, ih]

theorem Spec.OneChanged.getLast {xs xs' : List α} (hc : OneChanged R xs xs') :
    xs.getLast? = xs'.getLast? ∨ ∃ x x', xs.getLast? = some x ∧ xs'.getLast? = some x' ∧ R x x' := by
  induction hc with
  | same xs => exact .inl rfl
  | @here x x' xs hr =>
    cases xs with
    | nil => exact .inr ⟨x, x', rfl, rfl, hr⟩
    | cons z zs => exact .inl (by rw [List.getLast?_cons_cons, List.getLast?_cons_cons])
  | @there x xs xs' hc ih =>
    cases hc with
    | same => exact .inl rfl
    | here zs hr =>
      rw [List.getLast?_cons_cons, List.getLast?_cons_cons]; exact ih
    | there z h =>
      rw [List.getLast?_cons_cons, List.getLast?_cons_cons]; exact ih

/-- Members at the same place are equal or related; at all places but one they are equal. -/
theorem Spec.OneChanged.getElem {xs xs' : List α} (hc : OneChanged R xs xs') : xs.length = xs'.length ∧
    ∃ k : Nat, (∀ j : Nat, j ≠ k → xs[j]? = xs'[j]?) ∧
      (xs[k]? = xs'[k]? ∨ ∃ x x', xs[k]? = some x ∧ xs'[k]? = some x' ∧ R x x') := by
  induction hc with
  | same xs => exact ⟨rfl, 0, fun _ _ => rfl, .inl rfl⟩
  | @here x x' xs hr =>
    refine ⟨rfl, 0, fun j hj => ?_, .inr ⟨x, x', rfl, rfl, hr⟩⟩
    obtain ⟨j, rfl⟩ := Nat.exists_eq_succ_of_ne_zero hj
    rfl
  | there x _ ih =>
    obtain ⟨h1, k, h2, h3⟩ := ih
    refine ⟨by simp [h1], k + 1, fun j hj => ?_, by simpa using h3⟩
    cases j with
    | zero => rfl
    | succ j => simpa using h2 j (by omega)

/-- Two functions that differ at one member of a list without repetitions. -/
theorem oneChanged_map {g g' : α → β} {k : α} [DecidableEq α] (h : ∀ x, x ≠ k → g x = g' x)
    (hk : g k = g' k ∨ S (g k) (g' k)) : ∀ (l : List α), l.Nodup → OneChanged S (l.map g) (l.map g')
  | [], _ => .same _
  | x :: l, hn => by
    rw [List.nodup_cons] at hn
    rw [List.map_cons, List.map_cons]
    by_cases hx : x = k
    · subst hx
      have : l.map g = l.map g' := List.map_congr_left fun z hz => h z fun e => hn.1 (e ▸ hz)
      rw [this]
      rcases hk with e | e
      · rw [e]; exact .same _
      · exact .here _ e
    · rw [h x hx]
      exact .there _ (oneChanged_map h hk l hn.2)

/-! ## Chunks, frames, files -/

/-- The cels are equal except for bytes of their images. -/
structure CelChanged (n : Nat) (m m' : Bytes) (c c' : CelChunk) : Prop where
  rest : ∃ im im', c.content = .image im ∧ c' = { c with content := .image im' } ∧ Damaged n m m' im im'

/-- The chunks are cels, equal except for bytes of their images. -/
def ChunkChanged (n : Nat) (m m' : Bytes) (c c' : Chunk) : Prop :=
  ∃ x x', c = .cel x ∧ c' = .cel x' ∧ CelChanged n m m' x x'

/-- The frames are equal except for bytes of one image. -/
def FrameChanged (n : Nat) (m m' : Bytes) (f f' : RawFrame) : Prop :=
  f'.duration = f.duration ∧ OneChanged (ChunkChanged n m m') f.chunks f'.chunks

theorem le16_inj {x y : UInt16} (h : le16 x = le16 y) : x = y := by
  have := congrArg leNat h
  simp only [le16, leNat_leBytes] at this
  have a := x.toNat_lt
  have b := y.toNat_lt
  exact UInt16.toNat_inj.1 (by omega)

theorem content_changed {U : UserDataChunk → Bytes → Prop} {c : Chunk} {n : Nat} {p r a m m' q : Bytes} {ty : UInt16}
    (hp : p.length = 7) (hty : ty = 0 ∨ ty = 2) (hr : r.length = 11) (ha : a.length = n)
    (h : IsContent U c 0x2005 (p ++ (le16 ty ++ (r ++ (a ++ (m ++ q)))))) :
    ∃ c', ChunkChanged n m m' c c' ∧ IsContent U c' 0x2005 (p ++ (le16 ty ++ (r ++ (a ++ (m' ++ q))))) := by
  cases c <;> first | (exact absurd h.1 (by decide)) | (exact absurd (id h : _ = (0x2017 : UInt16)) (by decide)) | skip
  rename_i x
  obtain ⟨hcode, ty', fut, body, hf, hb, hu, he⟩ := h
  have he : p ++ (le16 ty ++ (r ++ (a ++ (m ++ q)))) = (le16 x.layerIndex ++ les16 x.x ++ les16 x.y ++ [x.opacity]) ++
      (le16 ty' ++ (les16 x.zIndex ++ fut ++ body)) := by rw [he]; simp only [List.append_assoc]
  obtain ⟨e1, e2, e3⟩ := middle he (by rw [hp]; simp) (by simp)
  have e2 := le16_inj e2
  subst e2
  obtain ⟨li, xx, yy, op, z, co, ud⟩ := x
  dsimp only at *
  have him : ∃ im, co = .image im := by
    cases co with
    | image im => exact ⟨im, rfl⟩
    | linkedCel k => rcases hty with rfl | rfl <;> exact absurd hb.1 (by decide)
    | compressedTilemap => rcases hty with rfl | rfl <;> exact absurd hb.1 (by decide)
    | unknown t d =>
      rcases hty with rfl | rfl
      · exact nomatch (hb.1 : CelType.rawImageData = _)
      · exact nomatch (hb.1 : CelType.compressedImage = _)
  obtain ⟨im, rfl⟩ := him
  obtain ⟨ht, rfl⟩ := hb
  have e3 : (r ++ (a ++ (m ++ q))) = (les16 z ++ fut ++ le16 im.width ++ le16 im.height) ++ im.data := by
    rw [e3]; simp only [List.append_assoc]
  obtain ⟨e4, e5⟩ := List.append_inj e3 (by simp [hr, hf])
  refine ⟨.cel ⟨li, xx, yy, op, z, .image { im with data := a ++ (m' ++ q) }, ud⟩,
    ⟨_, _, rfl, rfl, ⟨im, _, rfl, rfl, rfl, rfl, rfl, a, q, ha, ?_, ?_⟩⟩,
    hcode, ty, fut, le16 im.width ++ le16 im.height ++ (a ++ (m' ++ q)), hf, ⟨ht, rfl⟩, hu, ?_⟩
  · rw [← e5]; simp only [List.append_assoc]
  · simp only [List.append_assoc]
  · rw [e1, e4]; simp only [List.append_assoc]

theorem chunk_changed {U : UserDataChunk → Bytes → Prop} {c : Chunk} {n : Nat} {p r a m m' q : Bytes} {ty : UInt16}
    (hp : p.length = 7) (hty : ty = 0 ∨ ty = 2) (hr : r.length = 11) (ha : a.length = n) (hm : m'.length = m.length)
    (hl : 4 + (le16 0x2005 ++ p ++ le16 ty ++ r ++ a ++ m ++ q).length < 2 ^ 32)
    (h : IsChunk U c (sizedRecord (le16 0x2005 ++ p ++ le16 ty ++ r ++ a ++ m ++ q))) :
    ∃ c', ChunkChanged n m m' c c' ∧ IsChunk U c' (sizedRecord (le16 0x2005 ++ p ++ le16 ty ++ r ++ a ++ m' ++ q)) := by
  obtain ⟨code', body, hb, hc, he⟩ := h
  rw [sizedRecord, List.append_assoc (leNat32 _) (le16 code')] at he
  obtain ⟨h1, h2⟩ := leNat32_append_inj hl hb he
  simp only [List.append_assoc] at h2
  obtain ⟨h3, rfl⟩ := List.append_inj h2 (by simp)
  have h3 := le16_inj h3
  subst h3
  obtain ⟨c', k1, k2⟩ := content_changed (m' := m') hp hty hr ha hc
  refine ⟨c', k1, _, _, by simp only [List.length_append, hm] at hb ⊢; omega, k2, ?_⟩
  have h4 : 4 + (le16 0x2005 ++ p ++ le16 ty ++ r ++ a ++ m' ++ q).length =
      6 + (p ++ (le16 ty ++ (r ++ (a ++ (m' ++ q))))).length := by simp; omega
  rw [sizedRecord, h4]
  simp only [List.append_assoc]

/-- A record behind other records may be exchanged for a related one; what follows the records is free. -/
theorem seq_change {G : α → Bytes → Prop} (hG : SizedBy G) {pre : Bytes} (hp : Records pre)
    {l l' : Bytes} (hl : 4 + l.length < 2 ^ 32) (hl' : l'.length = l.length)
    (he : ∀ x, G x (sizedRecord l) → ∃ x', R x x' ∧ G x' (sizedRecord l')) :
    ∀ (xs : List α) (a extra rest : Bytes), Seq G xs a → a ++ extra = pre ++ (sizedRecord l ++ rest) →
      ∃ xs' a' extra', OneChanged R xs xs' ∧ Seq G xs' a' ∧ a'.length = a.length ∧ extra'.length = extra.length ∧
        a' ++ extra' = pre ++ (sizedRecord l' ++ rest) ∧ (extra = [] → extra' = []) := by
  induction hp with
  | nil =>
    intro xs a extra rest hs hb
    cases hs with
    | nil =>
      refine ⟨[], [], sizedRecord l' ++ rest, .same _, .nil, rfl, ?_, rfl, fun h => ?_⟩
      · rw [show extra = sizedRecord l ++ rest from hb]
        simp [sizedRecord, hl']
      · subst h; exact absurd hb.symm (sizedRecord_ne_nil _ _)
    | @cons x xs b bs hx hs =>
      obtain ⟨k, hk, rfl⟩ := hG _ _ hx
      rw [List.append_assoc] at hb
      obtain ⟨rfl, hb2⟩ := sizedRecord_inj hk hl hb
      obtain ⟨x', hr, hx'⟩ := he _ hx
      exact ⟨x' :: xs, sizedRecord l' ++ bs, extra, .here _ hr, .cons hx' hs, by simp [sizedRecord, hl'], rfl,
        by simp [← hb2], id⟩
  | @cons m r hm hr ih =>
    intro xs a extra rest hs hb
    cases hs with
    | nil =>
      refine ⟨[], [], sizedRecord m ++ r ++ (sizedRecord l' ++ rest), .same _, .nil, rfl, ?_, rfl, fun h => ?_⟩
      · rw [show extra = sizedRecord m ++ r ++ (sizedRecord l ++ rest) from hb]
        simp [sizedRecord, hl']
      · subst h
        rw [List.append_assoc] at hb
        exact absurd hb.symm (sizedRecord_ne_nil _ _)
    | @cons x xs b bs hx hs =>
      obtain ⟨k, hk, rfl⟩ := hG _ _ hx
      rw [List.append_assoc, List.append_assoc] at hb
      obtain ⟨rfl, hb2⟩ := sizedRecord_inj hk hm hb
      obtain ⟨xs', a', extra', h0, h1, h2, h3, h4, h5⟩ := ih xs bs extra rest hs hb2
      exact ⟨x :: xs', sizedRecord k ++ a', extra', .there _ h0, .cons hx h1, by simp [h2], h3, by simp [h4], h5⟩

theorem oneChanged_length {xs xs' : List α} (h : OneChanged R xs xs') : xs.length = xs'.length := h.getElem.1

theorem frame_changed {U : UserDataChunk → Bytes → Prop} {n : Nat} {m m' : Bytes} {f : RawFrame}
    {fh chunks l l' y : Bytes} (hf : fh.length = 12)
    (hp : Records chunks) (hl : 4 + l.length < 2 ^ 32) (hl' : l'.length = l.length)
    (he : ∀ c, IsChunk U c (sizedRecord l) → ∃ c', ChunkChanged n m m' c c' ∧ IsChunk U c' (sizedRecord l'))
    (hb : 4 + (fh ++ chunks ++ sizedRecord l ++ y).length < 2 ^ 32)
    (h : IsFrame U f (sizedRecord (fh ++ chunks ++ sizedRecord l ++ y))) :
    ∃ f', FrameChanged n m m' f f' ∧ IsFrame U f' (sizedRecord (fh ++ chunks ++ sizedRecord l' ++ y)) := by
  obtain ⟨old, new, res, cs, extra, hr, hn, hs, hb2, h⟩ := h
  have h : sizedRecord (fh ++ chunks ++ sizedRecord l ++ y) = leNat32 (16 + cs.length + extra.length) ++
      (([0xFA, 0xF1] ++ le16 old ++ le16 f.duration ++ res ++ le32 new) ++ (cs ++ extra)) := by
    rw [h]; simp only [List.append_assoc]
  rw [sizedRecord] at h
  obtain ⟨h1, h2⟩ := leNat32_append_inj hb hb2 h
  rw [List.append_assoc, List.append_assoc] at h2
  obtain ⟨h3, h4⟩ := List.append_inj h2 (by simp [hf, hr])
  obtain ⟨xs', cs', extra', k0, k1, k2, k3, k4, _⟩ :=
    seq_change (sized_isChunk U) hp hl hl' he f.chunks cs extra y hs h4.symm
  refine ⟨{ f with chunks := xs' }, ⟨rfl, k0⟩, old, new, res, cs', extra', hr, ?_, k1, by omega, ?_⟩
  · rw [← hn]; exact (oneChanged_length k0).symm
  have h5 : (fh ++ chunks ++ sizedRecord l' ++ y).length = (fh ++ chunks ++ sizedRecord l ++ y).length := by
    simp [sizedRecord, hl']
  rw [sizedRecord, h5, h1, k2, k3, List.append_assoc fh, List.append_assoc fh, List.append_assoc chunks, ← k4, h3]
  simp only [List.append_assoc]

theorem file_changed {U : UserDataChunk → Bytes → Prop} {raw : RawFile} {n : Nat} {m m' b b' : Bytes}
    (h : OtherBytes n m m' b b') (hr : IsFile U raw b) :
    ∃ raw', raw'.header = raw.header ∧ OneChanged (FrameChanged n m m') raw.frames raw'.frames ∧ IsFile U raw' b' := by
  obtain ⟨head, frames, fh, chunks, p, r, a, q, y, z, ty, h1, h2, h3, h4, h5, h6, h7, h8, h9, h10, h11⟩ := h
  obtain ⟨header, fs, k1, k2, k3, k4⟩ := hr
  rw [List.append_assoc, List.append_assoc] at k4
  obtain ⟨rfl, rfl⟩ := List.append_inj k4 (by rw [h1, isHeader_length k1])
  obtain ⟨xs', a', extra', e0, e1, _, _, e4, e5⟩ :=
    seq_change (R := FrameChanged n m m') (sized_isFrame U) h2 h11 (by simp [h9, sizedRecord])
      (fun f hf => frame_changed h3 h4 h10 (by simp [h9]) (fun c hc => chunk_changed h5 h6 h7 h8 h9 h10 hc) h11 hf)
      raw.frames _ [] z k3 (List.append_nil _)
  rw [e5 rfl, List.append_nil] at e4
  refine ⟨⟨raw.header, xs'⟩, rfl, e0, head, a', k1, ?_, e1, ?_⟩
  · intro h
    have := oneChanged_length e0
    rw [show xs' = [] from h, List.length_nil] at this
    exact k2 (List.length_eq_zero_iff.1 this)
  · rw [e4]
    simp only [List.append_assoc]

/-! ## The images of the loaded sprite -/

section
variable {n : Nat} {m m' : Bytes}

theorem blank_changed {c c' : Chunk} (h : ChunkChanged n m m' c c') : blankChunk c = blankChunk c' := by
  obtain ⟨x, x', rfl, rfl, im, im', h1, rfl, h2⟩ := h
  obtain ⟨_, _, _, _, _, co, _⟩ := x
  dsimp only at h1
  subst h1
  simp only [blankChunk, blankCel, blankImage, h2.width, h2.height]

theorem blankFile_changed {raw raw' : RawFile} (hh : raw'.header = raw.header)
    (h : OneChanged (FrameChanged n m m') raw.frames raw'.frames) : blankFile raw = blankFile raw' := by
  unfold blankFile
  rw [hh, h.map_eq (g := fun fr => ({ fr with chunks := fr.chunks.map blankChunk } : RawFrame))]
  rintro f f' ⟨h1, h2⟩
  rw [h1, h2.map_eq (g := blankChunk) fun _ _ => blank_changed]

theorem run_changed {cs cs' : List Chunk} (h : OneChanged (ChunkChanged n m m') cs cs') : run cs = run cs' := by
  induction h with
  | same => rfl
  | here xs h => obtain ⟨x, x', rfl, rfl, _⟩ := h; rfl
  | there x _ ih => cases x <;> simp only [run, ih]

theorem owned_changed {cs cs' : List Chunk} (h : OneChanged (ChunkChanged n m m') cs cs') :
    OneChanged (fun p p' => p.2 = p'.2 ∧ ChunkChanged n m m' p.1 p'.1) (owned cs) (owned cs') := by
  induction h with
  | same => exact .same _
  | here xs h =>
    obtain ⟨x, x', rfl, rfl, h⟩ := h
    exact .here _ ⟨rfl, x, x', rfl, rfl, h⟩
  | @there x xs xs' h ih =>
    have := run_changed h
    cases x <;> first | exact ih | (simp only [owned, this]; exact .there _ ih)

theorem celsOf_changed {cs cs' : List Chunk} (h : OneChanged (ChunkChanged n m m') cs cs') :
    OneChanged (CelChanged n m m') (celsOf cs) (celsOf cs') := by
  refine (owned_changed h).filterMap ?_
  rintro ⟨c, us⟩ ⟨c', us'⟩ ⟨rfl, x, x', rfl, rfl, im, im', h1, rfl, h2⟩
  exact .inr ⟨_, _, rfl, rfl, im, im', h1, rfl, h2⟩

theorem CelChanged.layerIndex {c c' : CelChunk} (h : CelChanged n m m' c c') : c'.layerIndex = c.layerIndex := by
  obtain ⟨_, _, _, rfl, _⟩ := h
  rfl

theorem slot_changed {cs cs' : List CelChunk} (h : OneChanged (CelChanged n m m') cs cs') (i : Nat) :
    slot cs i = slot cs' i ∨ ∃ c c', slot cs i = some c ∧ slot cs' i = some c' ∧ CelChanged n m m' c c' := by
  unfold slot
  refine OneChanged.getLast (R := CelChanged n m m') ?_
  rw [← List.filterMap_eq_filter]
  refine h.filterMap fun c c' hc => ?_
  have hl := hc.layerIndex
  unfold Option.guard
  by_cases hi : c.layerIndex.toNat = i
  · exact .inr ⟨c, c', by simp [hi], by simp [hi, hl], hc⟩
  · exact .inl (by simp [hi, hl])

theorem slot_unchanged {cs cs' : List CelChunk} (h : OneChanged (CelChanged n m m') cs cs') :
    ∃ k, ∀ i, i ≠ k → slot cs i = slot cs' i := by
  induction h with
  | same => exact ⟨0, fun _ _ => rfl⟩
  | @here x x' xs h =>
    refine ⟨x.layerIndex.toNat, fun i hi => ?_⟩
    unfold slot
    rw [List.filter_cons_of_neg (by simpa using fun e => hi e.symm),
      List.filter_cons_of_neg (by rw [h.layerIndex]; simpa using fun e => hi e.symm)]
  | @there x xs xs' h ih =>
    obtain ⟨k, hk⟩ := ih
    refine ⟨k, fun i hi => ?_⟩
    have := hk i hi
    unfold slot at this ⊢
    rw [List.filter_cons, List.filter_cons]
    split
    · rw [List.getLast?_cons, List.getLast?_cons, this]
    · exact this

theorem slots_changed {cs cs' : List CelChunk} (h : OneChanged (CelChanged n m m') cs cs') (len : Nat) :
    OneChanged (fun o o' => ∃ c c', o = some c ∧ o' = some c' ∧ CelChanged n m m' c c') (slots len cs) (slots len cs') := by
  obtain ⟨k, hk⟩ := slot_unchanged h
  exact oneChanged_map hk (slot_changed h k) _ List.nodup_range

theorem fileImages_eq (file : File) :
    fileImages file = file.frames.flatMap fun fr => (fr.cels.filterMap id).filterMap ownImage := by
  have key : ∀ (fs : List Frame) (i : Nat), (keyed i fs).map (·.2) =
      fs.flatMap fun fr => (fr.cels.filterMap id).filterMap ownImage := by
    intro fs
    induction fs with
    | nil => intro i; rfl
    | cons f fs ih =>
      intro i
      rw [keyed, List.map_append, ih, List.flatMap_cons, frameKeyed, List.map_filterMap]
      congr 2
      funext c
      cases ownImage c <;> rfl
  exact key _ 0

theorem images_changed {raw raw' : RawFile} (h : OneChanged (FrameChanged n m m') raw.frames raw'.frames) (len : Nat) :
    OneChanged (Damaged n m m')
      (raw.frames.flatMap fun fr => ((slots len (celsOf fr.chunks)).filterMap id).filterMap ownImage)
      (raw'.frames.flatMap fun fr => ((slots len (celsOf fr.chunks)).filterMap id).filterMap ownImage) := by
  refine h.flatMap ?_
  rintro f f' ⟨_, h⟩
  refine OneChanged.filterMap (R := CelChanged n m m') ?_ (((slots_changed (celsOf_changed h) len)).filterMap ?_)
  · rintro c c' ⟨im, im', h1, rfl, h2⟩
    exact .inr ⟨im, im', by simp only [ownImage, h1], rfl, h2⟩
  · rintro o o' ⟨c, c', rfl, rfl, h⟩
    exact .inr ⟨c, c', rfl, rfl, h⟩

end

theorem images_of_load {plat : Plat} {b : Bytes} {raw : RawFile} {f : AsepriteFile} (hr : parseRawFile plat b = .ok raw)
    (h : AsepriteFile.load plat b = .ok f) : f.images = raw.frames.flatMap fun fr =>
      ((slots (allLayers raw.frames).length (celsOf fr.chunks)).filterMap id).filterMap ownImage := by
  obtain ⟨h1, h2⟩ := load_ok.1 h
  rw [parseFile_eq hr] at h1
  obtain ⟨pal, _, _, e⟩ := (assembleFile_ok (fresh hr)).1 h1
  rw [(ofFile_ok h2).2.2.2.1, fileImages_eq, e, List.flatMap_map]

theorem Spec.OtherBytes.symm {n : Nat} {m m' b b' : Bytes} (h : OtherBytes n m m' b b') : OtherBytes n m' m b' b := by
  obtain ⟨head, frames, fh, chunks, p, r, a, q, y, z, ty, h1, h2, h3, h4, h5, h6, h7, h8, h9, h10, h11⟩ := h
  exact .mk head frames fh chunks p r a q y z ty h1 h2 h3 h4 h5 h6 h7 h8 h9.symm (by simpa [h9] using h10)
    (by simpa [h9, sizedRecord] using h11)

end Ase
