import Verif.Spec.Patch
import Verif.Lemmas.Reserved
import Verif.Props.Framing
import Verif.Props.Redraw
import Verif.Props.Look

/-!
# C112: frames and chunks are read independently of each other
-/

namespace Ase

open Spec

/-- A record behind other records: what it is read as, and what may be put in its place. -/
theorem seq_patch {α : Type} {G : α → Bytes → Prop} (hG : SizedBy G) {l : Bytes} (hl : FitsRecord l) :
    ∀ (ls : List Bytes) (xs : List α) (a extra rest : Bytes), (∀ r ∈ ls, FitsRecord r) → Seq G xs a →
      a ++ extra = records ls ++ (sizedRecord l ++ rest) →
      (∀ x, xs[ls.length]? = some x → G x (sizedRecord l)) ∧ (extra = [] → ls.length < xs.length) ∧
      ∀ (l' : Bytes) (x' : α), (ls.length < xs.length → G x' (sizedRecord l')) →
        ∃ a' extra', Seq G (xs.set ls.length x') a' ∧ a' ++ extra' = records ls ++ (sizedRecord l' ++ rest) ∧
          (extra = [] → extra' = []) := by
  intro ls
  induction ls with
  | nil =>
    intro xs a extra rest _ hs hb
    cases hs with
    | nil =>
      refine ⟨fun x hx => (by cases hx), fun h => ?_, fun l' x' _ => ⟨[], sizedRecord l' ++ rest, .nil, rfl, fun h => ?_⟩⟩
      · subst h; exact absurd hb.symm (sizedRecord_ne_nil _ _)
      · subst h; exact absurd hb.symm (sizedRecord_ne_nil _ _)
    | @cons x xs b bs hx hs =>
      obtain ⟨k, hk, rfl⟩ := hG _ _ hx
      rw [List.append_assoc] at hb
      obtain ⟨rfl, hb2⟩ := sizedRecord_inj hk hl hb
      refine ⟨fun y hy => ?_, fun _ => by simp, fun l' x' hx' => ?_⟩
      · cases hy; exact hx
      · exact ⟨sizedRecord l' ++ bs, extra, .cons (hx' (by simp)) hs, by simp [records, ← hb2], id⟩
  | cons m ls ih =>
    intro xs a extra rest hsh hs hb
    cases hs with
    | nil =>
      refine ⟨fun x hx => (by cases hx), fun h => ?_, fun l' x' _ => ⟨[], records (m :: ls) ++ (sizedRecord l' ++ rest), .nil,
        rfl, fun h => ?_⟩⟩
      all_goals
        subst h
        rw [records, List.flatMap_cons, List.append_assoc] at hb
        exact absurd hb.symm (sizedRecord_ne_nil _ _)
    | @cons x xs b bs hx hs =>
      obtain ⟨k, hk, rfl⟩ := hG _ _ hx
      rw [records, List.flatMap_cons, List.append_assoc, List.append_assoc] at hb
      obtain ⟨rfl, hb2⟩ := sizedRecord_inj hk (hsh m List.mem_cons_self) hb
      obtain ⟨h1, h2, h3⟩ := ih xs bs extra rest (fun r hr => hsh r (List.mem_cons_of_mem _ hr)) hs hb2
      refine ⟨fun y hy => h1 y (by simpa using hy), fun h => by simpa using h2 h, fun l' x' hx' => ?_⟩
      obtain ⟨a', extra', h4, h5, h6⟩ := h3 l' x' fun h => hx' (by simpa using h)
      exact ⟨sizedRecord k ++ a', extra', .cons hx h4, by simp [records, h5], h6⟩

theorem isFrame_ok {plat : Plat} {l : Bytes} {fr : RawFrame} :
    parseRawframe plat l = .ok ([], fr) ↔ IsFrame (readsUserData plat) fr l := by
  rw [(C07_frame_framing plat l).1]
  constructor
  · rintro ⟨l', h, rfl⟩; simpa using h
  · intro h; exact ⟨l, h, by simp⟩

theorem isChunk_ok {plat : Plat} {l : Bytes} {c : Chunk} :
    parseChunk plat l = .ok ([], c) ↔ IsChunk (readsUserData plat) c l := by
  rw [(C05_chunk_framing plat l).1]
  constructor
  · rintro ⟨l', h, rfl⟩; simpa using h
  · intro h; exact ⟨l, h, by simp⟩

theorem file_patch {plat : Plat} {i : Nat} {l l' b b' : Bytes} (h : OtherFrame i l l' b b') {raw : RawFile}
    (hr : parseRawFile plat b = .ok raw) :
    (∃ fr, raw.frames[i]? = some fr ∧ parseRawframe plat (sizedRecord l) = .ok ([], fr)) ∧
    ∀ fr', parseRawframe plat (sizedRecord l') = .ok ([], fr') → parseRawFile plat b' = .ok (withFrame raw i fr') := by
  obtain ⟨head, before, after, h1, h2, rfl, h4, h5⟩ := h
  obtain ⟨header, fs, k1, k2, k3, k4⟩ := parseRawFile_ok.1 hr
  rw [List.append_assoc, List.append_assoc] at k4
  obtain ⟨rfl, rfl⟩ := List.append_inj k4 (by rw [h1, isHeader_length k1])
  obtain ⟨e1, e2, e3⟩ := seq_patch (sized_isFrame _) h4 before raw.frames _ [] after h2 k3 (List.append_nil _)
  have hlt := e2 rfl
  refine ⟨⟨_, List.getElem?_eq_getElem hlt, isFrame_ok.2 (e1 _ (List.getElem?_eq_getElem hlt))⟩, fun fr' hfr => ?_⟩
  obtain ⟨a', extra', e4, e5, e6⟩ := e3 l' fr' fun _ => isFrame_ok.1 hfr
  rw [e6 rfl, List.append_nil] at e5
  refine parseRawFile_ok.2 ⟨head, a', k1, ?_, e4, ?_⟩
  · intro hn
    have := congrArg List.length hn
    simp only [withFrame, List.length_set, List.length_nil] at this
    omega
  · rw [e5]
    simp only [List.append_assoc]

theorem Spec.OtherFrame.symm {i : Nat} {l l' b b' : Bytes} (h : OtherFrame i l l' b b') : OtherFrame i l' l b' b := by
  obtain ⟨head, before, after, h1, h2, h3, h4, h5⟩ := h
  exact .mk head before after h1 h2 h3 h5 h4

/-- **C112 (frames).** Let two files differ in frame record number `i` only, of whatever lengths, and let `parse_raw_file`
read the first one.  Then it reads the second one exactly if `parse_rawframe` reads the new record by itself, and the
result is the same except that this frame is the one read from the new record. -/
theorem C112_frame (plat : Plat) (i : Nat) (l l' b b' : Bytes) (h : OtherFrame i l l' b b') (raw : RawFile)
    (hr : parseRawFile plat b = .ok raw) (raw' : RawFile) :
    parseRawFile plat b' = .ok raw' ↔
      ∃ fr', parseRawframe plat (sizedRecord l') = .ok ([], fr') ∧ raw' = withFrame raw i fr' := by
  have key := (file_patch h hr).2
  constructor
  · intro hr'
    obtain ⟨⟨fr', -, h1⟩, -⟩ := file_patch h.symm hr'
    have := key fr' h1
    rw [hr'] at this
    exact ⟨fr', h1, Outcome.ok.inj this⟩
  · rintro ⟨fr', h1, rfl⟩
    exact key fr' h1

/-- **C112 (frames, their place).** The frame read from record number `i` by itself is frame number `i` of the file. -/
theorem C112_frame_number (plat : Plat) (i : Nat) (l l' b b' : Bytes) (h : OtherFrame i l l' b b') (raw : RawFile)
    (hr : parseRawFile plat b = .ok raw) :
    ∃ fr, raw.frames[i]? = some fr ∧ parseRawframe plat (sizedRecord l) = .ok ([], fr) := (file_patch h hr).1

theorem frame_patch {plat : Plat} {k : Nat} {m m' l l' : Bytes} (h : OtherChunk k m m' l l') (hl : FitsRecord l)
    (hl' : FitsRecord l') {fr : RawFrame} (hr : parseRawframe plat (sizedRecord l) = .ok ([], fr)) :
    (∀ c, fr.chunks[k]? = some c → parseChunk plat (sizedRecord m) = .ok ([], c)) ∧
    ∀ c', (k < fr.chunks.length → parseChunk plat (sizedRecord m') = .ok ([], c')) →
      parseRawframe plat (sizedRecord l') = .ok ([], withChunk fr k c') := by
  obtain ⟨head, before, after, h1, h2, rfl, h4, h5⟩ := h
  obtain ⟨old, new, res, cs, extra, hres, hn, hs, hb2, he⟩ := isFrame_ok.1 hr
  have he : sizedRecord (head ++ records before ++ sizedRecord m ++ after) = leNat32 (16 + cs.length + extra.length) ++
      (([0xFA, 0xF1] ++ le16 old ++ le16 fr.duration ++ res ++ le32 new) ++ (cs ++ extra)) := by
    rw [he]; simp only [List.append_assoc]
  rw [sizedRecord] at he
  obtain ⟨e1, e2⟩ := leNat32_append_inj hl hb2 he
  rw [List.append_assoc, List.append_assoc] at e2
  obtain ⟨e3, e4⟩ := List.append_inj e2 (by simp [h1, hres])
  obtain ⟨k1, k2, k3⟩ := seq_patch (sized_isChunk _) h4 before fr.chunks cs extra after h2 hs e4.symm
  refine ⟨fun c hc => isChunk_ok.2 (k1 c hc), fun c' hc' => ?_⟩
  obtain ⟨a', extra', k4, k5, -⟩ := k3 m' c' fun hlt => isChunk_ok.1 (hc' hlt)
  have hsz : 4 + (head ++ records before ++ sizedRecord m' ++ after).length = 16 + a'.length + extra'.length := by
    have := congrArg List.length k5
    simp only [List.length_append] at this ⊢
    omega
  refine isFrame_ok.2 ⟨old, new, res, a', extra', hres, ?_, k4, ?_, ?_⟩
  · rw [← hn]; simp [withChunk]
  · have := hl'
    unfold FitsRecord at this
    omega
  · rw [sizedRecord, hsz]
    have : head ++ records before ++ sizedRecord m' ++ after = head ++ (a' ++ extra') := by
      rw [k5]; simp only [List.append_assoc]
    rw [this, e3]
    simp only [List.append_assoc, withChunk]

theorem Spec.OtherChunk.symm {i : Nat} {l l' b b' : Bytes} (h : OtherChunk i l l' b b') : OtherChunk i l' l b' b := by
  obtain ⟨head, before, after, h1, h2, h3, h4, h5⟩ := h
  exact .mk head before after h1 h2 h3 h5 h4

/-- **C112 (chunks).** Let two files differ in chunk record number `k` of frame number `i` only, of whatever lengths and
types, and let `parse_raw_file` read the first one and find at least `k + 1` chunks in that frame.  Then it reads the second
one exactly if `parse_chunk` reads the new record by itself, and the result is the same except that this chunk is the one
read from the new record. -/
theorem C112_chunk (plat : Plat) (i k : Nat) (m m' l l' b b' : Bytes) (h : OtherFrame i l l' b b')
    (hc : OtherChunk k m m' l l') (raw : RawFile) (hr : parseRawFile plat b = .ok raw) (fr : RawFrame)
    (hi : raw.frames[i]? = some fr) (hk : k < fr.chunks.length) (raw' : RawFile) :
    parseRawFile plat b' = .ok raw' ↔
      ∃ c', parseChunk plat (sizedRecord m') = .ok ([], c') ∧ raw' = withFrame raw i (withChunk fr k c') := by
  have hl : FitsRecord l ∧ FitsRecord l' := by obtain ⟨_, _, _, _, _, _, h4, h5⟩ := h; exact ⟨h4, h5⟩
  obtain ⟨fr0, hi0, hfr⟩ := C112_frame_number plat i l l' b b' h raw hr
  rw [hi] at hi0
  cases hi0
  rw [C112_frame plat i l l' b b' h raw hr]
  constructor
  · rintro ⟨fr', h1, rfl⟩
    have hn : fr'.chunks.length = fr.chunks.length := by
      -- the number of chunks is in the part that is the same
      obtain ⟨head, before, after, c1, c2, c3, c4, c5⟩ := hc
      obtain ⟨old, new, res, cs, extra, hres, hn, hs, hb2, he⟩ := isFrame_ok.1 hfr
      obtain ⟨old', new', res', cs', extra', hres', hn', hs', hb2', he'⟩ := isFrame_ok.1 h1
      have he : sizedRecord (head ++ records before ++ sizedRecord m ++ after) = leNat32 (16 + cs.length + extra.length) ++
          (([0xFA, 0xF1] ++ le16 old ++ le16 fr.duration ++ res ++ le32 new) ++ (cs ++ extra)) := by
        rw [he]; simp only [List.append_assoc]
      have he' : sizedRecord (head ++ records before ++ sizedRecord m' ++ after) =
          leNat32 (16 + cs'.length + extra'.length) ++
          (([0xFA, 0xF1] ++ le16 old' ++ le16 fr'.duration ++ res' ++ le32 new') ++ (cs' ++ extra')) := by
        rw [he']; simp only [List.append_assoc]
      rw [sizedRecord] at he he'
      obtain ⟨-, e2⟩ := leNat32_append_inj hl.1 hb2 he
      obtain ⟨-, e2'⟩ := leNat32_append_inj hl.2 hb2' he'
      rw [List.append_assoc, List.append_assoc] at e2 e2'
      obtain ⟨e3, -⟩ := List.append_inj e2 (by simp [c1, hres])
      obtain ⟨e3', -⟩ := List.append_inj e2' (by simp [c1, hres'])
      rw [e3] at e3'
      simp only [List.append_assoc] at e3'
      obtain ⟨-, e4⟩ := List.append_inj e3' rfl
      obtain ⟨e5, e6⟩ := List.append_inj e4 (by simp)
      obtain ⟨-, e7⟩ := List.append_inj e6 (by simp)
      obtain ⟨-, e8⟩ := List.append_inj e7 (by rw [hres, hres'])
      have e5 : old = old' := by
        have := congrArg leNat e5
        simp only [le16, leNat_leBytes] at this
        have a := old.toNat_lt
        have b := old'.toNat_lt
        exact UInt16.toNat_inj.1 (by omega)
      have e8 : new = new' := by
        have := congrArg leNat e8
        simp only [le32, leNat_leBytes] at this
        have a := new.toNat_lt
        have b := new'.toNat_lt
        exact UInt32.toNat_inj.1 (by omega)
      rw [hn, hn', e5, e8]
    obtain ⟨c', hc'⟩ : ∃ c', fr'.chunks[k]? = some c' := ⟨_, List.getElem?_eq_getElem (hn ▸ hk)⟩
    have h2 := (frame_patch hc.symm hl.2 hl.1 h1).1 c' hc'
    have h3 := (frame_patch hc hl.1 hl.2 hfr).2 c' fun _ => h2
    rw [h1] at h3
    cases h3
    exact ⟨c', h2, rfl⟩
  · rintro ⟨c', h1, rfl⟩
    exact ⟨_, (frame_patch hc hl.1 hl.2 hfr).2 c' fun _ => h1, rfl⟩

/-- **C112 (chunks, their place).** The chunk read from record number `k` by itself is chunk number `k` of the frame. -/
theorem C112_chunk_number (plat : Plat) (i k : Nat) (m m' l l' b b' : Bytes) (h : OtherFrame i l l' b b')
    (hc : OtherChunk k m m' l l') (raw : RawFile) (hr : parseRawFile plat b = .ok raw) (fr : RawFrame)
    (hi : raw.frames[i]? = some fr) (c : Chunk) (hk : fr.chunks[k]? = some c) :
    parseChunk plat (sizedRecord m) = .ok ([], c) := by
  have hl : FitsRecord l ∧ FitsRecord l' := by obtain ⟨_, _, _, _, _, _, h4, h5⟩ := h; exact ⟨h4, h5⟩
  obtain ⟨fr0, hi0, hfr⟩ := C112_frame_number plat i l l' b b' h raw hr
  rw [hi] at hi0
  cases hi0
  exact (frame_patch hc hl.1 hl.2 hfr).1 c hk

/-- **C112 (surplus).** A record behind as many chunks as the frame declares is not looked at: whatever is put in its place,
the file is read as before. -/
theorem C112_surplus (plat : Plat) (i k : Nat) (m m' l l' b b' : Bytes) (h : OtherFrame i l l' b b')
    (hc : OtherChunk k m m' l l') (raw : RawFile) (hr : parseRawFile plat b = .ok raw) (fr : RawFrame)
    (hi : raw.frames[i]? = some fr) (hk : fr.chunks.length ≤ k) : parseRawFile plat b' = .ok raw := by
  have hl : FitsRecord l ∧ FitsRecord l' := by obtain ⟨_, _, _, _, _, _, h4, h5⟩ := h; exact ⟨h4, h5⟩
  obtain ⟨fr0, hi0, hfr⟩ := C112_frame_number plat i l l' b b' h raw hr
  rw [hi] at hi0
  cases hi0
  have h1 := (frame_patch hc hl.1 hl.2 hfr).2 .path fun hlt => absurd hlt (Nat.not_lt.2 hk)
  have h2 : withChunk fr k .path = fr := by
    unfold withChunk
    rw [List.set_eq_of_length_le hk]
  rw [h2] at h1
  refine (C112_frame plat i l l' b b' h raw hr raw).2 ⟨fr, h1, ?_⟩
  obtain ⟨hlt, he⟩ := List.getElem?_eq_some_iff.1 hi
  subst he
  unfold withFrame
  rw [List.set_getElem_self hlt]

theorem set_split {α : Type} (xs : List α) (i : Nat) (x x' : α) (h : xs[i]? = some x) :
    (xs.take i).length = i ∧ xs = xs.take i ++ x :: xs.drop (i + 1) ∧ xs.set i x' = xs.take i ++ x' :: xs.drop (i + 1) := by
  obtain ⟨hlt, rfl⟩ := List.getElem?_eq_some_iff.1 h
  refine ⟨by rw [List.length_take]; omega, ?_, ?_⟩
  · rw [List.getElem_cons_drop, List.take_append_drop]
  · rw [List.set_eq_take_append_cons_drop, if_pos hlt]

/-- **C112 (a cel exchanged).** If the old and the new record are both cels on layer `n`, the files differ in the sense of
C111: it says which frames and pixels may be different. -/
theorem C112_cel (plat : Plat) (i k n : Nat) (m m' l l' b b' : Bytes) (h : OtherFrame i l l' b b')
    (hc : OtherChunk k m m' l l') (raw raw' : RawFile) (hr : parseRawFile plat b = .ok raw)
    (hr' : parseRawFile plat b' = .ok raw') (fr : RawFrame) (hi : raw.frames[i]? = some fr) (c c' : CelChunk)
    (hk : fr.chunks[k]? = some (.cel c)) (hm : parseChunk plat (sizedRecord m') = .ok ([], .cel c'))
    (hn : c.layerIndex.toNat = n) (hn' : c'.layerIndex.toNat = n) : Redrawn i n raw raw' := by
  have hlt : k < fr.chunks.length := (List.getElem?_eq_some_iff.1 hk).1
  have := (C112_chunk plat i k m m' l l' b b' h hc raw hr fr hi hlt _).2 ⟨_, hm, rfl⟩
  rw [hr'] at this
  obtain rfl := Outcome.ok.inj this
  obtain ⟨a1, a2, a3⟩ := set_split raw.frames i fr (withChunk fr k (.cel c')) hi
  obtain ⟨b1, b2, b3⟩ := set_split fr.chunks k (.cel c) (.cel c') hk
  refine C111_edit raw _ i n (raw.frames.take i) (raw.frames.drop (i + 1)) fr (withChunk fr k (.cel c'))
    (fr.chunks.take k) (fr.chunks.drop (k + 1)) [c] [c'] a1 a2 a3 ?_ ?_ ?_ rfl rfl rfl rfl
  · simpa using b2
  · simpa [withChunk] using b3
  · intro x hx
    simp only [List.cons_append, List.nil_append, List.mem_cons, List.not_mem_nil, or_false] at hx
    obtain rfl | rfl := hx
    · exact hn
    · exact hn'

/-- **C112 (no picture changes).** If the old and the new chunk agree in what matters of a chunk (nothing does of tags, user
data, slices, colour profiles and the like; of a layer its name and its nesting do not), then the second file loads exactly
if the first one does, with the same error otherwise, and shows the same pictures. -/
theorem C112_pictures (plat : Plat) (i k : Nat) (m m' l l' b b' : Bytes) (h : OtherFrame i l l' b b')
    (hc : OtherChunk k m m' l l') (raw : RawFile) (hr : parseRawFile plat b = .ok raw) (fr : RawFrame)
    (hi : raw.frames[i]? = some fr) (c c' : Chunk) (hk : fr.chunks[k]? = some c)
    (hm : parseChunk plat (sizedRecord m') = .ok ([], c')) (hs : chunkLook c = chunkLook c') :
    (∀ f, AsepriteFile.load plat b = .ok f → ∃ f', AsepriteFile.load plat b' = .ok f' ∧ SamePictures plat f f') ∧
    (∀ e, AsepriteFile.load plat b = .err e → AsepriteFile.load plat b' = .err e) ∧
    (∀ k, AsepriteFile.load plat b = .panic k → AsepriteFile.load plat b' = .panic k) := by
  have hlt : k < fr.chunks.length := (List.getElem?_eq_some_iff.1 hk).1
  have hr' := (C112_chunk plat i k m m' l l' b b' h hc raw hr fr hi hlt _).2 ⟨_, hm, rfl⟩
  refine C72_same_pictures plat b b' raw _ hr hr' ?_
  obtain ⟨-, a2, a3⟩ := set_split raw.frames i fr (withChunk fr k c') hi
  obtain ⟨-, b2, b3⟩ := set_split fr.chunks k c c' hk
  have e : fr.chunks.filterMap chunkLook = (fr.chunks.set k c').filterMap chunkLook := by
    rw [b3]
    conv => lhs; rw [b2]
    simp only [List.filterMap_append, List.filterMap_cons, hs]
  have e2 : raw.frames.map (fun f => f.chunks.filterMap chunkLook) =
      (raw.frames.set i (withChunk fr k c')).map (fun f => f.chunks.filterMap chunkLook) := by
    rw [a3]
    conv => lhs; rw [a2]
    simp only [List.map_append, List.map_cons, withChunk, e]
  simp only [look, withFrame, e2]

/-- **C112 (no picture changes, frames).** Chunks that do not matter for pictures may be put into a frame or taken out of
it.  If the new frame record is read by itself, and what matters of its chunks is what mattered of those of the old one,
then the second file loads exactly if the first one does, with the same error otherwise, and shows the same pictures. -/
theorem C112_frame_pictures (plat : Plat) (i : Nat) (l l' b b' : Bytes) (h : OtherFrame i l l' b b') (raw : RawFile)
    (hr : parseRawFile plat b = .ok raw) (fr fr' : RawFrame) (hi : raw.frames[i]? = some fr)
    (hm : parseRawframe plat (sizedRecord l') = .ok ([], fr'))
    (hs : fr.chunks.filterMap chunkLook = fr'.chunks.filterMap chunkLook) :
    (∀ f, AsepriteFile.load plat b = .ok f → ∃ f', AsepriteFile.load plat b' = .ok f' ∧ SamePictures plat f f') ∧
    (∀ e, AsepriteFile.load plat b = .err e → AsepriteFile.load plat b' = .err e) ∧
    (∀ k, AsepriteFile.load plat b = .panic k → AsepriteFile.load plat b' = .panic k) := by
  have hr' := (C112_frame plat i l l' b b' h raw hr _).2 ⟨fr', hm, rfl⟩
  refine C72_same_pictures plat b b' raw _ hr hr' ?_
  obtain ⟨-, a2, a3⟩ := set_split raw.frames i fr fr' hi
  have e2 : raw.frames.map (fun f => f.chunks.filterMap chunkLook) =
      (raw.frames.set i fr').map (fun f => f.chunks.filterMap chunkLook) := by
    rw [a3]
    conv => lhs; rw [a2]
    simp only [List.map_append, List.map_cons, hs]
  simp only [look, withFrame, e2]

/-! Two files with two frames.  The second chunk of the second frame is a small cel in the first file and a larger one in
the second file; behind the declared chunks of this frame there is a surplus record that is no chunk. -/

/-- The second frame without its length field: three chunks declared, and a surplus record. -/
def Sample.patchFrame (c junk : Bytes) : Bytes :=
  [0xFA, 0xF1] ++ [0, 0] ++ le16 7 ++ [0, 0] ++ leNat32 3 ++
    records [(Sample.text 65).drop 4] ++ sizedRecord c ++ (Sample.link 0 0 ++ sizedRecord junk)

def Sample.patch (c junk : Bytes) : Bytes := Sample.header 3 1 32 ++
  records [(Sample.frame 9 [Sample.layer 1 0 0 255 [65], Sample.layer 1 0 0 255 [66],
    Sample.cel 0 0 0 1 1 [1, 2, 3, 255]]).drop 4] ++ sizedRecord (Sample.patchFrame c junk) ++ []

def Sample.accepted {ε α : Type} : Outcome ε α → Bool
  | .ok _ => true
  | _ => false

/-- Two cels on layer 1, without their length fields. -/
def Sample.smallCel : Bytes := (Sample.cel 1 0 0 1 1 [9, 9, 9, 255]).drop 4
def Sample.largeCel : Bytes := (Sample.cel 1 1 0 2 1 [5, 5, 5, 255, 6, 6, 6, 255]).drop 4

/-- The files differ in chunk 1 of frame 1 only, whatever the records are. -/
theorem Sample.patch_other (c c' junk : Bytes) (hc : c.length < 1000) (hc' : c'.length < 1000) (hj : junk.length < 1000) :
    OtherFrame 1 (Sample.patchFrame c junk) (Sample.patchFrame c' junk) (Sample.patch c junk) (Sample.patch c' junk) ∧
    OtherChunk 1 c c' (Sample.patchFrame c junk) (Sample.patchFrame c' junk) := by
  have hn : ∀ x : Bytes, x.length < 1000 → FitsRecord (Sample.patchFrame x junk) := by
    intro x hx
    have e : (Sample.link 0 0).length = 24 := by decide +kernel
    have e2 : (records [(Sample.text 65).drop 4]).length = 13 := by decide +kernel
    unfold FitsRecord Sample.patchFrame
    simp only [List.length_append, sizedRecord, leNat32, leBytes_length, le16_length, e, e2, List.length_cons, List.length_nil]
    omega
  refine ⟨.mk _ _ _ (by decide +kernel) (by decide +kernel) rfl (hn c hc) (hn c' hc'),
    .mk _ _ _ (by decide +kernel) (by decide +kernel) rfl ?_ ?_⟩ <;> unfold FitsRecord <;> omega

/-- `C112_frame`, `C112_chunk` and `C112_cel` apply: the first file is read with three chunks in frame 1, chunk 1 is a cel on
layer 1, and so is the new record, read by itself. -/
example :
    (match parseRawFile ⟨true, 10⟩ (Sample.patch Sample.smallCel [1]), parseChunk ⟨true, 10⟩ (sizedRecord Sample.smallCel),
        parseChunk ⟨true, 10⟩ (sizedRecord Sample.largeCel), parseRawFile ⟨true, 10⟩ (Sample.patch Sample.largeCel [1]) with
      | .ok raw, .ok ([], .cel c), .ok ([], .cel c'), .ok raw' => raw.frames.length == 2 &&
          (raw.frames[1]?).any (fun fr => fr.chunks.length == 3 && decide (fr.chunks[1]?.map chunkLook = some (chunkLook (.cel c))) &&
            decide (look raw' = look (withFrame raw 1 (withChunk fr 1 (.cel c'))))) &&
          decide (c.layerIndex.toNat = 1) && decide (c'.layerIndex.toNat = 1) && decide (look raw ≠ look raw')
      | _, _, _, _ => false) = true := by decide +kernel

/-- A new record that `parse_chunk` does not read by itself: the file is not read either. -/
example :
    Sample.accepted (parseChunk ⟨true, 10⟩ (sizedRecord (Sample.smallCel.take 9))) = false ∧
    Sample.accepted (parseRawFile ⟨true, 10⟩ (Sample.patch (Sample.smallCel.take 9) [1])) = false := by decide +kernel

/-- `C112_surplus` applies to the record number 3 of the frame: any other bytes there change nothing. -/
example :
    Sample.accepted (parseRawFile ⟨true, 10⟩ (Sample.patch Sample.smallCel [77, 0, 12, 5])) = true ∧
    Sample.accepted (parseRawFile ⟨true, 10⟩ (Sample.patch Sample.smallCel [1])) = true ∧
    Sample.accepted (parseChunk ⟨true, 10⟩ (sizedRecord [1])) = false := by decide +kernel

example : OtherChunk 3 [1] [77, 0, 12, 5] (Sample.patchFrame Sample.smallCel [1])
    (Sample.patchFrame Sample.smallCel [77, 0, 12, 5]) := by
  have h := OtherChunk.mk (k := 3) (m := [1]) (m' := [77, 0, 12, 5])
    ([0xFA, 0xF1] ++ [0, 0] ++ le16 7 ++ [0, 0] ++ leNat32 3)
    [(Sample.text 65).drop 4, Sample.smallCel, (Sample.link 0 0).drop 4] [] (by decide +kernel) (by decide +kernel) rfl
    (by decide +kernel) (by decide +kernel)
  have e : ∀ junk : Bytes, [0xFA, 0xF1] ++ [0, 0] ++ le16 7 ++ [0, 0] ++ leNat32 3 ++
      records [(Sample.text 65).drop 4, Sample.smallCel, (Sample.link 0 0).drop 4] ++ sizedRecord junk ++ [] =
      Sample.patchFrame Sample.smallCel junk := by
    intro junk
    have e1 : sizedRecord ((Sample.link 0 0).drop 4) = Sample.link 0 0 := by decide +kernel
    simp [records, Sample.patchFrame, e1]
  rw [e, e] at h
  exact h

/-- `C112_pictures` applies to a user data record exchanged for a tags record: nothing of either matters, and the file
loads. -/
example :
    (match parseChunk ⟨true, 10⟩ (Sample.text 65), parseChunk ⟨true, 10⟩ (Sample.tags [Sample.tag 0 1 0 0 66]) with
      | .ok (_, c), .ok (_, c') => decide (chunkLook c = chunkLook c')
      | _, _ => false) = true ∧
    Sample.accepted (AsepriteFile.load ⟨true, 10⟩ (Sample.patch ((Sample.text 66).drop 4) [1])) = true ∧
    Sample.accepted (AsepriteFile.load ⟨true, 10⟩ (Sample.patch ((Sample.tags [Sample.tag 0 1 0 0 66]).drop 4) [1])) = true := by
  decide +kernel

/-- `C112_frame_pictures` applies to a text put into the first frame, behind the cel. -/
example :
    (match parseRawframe ⟨true, 10⟩ (Sample.frame 9 [Sample.layer 1 0 0 255 [65], Sample.cel 0 0 0 1 1 [1, 2, 3, 255]]),
        parseRawframe ⟨true, 10⟩ (Sample.frame 9 [Sample.layer 1 0 0 255 [65], Sample.cel 0 0 0 1 1 [1, 2, 3, 255],
          Sample.text 66]) with
      | .ok ([], fr), .ok ([], fr') => decide (fr.chunks.filterMap chunkLook = fr'.chunks.filterMap chunkLook) &&
          fr.chunks.length == 2 && fr'.chunks.length == 3
      | _, _ => false) = true := by decide +kernel

end Ase
