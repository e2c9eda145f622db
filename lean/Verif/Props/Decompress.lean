import Verif.Props.Zlib

/-!
# C116: `decompress`

The public function `decompress` (mod.rs:447-457), as a caller uses it who has read the data of an image with `parse_file` or
`images`.  `Holds data content` says that the data begins with a zlib stream with this content (RFC 1950 and RFC 1951, see
`Spec/Deflate`).
-/

namespace Ase

open Spec Spec.Deflate

/-- Data holds at most one content. -/
theorem Holds.unique {data content content' : Bytes} (h : Holds data content) (h' : Holds data content') : content = content' := by
  obtain ⟨z, rest, rfl, hz⟩ := h
  obtain ⟨z', rest', e, hz'⟩ := h'
  exact (C81_unique z z' rest rest' content content' e hz hz').2

/-- **C116**: `decompress` returns; it succeeds just when the data begins with a zlib stream whose content is not longer than
the target, otherwise it returns `DecompressError`.  On success the content is at the beginning of the target and the rest of
the target is as before.  The target never changes its length. -/
theorem C116_contract (inflate : Inflater) (hc : Conforms inflate) (data target : Bytes) :
    ((decompress inflate data target).1 = .ok () ↔ ∃ content, Holds data content ∧ content.length ≤ target.length) ∧
    ((decompress inflate data target).1 = .err .decompressError ↔
      ¬ ∃ content, Holds data content ∧ content.length ≤ target.length) ∧
    (∀ content, Holds data content → content.length ≤ target.length →
      (decompress inflate data target).2 = content ++ target.drop content.length) ∧
    (decompress inflate data target).2.length = target.length := by
  have hiff : (inflate data target.length).1 = .streamEnd ↔ ∃ content, Holds data content ∧ content.length ≤ target.length := by
    constructor
    · intro h
      have := (hc data target.length (inflate data target.length).2).1 (by rw [← h])
      exact ⟨_, this.2, this.1⟩
    · rintro ⟨content, h, hl⟩
      rw [(hc data target.length content).2 ⟨hl, h⟩]
  rw [decompress_eq]
  dsimp only
  refine ⟨?_, ?_, ?_, overwrite_length _ _⟩
  · rw [← hiff]; clear hiff; split <;> simp [*]
  · rw [← hiff]; clear hiff; split <;> simp [*]
  · intro content h hl
    rw [(hc data target.length content).2 ⟨hl, h⟩, overwrite, List.take_of_length_le hl]

/-- **C116**: success and what is written do not depend on what was in the target before, nor on bytes after the stream, nor on
how much larger the target is. -/
theorem C116_stable (inflate : Inflater) (hc : Conforms inflate) (data more target target' : Bytes)
    (h : (decompress inflate data target).1 = .ok ()) (hl : target.length ≤ target'.length) :
    (decompress inflate (data ++ more) target').1 = .ok () ∧
    ∃ content, content.length ≤ target.length ∧
      (decompress inflate data target).2 = content ++ target.drop content.length ∧
      (decompress inflate (data ++ more) target').2 = content ++ target'.drop content.length := by
  obtain ⟨content, hh, hcl⟩ := (C116_contract inflate hc data target).1.1 h
  have hh' : Holds (data ++ more) content := by
    obtain ⟨z, rest, rfl, hz⟩ := hh
    exact ⟨z, rest ++ more, List.append_assoc .., hz⟩
  exact ⟨(C116_contract inflate hc (data ++ more) target').1.2 ⟨content, hh', Nat.le_trans hcl hl⟩, content, hcl,
    (C116_contract inflate hc data target).2.2.1 content hh hcl,
    (C116_contract inflate hc (data ++ more) target').2.2.1 content hh' (Nat.le_trans hcl hl)⟩

/-- **C116**: everything can be stored and read back, with a target of exactly its size, and not with a smaller one. -/
theorem C116_round_trip (inflate : Inflater) (hc : Conforms inflate) (content : Bytes) :
    ∃ data, ∀ target : Bytes,
      (target.length = content.length → decompress inflate data target = (.ok (), content)) ∧
      (target.length < content.length → (decompress inflate data target).1 = .err .decompressError) := by
  obtain ⟨z, hz⟩ := C81_exists content
  have hh : Holds z content := ⟨z, [], (List.append_nil z).symm, hz⟩
  refine ⟨z, fun target => ⟨fun hl => ?_, fun hl => ?_⟩⟩
  · have h := C116_contract inflate hc z target
    refine Prod.ext (h.1.2 ⟨content, hh, by omega⟩) ?_
    rw [h.2.2.1 content hh (by omega), List.drop_of_length_le (by omega), List.append_nil]
  · refine (C116_contract inflate hc z target).2.1.2 ?_
    rintro ⟨c, hc', hcl⟩
    rw [Holds.unique hc' hh] at hcl
    omega

/-- **C116**: a stream that has been cut off anywhere is refused, whatever the size of the target. -/
theorem C116_cut (inflate : Inflater) (hc : Conforms inflate) (z content : Bytes) (hz : IsZlib z content) (k : Nat)
    (hk : k < z.length) (target : Bytes) : (decompress inflate (z.take k) target).1 = .err .decompressError := by
  refine (C116_contract inflate hc _ target).2.1.2 ?_
  rintro ⟨c, ⟨z', rest, e, hz'⟩, -⟩
  have e' : z ++ [] = z' ++ (rest ++ z.drop k) := by
    rw [List.append_nil, ← List.append_assoc, ← e, List.take_append_drop]
  have h1 := (C81_unique z z' [] _ content c e' hz hz').1
  have h2 := congrArg List.length e
  simp only [List.length_take, List.length_append, ← h1] at h2
  omega

/-- **C116**: a stream with another checksum (its last four bytes) than its own is refused. -/
theorem C116_checksum (inflate : Inflater) (hc : Conforms inflate) (z s s' rest content : Bytes) (hz : IsZlib (z ++ s) content)
    (hs : s.length = 4) (hs' : s'.length = 4) (hne : s' ≠ s) (target : Bytes) :
    (decompress inflate (z ++ s' ++ rest) target).1 = .err .decompressError := by
  refine (C116_contract inflate hc _ target).2.1.2 ?_
  rintro ⟨content', ⟨w, rest', e, cmf', flg', body', ws', pad', rfl, -, -, -, -, h5', h6', h7'⟩, -⟩
  obtain ⟨cmf, flg, body, ws, pad, e0, -, -, -, -, h5, h6, h7⟩ := hz
  obtain ⟨rfl, rfl⟩ := List.append_inj' e0 (by rw [hs]; rfl)
  simp only [List.cons_append, List.nil_append, List.cons.injEq] at e
  obtain ⟨rfl, rfl, e⟩ := e
  have eb : ws ++ (pad ++ bits (s' ++ rest)) = ws' ++ (pad' ++ bits (checksum content' ++ rest')) := by
    have := congrArg bits e
    simp only [List.append_assoc, Zlib.bits_append, h5, h5'] at this
    simpa only [List.append_assoc, Zlib.bits_append] using this
  have l5 := congrArg List.length h5
  have l5' := congrArg List.length h5'
  rw [Zlib.bits_length, List.length_append] at l5 l5'
  have r1 := Zlib.blocks_run h7 (ws.length + ws'.length + 1) (content.length + content'.length) (pad ++ bits (s' ++ rest))
    (by omega) (by omega) (by simp only [List.length_append, Zlib.bits_length]; omega)
  have r2 := Zlib.blocks_run h7' (ws.length + ws'.length + 1) (content.length + content'.length)
    (pad' ++ bits (checksum content' ++ rest')) (by omega) (by omega)
    (by simp only [List.length_append, Zlib.bits_length]; omega)
  rw [eb, r2] at r1
  simp only [Zlib.atState, Except.ok.injEq, Prod.mk.injEq, Zlib.St.mk.injEq, true_and] at r1
  obtain ⟨e1, _, e2⟩ := r1
  have e2 : content' = content := List.reverse_inj.1 e2
  subst e2
  have l1 := congrArg List.length e1
  simp only [List.length_append, Zlib.bits_length] at l1
  obtain ⟨rfl, e3⟩ := List.append_inj e1 (by omega)
  have e4 : ws = ws' := (List.append_inj' eb (by rw [e1])).1
  subst e4
  have : body = body' := by
    have hb : bits body = bits body' := h5.trans h5'.symm
    have hl : body.length = body'.length := by
      have := congrArg List.length hb
      rw [Zlib.bits_length, Zlib.bits_length] at this
      omega
    simp only [List.append_assoc] at e
    exact (List.append_inj e hl).1
  subst this
  simp only [List.append_assoc, List.append_cancel_left_eq] at e
  exact hne (List.append_inj e hs').1

/-- **C116**: `load_image` of a compressed image of an RGBA sprite is `decompress` into the first four bytes per pixel of the
buffer. -/
theorem C116_load_image (inflate : Inflater) (f : AsepriteFile) (i : Nat) (im : Image) (him : f.images[i]? = some im)
    (hd : f.file.header.colorDepth = .rgba) (hz : im.compressed = true) (target : Bytes)
    (hl : im.width.toNat * im.height.toNat * 4 ≤ target.length) :
    let size := im.width.toNat * im.height.toNat * 4
    (f.loadImage inflate i target).1 = (decompress inflate im.data (target.take size)).1 ∧
    (f.loadImage inflate i target).2 = (decompress inflate im.data (target.take size)).2 ++ target.drop size := by
  intro size
  unfold AsepriteFile.loadImage
  rw [him]
  simp only [buf_bind, Buf.len]
  rw [if_neg (by omega), Buf.onPrefix, if_pos hl]
  simp only [AsepriteFile.decodeImage, hd, hz]
  exact ⟨rfl, rfl⟩

/-! ## Examples -/

/-- A stream with its own codes and a match, and bytes after it, into a target with room for three more bytes: the hypotheses
of `C116_stable`, `C116_cut` and `C116_checksum` hold of it. -/
example : (decompress Zlib.inflate (Sample.dynamic16 ++ [1, 2]) (List.replicate 67 9) = (.ok (), Sample.pixels16 ++ [9, 9, 9])) ∧
    (decompress Zlib.inflate Sample.dynamic16 (List.replicate 63 9)).1 = .err .decompressError ∧
    (decompress Zlib.inflate (Sample.dynamic16.take 39) (List.replicate 64 9)).1 = .err .decompressError ∧
    (decompress Zlib.inflate (Sample.dynamic16.set 38 0) (List.replicate 64 9)).1 = .err .decompressError := by decide +kernel

/-- The sample is a stream, with nothing after it. -/
example : IsZlib Sample.dynamic16 Sample.pixels16 := by
  obtain ⟨z, rest, e, hz⟩ := Sample.holds16 Sample.dynamic16 (by simp)
  by_cases hr : rest = []
  · rw [hr, List.append_nil] at e; rw [e]; exact hz
  · have h1 := (C116_contract Zlib.inflate C81_conforms.1 (Sample.dynamic16.take (Sample.dynamic16.length - 1))
      (List.replicate 64 9)).2.1.1 (by decide +kernel)
    refine absurd ⟨Sample.pixels16, ⟨z, rest.take (rest.length - 1), ?_, hz⟩, by decide⟩ h1
    have := List.length_pos_iff.2 hr
    rw [e, List.take_append, List.length_append, List.take_of_length_le (by omega)]
    congr 2
    omega

end Ase
