import Verif.Lemmas.Rewrite
import Verif.Lemmas.Flips
import Verif.Spec.Sample

/-!
# C121: what was read can be written and read again

A program that reads a file and writes what it read - the bytes the format document prescribes for the header and the
frames, `Spec.fileBytes` - produces a file that reads the same, whatever the first file was like: with reserved bytes set,
unknown flag bits, bytes after the contents of a chunk or after the last chunk of a frame, or an old frame header.
-/

namespace Ase
open Spec

theorem readFileAs_noFlips {raw : RawFile} (hn : ∀ fr ∈ raw.frames, ∀ c ∈ fr.chunks, NoFlips c) : readFileAs raw = raw := by
  obtain ⟨hd, frames⟩ := raw
  simp only [readFileAs, RawFile.mk.injEq, true_and]
  refine (List.map_congr_left fun fr hfr => ?_).trans (List.map_id _)
  obtain ⟨d, chunks⟩ := fr
  simp only [id, RawFrame.mk.injEq, true_and]
  refine (List.map_congr_left fun c hc => ?_).trans (List.map_id _)
  have := hn _ hfr c hc
  cases c with
  | cel x =>
    obtain ⟨li, x, y, op, z, content, ud⟩ := x
    cases content with
    | compressedTilemap =>
      have e := this _ rfl _ _ _ _ _ _ _ _ rfl
      subst e
      rfl
    | _ => rfl
  | _ => rfl

/-- **C121.** Read any file, write what was read, read that: the result is the one of the first reading, and the file is not
longer than the first. It is assumed that no code was replaced by zero in the first reading (C19), that property maps were
read without error and not nested (C16, C17), and that the flip masks of tilemaps do not change by exchanging them (C12). -/
theorem C121_rewrite (plat : Plat) (b : Bytes) (raw : RawFile) (h : parseRawFile plat b = .ok raw)
    (hf : ∀ fr ∈ raw.frames, ∀ c ∈ fr.chunks, ReadFaithfully c) (hn : ∀ fr ∈ raw.frames, ∀ c ∈ fr.chunks, NoFlips c) :
    parseRawFile plat (fileBytes raw) = .ok raw ∧ (fileBytes raw).length ≤ b.length := by
  obtain ⟨h1, h2⟩ := file_rewrite h hf
  exact ⟨h1.trans (congrArg Outcome.ok (readFileAs_noFlips hn)), h2⟩

theorem readAs_readAs (c : Chunk) : readAs (readAs c) = c := by
  cases c with
  | cel x =>
    obtain ⟨li, x, y, op, z, content, ud⟩ := x
    cases content <;> rfl
  | _ => rfl

theorem readFileAs_readFileAs (raw : RawFile) : readFileAs (readFileAs raw) = raw := by
  obtain ⟨hd, frames⟩ := raw
  simp only [readFileAs, List.map_map, RawFile.mk.injEq, true_and]
  refine (List.map_congr_left fun fr _ => ?_).trans (List.map_id _)
  obtain ⟨d, chunks⟩ := fr
  simp only [Function.comp, List.map_map, id, RawFrame.mk.injEq, true_and]
  exact (List.map_congr_left fun c _ => readAs_readAs c).trans (List.map_id _)

theorem readFaithfully_readAs {c : Chunk} (h : ReadFaithfully c) : ReadFaithfully (readAs c) := by
  cases c with
  | cel x =>
    obtain ⟨li, x, y, op, z, content, ud⟩ := x
    cases content with
    | unknown => exact h
    | _ => exact fun data => by simp [swapFlips]
  | _ => exact h

/-- Whatever the flip masks of the tilemaps are: the second reading differs from the first only in that they are exchanged,
and doing it twice gives the first result. -/
theorem C121_flips (plat : Plat) (b : Bytes) (raw : RawFile) (h : parseRawFile plat b = .ok raw)
    (hf : ∀ fr ∈ raw.frames, ∀ c ∈ fr.chunks, ReadFaithfully c) :
    ∃ raw', parseRawFile plat (fileBytes raw) = .ok raw' ∧ raw' = readFileAs raw ∧
      parseRawFile plat (fileBytes raw') = .ok raw := by
  have h1 := (file_rewrite h hf).1
  refine ⟨_, h1, rfl, ?_⟩
  have h2 := (file_rewrite h1 (by
    intro fr hfr c hc
    simp only [readFileAs, List.mem_map] at hfr
    obtain ⟨fr, hfr, rfl⟩ := hfr
    obtain ⟨c', hc', rfl⟩ := List.mem_map.1 hc
    exact readFaithfully_readAs (hf fr hfr c' hc'))).1
  rwa [readFileAs_readFileAs] at h2

/-- The loader answers the same for both files, with the same sprite, error or panic; whatever the flip masks are. -/
theorem C121_load (plat : Plat) (b : Bytes) (raw : RawFile) (h : parseRawFile plat b = .ok raw)
    (hf : ∀ fr ∈ raw.frames, ∀ c ∈ fr.chunks, ReadFaithfully c) :
    AsepriteFile.load plat (fileBytes raw) = AsepriteFile.load plat b := by
  have h1 := (file_rewrite h hf).1
  unfold AsepriteFile.load parseFile
  rw [h, h1]
  simp only [outcome_bind_def, Outcome.bind, assembleFile_flip]
  cases assembleFile raw with
  | err e => rfl
  | panic k => rfl
  | ok f => exact ofFile_flip f

/-- The bytes written are a normal form: two files hold the same header and frames exactly if what is read from them is
written as the same bytes. -/
theorem C121_normal_form (plat : Plat) (b b' : Bytes) (raw raw' : RawFile) (h : parseRawFile plat b = .ok raw)
    (h' : parseRawFile plat b' = .ok raw') (hf : ∀ fr ∈ raw.frames, ∀ c ∈ fr.chunks, ReadFaithfully c)
    (hf' : ∀ fr ∈ raw'.frames, ∀ c ∈ fr.chunks, ReadFaithfully c) : raw = raw' ↔ fileBytes raw = fileBytes raw' := by
  refine ⟨congrArg fileBytes, fun e => ?_⟩
  have h1 := (file_rewrite h hf).1
  rw [e, (file_rewrite h' hf').1] at h1
  have h2 := congrArg readFileAs (Outcome.ok.inj h1)
  rw [readFileAs_readFileAs, readFileAs_readFileAs] at h2
  exact h2.symm

/-- What a layer's blend mode was read as, in the first frame. -/
def firstBlendMode : Outcome NomErr RawFile → Option BlendMode
  | .ok raw => (raw.frames.head?.bind (·.chunks.head?)).bind fun
      | .layer c => some c.blendMode
      | _ => none
  | _ => none

/-- A code which is replaced by zero does not survive: the layer had the blend mode 19, which does not exist. The first
reading says so, the second says "normal". -/
theorem C121_unknown_codes_change :
    ∃ (b : Bytes) (raw : RawFile), parseRawFile (Plat.mk true 60) b = .ok raw ∧
      firstBlendMode (parseRawFile (Plat.mk true 60) b) = some (.unknown 0) ∧
      firstBlendMode (parseRawFile (Plat.mk true 60) (fileBytes raw)) = some .normal := by
  have h : (match parseRawFile (Plat.mk true 60)
      (Sample.header 1 1 32 ++ Sample.frame 100 [Sample.layer 1 0 19 255 [65]]) with
    | .ok raw => decide (firstBlendMode (.ok raw) = some (.unknown 0) ∧
        firstBlendMode (parseRawFile (Plat.mk true 60) (fileBytes raw)) = some .normal)
    | _ => false) = true := by decide +kernel
  revert h
  split
  · rename_i raw h
    intro h'
    have h' := of_decide_eq_true h'
    exact ⟨_, raw, h, (congrArg firstBlendMode h).trans h'.1, h'.2⟩
  · exact fun h => nomatch h

/-- A file with reserved bytes set, bytes after a chunk's contents and after the last chunk of the frame, and flag bits
without a meaning. -/
def messy : Bytes :=
  let chunks := Sample.chunk 0x2004 (le16 0x8001 ++ le16 0 ++ [0, 0, 0, 0, 0, 0] ++ le16 3 ++ [200, 7, 8, 9] ++ [1, 0, 65]
    ++ [1, 2, 3, 4]) ++ Sample.cel 0 0 0 1 1 [1, 2, 3, 4] ++ Sample.text 66
  (Sample.header 1 1 32).set 100 77 ++ leNat32 (16 + chunks.length + 3) ++ [0xFA, 0xF1, 0, 0, 100, 0, 0, 0, 3, 0, 0, 0]
    ++ chunks ++ [5, 5, 5]

/-- The test used in the example below: chunks of a kind on which all the hypotheses are plain. -/
def plainChunk : Chunk → Bool
  | .layer c => c.blendMode != .unknown 0
  | .cel c => match c.content with
    | .image _ => true
    | _ => false
  | .userData c => c.propertiesMaps.isNone
  | _ => false

/-- The hypotheses of all three theorems hold of it, and the file written is shorter by the seven bytes, and other bytes
changed as well. -/
example : ∃ raw, parseRawFile (Plat.mk true 60) messy = .ok raw ∧
    (∀ fr ∈ raw.frames, ∀ c ∈ fr.chunks, ReadFaithfully c) ∧ (∀ fr ∈ raw.frames, ∀ c ∈ fr.chunks, NoFlips c) ∧
    (fileBytes raw).length + 7 = messy.length ∧ (fileBytes raw)[100]? = some 0 := by
  have h : (match parseRawFile (Plat.mk true 60) messy with
    | .ok raw => decide ((∀ fr ∈ raw.frames, ∀ c ∈ fr.chunks, plainChunk c = true) ∧
        (fileBytes raw).length + 7 = messy.length ∧ (fileBytes raw)[100]? = some 0)
    | _ => false) = true := by decide +kernel
  revert h
  split
  · rename_i raw h
    intro h'
    obtain ⟨hp, h1, h2⟩ := of_decide_eq_true h'
    refine ⟨raw, h, fun fr hfr c hc => ?_, fun fr hfr c hc => ?_, h1, h2⟩ <;> have := hp fr hfr c hc
    · cases c with
      | layer c => simpa [plainChunk, ReadFaithfully] using this
      | cel c =>
        intro data e
        simp only [plainChunk, e] at this
        cases this
      | userData c =>
        intro x e
        simp [plainChunk, e] at this
      | _ => cases this
    · intro x e
      subst e
      intro _ _ _ _ _ _ _ _ e
      simp only [plainChunk, e] at this
      cases this
  · exact fun h => nomatch h

end Ase
