import Verif.Lemmas.Look
import Verif.Lemmas.Reference

/-!
# C72, C73: what pictures depend on, and moving them
-/

namespace Ase

open Spec

theorem load_look {dx dy : Int} {plat : Plat} {b b' : Bytes} {raw raw' : RawFile} (hr : parseRawFile plat b = .ok raw)
    (hr' : parseRawFile plat b' = .ok raw') (hl : Moved dx dy (look raw) (look raw')) :
    (AsepriteFile.load plat b).map (loadCore dx dy) = (AsepriteFile.load plat b').map (loadCore 0 0) := by
  rw [AsepriteFile.load, AsepriteFile.load, parseFile_eq hr, parseFile_eq hr']
  have h := assembleFile_look (fresh hr) (fresh hr') hl
  revert h
  cases assembleFile raw with
  | ok a =>
    cases assembleFile raw' with
    | ok a' => intro h; exact ofFile_look (by simpa [Outcome.map] using h)
    | err e' => intro h; simp [Outcome.map] at h
    | panic k' => intro h; simp [Outcome.map] at h
  | err e =>
    cases assembleFile raw' with
    | ok a' => intro h; simp [Outcome.map] at h
    | err e' => intro h; simp only [Outcome.map, Outcome.err.injEq] at h; rw [h]; rfl
    | panic k' => intro h; simp [Outcome.map] at h
  | panic k =>
    cases assembleFile raw' with
    | ok a' => intro h; simp [Outcome.map] at h
    | err e' => intro h; simp [Outcome.map] at h
    | panic k' => intro h; simp only [Outcome.map, Outcome.panic.injEq] at h; rw [h]; rfl

theorem load_size {plat : Plat} {b : Bytes} {raw : RawFile} {f : AsepriteFile} (hr : parseRawFile plat b = .ok raw)
    (hf : AsepriteFile.load plat b = .ok f) : f.size = ((look raw).width, (look raw).height) := by
  obtain ⟨h1, -⟩ := load_ok.1 hf
  have hw : f.file.header = raw.header := (parsed_of_parse hr h1).header
  simp only [AsepriteFile.size, hw, look]

/-- **C72.** Let two files have the same canvas size, colour depth and transparent index and, frame by frame, the same
sequence of layers (type, visibility, blend mode, opacity), cels (layer, position, contents) and palettes, whatever else
is in them and in between.  Then if one of them loads, so does the other, and they have the same pictures; and if one is
rejected, or makes `load` panic, so does the other with the same error or panic. -/
theorem C72_same_pictures (plat : Plat) (b b' : Bytes) (raw raw' : RawFile) (hr : parseRawFile plat b = .ok raw)
    (hr' : parseRawFile plat b' = .ok raw') (hl : look raw = look raw') :
    (∀ f, AsepriteFile.load plat b = .ok f → ∃ f', AsepriteFile.load plat b' = .ok f' ∧ SamePictures plat f f') ∧
    (∀ e, AsepriteFile.load plat b = .err e → AsepriteFile.load plat b' = .err e) ∧
    (∀ k, AsepriteFile.load plat b = .panic k → AsepriteFile.load plat b' = .panic k) := by
  have key := load_look hr hr' (moved_of_look hl)
  revert key
  cases hf : AsepriteFile.load plat b <;> cases hf' : AsepriteFile.load plat b' <;> intro key <;>
    simp only [Outcome.map, reduceCtorEq, Outcome.ok.injEq, Outcome.err.injEq, Outcome.panic.injEq] at key
  · refine ⟨?_, by simp, by simp⟩
    rintro f ⟨⟩
    exact ⟨_, rfl, samePictures_of_core plat key (by rw [load_size hr hf, load_size hr' hf', hl])⟩
  · subst key; simp
  · subst key; simp

/-- Two files: the second has other layer names, another duration, cel opacity and z-index, user data, a tag and a chunk of
unknown type. -/
example :
    (match parseRawFile ⟨false, 10⟩ (Sample.header 2 1 32
        ++ Sample.frame 10 [Sample.layer 1 0 0 255 [65], Sample.cel 0 0 0 1 1 [1, 2, 3, 4]]),
      parseRawFile ⟨false, 10⟩ (Sample.header 2 1 32
        ++ Sample.frame 77 [Sample.layer 3 0 0 255 [66, 67], Sample.text 65, Sample.tags [Sample.tag 0 0 0 1 65],
          Sample.chunk 0x7777 [1, 2, 3],
          Sample.chunk 0x2005 ([0, 0, 0, 0, 0, 0, 9, 0, 0, 5, 0, 1, 1, 1, 1, 1, 1, 0, 1, 0, 1, 2, 3, 4]), Sample.text 66]) with
     | .ok raw, .ok raw' => decide (look raw = look raw') && decide (raw.frames.map (·.duration) ≠ raw'.frames.map (·.duration)) | _, _ => false) = true := by
  decide +kernel

/-- **C73.** Let the second file be the first one with all cels moved by `dx` and `dy`, on a canvas of any size (what the
editor does to crop or enlarge the canvas).  Then it loads exactly if the first one does, with the same error or panic if
not, and its pictures are those of the first one, moved and cut off. -/
theorem C73_moved_pictures (plat : Plat) (dx dy : Int) (b b' : Bytes) (raw raw' : RawFile)
    (hr : parseRawFile plat b = .ok raw) (hr' : parseRawFile plat b' = .ok raw')
    (hl : Moved dx dy (look raw) (look raw')) :
    (∀ f, AsepriteFile.load plat b = .ok f → ∃ f', AsepriteFile.load plat b' = .ok f' ∧ MovedPictures plat dx dy f f') ∧
    (∀ e, AsepriteFile.load plat b = .err e → AsepriteFile.load plat b' = .err e) ∧
    (∀ k, AsepriteFile.load plat b = .panic k → AsepriteFile.load plat b' = .panic k) := by
  have key := load_look hr hr' hl
  revert key
  cases hf : AsepriteFile.load plat b <;> cases hf' : AsepriteFile.load plat b' <;> intro key <;>
    simp only [Outcome.map, reduceCtorEq, Outcome.ok.injEq, Outcome.err.injEq, Outcome.panic.injEq] at key
  · refine ⟨?_, by simp, by simp⟩
    rintro f ⟨⟩
    exact ⟨_, rfl, movedPictures_of_core hf hf' key⟩
  · subst key; simp
  · subst key; simp

/-- A cel of two pixels at (1, 0) on a canvas of 3 by 1 pixels, and the same cel at (-1, 0) on a canvas of 1 by 1 pixel: the
second file is the first one moved by -2, and it shows the pixel that was at (2, 0). -/
example :
    let b := Sample.header 3 1 32 ++ Sample.frame 10 [Sample.layer 1 0 0 255 [65],
      Sample.cel 0 1 0 2 1 [1, 2, 3, 255, 5, 6, 7, 255]]
    let b' := Sample.header 1 1 32 ++ Sample.frame 10 [Sample.layer 1 0 0 255 [65],
      Sample.cel 0 0xFFFF 0 2 1 [1, 2, 3, 255, 5, 6, 7, 255]]
    (match parseRawFile ⟨false, 10⟩ b, parseRawFile ⟨false, 10⟩ b' with
     | .ok raw, .ok raw' => decide (Moved (-2) 0 (look raw) (look raw')) | _, _ => false) = true ∧
    Sample.render ⟨false, 10⟩ b 0 .all (List.replicate 12 0) =
      some (.ok (), [0, 0, 0, 0, 1, 2, 3, 255, 5, 6, 7, 255]) ∧
    Sample.render ⟨false, 10⟩ b' 0 .all (List.replicate 4 0) = some (.ok (), [5, 6, 7, 255]) := by
  decide +kernel

end Ase
