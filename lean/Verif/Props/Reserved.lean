import Verif.Lemmas.Reserved
import Verif.Lemmas.Loader
import Verif.Props.Assemble
import Verif.Spec.Sample

/-!
# C86: reserved bytes are ignored

What reserved bytes are and when two files differ only in them is in `Verif/Spec/Reserved.lean`.
-/

namespace Ase

open Spec

/-- **C86.** Two files that differ only in reserved bytes are read alike: `parse_raw_file`, `parse_file` and `load` accept
both or neither, and with the same result. -/
theorem C86_reserved (plat : Plat) (b b' : Bytes) (h : SameButReserved b b') :
    (∀ raw, parseRawFile plat b' = .ok raw ↔ parseRawFile plat b = .ok raw) ∧
    (∀ f, parseFile plat b' = .ok f ↔ parseFile plat b = .ok f) ∧
    (∀ f, AsepriteFile.load plat b' = .ok f ↔ AsepriteFile.load plat b = .ok f) := by
  have h1 : ∀ raw, parseRawFile plat b' = .ok raw ↔ parseRawFile plat b = .ok raw := fun raw => by
    rw [parseRawFile_ok, parseRawFile_ok]
    exact ⟨file_reserved h.symm, file_reserved h⟩
  have h2 : ∀ f, parseFile plat b' = .ok f ↔ parseFile plat b = .ok f := fun f => by
    simp only [parseFile_ok, h1]
  exact ⟨h1, h2, fun f => by simp only [load_ok, h2]⟩

/-- **C86, the outcome.** If the records of a file are readable, other reserved bytes do not even change which error
`parse_file` and `load` report. -/
theorem C86_outcome (plat : Plat) (b b' : Bytes) (h : SameButReserved b b') (raw : RawFile)
    (hr : parseRawFile plat b = .ok raw) :
    parseFile plat b' = parseFile plat b ∧ AsepriteFile.load plat b' = AsepriteFile.load plat b := by
  have h1 : parseFile plat b' = parseFile plat b := by
    rw [parseFile_eq hr, parseFile_eq (((C86_reserved plat b b' h).1 raw).2 hr)]
  exact ⟨h1, by rw [AsepriteFile.load, h1, AsepriteFile.load]⟩

/-- A file with a layer and a cel; `m` are the ignored bytes of the layer, `n` those of the cel, `k` the last bytes of the
header. -/
def Spec.Sample.withReserved (m n k : Bytes) : Bytes :=
  (Sample.header 1 1 32).take 44 ++ k
    ++ Sample.frame 100 [Sample.chunk 0x2004 ([1, 0, 0, 0, 0, 0] ++ m ++ [0, 0, 255, 0, 0, 0, 1, 0, 97]),
        Sample.chunk 0x2005 ([0, 0, 0, 0, 0, 0, 255, 0, 0, 0, 0] ++ n ++ [1, 0, 1, 0, 10, 20, 30, 40])]

/-- All fillings of the three ranges are related, and the file is loaded. -/
example : (∀ m n k m' n' k' : Bytes, m.length = 4 → n.length = 5 → k.length = 84 → m'.length = 4 → n'.length = 5 →
      k'.length = 84 → SameButReserved (Sample.withReserved m n k) (Sample.withReserved m' n' k')) ∧
    (match AsepriteFile.load ⟨true, 10⟩ (Sample.withReserved [1, 2, 3, 4] [5, 6, 7, 8, 9] (List.replicate 84 7)) with
     | .ok f => f.layers.length == 1 && f.images.length == 1
     | _ => false) = true := by
  refine ⟨?_, by decide +kernel⟩
  intro m n k m' n' k' hm hn hk hm' hn' hk'
  have h1 : SameButReserved (Sample.withReserved m n k) (Sample.withReserved m n k') := by
    have := SameButReserved.header ((Sample.header 1 1 32).take 44) k k'
      (Sample.frame 100 [Sample.chunk 0x2004 ([1, 0, 0, 0, 0, 0] ++ m ++ [0, 0, 255, 0, 0, 0, 1, 0, 97]),
        Sample.chunk 0x2005 ([0, 0, 0, 0, 0, 0, 255, 0, 0, 0, 0] ++ n ++ [1, 0, 1, 0, 10, 20, 30, 40])])
      (by rw [hk]; decide) (by omega)
    exact this
  have h2 : SameButReserved (Sample.withReserved m n k') (Sample.withReserved m' n k') := by
    have := SameButReserved.chunk ((Sample.header 1 1 32).take 44 ++ k') [] ([0xFA, 0xF1, 0, 0] ++ le16 100 ++ [0, 0] ++ leNat32 2)
      [] [1, 0, 0, 0, 0, 0] m m' [0, 0, 255, 0, 0, 0, 1, 0, 97]
      (Sample.chunk 0x2005 ([0, 0, 0, 0, 0, 0, 255, 0, 0, 0, 0] ++ n ++ [1, 0, 1, 0, 10, 20, 30, 40])) [] 0x2004
      (by rw [List.length_append, hk']; decide) .nil rfl .nil (by rw [hm]; decide) (by omega) (by simp [hm])
      (by simp [hm, hn, sizedRecord, Sample.chunk])
    simpa [Sample.withReserved, Sample.frame, Sample.chunk, sizedRecord, hm, hm', hn] using this
  have h3 : SameButReserved (Sample.withReserved m' n k') (Sample.withReserved m' n' k') := by
    have := SameButReserved.chunk ((Sample.header 1 1 32).take 44 ++ k') [] ([0xFA, 0xF1, 0, 0] ++ le16 100 ++ [0, 0] ++ leNat32 2)
      (sizedRecord (le16 0x2004 ++ ([1, 0, 0, 0, 0, 0] ++ m' ++ [0, 0, 255, 0, 0, 0, 1, 0, 97])) ++ [])
      [0, 0, 0, 0, 0, 0, 255, 0, 0, 0, 0] n n' [1, 0, 1, 0, 10, 20, 30, 40] [] [] 0x2005
      (by rw [List.length_append, hk']; decide) .nil rfl (.cons (by simp [hm']) .nil) (by rw [hn]; decide) (by omega)
      (by simp [hn]) (by simp [hm', hn, sizedRecord])
    simpa [Sample.withReserved, Sample.frame, Sample.chunk, sizedRecord, hm', hn, hn'] using this
  exact .trans h1 (.trans h2 h3)

end Ase
