import Verif.Lemmas.LoadErrors

/-!
# C33: the error `load` returns for a file that parses
-/

namespace Ase

open Spec

namespace Spec

/-- Cel `c`, on layer `l` in frame `i`, is the first one that shows no image; frames are searched in order, and in a frame
the layers from the lowest. -/
structure FirstBadCel (file : File) (i l : Nat) (c : CelChunk) : Prop where
  here : celAt file i l = some c
  bad : ¬ Resolvable file l c
  frames : ∀ i' l' c', i' < i → celAt file i' l' = some c' → Resolvable file l' c'
  layers : ∀ l' c', l' < l → celAt file i l' = some c' → Resolvable file l' c'

/-- The complaint about it. -/
def complaint (i : Nat) (c : CelChunk) : LoadSpriteError :=
  match c.content with
  | .linkedCel _ => .invalidLinkedCel i c.layerIndex
  | _ => .invalidCel

end Spec

theorem Spec.FirstBadCel.unique {file : File} {i l i' l' : Nat} {c c' : CelChunk} (h : FirstBadCel file i l c)
    (h' : FirstBadCel file i' l' c') : i = i' ∧ l = l' ∧ c = c' := by
  have hi : i = i' := by
    rcases Nat.lt_trichotomy i i' with hi | hi | hi
    · exact absurd (h'.frames _ _ _ hi h.here) h.bad
    · exact hi
    · exact absurd (h.frames _ _ _ hi h'.here) h'.bad
  subst hi
  have hl : l = l' := by
    rcases Nat.lt_trichotomy l l' with hl | hl | hl
    · exact absurd (h'.layers _ _ hl h.here) h.bad
    · exact hl
    · exact absurd (h.layers _ _ hl h'.here) h'.bad
  subst hl
  exact ⟨rfl, rfl, Option.some.inj (h.here.symm.trans h'.here)⟩

theorem toFrameCel_err {file : File} (hs : SlotsOk file) {i l : Nat} {c : CelChunk} (hc : celAt file i l = some c)
    (hl : c.layerIndex.toNat = l) {e : LoadSpriteError}
    (h : toFrameCel (fileImages file) (mapOf 0 (keyed 0 file.frames)) i c = .err e) :
    ¬ Resolvable file l c ∧ e = complaint i c := by
  have hr : ¬ Resolvable file l c := by
    intro hr
    obtain ⟨n, im, h1, _⟩ := (toFrameCel_spec hs hc hl).1 hr
    rw [h1] at h
    cases h
  refine ⟨hr, ?_⟩
  unfold toFrameCel imageIndexOf at h
  unfold Resolvable at hr
  unfold complaint
  cases hcon : c.content with
  | image im => simp [hcon] at hr
  | linkedCel fp =>
    simp only [hcon] at h hr
    have hi : imageAt file fp.toNat l = none := by simpa using hr
    rw [hl, (map_lookup_none hs fp.toNat l).2 hi] at h
    simp only [outcome_bind_def, Outcome.bind, Outcome.err.injEq] at h
    exact h.symm
  | compressedTilemap =>
    simp only [hcon, outcome_bind_def, Outcome.bind, Outcome.err.injEq] at h
    exact h.symm
  | unknown =>
    simp only [hcon, outcome_bind_def, Outcome.bind, Outcome.err.injEq] at h
    exact h.symm

theorem ofFile_err {file : File} (hs : SlotsOk file) {e : LoadSpriteError} (h : AsepriteFile.ofFile file = .err e) :
    ∃ i l c, FirstBadCel file i l c ∧ e = complaint i c := by
  rw [ofFile_eq] at h
  have h1 : mapO (toLFrame (fileImages file) (mapOf 0 (keyed 0 file.frames))) file.frames.zipIdx = .err e := by
    cases h3 : mapO (toLFrame (fileImages file) (mapOf 0 (keyed 0 file.frames))) file.frames.zipIdx with
    | ok x => simp [h3, Outcome.bind] at h
    | err x => simpa [h3, Outcome.bind] using h
    | panic x => simp [h3, Outcome.bind] at h
  obtain ⟨pre, ⟨fr, i⟩, post, hz, hf, hpre⟩ := mapO_first_err h1
  obtain ⟨hfr, hearlier⟩ := zipIdx_split hz
  have h2 : mapO (toFrameCel (fileImages file) (mapOf 0 (keyed 0 file.frames)) i) (fr.cels.filterMap id) = .err e := by
    simp only [toLFrame, toFrameCels_eq, outcome_bind_def, outcome_pure_def] at hf
    cases h3 : mapO (toFrameCel (fileImages file) (mapOf 0 (keyed 0 file.frames)) i) (fr.cels.filterMap id) with
    | ok x => simp [h3, Outcome.bind] at hf
    | err x => simpa [h3, Outcome.bind] using hf
    | panic x => simp [h3, Outcome.bind] at hf
  obtain ⟨cpre, c, cpost, hc, he, hcpre⟩ := mapO_first_err h2
  obtain ⟨l, hl, hbelow⟩ := filterMap_split hc
  have hidx : c.layerIndex.toNat = l := hs.index fr (List.mem_of_getElem? hfr) l c hl
  have hat : celAt file i l = some c := celAt_eq.2 ⟨fr, hfr, hl⟩
  obtain ⟨hbad, hcompl⟩ := toFrameCel_err hs hat hidx he
  refine ⟨i, l, c, ⟨hat, hbad, ?_, ?_⟩, hcompl⟩
  · intro i' l' c' hi hc'
    obtain ⟨fr', h4, h5⟩ := celAt_eq.1 hc'
    obtain ⟨lf, h6⟩ := hpre _ (hearlier i' fr' hi h4)
    obtain ⟨-, -, h7⟩ := toLFrame_ok.1 h6
    obtain ⟨fc, h8⟩ := (mapO_exists _ _).1 ⟨_, (mapO_ok _ _ _).2 h7⟩ c' (mem_filterMap_id.2 (List.mem_of_getElem? h5))
    have := hs.index fr' (List.mem_of_getElem? h4) l' c' h5
    subst this
    exact (toFrameCel_ok hs hc' h8).resolvable
  · intro l' c' hlt hc'
    obtain ⟨fr', h4, h5⟩ := celAt_eq.1 hc'
    cases hfr.symm.trans h4
    obtain ⟨fc, h8⟩ := hcpre _ (hbelow l' c' hlt h5)
    have := hs.index fr (List.mem_of_getElem? h4) l' c' h5
    subst this
    exact (toFrameCel_ok hs hc' h8).resolvable

/-- **C33, the cause.** If the file parses, the error `load` returns is about the first cel that shows no image, in the
order of frames and then of layers: for a linked cel it names the frame and the layer of the link, not its target. -/
theorem C33_cause (plat : Plat) (b : Bytes) (file : File) (hp : parseFile plat b = .ok file) (e : LoadSpriteError) :
    AsepriteFile.load plat b = .err e ↔ ∃ i l c, FirstBadCel file i l c ∧ e = complaint i c := by
  have hs := slotsOk_of_parse hp
  have he : AsepriteFile.load plat b = AsepriteFile.ofFile file := by
    simp [AsepriteFile.load, outcome_bind_def, hp, Outcome.mapErr, Outcome.bind]
  rw [he]
  refine ⟨ofFile_err hs, ?_⟩
  rintro ⟨i, l, c, h1, rfl⟩
  cases h : AsepriteFile.ofFile file with
  | ok f => exact absurd ((ofFile_exists hs).1 ⟨f, h⟩ i l c h1.here) h1.bad
  | panic k => exact absurd h (ofFile_no_panic hs k)
  | err e' =>
    obtain ⟨i', l', c', h2, rfl⟩ := ofFile_err hs h
    obtain ⟨rfl, rfl, rfl⟩ := h1.unique h2
    rfl

/-- Two frames, three layers. Frame 0 is all right. In frame 1 the cel chunks come from the top: layer 2 has an unknown cel
type, layer 1 links to frame 7, layer 0 has an image. The complaint is about layer 1. -/
example :
    let layer := Sample.layer 1 0 0 255 [65]
    (match AsepriteFile.load ⟨true, 10⟩ (Sample.header 1 1 32
        ++ Sample.frame 1 [layer, layer, layer, Sample.cel 0 0 0 1 1 [1, 2, 3, 4]]
        ++ Sample.frame 1 [Sample.chunk 0x2005 ([2, 0, 0, 0, 0, 0, 255, 9, 0] ++ List.replicate 7 0),
          Sample.link 1 7, Sample.cel 0 0 0 1 1 [1, 2, 3, 4]]) with
     | .err e => decide (e = .invalidLinkedCel 1 1) | _ => false) = true := by decide +kernel

end Ase
