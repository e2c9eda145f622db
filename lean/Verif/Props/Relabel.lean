import Verif.Spec.Relabel
import Verif.Spec.Joined
import Verif.Props.Drawn
import Verif.Props.Once
import Verif.Props.Possible

/-!
# C149: names, durations and tags are free
-/

namespace Ase

open Spec

theorem relabelled_possible {plat : Plat} {b : Bytes} {f : AsepriteFile} (hf : AsepriteFile.load plat b = .ok f)
    {names : Nat → String} {durations : Nat → UInt16} {tags : List LTag} (hn : ∀ l, l < f.layers.length → FitsStr (names l))
    (ht : ∀ t ∈ tags, TagStored t) : Possible (relabelled f names durations tags) := by
  have hp := C129_possible plat b f hf
  obtain ⟨home, hh⟩ := hp.numbered
  have back : ∀ fr ∈ (relabelled f names durations tags).frames, ∃ fr₀ ∈ f.frames, fr.origin = fr₀.origin ∧ fr.cels = fr₀.cels := by
    intro fr hfr
    obtain ⟨k, hk, rfl⟩ := List.mem_mapIdx.1 hfr
    exact ⟨_, List.getElem_mem hk, rfl, rfl⟩
  refine ⟨hp.depth, hp.palette, hp.noPalette, ?_, ht, ?_, ?_, ?_, ?_, ?_, home, hh.count, hh.ascending, ?_, ?_⟩
  · intro l hl
    obtain ⟨k, hk, rfl⟩ := List.mem_mapIdx.1 hl
    obtain ⟨h1, h2, -⟩ := hp.layers f.layers[k] (List.getElem_mem hk)
    exact ⟨h1, h2, hn k hk⟩
  · intro h
    exact hp.frames (List.mapIdx_eq_nil_iff.1 h)
  · intro fr hfr
    obtain ⟨fr₀, h0, h1, -⟩ := back fr hfr
    rw [h1]
    exact hp.origin fr₀ h0
  · intro fr hfr
    obtain ⟨fr₀, h0, -, h2⟩ := back fr hfr
    rw [h2]
    exact hp.sorted fr₀ h0
  · intro fr hfr
    obtain ⟨fr₀, h0, -, h2⟩ := back fr hfr
    rw [h2]
    exact hp.layerIndex fr₀ h0
  · intro fr hfr
    obtain ⟨fr₀, h0, -, h2⟩ := back fr hfr
    rw [h2]
    exact hp.size fr₀ h0
  · intro k i l hk
    obtain ⟨fr, c, h1, h2⟩ := hh.stored k i l hk
    have h1' : f.frames[i]? = some fr := h1
    exact ⟨{ fr with duration := durations i }, c, by simp [relabelled, List.getElem?_mapIdx, h1'], h2⟩
  · intro i fr c hi hc
    simp only [relabelled, List.getElem?_mapIdx, Option.map_eq_some_iff] at hi
    obtain ⟨fr₀, h0, rfl⟩ := hi
    exact hh.shown i fr₀ c h0 hc

/-- **C149.** Names, durations and tags are free: for every sprite, names of its layers, durations of its frames and tags
there is, if each name fits, the tags can be stored and no frame needs 4 GiB, a file that is loaded as the same sprite with
these names, durations and tags.  It has the same images, which are loaded in the same way, and each frame is rendered with
each selection exactly as before, onto every buffer, failures included, and with the same hash. -/
theorem C149_relabelled (plat : Plat) (b : Bytes) (f : AsepriteFile) (hf : AsepriteFile.load plat b = .ok f)
    (names : Nat → String) (durations : Nat → UInt16) (tags : List LTag)
    (hn : ∀ l, l < f.layers.length → FitsStr (names l)) (ht : ∀ t ∈ tags, TagStored t)
    (hs : Small (relabelled f names durations tags)) :
    ∃ c g, AsepriteFile.load plat c = .ok g ∧ spriteOf g = relabelled f names durations tags ∧
      ∀ (p : Plat) (inflate : Inflater) (i : Nat) (t : Bytes),
        g.loadImage inflate i t = f.loadImage inflate i t ∧
        (∀ sel, g.renderFrame p inflate i sel t = f.renderFrame p inflate i sel t) ∧
        ∀ hash, g.combinedFrameImage p inflate hash i t = f.combinedFrameImage p inflate hash i t := by
  obtain ⟨c, g, hc, he⟩ := C129_every plat _ (relabelled_possible hf (durations := durations) hn ht) hs
  have e1 : g.size = f.size := congrArg Sprite.size he
  have e2 : g.file.header.colorDepth = f.file.header.colorDepth := congrArg Sprite.depth he
  have e3 : g.file.palette = f.file.palette := congrArg Sprite.palette he
  have e4 : g.layers = f.layers.mapIdx fun l layer => { layer with name := names l } := congrArg Sprite.layers he
  have e5 : g.frames = f.frames.mapIdx fun i fr => { fr with duration := durations i } := congrArg Sprite.frames he
  have e6 : g.images = f.images := congrArg Sprite.images he
  have cb : canvasBytes g = canvasBytes f := by
    simp only [canvasBytes]
    rw [show g.file.header.width = f.file.header.width from congrArg Prod.fst e1,
      show g.file.header.height = f.file.header.height from congrArg Prod.snd e1]
  have main : ∀ (p : Plat) (inflate : Inflater) (i : Nat) (t : Bytes) (sel : LayerSelection),
      g.renderFrame p inflate i sel t = f.renderFrame p inflate i sel t := by
    intro p inflate i t sel
    have hdraw : ∀ c, cellDraw g sel c = cellDraw f sel c := by
      intro c
      have h : ∀ layer : LLayer, Selects sel c.layerIndex { layer with name := names c.layerIndex } ↔
          Selects sel c.layerIndex layer := by
        intro layer
        cases sel <;> exact Iff.rfl
      simp only [cellDraw, drawnOn, e4, e6, List.getElem?_mapIdx]
      cases f.layers[c.layerIndex]? with
      | none => rfl
      | some layer =>
        simp only [Option.map_some, h layer]
        split <;> rfl
    rw [renderFrame_eq, renderFrame_eq, cb, e5, List.getElem?_mapIdx]
    split
    · rfl
    · cases f.frames[i]? with
      | none => rfl
      | some lf =>
        refine forEach_draws e1 e2 e3 p inflate sel sel _ lf.cels lf.cels (Nat.le_refl _) ?_ t
        exact List.filterMap_congr fun c _ => hdraw c
  refine ⟨c, g, hc, he, fun p inflate i t => ⟨?_, main p inflate i t, fun hash => ?_⟩⟩
  · simp only [AsepriteFile.loadImage, AsepriteFile.decodeImage, AsepriteFile.paletteOrErr, e2, e3, e6]
  · have hcombined : ∀ (s : AsepriteFile) (v : Bytes), s.combinedFrameImage p inflate hash i v =
        Buf.bind (s.renderFrame p inflate i .visible) (fun _ => match s.frames[i]? with
          | none => Buf.lift (.panic .indexOutOfBounds)
          | some frame => pure (hash (frame.cels.map fun c => (c.imageIndex, c.layerIndex, c.origin, c.size)))) v := fun _ _ => rfl
    rw [hcombined, hcombined, Buf.bind, Buf.bind, main, e5, List.getElem?_mapIdx]
    cases f.frames[i]? <;> rfl

/-- A sprite of two frames gets a name, durations and a tag: the hypotheses hold, and nothing but these
changes. -/
example :
    let names : Nat → String := fun _ => "Z"
    let durations : Nat → UInt16 := fun i => if i = 0 then 40 else 7
    let tags : List LTag := [⟨"T", 0, 1, .reverse, none⟩]
    let b := Sample.header 2 1 32 ++ Sample.frame 2 [Sample.layer 1 0 0 255 [65],
      Sample.cel 0 0 0 2 1 [100, 90, 80, 255, 70, 60, 50, 255]] ++ Sample.frame 2 [Sample.link 0 0]
    (∀ l, FitsStr (names l)) ∧ (∀ t ∈ tags, TagStored t) ∧
    (match AsepriteFile.load ⟨true, 10⟩ b with
      | .ok f => decide (Small (relabelled f names durations tags)) &&
          decide ((relabelled f names durations tags).layers = [⟨"Z", 255, .normal, true, .normal⟩]) &&
          decide ((relabelled f names durations tags).frames.map (·.duration) = [40, 7]) &&
          decide (f.layers = [⟨"A", 255, .normal, true, .normal⟩] ∧ f.tags = [])
      | _ => false) = true := by
  refine ⟨fun _ => ?_, ?_, ?_⟩
  · show FitsStr "Z"
    unfold FitsStr
    decide +kernel
  · intro t ht
    rw [List.mem_singleton] at ht
    subst ht
    refine ⟨by decide, by decide, trivial, ?_⟩
    unfold FitsStr
    decide +kernel
  · decide +kernel

end Ase
