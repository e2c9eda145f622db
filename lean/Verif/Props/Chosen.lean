import Verif.Spec.Chosen
import Verif.Spec.Joined
import Verif.Props.Drawn
import Verif.Props.Once
import Verif.Props.Possible

/-!
# C148: every selection can be made the default
-/

namespace Ase

open Spec

theorem chosenSprite_possible {plat : Plat} {b : Bytes} {f : AsepriteFile} (hf : AsepriteFile.load plat b = .ok f)
    (sel : LayerSelection) : Possible (chosenSprite f sel) := by
  have hp := C129_possible plat b f hf
  obtain ⟨home, hn⟩ := hp.numbered
  refine ⟨hp.depth, hp.palette, hp.noPalette, ?_, hp.tags, hp.frames, hp.origin, hp.sorted, hp.layerIndex, hp.size, home,
    ⟨hn.count, hn.ascending, hn.stored, hn.shown⟩⟩
  intro l hl
  obtain ⟨k, hk, rfl⟩ := List.mem_mapIdx.1 hl
  exact hp.layers f.layers[k] (List.getElem_mem hk)

theorem chosenSprite_small {f : AsepriteFile} (hs : Small (spriteOf f)) (sel : LayerSelection) : Small (chosenSprite f sel) := by
  have h : (chosenSprite f sel).layers.map (fun l => 64 + (utf8 l.name).length) =
      (spriteOf f).layers.map fun l => 64 + (utf8 l.name).length := by
    refine List.ext_getElem? fun k => ?_
    simp only [chosenSprite, spriteOf, List.getElem?_map, List.getElem?_mapIdx]
    cases f.layers[k]? <;> rfl
  intro fr hfr
  rw [h]
  exact hs fr hfr

/-- **C148.** Every selection of layers can be made the default: for every sprite and selection there is a file that is loaded
as the same sprite with exactly the selected layers marked visible.  Its visible layers are rendered exactly as the selected
layers of the first sprite are, onto every buffer, failures included and in every build; so `combined_frame_image`, which
has no selection, shows them, with the hash it gives for the frame of the first sprite.  Rendered with all layers or by a
mask it is as before. -/
theorem C148_chosen (plat : Plat) (b : Bytes) (f : AsepriteFile) (hf : AsepriteFile.load plat b = .ok f)
    (sel : LayerSelection) (hs : Small (spriteOf f)) :
    ∃ c g, AsepriteFile.load plat c = .ok g ∧ spriteOf g = chosenSprite f sel ∧
      ∀ (p : Plat) (inflate : Inflater) (i : Nat) (t : Bytes),
        g.renderFrame p inflate i .visible t = f.renderFrame p inflate i sel t ∧
        (∀ sel', sel' ≠ .visible → g.renderFrame p inflate i sel' t = f.renderFrame p inflate i sel' t) ∧
        ∀ hash t', f.renderFrame p inflate i sel t = (.ok (), t') → ∃ h, g.combinedFrameImage p inflate hash i t = (.ok h, t') ∧
          ∀ u u' h', f.combinedFrameImage p inflate hash i u = (.ok h', u') → h' = h := by
  obtain ⟨c, g, hc, he⟩ := C129_every plat _ (chosenSprite_possible hf sel) (chosenSprite_small hs sel)
  have e1 : g.size = f.size := congrArg Sprite.size he
  have e2 : g.file.header.colorDepth = f.file.header.colorDepth := congrArg Sprite.depth he
  have e3 : g.file.palette = f.file.palette := congrArg Sprite.palette he
  have e4 : g.layers = f.layers.mapIdx fun l layer => { layer with visible := decide (Selects sel l layer) } :=
    congrArg Sprite.layers he
  have e5 : g.frames = f.frames := congrArg Sprite.frames he
  have e6 : g.images = f.images := congrArg Sprite.images he
  have cb : canvasBytes g = canvasBytes f := by
    simp only [canvasBytes]
    rw [show g.file.header.width = f.file.header.width from congrArg Prod.fst e1,
      show g.file.header.height = f.file.header.height from congrArg Prod.snd e1]
  have main : ∀ (p : Plat) (inflate : Inflater) (i : Nat) (t : Bytes) (sel₁ sel₂ : LayerSelection),
      (∀ l layer, Selects sel₁ l { layer with visible := decide (Selects sel l layer) } ↔ Selects sel₂ l layer) →
      g.renderFrame p inflate i sel₁ t = f.renderFrame p inflate i sel₂ t := by
    intro p inflate i t sel₁ sel₂ h
    have hdraw : ∀ c, cellDraw g sel₁ c = cellDraw f sel₂ c := by
      intro c
      simp only [cellDraw, drawnOn, e4, e6, List.getElem?_mapIdx]
      cases f.layers[c.layerIndex]? with
      | none => rfl
      | some layer =>
        have := h c.layerIndex layer
        simp only [Option.map_some, this]
        split <;> rfl
    rw [renderFrame_eq, renderFrame_eq, cb, e5]
    split
    · rfl
    · cases f.frames[i]? with
      | none => rfl
      | some lf =>
        refine forEach_draws e1 e2 e3 p inflate sel₁ sel₂ _ lf.cels lf.cels (Nat.le_refl _) ?_ t
        exact List.filterMap_congr fun c _ => hdraw c
  refine ⟨c, g, hc, he, fun p inflate i t => ?_⟩
  have hvis : ∀ t, g.renderFrame p inflate i .visible t = f.renderFrame p inflate i sel t := fun t =>
    main p inflate i t .visible sel fun l layer => decide_eq_true_iff
  refine ⟨hvis t, fun sel' hsel => main p inflate i t sel' sel' fun l layer => ?_, fun hash t' ht => ?_⟩
  · cases sel' with
    | visible => exact absurd rfl hsel
    | all => exact Iff.rfl
    | mask m => exact Iff.rfl
  · have hcombined : ∀ (s : AsepriteFile) (v : Bytes), s.combinedFrameImage p inflate hash i v =
        Buf.bind (s.renderFrame p inflate i .visible) (fun _ => match s.frames[i]? with
          | none => Buf.lift (.panic .indexOutOfBounds)
          | some frame => pure (hash (frame.cels.map fun c => (c.imageIndex, c.layerIndex, c.origin, c.size)))) v := fun _ _ => rfl
    cases hi : f.frames[i]? with
    | none =>
      have h0 := congrArg Prod.fst ht
      rw [renderFrame_eq, hi] at h0
      split at h0 <;> cases h0
    | some lf =>
      refine ⟨hash (lf.cels.map fun c => (c.imageIndex, c.layerIndex, c.origin, c.size)), ?_, fun u u' h' hu => ?_⟩
      · rw [hcombined, Buf.bind, hvis, ht, e5, hi]
        rfl
      · rw [hcombined, Buf.bind, hi] at hu
        rcases hv : f.renderFrame p inflate i .visible u with ⟨_ | e | k, v⟩ <;> rw [hv] at hu
        · cases hu
          rfl
        · cases hu
        · cases hu

/-- Of three layers the first one is visible, and the mask selects the last one: the file with the eyes changed shows it, and
with all layers it looks as before. -/
example :
    let body := [Sample.cel 0 0 0 1 1 [90, 80, 70, 255], Sample.cel 2 1 0 1 1 [200, 100, 0, 128]]
    let b := Sample.header 2 1 32 ++ Sample.frame 1 ([Sample.layer 1 0 0 255 [65], Sample.layer 0 1 0 255 [66],
      Sample.layer 0 0 1 200 [67]] ++ body)
    let b' := Sample.header 2 1 32 ++ Sample.frame 1 ([Sample.layer 0 0 0 255 [65], Sample.layer 0 1 0 255 [66],
      Sample.layer 1 0 1 200 [67]] ++ body)
    (match AsepriteFile.load ⟨true, 10⟩ b, AsepriteFile.load ⟨true, 10⟩ b' with
      | .ok f, .ok g => decide (Small (spriteOf f)) && (chosenSprite f (.mask [false, false, true])).layers == g.layers
      | _, _ => false) = true ∧
    Sample.render ⟨true, 10⟩ b 0 .visible (List.replicate 8 0) = some (.ok (), [90, 80, 70, 255, 0, 0, 0, 0]) ∧
    Sample.render ⟨true, 10⟩ b 0 (.mask [false, false, true]) (List.replicate 8 0) =
      some (.ok (), [0, 0, 0, 0, 200, 100, 0, 100]) ∧
    Sample.render ⟨true, 10⟩ b' 0 .visible (List.replicate 8 0) = some (.ok (), [0, 0, 0, 0, 200, 100, 0, 100]) ∧
    Sample.render ⟨true, 10⟩ b 0 .all (List.replicate 8 0) = Sample.render ⟨true, 10⟩ b' 0 .all (List.replicate 8 0) := by
  decide +kernel

end Ase
