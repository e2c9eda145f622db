import Verif.Spec.Remove
import Verif.Spec.Joined
import Verif.Props.Drawn
import Verif.Props.Once
import Verif.Props.Possible

/-!
# C154: an empty layer can be removed
-/

namespace Ase

open Spec

theorem movedDown_lt {k a b : Nat} (h : a < b) (ha : a ≠ k) (hb : b ≠ k) : movedDown k a < movedDown k b := by
  simp only [movedDown]
  split <;> split <;> omega

theorem remove_get {α : Type} (xs : List α) {k l : Nat} (hl : l ≠ k) : (xs.eraseIdx k)[movedDown k l]? = xs[l]? := by
  rw [List.getElem?_eraseIdx, movedDown]
  by_cases h : l < k
  · rw [if_pos h, if_pos h]
  · rw [if_neg h, if_neg (by omega), show l - 1 + 1 = l by omega]

theorem withoutLayer_possible {plat : Plat} {b : Bytes} {f : AsepriteFile} (hf : AsepriteFile.load plat b = .ok f) {k : Nat}
    (hk : ∀ fr ∈ f.frames, ∀ c ∈ fr.cels, c.layerIndex ≠ k) : Possible (withoutLayer f k) := by
  have hp := C129_possible plat b f hf
  obtain ⟨home, hh⟩ := hp.numbered
  have hne : ∀ x ∈ home, x.2 ≠ k := by
    intro x hx
    obtain ⟨n, hn⟩ := List.mem_iff_getElem?.1 hx
    obtain ⟨fr, c, h1, h2, h3, -⟩ := hh.stored n x.1 x.2 hn
    exact h3 ▸ hk fr (List.mem_of_getElem? (show f.frames[x.1]? = some fr from h1)) c h2
  refine ⟨hp.depth, hp.palette, hp.noPalette, ?_, hp.tags, ?_, ?_, ?_, ?_, ?_, home.map fun x => (x.1, movedDown k x.2), ?_, ?_, ?_, ?_⟩
  · intro l hl
    exact hp.layers l (List.mem_of_mem_eraseIdx hl)
  · intro h
    exact hp.frames (List.map_eq_nil_iff.1 h)
  · intro fr hfr
    obtain ⟨fr₀, h0, rfl⟩ := List.mem_map.1 hfr
    exact hp.origin fr₀ h0
  · intro fr hfr
    obtain ⟨fr₀, h0, rfl⟩ := List.mem_map.1 hfr
    have := hp.sorted fr₀ h0
    rw [List.pairwise_map] at this
    dsimp only
    rw [List.map_map, List.pairwise_map]
    exact this.imp_of_mem fun ha hb h => movedDown_lt h (hk fr₀ h0 _ ha) (hk fr₀ h0 _ hb)
  · intro fr hfr c hc
    obtain ⟨fr₀, h0, rfl⟩ := List.mem_map.1 hfr
    obtain ⟨c₀, h1, rfl⟩ := List.mem_map.1 hc
    have := hp.layerIndex fr₀ h0 c₀ h1
    simp only [movedDown]
    split <;> omega
  · intro fr hfr c hc
    obtain ⟨fr₀, h0, rfl⟩ := List.mem_map.1 hfr
    obtain ⟨c₀, h1, rfl⟩ := List.mem_map.1 hc
    exact hp.size fr₀ h0 c₀ h1
  · rw [List.length_map]
    exact hh.count
  · rw [List.pairwise_map]
    refine hh.ascending.imp_of_mem fun ha hb h => ?_
    rcases h with h | ⟨h1, h2⟩
    · exact .inl h
    · exact .inr ⟨h1, movedDown_lt h2 (hne _ ha) (hne _ hb)⟩
  · intro n i l hn
    rw [List.getElem?_map] at hn
    obtain ⟨⟨i', l'⟩, h1, h2⟩ := Option.map_eq_some_iff.1 hn
    cases h2
    obtain ⟨fr, c, h3, h4, rfl, h6⟩ := hh.stored n i' l' h1
    have h3' : f.frames[i']? = some fr := h3
    exact ⟨_, { c with layerIndex := movedDown k c.layerIndex }, by rw [withoutLayer, List.getElem?_map, h3']; rfl,
      List.mem_map.2 ⟨c, h4, rfl⟩, rfl, h6⟩
  · intro i fr c hi hc
    simp only [withoutLayer, List.getElem?_map, Option.map_eq_some_iff] at hi
    obtain ⟨fr₀, h0, rfl⟩ := hi
    obtain ⟨c₀, h1, rfl⟩ := List.mem_map.1 hc
    obtain ⟨j, h2, h3⟩ := hh.shown i fr₀ c₀ h0 h1
    exact ⟨j, by rw [List.getElem?_map, h2]; rfl, h3⟩

theorem withoutLayer_small {f : AsepriteFile} (k : Nat) (hs : Small (spriteOf f)) : Small (withoutLayer f k) := by
  intro fr hfr
  obtain ⟨fr₀, h0, rfl⟩ := List.mem_map.1 hfr
  have h1 := hs fr₀ h0
  have h2 : ((withoutLayer f k).layers.map fun l => 64 + (utf8 l.name).length).sum ≤
      ((spriteOf f).layers.map fun l => 64 + (utf8 l.name).length).sum :=
    ((List.eraseIdx_sublist f.layers k).map _).sum_le_sum (fun _ _ => Nat.zero_le _)
  dsimp only
  rw [List.map_map]
  show 2 ^ 23 + _ + ((spriteOf f).tags.map fun t => 64 + (utf8 t.name).length).sum +
    (fr₀.cels.map fun c => 64 + dataLength (spriteOf f) c.imageIndex).sum < 2 ^ 32
  omega

/-- **C154.** An empty layer can be removed: for every sprite and every layer of it on which no frame has a cel there is, if no
frame needs 4 GiB, a file that is loaded as the sprite without this layer, the cels moved down with their layers and nothing
else changed.  The images are loaded as before, and each frame is rendered as before, onto every buffer, failures included:
with the visible layers, with all layers, and with a mask from which the value of that layer is removed. -/
theorem C154_removed (plat : Plat) (b : Bytes) (f : AsepriteFile) (hf : AsepriteFile.load plat b = .ok f) (k : Nat)
    (hk : ∀ fr ∈ f.frames, ∀ c ∈ fr.cels, c.layerIndex ≠ k) (hs : Small (spriteOf f)) :
    ∃ c g, AsepriteFile.load plat c = .ok g ∧ spriteOf g = withoutLayer f k ∧
      ∀ (p : Plat) (inflate : Inflater) (i : Nat) (t : Bytes),
        g.loadImage inflate i t = f.loadImage inflate i t ∧
        g.renderFrame p inflate i .visible t = f.renderFrame p inflate i .visible t ∧
        g.renderFrame p inflate i .all t = f.renderFrame p inflate i .all t ∧
        ∀ m : List Bool, g.renderFrame p inflate i (.mask (m.eraseIdx k)) t = f.renderFrame p inflate i (.mask m) t := by
  obtain ⟨c, g, hc, he⟩ := C129_every plat _ (withoutLayer_possible hf hk) (withoutLayer_small k hs)
  have e1 : g.size = f.size := congrArg Sprite.size he
  have e2 : g.file.header.colorDepth = f.file.header.colorDepth := congrArg Sprite.depth he
  have e3 : g.file.palette = f.file.palette := congrArg Sprite.palette he
  have e4 : g.layers = f.layers.eraseIdx k := congrArg Sprite.layers he
  have e5 : g.frames = f.frames.map fun fr =>
    { fr with cels := fr.cels.map fun c => { c with layerIndex := movedDown k c.layerIndex } } := congrArg Sprite.frames he
  have e6 : g.images = f.images := congrArg Sprite.images he
  have cb : canvasBytes g = canvasBytes f := by
    simp only [canvasBytes]
    rw [show g.file.header.width = f.file.header.width from congrArg Prod.fst e1,
      show g.file.header.height = f.file.header.height from congrArg Prod.snd e1]
  have main : ∀ (p : Plat) (inflate : Inflater) (i : Nat) (t : Bytes) (sel' sel : LayerSelection),
      (∀ l layer, l ≠ k → (Selects sel' (movedDown k l) layer ↔ Selects sel l layer)) →
      g.renderFrame p inflate i sel' t = f.renderFrame p inflate i sel t := by
    intro p inflate i t sel' sel h
    rw [renderFrame_eq, renderFrame_eq, cb, e5, List.getElem?_map]
    split
    · rfl
    · cases hi : f.frames[i]? with
      | none => rfl
      | some lf =>
        refine forEach_draws e1 e2 e3 p inflate sel' sel _ _ lf.cels (Nat.le_refl _) ?_ t
        rw [List.filterMap_map]
        refine List.filterMap_congr fun c hc => ?_
        have hne := hk lf (List.mem_of_getElem? hi) c hc
        simp only [Function.comp_def, cellDraw, drawnOn, e4, e6, remove_get f.layers hne]
        cases f.layers[c.layerIndex]? with
        | none => rfl
        | some layer => simp only [h c.layerIndex layer hne]
  refine ⟨c, g, hc, he, fun p inflate i t => ⟨?_, main p inflate i t _ _ fun _ _ _ => Iff.rfl,
    main p inflate i t _ _ fun _ _ _ => Iff.rfl, fun m => main p inflate i t _ _ fun l layer hl => ?_⟩⟩
  · simp only [AsepriteFile.loadImage, AsepriteFile.decodeImage, AsepriteFile.paletteOrErr, e2, e3, e6]
  · simp only [Selects, remove_get m hl]

/-- The empty layer between two others is removed: the hypotheses hold, the second file stores the result, and it gives the same
picture. -/
example :
    let b' := Sample.header 2 1 32 ++ Sample.frame 1 [Sample.layer 1 0 0 255 [65], Sample.layer 1 0 1 200 [66],
      Sample.cel 0 0 0 1 1 [90, 80, 70, 255], Sample.cel 1 1 0 1 1 [200, 100, 0, 128]]
    let b := Sample.header 2 1 32 ++ Sample.frame 1 [Sample.layer 1 0 0 255 [65], Sample.layer 1 0 1 9 [78],
      Sample.layer 1 0 1 200 [66], Sample.cel 0 0 0 1 1 [90, 80, 70, 255], Sample.cel 2 1 0 1 1 [200, 100, 0, 128]]
    (match AsepriteFile.load ⟨true, 10⟩ b, AsepriteFile.load ⟨true, 10⟩ b' with
      | .ok f, .ok g => decide (Small (spriteOf f)) && decide (∀ fr ∈ f.frames, ∀ c ∈ fr.cels, c.layerIndex ≠ 1) &&
          decide ((withoutLayer f 1).layers = g.layers ∧ (withoutLayer f 1).images = g.images ∧
            (withoutLayer f 1).frames = g.frames)
      | _, _ => false) = true ∧
    Sample.render ⟨true, 10⟩ b 0 (.mask [false, true, true]) (List.replicate 8 0) =
      some (.ok (), [0, 0, 0, 0, 200, 100, 0, 100]) ∧
    Sample.render ⟨true, 10⟩ b' 0 (.mask [false, true]) (List.replicate 8 0) = some (.ok (), [0, 0, 0, 0, 200, 100, 0, 100]) := by
  decide +kernel

end Ase
