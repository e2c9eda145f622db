import Verif.Spec.Insert
import Verif.Spec.Joined
import Verif.Props.Drawn
import Verif.Props.Once
import Verif.Props.Possible

/-!
# C151: a layer can be inserted anywhere
-/

namespace Ase

open Spec

theorem movedUp_lt {k a b : Nat} (h : a < b) : movedUp k a < movedUp k b := by
  simp only [movedUp]
  split <;> split <;> omega

theorem insert_get {α : Type} (xs : List α) {k : Nat} (hk : k ≤ xs.length) (x : α) (l : Nat) :
    (xs.take k ++ x :: xs.drop k)[movedUp k l]? = xs[l]? := by
  have hlen : (xs.take k).length = k := by rw [List.length_take]; omega
  simp only [movedUp]
  split
  · rename_i h
    rw [List.getElem?_append_left (by omega), List.getElem?_take, if_pos h]
  · rename_i h
    rw [List.getElem?_append_right (by omega), hlen, show l + 1 - k = (l - k) + 1 by omega, List.getElem?_cons_succ,
      List.getElem?_drop, show k + (l - k) = l by omega]

theorem withLayerAt_possible {plat : Plat} {b : Bytes} {f : AsepriteFile} (hf : AsepriteFile.load plat b = .ok f) (k : Nat)
    {new : LLayer} (hnew : (new.layerType = .normal ∨ new.layerType = .group) ∧ ModeRead new.blendMode ∧ FitsStr new.name)
    (hb : ∀ fr ∈ f.frames, ∀ c ∈ fr.cels, c.layerIndex + 1 < 2 ^ 16) : Possible (withLayerAt f k new) := by
  have hp := C129_possible plat b f hf
  obtain ⟨home, hh⟩ := hp.numbered
  refine ⟨hp.depth, hp.palette, hp.noPalette, ?_, hp.tags, ?_, ?_, ?_, ?_, ?_, home.map fun x => (x.1, movedUp k x.2), ?_, ?_, ?_, ?_⟩
  · intro l hl
    rcases List.mem_append.1 hl with h | h
    · exact hp.layers l (List.mem_of_mem_take h)
    · rcases List.mem_cons.1 h with rfl | h
      · exact hnew
      · exact hp.layers l (List.mem_of_mem_drop h)
  · intro h
    exact hp.frames (List.map_eq_nil_iff.1 h)
  · intro fr hfr
    obtain ⟨fr₀, h0, rfl⟩ := List.mem_map.1 hfr
    exact hp.origin fr₀ h0
  · intro fr hfr
    obtain ⟨fr₀, h0, rfl⟩ := List.mem_map.1 hfr
    have := hp.sorted fr₀ h0
    rw [List.pairwise_map] at this
    dsimp only
    rw [List.map_map, List.pairwise_map]
    exact this.imp fun h => movedUp_lt h
  · intro fr hfr c hc
    obtain ⟨fr₀, h0, rfl⟩ := List.mem_map.1 hfr
    obtain ⟨c₀, h1, rfl⟩ := List.mem_map.1 hc
    have := hb fr₀ h0 c₀ h1
    simp only [movedUp]
    split <;> omega
  · intro fr hfr c hc
    obtain ⟨fr₀, h0, rfl⟩ := List.mem_map.1 hfr
    obtain ⟨c₀, h1, rfl⟩ := List.mem_map.1 hc
    exact hp.size fr₀ h0 c₀ h1
  · rw [List.length_map]
    exact hh.count
  · rw [List.pairwise_map]
    refine hh.ascending.imp fun h => ?_
    rcases h with h | ⟨h1, h2⟩
    · exact .inl h
    · exact .inr ⟨h1, movedUp_lt h2⟩
  · intro n i l hn
    rw [List.getElem?_map] at hn
    obtain ⟨⟨i', l'⟩, h1, h2⟩ := Option.map_eq_some_iff.1 hn
    cases h2
    obtain ⟨fr, c, h3, h4, rfl, h6⟩ := hh.stored n i' l' h1
    have h3' : f.frames[i']? = some fr := h3
    exact ⟨_, { c with layerIndex := movedUp k c.layerIndex }, by rw [withLayerAt, List.getElem?_map, h3']; rfl,
      List.mem_map.2 ⟨c, h4, rfl⟩, rfl, h6⟩
  · intro i fr c hi hc
    simp only [withLayerAt, List.getElem?_map, Option.map_eq_some_iff] at hi
    obtain ⟨fr₀, h0, rfl⟩ := hi
    obtain ⟨c₀, h1, rfl⟩ := List.mem_map.1 hc
    obtain ⟨j, h2, h3⟩ := hh.shown i fr₀ c₀ h0 h1
    exact ⟨j, by rw [List.getElem?_map, h2]; rfl, h3⟩

/-- **C151.** A layer can be inserted anywhere: for every sprite, every place `k` among or after its layers and every layer
that can be stored there is, if all numbers of layers fit 16 bits then and no frame needs 4 GiB, a file that is loaded as the
sprite with this layer inserted there, the cels moved up with their layers and nothing else changed.  Since the new layer is
empty, each frame is rendered as before, onto every buffer, failures included: with the visible layers, with all layers, and
with a mask to which any value is added at `k`. -/
theorem C151_inserted (plat : Plat) (b : Bytes) (f : AsepriteFile) (hf : AsepriteFile.load plat b = .ok f) (k : Nat)
    (hk : k ≤ f.layers.length) (new : LLayer)
    (hnew : (new.layerType = .normal ∨ new.layerType = .group) ∧ ModeRead new.blendMode ∧ FitsStr new.name)
    (hb : ∀ fr ∈ f.frames, ∀ c ∈ fr.cels, c.layerIndex + 1 < 2 ^ 16) (hs : Small (withLayerAt f k new)) :
    ∃ c g, AsepriteFile.load plat c = .ok g ∧ spriteOf g = withLayerAt f k new ∧
      ∀ (p : Plat) (inflate : Inflater) (i : Nat) (t : Bytes),
        g.loadImage inflate i t = f.loadImage inflate i t ∧
        g.renderFrame p inflate i .visible t = f.renderFrame p inflate i .visible t ∧
        g.renderFrame p inflate i .all t = f.renderFrame p inflate i .all t ∧
        ∀ (m : List Bool) (x : Bool), k ≤ m.length →
          g.renderFrame p inflate i (.mask (m.take k ++ x :: m.drop k)) t = f.renderFrame p inflate i (.mask m) t := by
  obtain ⟨c, g, hc, he⟩ := C129_every plat _ (withLayerAt_possible hf k hnew hb) hs
  have e1 : g.size = f.size := congrArg Sprite.size he
  have e2 : g.file.header.colorDepth = f.file.header.colorDepth := congrArg Sprite.depth he
  have e3 : g.file.palette = f.file.palette := congrArg Sprite.palette he
  have e4 : g.layers = f.layers.take k ++ new :: f.layers.drop k := congrArg Sprite.layers he
  have e5 : g.frames = f.frames.map fun fr =>
    { fr with cels := fr.cels.map fun c => { c with layerIndex := movedUp k c.layerIndex } } := congrArg Sprite.frames he
  have e6 : g.images = f.images := congrArg Sprite.images he
  have cb : canvasBytes g = canvasBytes f := by
    simp only [canvasBytes]
    rw [show g.file.header.width = f.file.header.width from congrArg Prod.fst e1,
      show g.file.header.height = f.file.header.height from congrArg Prod.snd e1]
  have main : ∀ (p : Plat) (inflate : Inflater) (i : Nat) (t : Bytes) (sel' sel : LayerSelection),
      (∀ l layer, Selects sel' (movedUp k l) layer ↔ Selects sel l layer) →
      g.renderFrame p inflate i sel' t = f.renderFrame p inflate i sel t := by
    intro p inflate i t sel' sel h
    rw [renderFrame_eq, renderFrame_eq, cb, e5, List.getElem?_map]
    split
    · rfl
    · cases f.frames[i]? with
      | none => rfl
      | some lf =>
        refine forEach_draws e1 e2 e3 p inflate sel' sel _ _ lf.cels (Nat.le_refl _) ?_ t
        rw [List.filterMap_map]
        refine List.filterMap_congr fun c _ => ?_
        simp only [Function.comp_def, cellDraw, drawnOn, e4, e6, insert_get f.layers hk]
        cases f.layers[c.layerIndex]? with
        | none => rfl
        | some layer => simp only [h]
  refine ⟨c, g, hc, he, fun p inflate i t => ⟨?_, main p inflate i t _ _ fun _ _ => Iff.rfl, main p inflate i t _ _ fun _ _ => Iff.rfl,
    fun m x hm => main p inflate i t _ _ fun l layer => ?_⟩⟩
  · simp only [AsepriteFile.loadImage, AsepriteFile.decodeImage, AsepriteFile.paletteOrErr, e2, e3, e6]
  · simp only [Selects, insert_get m hm]

/-- A layer is inserted between two others: the hypotheses hold, the second file stores the result, and it gives the same
picture. -/
example :
    let new : LLayer := ⟨"N", 9, .multiply, true, .normal⟩
    let b := Sample.header 2 1 32 ++ Sample.frame 1 [Sample.layer 1 0 0 255 [65], Sample.layer 1 0 1 200 [66],
      Sample.cel 0 0 0 1 1 [90, 80, 70, 255], Sample.cel 1 1 0 1 1 [200, 100, 0, 128]]
    let b' := Sample.header 2 1 32 ++ Sample.frame 1 [Sample.layer 1 0 0 255 [65], Sample.layer 1 0 1 9 [78],
      Sample.layer 1 0 1 200 [66], Sample.cel 0 0 0 1 1 [90, 80, 70, 255], Sample.cel 2 1 0 1 1 [200, 100, 0, 128]]
    (match AsepriteFile.load ⟨true, 10⟩ b, AsepriteFile.load ⟨true, 10⟩ b' with
      | .ok f, .ok g => decide (Small (withLayerAt f 1 new)) && decide (1 ≤ f.layers.length) &&
          decide (∀ fr ∈ f.frames, ∀ c ∈ fr.cels, c.layerIndex + 1 < 2 ^ 16) &&
          decide ((withLayerAt f 1 new).layers = g.layers ∧ (withLayerAt f 1 new).images = g.images ∧
            (withLayerAt f 1 new).frames = g.frames)
      | _, _ => false) = true ∧
    Sample.render ⟨true, 10⟩ b 0 (.mask [false, true]) (List.replicate 8 0) = some (.ok (), [0, 0, 0, 0, 200, 100, 0, 100]) ∧
    Sample.render ⟨true, 10⟩ b' 0 (.mask [false, true, true]) (List.replicate 8 0) =
      some (.ok (), [0, 0, 0, 0, 200, 100, 0, 100]) := by
  decide +kernel

end Ase
