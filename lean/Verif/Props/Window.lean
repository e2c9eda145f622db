import Verif.Spec.Window
import Verif.Spec.Once
import Verif.Props.Joined
import Verif.Props.Look

/-!
# C142: any part of the canvas as a file
-/

namespace Ase

open Spec

theorem windowOf_possible {plat : Plat} {b : Bytes} {f : AsepriteFile} (hf : AsepriteFile.load plat b = .ok f) (x y : Int)
    (w h : UInt16) : Possible (windowOf f x y w h) := by
  have hp := C129_possible plat b f hf
  obtain ⟨home, nf⟩ := hp.numbered
  have hframe : ∀ fr ∈ (windowOf f x y w h).frames, ∃ fr' ∈ f.frames,
      fr = { fr' with cels := fr'.cels.map (seenFrom x y) } := by
    intro fr hfr
    obtain ⟨fr', h1, h2⟩ := List.mem_map.1 hfr
    exact ⟨fr', h1, h2.symm⟩
  refine ⟨hp.depth, hp.palette, hp.noPalette, hp.layers, hp.tags, ?_, ?_, ?_, ?_, ?_, home, nf.count, nf.ascending, ?_, ?_⟩
  · have : f.frames ≠ [] := hp.frames
    simpa [windowOf] using this
  · intro fr hfr
    obtain ⟨fr', h1, rfl⟩ := hframe fr hfr
    exact hp.origin fr' h1
  · intro fr hfr
    obtain ⟨fr', h1, rfl⟩ := hframe fr hfr
    simpa only [List.map_map, Function.comp_def, seenFrom] using hp.sorted fr' h1
  · intro fr hfr c hc
    obtain ⟨fr', h1, rfl⟩ := hframe fr hfr
    obtain ⟨c', h2, rfl⟩ := List.mem_map.1 hc
    exact hp.layerIndex fr' h1 c' h2
  · intro fr hfr c hc
    obtain ⟨fr', h1, rfl⟩ := hframe fr hfr
    obtain ⟨c', h2, rfl⟩ := List.mem_map.1 hc
    exact hp.size fr' h1 c' h2
  · intro k i l hk
    obtain ⟨fr, c, h1, h2, h3, h4⟩ := nf.stored k i l hk
    refine ⟨{ fr with cels := fr.cels.map (seenFrom x y) }, seenFrom x y c, ?_, List.mem_map_of_mem h2, h3, h4⟩
    change (f.frames.map _)[i]? = _
    rw [List.getElem?_map, show f.frames[i]? = some fr from h1]
    rfl
  · intro i fr c h1 h2
    change (f.frames.map _)[i]? = _ at h1
    rw [List.getElem?_map] at h1
    obtain ⟨fr', h3, rfl⟩ := Option.map_eq_some_iff.1 h1
    obtain ⟨c', h4, rfl⟩ := List.mem_map.1 h2
    exact nf.shown i fr' c' h3 h4

theorem windowOf_small {f : AsepriteFile} (hs : Small (spriteOf f)) (x y : Int) (w h : UInt16) :
    Small (windowOf f x y w h) := by
  intro fr hfr
  obtain ⟨fr', h1, rfl⟩ := List.mem_map.1 hfr
  have := hs fr' h1
  simpa only [windowOf, List.map_map, Function.comp_def, seenFrom, dataLength] using this

theorem windowOf_core {f g : AsepriteFile} {x y : Int} {w h : UInt16} (hm : CanBeSeenFrom x y f)
    (he : spriteOf g = windowOf f x y w h) : loadCore (-x) (-y) f = loadCore 0 0 g := by
  have e1 : g.file.header.colorDepth = f.file.header.colorDepth := congrArg Sprite.depth he
  have e2 : g.file.palette = f.file.palette := congrArg Sprite.palette he
  have e3 : g.layers = f.layers := congrArg Sprite.layers he
  have e4 : g.frames = f.frames.map fun fr => { fr with cels := fr.cels.map (seenFrom x y) } := congrArg Sprite.frames he
  have e5 : g.images = f.images := congrArg Sprite.images he
  simp only [loadCore, e1, e2, e3, e4, e5, List.map_map, Function.comp_def, Prod.mk.injEq, true_and, and_true]
  refine List.map_congr_left fun fr hfr => List.map_congr_left fun c hc => ?_
  obtain ⟨⟨h1, h2⟩, h3, h4⟩ := hm fr hfr c hc
  simp only [frameCelCore, seenFrom, Prod.mk.injEq, and_true]
  rw [Int16.toInt_ofInt_of_le h1 h2, Int16.toInt_ofInt_of_le h3 h4]
  constructor <;> omega

/-- **C142.** Every part of the canvas of a sprite, also one that reaches beyond its edges, can be a file of its own, with the
same layers, frames, tags and images: it is loaded as the sprite with that canvas, and its pictures are those of the first
one, moved and cut off. -/
theorem C142_window (plat : Plat) (b : Bytes) (f : AsepriteFile) (hf : AsepriteFile.load plat b = .ok f) (x₀ y₀ : Int)
    (w h : UInt16) (hm : CanBeSeenFrom x₀ y₀ f) (hs : Small (spriteOf f)) :
    ∃ c g, AsepriteFile.load plat c = .ok g ∧ spriteOf g = windowOf f x₀ y₀ w h ∧ MovedPictures plat (-x₀) (-y₀) f g := by
  obtain ⟨c, g, hc, he⟩ := C129_every plat _ (windowOf_possible hf x₀ y₀ w h) (windowOf_small hs x₀ y₀ w h)
  exact ⟨c, g, hc, he, movedPictures_of_core hf hc (windowOf_core hm he)⟩

/-- **C142 (tiles).** So a sprite can be cut into tiles of any size that are files of their own, with the same layers, frames,
tags and images.  A frame of a tile shows what the frame of the sprite shows there: every pixel of the canvas is a pixel of
one of the tiles, and if these were the same before rendering they are the same after it.  If no debug assertions are
involved, rendering a tile succeeds iff rendering the sprite does. -/
theorem C142_tiles (plat : Plat) (b : Bytes) (f : AsepriteFile) (hf : AsepriteFile.load plat b = .ok f) (w h : UInt16)
    (hw : w ≠ 0) (hh : h ≠ 0)
    (hm : ∀ q r : Nat, q * w.toNat < f.size.1.toNat → r * h.toNat < f.size.2.toNat →
      CanBeSeenFrom (q * w.toNat : Nat) (r * h.toNat : Nat) f) (hs : Small (spriteOf f)) :
    ∃ tile : Nat → Nat → AsepriteFile,
      (∀ q r : Nat, q * w.toNat < f.size.1.toNat → r * h.toNat < f.size.2.toNat →
        (∃ c, AsepriteFile.load plat c = .ok (tile q r)) ∧ (tile q r).size = (w, h) ∧ (tile q r).layers = f.layers ∧
        (tile q r).frames.map (·.duration) = f.frames.map (·.duration) ∧ (tile q r).tags = f.tags) ∧
      ∀ x y, x < f.size.1.toNat → y < f.size.2.toNat →
        let g := tile (x / w.toNat) (y / h.toNat)
        ∀ (inflate : Inflater) (i : Nat) (sel : LayerSelection) (t u : Bytes),
          ((plat.debug = false ∨ ∀ layer ∈ f.layers, isHsl layer.blendMode = false) → HoldsCanvas f t → HoldsCanvas g u →
            (RendersOk plat inflate f i sel t ↔ RendersOk plat inflate g i sel u)) ∧
          ∀ t' u', f.renderFrame plat inflate i sel t = (.ok (), t') → g.renderFrame plat inflate i sel u = (.ok (), u') →
            canvasPixel f t x y = canvasPixel g u (x % w.toNat) (y % h.toNat) →
            canvasPixel f t' x y = canvasPixel g u' (x % w.toNat) (y % h.toNat) := by
  have pos : ∀ {n : UInt16}, n ≠ 0 → 0 < n.toNat := fun {n} hn =>
    Nat.pos_of_ne_zero fun h0 => hn (UInt16.toNat_inj.1 h0)
  have key : ∀ q r : Nat, ∃ g, q * w.toNat < f.size.1.toNat → r * h.toNat < f.size.2.toNat →
      ∃ c, AsepriteFile.load plat c = .ok g ∧ spriteOf g = windowOf f (q * w.toNat : Nat) (r * h.toNat : Nat) w h ∧
        MovedPictures plat (-(q * w.toNat : Nat)) (-(r * h.toNat : Nat)) f g := by
    intro q r
    by_cases hq : q * w.toNat < f.size.1.toNat
    · by_cases hr : r * h.toNat < f.size.2.toNat
      · obtain ⟨c, g, hg⟩ := C142_window plat b f hf (q * w.toNat : Nat) (r * h.toNat : Nat) w h (hm q r hq hr) hs
        exact ⟨g, fun _ _ => ⟨c, hg⟩⟩
      · exact ⟨f, fun _ h' => absurd h' hr⟩
    · exact ⟨f, fun h' _ => absurd h' hq⟩
  refine ⟨fun q r => Classical.choose (key q r), fun q r hq hr => ?_, fun x y hx hy => ?_⟩
  · obtain ⟨c, hc, he, -⟩ := Classical.choose_spec (key q r) hq hr
    refine ⟨⟨c, hc⟩, congrArg Sprite.size he, congrArg Sprite.layers he, ?_, congrArg Sprite.tags he⟩
    have e := congrArg (fun s : Sprite => s.frames.map (·.duration)) he
    simpa only [spriteOf, windowOf, List.map_map, Function.comp_def] using e
  · have hx1 := Nat.div_mul_le_self x w.toNat
    have hy1 := Nat.div_mul_le_self y h.toNat
    have hx2 := Nat.div_add_mod' x w.toNat
    have hy2 := Nat.div_add_mod' y h.toNat
    have hk := Classical.choose_spec (key (x / w.toNat) (y / h.toNat)) (Nat.lt_of_le_of_lt hx1 hx)
      (Nat.lt_of_le_of_lt hy1 hy)
    intro g inflate i sel t u
    obtain ⟨c, hc, he, hp⟩ : ∃ c, AsepriteFile.load plat c = .ok g ∧
      spriteOf g = windowOf f (x / w.toNat * w.toNat : Nat) (y / h.toNat * h.toNat : Nat) w h ∧
        MovedPictures plat (-(x / w.toNat * w.toNat : Nat)) (-(y / h.toNat * h.toNat : Nat)) f g := hk
    have es : g.size = (w, h) := congrArg Sprite.size he
    refine ⟨fun hn ht hu => hp.renders hn inflate i sel t u ht hu, fun t' u' ht hu hb => ?_⟩
    refine hp.render inflate i sel t t' u u' ht hu x y _ _ hx hy ?_ ?_ (by omega) (by omega) hb
    · rw [es]; exact Nat.mod_lt _ (pos hw)
    · rw [es]; exact Nat.mod_lt _ (pos hh)

/-- A sprite of 3 by 1 pixels with a translucent cel that begins left of the canvas, above an opaque one.  Cut into tiles of
2 by 1, the second tile begins at 2 and reaches beyond the edge; the hypotheses of the theorems above hold, and a file of
the kind they speak of shows the pixel of the sprite. -/
example :
    let b := fun (w : UInt16) (x y : UInt16) => Sample.header w 1 32 ++ Sample.frame 1 [Sample.layer 1 0 0 255 [65],
      Sample.layer 1 0 1 200 [66], Sample.cel 0 y 0 2 1 [90, 80, 70, 255, 60, 50, 40, 255],
      Sample.cel 1 x 0 4 1 [1, 2, 3, 255, 50, 60, 70, 80, 1, 2, 3, 4, 200, 100, 0, 128]]
    let f := fun w x y => match AsepriteFile.load ⟨true, 10⟩ (b w x y) with | .ok f => some f | _ => none
    ((f 3 65535 1).map fun f => decide (CanBeSeenFrom 0 0 f ∧ CanBeSeenFrom 2 0 f ∧ Small (spriteOf f))) = some true ∧
    ((f 2 65533 65535).map fun g => g.frames.map (·.cels)) =
      ((f 3 65535 1).map fun f => (windowOf f 2 0 2 1).frames.map (·.cels)) ∧
    Sample.render ⟨true, 10⟩ (b 3 65535 1) 0 .all (List.replicate 12 0) =
      some (.ok (), [50, 60, 70, 63, 89, 80, 70, 255, 55, 39, 25, 255]) ∧
    Sample.render ⟨true, 10⟩ (b 2 65533 65535) 0 .all (List.replicate 8 0) =
      some (.ok (), [55, 39, 25, 255, 0, 0, 0, 0]) := by
  decide +kernel

end Ase
