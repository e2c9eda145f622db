import Verif.Spec.Joined
import Verif.Props.OneFile

/-!
# C140: two animations one after the other
-/

namespace Ase

open Spec

theorem joined_possible {plat : Plat} {b b' : Bytes} {f g : AsepriteFile} (hf : AsepriteFile.load plat b = .ok f)
    (hg : AsepriteFile.load plat b' = .ok g) (og : OnLayers g)
    (hl : f.layers.length + g.layers.length ≤ 2 ^ 16) (hn : f.frames.length + g.frames.length ≤ 2 ^ 16)
    (ht : ∀ t ∈ g.tags, f.frames.length + t.rangeEnd.toNat < 2 ^ 16) : Possible (joined f g) := by
  have hp := C129_possible plat b f hf
  have hq := C129_possible plat b' g hg
  obtain ⟨home, nf⟩ := hp.numbered
  obtain ⟨home', ng⟩ := hq.numbered
  have hframe : ∀ fr ∈ (joined f g).frames, fr ∈ f.frames ∨ ∃ fr' ∈ g.frames,
      fr = { fr' with cels := fr'.cels.map (movedCel f.layers.length f.images.length) } := by
    intro fr h
    rcases List.mem_append.1 h with h | h
    · exact .inl h
    · obtain ⟨fr', h1, h2⟩ := List.mem_map.1 h
      exact .inr ⟨fr', h1, h2.symm⟩
  refine ⟨hp.depth, hp.palette, hp.noPalette, ?_, ?_, ?_, ?_, ?_, ?_, ?_,
    home ++ home'.map fun x => (f.frames.length + x.1, f.layers.length + x.2), ?_⟩
  · intro l h
    rcases List.mem_append.1 h with h | h
    · exact hp.layers l h
    · exact hq.layers l h
  · intro t h
    rcases List.mem_append.1 h with h | h
    · exact hp.tags t h
    · obtain ⟨t', h1, rfl⟩ := List.mem_map.1 h
      obtain ⟨a1, a2⟩ := hq.tags t' h1
      refine ⟨?_, a2⟩
      have h3 := ht t' h1
      rw [UInt16.le_iff_toNat_le] at a1 ⊢
      simp only [movedTag, UInt16.toNat_ofNat']
      omega
  · simp only [joined, ne_eq, List.append_eq_nil_iff, not_and]
    intro h
    exact absurd h hp.frames
  · intro fr h
    rcases hframe fr h with h | ⟨fr', h', rfl⟩
    · exact hp.origin fr h
    · exact hq.origin fr' h'
  · intro fr h
    rcases hframe fr h with h | ⟨fr', h', rfl⟩
    · exact hp.sorted fr h
    · have := hq.sorted fr' h'
      rw [List.pairwise_map] at this
      rw [List.map_map, List.pairwise_map]
      exact this.imp fun h => Nat.add_lt_add_left h _
  · intro fr h c hc
    rcases hframe fr h with h | ⟨fr', h', rfl⟩
    · exact hp.layerIndex fr h c hc
    · obtain ⟨c', h1, rfl⟩ := List.mem_map.1 hc
      have := og fr' h' c' h1
      show f.layers.length + c'.layerIndex < 2 ^ 16
      omega
  · intro fr h c hc
    rcases hframe fr h with h | ⟨fr', h', rfl⟩
    · obtain ⟨im, h1, h2⟩ := hp.size fr h c hc
      have h3 : f.images[c.imageIndex]? = some im := h1
      exact ⟨im, by show (f.images ++ g.images)[_]? = _; rw [List.getElem?_append_left (List.getElem?_eq_some_iff.1 h3).1, h3], h2⟩
    · obtain ⟨c', h1, rfl⟩ := List.mem_map.1 hc
      obtain ⟨im, h2, h3⟩ := hq.size fr' h' c' h1
      refine ⟨im, ?_, h3⟩
      show (f.images ++ g.images)[f.images.length + c'.imageIndex]? = _
      rw [List.getElem?_append_right (Nat.le_add_right _ _), Nat.add_sub_cancel_left]
      exact h2
  · have hin : ∀ (k i l : Nat), home[k]? = some (i, l) → i < f.frames.length := by
      intro k i l h
      obtain ⟨fr, c, h1, _⟩ := nf.stored k i l h
      exact (List.getElem?_eq_some_iff.1 h1).1
    have hc1 : home.length = f.images.length := nf.count
    have hc2 : home'.length = g.images.length := ng.count
    refine ⟨by simp [joined, hc1, hc2], ?_, ?_, ?_⟩
    · rw [List.pairwise_append]
      refine ⟨nf.ascending, ?_, ?_⟩
      · rw [List.pairwise_map]
        refine ng.ascending.imp fun {a c} h => ?_
        rcases h with h | ⟨h1, h2⟩
        · exact .inl (Nat.add_lt_add_left h _)
        · exact .inr ⟨congrArg (f.frames.length + ·) h1, Nat.add_lt_add_left h2 _⟩
      · intro a ha c hc
        obtain ⟨k, hk⟩ := List.mem_iff_getElem?.1 ha
        obtain ⟨x, _, rfl⟩ := List.mem_map.1 hc
        have := hin k a.1 a.2 hk
        exact .inl (Nat.lt_of_lt_of_le this (Nat.le_add_right _ _))
    · intro k i l hk
      rcases Nat.lt_or_ge k home.length with hlt | hge
      · rw [List.getElem?_append_left hlt] at hk
        obtain ⟨fr, c, h1, h2⟩ := nf.stored k i l hk
        have h1' : f.frames[i]? = some fr := h1
        exact ⟨fr, c, by show (f.frames ++ _)[_]? = _; rw [List.getElem?_append_left (List.getElem?_eq_some_iff.1 h1').1, h1'], h2⟩
      · rw [List.getElem?_append_right hge, List.getElem?_map] at hk
        obtain ⟨⟨i', l'⟩, h1, h2⟩ := Option.map_eq_some_iff.1 hk
        cases h2
        obtain ⟨fr, c, h3, h4, h5, h6⟩ := ng.stored _ i' l' h1
        have h3' : g.frames[i']? = some fr := h3
        refine ⟨{ fr with cels := fr.cels.map (movedCel f.layers.length f.images.length) },
          movedCel f.layers.length f.images.length c, ?_, List.mem_map_of_mem h4, ?_, ?_⟩
        · show (f.frames ++ _)[f.frames.length + i']? = _
          rw [List.getElem?_append_right (Nat.le_add_right _ _), Nat.add_sub_cancel_left, List.getElem?_map, h3']
          rfl
        · show f.layers.length + c.layerIndex = _
          rw [h5]
        · show f.images.length + c.imageIndex = _
          rw [h6, ← hc1]
          omega
    · intro i fr c hfr hc
      rcases Nat.lt_or_ge i f.frames.length with hlt | hge
      · have hfr' : f.frames[i]? = some fr := by
          rw [← hfr]
          exact (List.getElem?_append_left hlt).symm
        obtain ⟨j, h1, h2⟩ := nf.shown i fr c hfr' hc
        exact ⟨j, by rw [List.getElem?_append_left (List.getElem?_eq_some_iff.1 h1).1, h1], h2⟩
      · have hfr' : (g.frames.map fun fr => ({ fr with cels := fr.cels.map (movedCel f.layers.length f.images.length) } : LFrame))[i - f.frames.length]? =
            some fr := by
          rw [← hfr]
          exact (List.getElem?_append_right hge).symm
        rw [List.getElem?_map] at hfr'
        obtain ⟨fr', h1, rfl⟩ := Option.map_eq_some_iff.1 hfr'
        obtain ⟨c', h2, rfl⟩ := List.mem_map.1 hc
        obtain ⟨j, h3, h4⟩ := ng.shown _ fr' c' h1 h2
        have hj : j < g.frames.length := by
          obtain ⟨_, _, h5, _⟩ := ng.stored _ j _ h3
          exact (List.getElem?_eq_some_iff.1 h5).1
        refine ⟨f.frames.length + j, ?_, .inr (by omega)⟩
        show (home ++ _)[f.images.length + c'.imageIndex]? = _
        rw [← hc1, List.getElem?_append_right (Nat.le_add_right _ _), Nat.add_sub_cancel_left, List.getElem?_map, h3]
        rfl

theorem same_canvasBytes {f g : AsepriteFile} (h : f.size = g.size) : canvasBytes f = canvasBytes g := by
  simp only [canvasBytes]
  rw [show f.file.header.width = g.file.header.width from congrArg Prod.fst h,
    show f.file.header.height = g.file.header.height from congrArg Prod.snd h]

/-- **C140.** Two animations of the same size, colour depth and palette can be joined: there is a file with the layers of
both that shows the frames of the first sprite and then those of the second one, with their durations, the tags of both
(those of the second one moved to its frames) and the images of both, if that is not too large.  Its frames are rendered as
the frames of the two sprites are: with the visible layers, with all layers, and with a mask for each sprite. -/
theorem C140_joined (plat : Plat) (b b' : Bytes) (f g : AsepriteFile) (hf : AsepriteFile.load plat b = .ok f)
    (hg : AsepriteFile.load plat b' = .ok g) (hm : SameMedium f g) (of : OnLayers f) (og : OnLayers g)
    (hl : f.layers.length + g.layers.length ≤ 2 ^ 16) (hn : f.frames.length + g.frames.length ≤ 2 ^ 16)
    (ht : ∀ t ∈ g.tags, f.frames.length + t.rangeEnd.toNat < 2 ^ 16) (hs : Small (joined f g)) :
    ∃ c s, AsepriteFile.load plat c = .ok s ∧ spriteOf s = joined f g ∧
      ∀ (p : Plat) (inflate : Inflater) (t : Bytes) (sel selF selG : LayerSelection),
        (sel = .visible ∧ selF = .visible ∧ selG = .visible) ∨ (sel = .all ∧ selF = .all ∧ selG = .all) ∨
          (∃ m n, m.length = f.layers.length ∧ sel = .mask (m ++ n) ∧ selF = .mask m ∧ selG = .mask n) →
        (∀ i, i < f.frames.length → s.renderFrame p inflate i sel t = f.renderFrame p inflate i selF t) ∧
        ∀ i, i < g.frames.length →
          s.renderFrame p inflate (f.frames.length + i) sel t = g.renderFrame p inflate i selG t := by
  obtain ⟨c, s, hc, he⟩ := C129_every plat (joined f g) (joined_possible hf hg og hl hn ht) hs
  refine ⟨c, s, hc, he, fun p inflate t sel selF selG hsel => ?_⟩
  have e1 : s.size = f.size := congrArg Sprite.size he
  have e2 : s.file.header.colorDepth = f.file.header.colorDepth := congrArg Sprite.depth he
  have e3 : s.file.palette = f.file.palette := congrArg Sprite.palette he
  have e4 : s.layers = f.layers ++ g.layers := congrArg Sprite.layers he
  have e5 : s.frames = f.frames ++ g.frames.map fun fr =>
    { fr with cels := fr.cels.map (movedCel f.layers.length f.images.length) } := congrArg Sprite.frames he
  have e6 : s.images = f.images ++ g.images := congrArg Sprite.images he
  obtain ⟨m1, m2, m3⟩ := hm
  have selF_iff : ∀ l x, l < f.layers.length → (Selects sel l x ↔ Selects selF l x) := by
    intro l x hlt
    rcases hsel with ⟨rfl, rfl, -⟩ | ⟨rfl, rfl, -⟩ | ⟨m, n, h1, rfl, rfl, -⟩
    · exact Iff.rfl
    · exact Iff.rfl
    · show (m ++ n)[l]? = some true ↔ m[l]? = some true
      rw [List.getElem?_append_left (by omega)]
  have selG_iff : ∀ l x, Selects sel (f.layers.length + l) x ↔ Selects selG l x := by
    intro l x
    rcases hsel with ⟨rfl, -, rfl⟩ | ⟨rfl, -, rfl⟩ | ⟨m, n, h1, rfl, -, rfl⟩
    · exact Iff.rfl
    · exact Iff.rfl
    · show (m ++ n)[f.layers.length + l]? = some true ↔ n[l]? = some true
      rw [← h1, List.getElem?_append_right (Nat.le_add_right _ _), Nat.add_sub_cancel_left]
  constructor
  · intro i hi
    rw [renderFrame_eq, renderFrame_eq, same_canvasBytes e1, e5, List.getElem?_append_left hi, List.getElem?_eq_getElem hi]
    split
    · rfl
    · dsimp only
      refine forEach_draws e1 e2 e3 p inflate sel selF _ _ _ (Nat.le_refl _) (List.filterMap_congr fun c hc => ?_) t
      have h1 := of _ (List.getElem_mem hi) c hc
      obtain ⟨im, h2, _⟩ := (C129_possible plat b f hf).size _ (List.getElem_mem hi) c hc
      have h3 : f.images[c.imageIndex]? = some im := h2
      simp only [cellDraw, drawnOn, e4, e6, List.getElem?_append_left h1, List.getElem?_eq_getElem h1, selF_iff _ _ h1,
        List.getElem?_append_left (List.getElem?_eq_some_iff.1 h3).1]
  · intro i hi
    rw [renderFrame_eq, renderFrame_eq, same_canvasBytes (e1.trans m1), e5, List.getElem?_append_right (Nat.le_add_right _ _),
      Nat.add_sub_cancel_left, List.getElem?_map, List.getElem?_eq_getElem hi]
    split
    · rfl
    · show Buf.forEach (s.renderCel p inflate sel) ((g.frames[i]).cels.map (movedCel f.layers.length f.images.length)) t =
        Buf.forEach (g.renderCel p inflate selG) (g.frames[i]).cels t
      refine forEach_draws (e1.trans m1) (e2.trans m2) (e3.trans m3) p inflate sel selG _ _ _ (Nat.le_refl _) ?_ t
      rw [List.filterMap_map]
      refine List.filterMap_congr fun c _ => ?_
      simp only [Function.comp_def, cellDraw, drawnOn, movedCel, e4, e6, List.getElem?_append_right (Nat.le_add_right _ _),
        Nat.add_sub_cancel_left, selG_iff]

/-! A greeting of two frames, the second one linked to the first, and a goodbye of one frame with two layers and a tag. -/
example :
    let hello := Sample.header 2 1 32 ++ Sample.frame 2 [Sample.layer 1 0 0 255 [65], Sample.cel 0 0 0 2 1
      [100, 90, 80, 255, 70, 60, 50, 255]] ++ Sample.frame 2 [Sample.link 0 0]
    let bye := Sample.header 2 1 32 ++ Sample.frame 1 [Sample.layer 0 0 0 255 [66], Sample.layer 1 0 3 200 [67], Sample.tags [Sample.tag 0 0 0 0 84],
      Sample.cel 0 0 0 1 1 [7, 7, 7, 255], Sample.cel 1 1 0 1 1 [9, 10, 11, 120]]
    (match AsepriteFile.load ⟨true, 10⟩ hello, AsepriteFile.load ⟨true, 10⟩ bye with
      | .ok f, .ok g => decide (SameMedium f g) && decide (OnLayers f) && decide (OnLayers g) &&
          f.frames.length == 2 && g.frames.length == 1 &&
          decide (∀ t ∈ g.tags, f.frames.length + t.rangeEnd.toNat < 2 ^ 16) && decide (Small (joined f g)) &&
          (joined f g).tags.map (fun t => (t.rangeStart, t.rangeEnd)) == [(2, 2)] &&
          (joined f g).frames.map (·.cels.map fun c => (c.layerIndex, c.imageIndex)) == [[(0, 0)], [(0, 0)], [(1, 1), (2, 2)]]
      | _, _ => false) = true := by decide +kernel

end Ase
