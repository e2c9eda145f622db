import Verif.Spec.PlainForm
import Verif.Props.Trim
import Verif.Props.Ungroup

/-!
# C153: one simple form for all sprites
-/

namespace Ase

open Spec

theorem trimmed_raw {f : AsepriteFile} {inflate : Inflater} {im : Image} (hm : im ∈ (trimmedSprite inflate f).images) :
    im.compressed = false := by
  obtain ⟨it, h1, rfl⟩ := List.mem_map.1 hm
  obtain ⟨l, h2, h3⟩ := List.mem_flatten.1 h1
  obtain ⟨x, h4, rfl⟩ := List.mem_map.1 h2
  obtain ⟨fr, _, rfl⟩ := List.mem_map.1 h4
  obtain ⟨c, _, rfl⟩ := List.mem_map.1 h3
  rfl

/-- **C153.** One simple form is enough for all sprites: for every sprite in a known colour mode, if that is not too large, there
is a file in plain form (RGBA without palette, nothing compressed, no groups, no links, no cels without a layer or over the edge
of the canvas) of the same size, with the same tags and durations and with layers that differ at most in being groups.  Every
frame of it shows the same picture as before, with every selection and without a decompressor, if the canvases were the same
before.  If the frame of the first one can be rendered so can that of the second one, unless HSL modes in debug builds are
involved. -/
theorem C153_plain (plat : Plat) (b : Bytes) (f : AsepriteFile) (hf : AsepriteFile.load plat b = .ok f)
    (hd : ∀ n, f.file.header.colorDepth ≠ .unknown n) (inflate : Inflater) (hs : ∀ fr ∈ f.frames,
      2 ^ 23 + (f.layers.map fun l => 64 + (utf8 l.name).length).sum + (f.tags.map fun t => 64 + (utf8 t.name).length).sum +
        (fr.cels.map fun c => 64 + (trimmedSize f c).1 * (trimmedSize f c).2 * 4).sum < 2 ^ 32) :
    ∃ c h, AsepriteFile.load plat c = .ok h ∧ PlainForm h ∧ h.size = f.size ∧ h.tags = f.tags ∧
      h.layers = f.layers.map (fun l => { l with layerType := .normal }) ∧
      h.frames.map (·.duration) = f.frames.map (·.duration) ∧
      ∀ (inflate' : Inflater) (i : Nat) (sel : LayerSelection) (t u : Bytes),
        (∀ t' u', f.renderFrame plat inflate i sel t = (.ok (), t') → h.renderFrame plat inflate' i sel u = (.ok (), u') →
          ∀ x y, x < f.size.1.toNat → y < f.size.2.toNat → canvasPixel f t x y = canvasPixel h u x y →
            canvasPixel f t' x y = canvasPixel h u' x y) ∧
        (NoAssertions plat f sel → RendersOk plat inflate f i sel t → HoldsCanvas h u →
          RendersOk plat inflate' h i sel u) := by
  obtain ⟨c, g, hc, he, hin, gs, gl, gt, gd, -, hpic⟩ := trimmed_file plat b f hf hd inflate hs
  have gdepth : g.file.header.colorDepth = .rgba := congrArg Sprite.depth he
  have gpal : g.file.palette = none := congrArg Sprite.palette he
  have gim : g.images = (trimmedSprite inflate f).images := congrArg Sprite.images he
  obtain ⟨c', h, hc', s1, s2, s3, s4, s5, s6, s7, s8, s9⟩ :=
    C150_ungrouped plat c g hc (by rw [he]; exact trimmedSprite_small inflate hs)
  have hback : ∀ (i : Nat) fr, h.frames[i]? = some fr → ∃ lf ∈ g.frames, fr.duration = lf.duration ∧
      ∀ d ∈ fr.cels, ∃ e ∈ lf.cels, OnPicture g e = true ∧ celShows h.images d = celShows g.images e := by
    intro i fr hi
    have hlt : i < g.frames.length := by have := (List.getElem?_eq_some_iff.1 hi).1; omega
    obtain ⟨h1, h2⟩ := s7 i fr _ hi (List.getElem?_eq_getElem hlt)
    refine ⟨_, List.getElem_mem hlt, h1, fun d hd' => ?_⟩
    have h3 : celShows h.images d ∈ fr.cels.map (celShows h.images) := List.mem_map.2 ⟨d, hd', rfl⟩
    rw [h2] at h3
    obtain ⟨e, h4, h5⟩ := List.mem_map.1 h3
    obtain ⟨h6, h7⟩ := List.mem_filter.1 h4
    exact ⟨e, h6, h7, h5.symm⟩
  have hmem : ∀ fr ∈ h.frames, ∃ lf ∈ g.frames, fr.duration = lf.duration ∧
      ∀ d ∈ fr.cels, ∃ e ∈ lf.cels, OnPicture g e = true ∧ celShows h.images d = celShows g.images e := by
    intro fr hfr
    obtain ⟨i, hi⟩ := List.mem_iff_getElem?.1 hfr
    exact hback i fr hi
  have hcanvas : ∀ (v : Bytes) x y, canvasPixel h v x y = canvasPixel g v x y := by
    intro v x y
    simp only [canvasPixel, show h.file.header.width = g.file.header.width from congrArg Prod.fst s1]
  refine ⟨c', h, hc', ⟨s2.trans gdepth, s3.trans gpal, ?_, ?_, ?_, ?_, s8⟩, s1.trans gs, s4.trans gt, by rw [s5, gl], ?_, ?_⟩
  · intro im him
    obtain ⟨k, hk⟩ := List.mem_iff_getElem?.1 him
    obtain ⟨home, hn⟩ := (C129_possible plat c' h hc').numbered
    have hlt : k < home.length := by
      rw [hn.count]
      exact (List.getElem?_eq_some_iff.1 hk).1
    obtain ⟨fr, d, h1, h2, -, h4⟩ := hn.stored k _ _ (List.getElem?_eq_getElem hlt)
    obtain ⟨lf, -, -, h5⟩ := hback _ fr h1
    obtain ⟨e, -, -, h6⟩ := h5 d h2
    have h7 : h.images[d.imageIndex]? = g.images[e.imageIndex]? := congrArg (·.2.2.2) h6
    rw [h4, hk] at h7
    exact trimmed_raw (gim ▸ List.mem_of_getElem? h7.symm)
  · intro l hl
    rw [s5] at hl
    obtain ⟨_, -, rfl⟩ := List.mem_map.1 hl
    rfl
  · intro fr hfr d hdm
    obtain ⟨lf, -, -, h1⟩ := hmem fr hfr
    obtain ⟨e, -, h2, h3⟩ := h1 d hdm
    have h4 : d.layerIndex = e.layerIndex := congrArg (·.2.2.1) h3
    rw [s5, List.length_map, h4]
    simp only [OnPicture] at h2
    cases h5 : g.layers[e.layerIndex]? with
    | none => rw [h5] at h2; cases h2
    | some _ => exact (List.getElem?_eq_some_iff.1 h5).1
  · intro fr hfr d hdm
    obtain ⟨lf, hlf, -, h1⟩ := hmem fr hfr
    obtain ⟨e, he', -, h3⟩ := h1 d hdm
    have h4 : d.origin = e.origin := congrArg (·.1) h3
    have h5 : d.size = e.size := congrArg (·.2.1) h3
    rw [h4, h5, s1]
    exact hin lf hlf e he'
  · rw [← gd]
    refine List.ext_getElem? fun i => ?_
    rw [List.getElem?_map, List.getElem?_map]
    cases h1 : h.frames[i]? with
    | none => rw [List.getElem?_eq_none (by have := List.getElem?_eq_none_iff.1 h1; omega)]
    | some fr =>
      have hlt : i < g.frames.length := by have := (List.getElem?_eq_some_iff.1 h1).1; omega
      rw [List.getElem?_eq_getElem hlt]
      exact congrArg some (s7 i fr _ h1 (List.getElem?_eq_getElem hlt)).1
  · intro inflate' i sel t u
    obtain ⟨p1, p2⟩ := hpic inflate' i sel t u
    refine ⟨fun t' u' ht hu x y hx hy h0 => ?_, fun hn hr hb => ?_⟩
    · rw [hcanvas] at h0 ⊢
      exact p1 t' u' ht (by rw [← s9]; exact hu) x y hx hy h0
    · have := p2 hn hr (by rw [HoldsCanvas, ← s1]; exact hb)
      rw [RendersOk, s9]
      exact this

/-- An indexed sprite with a compressed cel over the edge, a cel on a group and a link: the hypotheses hold, and the second file,
which is in plain form, gives the same pictures. -/
example :
    let b := Sample.header 2 1 8 ++ Sample.frame 1 [Sample.palette 0 [[0, 0, 0, 0], [100, 200, 250, 128], [90, 80, 70, 200]],
      Sample.layer 1 0 0 255 [65], Sample.layer 1 1 0 255 [66], Sample.zcel 0 1 0 2 1 (Sample.deflate [2, 1]),
      Sample.cel 1 0 0 1 1 [1]] ++ Sample.frame 2 [Sample.link 0 0]
    let b' := Sample.header 2 1 32 ++ Sample.frame 1 [Sample.layer 1 0 0 255 [65], Sample.layer 1 0 0 255 [66],
      Sample.cel 0 1 0 1 1 [90, 80, 70, 200]] ++ Sample.frame 2 [Sample.cel 0 0 0 2 1 [90, 80, 70, 200, 100, 200, 250, 128]]
    (match AsepriteFile.load ⟨true, 10⟩ b, AsepriteFile.load ⟨true, 10⟩ b' with
      | .ok f, .ok g => decide (f.file.header.colorDepth = .indexed ∧ ¬ InsideCanvas f ∧ (∀ fr ∈ f.frames,
          2 ^ 23 + (f.layers.map fun l => 64 + (utf8 l.name).length).sum + (f.tags.map fun t => 64 + (utf8 t.name).length).sum +
            (fr.cels.map fun c => 64 + (trimmedSize f c).1 * (trimmedSize f c).2 * 4).sum < 2 ^ 32) ∧
          f.frames.map (·.cels.map (·.imageIndex)) = [[0, 1], [0]] ∧
          g.file.header.colorDepth = .rgba ∧ g.file.palette = none ∧ (∀ im ∈ g.images, im.compressed = false) ∧
          (∀ l ∈ g.layers, l.layerType = .normal) ∧ InsideCanvas g ∧
          g.frames.map (·.cels.map (·.imageIndex)) = [[0], [1]] ∧
          g.layers = f.layers.map (fun l => { l with layerType := .normal }))
      | _, _ => false) = true ∧
    (∀ bytes ∈ [b, b'],
      Sample.render ⟨true, 10⟩ bytes 0 .all (List.replicate 8 0) = some (.ok (), [0, 0, 0, 0, 90, 80, 70, 200]) ∧
      Sample.render ⟨true, 10⟩ bytes 1 .all (List.replicate 8 0) = some (.ok (), [90, 80, 70, 200, 100, 200, 250, 128])) := by
  decide +kernel

end Ase
