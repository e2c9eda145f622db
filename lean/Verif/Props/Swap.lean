import Verif.Spec.Swap
import Verif.Props.ColorMode
import Verif.Props.Damage
import Verif.Props.Channels
import Verif.Props.Failures

/-!
# C99: another palette
-/

namespace Ase

open Spec

theorem layersOf_unpaletted (cs : List Chunk) : layersOf cs =
    (unpaletted cs).filterMap fun | (.layer l, us) => some { l with userData := us.head? } | _ => none := by
  rw [layersOf, unpaletted, List.filterMap_filterMap]
  congr 1
  funext p
  obtain ⟨c, us⟩ := p
  cases c <;> rfl

theorem slicesOf_unpaletted (cs : List Chunk) : slicesOf cs =
    (unpaletted cs).filterMap fun | (.slice s, us) => some { s with userData := us.head? } | _ => none := by
  rw [slicesOf, unpaletted, List.filterMap_filterMap]
  congr 1
  funext p
  obtain ⟨c, us⟩ := p
  cases c <;> rfl

theorem celsOf_unpaletted (cs : List Chunk) : celsOf cs =
    (unpaletted cs).filterMap fun | (.cel c, us) => some { c with userData := us.head? } | _ => none := by
  rw [celsOf, unpaletted, List.filterMap_filterMap]
  congr 1
  funext p
  obtain ⟨c, us⟩ := p
  cases c <;> rfl

theorem tagsOf_unpaletted (cs : List Chunk) : tagsOf cs =
    (unpaletted cs).flatMap fun
      | (.tags t, us) => t.tags.mapIdx fun i tag => { tag with userData := us[i]? }
      | _ => [] := by
  rw [tagsOf, unpaletted]
  induction owned cs with
  | nil => rfl
  | cons p ps ih =>
    obtain ⟨c, us⟩ := p
    cases c <;> simp [ih]

/-- **C99, loading.** Exchange the palettes of an indexed file for others.  If the palette is accepted, the file loads if the
original does, and then layers, frames, tags, slices, size and images are the same. -/
theorem C99_load (plat : Plat) (b b' : Bytes) (raw raw' : RawFile) (hb : parseRawFile plat b = .ok raw)
    (hb' : parseRawFile plat b' = .ok raw') (h : SameButPalette raw raw') (f : AsepriteFile)
    (hf : AsepriteFile.load plat b = .ok f) (hp : paletteProblem (allChunks raw'.frames) = none) :
    ∃ g, AsepriteFile.load plat b' = .ok g ∧ g.layers = f.layers ∧ g.frames = f.frames ∧ g.tags = f.tags ∧
      g.slices = f.slices ∧ g.size = f.size ∧ g.images = f.images ∧
      g.file.palette = some (paletteOf raw'.header.transparentIndex (paletteWrites (allChunks raw'.frames))) := by
  obtain ⟨h1, h2⟩ := load_ok.1 hf
  rw [parseFile_eq hb] at h1
  obtain ⟨pal, hpal, hc, e⟩ := (assembleFile_ok (fresh hb)).1 h1
  have key : ∀ {α : Type} (k : UInt16 × List (Chunk × List UserDataChunk) → α),
      (raw.frames.map fun f => k (f.duration, unpaletted f.chunks)) =
        raw'.frames.map fun f => k (f.duration, unpaletted f.chunks) := by
    intro α k
    have := congrArg (List.map k) h.frames
    simpa [List.map_map, Function.comp_def] using this
  have hl : allLayers raw'.frames = allLayers raw.frames := by
    simp only [allLayers, List.flatMap_def, layersOf_unpaletted]
    rw [key fun p => p.2.filterMap _]
  have hcels : allCels raw'.frames = allCels raw.frames := by
    simp only [allCels, List.flatMap_def, celsOf_unpaletted]
    rw [key fun p => p.2.filterMap _]
  have hp' : filePalette raw' =
      .ok (some (paletteOf raw'.header.transparentIndex (paletteWrites (allChunks raw'.frames)))) := by
    rw [filePalette_eq, if_pos h.indexed', hp]
  have h1' := (assembleFile_ok (fresh hb')).2 ⟨_, hp', by rw [hcels, hl]; exact hc, rfl⟩
  have ht : (raw'.frames.flatMap (tagsOf ·.chunks)) = raw.frames.flatMap (tagsOf ·.chunks) := by
    simp only [tagsOf_unpaletted]
    rw [List.flatMap_def, List.flatMap_def, key fun p => p.2.flatMap _]
  have hs : (raw'.frames.flatMap (slicesOf ·.chunks)) = raw.frames.flatMap (slicesOf ·.chunks) := by
    simp only [List.flatMap_def, slicesOf_unpaletted]
    rw [key fun p => p.2.filterMap _]
  have hfr : (raw'.frames.map fun f => (⟨f.duration, slots (allLayers raw.frames).length (celsOf f.chunks)⟩ : Frame)) =
      raw.frames.map fun f => ⟨f.duration, slots (allLayers raw.frames).length (celsOf f.chunks)⟩ := by
    simp only [celsOf_unpaletted]
    exact (key fun p => (⟨p.1, slots _ (p.2.filterMap _)⟩ : Frame)).symm
  rw [hl, ht, hs, hfr] at h1'
  rw [ofFile_eq] at h2
  cases hm : mapO (toLFrame (fileImages f.file) (mapOf 0 (keyed 0 f.file.frames))) (f.file.frames.zipIdx) with
  | err x => rw [hm] at h2; cases h2
  | panic x => rw [hm] at h2; cases h2
  | ok frames =>
    rw [hm] at h2
    simp only [Outcome.bind, Outcome.ok.injEq] at h2
    generalize hfile : ({ header := raw'.header, palette := _, layers := _, frames := _, tags := _, slices := _, userData := _ } : File) = file' at h1'
    have e1 : file'.frames = f.file.frames := by rw [← hfile, e]
    have e2 : file'.layers = f.file.layers := by rw [← hfile, e]
    have e3 : file'.tags = f.file.tags := by rw [← hfile, e]
    have e4 : fileImages file' = fileImages f.file := by rw [fileImages, e1]; rfl
    have e5 : file'.slices = f.file.slices := by rw [← hfile, e]
    have e6 : file'.header = raw'.header := by rw [← hfile]
    have e7 : f.file.header = raw.header := by rw [e]
    refine ⟨⟨file', file'.layers.filterMap toLLayer, frames, file'.tags.map toLTag, fileImages file'⟩, ?_, ?_, ?_, ?_, e5, ?_,
      ?_, ?_⟩
    · refine load_ok.2 ⟨?_, ?_⟩
      · rw [parseFile_eq hb']; exact h1'
      · rw [ofFile_eq, e4, e1, hm]; rfl
    · rw [← h2, e2]
    · rw [← h2]
    · rw [← h2, e3]
    · simp only [AsepriteFile.size, e6, e7, h.width, h.height]
    · rw [← h2, e4]
    · rw [← hfile]

theorem indexedRgba_paint (pal : Palette) (indices : Bytes) : indexedRgba pal indices = Palette.paint pal indices := by
  unfold indexedRgba Palette.paint
  congr 1
  funext v
  unfold Palette.entry colorRgba
  cases pal.colors[v.toNat]? <;> rfl

/-- **C99, images.** For sprites with the same images and different palettes, `load_image` returns the same for every image
and buffer.  If it succeeds there are colour numbers, the same for both, such that the one buffer has the pixels with
these numbers in the colours of the one palette, and the other buffer has them in the colours of the other palette. -/
theorem C99_images (plat plat' : Plat) (b b' : Bytes) (f g : AsepriteFile) (hf : AsepriteFile.load plat b = .ok f)
    (hg : AsepriteFile.load plat' b' = .ok g) (hd : f.file.header.colorDepth = .indexed)
    (hd' : g.file.header.colorDepth = .indexed) (pal pal' : Palette) (hp : f.file.palette = some pal)
    (hp' : g.file.palette = some pal') (hi : g.images = f.images) (inflate : Inflater) (k : Nat) (t : Bytes) :
    (g.loadImage inflate k t).1 = (f.loadImage inflate k t).1 ∧
    ((f.loadImage inflate k t).1 = .ok () → ∃ im indices, f.images[k]? = some im ∧ indices.length = pixelCount im ∧
      (f.loadImage inflate k t).2 = Palette.paint pal indices ++ t.drop (pixelCount im * 4) ∧
      (g.loadImage inflate k t).2 = Palette.paint pal' indices ++ t.drop (pixelCount im * 4)) := by
  obtain ⟨pal₁, g1⟩ := goodPalette_of_load hf
  obtain ⟨pal₂, g2⟩ := goodPalette_of_load hg
  have := g1.2 hd
  rw [hp] at this
  cases this
  have := g2.2 hd'
  rw [hp'] at this
  cases this
  cases him : f.images[k]? with
  | none =>
    rw [loadImage_none him, loadImage_none (hi ▸ him)]
    exact ⟨rfl, fun h => by cases h⟩
  | some im =>
    rw [loadImage_eq him, loadImage_eq (hi ▸ him)]
    by_cases ht : t.length < pixelCount im * 4
    · rw [if_pos ht, if_pos ht]
      exact ⟨rfl, fun h => by cases h⟩
    · rw [if_neg ht, if_neg ht]
      have htl : (t.take (pixelCount im * 4)).length = pixelCount im * 4 := by rw [List.length_take]; omega
      rw [decodeImage_known g1 hd (by simp) inflate im _ htl, decodeImage_known g2 hd' (by simp) inflate im _ htl]
      simp only [bytesPerPixel, Nat.mul_one, toRgba, indexedRgba_paint, reduceCtorEq, if_false]
      by_cases hc : im.compressed = true
      · simp only [hc, if_true]
        by_cases hs : (inflate im.data (pixelCount im)).1 = .streamEnd
        · simp only [hs, if_true]
          exact ⟨trivial, fun _ => ⟨im, _, rfl, by rw [overwrite_length, List.length_replicate], rfl, rfl⟩⟩
        · simp only [hs, if_false]
          exact ⟨trivial, fun h => by cases h⟩
      · simp only [hc, Bool.false_eq_true, if_false]
        by_cases hs : im.data.length = pixelCount im
        · simp only [hs, if_true]
          exact ⟨trivial, fun _ => ⟨im, _, rfl, hs, rfl, rfl⟩⟩
        · simp only [hs, if_false]
          exact ⟨trivial, fun h => by cases h⟩

/-- What is painted with one palette and with the other. -/
theorem strokes_swap {f g : AsepriteFile} (hd : f.file.header.colorDepth = .indexed)
    (hd' : g.file.header.colorDepth = .indexed) {pal pal' : Palette} (g1 : GoodPalette f.file pal)
    (g2 : GoodPalette g.file pal') (hi : g.images = f.images) (hl : g.layers = f.layers) (inflate : Inflater)
    (sel : LayerSelection) (x y : Nat) (cels : List FrameCel) :
    List.Forall₂ (fun s s' => s'.mode = s.mode ∧ s'.opacity = s.opacity ∧
      (∃ c ∈ cels, ∃ layer, drawnOn f sel c = some layer ∧ s.mode = layer.blendMode ∧ s.opacity = layer.opacity) ∧
      ∃ v, s.color = Palette.entry pal v ∧ s'.color = Palette.entry pal' v)
      (strokes inflate f sel x y cels) (strokes inflate g sel x y cels) := by
  suffices ∀ all : List FrameCel, cels ⊆ all → List.Forall₂ (fun s s' => s'.mode = s.mode ∧ s'.opacity = s.opacity ∧
      (∃ c ∈ all, ∃ layer, drawnOn f sel c = some layer ∧ s.mode = layer.blendMode ∧ s.opacity = layer.opacity) ∧
      ∃ v, s.color = Palette.entry pal v ∧ s'.color = Palette.entry pal' v)
      (strokes inflate f sel x y cels) (strokes inflate g sel x y cels) from this cels fun _ h => h
  intro all hall
  induction cels with
  | nil => exact .nil
  | cons c cs ih =>
    have ih := ih fun _ h => hall (List.mem_cons_of_mem _ h)
    have hdr : drawnOn g sel c = drawnOn f sel c := by unfold drawnOn; rw [hl]
    have one : (strokeOf inflate f sel x y c = none ∧ strokeOf inflate g sel x y c = none) ∨
        ∃ layer v, drawnOn f sel c = some layer ∧
          strokeOf inflate f sel x y c = some ⟨layer.blendMode, layer.opacity, Palette.entry pal v⟩ ∧
          strokeOf inflate g sel x y c = some ⟨layer.blendMode, layer.opacity, Palette.entry pal' v⟩ := by
      unfold strokeOf
      rw [hdr]
      cases hlay : drawnOn f sel c with
      | none => exact .inl ⟨rfl, rfl⟩
      | some layer =>
        cases coveredBy c x y with
        | none => exact .inl ⟨rfl, rfl⟩
        | some p =>
          dsimp only [Option.bind_some]
          unfold imageColor
          rw [hi]
          cases f.images[c.imageIndex]? with
          | none => exact .inl ⟨rfl, rfl⟩
          | some im =>
            dsimp only [Option.bind_some]
            have eb : imageBytes inflate g.file im = imageBytes inflate f.file im := by
              unfold imageBytes
              rw [hd, hd']
            rw [eb, hd, hd', g1.2 hd, g2.2 hd']
            unfold storedPixel
            cases (imageBytes inflate f.file im)[p]? with
            | none => exact .inl ⟨rfl, rfl⟩
            | some v =>
              have l1 : v.toNat < pal.colors.length := by rw [g1.1]; exact v.toNat_lt
              have l2 : v.toNat < pal'.colors.length := by rw [g2.1]; exact v.toNat_lt
              refine .inr ⟨layer, v, rfl, ?_, ?_⟩ <;> dsimp only [Option.bind_eq_bind, Option.bind_some] <;>
                unfold Palette.entry
              · rw [List.getElem?_eq_getElem l1]
                rfl
              · rw [List.getElem?_eq_getElem l2]
                rfl
    unfold strokes at ih ⊢
    rw [List.filterMap_cons, List.filterMap_cons]
    rcases one with ⟨h1, h2⟩ | ⟨layer, v, h0, h1, h2⟩ <;> rw [h1, h2]
    · exact ih
    · exact .cons ⟨rfl, rfl, ⟨c, hall List.mem_cons_self, layer, h0, rfl, rfl⟩, v, rfl, rfl⟩ ih

/-- **C99, pictures.** Let all layers that are drawn have mode Normal and full opacity, and let the colours of both palettes
be opaque or transparent, for each number in both the same.  Then rendering succeeds with the one palette if it does
with the other, and every pixel is left as it was with both, or is transparent with both, or shows colour number `v` of the
one palette with the one, and colour number `v` of the other with the other, for one `v`. -/
theorem C99_pictures (plat : Plat) (b b' : Bytes) (f g : AsepriteFile) (hf : AsepriteFile.load plat b = .ok f)
    (hg : AsepriteFile.load plat b' = .ok g) (hd : f.file.header.colorDepth = .indexed)
    (hd' : g.file.header.colorDepth = .indexed) (pal pal' : Palette) (hp : f.file.palette = some pal)
    (hp' : g.file.palette = some pal') (hi : g.images = f.images) (hl : g.layers = f.layers) (hfr : g.frames = f.frames)
    (hz : g.size = f.size) (inflate : Inflater) (i : Nat) (lf : LFrame) (hlf : f.frames[i]? = some lf)
    (sel : LayerSelection) (t t' : Bytes) (ht : f.renderFrame plat inflate i sel t = (.ok (), t'))
    (hn : ∀ c ∈ lf.cels, ∀ layer, drawnOn f sel c = some layer → layer.blendMode = .normal ∧ layer.opacity = 255)
    (ha : ∀ v, ((Palette.entry pal v).a = 255 ∧ (Palette.entry pal' v).a = 255) ∨
      ((Palette.entry pal v).a = 0 ∧ (Palette.entry pal' v).a = 0)) :
    ∃ u', g.renderFrame plat inflate i sel t = (.ok (), u') ∧
      ∀ x y, x < f.size.1.toNat → y < f.size.2.toNat → ∃ c d d', canvasPixel f t x y = some c ∧
        canvasPixel f t' x y = some d ∧ canvasPixel g u' x y = some d' ∧
        ((d = c ∧ d' = c) ∨ (d.a = 0 ∧ d'.a = 0) ∨ ∃ v, d = Palette.entry pal v ∧ d' = Palette.entry pal' v) := by
  obtain ⟨pal₁, g1⟩ := goodPalette_of_load hf
  obtain ⟨pal₂, g2⟩ := goodPalette_of_load hg
  have := g1.2 hd
  rw [hp] at this
  cases this
  have := g2.2 hd'
  rw [hp'] at this
  cases this
  have hlg : g.frames[i]? = some lf := by rw [hfr]; exact hlf
  have hdr : ∀ c, drawnOn g sel c = drawnOn f sel c := by intro c; unfold drawnOn; rw [hl]
  have hbuf : f.size.1.toNat * f.size.2.toNat * 4 ≤ t.length := by
    by_contra hlt
    have := (C36_buffer plat b f hf inflate i sel t).1.2 (by omega)
    rw [ht] at this
    cases this
  have hm : plat.debug = false ∨ ∀ c ∈ lf.cels, ∀ layer, drawnOn f sel c = some layer → isHsl layer.blendMode = false :=
    .inr fun c hc layer h => by rw [(hn c hc layer h).1]; rfl
  have ok := (C41_success_partial plat b f hf inflate i lf hlf sel t hbuf hm).1 (by rw [ht])
  have hu : (g.renderFrame plat inflate i sel t).1 = .ok () := by
    refine (C41_success_partial plat b' g hg inflate i lf hlg sel t (by rw [hz]; exact hbuf)
      (by simpa only [hdr] using hm)).2 fun c hc layer im h1 h2 => ?_
    have := ok c hc layer im (by rw [← hdr]; exact h1) (by rw [← hi]; exact h2)
    refine ⟨?_, this.2⟩
    have h := this.1
    unfold HasPixels at h ⊢
    rw [hd] at h
    rw [hd']
    exact h
  refine ⟨_, Prod.ext hu rfl, fun x y hx hy => ?_⟩
  have hu' : g.renderFrame plat inflate i sel t = (.ok (), (g.renderFrame plat inflate i sel t).2) := Prod.ext hu rfl
  obtain ⟨c, d, q1, q2, q3⟩ := C37_pixels plat b f hf inflate i lf hlf sel t t' ht x y hx hy
  obtain ⟨c', d', r1, r2, r3⟩ := C37_pixels plat b' g hg inflate i lf hlg sel t _ hu' x y (hz ▸ hx) (hz ▸ hy)
  have hcc : c' = c := by
    have : canvasPixel g t x y = canvasPixel f t x y := by
      unfold canvasPixel
      rw [show g.file.header.width = f.file.header.width from congrArg Prod.fst hz]
    rw [this, q1] at r1
    cases r1
    rfl
  subst hcc
  rw [compose_strokes] at q3 r3
  refine ⟨c', d, d', q1, q2, r2, ?_⟩
  refine fold_related plat (fun d d' => (d = c' ∧ d' = c') ∨ (d.a = 0 ∧ d'.a = 0) ∨
    ∃ v, d = Palette.entry pal v ∧ d' = Palette.entry pal' v) _ ?_ (strokes_swap hd hd' g1 g2 hi hl inflate sel x y lf.cels)
    (.inl ⟨rfl, rfl⟩) q3 r3
  rintro s s' a a' e e' ⟨hm, ho, ⟨cel, hcel, layer, hlay, em, eo⟩, v, hv, hv'⟩ hR hb hb'
  obtain ⟨n1, n2⟩ := hn cel hcel layer hlay
  rw [em, n1, eo, n2] at hb
  rw [hm, em, n1, ho, eo, n2] at hb'
  obtain ⟨k, k0, k1, k2, k3, -⟩ := C46_normal plat a s.color 255
  rw [hb] at k0
  cases k0
  obtain ⟨k', k0, k1', k2', k3', -⟩ := C46_normal plat a' s'.color 255
  rw [hb'] at k0
  cases k0
  rcases ha v with ⟨a1, a2⟩ | ⟨a1, a2⟩
  · exact .inr (.inr ⟨v, by rw [k1 (by rw [hv, a1]) rfl, hv], by rw [k1' (by rw [hv', a2]) rfl, hv']⟩)
  · have zero : ∀ (z e : Color) (col : Color), col.a = 0 → z.a = 0 →
        (z.a = 0 → e.r = col.r ∧ e.g = col.g ∧ e.b = col.b ∧ e.a.toNat = times col.a.toNat (255 : UInt8).toNat) → e.a = 0 := by
      intro z e col h1 h2 h3
      have := (h3 h2).2.2.2
      rw [h1] at this
      exact UInt8.toNat_inj.1 (by rw [this]; decide)
    have both : (a.a = 0 ↔ a'.a = 0) := by
      rcases hR with ⟨rfl, rfl⟩ | ⟨h1, h2⟩ | ⟨w, rfl, rfl⟩
      · exact Iff.rfl
      · simp only [h1, h2]
      · rcases ha w with ⟨h1, h2⟩ | ⟨h1, h2⟩ <;> simp only [h1, h2]
    by_cases hz0 : a.a = 0
    · exact .inr (.inl ⟨zero a e s.color (by rw [hv, a1]) hz0 k3, zero a' e' s'.color (by rw [hv', a2]) (both.1 hz0) k3'⟩)
    · rw [k2 hz0 (.inl (by rw [hv, a1])), k2' (fun h => hz0 (both.2 h)) (.inl (by rw [hv', a2]))]
      exact hR

/-- A knight in blue and in red: the transparent colour 0, the armour 1 and the skin 2. -/
example :
    let b (armour : Bytes) := Sample.header 2 2 8 ++ Sample.frame 1 [Sample.palette 0 [[0, 0, 0, 255], armour, [250, 200, 180, 255]],
      Sample.layer 1 0 0 255 [65], Sample.layer 1 0 0 255 [66], Sample.cel 0 0 0 2 2 [1, 1, 0, 2], Sample.cel 1 0 0 2 1 [0, 2]]
    let file (armour : Bytes) := match parseFile ⟨true, 10⟩ (b armour) with | .ok f => f.palette | _ => none
    let blue : Bytes := [0, 0, 200, 255]
    let red : Bytes := [200, 0, 0, 255]
    (match file blue, file red with
      | some p, some p' => (List.range 256).all fun v =>
          decide (((Palette.entry p (UInt8.ofNat v)).a = 255 ∧ (Palette.entry p' (UInt8.ofNat v)).a = 255) ∨
            ((Palette.entry p (UInt8.ofNat v)).a = 0 ∧ (Palette.entry p' (UInt8.ofNat v)).a = 0))
      | _, _ => false) = true ∧
    Sample.render ⟨true, 10⟩ (b blue) 0 .all (List.replicate 16 7) =
      some (.ok (), [0, 0, 200, 255, 250, 200, 180, 255, 7, 7, 7, 7, 250, 200, 180, 255]) ∧
    Sample.render ⟨true, 10⟩ (b red) 0 .all (List.replicate 16 7) =
      some (.ok (), [200, 0, 0, 255, 250, 200, 180, 255, 7, 7, 7, 7, 250, 200, 180, 255]) := by
  decide +kernel

theorem Sample.same_cel {c c' : CelChunk} (h : blankCel c = blankCel c') (hc : c.content = c'.content) : c = c' := by
  obtain ⟨_, _, _, _, _, co, _⟩ := c
  obtain ⟨_, _, _, _, _, _, _⟩ := c'
  cases hc
  cases co <;> simp_all [blankCel]

/-- The same sprite with a new-style palette and with an old-style one: the hypotheses of `C99_load` hold. -/
example : ∃ raw raw', parseRawFile ⟨true, 10⟩ Sample.inIndexed = .ok raw ∧
    parseRawFile ⟨true, 10⟩ (Sample.header 2 2 8 ++
      Sample.chunksOf [Sample.chunk 4 [1, 0, 1, 2, 7, 8, 9, 10, 11, 12]] [1, 2]) = .ok raw' ∧
    SameButPalette raw raw' ∧ paletteProblem (allChunks raw'.frames) = none := by
  have h : (match parseRawFile ⟨true, 10⟩ Sample.inIndexed, parseRawFile ⟨true, 10⟩
      (Sample.header 2 2 8 ++ Sample.chunksOf [Sample.chunk 4 [1, 0, 1, 2, 7, 8, 9, 10, 11, 12]] [1, 2]) with
      | .ok ⟨h, [⟨d, [.layer l, .palette _, .cel c]⟩]⟩, .ok ⟨h', [⟨d', [.layer l', .palette0004 p, .cel c']⟩]⟩ =>
        decide (h.width = h'.width ∧ h.height = h'.height ∧ h.colorDepth = .indexed ∧ h'.colorDepth = .indexed ∧ d = d')
          && decide (paletteProblem [.layer l', .palette0004 p, .cel c'] = none) && decide (c.content = c'.content) &&
          Sample.alike (.layer l) (.layer l') && Sample.alike (.cel c) (.cel c')
      | _, _ => false) = true := by decide +kernel
  split at h
  · next h1 h2 =>
    simp only [Bool.and_eq_true, decide_eq_true_eq] at h
    obtain ⟨⟨⟨⟨h, hp⟩, hc⟩, hl⟩, hc'⟩ := h
    refine ⟨_, _, h1, h2, ⟨h.1, h.2.1, h.2.2.1, h.2.2.2.1, ?_⟩, hp⟩
    have el := Sample.alike_blank hl
    simp only [blankChunk, Chunk.layer.injEq] at el
    have ec := Sample.alike_blank hc'
    simp only [blankChunk, Chunk.cel.injEq] at ec
    rw [el, Sample.same_cel ec hc, h.2.2.2.2]
    rfl
  · cases h

end Ase
