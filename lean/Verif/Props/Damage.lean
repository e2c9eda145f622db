import Verif.Lemmas.Damage
import Verif.Props.Strokes

/-!
# C97: other bytes in an image change nothing but that image
-/

namespace Ase

open Spec

theorem setting_of_blank {plat : Plat} {b b' : Bytes} {raw raw' : RawFile} (hb : parseRawFile plat b = .ok raw)
    (hb' : parseRawFile plat b' = .ok raw') (h : blankFile raw = blankFile raw') {f g : AsepriteFile}
    (hf : AsepriteFile.load plat b = .ok f) (hg : AsepriteFile.load plat b' = .ok g) : SameSetting f g := by
  have e := load_blank hb
  rw [h, load_blank hb', hf, hg] at e
  simp only [Outcome.bind, Outcome.ok.injEq, blankLoaded, AsepriteFile.mk.injEq] at e
  obtain ⟨e1, e2, _⟩ := e
  have hdr : ({ f.file.header with fileSize := 0 } : Header) = { g.file.header with fileSize := 0 } :=
    congrArg File.header e1.symm
  refine ⟨?_, by simpa using congrArg Header.colorDepth hdr, fun _ => (congrArg File.palette e1.symm :), e2.symm⟩
  simp only [AsepriteFile.size, Prod.mk.injEq]
  exact ⟨by simpa using congrArg Header.width hdr, by simpa using congrArg Header.height hdr⟩

theorem load_of_blank {plat : Plat} {n : Nat} {m m' b b' : Bytes} (h : OtherBytes n m m' b b') {f : AsepriteFile}
    (hf : AsepriteFile.load plat b = .ok f) : ∃ raw raw', parseRawFile plat b = .ok raw ∧
      parseRawFile plat b' = .ok raw' ∧ raw'.header = raw.header ∧
      OneChanged (FrameChanged n m m') raw.frames raw'.frames ∧ blankFile raw = blankFile raw' := by
  obtain ⟨raw, hr, _⟩ := parseFile_ok.1 (load_ok.1 hf).1
  obtain ⟨raw', e1, e2, e3⟩ := file_changed h (parseRawFile_ok.1 hr)
  exact ⟨raw, raw', hr, parseRawFile_ok.2 e3, e1, e2, blankFile_changed e1 e2⟩

/-- **C97.** Let two files differ only in some bytes of the data of one image, in any way.  Then both load or none; size,
colour depth, palette, layers, frames, tags and slices are the same; and the images are the same, except that possibly one
of them has those other bytes at the same place. -/
theorem C97_load (plat : Plat) (n : Nat) (m m' b b' : Bytes) (h : OtherBytes n m m' b b') :
    ((∃ f, AsepriteFile.load plat b = .ok f) ↔ ∃ g, AsepriteFile.load plat b' = .ok g) ∧
    ∀ f g, AsepriteFile.load plat b = .ok f → AsepriteFile.load plat b' = .ok g →
      SameSetting f g ∧ f.frames = g.frames ∧ f.tags = g.tags ∧ f.slices = g.slices ∧
      OneChanged (Damaged n m m') f.images g.images := by
  refine ⟨⟨?_, ?_⟩, ?_⟩
  · rintro ⟨f, hf⟩
    obtain ⟨raw, raw', hr, hr', e1, e2, e3⟩ := load_of_blank h hf
    exact (C68_storage plat b b' raw raw' hr hr' e3).2.2.1.1 ⟨f, hf⟩
  · rintro ⟨g, hg⟩
    obtain ⟨raw, raw', hr, hr', e1, e2, e3⟩ := load_of_blank h.symm hg
    exact (C68_storage plat b' b raw raw' hr hr' e3).2.2.1.1 ⟨g, hg⟩
  · intro f g hf hg
    obtain ⟨raw, raw', hr, hr', e1, e2, e3⟩ := load_of_blank h hf
    obtain ⟨_, k2, k3, k4, _⟩ := (C68_storage plat b b' raw raw' hr hr' e3).2.2.2 f g hf hg
    refine ⟨setting_of_blank hr hr' e3 hf hg, k2, k3, k4, ?_⟩
    rw [images_of_load hr hf, images_of_load hr' hg]
    have : (allLayers raw'.frames).length = (allLayers raw.frames).length := by
      have hl : ∀ r : RawFile, allLayers (blankFile r).frames = allLayers r.frames := fun r => by
        simp only [allLayers, blankFile, List.flatMap_map, layersOf_blank]
      rw [← hl raw, ← hl raw', e3]
    rw [this]
    exact images_changed e2 _

/-- **C97, other images and frames.** All images but that one are decoded as before, and frames that do not use it are
rendered as before. -/
theorem C97_elsewhere (plat : Plat) (n : Nat) (m m' b b' : Bytes) (h : OtherBytes n m m' b b') (f g : AsepriteFile)
    (hf : AsepriteFile.load plat b = .ok f) (hg : AsepriteFile.load plat b' = .ok g) :
    ∃ k : Nat, (∀ (j : Nat) (inflate : Inflater) (t : Bytes), j ≠ k → f.loadImage inflate j t = g.loadImage inflate j t) ∧
      ∀ (i : Nat) (lf : LFrame), f.frames[i]? = some lf → (∀ c ∈ lf.cels, c.imageIndex ≠ k) →
        ∀ (p : Plat) (inflate : Inflater) (sel : LayerSelection) (t : Bytes),
          f.renderFrame p inflate i sel t = g.renderFrame p inflate i sel t := by
  obtain ⟨hs, hfr, _, _, him⟩ := (C97_load plat n m m' b b' h).2 f g hf hg
  obtain ⟨_, k, hk, _⟩ := him.getElem
  refine ⟨k, fun j inflate t hj => by rw [loadImage_local hs inflate (hk j hj)], fun i lf hi hc p inflate sel t => ?_⟩
  refine C64_local f g hs i i lf lf hi (hfr ▸ hi) ?_ p inflate sel t
  refine List.map_congr_left fun c hm => ?_
  rw [celFacts, celFacts, hk _ (hc c hm)]

/-- The bytes of a pixel. -/
theorem storedPixel_congr {depth : ColorDepth} {pal : Option Palette} {raw raw' : Bytes} {p : Nat}
    (h : ∀ k, p * bytesPerPixel depth ≤ k → k < (p + 1) * bytesPerPixel depth → raw[k]? = raw'[k]?) :
    storedPixel depth pal raw p = storedPixel depth pal raw' p := by
  have drop4 : ∀ l : Bytes, pixel l p = l[4 * p]?.bind fun a => l[4 * p + 1]?.bind fun b => l[4 * p + 2]?.bind fun c =>
      l[4 * p + 3]?.map fun d => ⟨a, b, c, d⟩ := by
    intro l
    have e : ∀ k, l[4 * p + k]? = (l.drop (4 * p))[k]? := fun k => by rw [List.getElem?_drop]
    have e0 := e 0
    rw [Nat.add_zero] at e0
    rw [e0, e 1, e 2, e 3, pixel]
    rcases l.drop (4 * p) with _ | ⟨_, _ | ⟨_, _ | ⟨_, _ | ⟨_, _⟩⟩⟩⟩ <;> rfl
  have drop2 : ∀ l : Bytes, (match l.drop (2 * p) with | v :: a :: _ => some (⟨v, v, v, a⟩ : Color) | _ => none) =
      l[2 * p]?.bind fun v => l[2 * p + 1]?.map fun a => ⟨v, v, v, a⟩ := by
    intro l
    have e : ∀ k, l[2 * p + k]? = (l.drop (2 * p))[k]? := fun k => by rw [List.getElem?_drop]
    have e0 := e 0
    rw [Nat.add_zero] at e0
    rw [e0, e 1]
    rcases l.drop (2 * p) with _ | ⟨_, _ | ⟨_, _⟩⟩ <;> rfl
  unfold storedPixel
  cases depth with
  | rgba =>
    simp only [bytesPerPixel] at h
    dsimp only
    rw [drop4, drop4, h _ (by omega) (by omega), h _ (by omega) (by omega), h _ (by omega) (by omega),
      h _ (by omega) (by omega)]
  | grayscale =>
    simp only [bytesPerPixel] at h
    dsimp only
    refine (drop2 raw).trans (Eq.trans ?_ (drop2 raw').symm)
    rw [h _ (by omega) (by omega), h _ (by omega) (by omega)]
  | indexed =>
    simp only [bytesPerPixel] at h
    dsimp only
    rw [h p (by omega) (by omega)]
  | unknown n => rfl

/-- **C97, the image itself.** In an image that is not compressed, only the pixels whose bytes were changed are different:
in every frame, a canvas pixel on which no other pixel of that image is drawn is rendered as before. -/
theorem C97_pixels (plat : Plat) (n : Nat) (m m' b b' : Bytes) (h : OtherBytes n m m' b b') (f g : AsepriteFile)
    (hf : AsepriteFile.load plat b = .ok f) (hg : AsepriteFile.load plat b' = .ok g) (inflate : Inflater) (i : Nat)
    (lf : LFrame) (hi : f.frames[i]? = some lf) (sel : LayerSelection) (t t' u' : Bytes)
    (ht : f.renderFrame plat inflate i sel t = (.ok (), t')) (hu : g.renderFrame plat inflate i sel t = (.ok (), u'))
    (x y : Nat) (hx : x < f.size.1.toNat) (hy : y < f.size.2.toNat)
    (hp : ∀ c ∈ lf.cels, ∀ p im, drawnOn f sel c ≠ none → coveredBy c x y = some p → f.images[c.imageIndex]? = some im →
      g.images[c.imageIndex]? = some im ∨ im.compressed = false ∧
        ((p + 1) * bytesPerPixel f.file.header.colorDepth ≤ n ∨
          n + m.length ≤ p * bytesPerPixel f.file.header.colorDepth)) :
    canvasPixel f t' x y = canvasPixel g u' x y := by
  obtain ⟨hs, hfr, _, _, him⟩ := (C97_load plat n m m' b b' h).2 f g hf hg
  have hmm : m'.length = m.length := by cases h; assumption
  have hj : g.frames[i]? = some lf := hfr ▸ hi
  refine C77_strokes plat b b' f g hf hg inflate i i lf lf hi hj sel sel t t' t u' ht hu x y x y hx hy (hs.size ▸ hx)
    (hs.size ▸ hy) (by
      rw [canvasPixel, canvasPixel, show f.file.header.width = g.file.header.width from congrArg Prod.fst hs.size]) ?_
  unfold strokes
  refine List.filterMap_congr fun c hc => ?_
  unfold strokeOf
  have hd : drawnOn f sel c = drawnOn g sel c := by unfold drawnOn; rw [hs.layers]
  rw [← hd]
  cases hdr : drawnOn f sel c with
  | none => rfl
  | some layer =>
    cases hcov : coveredBy c x y with
    | none => rfl
    | some p =>
      simp only [Option.bind_some]
      congr 1
      obtain ⟨im, hk, _⟩ := celsOk_of_load hf hi c hc
      obtain ⟨im', hk', _⟩ := celsOk_of_load hg hj c hc
      unfold imageColor
      rw [hk, hk', ← hs.depth]
      simp only [Option.bind_some]
      have hpal : ∀ raw, storedPixel f.file.header.colorDepth g.file.palette raw p =
          storedPixel f.file.header.colorDepth f.file.palette raw p := by
        intro raw
        cases hdep : f.file.header.colorDepth with
        | indexed => rw [hs.palette hdep]
        | _ => rfl
      rw [hpal]
      rcases hp c hc p im (by rw [hdr]; simp) hcov hk with e | ⟨hcomp, hr⟩
      · rw [hk'] at e
        cases e
        unfold imageBytes
        rw [hs.depth]
      · obtain ⟨_, k, h1, h2⟩ := him.getElem
        have hdam : im = im' ∨ Damaged n m m' im im' := by
          by_cases hkk : c.imageIndex = k
          · rw [hkk] at hk hk'
            rw [hk, hk'] at h2
            rcases h2 with e | ⟨_, _, e, e', hd⟩
            · exact .inl (Option.some.inj e)
            · cases e; cases e'; exact .inr hd
          · have := h1 _ hkk
            rw [hk, hk'] at this
            exact .inl (Option.some.inj this)
        rcases hdam with rfl | hd
        · unfold imageBytes
          rw [hs.depth]
        · refine storedPixel_congr fun k k1 k2 => ?_
          obtain ⟨a, q, ha, e1, e2⟩ := hd.data
          unfold imageBytes
          rw [hd.compressed, hcomp, e1, e2, ← hs.depth]
          simp only [Bool.false_eq_true, if_false, pixelCount, hd.width, hd.height, List.append_assoc]
          rcases hr with hr | hr
          · rw [List.getElem?_append_left (by omega), List.getElem?_append_left (by omega)]
          · have key : ∀ mm rest : Bytes, mm.length = m.length → (a ++ (mm ++ rest))[k]? = rest[k - n - m.length]? := by
              intro mm rest hl
              rw [List.getElem?_append_right (by omega), List.getElem?_append_right (by omega), hl, ha]
            rw [key _ _ rfl, key _ _ hmm]

/-- A file with three frames; `v` is the first byte of the second pixel of the image of frame 1. -/
def Sample.damaged (v : UInt8) : Bytes := Sample.header 3 1 32 ++
  Sample.frame 1 [Sample.layer 1 0 0 255 [65], Sample.cel 0 0 0 1 1 [9, 9, 9, 9]] ++
  Sample.frame 1 [Sample.text 66, Sample.cel 0 1 0 2 1 [1, 2, 3, 255, v, 7, 8, 255], Sample.text 67] ++
  Sample.frame 1 [Sample.link 0 0]

/-- That byte is changed; only the canvas pixel that shows it, in the frame that uses the image, changes. -/
example : OtherBytes 4 [6] [5] (Sample.damaged 6) (Sample.damaged 5) ∧
    Sample.render ⟨true, 10⟩ (Sample.damaged 6) 1 .all (List.replicate 12 0) =
      some (.ok (), [0, 0, 0, 0, 1, 2, 3, 255, 6, 7, 8, 255]) ∧
    Sample.render ⟨true, 10⟩ (Sample.damaged 5) 1 .all (List.replicate 12 0) =
      some (.ok (), [0, 0, 0, 0, 1, 2, 3, 255, 5, 7, 8, 255]) ∧
    Sample.render ⟨true, 10⟩ (Sample.damaged 6) 2 .all (List.replicate 12 0) =
      some (.ok (), [9, 9, 9, 9, 0, 0, 0, 0, 0, 0, 0, 0]) ∧
    Sample.render ⟨true, 10⟩ (Sample.damaged 5) 2 .all (List.replicate 12 0) =
      some (.ok (), [9, 9, 9, 9, 0, 0, 0, 0, 0, 0, 0, 0]) := by
  refine ⟨?_, by decide +kernel⟩
  have h := OtherBytes.mk (n := 4) (m := [6]) (m' := [5]) (Sample.header 3 1 32)
    (sizedRecord ((Sample.frame 1 [Sample.layer 1 0 0 255 [65], Sample.cel 0 0 0 1 1 [9, 9, 9, 9]]).drop 4) ++ [])
    ((Sample.frame 1 [[], [], []]).drop 4) (sizedRecord ((Sample.text 66).drop 4) ++ []) [0, 0, 1, 0, 0, 0, 255]
    [0, 0, 0, 0, 0, 0, 0, 2, 0, 1, 0] [1, 2, 3, 255] [7, 8, 255] (Sample.text 67) (Sample.frame 1 [Sample.link 0 0]) 0
    (by decide +kernel) (.cons (by decide +kernel) .nil) (by decide +kernel) (.cons (by decide +kernel) .nil) rfl (.inl rfl)
    rfl rfl rfl (by decide +kernel) (by decide +kernel)
  have e : ∀ v, v = 6 ∨ v = 5 → Sample.damaged v = Sample.header 3 1 32 ++
    (sizedRecord ((Sample.frame 1 [Sample.layer 1 0 0 255 [65], Sample.cel 0 0 0 1 1 [9, 9, 9, 9]]).drop 4) ++ []) ++
    sizedRecord ((Sample.frame 1 [[], [], []]).drop 4 ++ (sizedRecord ((Sample.text 66).drop 4) ++ []) ++
      sizedRecord (le16 0x2005 ++ [0, 0, 1, 0, 0, 0, 255] ++ le16 0 ++ [0, 0, 0, 0, 0, 0, 0, 2, 0, 1, 0] ++
        [1, 2, 3, 255] ++ [v] ++ [7, 8, 255]) ++ Sample.text 67) ++ Sample.frame 1 [Sample.link 0 0] := by
    rintro v (rfl | rfl) <;> decide +kernel
  rw [e 6 (.inl rfl), e 5 (.inr rfl)]
  exact h

/-- The file loads, the condition of `C97_elsewhere` is met by frame 2, and that of `C97_pixels` by the canvas pixel
`(1, 0)` of frame 1. -/
example :
    (match AsepriteFile.load ⟨true, 10⟩ (Sample.damaged 6), AsepriteFile.load ⟨true, 10⟩ (Sample.damaged 5) with
      | .ok f, .ok g => decide (f.images[0]? = g.images[0]? ∧ f.images[1]? ≠ g.images[1]? ∧
          f.frames.map (fun lf => lf.cels.map fun c => (c.imageIndex, coveredBy c 1 0)) =
            [[(0, none)], [(1, some 0)], [(0, none)]])
      | _, _ => false) = true := by
  decide +kernel

end Ase
