import Verif.Lemmas.CostLoadBound
import Verif.Lemmas.CostRender
import Verif.Props.Load

/-!
# C70: how long parsing and loading take

`Model/Cost` and `Model/CostLoad` are the functions of the model, counting steps: every primitive read, every turn of
every loop, every byte of text validated or copied, every cel slot made.  `Model/CostRender` does the same for
`load_image` and `render_frame`.
-/

namespace Ase

open Spec

/-- **C70, reading.** Reading any byte slice - valid, truncated or malicious, whatever sizes and counts it declares, and
whether the result is a value, an error or a panic - takes at most two steps per byte and two more; counting the steps
does not change the result. -/
theorem C70_read (plat : Plat) (b : Bytes) :
    (Timed.parseRawFile plat b).2 = parseRawFile plat b ∧ (Timed.parseRawFile plat b).1 ≤ 2 * b.length + 2 :=
  ⟨Timed.erase_parseRawFile plat b, Timed.parseRawFile_steps plat b⟩

/-- A palette chunk that declares 4294967295 entries and has none: the loop over the entries stops in its first turn. -/
example : (Timed.parseRawFile ⟨true, 10⟩ (Sample.header 1 1 8 ++ Sample.frame 1
      [Sample.chunk 0x2019 ([255, 255, 255, 255] ++ List.replicate 16 0)])).1 = 38 := by decide +kernel

/-- a file with one layer, a cel and a tag -/
example : (Timed.parseRawFile ⟨true, 10⟩ (Sample.header 1 1 32 ++ Sample.frame 1
      [Sample.layer 1 0 0 255 [97], Sample.cel 0 0 0 1 1 [9, 8, 7, 6], Sample.tags [Sample.tag 0 0 0 0 97]])).1 = 75 := by
  decide +kernel

theorem load_steps_le (plat : Plat) (b : Bytes) :
    (Timed.load plat b).1 ≤ 2 + 3 * b.length + b.length * b.length / 512 ∧
    ∀ f, AsepriteFile.load plat b = .ok f →
      (Timed.load plat b).1 ≤ 2 + 3 * b.length + 3 * (f.frames.length * f.file.layers.length) := by
  have hr := Timed.parseRawFile_steps plat b
  have he := Timed.erase_parseRawFile plat b
  -- what `parseFile` and `load` add
  have hpf : Timed.parseFile plat b = Timed.S.bind (Timed.parseRawFile plat b) Timed.assembleFile := rfl
  rcases hq : Timed.parseRawFile plat b with ⟨t, raw | e | k⟩
  · rw [hq] at he hr
    replace he := he.symm
    simp only at he hr
    obtain ⟨hc, hsq⟩ := Timed.cost_le he
    obtain ⟨ha, hl⟩ := Timed.after_le he
    have hpf' : Timed.parseFile plat b = (t + (Timed.assembleFile raw).1, (Timed.assembleFile raw).2) := by
      rw [hpf, hq]; rfl
    have hlen : (Timed.load plat b).1 ≤ t + (raw.frames.map Timed.frameCost).sum +
        3 * (raw.frames.length * (allLayers raw.frames).length) := by
      unfold Timed.load
      rw [hpf']
      have ha' : (Timed.assembleFile raw).1 ≤ _ := ha
      have hea := Timed.erase_assembleFile raw
      rcases hs : Timed.assembleFile raw with ⟨t', f | e | k⟩ <;> rw [hs] at ha' hea <;> simp only at ha' hea ⊢
      · have := hl f hea.symm
        rw [hs] at this
        simp only [Timed.S.steps, Timed.more] at this ⊢
        omega
      · omega
      · omega
    constructor
    · have : 3 * (raw.frames.length * (allLayers raw.frames).length) ≤ b.length * b.length / 512 := by
        rw [Nat.le_div_iff_mul_le (by omega)]
        omega
      omega
    · intro f hf
      have h1 : f.frames.length = raw.frames.length ∧ f.file.layers.length = (allLayers raw.frames).length := by
        obtain ⟨hfile, ho⟩ := load_ok.1 hf
        obtain ⟨raw', hr', ha'⟩ := parseFile_ok.1 hfile
        rw [he] at hr'
        cases hr'
        obtain ⟨p, _, _, hfe⟩ := (assembleFile_ok (fresh he)).1 ha'
        have h2 := (frames_of_load ho).1
        have h3 : f.file.frames.length = raw.frames.length := by rw [hfe]; simp
        have h4 : f.file.layers.length = (allLayers raw.frames).length := by rw [hfe]
        omega
      rw [h1.1, h1.2]
      omega
  all_goals
    rw [hq] at he
    have hpf' : Timed.parseFile plat b = (t, (Timed.parseFile plat b).2) := by
      rw [hpf, hq]; rfl
    have hl : (Timed.load plat b).1 = t := by
      unfold Timed.load
      rw [hpf, hq]
      rfl
    rw [hq] at hr
    refine ⟨by simp only at hr; omega, fun f hf => ?_⟩
    obtain ⟨hfile, _⟩ := load_ok.1 hf
    obtain ⟨raw', hr', _⟩ := parseFile_ok.1 hfile
    rw [← he] at hr'
    cases hr'

/-- **C70, loading.** Loading any byte slice of `N` bytes takes at most `2 + 3 N + N² / 512` steps, and if it loads, at
most `2 + 3 N` steps and three per pair of a frame and a layer.  Parsing takes no more than loading. -/
theorem C70_load (plat : Plat) (b : Bytes) :
    (Timed.parseFile plat b).2 = parseFile plat b ∧
    (Timed.load plat b).2 = AsepriteFile.load plat b ∧
    (Timed.parseFile plat b).1 ≤ (Timed.load plat b).1 ∧
    (Timed.load plat b).1 ≤ 2 + 3 * b.length + b.length * b.length / 512 ∧
    ∀ f, AsepriteFile.load plat b = .ok f →
      (Timed.load plat b).1 ≤ 2 + 3 * b.length + 3 * (f.frames.length * f.file.layers.length) := by
  refine ⟨Timed.erase_parseFile plat b, Timed.erase_load plat b, ?_, load_steps_le plat b⟩
  unfold Timed.load
  rcases Timed.parseFile plat b with ⟨t, f | e | k⟩
  · exact Nat.le_add_right _ _
  · exact Nat.le_refl _
  · exact Nat.le_refl _

/-- the same file: 17 steps more than reading it -/
example : (Timed.load ⟨true, 10⟩ (Sample.header 1 1 32 ++ Sample.frame 1
      [Sample.layer 1 0 0 255 [97], Sample.cel 0 0 0 1 1 [9, 8, 7, 6], Sample.tags [Sample.tag 0 0 0 0 97]])).1 = 92 := by
  decide +kernel

theorem Timed.buildFrames_ge (n : Nat) (fs : List (UInt16 × List CelChunk)) {x : List Frame}
    (h : (Timed.buildFrames n fs).2 = .ok x) : fs.length * (1 + n) ≤ (Timed.buildFrames n fs).1 := by
  induction fs generalizing x with
  | nil => simp
  | cons f fs ih =>
    obtain ⟨d, cs⟩ := f
    unfold Timed.buildFrames at h ⊢
    change (Timed.S.bind (Timed.S.tick (1 + n)) fun _ => Timed.S.bind _ fun _ => Timed.S.bind _ fun _ => _).2 = _ at h
    change _ ≤ (Timed.S.bind (Timed.S.tick (1 + n)) fun _ => Timed.S.bind _ fun _ => Timed.S.bind _ fun _ => _).1
    simp only [Timed.S.tick, Timed.S.bind] at h ⊢
    rcases hp : Timed.placeCels n (List.replicate n none) cs with ⟨t, a | e | k⟩ <;> simp only [hp] at h ⊢
    · rcases hb : Timed.buildFrames n fs with ⟨t', a' | e | k⟩ <;> simp only [hb] at h ⊢
      · have := ih (x := a') (by rw [hb])
        rw [hb] at this
        simp only [List.length_cons, Nat.succ_mul] at this ⊢
        omega
      · cases h
      · cases h
    · cases h
    · cases h

/-- **C70.** The square cannot be avoided: for every `n` there is a file of `128 + 40 * n` bytes, `n` frames with one
layer each and no cels, that takes more than `n * n` steps. -/
theorem C70_quadratic (plat : Plat) (n : Nat) (hn : 1 ≤ n) :
    (Sample.layersPerFrame n).length = 128 + 40 * n ∧ n * n < (Timed.parseFile plat (Sample.layersPerFrame n)).1 := by
  obtain ⟨hl, f, hf, hs, _⟩ := C60_slots_quadratic plat n hn
  refine ⟨hl, ?_⟩
  obtain ⟨h1, h2, h3⟩ := C60_slots_partial plat _ f hf
  obtain ⟨raw, hr, ha⟩ := parseFile_ok.1 hf
  rw [← Timed.erase_parseRawFile] at hr
  have hr' := hr
  rw [Timed.erase_parseRawFile] at hr'
  obtain ⟨cels, he⟩ := collectFrames_eq ⟨[], [], [], none, []⟩ [] raw.frames (fresh hr')
  obtain ⟨p, _, _, hfe⟩ := (assembleFile_ok (fresh hr')).1 ha
  have e1 : f.frames.length = raw.frames.length := by rw [hfe]; simp
  have e2 : f.layers.length = (allLayers raw.frames).length := by rw [hfe]
  rw [← Timed.erase_assembleFile] at ha
  rw [← Timed.erase_collectFrames] at he
  change _ < (Timed.S.bind (Timed.parseRawFile plat _) Timed.assembleFile).1
  rcases hq : Timed.parseRawFile plat (Sample.layersPerFrame n) with ⟨t, r | e | k⟩ <;> rw [hq] at hr <;> cases hr
  refine Nat.lt_of_lt_of_le ?_ (Nat.le_add_left _ _)
  obtain ⟨K, hass⟩ : ∃ K : Option Palette → List Frame → Timed.S NomErr File,
      Timed.assembleFile raw = Timed.S.bind (Timed.filePalette raw) fun palette =>
      Timed.S.bind (Timed.S.tick (Timed.collectFrames ⟨[], [], [], none, []⟩ [] raw.frames).1) fun _ =>
      Timed.S.bind (Timed.buildFrames (Timed.collectFrames ⟨[], [], [], none, []⟩ [] raw.frames).2.1.layers.length
        (Timed.collectFrames ⟨[], [], [], none, []⟩ [] raw.frames).2.2) fun frames => K palette frames := ⟨_, rfl⟩
  rw [hass] at ha ⊢
  rw [he] at ha ⊢
  rcases hfp : Timed.filePalette raw with ⟨t1, p | e | k⟩ <;> rw [hfp] at ha
  · have hb : ∀ x, (Timed.buildFrames (allLayers raw.frames).length
        (raw.frames.map fun f => (f.duration, celsOf f.chunks))).2 = .ok x → n * n < (Timed.buildFrames
        (allLayers raw.frames).length (raw.frames.map fun f => (f.duration, celsOf f.chunks))).1 := by
      intro x hx
      have := Timed.buildFrames_ge _ _ hx
      have e3 : raw.frames.length * (allLayers raw.frames).length = n * n := by rw [← e1, ← e2, ← h1, hs]
      rw [List.length_map, Nat.mul_add, Nat.mul_one, e3] at this
      have : f.frames.length ≠ 0 := by
        intro h0
        rw [hs, h0, Nat.zero_mul] at h1
        have := Nat.mul_pos hn hn
        omega
      omega
    simp only [Timed.S.bind, Timed.S.tick, List.nil_append] at ha ⊢
    rcases hbf : Timed.buildFrames (allLayers raw.frames).length
        (raw.frames.map fun f => (f.duration, celsOf f.chunks)) with ⟨t2, x | e | k⟩ <;>
      rw [hbf] at hb <;> simp only [hbf] at ha ⊢
    · have := hb x rfl
      simp only at this
      omega
    · cases ha
    · cases ha
  · cases ha
  · cases ha

/-- **C70, images.** Loading an image takes exactly `imageWork` steps if it succeeds and never more; the contents of the
image and of the target buffer make no difference. -/
theorem C70_image (inflate : Inflater) (f : AsepriteFile) (i : Nat) (t : Bytes) :
    (Timed.loadImage inflate f i t).2 = f.loadImage inflate i t ∧
    (Timed.loadImage inflate f i t).1 ≤ imageWork f i ∧
    ((f.loadImage inflate i t).1 = .ok () → (Timed.loadImage inflate f i t).1 = imageWork f i) := by
  obtain ⟨h1, _, h3, h4⟩ := Timed.Runs.loadImage inflate f i t rfl
  exact ⟨h1, h3, fun h => (h4 () h).1⟩

/-- **C70, rendering.** Rendering a frame takes exactly one step per cel and `celWork` for every cel if it succeeds, and
never more.  The size of the canvas, the contents of the images and of the target, the blend modes, the opacities and the
positions of the cels make no difference. -/
theorem C70_render (plat : Plat) (inflate : Inflater) (f : AsepriteFile) (i : Nat) (sel : LayerSelection) (t : Bytes) :
    (Timed.renderFrame plat inflate f i sel t).2 = f.renderFrame plat inflate i sel t ∧
    ∀ fr, f.frames[i]? = some fr →
      (Timed.renderFrame plat inflate f i sel t).1 ≤ (fr.cels.map fun c => 1 + celWork f sel c).sum ∧
      ((f.renderFrame plat inflate i sel t).1 = .ok () →
        (Timed.renderFrame plat inflate f i sel t).1 = (fr.cels.map fun c => 1 + celWork f sel c).sum) := by
  obtain ⟨h1, _, h3, h4⟩ := Timed.Runs.renderFrame plat inflate f i sel t rfl
  refine ⟨h1, fun fr hfr => ?_⟩
  rw [hfr] at h3 h4
  exact ⟨h3, fun h => (h4 () h).1⟩

/-- **C70, rendering.** The work of a cel of a loaded file of width `w` and height `h` whose image has `d` bytes is at
most `10 w h + h + d`. -/
theorem C70_cel (plat : Plat) (b : Bytes) (f : AsepriteFile) (hf : AsepriteFile.load plat b = .ok f) (fr : LFrame)
    (hfr : fr ∈ f.frames) (c : FrameCel) (hc : c ∈ fr.cels) (sel : LayerSelection) :
    ∃ image, f.images[c.imageIndex]? = some image ∧
      celWork f sel c ≤ 10 * (c.size.1.toNat * c.size.2.toNat) + c.size.2.toNat + image.data.length := by
  obtain ⟨_, image, him, hs⟩ := (C31_references plat b f hf fr hfr).1 c hc
  refine ⟨image, him, ?_⟩
  have hd : imageWork f c.imageIndex ≤ image.data.length + 5 * (c.size.1.toNat * c.size.2.toNat) := by
    unfold imageWork
    rw [him, hs]
    unfold decodeWork
    simp only
    split <;> omega
  unfold celWork
  split
  · omega
  · split
    · omega
    · rw [Nat.mul_add, Nat.mul_one, Nat.mul_comm c.size.2.toNat]
      omega

/-- A 2x1 cel that lies outside of a 1x1 canvas: nothing is drawn, and the steps are one for the cel, 8 for its buffer, 8
for the copy of the image, one row and two pixels. -/
example : (match AsepriteFile.load ⟨true, 10⟩ (Sample.header 1 1 32 ++ Sample.frame 1
      [Sample.layer 1 0 0 255 [97], Sample.cel 0 7 7 2 1 [9, 8, 7, 6, 5, 4, 3, 2]]) with
    | .ok f => (Timed.renderFrame ⟨true, 10⟩ (fun _ _ => (.error, [])) f 0 .visible [1, 2, 3, 4]).1 == 20 &&
        (Timed.renderFrame ⟨true, 10⟩ (fun _ _ => (.error, [])) f 0 .visible [1, 2, 3, 4]).2.2 == [1, 2, 3, 4]
    | _ => false) = true := by decide +kernel

end Ase
