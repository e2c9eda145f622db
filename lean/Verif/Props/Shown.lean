import Verif.Spec.Shown
import Verif.Props.Look
import Verif.Props.Consequences

/-!
# C92: a frame's picture is made from what the frame shows
-/

namespace Ase

open Spec

theorem stage_still (cs : List Chunk) : cs.filterMap setting = (cs.filterMap chunkLook).filterMap still? := by
  induction cs with
  | nil => rfl
  | cons c cs ih => cases c <;> simpa [setting, chunkLook, still?, List.filterMap_cons] using ih

theorem filePalette_stage {raw raw' : RawFile} (h : stage raw = stage raw') : filePalette raw = filePalette raw' := by
  have hc := congrArg Stage.chunks h
  simp only [stage, stage_still] at hc
  obtain ⟨h1, h2⟩ := palette_look hc
  rw [filePalette_eq, filePalette_eq, h1, h2, show raw.header.colorDepth = raw'.header.colorDepth from
    congrArg Stage.colorDepth h, show raw.header.transparentIndex = raw'.header.transparentIndex from
    congrArg Stage.transparentIndex h]

theorem allLayers_look (frames : List RawFrame) : (allLayers frames).map layerCore =
    (((allChunks frames).filterMap chunkLook).filterMap still?).filterMap layer? := by
  simp only [allLayers, allChunks, List.map_flatMap, layersOf_look]
  induction frames with
  | nil => rfl
  | cons fr frames ih => simp only [List.flatMap_cons, List.filterMap_append, ih]

theorem allLayers_stage {raw raw' : RawFile} (h : stage raw = stage raw') :
    (allLayers raw.frames).map layerCore = (allLayers raw'.frames).map layerCore := by
  have hc := congrArg Stage.chunks h
  simp only [stage, stage_still] at hc
  rw [allLayers_look, allLayers_look, hc]

/-! ## Cels with and without user data -/

theorem celOn_bare (raw : RawFile) (i l : Nat) : (celOn raw i l).map bareCel = (Doc.celOf raw i l).map bareCel := by
  unfold celOn Doc.celOf
  cases raw.frames[i]? with
  | none => rfl
  | some fr => exact slot_celsOf fr l

theorem celOn_doc {raw : RawFile} {i l : Nat} {c : CelChunk} (h : celOn raw i l = some c) :
    ∃ d, Doc.celOf raw i l = some d ∧ bareCel c = bareCel d := by
  have := celOn_bare raw i l
  rw [h] at this
  obtain ⟨d, h1, h2⟩ := Option.map_eq_some_iff.1 this.symm
  exact ⟨d, h1, h2.symm⟩

theorem doc_celOn {raw : RawFile} {i l : Nat} {d : CelChunk} (h : Doc.celOf raw i l = some d) :
    ∃ c, celOn raw i l = some c ∧ bareCel c = bareCel d := by
  have := celOn_bare raw i l
  rw [h] at this
  obtain ⟨c, h1, h2⟩ := Option.map_eq_some_iff.1 this
  exact ⟨c, h1, h2⟩

theorem bare_fields {c d : CelChunk} (h : bareCel c = bareCel d) :
    c.layerIndex = d.layerIndex ∧ c.x = d.x ∧ c.y = d.y ∧ c.content = d.content := by
  simp only [bareCel, CelChunk.mk.injEq] at h
  exact ⟨h.1, h.2.1, h.2.2.1, by simp_all⟩

theorem ownImage_some {c : CelChunk} {im : Image} : ownImage c = some im ↔ c.content = .image im := by
  unfold ownImage
  split
  · next im' h => rw [h]; simp
  · next h => constructor
              · intro h'; cases h'
              · intro h'; exact absurd h' (h im)

theorem showsImage_doc {raw : RawFile} {l : Nat} {c d : CelChunk} (h : bareCel c = bareCel d) :
    ShowsImage raw l c ↔ (Doc.imageOf raw l d).isSome = true := by
  obtain ⟨-, -, -, hc⟩ := bare_fields h
  unfold ShowsImage Doc.imageOf
  rw [hc]
  cases d.content with
  | image im => simp
  | linkedCel k =>
    simp only [reduceCtorEq, exists_false, CelContent.linkedCel.injEq, false_or]
    constructor
    · rintro ⟨k', c', im, rfl, h1, h2⟩
      obtain ⟨d', h3, h4⟩ := celOn_doc h1
      obtain ⟨-, -, -, h5⟩ := bare_fields h4
      rw [h3, Option.bind_some, ownImage_some.2 (h5 ▸ h2)]
      rfl
    · intro hs
      obtain ⟨im, hs⟩ := Option.isSome_iff_exists.1 hs
      obtain ⟨d', h1, h2⟩ := Option.bind_eq_some_iff.1 hs
      obtain ⟨c', h3, h4⟩ := doc_celOn h1
      obtain ⟨-, -, -, h5⟩ := bare_fields h4
      exact ⟨k, c', im, rfl, h3, h5.trans (ownImage_some.1 h2)⟩
  | _ => simp

theorem allCels_doc (raw : RawFile) (n : Nat) : (∀ c ∈ allCels raw.frames, c.layerIndex.toNat < n) ↔
    ∀ fr ∈ raw.frames, ∀ c ∈ Doc.cels fr, c.layerIndex.toNat < n := by
  have key : ∀ fr : RawFrame, (∀ c ∈ celsOf fr.chunks, c.layerIndex.toNat < n) ↔ ∀ c ∈ Doc.cels fr, c.layerIndex.toNat < n := by
    intro fr
    have h := celsOf_bare fr.chunks
    have h := congrArg (List.map fun c => c.layerIndex) h
    simp only [List.map_map] at h
    have h1 : ∀ l : List CelChunk, (∀ c ∈ l, c.layerIndex.toNat < n) ↔
        ∀ k ∈ l.map ((fun c => c.layerIndex) ∘ bareCel), k.toNat < n := by
      intro l
      simp [bareCel]
    rw [h1, h, ← h1]
    rfl
  simp only [allCels, List.mem_flatMap]
  constructor
  · exact fun h fr hfr => (key fr).1 fun c hc => h c ⟨fr, hfr, hc⟩
  · rintro h c ⟨fr, hfr, hc⟩
    exact (key fr).2 (h fr hfr) c hc

/-- When a file loads, in terms of the chunks. -/
theorem loads_doc {plat : Plat} {b : Bytes} {raw : RawFile} (hr : parseRawFile plat b = .ok raw) :
    (∃ f, AsepriteFile.load plat b = .ok f) ↔ (∃ p, filePalette raw = .ok p) ∧
      (∀ fr ∈ raw.frames, ∀ c ∈ Doc.cels fr, c.layerIndex.toNat < (allLayers raw.frames).length) ∧
      ∀ (i l : Nat) (c : CelChunk), Doc.celOf raw i l = some c → (Doc.imageOf raw l c).isSome = true := by
  have hpal : (∃ p, filePalette raw = .ok p) ↔
      (raw.header.colorDepth = .indexed → paletteProblem (allChunks raw.frames) = none) := by
    rw [filePalette_eq]
    by_cases hd : raw.header.colorDepth = .indexed
    · rw [if_pos hd]
      cases paletteProblem (allChunks raw.frames) <;> simp [hd]
    · rw [if_neg hd]
      simp [hd]
  rw [C33_chunks plat b raw hr, hpal, allCels_doc]
  refine and_congr_right fun _ => and_congr_right fun _ => ?_
  constructor
  · intro h i l d hd
    obtain ⟨c, h1, h2⟩ := doc_celOn hd
    exact (showsImage_doc h2).1 (h i l c h1)
  · intro h i l c hc
    obtain ⟨d, h1, h2⟩ := celOn_doc hc
    exact (showsImage_doc h2).2 (h i l d h1)

/-! ## The cels of a loaded frame -/

theorem filterMap_facts {α β γ δ : Type} {ε : Type} (R : List α) (s : α → Option β) (T : β → Outcome ε γ) (facts : γ → δ)
    (G : α → Option δ) (h1 : ∀ l ∈ R, s l = none → G l = none)
    (h2 : ∀ l ∈ R, ∀ c fc, s l = some c → T c = .ok fc → G l = some (facts fc)) :
    ∀ cs : List γ, (R.filterMap s).map T = cs.map .ok → R.filterMap G = cs.map facts := by
  induction R with
  | nil => intro cs h; cases cs with | nil => rfl | cons _ _ => simp at h
  | cons l R ih =>
    intro cs h
    have ih := ih (fun l hl => h1 l (List.mem_cons_of_mem _ hl)) (fun l hl => h2 l (List.mem_cons_of_mem _ hl))
    cases hs : s l with
    | none =>
      rw [List.filterMap_cons_none hs] at h
      rw [List.filterMap_cons_none (h1 l List.mem_cons_self hs)]
      exact ih cs h
    | some c =>
      rw [List.filterMap_cons_some hs] at h
      cases cs with
      | nil => simp at h
      | cons fc cs =>
        simp only [List.map_cons, List.cons.injEq] at h
        rw [List.filterMap_cons_some (h2 l List.mem_cons_self c fc hs h.1), List.map_cons, ih cs h.2]

/-- What rendering uses of what is shown. -/
def shownFacts (l : Nat) (s : Int16 × Int16 × Image) : (Int16 × Int16) × (UInt16 × UInt16) × Nat × Option Image :=
  ((s.1, s.2.1), (s.2.2.width, s.2.2.height), l, some s.2.2)

theorem filterMap_range {β : Type} (G : Nat → Option β) {n m : Nat} (hnm : n ≤ m) (h : ∀ l, n ≤ l → G l = none) :
    (List.range m).filterMap G = (List.range n).filterMap G := by
  obtain ⟨d, rfl⟩ := Nat.exists_eq_add_of_le hnm
  rw [List.range_add, List.filterMap_append]
  have : ((List.range d).map (n + ·)).filterMap G = [] := by
    rw [List.filterMap_map, List.filterMap_eq_nil_iff]
    exact fun x _ => h _ (Nat.le_add_right n x)
  rw [this, List.append_nil]

theorem cels_shown {plat : Plat} {b : Bytes} {raw : RawFile} (hr : parseRawFile plat b = .ok raw) {f : AsepriteFile}
    (hf : AsepriteFile.load plat b = .ok f) {i : Nat} {lf : LFrame} (hi : f.frames[i]? = some lf) {m : Nat}
    (hm : (allLayers raw.frames).length ≤ m) :
    lf.cels.map (celFacts f) = (List.range m).filterMap fun l => (shown raw i l).map (shownFacts l) := by
  obtain ⟨h1, h2⟩ := load_ok.1 hf
  have hP := parsed_of_parse hr h1
  have hs := slotsOk_of_parse h1
  obtain ⟨hlen, hfr⟩ := frames_of_load h2
  have him : f.images = fileImages f.file := (ofFile_ok h2).2.2.2.1
  have hlt : i < f.file.frames.length := by
    rw [← hlen]; exact (List.getElem?_eq_some_iff.1 hi).1
  obtain ⟨fr, hgt⟩ : ∃ fr, f.file.frames[i]? = some fr := ⟨_, List.getElem?_eq_getElem hlt⟩
  have hk := (hfr i _ lf hgt hi).2.2
  have hgt' := hgt
  rw [hP.frames, List.getElem?_map, Option.map_eq_some_iff] at hgt'
  obtain ⟨rf, hrf, e⟩ := hgt'
  rw [← e] at hk hgt
  have hcel : ∀ l, celOn raw i l = slot (celsOf rf.chunks) l := by
    intro l
    rw [celOn, hrf]
    rfl
  have hout : ∀ l, (allLayers raw.frames).length ≤ l → (shown raw i l).map (shownFacts l) = none := by
    intro l hl
    rw [Option.map_eq_none_iff, shown]
    cases hd : Doc.celOf raw i l with
    | none => rfl
    | some d =>
      exfalso
      obtain ⟨c, hc, -⟩ := doc_celOn hd
      rw [hcel] at hc
      obtain ⟨h3, h4⟩ := slot_index hc
      have := hP.cels c (List.mem_flatMap.2 ⟨rf, List.mem_of_getElem? hrf, h3⟩)
      rw [hP.layers] at this
      omega
  rw [filterMap_range _ hm hout]
  symm
  have hk' : ((List.range (allLayers raw.frames).length).filterMap (slot (celsOf rf.chunks))).map
      (toFrameCel (fileImages f.file) (mapOf 0 (keyed 0 f.file.frames)) i) = lf.cels.map .ok := by
    rw [← hk]
    simp only [slots, List.filterMap_map, Function.id_comp]
  refine filterMap_facts _ _ _ _ _ ?_ ?_ _ hk'
  · intro l _ hsl
    rw [Option.map_eq_none_iff, shown]
    cases hd : Doc.celOf raw i l with
    | none => rfl
    | some d =>
      obtain ⟨c, hc, -⟩ := doc_celOn hd
      rw [hcel, hsl] at hc
      cases hc
  · intro l hl c fc hsl hok
    have hidx := (slot_index hsl).2
    have hat : celAt f.file i c.layerIndex.toNat = some c := by
      rw [hidx]
      exact (celAt_raw hr h1).2 (by rw [hcel]; exact hsl)
    have hsh := toFrameCel_ok hs hat hok
    obtain ⟨im, hk1, hk2⟩ := hsh.image
    have himg : f.images[fc.imageIndex]? = some im := by
      rw [him, fileImages, List.getElem?_map, hk1]
      rfl
    have hat2 := (mem_keyed_file hs).1 (List.mem_of_getElem? hk1)
    obtain ⟨d, hd, hbd⟩ := celOn_doc (raw := raw) (i := i) (l := l) (c := c) (by rw [hcel]; exact hsl)
    obtain ⟨-, hx, hy, hcont⟩ := bare_fields hbd
    have himd : Doc.imageOf raw l d = some im := by
      have hres := hsh.resolvable
      unfold Doc.imageOf
      rw [← hcont]
      unfold Resolvable at hres
      unfold sourceFrame at hat2
      cases hc : c.content with
      | image im' =>
        rw [hc] at hat2
        rw [imageAt, hat, Option.bind_some, ownImage_some] at hat2
        rw [hc] at hat2
        cases hat2
        rfl
      | linkedCel k =>
        rw [hc] at hat2
        dsimp only at hat2 ⊢
        rw [imageAt, Option.bind_eq_some_iff] at hat2
        obtain ⟨c2, e1, e2⟩ := hat2
        rw [hidx] at e1
        obtain ⟨d2, e3, e4⟩ := celOn_doc ((celAt_raw hr h1).1 e1)
        obtain ⟨-, -, -, e5⟩ := bare_fields e4
        rw [e3, Option.bind_some, ownImage_some, ← e5]
        exact ownImage_some.1 e2
      | unknown => rw [hc] at hres; exact hres.elim
      | compressedTilemap => rw [hc] at hres; exact hres.elim
    rw [shown, hd, Option.bind_some, himd]
    simp only [Option.map_some, shownFacts, celFacts, hsh.origin, hk2, himg, hsh.layer, hidx, hx, hy]

/-! ## C92 -/

/-- **C92.** A frame is rendered from what it shows: if two files that load have the same stage (size, colour depth,
transparent index, layers, palettes) and frame `i` of the one shows on each layer what frame `j` of the other one shows
(position and image, its own or linked), then rendering them gives the same result and leaves the same buffer, for every
selection of layers, decompressor and buffer. -/
theorem C92_shown (plat : Plat) (b b' : Bytes) (raw raw' : RawFile) (hr : parseRawFile plat b = .ok raw)
    (hr' : parseRawFile plat b' = .ok raw') (f g : AsepriteFile) (hf : AsepriteFile.load plat b = .ok f)
    (hg : AsepriteFile.load plat b' = .ok g) (hs : stage raw = stage raw') (i j : Nat) (hi : i < raw.frames.length)
    (hj : j < raw'.frames.length) (h : ∀ l, shown raw i l = shown raw' j l) (p : Plat) (inflate : Inflater)
    (sel : LayerSelection) (t : Bytes) :
    f.renderFrame p inflate i sel t = g.renderFrame p inflate j sel t := by
  obtain ⟨f1, f2⟩ := load_ok.1 hf
  obtain ⟨g1, g2⟩ := load_ok.1 hg
  have hP := parsed_of_parse hr f1
  have hQ := parsed_of_parse hr' g1
  have hfl : i < f.frames.length := by rw [(frames_of_load f2).1, hP.frames, List.length_map]; exact hi
  have hgl : j < g.frames.length := by rw [(frames_of_load g2).1, hQ.frames, List.length_map]; exact hj
  have hlay : f.layers.map nameless = g.layers.map nameless := by
    rw [(ofFile_ok f2).2.1, (ofFile_ok g2).2.1, hP.layers, hQ.layers]
    exact toLLayers_look (allLayers_stage hs)
  have hpal : f.file.palette = g.file.palette := by
    have := hP.palette
    rw [filePalette_stage hs, hQ.palette] at this
    exact (Outcome.ok.inj this).symm
  have hsz : f.size = g.size := by
    simp only [AsepriteFile.size, hP.header, hQ.header]
    rw [show raw.header.width = raw'.header.width from congrArg Stage.width hs,
      show raw.header.height = raw'.header.height from congrArg Stage.height hs]
  have hdep : f.file.header.colorDepth = g.file.header.colorDepth := by
    rw [hP.header, hQ.header]
    exact congrArg Stage.colorDepth hs
  -- the names of the layers do not matter
  have hnames : f.renderFrame p inflate i sel t = { f with layers := g.layers }.renderFrame p inflate i sel t :=
    (samePictures_of_core p (f := f) (f' := { f with layers := g.layers })
      (by simp only [loadCore, hlay]) rfl).render inflate i sel t
  rw [hnames]
  have hm1 := Nat.le_max_left (allLayers raw.frames).length (allLayers raw'.frames).length
  have hm2 := Nat.le_max_right (allLayers raw.frames).length (allLayers raw'.frames).length
  refine C64_local { f with layers := g.layers } g ⟨hsz, hdep, fun _ => hpal, rfl⟩ i j _ _
    (List.getElem?_eq_getElem hfl) (List.getElem?_eq_getElem hgl) ?_ p inflate sel t
  have e1 := cels_shown hr hf (List.getElem?_eq_getElem hfl) hm1
  have e2 := cels_shown hr' hg (List.getElem?_eq_getElem hgl) hm2
  rw [e2]
  simp only [← h]
  exact e1

/-! Frame 1 of the first file links to frame 0, frame 0 of the second one stores the same image at the same place: the
stages are equal (although in the second file the layers have other names and there is a tag), and the frames show the
same. -/
example :
    let one := Sample.header 2 1 32 ++ Sample.frame 100 [Sample.layer 1 0 0 255 [65], Sample.layer 1 0 0 200 [66],
      Sample.cel 0 0 0 1 1 [1, 2, 3, 4], Sample.cel 1 1 0 1 1 [9, 10, 11, 12]] ++ Sample.frame 5 [Sample.link 1 0]
    let two := Sample.header 2 1 32 ++ Sample.frame 7 [Sample.layer 1 0 0 255 [67], Sample.layer 1 0 0 200 [],
      Sample.tags [Sample.tag 0 0 0 2 84], Sample.cel 1 0 0 1 1 [9, 10, 11, 12]]
    (match parseRawFile ⟨true, 10⟩ one, parseRawFile ⟨true, 10⟩ two, AsepriteFile.load ⟨true, 10⟩ one,
        AsepriteFile.load ⟨true, 10⟩ two with
      | .ok raw, .ok raw', .ok _, .ok _ => decide (stage raw = stage raw') && raw.frames.length == 2 &&
          raw'.frames.length == 1 && (List.range 2).all (fun l => decide (shown raw 1 l = shown raw' 0 l)) &&
          (shown raw 1 1).isSome
      | _, _, _, _ => false) = true := by decide +kernel

theorem slot_celLook {cels cels' : List CelChunk} (h : cels'.map celLook = cels.map celLook) (l : Nat) :
    (slot cels' l).map celLook = (slot cels l).map celLook := by
  have key : ∀ cs : List CelChunk, (slot cs l).map celLook =
      ((cs.map celLook).filter fun k => k.1.toNat = l).getLast? := by
    intro cs
    unfold slot
    rw [List.filter_map, List.getLast?_map]
    rfl
  rw [key, key, h]

theorem celLook_fields {c d : CelChunk} (h : celLook c = celLook d) :
    c.layerIndex = d.layerIndex ∧ c.x = d.x ∧ c.y = d.y ∧ c.content = d.content := by
  simpa only [celLook, Prod.mk.injEq] using h

theorem imageOf_congr {raw : RawFile} {l : Nat} {c d : CelChunk} (h : c.content = d.content) :
    Doc.imageOf raw l c = Doc.imageOf raw l d := by
  unfold Doc.imageOf
  rw [h]

theorem slot_map {g : CelChunk → CelChunk} (hg : ∀ c, (g c).layerIndex = c.layerIndex) (cels : List CelChunk) (l : Nat) :
    slot (cels.map g) l = (slot cels l).map g := by
  unfold slot
  rw [List.filter_map, List.getLast?_map]
  simp only [Function.comp_def, hg]

theorem withImage_layer (raw : RawFile) (c : CelChunk) : (withImage raw c).layerIndex = c.layerIndex ∧
    (withImage raw c).x = c.x ∧ (withImage raw c).y = c.y := by
  unfold withImage
  split <;> exact ⟨rfl, rfl, rfl⟩

theorem celOf_index {raw : RawFile} {i l : Nat} {c : CelChunk} (h : Doc.celOf raw i l = some c) :
    c.layerIndex.toNat = l ∧ ∃ fr ∈ raw.frames, c ∈ Doc.cels fr := by
  obtain ⟨fr, h1, h2⟩ := Option.bind_eq_some_iff.1 h
  exact ⟨(slot_index h2).2, fr, List.mem_of_getElem? h1, (slot_index h2).1⟩

/-- **C92, links.** Links only share images.  Let the second file be the first one with a copy of the image in place of the
link, for any of the linked cels (`which` says for which frames and layers).  If the first file loads, so does the second,
with the same size and number of frames, and all frames are rendered alike. -/
theorem C92_links (plat : Plat) (b b' : Bytes) (raw raw' : RawFile) (hr : parseRawFile plat b = .ok raw)
    (hr' : parseRawFile plat b' = .ok raw') (which : Nat → Nat → Bool) (hs : stage raw = stage raw')
    (hc : raw'.frames.map (fun fr => (Doc.cels fr).map celLook) = raw.frames.zipIdx.map fun (fr, i) =>
      (Doc.cels fr).map fun c => celLook (if which i c.layerIndex.toNat then withImage raw c else c))
    (f : AsepriteFile) (hf : AsepriteFile.load plat b = .ok f) :
    ∃ g, AsepriteFile.load plat b' = .ok g ∧ g.size = f.size ∧ g.frames.length = f.frames.length ∧
      ∀ (p : Plat) (inflate : Inflater) (i : Nat) (sel : LayerSelection) (t : Bytes),
        g.renderFrame p inflate i sel t = f.renderFrame p inflate i sel t := by
  obtain ⟨hp, hidx, hres⟩ := (loads_doc hr).1 ⟨f, hf⟩
  have hlen : raw'.frames.length = raw.frames.length := by simpa using congrArg List.length hc
  have hlay : (allLayers raw.frames).length = (allLayers raw'.frames).length := by
    simpa using congrArg List.length (allLayers_stage hs)
  let g : Nat → CelChunk → CelChunk := fun i c => if which i c.layerIndex.toNat then withImage raw c else c
  have hg : ∀ i c, (g i c).layerIndex = c.layerIndex ∧ (g i c).x = c.x ∧ (g i c).y = c.y := by
    intro i c
    show (if _ then _ else _ : CelChunk).layerIndex = _ ∧ (if _ then _ else _ : CelChunk).x = _ ∧
      (if _ then _ else _ : CelChunk).y = _
    split
    · exact withImage_layer raw c
    · exact ⟨rfl, rfl, rfl⟩
  have hframe : ∀ i : Nat, raw'.frames[i]?.map (fun fr => (Doc.cels fr).map celLook) =
      raw.frames[i]?.map fun fr => ((Doc.cels fr).map (g i)).map celLook := by
    intro i
    have := congrArg (fun l => l[i]?) hc
    simp only [List.getElem?_map, List.getElem?_zipIdx, Option.map_map] at this
    rw [this, Nat.zero_add]
    simp only [List.map_map]
    rfl
  have hcel : ∀ i l, (Doc.celOf raw' i l).map celLook = ((Doc.celOf raw i l).map (g i)).map celLook := by
    intro i l
    have := hframe i
    unfold Doc.celOf
    cases h1 : raw'.frames[i]? with
    | none =>
      rw [h1] at this
      cases h2 : raw.frames[i]? with
      | none => rfl
      | some fr => rw [h2] at this; cases this
    | some fr' =>
      rw [h1] at this
      cases h2 : raw.frames[i]? with
      | none => rw [h2] at this; cases this
      | some fr =>
        rw [h2] at this
        simp only [Option.map_some, Option.some.injEq] at this
        rw [Option.bind_some, Option.bind_some, slot_celLook this, slot_map fun c => (hg i c).1]
  have himg : ∀ i l c, Doc.celOf raw i l = some c → Doc.imageOf raw' l (g i c) = Doc.imageOf raw l c := by
    intro i l c h
    have hl := (celOf_index h).1
    obtain ⟨im, him⟩ := Option.isSome_iff_exists.1 (hres i l c h)
    rw [him]
    cases hcon : c.content with
    | image im' =>
      have : g i c = c := by
        show (if _ then _ else _) = c
        split
        · unfold withImage; rw [hcon]
        · rfl
      rw [this]
      unfold Doc.imageOf at him ⊢
      rw [hcon] at him ⊢
      exact him
    | linkedCel k =>
      show Doc.imageOf raw' l (if which i c.layerIndex.toNat then withImage raw c else c) = some im
      split
      · have : withImage raw c = { c with content := .image im } := by
          unfold withImage
          rw [hl, him, hcon]
        rw [this]
        rfl
      · unfold Doc.imageOf at him ⊢
        rw [hcon] at him ⊢
        dsimp only at him ⊢
        obtain ⟨d, h1, h2⟩ := Option.bind_eq_some_iff.1 him
        have h3 := hcel k.toNat l
        rw [h1, Option.map_some, Option.map_some] at h3
        obtain ⟨d', h4, h5⟩ := Option.map_eq_some_iff.1 h3
        rw [h4, Option.bind_some, ownImage_some, (celLook_fields h5).2.2.2]
        have hd := ownImage_some.1 h2
        have : g k.toNat d = d := by
          show (if _ then _ else _) = d
          split
          · unfold withImage; rw [hd]
          · rfl
        rw [this, hd]
    | unknown => unfold Doc.imageOf at him; rw [hcon] at him; cases him
    | compressedTilemap => unfold Doc.imageOf at him; rw [hcon] at him; cases him
  have hshown : ∀ i l, shown raw' i l = shown raw i l := by
    intro i l
    have h0 := hcel i l
    unfold shown
    cases h : Doc.celOf raw i l with
    | none =>
      rw [h] at h0
      rw [Option.map_eq_none_iff.1 h0]
      rfl
    | some c =>
      rw [h, Option.map_some, Option.map_some] at h0
      obtain ⟨c', h4, h5⟩ := Option.map_eq_some_iff.1 h0
      obtain ⟨-, e1, e2, e3⟩ := celLook_fields h5
      rw [h4, Option.bind_some, Option.bind_some, imageOf_congr e3, himg i l c h, e1, e2, (hg i c).2.1, (hg i c).2.2]
  obtain ⟨a, ha⟩ := (loads_doc hr').2 ⟨filePalette_stage hs ▸ hp, (by
      intro fr' hfr' c' hc'
      obtain ⟨i, hi⟩ := List.mem_iff_getElem?.1 hfr'
      have := hframe i
      rw [hi] at this
      obtain ⟨fr, h1, h2⟩ := Option.map_eq_some_iff.1 this.symm
      have h3 : celLook c' ∈ ((Doc.cels fr).map (g i)).map celLook := by
        rw [h2]
        exact List.mem_map_of_mem hc'
      obtain ⟨_, h4, h5⟩ := List.mem_map.1 h3
      obtain ⟨c, h6, rfl⟩ := List.mem_map.1 h4
      rw [← (celLook_fields h5).1, (hg i c).1, ← hlay]
      exact hidx fr (List.mem_of_getElem? h1) c h6), (by
      intro i l c' h
      have h0 := hcel i l
      rw [h, Option.map_some] at h0
      obtain ⟨_, h1, h2⟩ := Option.map_eq_some_iff.1 h0.symm
      obtain ⟨c, h3, rfl⟩ := Option.map_eq_some_iff.1 h1
      rw [← imageOf_congr (celLook_fields h2).2.2.2, himg i l c h3]
      exact hres i l c h3)⟩
  obtain ⟨f1, f2⟩ := load_ok.1 hf
  obtain ⟨a1, a2⟩ := load_ok.1 ha
  have hP := parsed_of_parse hr f1
  have hQ := parsed_of_parse hr' a1
  have hfl : f.frames.length = raw.frames.length := by rw [(frames_of_load f2).1, hP.frames, List.length_map]
  have hal : a.frames.length = raw'.frames.length := by rw [(frames_of_load a2).1, hQ.frames, List.length_map]
  have hsz : a.size = f.size := by
    simp only [AsepriteFile.size, hP.header, hQ.header]
    rw [show raw.header.width = raw'.header.width from congrArg Stage.width hs,
      show raw.header.height = raw'.header.height from congrArg Stage.height hs]
  refine ⟨a, ha, hsz, by omega, fun p inflate i sel t => ?_⟩
  by_cases hi : i < raw.frames.length
  · exact C92_shown plat b' b raw' raw hr' hr a f ha hf hs.symm i i (by omega) hi (hshown i) p inflate sel t
  · have hcb : canvasBytes a = canvasBytes f := by
      simp only [canvasBytes]
      rw [show a.file.header.width = f.file.header.width from congrArg Prod.fst hsz,
        show a.file.header.height = f.file.header.height from congrArg Prod.snd hsz]
    rw [renderFrame_eq, renderFrame_eq, hcb, List.getElem?_eq_none (by omega), List.getElem?_eq_none (by omega)]

/-! Three frames; the second and the third link to the first.  The link of the second is replaced by a copy. -/
example :
    let first := Sample.frame 1 [Sample.layer 1 0 0 255 [65], Sample.cel 0 1 0 1 1 [1, 2, 3, 4]]
    let one := Sample.header 2 1 32 ++ first ++ Sample.frame 1 [Sample.link 0 0] ++ Sample.frame 1 [Sample.link 0 0]
    let two := Sample.header 2 1 32 ++ first ++ Sample.frame 1 [Sample.cel 0 0 0 1 1 [1, 2, 3, 4]] ++
      Sample.frame 1 [Sample.link 0 0]
    (match parseRawFile ⟨true, 10⟩ one, parseRawFile ⟨true, 10⟩ two, AsepriteFile.load ⟨true, 10⟩ one,
        AsepriteFile.load ⟨true, 10⟩ two with
      | .ok raw, .ok raw', .ok f, .ok g => decide (stage raw = stage raw') && raw.frames.length == 3 &&
          decide (raw'.frames.map (fun fr => (Doc.cels fr).map celLook) = raw.frames.zipIdx.map fun (fr, i) =>
            (Doc.cels fr).map fun c => celLook (if i == 1 then withImage raw c else c)) &&
          f.imageCount == 1 && g.imageCount == 2
      | _, _, _, _ => false) = true := by decide +kernel

/-- **C92, frames.** Frames can be rearranged, repeated and left out.  Let the frames of the second file have the cels of the
frames `js` of the first one, on the same stage, and let there be no linked cels.  If the first file loads, so does the
second, and its frame `k` is rendered like frame `js[k]` of the first one. -/
theorem C92_frames (plat : Plat) (b b' : Bytes) (raw raw' : RawFile) (hr : parseRawFile plat b = .ok raw)
    (hr' : parseRawFile plat b' = .ok raw') (js : List Nat) (hs : stage raw = stage raw')
    (hlinks : ∀ fr ∈ raw.frames, ∀ c ∈ Doc.cels fr, ∀ k, c.content ≠ .linkedCel k)
    (hc : raw'.frames.map (fun fr => some ((Doc.cels fr).map celLook)) =
      js.map fun j => raw.frames[j]?.map fun fr => (Doc.cels fr).map celLook)
    (f : AsepriteFile) (hf : AsepriteFile.load plat b = .ok f) :
    ∃ g, AsepriteFile.load plat b' = .ok g ∧ g.size = f.size ∧ g.frames.length = js.length ∧
      ∀ (k j : Nat), js[k]? = some j → ∀ (p : Plat) (inflate : Inflater) (sel : LayerSelection) (t : Bytes),
        g.renderFrame p inflate k sel t = f.renderFrame p inflate j sel t := by
  obtain ⟨hp, hidx, hres⟩ := (loads_doc hr).1 ⟨f, hf⟩
  have hlen : raw'.frames.length = js.length := by simpa using congrArg List.length hc
  have hlay : (allLayers raw.frames).length = (allLayers raw'.frames).length := by
    simpa using congrArg List.length (allLayers_stage hs)
  have hframe : ∀ (k : Nat) (fr' : RawFrame), raw'.frames[k]? = some fr' → ∃ (j : Nat) (fr : RawFrame), js[k]? = some j ∧
      raw.frames[j]? = some fr ∧ (Doc.cels fr').map celLook = (Doc.cels fr).map celLook := by
    intro k fr' hk
    have := congrArg (fun l => l[k]?) hc
    simp only [List.getElem?_map, hk, Option.map_some] at this
    obtain ⟨j, h1, h2⟩ := Option.map_eq_some_iff.1 this.symm
    obtain ⟨fr, h3, h4⟩ := Option.map_eq_some_iff.1 h2
    exact ⟨j, fr, h1, h3, h4.symm⟩
  have hcel : ∀ k j l, js[k]? = some j → (Doc.celOf raw' k l).map celLook = (Doc.celOf raw j l).map celLook := by
    intro k j l hk
    have hlt : k < raw'.frames.length := by rw [hlen]; exact (List.getElem?_eq_some_iff.1 hk).1
    obtain ⟨j', fr, h1, h2, h3⟩ := hframe k _ (List.getElem?_eq_getElem hlt)
    rw [hk] at h1
    cases h1
    unfold Doc.celOf
    rw [List.getElem?_eq_getElem hlt, h2, Option.bind_some, Option.bind_some, slot_celLook h3]
  have himg : ∀ j l c, Doc.celOf raw j l = some c → Doc.imageOf raw' l c = Doc.imageOf raw l c := by
    intro j l c h
    obtain ⟨-, fr, h1, h2⟩ := celOf_index h
    have := hlinks fr h1 c h2
    unfold Doc.imageOf
    cases hcon : c.content with
    | linkedCel k => exact absurd hcon (this k)
    | _ => rfl
  obtain ⟨a, ha⟩ := (loads_doc hr').2 ⟨filePalette_stage hs ▸ hp, (by
      intro fr' hfr' c hc'
      obtain ⟨i, hi⟩ := List.mem_iff_getElem?.1 hfr'
      obtain ⟨j, fr, -, h1, h2⟩ := hframe i fr' hi
      rw [← hlay]
      have h3 : celLook c ∈ (Doc.cels fr).map celLook := by
        rw [← h2]
        exact List.mem_map_of_mem hc'
      obtain ⟨d, h4, h5⟩ := List.mem_map.1 h3
      rw [← (celLook_fields h5).1]
      exact hidx fr (List.mem_of_getElem? h1) d h4), (by
      intro i l c h
      obtain ⟨fr', h1, -⟩ := Option.bind_eq_some_iff.1 h
      obtain ⟨j, fr, h2, -⟩ := hframe i fr' h1
      have h3 := hcel i j l h2
      rw [h, Option.map_some] at h3
      obtain ⟨d, h4, h5⟩ := Option.map_eq_some_iff.1 h3.symm
      rw [← imageOf_congr (celLook_fields h5).2.2.2, himg j l d h4]
      exact hres j l d h4)⟩
  obtain ⟨f1, f2⟩ := load_ok.1 hf
  obtain ⟨a1, a2⟩ := load_ok.1 ha
  have hP := parsed_of_parse hr f1
  have hQ := parsed_of_parse hr' a1
  have hal : a.frames.length = raw'.frames.length := by rw [(frames_of_load a2).1, hQ.frames, List.length_map]
  have hsz : a.size = f.size := by
    simp only [AsepriteFile.size, hP.header, hQ.header]
    rw [show raw.header.width = raw'.header.width from congrArg Stage.width hs,
      show raw.header.height = raw'.header.height from congrArg Stage.height hs]
  refine ⟨a, ha, hsz, by omega, fun k j hk p inflate sel t => ?_⟩
  have hlt : k < raw'.frames.length := by rw [hlen]; exact (List.getElem?_eq_some_iff.1 hk).1
  obtain ⟨j', fr, h1, h2, -⟩ := hframe k _ (List.getElem?_eq_getElem hlt)
  rw [hk] at h1
  cases h1
  refine C92_shown plat b' b raw' raw hr' hr a f ha hf hs.symm k j hlt (List.getElem?_eq_some_iff.1 h2).1 ?_ p inflate sel t
  intro l
  have h0 := hcel k j l hk
  unfold shown
  cases h : Doc.celOf raw j l with
  | none =>
    rw [h] at h0
    rw [Option.map_eq_none_iff.1 h0]
    rfl
  | some c =>
    rw [h, Option.map_some] at h0
    obtain ⟨c', h4, h5⟩ := Option.map_eq_some_iff.1 h0
    obtain ⟨-, e1, e2, e3⟩ := celLook_fields h5
    rw [h4, Option.bind_some, Option.bind_some, imageOf_congr e3, himg j l c h, e1, e2]

/-! Two frames played backwards, the last one twice; the layer stays in the first frame. -/
example :
    let layer := Sample.layer 1 0 0 255 [65]
    let x := Sample.cel 0 1 0 1 1 [1, 2, 3, 4]
    let y := Sample.cel 0 0 0 1 1 [5, 6, 7, 8]
    let one := Sample.header 2 1 32 ++ Sample.frame 1 [layer, x] ++ Sample.frame 2 [y]
    let two := Sample.header 2 1 32 ++ Sample.frame 9 [layer, y] ++ Sample.frame 9 [y] ++ Sample.frame 9 [x]
    (match parseRawFile ⟨true, 10⟩ one, parseRawFile ⟨true, 10⟩ two, AsepriteFile.load ⟨true, 10⟩ one with
      | .ok raw, .ok raw', .ok f => decide (stage raw = stage raw') && f.frames.length == 2 &&
          decide (raw'.frames.map (fun fr => some ((Doc.cels fr).map celLook)) =
            [1, 1, 0].map fun j => raw.frames[j]?.map fun fr => (Doc.cels fr).map celLook) &&
          raw.frames.all fun fr => (Doc.cels fr).all fun c => match c.content with | .linkedCel _ => false | _ => true
      | _, _, _ => false) = true := by decide +kernel

end Ase
