import Verif.Lemmas.Loader
import Verif.Props.File

/-!
# C22, C27, C29 to C33: what `AsepriteFile::load` returns

(Rendering and decoding are in `Props/Image.lean` and `Props/Render.lean`.)
-/

namespace Ase

open Spec

/-- A file with two frames for the examples: a group, a visible layer and a hidden layer; the second frame links to the
first on layer 1 and has its own cel on layer 2; one tag repeats twice, the other forever. -/
def Sample.twoFrames : Bytes :=
  Sample.header 2 1 32 ++ Sample.frame 100
    [Sample.layer 1 1 0 255 [71], Sample.layer 1 0 0 200 [65], Sample.layer 2 0 1 255 [66],
     Sample.cel 1 0 0 2 1 [1, 2, 3, 4, 5, 6, 7, 8], Sample.tags [Sample.tag 0 1 0 2 84, Sample.tag 1 1 2 0 85]]
  ++ Sample.frame 50 [Sample.link 1 0, Sample.cel 2 1 0 1 1 [9, 10, 11, 12]]

/-! ## C29 and C30 -/

/-- **C29.** The layers of a loaded sprite are, in file order, exactly the normal layers and groups of the file, with
name, opacity, blend mode, type and visibility unchanged. -/
theorem C29_layers (plat : Plat) (b : Bytes) (f : AsepriteFile) (h : AsepriteFile.load plat b = .ok f) :
    parseFile plat b = .ok f.file ∧ f.layers = (f.file.layers.filter isDrawn).map asLayer := by
  obtain ⟨h1, h2⟩ := load_ok.1 h
  refine ⟨h1, ?_⟩
  rw [(ofFile_ok h2).2.1]
  induction f.file.layers with
  | nil => rfl
  | cons l ls ih =>
    by_cases hd : l.layerType = .normal ∨ l.layerType = .group
    · have hd' : isDrawn l = true := by simpa [isDrawn] using hd
      rw [List.filterMap_cons, toLLayer, if_pos hd, List.filter_cons, if_pos hd', List.map_cons, ih]
      rfl
    · have hd' : ¬ isDrawn l = true := by simpa [isDrawn] using hd
      rw [List.filterMap_cons, toLLayer, if_neg hd, List.filter_cons, if_neg hd', ih]

example : (match AsepriteFile.load ⟨true, 10⟩ Sample.twoFrames with
    | .ok f => f.layers == [⟨"G", 255, .normal, true, .group⟩, ⟨"A", 200, .normal, true, .normal⟩,
        ⟨"B", 255, .multiply, false, .normal⟩]
    | _ => false) = true := by decide +kernel

/-- **C30.** A loaded sprite has one frame per frame of the file, in order, with its duration and origin `(0, 0)`, and
one tag per tag of the file, in order, with its name, range and direction; a stored repeat count of 0 becomes `None`,
any other count `r` becomes `Some r`. The size is the one of the header. -/
theorem C30_frames_and_tags (plat : Plat) (b : Bytes) (f : AsepriteFile) (h : AsepriteFile.load plat b = .ok f) :
    f.frames.map (·.duration) = f.file.frames.map (·.duration) ∧ (∀ lf ∈ f.frames, lf.origin = (0, 0)) ∧
    f.tags.length = f.file.tags.length ∧
    (∀ (i : Nat) (lt : LTag) (t : Tag), f.tags[i]? = some lt → f.file.tags[i]? = some t →
      lt.name = t.name ∧ lt.rangeStart = t.framesStart ∧ lt.rangeEnd = t.framesEnd ∧
      lt.direction = t.animationDirection ∧ (lt.repeats = none ↔ t.animationRepeat = 0) ∧
      (∀ r, lt.repeats = some r ↔ t.animationRepeat = r ∧ r ≠ 0)) ∧
    f.size = (f.file.header.width, f.file.header.height) := by
  obtain ⟨h1, h2⟩ := load_ok.1 h
  obtain ⟨-, -, ht, -, -⟩ := ofFile_ok h2
  obtain ⟨hlen, hfr⟩ := frames_of_load h2
  refine ⟨?_, ?_, by rw [ht, List.length_map], ?_, rfl⟩
  · apply List.ext_getElem?
    intro i
    simp only [List.getElem?_map]
    by_cases hi : i < f.frames.length
    · have hi2 : i < f.file.frames.length := by omega
      rw [List.getElem?_eq_getElem hi, List.getElem?_eq_getElem hi2]
      simpa using (hfr i _ _ (List.getElem?_eq_getElem hi2) (List.getElem?_eq_getElem hi)).1
    · rw [List.getElem?_eq_none (by omega), List.getElem?_eq_none (by omega)]
      rfl
  · intro lf hlf
    obtain ⟨i, hi⟩ := List.mem_iff_getElem?.1 hlf
    obtain ⟨fr, hfr'⟩ := exists_frame_of_load h2 hi
    exact (hfr i fr lf hfr' hi).2.1
  · intro i lt t h3 h4
    rw [ht, List.getElem?_map, h4] at h3
    cases h3
    have hz : ¬ t.animationRepeat > 0 ↔ t.animationRepeat = 0 := by
      rw [gt_iff_lt, UInt16.lt_iff_toNat_lt, ← UInt16.toNat_inj]
      simp
    refine ⟨rfl, rfl, rfl, rfl, ?_, ?_⟩
    · simp only [toLTag]
      split
      · next hp => simp only [reduceCtorEq, false_iff]; exact fun h0 => hz.2 h0 hp
      · next hp => simpa using hz.1 hp
    · intro r
      simp only [toLTag]
      split
      · next hp =>
        simp only [Option.some.injEq]
        constructor
        · rintro rfl
          exact ⟨rfl, fun h0 => hz.2 h0 hp⟩
        · exact fun h => h.1
      · next hp =>
        simp only [reduceCtorEq, false_iff]
        rintro ⟨rfl, h0⟩
        exact h0 (hz.1 hp)

example : (match AsepriteFile.load ⟨true, 10⟩ Sample.twoFrames with
    | .ok f => f.frames.map (·.duration) == [100, 50] && f.size == (2, 1) &&
        f.tags == [⟨"T", 0, 1, .forward, some 2⟩, ⟨"U", 1, 1, .pingPong, none⟩]
    | _ => false) = true := by decide +kernel

/-! ## C31 and C32 -/

/-- **C31.** In every loaded sprite each cel of each frame refers to an existing image, has the size of that image and
a layer index below the number of layers of the file; the layer indices in a frame are strictly increasing, so no layer
occurs twice. -/
theorem C31_references (plat : Plat) (b : Bytes) (f : AsepriteFile) (h : AsepriteFile.load plat b = .ok f) :
    ∀ lf ∈ f.frames,
      (∀ c ∈ lf.cels, c.layerIndex < f.file.layers.length ∧
        ∃ im, f.images[c.imageIndex]? = some im ∧ c.size = (im.width, im.height)) ∧
      (lf.cels.map (·.layerIndex)).Pairwise (· < ·) := by
  obtain ⟨h1, h2⟩ := load_ok.1 h
  have hs := slotsOk_of_parse h1
  intro lf hlf
  obtain ⟨i, hi⟩ := List.mem_iff_getElem?.1 hlf
  refine ⟨?_, cels_sorted_of_load hs h2 hi⟩
  intro fc hfc
  obtain ⟨c, hc⟩ := shows_of_mem hs h2 hi hfc
  obtain ⟨im, h3, _, h4⟩ := hc.image' hs
  refine ⟨?_, im, by rw [(ofFile_ok h2).2.2.2.1]; exact h3, h4⟩
  obtain ⟨fr, h5, h6⟩ := celAt_eq.1 hc.at_
  rw [hc.layer, ← hs.len fr (List.mem_of_getElem? h5)]
  exact (List.getElem?_eq_some_iff.1 h6).1

/-- **C32.** The cels of a loaded frame correspond exactly to the cels of the frame in the file; each keeps its layer
index and position, and its image is the one stored on the same layer in the frame it links to, or its own. Two cels
of the sprite have the same image index exactly if their images are stored in the same cel, so every image cel has an
image of its own. -/
theorem C32_linked_cels (plat : Plat) (b : Bytes) (f : AsepriteFile) (h : AsepriteFile.load plat b = .ok f) :
    (∀ i l c, celAt f.file i l = some c → ∃ lf fc, f.frames[i]? = some lf ∧ fc ∈ lf.cels ∧ fc.layerIndex = l) ∧
    (∀ (i : Nat) (lf : LFrame) (fc : FrameCel), f.frames[i]? = some lf → fc ∈ lf.cels →
      ∃ c, celAt f.file i fc.layerIndex = some c ∧ fc.origin = (c.x, c.y) ∧
        f.images[fc.imageIndex]? = imageAt f.file (sourceFrame i c) fc.layerIndex ∧
        (∀ im, c.content = .image im → f.images[fc.imageIndex]? = some im) ∧
        ∀ (j : Nat) (lg : LFrame) (fd : FrameCel) (d : CelChunk), f.frames[j]? = some lg → fd ∈ lg.cels →
          celAt f.file j fd.layerIndex = some d →
          (fc.imageIndex = fd.imageIndex ↔ sourceFrame i c = sourceFrame j d ∧ fc.layerIndex = fd.layerIndex)) := by
  obtain ⟨h1, h2⟩ := load_ok.1 h
  have hs := slotsOk_of_parse h1
  have himg := (ofFile_ok h2).2.2.2.1
  constructor
  · intro i l c hc
    obtain ⟨hl, lf, fc, h3, h4, h5⟩ := shown_of_cel hs h2 hc
    exact ⟨lf, fc, h3, h4, by rw [h5.layer, hl]⟩
  · intro i lf fc hi hfc
    obtain ⟨c, hc⟩ := shows_of_mem hs h2 hi hfc
    obtain ⟨im, h3, h4, h5⟩ := hc.image' hs
    refine ⟨c, by rw [hc.layer]; exact hc.at_, hc.origin, by rw [himg, h3, hc.layer, h4], ?_, ?_⟩
    · intro im' him
      rw [himg, h3, ← h4]
      simp [imageAt, sourceFrame, him, hc.at_, ownImage]
    · intro j lg fd d hj hfd hd
      obtain ⟨d', hd'⟩ := shows_of_mem hs h2 hj hfd
      have : d' = d := by
        have := hd'.at_
        rw [← hd'.layer, hd] at this
        exact (Option.some.inj this).symm
      subst this
      rw [hc.same_image hs hd', hc.layer, hd'.layer]

example : (match AsepriteFile.load ⟨true, 10⟩ Sample.twoFrames with
    | .ok f => f.frames.map (·.cels) == [[⟨(0, 0), (2, 1), 1, 0⟩], [⟨(0, 0), (2, 1), 1, 0⟩, ⟨(1, 0), (1, 1), 2, 1⟩]] &&
        f.images.map (·.data) == [[1, 2, 3, 4, 5, 6, 7, 8], [9, 10, 11, 12]]
    | _ => false) = true := by decide +kernel

/-! ## C33 -/

/-- **C33.** `load` succeeds exactly if the file parses and every cel in it shows an image: it stores one, or it links
to a frame of the file that stores one on the same layer. It panics exactly if `parse_file` does, and otherwise returns
an error; an error of `parse_file` is passed on. -/
theorem C33_load_succeeds (plat : Plat) (b : Bytes) :
    ((∃ f, AsepriteFile.load plat b = .ok f) ↔
      ∃ file, parseFile plat b = .ok file ∧ ∀ i l c, celAt file i l = some c → Resolvable file l c) ∧
    (∀ k, AsepriteFile.load plat b = .panic k ↔ parseFile plat b = .panic k) ∧
    (∀ e, AsepriteFile.load plat b = .err (.parse e) ↔ parseFile plat b = .err e) ∧
    (∀ file, parseFile plat b = .ok file → ¬ (∀ i l c, celAt file i l = some c → Resolvable file l c) →
      ∃ e, AsepriteFile.load plat b = .err e) := by
  cases hp : parseFile plat b with
  | err e => simp [AsepriteFile.load, outcome_bind_def, hp, Outcome.mapErr, Outcome.bind]
  | panic k => simp [AsepriteFile.load, outcome_bind_def, hp, Outcome.mapErr, Outcome.bind]
  | ok file =>
    have hs := slotsOk_of_parse hp
    have e : AsepriteFile.load plat b = AsepriteFile.ofFile file := by
      simp [AsepriteFile.load, outcome_bind_def, hp, Outcome.mapErr, Outcome.bind]
    rw [e]
    have hx := ofFile_exists hs
    have hn := ofFile_no_panic hs
    refine ⟨?_, ?_, ?_, ?_⟩
    · rw [hx]
      constructor
      · exact fun h => ⟨file, rfl, h⟩
      · rintro ⟨file', he, h⟩
        cases he
        exact h
    · intro k
      simp only [reduceCtorEq, iff_false]
      exact hn k
    · intro e'
      simp only [reduceCtorEq, iff_false]
      exact ofFile_not_parse hs e'
    · intro file' he hr
      cases he
      cases h : AsepriteFile.ofFile file with
      | ok f => exact absurd (hx.1 ⟨f, h⟩) hr
      | err e' => exact ⟨e', rfl⟩
      | panic k => exact absurd h (hn k)

/-- A dangling link, a link to a link and an unknown cel type are rejected; a link forwards to a later frame works. -/
example :
    let layer := Sample.layer 1 0 0 255 [65]
    let load := fun (frames : Bytes) =>
      match AsepriteFile.load ⟨true, 10⟩ (Sample.header 1 1 32 ++ frames) with
      | .ok f => some f.frames.length
      | .err _ => none
      | .panic _ => some 1000
    load (Sample.frame 1 [layer, Sample.link 0 7]) = none ∧
    load (Sample.frame 1 [layer, Sample.cel 0 0 0 1 1 [1, 2, 3, 4]] ++ Sample.frame 1 [Sample.link 0 0]
      ++ Sample.frame 1 [Sample.link 0 1]) = none ∧
    load (Sample.frame 1 [layer, Sample.chunk 0x2005 ([0, 0, 0, 0, 0, 0, 255, 9, 0] ++ List.replicate 7 0)]) = none ∧
    load (Sample.frame 1 [layer, Sample.link 0 1] ++ Sample.frame 1 [Sample.cel 0 0 0 1 1 [1, 2, 3, 4]]) = some 2 := by
  decide +kernel

/-! ## C27 -/

theorem seq_mem {α : Type} {G : α → Bytes → Prop} {xs : List α} {l : Bytes} (h : Seq G xs l) {x : α} (hx : x ∈ xs) :
    ∃ p, G x p ∧ p <:+: l := by
  induction h with
  | nil => simp at hx
  | cons h1 h2 ih =>
    rcases List.mem_cons.1 hx with rfl | hx
    · exact ⟨_, h1, [], _, rfl⟩
    · obtain ⟨p, h3, h4⟩ := ih hx
      exact ⟨p, h3, h4.trans (List.suffix_append _ _).isInfix⟩

theorem mem_celsOf {c : CelChunk} {cs : List Chunk} (h : c ∈ celsOf cs) :
    ∃ x, Chunk.cel x ∈ cs ∧ x.content = c.content := by
  obtain ⟨⟨ch, us⟩, h1, h2⟩ := List.mem_filterMap.1 h
  have hm : ∀ (cs : List Chunk) ch us, (ch, us) ∈ owned cs → ch ∈ cs := by
    intro cs
    induction cs with
    | nil => intro ch us h; simp [owned] at h
    | cons d ds ih =>
      intro ch us h
      unfold owned at h
      split at h
      · next he => cases he
      · next he => cases he; exact List.mem_cons_of_mem _ (ih _ _ h)
      · next he =>
        cases he
        rcases List.mem_cons.1 h with h | h
        · cases h; exact List.mem_cons_self
        · exact List.mem_cons_of_mem _ (ih _ _ h)
  cases ch with
  | cel x =>
    simp only [Option.some.injEq] at h2
    exact ⟨x, hm _ _ _ h1, by rw [← h2]⟩
  | _ => simp at h2

/-- Every image stored in a cel of a parsed file. -/
theorem imageAt_infix {plat : Plat} {b : Bytes} {file : File} (h : parseFile plat b = .ok file) {i l : Nat} {im : Image}
    (hi : imageAt file i l = some im) : (le16 im.width ++ le16 im.height ++ im.data) <:+: b := by
  simp only [imageAt, Option.bind_eq_some_iff, celAt_eq] at hi
  obtain ⟨c, ⟨fr, h1, h2⟩, h3⟩ := hi
  obtain ⟨raw, hraw, ha⟩ := parseFile_ok.1 h
  obtain ⟨p, hp, _, rfl⟩ := (assembleFile_ok (fresh hraw)).1 ha
  simp only [List.getElem?_map, Option.map_eq_some_iff] at h1
  obtain ⟨rf, h1, rfl⟩ := h1
  simp only [slots, List.getElem?_map, Option.map_eq_some_iff] at h2
  obtain ⟨j, _, h2⟩ := h2
  obtain ⟨x, h4, h5⟩ := mem_celsOf (List.mem_filter.1 (List.mem_of_getLast? h2)).1
  obtain ⟨hd, fs, _, _, hs, hb⟩ := parseRawFile_ok.1 hraw
  obtain ⟨lf, hf, h6⟩ := seq_mem hs (List.mem_of_getElem? h1)
  obtain ⟨_, _, _, chunks, _, _, _, hc, _, hlf⟩ := hf
  obtain ⟨lc, ⟨code, body, _, hcont, hlc⟩, h7⟩ := seq_mem hc h4
  obtain ⟨_, type, future, cb, _, hbody, _, hl⟩ := hcont
  have him : x.content = .image im := by
    rw [h5]
    unfold ownImage at h3
    split at h3
    · next him => rw [him]; cases h3; rfl
    · cases h3
  simp only [him, swapFlips, IsCelBody] at hbody
  have e1 : (le16 im.width ++ le16 im.height ++ im.data) <:+: body := by
    rw [hl, ← hbody.2]
    exact (List.suffix_append _ _).isInfix
  have e2 : body <:+: lc := by
    rw [hlc]
    exact (List.suffix_append _ _).isInfix
  have e3 : chunks <:+: lf := by
    rw [hlf]
    exact ⟨_, _, rfl⟩
  have e4 : fs <:+: b := by
    rw [hb]
    exact (List.suffix_append _ _).isInfix
  exact e1.trans (e2.trans (h7.trans (e3.trans (h6.trans e4))))

/-- **C27.** The data of every image of a loaded sprite is a contiguous piece of the input, found directly behind the
width and height of the image. -/
theorem C27_zero_copy (plat : Plat) (b : Bytes) (f : AsepriteFile) (h : AsepriteFile.load plat b = .ok f) :
    ∀ im ∈ f.images, ∃ pre post, b = pre ++ le16 im.width ++ le16 im.height ++ im.data ++ post := by
  obtain ⟨h1, h2⟩ := load_ok.1 h
  have hs := slotsOk_of_parse h1
  intro im him
  rw [(ofFile_ok h2).2.2.2.1] at him
  obtain ⟨⟨⟨i, l⟩, _⟩, h3, rfl⟩ := List.mem_map.1 him
  obtain ⟨pre, post, h4⟩ := imageAt_infix h1 ((mem_keyed_file hs).1 h3)
  exact ⟨pre, post, by rw [← h4]; simp only [List.append_assoc]⟩

example : (match AsepriteFile.load ⟨true, 10⟩ Sample.twoFrames with
    | .ok f => f.images.length == 2
    | _ => false) = true := by decide +kernel

/-! ## C34, the indices -/

/-- If every layer up to number `l` of a file is a normal layer or a group then the layer with index `l` of the loaded
sprite is the layer with index `l` of the file. -/
theorem layer_of_load {f : AsepriteFile} (h : f.layers = (f.file.layers.filter isDrawn).map asLayer) {l : Nat}
    (hl : ∀ (j : Nat) (x : LayerChunk), j ≤ l → f.file.layers[j]? = some x → isDrawn x = true) :
    f.layers[l]? = (f.file.layers[l]?).map asLayer := by
  rw [h, List.getElem?_map]
  congr 1
  clear h
  generalize f.file.layers = ls at hl
  induction ls generalizing l with
  | nil => rfl
  | cons y ys ih =>
    have hy := hl 0 y (Nat.zero_le _) rfl
    rw [List.filter_cons, if_pos hy]
    cases l with
    | zero => rfl
    | succ l =>
      simp only [List.getElem?_cons_succ]
      exact ih fun j x hj hx => hl (j + 1) x (by omega) (by simpa using hx)

end Ase
