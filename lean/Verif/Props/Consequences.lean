import Verif.Props.Access
import Verif.Props.Alpha

/-!
# C33, C50, C52, C65: consequences

What the earlier theorems mean for a user: which files load, in terms of their chunks; when appended frames are accepted;
when the hash of `combined_frame_image` may be used to recognise equal pictures; and that opaque pictures stay opaque.
-/

namespace Ase

open Spec

/-! ## C33 on chunks -/

/-- The cel of a frame that counts for layer `l`: the last one. -/
def Spec.celOn (raw : RawFile) (i l : Nat) : Option CelChunk :=
  (raw.frames[i]?).bind fun rf => slot (celsOf rf.chunks) l

/-- The cel shows an image: it stores one, or it links to a frame whose cel on that layer stores one. -/
def Spec.ShowsImage (raw : RawFile) (l : Nat) (c : CelChunk) : Prop :=
  (∃ im, c.content = .image im) ∨
    ∃ k c' im, c.content = .linkedCel k ∧ celOn raw k.toNat l = some c' ∧ c'.content = .image im

theorem slot_index {cels : List CelChunk} {l : Nat} {c : CelChunk} (h : slot cels l = some c) :
    c ∈ cels ∧ c.layerIndex.toNat = l := by
  have := List.mem_of_getLast? h
  simpa using this

theorem slots_get {n l : Nat} {cels : List CelChunk} {c : CelChunk} :
    (slots n cels)[l]? = some (some c) ↔ l < n ∧ slot cels l = some c := by
  unfold slots
  by_cases hl : l < n
  · simp [hl]
  · simp [hl]

theorem celAt_raw {plat : Plat} {b : Bytes} {raw : RawFile} (hr : parseRawFile plat b = .ok raw) {file : File}
    (hf : parseFile plat b = .ok file) {i l : Nat} {c : CelChunk} : celAt file i l = some c ↔ celOn raw i l = some c := by
  rw [parseFile_eq hr] at hf
  obtain ⟨p, _, hidx, rfl⟩ := (assembleFile_ok (fresh hr)).1 hf
  rw [celAt_eq, celOn, Option.bind_eq_some_iff]
  constructor
  · rintro ⟨fr, h1, h2⟩
    dsimp only at h1
    rw [List.getElem?_map, Option.map_eq_some_iff] at h1
    obtain ⟨rf, h3, rfl⟩ := h1
    exact ⟨rf, h3, (slots_get.1 h2).2⟩
  · rintro ⟨rf, h1, h2⟩
    refine ⟨⟨rf.duration, slots (allLayers raw.frames).length (celsOf rf.chunks)⟩, ?_, slots_get.2 ⟨?_, h2⟩⟩
    · dsimp only
      rw [List.getElem?_map, h1]
      rfl
    · have h3 := slot_index h2
      rw [← h3.2]
      exact hidx c (List.mem_flatMap.2 ⟨rf, List.mem_of_getElem? h1, h3.1⟩)

theorem resolvable_raw {plat : Plat} {b : Bytes} {raw : RawFile} (hr : parseRawFile plat b = .ok raw) {file : File}
    (hf : parseFile plat b = .ok file) {l : Nat} {c : CelChunk} : Resolvable file l c ↔ ShowsImage raw l c := by
  unfold Resolvable ShowsImage
  cases hc : c.content with
  | image im => simp
  | linkedCel k =>
    simp only [imageAt, CelContent.linkedCel.injEq, reduceCtorEq, exists_false, false_or]
    constructor
    · intro h
      obtain ⟨im, h⟩ := Option.isSome_iff_exists.1 h
      obtain ⟨c', h1, h2⟩ := Option.bind_eq_some_iff.1 h
      unfold ownImage at h2
      split at h2
      · next im' hi => exact ⟨k, c', im', rfl, (celAt_raw hr hf).1 h1, hi⟩
      · cases h2
    · rintro ⟨k', c', im, rfl, h1, h2⟩
      rw [(celAt_raw hr hf).2 h1]
      simp [ownImage, h2]
  | _ => simp

/-- **C33, on chunks.** A well formed file loads exactly if, an indexed one, there is nothing wrong with its palette, the
layer index of each cel chunk is that of a layer, and the cel that counts in each frame and layer shows an image: its
own or that of the frame it links to. -/
theorem C33_chunks (plat : Plat) (b : Bytes) (raw : RawFile) (hr : parseRawFile plat b = .ok raw) :
    (∃ f, AsepriteFile.load plat b = .ok f) ↔
      (raw.header.colorDepth = .indexed → paletteProblem (allChunks raw.frames) = none) ∧
      (∀ c ∈ allCels raw.frames, c.layerIndex.toNat < (allLayers raw.frames).length) ∧
      ∀ (i l : Nat) (c : CelChunk), celOn raw i l = some c → ShowsImage raw l c := by
  have hpal : (∃ p, filePalette raw = .ok p) ↔
      (raw.header.colorDepth = .indexed → paletteProblem (allChunks raw.frames) = none) := by
    rw [filePalette_eq]
    by_cases hd : raw.header.colorDepth = .indexed
    · rw [if_pos hd]
      cases paletteProblem (allChunks raw.frames) <;> simp [hd]
    · rw [if_neg hd]
      simp [hd]
  rw [(C33_load_succeeds plat b).1]
  constructor
  · rintro ⟨file, hf, h⟩
    have hf' := hf
    rw [parseFile_eq hr] at hf'
    obtain ⟨p, hp, hidx, _⟩ := (assembleFile_ok (fresh hr)).1 hf'
    exact ⟨hpal.1 ⟨p, hp⟩, hidx, fun i l c hc => (resolvable_raw hr hf).1 (h i l c ((celAt_raw hr hf).2 hc))⟩
  · rintro ⟨h1, h2, h3⟩
    obtain ⟨p, hp⟩ := hpal.2 h1
    obtain ⟨file, hf⟩ : ∃ file, parseFile plat b = .ok file := by
      rw [parseFile_eq hr]
      exact ⟨_, (assembleFile_ok (fresh hr)).2 ⟨p, hp, h2, rfl⟩⟩
    exact ⟨_, hf, fun i l c hc => (resolvable_raw hr hf).2 (h3 i l c ((celAt_raw hr hf).1 hc))⟩

/-- a file that satisfies the conditions, with a link; and files that violate them -/
example :
    (match AsepriteFile.load ⟨true, 10⟩ Sample.twoFrames with | .ok f => f.frames.length == 2 | _ => false) = true ∧
    (match parseRawFile ⟨true, 10⟩ (Sample.header 1 1 32 ++ Sample.frame 1 [Sample.layer 1 0 0 255 [], Sample.link 0 0]),
        AsepriteFile.load ⟨true, 10⟩
          (Sample.header 1 1 32 ++ Sample.frame 1 [Sample.layer 1 0 0 255 [], Sample.link 0 0]) with
      | .ok _, .err _ => true | _, _ => false) = true ∧
    (match parseRawFile ⟨true, 10⟩ (Sample.header 1 1 8 ++ Sample.frame 1 [Sample.layer 1 0 0 255 []]),
        AsepriteFile.load ⟨true, 10⟩ (Sample.header 1 1 8 ++ Sample.frame 1 [Sample.layer 1 0 0 255 []]) with
      | .ok _, .err _ => true | _, _ => false) = true := by decide +kernel

/-! ## C65: when appended frames are accepted -/

/-- **C65, when.** Appending frames without layer and palette chunks to a file that loads gives a file that loads
exactly if the cels of the new frames lie on layers of the sprite and the cel that counts on each layer shows an image,
its own or that of any frame (old or new) it links to. -/
theorem C65_loads (plat : Plat) (b b' : Bytes) (raw raw' : RawFile) (hr : parseRawFile plat b = .ok raw)
    (hr' : parseRawFile plat b' = .ok raw') (more : List RawFrame) (hm : raw'.frames = raw.frames ++ more)
    (hloc : ∀ fr ∈ more, ∀ c ∈ fr.chunks, isFrameLocal c = true)
    (hd : raw'.header.colorDepth = raw.header.colorDepth) (f : AsepriteFile) (hf : AsepriteFile.load plat b = .ok f) :
    (∃ g, AsepriteFile.load plat b' = .ok g) ↔ ∀ fr ∈ more,
      (∀ c ∈ celsOf fr.chunks, c.layerIndex.toNat < (allLayers raw.frames).length) ∧
      ∀ (l : Nat) (c : CelChunk), slot (celsOf fr.chunks) l = some c → ShowsImage raw' l c := by
  have hlay : allLayers raw'.frames = allLayers raw.frames := by
    rw [hm, allLayers, List.flatMap_append]
    have : (more.flatMap fun f => layersOf f.chunks) = [] := by
      rw [List.flatMap_eq_nil_iff]
      exact fun fr hfr => layersOf_local (hloc fr hfr)
    rw [this, List.append_nil]
    rfl
  have hprob : paletteProblem (allChunks raw'.frames) = paletteProblem (allChunks raw.frames) := by
    have hloc' : ∀ c ∈ allChunks more, isFrameLocal c = true := by
      intro c hc
      obtain ⟨fr, h1, h2⟩ := List.mem_flatMap.1 hc
      exact hloc fr h1 c h2
    have hall : allChunks raw'.frames = allChunks raw.frames ++ allChunks more := by
      rw [hm]
      exact List.flatMap_append
    obtain ⟨q1, q2⟩ := palettes_local (cs := allChunks raw.frames) hloc'
    have q3 : paletteWrites (allChunks raw'.frames) = paletteWrites (allChunks raw.frames) := by
      simp only [paletteWrites, hall, q1, q2]
    simp only [paletteProblem, q3]
    simp only [hall, q1, q2]
  obtain ⟨hp, hi, hs⟩ := (C33_chunks plat b raw hr).1 ⟨f, hf⟩
  have hcel : allCels raw'.frames = allCels raw.frames ++ allCels more := by
    rw [hm]
    exact List.flatMap_append
  have hold : ∀ i l c, celOn raw i l = some c → celOn raw' i l = some c := by
    intro i l c h
    obtain ⟨rf, h1, h2⟩ := Option.bind_eq_some_iff.1 h
    refine Option.bind_eq_some_iff.2 ⟨rf, ?_, h2⟩
    rw [hm, List.getElem?_append_left (List.getElem?_eq_some_iff.1 h1).1, h1]
  rw [C33_chunks plat b' raw' hr']
  constructor
  · rintro ⟨_, h2, h3⟩ fr hfr
    constructor
    · intro c hc
      rw [← hlay]
      refine h2 c ?_
      rw [hcel]
      exact List.mem_append_right _ (List.mem_flatMap.2 ⟨fr, hfr, hc⟩)
    · intro l c hc
      obtain ⟨k, hk⟩ := List.mem_iff_getElem?.1 hfr
      refine h3 (raw.frames.length + k) l c (Option.bind_eq_some_iff.2 ⟨fr, ?_, hc⟩)
      rw [hm, List.getElem?_append_right (by omega), Nat.add_sub_cancel_left, hk]
  · intro h
    refine ⟨fun hx => ?_, ?_, ?_⟩
    · rw [hprob]
      exact hp (hd ▸ hx)
    · intro c hc
      rw [hlay]
      rw [hcel] at hc
      rcases List.mem_append.1 hc with hc | hc
      · exact hi c hc
      · obtain ⟨fr, h1, h2⟩ := List.mem_flatMap.1 hc
        exact (h fr h1).1 c h2
    · intro i l c hc
      by_cases hlt : i < raw.frames.length
      · have : celOn raw i l = some c := by
          obtain ⟨rf, h1, h2⟩ := Option.bind_eq_some_iff.1 hc
          rw [hm, List.getElem?_append_left hlt] at h1
          exact Option.bind_eq_some_iff.2 ⟨rf, h1, h2⟩
        rcases hs i l c this with h1 | ⟨k, c', im, h1, h2, h3⟩
        · exact .inl h1
        · exact .inr ⟨k, c', im, h1, hold _ _ _ h2, h3⟩
      · obtain ⟨rf, h1, h2⟩ := Option.bind_eq_some_iff.1 hc
        rw [hm, List.getElem?_append_right (by omega)] at h1
        exact (h rf (List.mem_of_getElem? h1)).2 l c h2

/-- A third frame that links to the first one is accepted, one that links to itself is not; both parse and have no layer
or palette chunks. -/
example :
    (match parseRawFile ⟨true, 10⟩ Sample.twoFrames, parseRawFile ⟨true, 10⟩ (Sample.twoFrames ++ Sample.frame 7 [Sample.link 1 0]),
        AsepriteFile.load ⟨true, 10⟩ (Sample.twoFrames ++ Sample.frame 7 [Sample.link 1 0]) with
      | .ok raw, .ok raw', .ok g => raw.frames.length == 2 && raw'.frames.length == 3 && g.frames.length == 3 &&
          (raw'.frames.drop 2).all fun fr => fr.chunks.all isFrameLocal
      | _, _, _ => false) = true ∧
    (match parseRawFile ⟨true, 10⟩ (Sample.twoFrames ++ Sample.frame 7 [Sample.link 1 2]),
        AsepriteFile.load ⟨true, 10⟩ (Sample.twoFrames ++ Sample.frame 7 [Sample.link 1 2]) with
      | .ok raw', .err _ => raw'.frames.length == 3 && (raw'.frames.drop 2).all fun fr => fr.chunks.all isFrameLocal
      | _, _ => false) = true := by decide +kernel

/-! ## C52: recognising equal pictures by their hash -/

/-- **C52, recognising equal pictures.** Two frames of a sprite with equal lists of (image, layer, origin, size) are
rendered alike: starting with the same buffer, `combined_frame_image` leaves the same buffer (and gives the same hash).
So if the hash function does not map the different lists of this sprite to one value, frames with equal hashes have equal
pictures, for every decompressor and buffer. -/
theorem C52_same_hash (plat : Plat) (inflate : Inflater) (hash : List HashInput → UInt64) (f : AsepriteFile) (i j : Nat)
    (lf lg : LFrame) (hi : f.frames[i]? = some lf) (hj : f.frames[j]? = some lg) :
    let input := fun (l : LFrame) => l.cels.map fun c => ((c.imageIndex, c.layerIndex, c.origin, c.size) : HashInput)
    (input lf = input lg → ∀ t, f.combinedFrameImage plat inflate hash i t = f.combinedFrameImage plat inflate hash j t) ∧
    ((hash (input lf) = hash (input lg) → input lf = input lg) →
      ∀ (t t1 t2 : Bytes) (v : UInt64), f.combinedFrameImage plat inflate hash i t = (.ok v, t1) →
        f.combinedFrameImage plat inflate hash j t = (.ok v, t2) → t1 = t2) := by
  intro input
  have key : input lf = input lg → ∀ t, f.combinedFrameImage plat inflate hash i t =
      f.combinedFrameImage plat inflate hash j t := by
    intro h t
    have hfacts : lf.cels.map (celFacts f) = lg.cels.map (celFacts f) := by
      have e : ∀ l : LFrame, l.cels.map (celFacts f) =
          (input l).map fun h => (h.2.2.1, h.2.2.2, h.2.1, f.images[h.1]?) := by
        intro l
        simp only [input, List.map_map]
        rfl
      rw [e, e, h]
    have hr := C64_local f f ⟨rfl, rfl, fun _ => rfl, rfl⟩ i j lf lg hi hj hfacts plat inflate .visible t
    unfold AsepriteFile.combinedFrameImage
    rw [buf_bind, buf_bind, hr, hi, hj]
    rcases f.renderFrame plat inflate j .visible t with ⟨_ | _ | _, t'⟩
    · exact congrArg (fun l => ((.ok (hash l), t') : Outcome LoadImageError UInt64 × Bytes)) h
    · rfl
    · rfl
  refine ⟨key, fun hh t t1 t2 v h1 h2 => ?_⟩
  have e1 := ((C52_combined plat inflate hash f i t).2.2.2.1 v).1 (by rw [h1])
  have e2 := ((C52_combined plat inflate hash f j t).2.2.2.1 v).1 (by rw [h2])
  obtain ⟨-, l1, g1, w1⟩ := e1
  obtain ⟨-, l2, g2, w2⟩ := e2
  rw [hi] at g1; cases g1
  rw [hj] at g2; cases g2
  have := key (hh (w1.symm.trans w2)) t
  rw [h1, h2] at this
  exact (Prod.mk.inj this).2

/-- The frames 0 and 2 of this sprite have equal lists (frame 2 links to frame 0), the frames 0 and 1 have not, although
the same pixels are stored in both: equal pictures may have different hashes. -/
example : (match AsepriteFile.load ⟨true, 10⟩ (Sample.header 1 1 32 ++
      Sample.frame 1 [Sample.layer 1 0 0 255 [], Sample.cel 0 0 0 1 1 [1, 2, 3, 255]] ++
      Sample.frame 1 [Sample.cel 0 0 0 1 1 [1, 2, 3, 255]] ++ Sample.frame 1 [Sample.link 0 0]) with
    | .ok f =>
      let input := fun (l : LFrame) => l.cels.map fun c => ((c.imageIndex, c.layerIndex, c.origin, c.size) : HashInput)
      let render := fun i => (f.combinedFrameImage ⟨true, 10⟩ (fun _ _ => (.error, [])) (fun _ => 0) i [0, 0, 0, 0]).2
      f.frames.length == 3 && f.frames[0]?.map input == f.frames[2]?.map input &&
        !(f.frames[0]?.map input == f.frames[1]?.map input) && render 0 == [1, 2, 3, 255] && render 1 == [1, 2, 3, 255]
    | _ => false) = true := by decide +kernel

/-! ## C50: opaque pictures -/

/-- **C50, opaque backdrops.** In a release build an HSL mode never panics and leaves an opaque backdrop opaque, whatever
the source and the opacity.  Missing: debug builds (see `C50_debug_panics`). -/
theorem C50_keeps_opaque_partial (m : BlendMode) (hm : isHsl m) (back front : Color) (o : UInt8) (plat : Plat)
    (hp : plat.debug = false) :
    ∃ c, blend plat m back front o = .ok c ∧ back.a ≤ c.a ∧ (back.a = 255 → c.a = 255) := by
  obtain ⟨c, hc, -⟩ := C50_release_partial m hm back front o plat hp
  have h := C66_blend plat m back front c o hc
  refine ⟨c, hc, h, fun hb => ?_⟩
  rw [hb] at h
  have h1 := UInt8.le_iff_toNat_le.1 h
  have h2 := c.a.toNat_lt
  apply UInt8.toNat_inj.1
  have h3 : (255 : UInt8).toNat = 255 := rfl
  omega

example : isHsl .hue ∧ blend ⟨false, 0⟩ .hue ⟨1, 2, 3, 255⟩ ⟨100, 20, 30, 77⟩ 130 = .ok ⟨91, 16, 4, 255⟩ := by decide +kernel

end Ase
