import Verif.Spec.Film
import Verif.Props.Reference
import Verif.Props.Strokes
import Verif.Lemmas.Algebra

/-!
# C90: every sequence of pictures can be stored
-/

namespace Ase

open Spec

section
variable {store : Store} {w h : UInt16} {pics : List (UInt16 × Bytes)}

theorem film_length : (film store w h pics).frames.length = pics.length := by
  cases pics <;> simp [film, filmFrames]

theorem film_durations : (film store w h pics).frames.map (·.duration) = pics.map (·.1) := by
  cases pics <;> simp [film, filmFrames, Function.comp_def]

/-- Every frame stores its picture; the layer is in the first one. -/
theorem film_frame (i : Nat) (p : UInt16 × Bytes) (hp : pics[i]? = some p) :
    (film store w h pics).frames[i]? =
      some ⟨p.1, (if i = 0 then [.layer filmLayer] else []) ++ [.cel (filmCel store w h p.2)]⟩ := by
  cases pics with
  | nil => simp at hp
  | cons q qs =>
    cases i with
    | zero => simp at hp; subst hp; rfl
    | succ i =>
      simp only [List.getElem?_cons_succ] at hp
      simp [film, filmFrames, hp]

theorem film_mem {fr : RawFrame} (hfr : fr ∈ (film store w h pics).frames) :
    ∃ p ∈ pics, fr = ⟨p.1, [.layer filmLayer, .cel (filmCel store w h p.2)]⟩ ∨
      fr = ⟨p.1, [.cel (filmCel store w h p.2)]⟩ := by
  cases pics with
  | nil => simp [film, filmFrames] at hfr
  | cons q qs =>
    simp only [film, filmFrames, List.mem_cons, List.mem_map] at hfr
    rcases hfr with rfl | ⟨p, hp, rfl⟩
    · exact ⟨q, by simp, Or.inl rfl⟩
    · exact ⟨p, by simp [hp], Or.inr rfl⟩

theorem film_layers (hne : pics ≠ []) : Doc.layers (film store w h pics) = [filmLayer] := by
  cases pics with
  | nil => exact absurd rfl hne
  | cons q qs =>
    unfold Doc.layers allChunks
    simp only [film, filmFrames, List.flatMap_cons, List.filterMap_cons, List.cons_append, List.nil_append, List.cons.injEq, true_and]
    rw [List.filterMap_eq_nil_iff]
    intro c hc
    simp only [List.mem_flatMap, List.mem_map] at hc
    obtain ⟨fr, ⟨p, -, rfl⟩, hc⟩ := hc
    simp only [List.mem_singleton] at hc
    subst hc
    rfl

theorem film_celOf (i l : Nat) : Doc.celOf (film store w h pics) i l =
    if l = 0 then (pics[i]?).map fun p => filmCel store w h p.2 else none := by
  unfold Doc.celOf
  cases hp : pics[i]? with
  | none =>
    rw [List.getElem?_eq_none (by rw [film_length]; exact List.getElem?_eq_none_iff.1 hp)]
    split <;> rfl
  | some p =>
    rw [film_frame i p hp]
    have : ∀ (fr : RawFrame), fr.chunks = (if i = 0 then [.layer filmLayer] else []) ++ [.cel (filmCel store w h p.2)] →
        Doc.cels fr = [filmCel store w h p.2] := by
      intro fr hfr
      unfold Doc.cels
      rw [hfr]
      split <;> rfl
    rw [Option.bind_some, this _ rfl]
    unfold slot
    by_cases hl : l = 0
    · subst hl
      rfl
    · rw [if_neg hl]
      rw [List.filter_eq_nil_iff.2]
      · rfl
      · intro c hc
        rw [List.mem_singleton] at hc
        subst hc
        simp only [decide_eq_true_eq]
        exact fun h0 => hl h0.symm

/-- The image of a picture. -/
def filmImage (store : Store) (w h : UInt16) (pixels : Bytes) : Image := ⟨w, h, (store.getD id) pixels, store.isSome⟩

theorem film_items (i : Nat) (p : UInt16 × Bytes) (hp : pics[i]? = some p) :
    Doc.items (film store w h pics) i = [⟨filmLayer, 0, filmCel store w h p.2, filmImage store w h p.2⟩] := by
  have hne : pics ≠ [] := by rintro rfl; simp at hp
  unfold Doc.items
  rw [film_layers hne]
  simp only [List.zipIdx_cons, List.zipIdx_nil, List.filterMap_cons, List.filterMap_nil]
  unfold Doc.item
  rw [film_layers hne, if_pos (by decide), film_celOf, if_pos rfl, hp]
  rfl

theorem film_encodable (hne : pics ≠ [])
    (hsize : ∀ p ∈ pics, ((store.getD id) p.2).length + 200 < 2 ^ 32) : Doc.Encodable (film store w h pics) := by
  have hlayer : (chunkBytes (.layer filmLayer)).length = 28 := by decide +kernel
  have hcel : ∀ d, (chunkBytes (.cel (filmCel store w h d))).length = 26 + ((store.getD id) d).length := by
    intro d
    simp [chunkBytes, contentBytes, celBytes, celContentBytes, filmCel, leNat32, le16, leBytes, les16, zeros]
    omega
  have fl : FitsChunk (.layer filmLayer) :=
    ⟨⟨by decide, trivial, trivial, by decide +kernel, by decide, rfl⟩, by rw [hlayer]; decide⟩
  have fc : ∀ p ∈ pics, FitsChunk (.cel (filmCel store w h p.2)) := by
    intro p hp
    refine ⟨⟨by simp [filmCel], rfl⟩, ?_⟩
    have := hsize p hp
    rw [hcel]
    omega
  refine ⟨⟨trivial, ?_, ?_⟩, ?_, ?_⟩
  · intro h0
    have h1 := film_length (store := store) (w := w) (h := h) (pics := pics)
    rw [h0] at h1
    exact hne (List.length_eq_zero_iff.1 h1.symm)
  · intro fr hfr
    obtain ⟨p, hp, rfl | rfl⟩ := film_mem hfr
    · refine ⟨?_, ?_⟩
      · intro c hc
        simp only [List.mem_cons, List.not_mem_nil, or_false] at hc
        rcases hc with rfl | rfl
        · exact fl
        · exact fc p hp
      · have := hsize p hp
        simp [frameBytes, leNat32, leNat16, le16, leBytes, zeros, hlayer, hcel]
        omega
    · refine ⟨?_, ?_⟩
      · intro c hc
        simp only [List.mem_cons, List.not_mem_nil, or_false] at hc
        subst hc
        exact fc p hp
      · have := hsize p hp
        simp [frameBytes, leNat32, leNat16, le16, leBytes, zeros, hcel]
        omega
  · intro fr hfr c hc
    obtain ⟨p, hp, rfl | rfl⟩ := film_mem hfr <;> simp only [List.mem_cons, List.not_mem_nil, or_false] at hc
    · rcases hc with rfl | rfl <;> trivial
    · subst hc; trivial
  · intro fr hfr c hc
    obtain ⟨p, hp, rfl | rfl⟩ := film_mem hfr <;> simp only [List.mem_cons, List.not_mem_nil, or_false] at hc
    · rcases hc with rfl | rfl <;> simp [NoFlips, filmCel]
    · subst hc; simp [NoFlips, filmCel]

theorem film_stack (plat : Plat) : ∀ fr ∈ (film store w h pics).frames, ∀ c ∈ fr.chunks, StackFor plat c := by
  intro fr hfr c hc
  obtain ⟨p, hp, rfl | rfl⟩ := film_mem hfr <;> simp only [List.mem_cons, List.not_mem_nil, or_false] at hc
  · rcases hc with rfl | rfl <;> trivial
  · subst hc; trivial

theorem film_consistent (hne : pics ≠ []) : Doc.Consistent (film store w h pics) := by
  refine ⟨by simp [film, filmHeader], by simp [film, filmHeader], ?_, ?_⟩
  · intro fr hfr c hc
    rw [film_layers hne]
    obtain ⟨p, hp, rfl | rfl⟩ := film_mem hfr
    · have : c = filmCel store w h p.2 := by simpa [Doc.cels] using hc
      subst this
      exact Nat.zero_lt_one
    · have : c = filmCel store w h p.2 := by simpa [Doc.cels] using hc
      subst this
      exact Nat.zero_lt_one
  · intro i l c hc
    rw [film_celOf] at hc
    split at hc
    · cases hp : pics[i]? with
      | none => rw [hp] at hc; cases hc
      | some p => rw [hp] at hc; cases hc; rfl
    · cases hc

theorem film_plain (inflate : Inflater) (i : Nat) (p : UInt16 × Bytes) (hp : pics[i]? = some p) :
    Doc.Plain inflate (film store w h pics) i := by
  have hne : pics ≠ [] := by rintro rfl; simp at hp
  have hit := film_items (store := store) (w := w) (h := h) i p hp
  have hl := film_layers (store := store) (w := w) (h := h) hne
  refine ⟨(by decide : (1 : UInt32) &&& 2 = 0), ?_, ?_, ?_, ?_, ?_⟩
  · rw [hl]; simp [filmLayer]
  · rw [hit]; simp
  · rw [hit]
    simp [filmCel, film, filmHeader]
  · rw [hl]
    intro q hq
    simp only [List.zipIdx_cons, List.zipIdx_nil, List.mem_singleton] at hq
    subst hq
    intro _ _ _
    decide
  · intro hd; cases hd

end

/-- Normal blending with full opacity replaces transparent pixels, and opaque ones replace any. -/
theorem normal_onto {plat : Plat} {back front : Color} (h : back.a = 0 ∨ front.a = 255) :
    blend plat .normal back front 255 = .ok front := by
  obtain ⟨c, h5, h6, -, h7, -⟩ := C46_normal plat back front 255
  rw [h5]
  rcases h with h0 | h0
  · obtain ⟨hr, hg, hb, ha⟩ := h7 h0
    rw [show (255 : UInt8).toNat = 255 from rfl, times_comm, times_full_left] at ha
    cases c; cases front
    simp only at hr hg hb ha
    rw [hr, hg, hb, UInt8.toNat_inj.1 ha]
  · rw [h6 h0 rfl]

/-- **C90.** Every sequence of pictures can be stored in a file that the crate shows as given: the file of
`film` loads on every platform, has the given canvas size and durations, and rendering frame `i` into a buffer puts
picture `i` there, unchanged, on every canvas pixel that was transparent or that the picture covers with an opaque one;
everything behind the canvas is kept.  The pixels may be stored as they are, or by any compressor that the
decompressor understands. -/
theorem C90_film (plat : Plat) (store : Store) (w h : UInt16) (pics : List (UInt16 × Bytes)) (hne : pics ≠ [])
    (hlen : ∀ p ∈ pics, p.2.length = w.toNat * h.toNat * 4)
    (hsize : ∀ p ∈ pics, ((store.getD id) p.2).length + 200 < 2 ^ 32) :
    ∃ f, AsepriteFile.load plat (fileBytes (film store w h pics)) = .ok f ∧ f.size = (w, h) ∧
      f.frames.map (·.duration) = pics.map (·.1) ∧
      ∀ (inflate : Inflater) (i : Nat) (p : UInt16 × Bytes), pics[i]? = some p →
        (∀ deflate, store = some deflate → inflate (deflate p.2) (w.toNat * h.toNat * 4) = (.streamEnd, p.2)) →
        ∀ t : Bytes, w.toNat * h.toNat * 4 ≤ t.length →
          (∀ (q : Nat) back front, q < w.toNat * h.toNat → pixel t q = some back → pixel p.2 q = some front →
            back.a = 0 ∨ front.a = 255) →
          f.renderFrame plat inflate i .visible t = (.ok (), p.2 ++ t.drop (w.toNat * h.toNat * 4)) := by
  obtain ⟨f, hf, hs, hd, hr⟩ := C59_end_to_end_partial plat (film store w h pics) (film_encodable hne hsize)
    (film_consistent hne) (film_stack plat) (fun _ _ => (.streamEnd, []))
  refine ⟨f, hf, hs, by rw [hd, film_durations], ?_⟩
  intro inflate i p hp hstore t ht hcover
  obtain ⟨f', hf', -, -, hr⟩ := C59_end_to_end_partial plat (film store w h pics) (film_encodable hne hsize)
    (film_consistent hne) (film_stack plat) inflate
  rw [hf] at hf'
  cases hf'
  have hi : i < (film store w h pics).frames.length := by
    rw [film_length]; exact (List.getElem?_eq_some_iff.1 hp).1
  have hpl := hlen p (List.mem_of_getElem? hp)
  obtain ⟨t', hok, hl', hpix⟩ := hr i hi (film_plain inflate i p hp) (by
    rw [film_items i p hp]
    intro it hit
    rw [List.mem_singleton] at hit
    subst hit
    refine ⟨?_, Or.inl rfl⟩
    show if store.isSome then _ else _
    cases store with
    | none => exact hpl
    | some d =>
      show (inflate (d p.2) _).1 = _
      rw [show pixelCount _ * bytesPerPixel _ = w.toNat * h.toNat * 4 from rfl, hstore d rfl]) t ht
  rw [hok]
  have hdrop := (C36_buffer plat _ f hf inflate i .visible t).2.2.2
  rw [hok, hs] at hdrop
  change t'.drop (w.toNat * h.toNat * 4) = t.drop (w.toNat * h.toNat * 4) at hdrop
  have hbytes : Doc.bytes inflate (film store w h pics) (filmImage store w h p.2) =
      p.2 ++ List.replicate (w.toNat * h.toNat * 4) 0 := by
    unfold Doc.bytes
    cases store with
    | none => rfl
    | some d =>
      show (inflate (d p.2) _).2 ++ _ = _
      rw [show pixelCount _ * bytesPerPixel _ = w.toNat * h.toNat * 4 from rfl, hstore d rfl]
  have htake : t'.take (w.toNat * h.toNat * 4) = p.2 := by
    rw [show p.2 = p.2.take (w.toNat * h.toNat * 4) by rw [← hpl, List.take_length]]
    refine take_of_pixels (by omega) (by omega) ?_
    intro q hq
    have hw : 0 < w.toNat := Nat.pos_of_ne_zero (by intro h0; rw [h0, Nat.zero_mul] at hq; omega)
    have hx : q % w.toNat < w.toNat := Nat.mod_lt _ hw
    have hy : q / w.toNat < h.toNat := Nat.div_lt_of_lt_mul hq
    obtain ⟨before, after, h1, h2, h3⟩ := hpix (q % w.toNat) (q / w.toNat) hx hy
    have e : q / w.toNat * w.toNat + q % w.toNat = q := by rw [Nat.mul_comm]; exact Nat.div_add_mod q w.toNat
    change pixel t (q / w.toNat * w.toNat + q % w.toNat) = some before at h1
    change pixel t' (q / w.toNat * w.toNat + q % w.toNat) = some after at h2
    rw [e] at h1 h2
    obtain ⟨front, h4⟩ := Option.isSome_iff_exists.1 (pixel_isSome (a := p.2) (p := q) (by omega))
    rw [h2, h4]
    unfold Doc.picture Doc.stack at h3
    rw [film_items i p hp] at h3
    simp only [List.foldr, Doc.insert, Doc.draw] at h3
    have hplace : Doc.place ⟨filmLayer, 0, filmCel store w h p.2, filmImage store w h p.2⟩ (q % w.toNat) (q / w.toNat) =
        some q := by
      unfold Doc.place
      have z : ((0 : Int16).toInt) = 0 := rfl
      simp only [filmCel, filmImage, z, Int.sub_zero]
      rw [if_pos ⟨Int.natCast_nonneg _, Int.ofNat_lt.2 hx, Int.natCast_nonneg _, Int.ofNat_lt.2 hy⟩]
      simp only [Int.toNat_natCast, e]
    have hcolor : Doc.color inflate (film store w h pics) ⟨filmLayer, 0, filmCel store w h p.2, filmImage store w h p.2⟩ q =
        pixel p.2 q := by
      unfold Doc.color
      rw [hbytes]
      show pixel (p.2 ++ _) q = _
      rw [pixel_append_left (by omega)]
    have hop : Doc.opacity (film store w h pics) ⟨filmLayer, 0, filmCel store w h p.2, filmImage store w h p.2⟩ = 255 := by
      show UInt8.ofNat (times (if (1 : UInt32) &&& 1 = 1 then (255 : UInt8) else 255).toNat (255 : UInt8).toNat) = 255
      decide +kernel
    rw [hplace, Option.bind_some, hcolor, h4, hop] at h3
    have h5 := normal_onto (plat := plat) (hcover q before front hq h1 h4)
    change ((blend plat .normal before front 255).bind _) = _ at h3
    rw [h5] at h3
    exact congrArg some (Outcome.ok.inj h3).symm
  rw [← htake, ← hdrop, List.take_append_drop]

/-- A canvas of zeros shows the stored pictures exactly. -/
theorem C90_from_scratch (plat : Plat) (store : Store) (w h : UInt16) (pics : List (UInt16 × Bytes)) (hne : pics ≠ [])
    (hlen : ∀ p ∈ pics, p.2.length = w.toNat * h.toNat * 4)
    (hsize : ∀ p ∈ pics, ((store.getD id) p.2).length + 200 < 2 ^ 32) (inflate : Inflater)
    (hstore : ∀ deflate, store = some deflate → ∀ p ∈ pics,
      inflate (deflate p.2) (w.toNat * h.toNat * 4) = (.streamEnd, p.2)) :
    ∃ f, AsepriteFile.load plat (fileBytes (film store w h pics)) = .ok f ∧ f.size = (w, h) ∧
      f.frames.map (·.duration) = pics.map (·.1) ∧
      ∀ (i : Nat) (p : UInt16 × Bytes), pics[i]? = some p →
        f.renderFrame plat inflate i .visible (List.replicate (w.toNat * h.toNat * 4) 0) = (.ok (), p.2) := by
  obtain ⟨f, h1, h2, h3, h4⟩ := C90_film plat store w h pics hne hlen hsize
  refine ⟨f, h1, h2, h3, ?_⟩
  intro i p hp
  rw [h4 inflate i p hp (fun d hd => hstore d hd p (List.mem_of_getElem? hp)) _ (by rw [List.length_replicate]) (by
    intro q back front hq hb _
    left
    rw [pixel, List.drop_replicate, show w.toNat * h.toNat * 4 - 4 * q = w.toNat * h.toNat * 4 - 4 * q - 4 + 4 by omega] at hb
    simp only [List.replicate_succ] at hb
    cases hb
    rfl)]
  simp

theorem frames_ne_nil {plat : Plat} {b : Bytes} {f : AsepriteFile} (h : AsepriteFile.load plat b = .ok f) : f.frames ≠ [] := by
  obtain ⟨h1, h2⟩ := load_ok.1 h
  obtain ⟨raw, hraw, -⟩ := parseFile_ok.1 h1
  obtain ⟨-, -, -, hne, -, -⟩ := parseRawFile_ok.1 hraw
  intro h0
  have hl := (frames_of_load h2).1
  rw [(parsed_of_parse hraw h1).frames, List.length_map, h0] at hl
  exact hne (List.length_eq_zero_iff.1 hl.symm)

/-- **C90 (flattening).** Any sprite can be replaced by one without layers: if the frames of a loaded sprite are rendered
with any selection of layers on a cleared canvas, and the pictures are stored as a film with the same durations, then
that film loads, has the same size and durations, and shows the same pictures. -/
theorem C90_flatten (plat : Plat) (b : Bytes) (f : AsepriteFile) (h : AsepriteFile.load plat b = .ok f)
    (inflate : Inflater) (sel : LayerSelection) (pics : List (UInt16 × Bytes))
    (hd : pics.map (·.1) = f.frames.map (·.duration))
    (hpics : ∀ (i : Nat) (p : UInt16 × Bytes), pics[i]? = some p →
      f.renderFrame plat inflate i sel (List.replicate (f.size.1.toNat * f.size.2.toNat * 4) 0) = (.ok (), p.2))
    (hsize : f.size.1.toNat * f.size.2.toNat * 4 + 200 < 2 ^ 32) :
    ∃ g, AsepriteFile.load plat (fileBytes (film none f.size.1 f.size.2 pics)) = .ok g ∧ g.size = f.size ∧
      g.frames.map (·.duration) = f.frames.map (·.duration) ∧
      ∀ i, i < f.frames.length →
        g.renderFrame plat inflate i .visible (List.replicate (f.size.1.toNat * f.size.2.toNat * 4) 0) =
          f.renderFrame plat inflate i sel (List.replicate (f.size.1.toNat * f.size.2.toNat * 4) 0) := by
  have hlen : ∀ p ∈ pics, p.2.length = f.size.1.toNat * f.size.2.toNat * 4 := by
    intro p hp
    obtain ⟨i, hi⟩ := List.getElem?_of_mem hp
    have h1 := (C36_buffer plat b f h inflate i sel (List.replicate (f.size.1.toNat * f.size.2.toNat * 4) 0)).2.2.1
    rw [hpics i p hi] at h1
    simpa using h1
  have hcount : pics.length = f.frames.length := by simpa using congrArg List.length hd
  have hne : pics ≠ [] := by
    rintro rfl
    exact frames_ne_nil h (List.length_eq_zero_iff.1 hcount.symm)
  obtain ⟨g, h1, h2, h3, h4⟩ := C90_from_scratch plat none f.size.1 f.size.2 pics hne hlen
    (fun p hp => by have := hlen p hp; show p.2.length + 200 < _; omega) inflate (fun _ h0 => nomatch h0)
  refine ⟨g, h1, h2, by rw [h3, hd], ?_⟩
  intro i hi
  have hp : pics[i]? = some (pics[i]'(by omega)) := List.getElem?_eq_getElem (by omega)
  rw [h4 i _ hp, hpics i _ hp]

/-- Two pictures of 2×1 pixels: opaque red and half transparent green; transparent white and nearly transparent blue. -/
def Sample.pictures : List (UInt16 × Bytes) :=
  [(100, [255, 0, 0, 255, 0, 255, 0, 128]), (50, [255, 255, 255, 0, 0, 0, 255, 1])]

/-- The hypotheses of `C90_film` and `C90_from_scratch` hold of them, stored as they are or with an empty block in front
(which a suitable decompressor skips). -/
example : Sample.pictures ≠ [] ∧ (∀ p ∈ Sample.pictures, p.2.length = (2 : UInt16).toNat * (1 : UInt16).toNat * 4) ∧
    (∀ p ∈ Sample.pictures, p.2.length + 200 < 2 ^ 32) ∧
    let inflate : Inflater := fun b n => if (b.drop 1).length = n then (.streamEnd, b.drop 1) else (.error, [])
    ∀ p ∈ Sample.pictures, inflate (0 :: p.2) ((2 : UInt16).toNat * (1 : UInt16).toNat * 4) = (.streamEnd, p.2) := by
  decide +kernel

/-- The two frames of the sample sprite of C59, and those of the film made from them. -/
def Sample.filmed : Option (Nat × (Bytes × Bytes) × (Bytes × Bytes)) :=
  match AsepriteFile.load ⟨true, 60⟩ (fileBytes Sample.scene) with
  | .ok f =>
    let render : AsepriteFile → Nat → Bytes := fun f i =>
      match f.renderFrame ⟨true, 60⟩ Sample.inflate i .visible (List.replicate 8 0) with
      | (.ok _, t) => t
      | _ => []
    let pics := f.frames.zipIdx.map fun p => (p.1.duration, render f p.2)
    match AsepriteFile.load ⟨true, 60⟩ (fileBytes (film none f.size.1 f.size.2 pics)) with
    | .ok g => some (f.frames.length, (render f 0, render f 1), (render g 0, render g 1))
    | _ => none
  | _ => none

/-- The hypotheses of `C90_flatten` are met by it. -/
example : Sample.filmed = some (2, ([79, 21, 6, 255, 1, 2, 3, 3], [0, 0, 0, 0, 200, 100, 50, 200]),
    ([79, 21, 6, 255, 1, 2, 3, 3], [0, 0, 0, 0, 200, 100, 50, 200])) := by decide +kernel

end Ase
