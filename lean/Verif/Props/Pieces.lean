import Verif.Spec.Pieces
import Verif.Lemmas.UserDataChunk
import Verif.Props.Load
import Verif.Props.Sizes

/-!
# C27: every text and every byte slice is a piece of the input

And C28: all of them together are no longer than the input.
-/

namespace Ase

open Spec

theorem infix_left {x a b : Bytes} (h : x <:+: a) : x <:+: a ++ b := h.trans (List.prefix_append _ _).isInfix

theorem infix_right {x a b : Bytes} (h : x <:+: b) : x <:+: a ++ b := h.trans (List.suffix_append _ _).isInfix

theorem mem_valuesTexts {s : String} {vs : List Value} : s ∈ valuesTexts vs ↔ ∃ v ∈ vs, s ∈ valueTexts v := by
  induction vs with
  | nil => simp [valuesTexts]
  | cons v vs ih => simp [valuesTexts, ih]

theorem mem_vectorsTexts {s : String} {vs : List PVector} : s ∈ vectorsTexts vs ↔ ∃ v ∈ vs, s ∈ vectorTexts v := by
  induction vs with
  | nil => simp [vectorsTexts]
  | cons v vs ih => simp [vectorsTexts, ih]

theorem mem_mapsTexts {s : String} {vs : List PropertiesMap} : s ∈ mapsTexts vs ↔ ∃ v ∈ vs, s ∈ mapTexts v := by
  induction vs with
  | nil => simp [mapsTexts]
  | cons v vs ih => simp [mapsTexts, ih]

theorem mem_propertiesTexts {s : String} {vs : List Property} :
    s ∈ propertiesTexts vs ↔ ∃ v ∈ vs, s ∈ propertyTexts v := by
  induction vs with
  | nil => simp [propertiesTexts]
  | cons v vs ih => simp [propertiesTexts, ih]

theorem elems_texts {α : Type} {code : UInt16} {G : α → Bytes → Prop} {T : α → List String} {xs : List α} {l : Bytes}
    (h : Elems code G xs l) (hg : ∀ x l, G x l → ∀ s ∈ T x, str s <:+: l) {s : String} {x : α} (hx : x ∈ xs)
    (hs : s ∈ T x) : str s <:+: l := by
  obtain ⟨e, _, h, rfl⟩ := h
  obtain ⟨p, h1, h2⟩ := seq_mem h hx
  exact infix_right ((hg x p h1 s hs).trans h2)

/-- The texts in properties are stored in them. -/
theorem trees_texts (k : Bool) (d : Nat) :
    (∀ v l, IsValue k d v l → ∀ s ∈ valueTexts v, str s <:+: l) ∧
    (∀ v l, IsVector k d v l → ∀ s ∈ vectorTexts v, str s <:+: l) ∧
    (∀ t m l, IsMap k t d m l → ∀ s ∈ mapTexts m, str s <:+: l) ∧
    (∀ p l, IsProperty k d p l → ∀ s ∈ propertyTexts p, str s <:+: l) := by
  induction d with
  | zero =>
    refine ⟨?_, ?_, ?_, ?_⟩
    · intro v l h; rw [IsValue] at h; cases h
    · intro v l h; rw [IsVector] at h; cases h
    · intro t v l h; rw [IsMap] at h; cases h
    · intro v l h; rw [IsProperty] at h; cases h
  | succ d ih =>
    obtain ⟨ih1, ih2, ih3, ih4⟩ := ih
    refine ⟨?_, ?_, ?_, ?_⟩
    · intro v l h s hs
      cases v with
      | string t =>
        obtain rfl := List.mem_singleton.1 (by simpa [valueTexts] using hs)
        obtain ⟨_, rfl⟩ := (by simpa [IsValue] using h : FitsStr s ∧ l = le16 0x0D ++ str s)
        exact infix_right List.infix_rfl
      | vector v =>
        rw [valueTexts] at hs
        rw [IsValue] at h
        obtain ⟨e, h, rfl⟩ := h
        exact infix_right (ih2 _ _ h s hs)
      | mixedVector vs => rw [IsValue] at h; cases h
      | propertiesMap m =>
        rw [valueTexts] at hs
        rw [IsValue] at h
        obtain ⟨e, h, rfl⟩ := h
        exact infix_right (ih3 _ _ _ h s hs)
      | _ => simp [valueTexts] at hs
    · intro v l h s hs
      cases v with
      | mixed vs =>
        rw [vectorTexts, mem_valuesTexts] at hs
        rw [IsVector] at h
        obtain ⟨v, hv, hs⟩ := hs
        exact elems_texts h ih1 hv hs
      | string vs =>
        rw [vectorTexts] at hs
        rw [IsVector] at h
        exact elems_texts (T := fun s => [s]) h (fun x l hx s hs => by
          obtain rfl := List.mem_singleton.1 hs
          rw [hx.2]
          exact List.infix_rfl) hs (List.mem_singleton.2 rfl)
      | vector vs =>
        rw [vectorTexts, mem_vectorsTexts] at hs
        rw [IsVector] at h
        obtain ⟨v, hv, hs⟩ := hs
        exact elems_texts h ih2 hv hs
      | propertiesMap vs =>
        rw [vectorTexts, mem_mapsTexts] at hs
        rw [IsVector] at h
        obtain ⟨v, hv, hs⟩ := hs
        exact elems_texts h (ih3 _) hv hs
      | _ => simp [vectorTexts] at hs
    · intro t m l h s hs
      obtain ⟨key, props⟩ := m
      rw [mapTexts, mem_propertiesTexts] at hs
      rw [IsMap] at h
      obtain ⟨p, hp, hs⟩ := hs
      obtain ⟨_, e, _, _, h, rfl⟩ := h
      obtain ⟨q, h1, h2⟩ := seq_mem h hp
      exact infix_right ((ih4 p q h1 s hs).trans h2)
    · intro p l h s hs
      obtain ⟨name, value⟩ := p
      rw [propertyTexts] at hs
      rw [IsProperty] at h
      obtain ⟨e, _, h, rfl⟩ := h
      rcases List.mem_cons.1 hs with rfl | hs
      · exact infix_left List.infix_rfl
      · exact infix_right (ih1 _ _ h s hs)

/-- The texts and slices in user data. -/
theorem userData_pieces {plat : Plat} {u : UserDataChunk} {body : Bytes} (hb : body.length < 2 ^ 63)
    (h : readsUserData plat u body) :
    (∀ s ∈ userDataTexts u, str s <:+: body) ∧ (∀ d ∈ userDataSlices u, d <:+: body) := by
  obtain ⟨extra, h⟩ := h
  obtain ⟨flags, t, k, p, ht, _, hp, rfl⟩ := (parseUserDataChunk_ok hb).1 h
  constructor
  · intro s hs
    rcases List.mem_append.1 hs with hs | hs
    · cases hu : u.text with
      | none => rw [hu] at hs; cases hs
      | some x =>
        rw [hu] at hs ht
        obtain rfl := List.mem_singleton.1 (by simpa using hs)
        obtain ⟨_, _, rfl⟩ := ht
        exact infix_left (infix_left (infix_left (infix_right List.infix_rfl)))
    · cases hu : u.propertiesMaps with
      | none => rw [hu] at hs; cases hs
      | some x =>
        cases x with
        | error e => rw [hu] at hs; cases hs
        | ok v =>
          rw [hu] at hs hp
          obtain ⟨_, n, payload, _, _, rfl, hc⟩ := hp
          obtain ⟨r, ms⟩ := v
          obtain ⟨_, e, he, rfl⟩ := ((parses_all plat.stack).2.2.1.count _ _ _ _).1 hc
          obtain ⟨m, hm, hs⟩ := mem_mapsTexts.1 hs
          obtain ⟨q, h1, h2⟩ := seq_mem he hm
          have := ((trees_texts true plat.stack).2.2.1 _ _ _ h1 s hs).trans h2
          exact infix_left (infix_right (infix_right (infix_left this)))
  · intro d hd
    unfold userDataSlices at hd
    cases hu : u.propertiesMaps with
    | none => rw [hu] at hd; cases hd
    | some x =>
      cases x with
      | error e => rw [hu] at hd; cases hd
      | ok v =>
        rw [hu] at hd hp
        obtain ⟨_, n, payload, _, _, rfl, hc⟩ := hp
        obtain ⟨r, ms⟩ := v
        obtain ⟨_, e, he, rfl⟩ := ((parses_all plat.stack).2.2.1.count _ _ _ _).1 hc
        obtain rfl := List.mem_singleton.1 hd
        exact infix_left (infix_right (infix_right (infix_right List.infix_rfl)))

/-- The texts and slices in a chunk. -/
theorem chunk_pieces {plat : Plat} {c : Chunk} {l : Bytes} (h : IsChunk (readsUserData plat) c l) :
    (∀ s ∈ chunkTexts c, str s <:+: l) ∧ (∀ d ∈ chunkSlices c, d <:+: l) := by
  obtain ⟨code, body, hlen, hc, rfl⟩ := h
  suffices hh : (∀ s ∈ chunkTexts c, str s <:+: body) ∧ (∀ d ∈ chunkSlices c, d <:+: body) from
    ⟨fun s hs => infix_right (hh.1 s hs), fun d hd => infix_right (hh.2 d hd)⟩
  cases c with
  | palette0004 x => simp [chunkTexts, chunkSlices]
  | palette0011 x => simp [chunkTexts, chunkSlices]
  | layer x =>
    obtain ⟨_, l, e, ⟨_, _, _, _, _, _, _, _, _, _, _, _, _, hu, rfl⟩, rfl⟩ := hc
    simp only [chunkTexts, chunkSlices, hu, Option.toList, List.flatMap_nil, List.mem_singleton, forall_eq]
    exact ⟨infix_left (infix_left (infix_right List.infix_rfl)), by simp⟩
  | cel x =>
    obtain ⟨_, type, future, cb, _, hbody, hu, rfl⟩ := hc
    simp only at hu
    simp only [chunkTexts, chunkSlices, hu, Option.toList, List.flatMap_nil, List.append_nil]
    refine ⟨by simp, fun d hd => infix_right ?_⟩
    cases hx : x.content with
    | image i =>
      rw [hx] at hd
      obtain rfl := List.mem_singleton.1 hd
      simp only [hx, swapFlips, IsCelBody] at hbody
      rw [hbody.2]
      exact infix_right List.infix_rfl
    | linkedCel f => rw [hx] at hd; cases hd
    | compressedTilemap a1 a2 a3 a4 a5 a6 a7 data =>
      rw [hx] at hd
      obtain rfl := List.mem_singleton.1 hd
      simp only [hx, swapFlips, IsCelBody] at hbody
      obtain ⟨_, _, _, rfl⟩ := hbody
      exact infix_right List.infix_rfl
    | unknown t data =>
      rw [hx] at hd
      obtain rfl := List.mem_singleton.1 hd
      simp only [hx, swapFlips, IsCelBody] at hbody
      rw [hbody.2]
      exact List.infix_rfl
  | celExtra x =>
    obtain ⟨_, _, _, rfl⟩ := hc
    refine ⟨by simp [chunkTexts], fun d hd => ?_⟩
    obtain rfl := List.mem_singleton.1 hd
    exact infix_right List.infix_rfl
  | colorProfile x =>
    obtain ⟨_, l, e, ⟨_, _, _, _, icc, _, _, hp, rfl⟩, rfl⟩ := hc
    refine ⟨by simp [chunkTexts], fun d hd => ?_⟩
    unfold chunkSlices at hd
    cases hx : x.profile with
    | embeddedICC data =>
      simp only [hx] at hd hp
      obtain rfl := List.mem_singleton.1 hd
      obtain ⟨_, _, rfl⟩ := hp
      exact infix_left (infix_right (infix_right List.infix_rfl))
    | _ => simp only [hx] at hd; cases hd
  | externalFiles x =>
    obtain ⟨_, l, e, ⟨_, es, _, _, hs, rfl⟩, rfl⟩ := hc
    refine ⟨fun s h => ?_, by simp [chunkSlices]⟩
    obtain ⟨f, hf, rfl⟩ := List.mem_map.1 h
    obtain ⟨p, ⟨_, _, _, _, _, rfl⟩, h2⟩ := seq_mem hs hf
    exact infix_left (infix_right ((infix_right List.infix_rfl).trans h2))
  | mask x =>
    obtain ⟨_, _, _, _, rfl⟩ := hc
    refine ⟨fun s h => ?_, fun d hd => ?_⟩
    · obtain rfl := List.mem_singleton.1 h
      exact infix_left (infix_right List.infix_rfl)
    · obtain rfl := List.mem_singleton.1 hd
      exact infix_right List.infix_rfl
  | path => simp [chunkTexts, chunkSlices]
  | tags x =>
    obtain ⟨_, l, e, ⟨_, es, _, _, hs, rfl⟩, rfl⟩ := hc
    constructor
    · intro s h
      obtain ⟨t, ht, h⟩ := List.mem_flatMap.1 h
      obtain ⟨p, ⟨_, _, _, _, _, _, _, hu, rfl⟩, h2⟩ := seq_mem hs ht
      rw [hu] at h
      obtain rfl := List.mem_singleton.1 (by simpa using h)
      exact infix_left (infix_right ((infix_right List.infix_rfl).trans h2))
    · intro d hd
      obtain ⟨t, ht, h⟩ := List.mem_flatMap.1 hd
      obtain ⟨p, ⟨_, _, _, _, _, _, _, hu, _⟩, _⟩ := seq_mem hs ht
      rw [hu] at h
      simp at h
  | palette x =>
    obtain ⟨_, l, e, ⟨_, es, _, _, _, hs, rfl⟩, rfl⟩ := hc
    refine ⟨fun s h => ?_, by simp [chunkSlices]⟩
    obtain ⟨f, hf, hn⟩ := List.mem_filterMap.1 h
    obtain ⟨p, ⟨_, _, ho, rfl⟩, h2⟩ := seq_mem hs hf
    rw [hn] at ho
    obtain ⟨_, _, rfl⟩ := ho
    exact infix_left (infix_right ((infix_right List.infix_rfl).trans h2))
  | userData u => exact userData_pieces (by omega) hc.2
  | slice x =>
    obtain ⟨_, l, e, ⟨_, _, _, _, _, _, hu, _, rfl⟩, rfl⟩ := hc
    simp only [chunkTexts, chunkSlices, hu, Option.toList, List.flatMap_nil, List.mem_singleton, forall_eq]
    exact ⟨infix_left (infix_left (infix_right List.infix_rfl)), by simp⟩
  | tileset x =>
    obtain ⟨_, l, e, ⟨_, _, _, tiles, _, _, _, _, ht, rfl⟩, rfl⟩ := hc
    refine ⟨fun s h => ?_, fun d hd => ?_⟩
    · obtain rfl := List.mem_singleton.1 h
      exact infix_left (infix_left (infix_left (infix_right List.infix_rfl)))
    · simp only [chunkSlices] at hd
      cases hx : x.tiles with
      | none => rw [hx] at hd; cases hd
      | some y =>
        rw [hx] at hd ht
        obtain rfl := List.mem_singleton.1 (by simpa using hd)
        obtain ⟨_, _, rfl⟩ := ht
        exact infix_left (infix_right (infix_right List.infix_rfl))
  | unsupported n => simp [chunkTexts, chunkSlices]

/-- **C27**, for everything that `parse_raw_file` returns: each text in a chunk (names of layers, tags, slices, masks,
tilesets, palette entries and external files, texts of user data, names and texts in properties) is the text of a length
prefixed string that stands in the input, and each byte slice in a chunk (images, tilemaps, tiles, masks, colour profiles,
cels of unknown type, ...) is a contiguous piece of the input. -/
theorem C27_raw (plat : Plat) (b : Bytes) (raw : RawFile) (h : parseRawFile plat b = .ok raw) :
    ∀ fr ∈ raw.frames, ∀ c ∈ fr.chunks,
      (∀ s ∈ chunkTexts c, ∃ pre post, b = pre ++ leNat16 (utf8 s).length ++ utf8 s ++ post) ∧
      (∀ d ∈ chunkSlices c, ∃ pre post, b = pre ++ d ++ post) := by
  intro fr hfr c hc
  obtain ⟨hd, fs, _, _, hs, rfl⟩ := parseRawFile_ok.1 h
  obtain ⟨lf, ⟨_, _, _, chunks, _, _, _, hcs, _, rfl⟩, h1⟩ := seq_mem hs hfr
  obtain ⟨lc, h2, h3⟩ := seq_mem hcs hc
  have h4 : lc <:+: hd ++ fs := infix_right ((infix_left (infix_right h3)).trans h1)
  obtain ⟨h5, h6⟩ := chunk_pieces h2
  refine ⟨fun s hs => ?_, fun d hd => ?_⟩
  · obtain ⟨pre, post, h7⟩ := (h5 s hs).trans h4
    exact ⟨pre, post, by rw [← h7, str]; simp only [List.append_assoc]⟩
  · obtain ⟨pre, post, h7⟩ := (h6 d hd).trans h4
    exact ⟨pre, post, h7.symm⟩

/-! ## Files -/

theorem mem_run {cs : List Chunk} {u : UserDataChunk} (h : u ∈ run cs) : Chunk.userData u ∈ cs := by
  induction cs with
  | nil => simp [run] at h
  | cons c cs ih =>
    cases c with
    | userData v =>
      rcases List.mem_cons.1 (by simpa only [run] using h : u ∈ v :: run cs) with rfl | h
      · exact List.mem_cons_self
      · exact List.mem_cons_of_mem _ (ih h)
    | _ => simp [run] at h

theorem mem_owned {cs : List Chunk} {c : Chunk} {us : List UserDataChunk} (h : (c, us) ∈ owned cs) :
    c ∈ cs ∧ ∀ u ∈ us, Chunk.userData u ∈ cs := by
  induction cs with
  | nil => simp [owned] at h
  | cons d ds ih =>
    unfold owned at h
    split at h
    · next he => cases he
    · next he =>
      cases he
      obtain ⟨h1, h2⟩ := ih h
      exact ⟨List.mem_cons_of_mem _ h1, fun u hu => List.mem_cons_of_mem _ (h2 u hu)⟩
    · next he =>
      cases he
      rcases List.mem_cons.1 h with h | h
      · cases h
        exact ⟨List.mem_cons_self, fun u hu => List.mem_cons_of_mem _ (mem_run hu)⟩
      · obtain ⟨h1, h2⟩ := ih h
        exact ⟨List.mem_cons_of_mem _ h1, fun u hu => List.mem_cons_of_mem _ (h2 u hu)⟩

theorem of_layersOf {cs : List Chunk} {l : LayerChunk} (h : l ∈ layersOf cs) :
    (∃ x, Chunk.layer x ∈ cs ∧ x.name = l.name) ∧ ∀ u, l.userData = some u → Chunk.userData u ∈ cs := by
  obtain ⟨⟨ch, us⟩, h1, h2⟩ := List.mem_filterMap.1 h
  obtain ⟨h3, h4⟩ := mem_owned h1
  cases ch with
  | layer x =>
    obtain rfl := Option.some.inj h2
    exact ⟨⟨x, h3, rfl⟩, fun u hu => h4 u (List.mem_of_head? hu)⟩
  | _ => cases h2

theorem of_slicesOf {cs : List Chunk} {l : SliceChunk} (h : l ∈ slicesOf cs) :
    (∃ x, Chunk.slice x ∈ cs ∧ x.name = l.name) ∧ ∀ u, l.userData = some u → Chunk.userData u ∈ cs := by
  obtain ⟨⟨ch, us⟩, h1, h2⟩ := List.mem_filterMap.1 h
  obtain ⟨h3, h4⟩ := mem_owned h1
  cases ch with
  | slice x =>
    obtain rfl := Option.some.inj h2
    exact ⟨⟨x, h3, rfl⟩, fun u hu => h4 u (List.mem_of_head? hu)⟩
  | _ => cases h2

theorem of_celsOf {cs : List Chunk} {l : CelChunk} (h : l ∈ celsOf cs) :
    (∃ x, Chunk.cel x ∈ cs ∧ x.content = l.content) ∧ ∀ u, l.userData = some u → Chunk.userData u ∈ cs := by
  obtain ⟨⟨ch, us⟩, h1, h2⟩ := List.mem_filterMap.1 h
  obtain ⟨h3, h4⟩ := mem_owned h1
  cases ch with
  | cel x =>
    obtain rfl := Option.some.inj h2
    exact ⟨⟨x, h3, rfl⟩, fun u hu => h4 u (List.mem_of_head? hu)⟩
  | _ => cases h2

theorem of_tagsOf {cs : List Chunk} {t : Tag} (h : t ∈ tagsOf cs) :
    (∃ x, Chunk.tags x ∈ cs ∧ ∃ y ∈ x.tags, y.name = t.name) ∧ ∀ u, t.userData = some u → Chunk.userData u ∈ cs := by
  obtain ⟨⟨ch, us⟩, h1, h2⟩ := List.mem_flatMap.1 h
  obtain ⟨h3, h4⟩ := mem_owned h1
  cases ch with
  | tags x =>
    simp only [List.mem_mapIdx] at h2
    obtain ⟨i, hi, rfl⟩ := h2
    exact ⟨⟨x, h3, _, List.getElem_mem hi, rfl⟩, fun u hu => h4 u (List.mem_of_getElem? hu)⟩
  | _ => cases h2

theorem of_spriteUserData {cs : List Chunk} {u : UserDataChunk} (h : spriteUserData cs = some u) :
    Chunk.userData u ∈ cs := by
  obtain ⟨⟨ch, us⟩, h1, h2⟩ := List.exists_of_findSome?_eq_some h
  obtain ⟨_, h4⟩ := mem_owned h1
  cases ch with
  | palette0004 x => exact h4 u (List.mem_of_head? h2)
  | palette0011 x => exact h4 u (List.mem_of_head? h2)
  | palette x => exact h4 u (List.mem_of_head? h2)
  | _ => cases h2

theorem of_fileUserData {plat : Plat} {b : Bytes} {raw : RawFile} {f : File} (hraw : parseRawFile plat b = .ok raw)
    (h : parseFile plat b = .ok f) {u : UserDataChunk} (hu : u ∈ fileUserData f) :
    ∃ fr ∈ raw.frames, Chunk.userData u ∈ fr.chunks := by
  rw [parseFile_eq hraw] at h
  obtain ⟨p, _, _, rfl⟩ := (assembleFile_ok (fresh hraw)).1 h
  simp only [fileUserData, List.mem_append, List.mem_filterMap, List.mem_flatMap, allLayers, Option.mem_toList,
    Option.bind_eq_some_iff, List.mem_map] at hu
  rcases hu with (((⟨fr, h1, h2⟩ | ⟨l, ⟨fr, h1, h2⟩, h3⟩) | ⟨l, ⟨fr, h1, h2⟩, h3⟩) | ⟨l, ⟨fr, h1, h2⟩, h3⟩) |
    ⟨_, ⟨fr, h1, rfl⟩, c, hc, d, rfl, h3⟩
  · exact ⟨fr, List.mem_of_head? h1, of_spriteUserData h2⟩
  · exact ⟨fr, h1, (of_layersOf h2).2 u h3⟩
  · exact ⟨fr, h1, (of_tagsOf h2).2 u h3⟩
  · exact ⟨fr, h1, (of_slicesOf h2).2 u h3⟩
  · simp only [slots, List.mem_map] at hc
    obtain ⟨j, _, hc⟩ := hc
    exact ⟨fr, h1, (of_celsOf (List.mem_filter.1 (List.mem_of_getLast? hc)).1).2 u h3⟩

/-- **C27**, for everything in a parsed file: the names of layers, tags and slices and the texts in all user data are
those of length prefixed strings in the input, the byte slices in cels and in user data are contiguous pieces of it. -/
theorem C27_file (plat : Plat) (b : Bytes) (f : File) (h : parseFile plat b = .ok f) :
    (∀ s ∈ fileTexts f, ∃ pre post, b = pre ++ leNat16 (utf8 s).length ++ utf8 s ++ post) ∧
    (∀ d ∈ fileSlices f, ∃ pre post, b = pre ++ d ++ post) := by
  obtain ⟨raw, hraw, ha⟩ := parseFile_ok.1 h
  have hall := C27_raw plat b raw hraw
  obtain ⟨p, _, _, hf⟩ := (assembleFile_ok (fresh hraw)).1 ha
  constructor
  · intro s hs
    rcases List.mem_append.1 hs with hs | hs
    · simp only [hf, List.mem_append, List.mem_map, List.mem_flatMap, allLayers] at hs
      rcases hs with (⟨l, ⟨fr, h1, h2⟩, rfl⟩ | ⟨l, ⟨fr, h1, h2⟩, rfl⟩) | ⟨l, ⟨fr, h1, h2⟩, rfl⟩
      · obtain ⟨x, h3, h4⟩ := (of_layersOf h2).1
        exact (hall fr h1 _ h3).1 _ (by rw [chunkTexts, h4]; exact List.mem_cons_self)
      · obtain ⟨x, h3, y, h4, h5⟩ := (of_tagsOf h2).1
        refine (hall fr h1 _ h3).1 _ ?_
        rw [chunkTexts, ← h5]
        exact List.mem_flatMap.2 ⟨y, h4, List.mem_cons_self⟩
      · obtain ⟨x, h3, h4⟩ := (of_slicesOf h2).1
        exact (hall fr h1 _ h3).1 _ (by rw [chunkTexts, h4]; exact List.mem_cons_self)
    · obtain ⟨u, hu, hs⟩ := List.mem_flatMap.1 hs
      obtain ⟨fr, h1, h2⟩ := of_fileUserData hraw h hu
      exact (hall fr h1 _ h2).1 s hs
  · intro d hd
    rcases List.mem_append.1 hd with hd | hd
    · simp only [hf, List.mem_flatMap, List.mem_map, slots, Option.mem_toList] at hd
      obtain ⟨_, ⟨fr, h1, rfl⟩, o, ho, c, hc, hd⟩ := hd
      obtain ⟨j, _, rfl⟩ := List.mem_map.1 ho
      obtain ⟨x, h3, h4⟩ := (of_celsOf (List.mem_filter.1 (List.mem_of_getLast? hc)).1).1
      refine (hall fr h1 _ h3).2 d ?_
      rw [chunkSlices, h4]
      exact List.mem_append_left _ hd
    · obtain ⟨u, hu, hs⟩ := List.mem_flatMap.1 hd
      obtain ⟨fr, h1, h2⟩ := of_fileUserData hraw h hu
      exact (hall fr h1 _ h2).2 d hs

/-- **C27**, for everything in a loaded sprite: the names of its layers and tags, and the texts and slices in the file
it keeps. (For the image data see `C27_zero_copy`.) -/
theorem C27_loaded (plat : Plat) (b : Bytes) (f : AsepriteFile) (h : AsepriteFile.load plat b = .ok f) :
    (∀ s ∈ f.layers.map (·.name) ++ f.tags.map (·.name) ++ fileTexts f.file,
      ∃ pre post, b = pre ++ leNat16 (utf8 s).length ++ utf8 s ++ post) ∧
    (∀ d ∈ f.images.map (·.data) ++ fileSlices f.file, ∃ pre post, b = pre ++ d ++ post) := by
  obtain ⟨h1, h2⟩ := load_ok.1 h
  obtain ⟨e1, e2, e3, _⟩ := ofFile_ok h2
  obtain ⟨h3, h4⟩ := C27_file plat b f.file h1
  constructor
  · intro s hs
    simp only [List.mem_append, List.mem_map, e2, e3, List.mem_filterMap] at hs
    refine h3 s ?_
    rcases hs with (⟨l, ⟨x, h5, h6⟩, rfl⟩ | ⟨_, ⟨t, h5, rfl⟩, rfl⟩) | hs
    · have : l.name = x.name := by
        unfold toLLayer at h6
        split at h6
        · obtain rfl := Option.some.inj h6
          rfl
        · cases h6
      rw [this]
      exact List.mem_append_left _ (List.mem_append_left _ (List.mem_append_left _ (List.mem_map_of_mem h5)))
    · exact List.mem_append_left _ (List.mem_append_left _ (List.mem_append_right _ (List.mem_map.2 ⟨t, h5, rfl⟩)))
    · exact hs
  · intro d hd
    rcases List.mem_append.1 hd with hd | hd
    · obtain ⟨im, him, rfl⟩ := List.mem_map.1 hd
      obtain ⟨pre, post, h5⟩ := C27_zero_copy plat b f h im him
      exact ⟨pre ++ le16 im.width ++ le16 im.height, post, h5⟩
    · exact h4 d hd

/-- A file for the example: a layer with user data that has a text, a property with a text and one unused byte, a cel,
a colour profile, a mask and two tags. -/
def Sample.pieces : Bytes :=
  Sample.header 2 1 32 ++ Sample.frame 100
    [Sample.layer 1 0 0 255 [65],
     Sample.chunk 0x2020 ([5, 0, 0, 0] ++ [2, 0, 72, 105] ++ [25, 0, 0, 0, 1, 0, 0, 0] ++ [9, 0, 0, 0, 1, 0, 0, 0]
       ++ [1, 0, 112] ++ [0x0D, 0, 1, 0, 113] ++ [7]),
     Sample.cel 0 0 0 2 1 [1, 2, 3, 4, 5, 6, 7, 8],
     Sample.chunk 0x2007 ([2, 0, 0, 0, 0, 0, 0, 0] ++ List.replicate 8 0 ++ [2, 0, 0, 0, 33, 34]),
     Sample.chunk 0x2016 (List.replicate 16 0 ++ [1, 0, 77] ++ [50, 51, 52]),
     Sample.tags [Sample.tag 0 0 0 2 84, Sample.tag 0 0 2 0 85]]

example : (match parseRawFile ⟨true, 100⟩ Sample.pieces with
    | .ok raw => (raw.frames.flatMap (·.chunks)).flatMap chunkTexts == ["A", "Hi", "p", "q", "M", "T", "U"] &&
        (raw.frames.flatMap (·.chunks)).flatMap chunkSlices == [[7], [1, 2, 3, 4, 5, 6, 7, 8], [33, 34], [50, 51, 52]]
    | _ => false) = true := by decide +kernel

example : (match AsepriteFile.load ⟨true, 100⟩ Sample.pieces with
    | .ok f => fileTexts f.file == ["A", "T", "U", "Hi", "p", "q"] &&
        fileSlices f.file == [[1, 2, 3, 4, 5, 6, 7, 8], [7]] && f.layers.map (·.name) == ["A"] &&
        f.tags.map (·.name) == ["T", "U"] && f.images.length == 1
    | _ => false) = true := by decide +kernel

/-! ## C28: all of it together -/

theorem str_size (s : String) : (str s).length = textSize s := by simp [str, textSize]

theorem valuesItems_eq (vs : List Value) : valuesItems vs = (vs.map valueItems).sum := by
  induction vs with
  | nil => simp [valuesItems]
  | cons v vs ih => simp [valuesItems, ih]

theorem vectorsItems_eq (vs : List PVector) : vectorsItems vs = (vs.map vectorItems).sum := by
  induction vs with
  | nil => simp [vectorsItems]
  | cons v vs ih => simp [vectorsItems, ih]

theorem mapsItems_eq (vs : List PropertiesMap) : mapsItems vs = (vs.map mapItems).sum := by
  induction vs with
  | nil => simp [mapsItems]
  | cons v vs ih => simp [mapsItems, ih]

theorem propertiesItems_eq (vs : List Property) : propertiesItems vs = (vs.map propertyItems).sum := by
  induction vs with
  | nil => simp [propertiesItems]
  | cons v vs ih => simp [propertiesItems, ih]

theorem elems_size {α : Type} {code : UInt16} {G : α → Bytes → Prop} {w : α → Nat} (hw : ∀ x l, G x l → w x ≤ l.length)
    {xs : List α} {l : Bytes} (h : Elems code G xs l) : 6 + (xs.map w).sum ≤ l.length := by
  obtain ⟨e, _, h, rfl⟩ := h
  have := seq_size hw h
  simp
  omega

theorem elems_ones {α : Type} {code : UInt16} {G : α → Bytes → Prop} (hw : ∀ x l, G x l → 1 ≤ l.length)
    {xs : List α} {l : Bytes} (h : Elems code G xs l) : 6 + xs.length ≤ l.length := by
  obtain ⟨e, _, h, rfl⟩ := h
  have := seq_length hw h
  simp
  omega

/-- The size of properties is at most the number of bytes they are stored in. -/
theorem trees_size (d : Nat) :
    (∀ v l, IsValue true d v l → valueItems v ≤ l.length) ∧
    (∀ v l, IsVector true d v l → vectorItems v ≤ l.length) ∧
    (∀ m l, IsMap true true d m l → mapItems m ≤ l.length) ∧
    (∀ p l, IsProperty true d p l → propertyItems p ≤ l.length) := by
  induction d with
  | zero =>
    refine ⟨?_, ?_, ?_, ?_⟩
    · intro v l h; rw [IsValue] at h; cases h
    · intro v l h; rw [IsVector] at h; cases h
    · intro v l h; rw [IsMap] at h; cases h
    · intro v l h; rw [IsProperty] at h; cases h
  | succ d ih =>
    obtain ⟨ih1, ih2, ih3, ih4⟩ := ih
    refine ⟨?_, ?_, ?_, ?_⟩
    · intro v l h
      cases v with
      | string t => rw [IsValue] at h; obtain ⟨_, rfl⟩ := h; simp [valueItems, str_size]
      | vector v => rw [IsValue] at h; obtain ⟨e, h, rfl⟩ := h; have := ih2 _ _ h; simp [valueItems]; omega
      | mixedVector vs => rw [IsValue] at h; cases h
      | propertiesMap m => rw [IsValue] at h; obtain ⟨e, h, rfl⟩ := h; have := ih3 _ _ h; simp [valueItems]; omega
      | bool b => rw [IsValue] at h; obtain ⟨e, ⟨_, _, rfl⟩, rfl⟩ := h; simp [valueItems]
      | _ => rw [IsValue] at h; subst h; simp [valueItems, Spec.fixed, point, size, rect]
    · intro v l h
      cases v with
      | mixed vs => rw [IsVector] at h; rw [vectorItems, valuesItems_eq]; exact elems_size ih1 h
      | vector vs => rw [IsVector] at h; rw [vectorItems, vectorsItems_eq]; exact elems_size ih2 h
      | propertiesMap vs => rw [IsVector] at h; rw [vectorItems, mapsItems_eq]; exact elems_size ih3 h
      | string vs =>
        rw [IsVector] at h
        rw [vectorItems]
        exact elems_size (by rintro x l ⟨_, rfl⟩; rw [str_size]; exact Nat.le_refl _) h
      | bool vs => rw [IsVector] at h; rw [vectorItems]; exact elems_ones (by rintro x l ⟨_, _, rfl⟩; simp) h
      | _ =>
        rw [IsVector] at h
        rw [vectorItems]
        exact elems_ones (by rintro x l rfl; simp [Spec.fixed, point, size, rect]) h
    · intro m l h
      obtain ⟨key, props⟩ := m
      rw [IsMap] at h
      obtain ⟨k, e, hk, _, h, rfl⟩ := h
      have := seq_size ih4 h
      obtain rfl := (by simpa using hk : k = le32 key)
      rw [mapItems, propertiesItems_eq]
      simp
      omega
    · intro p l h
      obtain ⟨name, value⟩ := p
      rw [IsProperty] at h
      obtain ⟨e, _, h, rfl⟩ := h
      have := ih1 _ _ h
      rw [propertyItems, List.length_append, str_size]
      omega

theorem opt_text {p : Prop} {o : Option String} {l : Bytes} (h : Opt p IsStr o l) :
    (o.toList.map textSize).sum = l.length := by
  cases o with
  | none => rw [h.2]; rfl
  | some s => rw [h.2.2, str_size]; simp

theorem userData_size {plat : Plat} {u : UserDataChunk} {body : Bytes} (hb : body.length < 2 ^ 63)
    (h : readsUserData plat u body) : userDataItems u ≤ body.length := by
  obtain ⟨extra, h⟩ := h
  obtain ⟨flags, t, k, p, ht, _, hp, rfl⟩ := (parseUserDataChunk_ok hb).1 h
  have h1 := opt_text ht
  unfold userDataItems
  simp only [h1, List.length_append]
  cases hu : u.propertiesMaps with
  | none => simp; omega
  | some x =>
    cases x with
    | error e => simp; omega
    | ok v =>
      rw [hu] at hp
      obtain ⟨_, n, payload, _, _, rfl, hc⟩ := hp
      obtain ⟨r, ms⟩ := v
      obtain ⟨_, e, he, rfl⟩ := ((parses_all plat.stack).2.2.1.count _ _ _ _).1 hc
      have := seq_size (trees_size plat.stack).2.2.1 he
      simp [mapsItems_eq]
      omega

theorem chunk_weight {plat : Plat} {c : Chunk} {l : Bytes} (h : IsChunk (readsUserData plat) c l) :
    chunkWeight c ≤ l.length := by
  obtain ⟨code, body, hlen, hc, rfl⟩ := h
  suffices hh : chunkWeight c ≤ 6 + body.length by simp; omega
  have hi := content_items hc
  cases c with
  | palette0004 x | palette0011 x =>
    obtain ⟨_, l, e, hl, rfl⟩ := hc
    have := oldPalette_items hl
    simp only [chunkWeight, sum_map_add, sum_const_one, List.length_append]
    omega
  | layer x =>
    obtain ⟨_, l, e, ⟨_, _, _, _, _, _, _, _, _, _, _, _, _, hu, rfl⟩, rfl⟩ := hc
    simp [chunkWeight, str_size]
    omega
  | cel x =>
    cases hx : x.content <;> simp [chunkWeight, contentSlices, chunkItems, hx] at hi ⊢ <;> omega
  | celExtra x =>
    obtain ⟨_, _, _, rfl⟩ := hc
    simp [chunkWeight]
    omega
  | colorProfile x =>
    obtain ⟨_, l, e, ⟨_, _, _, _, icc, _, _, hp, rfl⟩, rfl⟩ := hc
    cases hx : x.profile with
    | embeddedICC data =>
      simp only [hx] at hp
      obtain ⟨_, _, rfl⟩ := hp
      simp [chunkWeight, hx]
      omega
    | _ => simp [chunkWeight, hx]
  | externalFiles x =>
    obtain ⟨_, l, e, ⟨_, es, _, _, hs, rfl⟩, rfl⟩ := hc
    have := seq_size (w := fun f : ExternalFile => 1 + textSize f.fileName) (by
      rintro x l ⟨_, _, _, _, _, rfl⟩
      simp [str_size]
      omega) hs
    simp only [chunkWeight, List.length_append]
    omega
  | mask x =>
    obtain ⟨_, _, _, _, rfl⟩ := hc
    simp [chunkWeight, str_size]
    omega
  | path => simp [chunkWeight]
  | tags x =>
    obtain ⟨_, l, e, ⟨_, es, _, _, hs, rfl⟩, rfl⟩ := hc
    have := seq_size (w := fun t : Tag => 1 + textSize t.name) (by
      rintro x l ⟨_, _, _, _, _, _, _, hu, rfl⟩
      simp [str_size]
      omega) hs
    simp only [chunkWeight, List.length_append]
    omega
  | palette x =>
    obtain ⟨_, l, e, ⟨_, es, _, _, _, hs, rfl⟩, rfl⟩ := hc
    have := seq_size (w := fun e : PaletteEntry => 1 + (e.name.toList.map textSize).sum) (by
      rintro x l ⟨_, _, ho, rfl⟩
      rw [opt_text ho]
      simp
      omega) hs
    simp only [chunkWeight, List.length_append]
    omega
  | userData u =>
    have := userData_size (by omega) hc.2
    simp only [chunkWeight]
    omega
  | slice x =>
    obtain ⟨_, l, e, ⟨_, _, _, _, _, _, hu, hs, rfl⟩, rfl⟩ := hc
    have := seq_length (by rintro x l ⟨_, _, _, _, rfl⟩; simp; omega) hs
    simp [chunkWeight, str_size]
    omega
  | tileset x =>
    obtain ⟨_, l, e, ⟨_, _, _, tiles, _, _, _, _, ht, rfl⟩, rfl⟩ := hc
    cases hx : x.tiles with
    | none => simp [chunkWeight, str_size, hx]; omega
    | some y =>
      rw [hx] at ht
      obtain ⟨_, _, rfl⟩ := ht
      simp [chunkWeight, str_size, hx]
      omega
  | unsupported n => simp [chunkWeight]

/-- **C28**, for all texts, byte slices and properties together: 128 bytes for the header, 16 for every frame, 6 for every
chunk, the bytes of every text and slice, one for each other list element, and for nested properties the sizes of all their
values, vectors and maps (`Verif/Spec/Pieces.lean`) add up to at most the number of input bytes. -/
theorem C28_everything (plat : Plat) (b : Bytes) (raw : RawFile) (h : parseRawFile plat b = .ok raw) :
    128 + (raw.frames.map fun fr => 16 + (fr.chunks.map chunkWeight).sum).sum ≤ b.length := by
  obtain ⟨hb, fb, hh, _, hs, rfl⟩ := parseRawFile_ok.1 h
  have := seq_size (w := fun fr : RawFrame => 16 + (fr.chunks.map chunkWeight).sum)
    (G := IsFrame (readsUserData plat)) (by
      rintro fr l ⟨_, _, _, cs, _, _, _, hs, _, rfl⟩
      have := seq_size (w := chunkWeight) (fun _ _ h => chunk_weight h) hs
      simp
      omega) hs
  rw [List.length_append, header_length hh]
  omega

example : (match parseRawFile ⟨true, 100⟩ Sample.pieces with
    | .ok raw => (128 + (raw.frames.map fun fr => 16 + (fr.chunks.map chunkWeight).sum).sum, Sample.pieces.length)
    | _ => (0, 0)) = (228, 354) := by decide +kernel

end Ase
