import Verif.Lemmas.PossibleFile
import Verif.Props.Possible
import Verif.Props.Occurs
import Verif.Props.RoundTrip

/-!
# C132: exactly these files can be parsed
-/

namespace Ase
open Spec

/-! ## Every parsed file -/

/-- **C132.** What every parsed file satisfies. -/
theorem C132_possible (plat : Plat) (b : Bytes) (f : File) (h : parseFile plat b = .ok f) : PossibleFile plat f := by
  have hs := slotsOk_of_parse h
  obtain ⟨raw, hraw, ha⟩ := parseFile_ok.1 h
  obtain ⟨p, hp, -, e⟩ := (assembleFile_ok (fresh hraw)).1 ha
  have hh : f.header = raw.header := by rw [e]
  have hfr : f.frames = raw.frames.map fun f => ⟨f.duration, slots (allLayers raw.frames).length (celsOf f.chunks)⟩ := by
    rw [e]
  have hud : ∀ fr ∈ raw.frames, ∀ p ∈ owned fr.chunks, ∀ u ∈ p.2, ∃ body, body.length < 2 ^ 32 ∧ readsUserData plat u body := by
    intro fr hfr p hp u hu
    obtain ⟨_, _, body, hlt, ⟨-, hx⟩, -⟩ := chunk_of_parse hraw hfr (mem_of_owner hp hu)
    exact ⟨body, by omega, hx⟩
  have hlayers : ∀ l ∈ f.layers, LayerRead l ∧ ∀ u, l.userData = some u → ∃ body, body.length < 2 ^ 32 ∧ readsUserData plat u body := by
    intro l hl
    rw [e] at hl
    obtain ⟨fr, hfr, hl⟩ := List.mem_flatMap.1 hl
    obtain ⟨⟨ch, us⟩, hm, hl⟩ := List.mem_filterMap.1 hl
    cases ch with
    | layer x =>
      cases hl
      obtain ⟨_, _, _, -, ⟨-, _, _, hx, -⟩, -⟩ := chunk_of_parse hraw hfr (mem_of_owned hm)
      exact ⟨layerRead_of hx _, fun u hu => hud fr hfr _ hm u (List.mem_of_head? hu)⟩
    | _ => cases hl
  have htags : ∀ t ∈ f.tags, TagRead t ∧ ∀ u, t.userData = some u → ∃ body, body.length < 2 ^ 32 ∧ readsUserData plat u body := by
    intro t ht
    rw [e] at ht
    obtain ⟨fr, hfr, ht⟩ := List.mem_flatMap.1 ht
    obtain ⟨⟨ch, us⟩, hm, ht⟩ := List.mem_flatMap.1 ht
    cases ch with
    | tags y =>
      simp only [List.mem_mapIdx] at ht
      obtain ⟨i, hi, rfl⟩ := ht
      obtain ⟨_, _, _, -, ⟨-, _, _, ⟨_, _, -, -, hs, -⟩, -⟩, -⟩ := chunk_of_parse hraw hfr (mem_of_owned hm)
      obtain ⟨_, hx, -⟩ := seq_mem hs (List.getElem_mem hi)
      exact ⟨tagRead_of hx _, fun u hu => hud fr hfr _ hm u (List.mem_of_getElem? hu)⟩
    | _ => cases ht
  have hslices : ∀ s ∈ f.slices, SliceRead s ∧ ∀ u, s.userData = some u → ∃ body, body.length < 2 ^ 32 ∧ readsUserData plat u body := by
    intro l hl
    rw [e] at hl
    obtain ⟨fr, hfr, hl⟩ := List.mem_flatMap.1 hl
    obtain ⟨⟨ch, us⟩, hm, hl⟩ := List.mem_filterMap.1 hl
    cases ch with
    | slice x =>
      cases hl
      obtain ⟨_, _, _, -, ⟨-, _, _, hx, -⟩, -⟩ := chunk_of_parse hraw hfr (mem_of_owned hm)
      exact ⟨sliceRead_of hx _, fun u hu => hud fr hfr _ hm u (List.mem_of_head? hu)⟩
    | _ => cases hl
  have hcels : ∀ fr ∈ f.frames, ∀ c, some c ∈ fr.cels →
      CelRead c ∧ ∀ u, c.userData = some u → ∃ body, body.length < 2 ^ 32 ∧ readsUserData plat u body := by
    intro fr hfr' c hc
    rw [hfr] at hfr'
    obtain ⟨rf, hrf, rfl⟩ := List.mem_map.1 hfr'
    obtain ⟨i, -, hi⟩ := List.mem_map.1 hc
    have hc := (List.mem_filter.1 (List.mem_of_getLast? hi)).1
    obtain ⟨⟨ch, us⟩, hm, hl⟩ := List.mem_filterMap.1 hc
    cases ch with
    | cel x =>
      cases hl
      obtain ⟨_, _, _, -, hx, -⟩ := chunk_of_parse hraw hrf (mem_of_owned hm)
      exact ⟨celRead_of hx _, fun u hu => hud rf hrf _ hm u (List.mem_of_head? hu)⟩
    | _ => cases hl
  refine ⟨?_, ?_, ?_, fun l hl => (hlayers l hl).1, fun t ht => (htags t ht).1, fun s hs => (hslices s hs).1, ?_, hs.len,
    fun fr hfr i c hc => ⟨hs.index fr hfr i c hc, (hcels fr hfr c (List.mem_of_getElem? hc)).1⟩, ?_⟩
  · obtain ⟨_, _, ⟨w, _, _, -, -, hw, -⟩, -, -, -⟩ := parseRawFile_ok.1 hraw
    rw [depth_read, hh, hw]
    exact colorDepth_read w
  · intro hi
    obtain ⟨q, hq, hlen, hcol⟩ := (C21_palette plat b raw hraw (by rw [← hh]; exact hi)).1 _ h
    have := hcol _ raw.header.transparentIndex.toNat_lt
    rw [if_pos rfl] at this
    exact ⟨q, _, hq, hlen, by rw [hh]; exact this, rfl⟩
  · intro hi
    have := C22_palette_iff_indexed plat b _ h
    cases hpal : f.palette with
    | none => rfl
    | some q => exact absurd (this.1 (by rw [hpal]; rfl)) hi
  · intro h0
    obtain ⟨-, -, -, hne, -, -⟩ := parseRawFile_ok.1 hraw
    rw [hfr] at h0
    exact hne (List.map_eq_nil_iff.1 h0)
  · rintro u (hu | ⟨l, hl, hu⟩ | ⟨t, ht, hu⟩ | ⟨s, hs, hu⟩ | ⟨fr, hfr, c, hc, hu⟩)
    · rw [e] at hu
      obtain ⟨rf, hrf, hu⟩ := Option.bind_eq_some_iff.1 hu
      obtain ⟨⟨ch, us⟩, hm, hu⟩ := List.exists_of_findSome?_eq_some hu
      refine hud rf (List.mem_of_head? hrf) _ hm u ?_
      cases ch <;> first | exact List.mem_of_head? hu | cases hu
    · exact (hlayers l hl).2 u hu
    · exact (htags t ht).2 u hu
    · exact (hslices s hs).2 u hu
    · exact (hcels fr hfr c hc).2 u hu

/-! ## A file for every such structure -/

/-- A palette chunk for a file. -/
def filePaletteChunk (f : File) : PaletteChunk :=
  match f.palette with
  | some p => paletteFor p
  | none => ⟨0, 0, []⟩

/-- What belongs to the whole file. -/
def headItems (f : File) : List (Chunk × Option UserDataChunk) :=
  (.palette (filePaletteChunk f), f.userData) ::
    (f.layers.map (fun l => (.layer { l with userData := none }, l.userData)) ++
     f.tags.map (fun t => (.tags ⟨[{ t with userData := none }]⟩, t.userData)) ++
     f.slices.map (fun s => (.slice { s with userData := none }, s.userData)))

/-- What belongs to one frame. -/
def celItems (fr : Frame) : List (Chunk × Option UserDataChunk) :=
  (fr.cels.filterMap id).map fun c => (.cel { c with userData := none }, c.userData)

/-- The frames to write. -/
def rawFrames (f : File) : List RawFrame :=
  match f.frames with
  | [] => []
  | fr :: frs => ⟨fr.duration, lay (headItems f ++ celItems fr)⟩ :: frs.map fun fr => ⟨fr.duration, lay (celItems fr)⟩

section
variable {f : File}

theorem celItems_plain (fr : Frame) : ∀ p ∈ celItems fr, ∀ u, p.1 ≠ .userData u := by
  intro p hp u
  obtain ⟨c, -, rfl⟩ := List.mem_map.1 hp
  nofun

theorem headItems_plain : ∀ p ∈ headItems f, ∀ u, p.1 ≠ .userData u := by
  intro p hp u
  simp only [headItems, List.mem_cons, List.mem_append, List.mem_map] at hp
  rcases hp with rfl | (⟨_, -, rfl⟩ | ⟨_, -, rfl⟩) | ⟨_, -, rfl⟩ <;> nofun

theorem firstItems_plain (fr : Frame) : ∀ p ∈ headItems f ++ celItems fr, ∀ u, p.1 ≠ .userData u := by
  intro p hp
  rcases List.mem_append.1 hp with hp | hp
  · exact headItems_plain p hp
  · exact celItems_plain fr p hp

theorem toList_head? {α : Type} (o : Option α) : o.toList.head? = o := by cases o <;> rfl

theorem toList_get0 {α : Type} (o : Option α) : o.toList[0]? = o := by cases o <;> rfl

theorem owned_celItems (fr : Frame) : owned (lay (celItems fr)) =
    (fr.cels.filterMap id).map fun c => (.cel { c with userData := none }, c.userData.toList) := by
  rw [owned_lay (celItems_plain fr), celItems, List.map_map]
  rfl

theorem owned_first (fr : Frame) : owned (lay (headItems f ++ celItems fr)) =
    (Chunk.palette (filePaletteChunk f), f.userData.toList) ::
    ((f.layers.map (fun l => (.layer { l with userData := none }, l.userData.toList)) ++
     f.tags.map (fun t => (.tags ⟨[{ t with userData := none }]⟩, t.userData.toList)) ++
     f.slices.map (fun s => (.slice { s with userData := none }, s.userData.toList))) ++ owned (lay (celItems fr))) := by
  rw [owned_lay (firstItems_plain fr), owned_celItems]
  simp [headItems, celItems, Function.comp_def]

theorem filterMap_none' {α β : Type} (xs : List α) : xs.filterMap (fun _ => (none : Option β)) = [] := by
  induction xs <;> simp_all

theorem flatMap_nil' {α β : Type} (xs : List α) : xs.flatMap (fun _ => ([] : List β)) = [] := by
  induction xs <;> simp_all

theorem celsOf_celItems (fr : Frame) : celsOf (lay (celItems fr)) = fr.cels.filterMap id := by
  rw [celsOf, owned_celItems, List.filterMap_map]
  simp [Function.comp_def]

theorem celsOf_first (fr : Frame) : celsOf (lay (headItems f ++ celItems fr)) = fr.cels.filterMap id := by
  rw [← celsOf_celItems fr, celsOf, owned_first]
  simp [celsOf, List.filterMap_append, List.filterMap_map, Function.comp_def, filterMap_none']

theorem layersOf_celItems (fr : Frame) : layersOf (lay (celItems fr)) = [] := by
  rw [layersOf, owned_celItems]
  simp [List.filterMap_map, Function.comp_def]

theorem layersOf_first (fr : Frame) : layersOf (lay (headItems f ++ celItems fr)) = f.layers := by
  have h0 := layersOf_celItems fr
  rw [layersOf] at h0 ⊢
  rw [owned_first]
  simp [List.filterMap_append, List.filterMap_map, Function.comp_def, filterMap_none', h0]

theorem slicesOf_celItems (fr : Frame) : slicesOf (lay (celItems fr)) = [] := by
  rw [slicesOf, owned_celItems]
  simp [List.filterMap_map, Function.comp_def]

theorem slicesOf_first (fr : Frame) : slicesOf (lay (headItems f ++ celItems fr)) = f.slices := by
  have h0 := slicesOf_celItems fr
  rw [slicesOf] at h0 ⊢
  rw [owned_first]
  simp [List.filterMap_append, List.filterMap_map, Function.comp_def, filterMap_none', h0]

theorem tagsOf_celItems (fr : Frame) : tagsOf (lay (celItems fr)) = [] := by
  rw [tagsOf, owned_celItems]
  simp [List.flatMap_map]

theorem tagsOf_first (fr : Frame) : tagsOf (lay (headItems f ++ celItems fr)) = f.tags := by
  have h0 := tagsOf_celItems fr
  rw [tagsOf] at h0 ⊢
  rw [owned_first]
  simp [List.flatMap_append, List.flatMap_map, flatMap_nil', toList_get0, h0]

theorem spriteUserData_first (fr : Frame) : spriteUserData (lay (headItems f ++ celItems fr)) = f.userData := by
  rw [spriteUserData, owned_first, List.findSome?_cons]
  simp only [toList_head?]
  cases f.userData with
  | some u => rfl
  | none =>
    simp [List.findSome?_append, List.findSome?_map, owned_celItems, Function.comp_def]

theorem newPalettes_lay (ps : List (Chunk × Option UserDataChunk)) : newPalettes (lay ps) = newPalettes (ps.map (·.1)) := by
  induction ps with
  | nil => rfl
  | cons p ps ih =>
    obtain ⟨c, u⟩ := p
    rw [lay_cons, List.map_cons]
    unfold newPalettes at ih ⊢
    cases u <;> cases c <;> simp [ih]

theorem newPalettes_all (hne : f.frames ≠ []) : newPalettes (allChunks (rawFrames f)) = [filePaletteChunk f] := by
  obtain ⟨fr, frs, hfr⟩ := List.exists_cons_of_ne_nil hne
  have hc : ∀ fr : Frame, newPalettes (lay (celItems fr)) = [] := by
    intro fr
    rw [newPalettes_lay, celItems]
    simp [newPalettes, List.filterMap_map, Function.comp_def]
  have hall : ∀ frs : List Frame, newPalettes (allChunks (frs.map fun fr => (⟨fr.duration, lay (celItems fr)⟩ : RawFrame))) = [] := by
    intro frs
    induction frs with
    | nil => rfl
    | cons fr frs ih =>
      have hc := hc fr
      unfold newPalettes allChunks at *
      simp only [List.map_cons, List.flatMap_cons, List.filterMap_append, hc, ih, List.append_nil]
  have h1 : newPalettes (lay (headItems f ++ celItems fr)) = [filePaletteChunk f] := by
    rw [newPalettes_lay, headItems, celItems]
    simp [newPalettes, List.filterMap_map, List.filterMap_append, Function.comp_def]
  have h2 := hall frs
  rw [rawFrames, hfr]
  unfold newPalettes allChunks at *
  simp only [List.flatMap_cons, List.filterMap_append, h1, h2, List.append_nil]

theorem filePalette_raw {plat : Plat} (hp : PossibleFile plat f) :
    filePalette ⟨f.header, rawFrames f⟩ = .ok f.palette := by
  rw [filePalette_eq]
  show (if f.header.colorDepth = .indexed then _ else _) = _
  split
  · rename_i hi
    obtain ⟨p, c, h1, h2, h3, h4⟩ := hp.palette hi
    have hnew := newPalettes_all hp.frames
    rw [filePaletteChunk, h1] at hnew
    dsimp only at hnew
    have hw : paletteWrites (allChunks (rawFrames f)) = newWrites (paletteFor p) := by
      unfold paletteWrites
      rw [if_pos (by rw [hnew]; simp), hnew, List.flatMap_singleton]
    have hne : newWrites (paletteFor p) ≠ [] := by
      rw [newWrites_paletteFor h2]
      intro h0
      have := congrArg List.length h0
      simp [writesAt, h2] at this
    have : paletteProblem (allChunks (rawFrames f)) = none := by
      unfold paletteProblem
      rw [if_neg (by rw [hnew]; simp), if_neg (by rw [hnew]; simp), if_neg (by rw [hw]; exact hne)]
    rw [this, hw]
    dsimp only
    rw [h1]
    exact congrArg (fun x => Outcome.ok (some x)) (paletteOf_paletteFor h2 h3 h4)
  · rename_i hi
    rw [hp.noPalette hi]

theorem slots_back {n : Nat} {cels : List (Option CelChunk)} (hn : cels.length = n)
    (h : ∀ (i : Nat) (c : CelChunk), cels[i]? = some (some c) → c.layerIndex.toNat = i) :
    slots n (cels.filterMap id) = cels := by
  have hs := (slots_sorted cels 0 (fun l c hc => by rw [h l c hc, Nat.zero_add])).1
  refine List.ext_getElem? fun i => ?_
  rw [slots, List.getElem?_map]
  by_cases hi : i < n
  · rw [List.getElem?_range hi, Option.map_some, List.getElem?_eq_getElem (by omega)]
    congr 1
    have hi' : i < cels.length := by omega
    cases hc : cels[i] with
    | some c =>
      have hget : cels[i]? = some (some c) := by rw [List.getElem?_eq_getElem hi', hc]
      exact (slot_of_sorted hs).2 ⟨mem_filterMap_id.2 (List.mem_of_getElem? hget), h i c hget⟩
    | none =>
      cases hd : slot (cels.filterMap id) i with
      | none => rfl
      | some d =>
        obtain ⟨h1, h2⟩ := (slot_of_sorted hs).1 hd
        obtain ⟨j, hj⟩ := List.mem_iff_getElem?.1 (mem_filterMap_id.1 h1)
        have := h j d hj
        have hij : j = i := by omega
        subst hij
        rw [List.getElem?_eq_getElem hi', hc] at hj
        cases hj
  · rw [List.getElem?_eq_none (by simpa using hi), List.getElem?_eq_none (by omega)]
    rfl

/-! ### The file can be written -/

/-- The room for a chunk. -/
def fileRoom (size : UserDataChunk → Nat) : Chunk → Nat
  | .layer l => 64 + (utf8 l.name).length
  | .tags t => 64 + (t.tags.map fun t => (utf8 t.name).length).sum
  | .slice s => 64 + (utf8 s.name).length + 64 * s.sliceKeys.length
  | .palette c => 64 + 64 * c.entries.length
  | .cel c => 64 + (celContentBytes c.content).length
  | .userData u => size u
  | _ => 0

theorem room_lay (size : UserDataChunk → Nat) (ps : List (Chunk × Option UserDataChunk)) :
    ((lay ps).map (fileRoom size)).sum = (ps.map fun p => fileRoom size p.1 + sizeOf? size p.2).sum := by
  induction ps with
  | nil => rfl
  | cons p ps ih =>
    obtain ⟨c, u⟩ := p
    rw [lay_cons]
    cases u <;> simp [ih, sizeOf?, fileRoom] <;> omega

theorem content_lay {size : UserDataChunk → Nat} {U : UserDataChunk → Bytes → Prop}
    {ps : List (Chunk × Option UserDataChunk)}
    (h1 : ∀ p ∈ ps, ∃ code body, IsContent U p.1 code body ∧ 6 + body.length ≤ fileRoom size p.1)
    (h2 : ∀ p ∈ ps, ∀ u, p.2 = some u → ∃ body, U u body ∧ 6 + body.length ≤ size u) :
    ∀ c ∈ lay ps, ∃ code body, IsContent U c code body ∧ 6 + body.length ≤ fileRoom size c := by
  intro c hc
  obtain ⟨p, hp, hc⟩ := List.mem_flatMap.1 hc
  rw [List.mem_cons, Option.mem_toList, Option.map_eq_some_iff] at hc
  rcases hc with rfl | ⟨u, hu, rfl⟩
  · exact h1 p hp
  · obtain ⟨body, h3, h4⟩ := h2 p hp u hu
    exact ⟨0x2020, body, ⟨rfl, h3⟩, h4⟩

theorem content_celItems {plat : Plat} (hp : PossibleFile plat f) {size : UserDataChunk → Nat}
    {U : UserDataChunk → Bytes → Prop} {fr : Frame} (hfr : fr ∈ f.frames) :
    ∀ p ∈ celItems fr, ∃ code body, IsContent U p.1 code body ∧ 6 + body.length ≤ fileRoom size p.1 := by
  intro p h
  obtain ⟨c, hc, rfl⟩ := List.mem_map.1 h
  obtain ⟨i, hi⟩ := List.mem_iff_getElem?.1 (mem_filterMap_id.1 hc)
  obtain ⟨code, b, h1, h2⟩ := cel_of_read (U := U) (hp.cels fr hfr i c hi).2
  exact ⟨code, b, h1, by simp only [fileRoom]; omega⟩

theorem content_headItems {plat : Plat} (hp : PossibleFile plat f) {size : UserDataChunk → Nat}
    {U : UserDataChunk → Bytes → Prop} :
    ∀ p ∈ headItems f, ∃ code body, IsContent U p.1 code body ∧ 6 + body.length ≤ fileRoom size p.1 := by
  intro p h
  simp only [headItems, List.mem_cons, List.mem_append, List.mem_map] at h
  rcases h with rfl | (⟨l, hl, rfl⟩ | ⟨t, ht, rfl⟩) | ⟨s, hs, rfl⟩
  · show ∃ code body, IsContent U (.palette (filePaletteChunk f)) code body ∧ _ ≤ chunkRoom (.palette (filePaletteChunk f))
    unfold filePaletteChunk
    by_cases hi : f.header.colorDepth = .indexed
    · obtain ⟨q, -, h1, h2, -⟩ := hp.palette hi
      rw [h1]
      exact content_paletteFor h2
    · rw [hp.noPalette hi]
      exact ⟨0x2019, _, ⟨rfl, _, [], isPalette_bytes ⟨by decide, by decide, nofun⟩, rfl⟩, by decide⟩
  · obtain ⟨b, h1, h2⟩ := layer_of_read (hp.layers l hl)
    exact ⟨0x2004, b, ⟨rfl, b, [], h1, by simp⟩, by simp only [fileRoom]; omega⟩
  · obtain ⟨b, h1, h2⟩ := tag_of_read (hp.tags t ht)
    exact ⟨0x2018, b, ⟨rfl, b, [], h1, by simp⟩, by simp [fileRoom]; omega⟩
  · obtain ⟨b, h1, h2⟩ := slice_of_read (hp.slices s hs)
    exact ⟨0x2022, b, ⟨rfl, b, [], h1, by simp⟩, by simp only [fileRoom]; omega⟩

theorem raw_written (plat : Plat) (hp : PossibleFile plat f) (hs : SmallFile plat f) :
    ∃ b, parseRawFile plat b = .ok ⟨f.header, rawFrames f⟩ := by
  obtain ⟨size, hsize, hsum⟩ := hs
  have hcu : ∀ fr ∈ f.frames, ∀ p ∈ celItems fr, ∀ u, p.2 = some u →
      ∃ body, readsUserData plat u body ∧ 6 + body.length ≤ size u := by
    intro fr hfr p h u hu
    obtain ⟨c, hc, rfl⟩ := List.mem_map.1 h
    exact hsize u (.inr (.inr (.inr (.inr ⟨fr, hfr, c, mem_filterMap_id.1 hc, hu⟩))))
  have hhu : ∀ p ∈ headItems f, ∀ u, p.2 = some u →
      ∃ body, readsUserData plat u body ∧ 6 + body.length ≤ size u := by
    intro p h u hu
    simp only [headItems, List.mem_cons, List.mem_append, List.mem_map] at h
    rcases h with rfl | (⟨l, hl, rfl⟩ | ⟨t, ht, rfl⟩) | ⟨s, hs, rfl⟩
    · exact hsize u (.inl hu)
    · exact hsize u (.inr (.inl ⟨l, hl, hu⟩))
    · exact hsize u (.inr (.inr (.inl ⟨t, ht, hu⟩)))
    · exact hsize u (.inr (.inr (.inr (.inl ⟨s, hs, hu⟩))))
  have hcr : ∀ fr : Frame, ((lay (celItems fr)).map (fileRoom size)).sum =
      ((fr.cels.filterMap id).map fun c => 64 + (celContentBytes c.content).length + sizeOf? size c.userData).sum := by
    intro fr
    rw [room_lay, celItems, List.map_map]
    rfl
  have hpal : fileRoom size (.palette (filePaletteChunk f)) ≤ 2 ^ 15 := by
    unfold filePaletteChunk
    by_cases hi : f.header.colorDepth = .indexed
    · obtain ⟨q, -, h1, h2, -⟩ := hp.palette hi
      rw [h1]
      simp [fileRoom, paletteFor, h2]
    · rw [hp.noPalette hi]
      simp [fileRoom]
  have hhr : ((lay (headItems f)).map (fileRoom size)).sum ≤ 2 ^ 15 + sizeOf? size f.userData
      + (f.layers.map fun l => 64 + (utf8 l.name).length + sizeOf? size l.userData).sum
      + (f.tags.map fun t => 64 + (utf8 t.name).length + sizeOf? size t.userData).sum
      + (f.slices.map fun s => 64 + (utf8 s.name).length + 64 * s.sliceKeys.length + sizeOf? size s.userData).sum := by
    rw [room_lay, headItems, List.map_cons, List.sum_cons, List.map_append, List.map_append, List.sum_append, List.sum_append,
      List.map_map, List.map_map, List.map_map]
    have e1 : (f.layers.map ((fun p : Chunk × Option UserDataChunk => fileRoom size p.1 + sizeOf? size p.2) ∘
        fun l => (Chunk.layer { l with userData := none }, l.userData))) =
        f.layers.map fun l => 64 + (utf8 l.name).length + sizeOf? size l.userData := rfl
    have e2 : (f.tags.map ((fun p : Chunk × Option UserDataChunk => fileRoom size p.1 + sizeOf? size p.2) ∘
        fun t => (Chunk.tags ⟨[{ t with userData := none }]⟩, t.userData))) =
        f.tags.map fun t => 64 + (utf8 t.name).length + sizeOf? size t.userData := rfl
    have e3 : (f.slices.map ((fun p : Chunk × Option UserDataChunk => fileRoom size p.1 + sizeOf? size p.2) ∘
        fun s => (Chunk.slice { s with userData := none }, s.userData))) =
        f.slices.map fun s => 64 + (utf8 s.name).length + 64 * s.sliceKeys.length + sizeOf? size s.userData := rfl
    rw [e1, e2, e3]
    dsimp only
    omega
  obtain ⟨fr, frs, hfr⟩ := List.exists_cons_of_ne_nil hp.frames
  obtain ⟨l, hl⟩ := write_seq (G := IsFrame (readsUserData plat)) (xs := rawFrames f) (by
    intro x hx
    rw [rawFrames, hfr, List.mem_cons, List.mem_map] at hx
    rcases hx with rfl | ⟨fr', hfr', rfl⟩
    · have hmem : fr ∈ f.frames := by rw [hfr]; simp
      refine write_frame_room (fileRoom size) (content_lay ?_ ?_) ?_
      · intro p hp'
        rcases List.mem_append.1 hp' with h | h
        · exact content_headItems hp p h
        · exact content_celItems hp hmem p h
      · intro p hp'
        rcases List.mem_append.1 hp' with h | h
        · exact hhu p h
        · exact hcu fr hmem p h
      · have e : lay (headItems f ++ celItems fr) = lay (headItems f) ++ lay (celItems fr) := by simp [lay]
        have := hsum fr hmem
        show 16 + ((lay (headItems f ++ celItems fr)).map (fileRoom size)).sum < 2 ^ 32
        rw [e, List.map_append, List.sum_append, hcr]
        omega
    · have hmem : fr' ∈ f.frames := by rw [hfr]; simp [hfr']
      refine write_frame_room (fileRoom size) (content_lay (content_celItems hp hmem) (hcu fr' hmem)) ?_
      have := hsum fr' hmem
      show 16 + ((lay (celItems fr')).map (fileRoom size)).sum < 2 ^ 32
      rw [hcr]
      omega)
  refine ⟨_, parseRawFile_ok.2 ⟨headerBytes f.header, l, isHeader_bytes (depth_read.1 hp.depth), ?_, hl, rfl⟩⟩
  show rawFrames f ≠ []
  rw [rawFrames, hfr]
  nofun

end

/-- **C132.** Every such file (that is not too large) can be parsed. -/
theorem C132_every (plat : Plat) (f : File) (hp : PossibleFile plat f) (hs : SmallFile plat f) :
    ∃ b, parseFile plat b = .ok f := by
  obtain ⟨b, hb⟩ := raw_written plat hp hs
  refine ⟨b, parseFile_ok.2 ⟨_, hb, (assembleFile_ok (fresh hb)).2 ⟨f.palette, filePalette_raw hp, ?_, ?_⟩⟩⟩ <;>
    obtain ⟨fr, frs, hfr⟩ := List.exists_cons_of_ne_nil hp.frames
  all_goals
    have hl : allLayers (rawFrames f) = f.layers := by
      rw [allLayers, rawFrames, hfr]
      simp [layersOf_first, layersOf_celItems, List.flatMap_map]
  · intro c hc
    rw [hl]
    have ⟨g, hg, hc⟩ : ∃ g ∈ f.frames, some c ∈ g.cels := by
      rw [allCels, rawFrames, hfr] at hc
      simp only [List.flatMap_cons, List.flatMap_map, List.mem_append, List.mem_flatMap, celsOf_first, celsOf_celItems,
        mem_filterMap_id] at hc
      rcases hc with hc | ⟨g, hg, hc⟩
      · exact ⟨fr, by rw [hfr]; simp, hc⟩
      · exact ⟨g, by rw [hfr]; simp [hg], hc⟩
    obtain ⟨i, hi⟩ := List.mem_iff_getElem?.1 hc
    rw [(hp.cels g hg i c hi).1, ← hp.slots g hg]
    exact (List.getElem?_eq_some_iff.1 hi).1
  · have hback : ∀ g ∈ f.frames, slots f.layers.length (g.cels.filterMap id) = g.cels := fun g hg =>
      slots_back (hp.slots g hg) fun i c hc => (hp.cels g hg i c hc).1
    obtain ⟨header, palette, layers, frames, tags, slices, userData⟩ := f
    simp only at hfr hl hback ⊢
    subst hfr
    simp only [hl, File.mk.injEq, true_and]
    simp only [rawFrames, List.map_cons, List.map_map, List.flatMap_cons, List.flatMap_map, celsOf_first, tagsOf_first, tagsOf_celItems,
      slicesOf_first, slicesOf_celItems, List.head?_cons, Option.bind_some, spriteUserData_first]
    refine ⟨?_, by simp, by simp⟩
    rw [hback fr (by simp)]
    congr 1
    symm
    conv => rhs; rw [← List.map_id frs]
    refine List.map_congr_left fun g hg => ?_
    show (⟨g.duration, slots _ (celsOf (lay (celItems g)))⟩ : Frame) = g
    rw [celsOf_celItems, hback g (by simp [hg])]

/-- **C132.** Exactly the possible files (that are not too large) can be parsed. -/
theorem C132_exactly (plat : Plat) (f : File) (hs : SmallFile plat f) :
    (∃ b, parseFile plat b = .ok f) ↔ PossibleFile plat f :=
  ⟨fun ⟨b, h⟩ => C132_possible plat b f h, fun h => C132_every plat f h hs⟩

/-- **C132.** User data without properties can be read exactly if its text has less than 64 KiB. -/
theorem C132_text (plat : Plat) (u : UserDataChunk) (hu : u.propertiesMaps = none) :
    (∃ body, body.length < 2 ^ 32 ∧ readsUserData plat u body) ↔ ∀ s, u.text = some s → FitsStr s := by
  constructor
  · rintro ⟨body, hl, _, h⟩ s hs
    obtain ⟨_, _, _, _, h1, -, -, -⟩ := (parseUserDataChunk_ok (by omega)).1 h
    rw [hs] at h1
    exact h1.2.1
  · intro h
    have hl : (userDataBytes u).length < 2 ^ 32 := by
      have h1 : ((u.text.map str).getD []).length < 2 ^ 17 := by
        cases ht : u.text with
        | none => simp
        | some s =>
          have := h s ht
          simp only [FitsStr] at this
          simp [str, leNat16, leBytes]
          omega
      have h2 : ((u.color.map color).getD []).length ≤ 4 := by cases u.color <;> simp [color]
      rw [userDataBytes, hu]
      simp only [List.length_append, le32, leBytes, List.length_cons, List.length_nil]
      omega
    exact ⟨_, hl, readsUserData_bytes ⟨h, by simp [hu]⟩ (by simp [NoNestedMaps, hu]) hl (by simp [StackFor, hu])⟩

/-- **C132.** User data with properties (but no map inside a map) can be read if it fits, given the stack. -/
theorem C132_properties (plat : Plat) (u : UserDataChunk) (hf : FitsUserData u) (hn : NoNestedMaps (.userData u))
    (hl : (userDataBytes u).length < 2 ^ 32) (hs : StackFor plat (.userData u)) :
    ∃ body, body.length < 2 ^ 32 ∧ readsUserData plat u body :=
  ⟨_, hl, readsUserData_bytes hf hn hl hs⟩

/-! ## A file with user data on everything -/

namespace Sample

/-- Some user data. -/
def note (s : String) : UserDataChunk := ⟨some s, some ⟨1, 2, 3, 4⟩, none⟩

/-- A file with user data on the sprite, a layer, a tag, a slice and a cel. -/
def notedFile : File where
  header := anyHeader .rgba
  palette := none
  layers := [⟨⟨3⟩, .tilemap, 0, .normal, 255, "tiles", some 7, some (note "layer")⟩,
    ⟨⟨1⟩, .normal, 0, .multiply, 9, "ink", none, none⟩]
  frames := [⟨100, [none, some ⟨1, -3, 4, 128, 0, .image ⟨1, 1, [1, 2, 3, 4], false⟩, some (note "cel")⟩]⟩,
    ⟨50, [some ⟨0, 0, 0, 255, 5, .unknown 9 [1, 2], none⟩, some ⟨1, 0, 0, 255, 0, .linkedCel 0, none⟩]⟩]
  tags := [⟨0, 1, .reverse, 2, (1, 2, 3), "run", some (note "tag")⟩, ⟨1, 1, .forward, 0, (0, 0, 0), "", none⟩]
  slices := [⟨"box", ⟨2⟩, [⟨0, 1, 2, 3, 4, none, some ⟨5, 6⟩⟩], some (note "slice")⟩]
  userData := some (note "sprite")

theorem noted_notes {u : UserDataChunk} (h : UserDataOf notedFile u) :
    u ∈ [note "layer", note "cel", note "tag", note "slice", note "sprite"] := by
  rcases h with h | ⟨_, h, hu⟩ | ⟨_, h, hu⟩ | ⟨_, h, hu⟩ | ⟨_, h, _, hc, hu⟩
  · cases h; simp
  · simp only [notedFile, List.mem_cons, List.not_mem_nil, or_false] at h
    rcases h with rfl | rfl <;> cases hu
    simp
  · simp only [notedFile, List.mem_cons, List.not_mem_nil, or_false] at h
    rcases h with rfl | rfl <;> cases hu
    simp
  · simp only [notedFile, List.mem_cons, List.not_mem_nil, or_false] at h
    subst h
    cases hu
    simp
  · simp only [notedFile, List.mem_cons, List.not_mem_nil, or_false] at h
    rcases h with rfl | rfl <;> simp only [List.mem_cons, List.not_mem_nil, or_false, Option.some.injEq, reduceCtorEq, false_or] at hc
    · subst hc
      cases hu
      simp
    · rcases hc with rfl | rfl <;> cases hu

theorem note_text {u : UserDataChunk} (h : UserDataOf notedFile u) :
    u.propertiesMaps = none ∧ ∀ s, u.text = some s → FitsStr s := by
  have := noted_notes h
  simp only [List.mem_cons, List.not_mem_nil, or_false] at this
  rcases this with rfl | rfl | rfl | rfl | rfl <;> exact ⟨rfl, fun s hs => by cases hs; decide +kernel⟩

theorem notedFile_possible (plat : Plat) : PossibleFile plat notedFile where
  depth := by simp [notedFile, anyHeader]
  palette := by simp [notedFile, anyHeader]
  noPalette := fun _ => rfl
  layers := by
    intro l hl
    simp only [notedFile, List.mem_cons, List.not_mem_nil, or_false] at hl
    rcases hl with rfl | rfl
    · exact ⟨by decide, trivial, trivial, by decide +kernel, by simp⟩
    · exact ⟨by decide, trivial, trivial, by decide +kernel, by simp⟩
  tags := by
    intro t ht
    simp only [notedFile, List.mem_cons, List.not_mem_nil, or_false] at ht
    rcases ht with rfl | rfl
    · exact ⟨by decide, trivial, by decide +kernel⟩
    · exact ⟨by decide, trivial, by decide +kernel⟩
  slices := by
    intro s hs
    simp only [notedFile, List.mem_cons, List.not_mem_nil, or_false] at hs
    subst hs
    refine ⟨by decide, by decide, by decide +kernel, fun k hk => ?_⟩
    simp only [List.mem_cons, List.not_mem_nil, or_false] at hk
    subst hk
    simp [bit32]
    decide
  frames := by simp [notedFile]
  slots := by simp [notedFile]
  cels := by
    intro fr hfr i c hc
    simp only [notedFile, List.mem_cons, List.not_mem_nil, or_false] at hfr
    rcases hfr with rfl | rfl
    · match i, hc with
      | 1, hc => cases hc; exact ⟨rfl, nofun⟩
      | i + 2, hc => simp at hc
    · match i, hc with
      | 0, hc => cases hc; exact ⟨rfl, fun t d h => by cases h; exact .inr (by decide)⟩
      | 1, hc => cases hc; exact ⟨rfl, nofun⟩
      | i + 2, hc => simp at hc
  userData := fun u hu => (C132_text plat u (note_text hu).1).2 (note_text hu).2

theorem notedFile_small (plat : Plat) : SmallFile plat notedFile := by
  refine ⟨fun _ => 100, fun u hu => ?_, by decide +kernel⟩
  have hl : 6 + (userDataBytes u).length ≤ 100 := by
    have := noted_notes hu
    simp only [List.mem_cons, List.not_mem_nil, or_false] at this
    rcases this with rfl | rfl | rfl | rfl | rfl <;> decide +kernel
  obtain ⟨h1, h2⟩ := note_text hu
  exact ⟨_, readsUserData_bytes ⟨h2, by simp [h1]⟩ (by simp [NoNestedMaps, h1]) (by omega) (by simp [StackFor, h1]), hl⟩

end Sample

example (plat : Plat) : ∃ b, parseFile plat b = .ok Sample.notedFile :=
  (C132_exactly plat _ (Sample.notedFile_small plat)).2 (Sample.notedFile_possible plat)

-- a tilemap layer without a tileset: no file gives that
example (plat : Plat) (b : Bytes) (f : File) (h : parseFile plat b = .ok f) :
    ∀ l ∈ f.layers, l.layerType = .tilemap → l.tilesetIndex ≠ none := by
  intro l hl ht hn
  have := ((C132_possible plat b f h).layers l hl).2.2.2.2.2 ht
  rw [hn] at this
  cases this

end Ase
