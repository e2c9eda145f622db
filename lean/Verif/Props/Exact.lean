import Verif.Props.PanicsExact
import Verif.Props.Codes
import Verif.Props.Image
import Verif.Props.Blend
import Verif.Props.Render

/-!
# C14, C20, C23, C34, C44, C45: what happens where the property fails

For six properties that do not hold of the code in general, the behaviour in all cases, so that exactly the cases in
which they hold can be read off.
-/

namespace Ase

open Spec

/-! ## C14: palette chunks with another palette size -/

theorem Seq.split {α : Type} {G : α → Bytes → Prop} {xs : List α} {l : Bytes} (h : Seq G xs l) (n : Nat) :
    ∃ l1 l2, Seq G (xs.take n) l1 ∧ Seq G (xs.drop n) l2 ∧ l = l1 ++ l2 := by
  induction h generalizing n with
  | nil => exact ⟨[], [], by simp [Seq.nil], by simp [Seq.nil], rfl⟩
  | @cons x xs b bs hx hs ih =>
    cases n with
    | zero => exact ⟨[], b ++ bs, .nil, .cons hx hs, rfl⟩
    | succ n =>
      obtain ⟨l1, l2, h1, h2, rfl⟩ := ih n
      exact ⟨b ++ l1, l2, .cons hx h1, h2, by simp⟩

/-- **C14, exactly when.** A palette chunk as documented, with any palette size and any entries, is read as follows: as many
entries as the palette size says, ignoring further ones; if there are fewer, the chunk is rejected.  So it is read
correctly exactly if the palette size is the number of entries.

*Missing:* all entries should be read, whatever the palette size. -/
theorem C14_documented_partial (size : Nat) (c : PaletteChunk) (l : Bytes) (h : IsPalette size c l) :
    (size ≤ c.entries.length → ∃ rest, Seq IsPaletteEntry (c.entries.drop size) rest ∧ rest <:+ l ∧
      parsePaletteChunk l = .ok (rest, { c with entries := c.entries.take size })) ∧
    (c.entries.length < size → parsePaletteChunk l = .err (.error (.nom [] .eof))) ∧
    ((∃ r, parsePaletteChunk l = .ok (r, c)) ↔ size = c.entries.length) := by
  obtain ⟨fu, es, hfu, hn, hle, hs, rfl⟩ := h
  have key1 : size ≤ c.entries.length → ∃ rest, Seq IsPaletteEntry (c.entries.drop size) rest ∧
      rest <:+ leNat32 size ++ leNat32 c.firstIndex.toNat ++ leNat32 c.lastIndex.toNat ++ fu ++ es ∧
      parsePaletteChunk (leNat32 size ++ leNat32 c.firstIndex.toNat ++ leNat32 c.lastIndex.toNat ++ fu ++ es) =
        .ok (rest, { c with entries := c.entries.take size }) := by
    intro hlt
    obtain ⟨l1, l2, h1, h2, rfl⟩ := Seq.split hs size
    refine ⟨l2, h2, ⟨leNat32 size ++ leNat32 c.firstIndex.toNat ++ leNat32 c.lastIndex.toNat ++ fu ++ l1, by simp⟩, ?_⟩
    refine (parses_palette _ _ _).2 ⟨_, ⟨fu, l1, hfu, ?_, hle, h1, rfl⟩, ?_⟩
    · simp only [List.length_take]; omega
    · simp only [List.length_take, Nat.min_eq_left hlt, List.append_assoc]
  have key2 : c.entries.length < size →
      parsePaletteChunk (leNat32 size ++ leNat32 c.firstIndex.toNat ++ leNat32 c.lastIndex.toNat ++ fu ++ es) =
        .err (.error (.nom [] .eof)) := by
    intro hlt
    simp only [List.append_assoc]
    unfold parsePaletteChunk
    refine (P.bind_err.2 (.inr ⟨_, _, parseDwordAsUsize_ok.2 ⟨hn, rfl⟩, P.bind_err.2 (.inr ⟨c.firstIndex, _,
      parseDwordAsU8_ok.2 rfl, P.bind_err.2 (.inr ⟨c.lastIndex, _, parseDwordAsU8_ok.2 rfl, ?_⟩)⟩)⟩))
    rw [if_neg (by simpa [UInt8.lt_iff_toNat_lt] using hle)]
    refine P.bind_err.2 (.inr ⟨fu, es, take_ok.2 ⟨hfu, rfl⟩, P.bind_err.2 (.inl ?_)⟩)
    exact (count_err parses_paletteEntry).2 ⟨c.entries, es, [], hs, by simp, hlt, by decide⟩
  refine ⟨key1, key2, fun ⟨r, hr⟩ => ?_, fun he => ?_⟩
  · by_cases hlt : c.entries.length < size
    · rw [key2 hlt] at hr; cases hr
    · obtain ⟨rest, _, _, h⟩ := key1 (by omega)
      rw [h] at hr
      have := congrArg (fun x => x.entries.length) (Prod.mk.inj (Outcome.ok.inj hr)).2
      simp only [List.length_take] at this
      omega
  · obtain ⟨rest, _, _, h⟩ := key1 (by omega)
    exact ⟨rest, by rw [h, List.take_of_length_le (by omega)]⟩

-- two entries for the colours 3 and 4; palette sizes 1, 2 and 5
example :
    (let chunk := fun n => [n, 0, 0, 0, 3, 0, 0, 0, 4, 0, 0, 0] ++ List.replicate 8 0 ++ [0, 0, 1, 2, 3, 4]
      ++ [0, 0, 5, 6, 7, 8]
    parsePaletteChunk (chunk 1) = .ok ([0, 0, 5, 6, 7, 8], ⟨3, 4, [⟨⟨1, 2, 3, 4⟩, none⟩]⟩) ∧
    parsePaletteChunk (chunk 2) = .ok ([], ⟨3, 4, [⟨⟨1, 2, 3, 4⟩, none⟩, ⟨⟨5, 6, 7, 8⟩, none⟩]⟩) ∧
    parsePaletteChunk (chunk 5) = .err (.error (.nom [] .eof))) := by decide +kernel

/-! ## C20: the three wrong constants -/

theorem contains16_mask {w mask m : UInt16} {s : List Nat} (hm : ∀ i < 16, m.toNat.testBit i = decide (i ∈ s))
    (hk : ∀ i ∈ s, mask.toNat.testBit i = true) (hs : ∀ i ∈ s, i < 16) :
    (w &&& mask &&& m == m) = true ↔ ∀ i ∈ s, bit16 w i := by
  rw [beq_iff_eq, ← UInt16.toNat_inj, UInt16.toNat_and, UInt16.toNat_and]
  have hbig : ∀ i, 16 ≤ i → m.toNat.testBit i = false := fun i hi =>
    Nat.testBit_lt_two_pow (Nat.lt_of_lt_of_le m.toNat_lt (Nat.pow_le_pow_right (by omega) hi))
  constructor
  · intro h i hi
    have := congrArg (fun n => Nat.testBit n i) h
    simp only [Nat.testBit_and, hm i (hs i hi), hk i hi, hi, decide_true, Bool.and_true] at this
    exact this
  · intro h
    apply Nat.eq_of_testBit_eq
    intro i
    rw [Nat.testBit_and, Nat.testBit_and]
    by_cases hi : i < 16
    · rw [hm i hi]
      by_cases his : i ∈ s
      · rw [hk i his, show w.toNat.testBit i = true from h i his]; simp
      · simp [his]
    · rw [hbig i (by omega)]; simp

/-- **C20, the remaining flags.** The three other layer flags test three bits each: `PREFER_LINKED_CELS` (documented: bit
4) bits 1, 2 and 4, `COLLAPSED` (bit 5) bits 1, 4 and 5, `REFERENCE` (bit 6) bits 2, 5 and 6.  So each of them is set
only if its documented bit is, but not conversely.

*Missing:* the converse, which is false. -/
theorem C20_other_flags_partial (w : UInt16) :
    ((LayerFlags.fromBitsTruncate w).contains LayerFlags.PREFER_LINKED_CELS = true ↔
      bit16 w 4 ∧ bit16 w 1 ∧ bit16 w 2) ∧
    ((LayerFlags.fromBitsTruncate w).contains LayerFlags.COLLAPSED = true ↔ bit16 w 5 ∧ bit16 w 1 ∧ bit16 w 4) ∧
    ((LayerFlags.fromBitsTruncate w).contains LayerFlags.REFERENCE = true ↔ bit16 w 6 ∧ bit16 w 2 ∧ bit16 w 5) := by
  refine ⟨?_, ?_, ?_⟩
  · exact (contains16_mask (s := [4, 1, 2]) (by decide) (by decide) (by decide)).trans (by simp)
  · exact (contains16_mask (s := [5, 1, 4]) (by decide) (by decide) (by decide)).trans (by simp)
  · exact (contains16_mask (s := [6, 2, 5]) (by decide) (by decide) (by decide)).trans (by simp)

example : bit16 0x56 6 ∧ ¬ bit16 0x56 5 ∧ bit16 0x64 6 ∧
    (LayerFlags.fromBitsTruncate 0x56).contains LayerFlags.PREFER_LINKED_CELS = true ∧
    (LayerFlags.fromBitsTruncate 0x56).contains LayerFlags.REFERENCE = false ∧
    (LayerFlags.fromBitsTruncate 0x64).contains LayerFlags.REFERENCE = true := by
  unfold bit16
  decide

/-! ## C23: cels of layers that do not exist -/

/-- **C23, exactly when.** Suppose all of the input is well formed.  If it is an indexed file and there is something wrong
with its palette, `parse_file` returns that palette error.  Otherwise it looks at the first cel, in file order, whose
layer index is not that of a layer: if there is none it succeeds, if the index is larger than the number of layers it
returns `LayerIndexOutOfBounds`, and if it equals the number of layers it panics.

*Missing:* in the last case it should return the error, too. -/
theorem C23_exact_partial (plat : Plat) (b : Bytes) (raw : RawFile) (hraw : parseRawFile plat b = .ok raw) :
    let layers := (allLayers raw.frames).length
    let problem := if raw.header.colorDepth = .indexed then paletteProblem (allChunks raw.frames) else none
    (∀ e, problem = some e → parseFile plat b = .err (.failure (.paletteError e))) ∧
    (problem = none →
      ((∀ c ∈ allCels raw.frames, c.layerIndex.toNat < layers) → ∃ f, parseFile plat b = .ok f) ∧
      ∀ before c after, allCels raw.frames = before ++ c :: after → (∀ d ∈ before, d.layerIndex.toNat < layers) →
        (layers < c.layerIndex.toNat → parseFile plat b = .err (.failure .layerIndexOutOfBounds)) ∧
        (c.layerIndex.toNat = layers → parseFile plat b = .panic .indexOutOfBounds)) := by
  intro layers problem
  have hf := fresh hraw
  have hp : problem = none ↔ (raw.header.colorDepth = .indexed → paletteProblem (allChunks raw.frames) = none) := by
    simp only [problem]
    split
    · next h => exact ⟨fun h' _ => h', fun h' => h' h⟩
    · next h => exact ⟨fun _ h' => absurd h' h, fun _ => rfl⟩
  rw [parseFile_eq hraw]
  refine ⟨fun e he => ?_, fun hnone => ⟨fun hall => ?_, fun before c after heq hpre => ⟨fun hlt => ?_, fun heq' => ?_⟩⟩⟩
  · have hi : raw.header.colorDepth = .indexed := by
      simp only [problem] at he
      split at he
      · assumption
      · cases he
    refine (assembleFile_err hf).2 (.inl ⟨hi, e, ?_, rfl⟩)
    simp only [problem] at he
    rwa [if_pos hi] at he
  · cases ha : assembleFile raw with
    | ok f => exact ⟨f, rfl⟩
    | err e =>
      rcases (assembleFile_err hf).1 ha with ⟨hi, pe, h1, _⟩ | ⟨_, pre, c, post, h1, _, h3, _⟩
      · rw [hp.1 hnone hi] at h1; cases h1
      · exact absurd (hall c (by rw [h1]; simp)) (by simp only [layers]; omega)
    | panic k =>
      obtain ⟨_, _, pre, c, post, h1, _, h3⟩ := (assembleFile_panic hf).1 ha
      exact absurd (hall c (by rw [h1]; simp)) (by simp only [layers]; omega)
  · exact (assembleFile_err hf).2 (.inr ⟨hp.1 hnone, before, c, after, heq, hpre, hlt, rfl⟩)
  · exact (assembleFile_panic hf).2 ⟨rfl, hp.1 hnone, before, c, after, heq, hpre, heq'⟩

/-- One layer and a cel with layer index 0, 1 and 2. -/
example :
    (let file := fun n => Sample.header 1 1 32 ++ Sample.frame 1
      [Sample.layer 1 0 0 255 [65], Sample.cel n 0 0 1 1 [1, 2, 3, 4]]
    match parseFile ⟨true, 10⟩ (file 0), parseFile ⟨true, 10⟩ (file 1), parseFile ⟨true, 10⟩ (file 2) with
    | .ok _, .panic .indexOutOfBounds, .err (.failure .layerIndexOutOfBounds) => true
    | _, _, _ => false) = true := by decide +kernel

/-! ## C34: the layer a cel is drawn with -/

theorem getElem?_filter {α : Type} (p : α → Bool) (l : List α) (j : Nat) (x : α) (hx : l[j]? = some x) (hp : p x = true) :
    (l.filter p)[((l.take j).filter p).length]? = some x := by
  induction l generalizing j with
  | nil => simp at hx
  | cons y ys ih =>
    cases j with
    | zero => simp at hx; subst hx; simp [hp]
    | succ j =>
      simp only [List.getElem?_cons_succ] at hx
      rw [List.take_succ_cons, List.filter_cons, List.filter_cons]
      split
      · simp only [List.length_cons, List.getElem?_cons_succ]; exact ih j hx
      · exact ih j hx

theorem getElem?_filter_some {α : Type} (p : α → Bool) (l : List α) (i : Nat) (x : α) (hx : (l.filter p)[i]? = some x) :
    ∃ j, l[j]? = some x ∧ p x = true ∧ ((l.take j).filter p).length = i := by
  induction l generalizing i with
  | nil => simp at hx
  | cons y ys ih =>
    rw [List.filter_cons] at hx
    by_cases hy : p y = true
    · rw [if_pos hy] at hx
      cases i with
      | zero => simp at hx; subst hx; exact ⟨0, rfl, hy, rfl⟩
      | succ i =>
        obtain ⟨j, h1, h2, h3⟩ := ih i (by simpa using hx)
        exact ⟨j + 1, by simpa using h1, h2, by simp [hy, h3]⟩
    · rw [if_neg hy] at hx
      obtain ⟨j, h1, h2, h3⟩ := ih i hx
      exact ⟨j + 1, by simpa using h1, h2, by simp [hy, h3]⟩

theorem filter_take_length {α : Type} (p : α → Bool) (l : List α) (j : Nat) :
    ((l.take j).filter p).length ≤ j ∧
    (j ≤ l.length → (((l.take j).filter p).length = j ↔ ∀ (k : Nat) (x : α), k < j → l[k]? = some x → p x = true)) := by
  have h1 := List.length_filter_le p (l.take j)
  rw [List.length_take] at h1
  refine ⟨by omega, fun hj => ?_⟩
  rw [show (((l.take j).filter p).length = j ↔ ((l.take j).filter p).length = (l.take j).length) by
    rw [List.length_take, Nat.min_eq_left hj], List.length_filter_eq_length_iff]
  constructor
  · intro h k x hk hx
    exact h x (List.mem_of_getElem? (i := k) (by rw [List.getElem?_take, if_pos hk]; exact hx))
  · intro h x hx
    obtain ⟨k, hk⟩ := List.mem_iff_getElem?.1 hx
    rw [List.getElem?_take] at hk
    split at hk
    · exact h k x (by assumption) hk
    · cases hk

/-- **C34, exactly when.** A cel with layer index `i` is drawn with the layer chunk that is number `i` among the normal
layers and groups of the file (there need not be one).  That chunk is the one the cel belongs to, number `i` among all
layers of the file, if and only if that one and all before it are normal layers or groups; otherwise it is a later one.

*Missing:* it should always be the one the cel belongs to. -/
theorem C34_exact_partial (plat : Plat) (b : Bytes) (f : AsepriteFile) (h : AsepriteFile.load plat b = .ok f)
    (lf : LFrame) (hlf : lf ∈ f.frames) (c : FrameCel) (hc : c ∈ lf.cels) :
    (∃ own, f.file.layers[c.layerIndex]? = some own) ∧
    (∀ l, f.layers[c.layerIndex]? = some l → ∃ j chunk, f.file.layers[j]? = some chunk ∧ isDrawn chunk = true ∧
      ((f.file.layers.take j).filter isDrawn).length = c.layerIndex ∧ l = asLayer chunk) ∧
    ∀ j chunk, f.file.layers[j]? = some chunk → isDrawn chunk = true →
      ((f.file.layers.take j).filter isDrawn).length = c.layerIndex →
      f.layers[c.layerIndex]? = some (asLayer chunk) ∧ c.layerIndex ≤ j ∧
      (j = c.layerIndex ↔
        ∀ (k : Nat) (x : LayerChunk), k ≤ c.layerIndex → f.file.layers[k]? = some x → isDrawn x = true) := by
  have hl := (C29_layers plat b f h).2
  have hlt := ((C31_references plat b f h lf hlf).1 c hc).1
  refine ⟨⟨_, List.getElem?_eq_getElem hlt⟩, fun l h1 => ?_, fun j chunk h1 h2 h3 => ?_⟩
  · rw [hl, List.getElem?_map] at h1
    obtain ⟨chunk, h2, rfl⟩ := Option.map_eq_some_iff.1 h1
    obtain ⟨j, h3, h4, h5⟩ := getElem?_filter_some _ _ _ _ h2
    exact ⟨j, chunk, h3, h4, h5, rfl⟩
  · have hj : j < f.file.layers.length := (List.getElem?_eq_some_iff.1 h1).1
    have hcount := filter_take_length isDrawn f.file.layers j
    refine ⟨?_, by omega, ?_⟩
    · rw [hl, List.getElem?_map, ← h3, getElem?_filter _ _ _ _ h1 h2]; rfl
    · constructor
      · intro hjc k x hk hx
        by_cases hkj : k = j
        · subst hkj; rw [h1] at hx; cases hx; exact h2
        · exact (hcount.2 (by omega)).1 (by omega) k x (by omega) hx
      · intro hall
        rcases Nat.lt_or_ge c.layerIndex j with hlt' | hge
        · have h4 := (filter_take_length isDrawn f.file.layers (c.layerIndex + 1)).2 (by omega)
          have h5 := h4.2 fun k x hk hx => hall k x (by omega) hx
          have h6 : ((f.file.layers.take (c.layerIndex + 1)).filter isDrawn).length ≤
              ((f.file.layers.take j).filter isDrawn).length := by
            have : f.file.layers.take (c.layerIndex + 1) = (f.file.layers.take j).take (c.layerIndex + 1) := by
              rw [List.take_take, Nat.min_eq_left (by omega)]
            rw [this]
            exact ((List.take_sublist _ _).filter _).length_le
          omega
        · omega

-- the file of `C34_wrong_layer`: the cel of layer 1 ("A") is drawn with the layer number 1 among the others, "B"
example : (match AsepriteFile.load ⟨true, 10⟩ Sample.tilemapBelow with
    | .ok f => f.frames.map (·.cels.map (·.layerIndex)) == [[1]] && ((f.file.layers.take 2).filter isDrawn).length == 1
    | _ => false) = true := by decide +kernel

/-! ## C44: pixels that are missing in the data -/

/-- **C44, in all cases.** If `load_image` succeeds, every pixel of the image has the colour that is stored for it in the
data, extended to the size of the image: by zeros if the image is grayscale (so missing pixels are transparent black) or
indexed (so missing pixels have palette colour 0), and by the old contents of the buffer if it is RGBA.

*Missing:* the last case depends on the old contents. -/
theorem C44_all_pixels_partial (plat : Plat) (b : Bytes) (f : AsepriteFile) (h : AsepriteFile.load plat b = .ok f)
    (inflate : Inflater) (hfit : Fits inflate) (i : Nat) (im : Image) (him : f.images[i]? = some im) (t t' : Bytes)
    (hok : f.loadImage inflate i t = (.ok (), t')) :
    let depth := f.file.header.colorDepth
    let stored := im.width.toNat * im.height.toNat * bytesPerPixel depth
    ∃ raw, Stored inflate im stored raw ∧ (im.compressed = false → raw.length = stored) ∧ raw.length ≤ stored ∧
      ∀ p, p < im.width.toNat * im.height.toNat → ∃ c, pixel t' p = some c ∧
        storedPixel depth f.file.palette
          (raw ++ (if depth = .rgba then t.take stored else List.replicate stored 0).drop raw.length) p = some c := by
  obtain ⟨h1, h2⟩ := load_ok.1 h
  obtain ⟨pal, hpal⟩ := goodPalette_of_parse h1
  obtain ⟨hn, hle, raw, hst, hcomp, hrl, ht'⟩ := loadImage_ok hpal hfit him hok
  refine ⟨raw, hst, hcomp, hrl, ?_⟩
  intro p hp
  have hif : (if f.file.header.colorDepth = .rgba then
      t.take (im.width.toNat * im.height.toNat * bytesPerPixel f.file.header.colorDepth)
      else List.replicate (im.width.toNat * im.height.toNat * bytesPerPixel f.file.header.colorDepth) 0)
      = (if f.file.header.colorDepth = .rgba then t.take (pixelCount im * 4)
      else List.replicate (pixelCount im * bytesPerPixel f.file.header.colorDepth) 0) := by
    split
    · next he => rw [he]; rfl
    · rfl
  rw [hif]
  have hlen : (raw ++ (if f.file.header.colorDepth = .rgba then t.take (pixelCount im * 4)
      else List.replicate (pixelCount im * bytesPerPixel f.file.header.colorDepth) 0).drop raw.length).length
      = pixelCount im * bytesPerPixel f.file.header.colorDepth := by
    have hpad : (if f.file.header.colorDepth = .rgba then t.take (pixelCount im * 4)
        else List.replicate (pixelCount im * bytesPerPixel f.file.header.colorDepth) 0).length
        = pixelCount im * bytesPerPixel f.file.header.colorDepth := by
      split
      · next he => rw [he, List.length_take]; simp only [bytesPerPixel]; omega
      · simp
    rw [List.length_append, List.length_drop, hpad]
    omega
  have hrl2 := toRgba_length hn pal hlen
  have hp' : p < pixelCount im := hp
  have e1 := congrArg (fun x => pixel x p) ht'
  rw [pixel_append_left (by omega), pixel_toRgba hpal] at e1
  have e2 : (pixel t' p).isSome = true := by
    apply pixel_isSome
    rw [ht', List.length_append]
    omega
  obtain ⟨c, hc⟩ := Option.isSome_iff_exists.1 e2
  exact ⟨c, hc, by rw [← e1]; exact hc⟩

-- streams with one of two pixels: grayscale (and half of the second pixel), indexed, RGBA
example :
    Sample.decode (Sample.image 16 true (Sample.deflate [10, 20, 30])) (List.replicate 8 77)
      = some (.ok (), [10, 10, 10, 20, 30, 30, 30, 0]) ∧
    Sample.decode (Sample.image 8 true (Sample.deflate [2])) (List.replicate 8 77)
      = some (.ok (), [9, 10, 11, 12, 1, 2, 3, 0]) ∧
    Sample.decode (Sample.image 32 true (Sample.deflate [1, 2, 3, 4])) (List.replicate 8 77)
      = some (.ok (), [1, 2, 3, 4, 77, 77, 77, 77]) := by
  decide +kernel

/-! ## C45: interpolation -/

/-- **C45, exactly when.** The interpolated value is the nearest integer to the exact one, except if it goes downwards and
`(back - src) * opacity` leaves the remainder 128 when divided by 255; then it is the integer above although the one
below is nearer (by 1/255).

*Missing:* those cases. -/
theorem C45_exactly_when_partial (plat : Plat) (back src o : UInt8) :
    ∃ r : UInt8, blend8 plat back src o = .ok r ∧
      (Spec.Nearest (255 * toI back + (toI src - toI back) * toI o) 255 (toI r) ↔
        ¬ (src < back ∧ (back.toNat - src.toNat) * o.toNat % 255 = 128)) ∧
      (src < back → (back.toNat - src.toNat) * o.toNat % 255 = 128 →
        255 * toI r = 255 * toI back + (toI src - toI back) * toI o + 128) := by
  refine ⟨_, blend8_eq plat back src o, ?_⟩
  rw [mixU_toI]
  have h := scale_between (toI src - toI back) (toI o) (toI_nonneg o) (toI_le o)
  have h1 := toI_nonneg back; have h2 := toI_le back; have h3 := toI_nonneg src; have h4 := toI_le src
  have hlt : (src < back) ↔ toI src < toI back := by rw [UInt8.lt_iff_toNat_lt]; simp only [toI]; omega
  have hnat : src < back → (((back.toNat - src.toNat) * o.toNat : Nat) : Int) = -((toI src - toI back) * toI o) := by
    intro hh
    rw [UInt8.lt_iff_toNat_lt] at hh
    rw [Int.natCast_mul, Int.natCast_sub (by omega)]
    simp only [toI]
    rw [← Int.neg_mul, Int.neg_sub]
  simp only [Spec.Nearest, mixStep]
  generalize (back.toNat - src.toNat) * o.toNat = n at *
  generalize (toI src - toI back) * toI o = p at *
  rw [hlt] at *
  by_cases hd : toI src < toI back
  · have h5 := h.2 (by omega)
    have h6 := hnat hd
    omega
  · have h5 := h.1 (by omega)
    omega

example : (0 : UInt8) < 128 ∧ ((128 : UInt8).toNat - (0 : UInt8).toNat) * (1 : UInt8).toNat % 255 = 128 := by decide

end Ase
