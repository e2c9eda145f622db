import Verif.Props.Sizes
import Verif.Props.Image
import Verif.Props.Render

/-!
# C60: how much memory the result of a parse and a rendering call take

`parse_file` makes one slot per layer for every frame (file.rs:81-85), `render_frame` one RGBA buffer per drawn cel of
the size the cel declares (loader/mod.rs:309).
-/

namespace Ase

open Spec

/-- The number of cel slots, empty or not, of a parsed file. -/
def Spec.slotCount (f : File) : Nat := (f.frames.map (·.cels.length)).sum

/-- The bytes of the buffers `render_frame` allocates one after the other for the cels of frame `i`
(loader/mod.rs:302-309). -/
def Spec.renderBuffers (f : AsepriteFile) (sel : LayerSelection) (i : Nat) : List Nat :=
  match f.frames[i]? with
  | some lf => (lf.cels.filter fun c => (drawnOn f sel c).isSome).map fun c => c.size.1.toNat * c.size.2.toNat * 4
  | none => []

/-! ## Slots -/

theorem four_mul_le_sq (a b n : Nat) (h : a + b ≤ n) : 4 * (a * b) ≤ n * n := by
  have h1 : 4 * (a * b) ≤ (a + b) * (a + b) := by
    rcases Nat.le_total a b with h | h
    · obtain ⟨d, rfl⟩ := Nat.exists_eq_add_of_le h
      grind
    · obtain ⟨d, rfl⟩ := Nat.exists_eq_add_of_le h
      grind
  exact Nat.le_trans h1 (Nat.mul_le_mul h h)

/-- A layer chunk takes at least 24 bytes. -/
theorem layer_weight {U : UserDataChunk → Bytes → Prop} {c : Chunk} {l : Bytes} (h : IsChunk U c l) :
    24 * (layersOf [c]).length ≤ l.length := by
  obtain ⟨code, body, _, hc, rfl⟩ := h
  cases c with
  | layer x =>
    obtain ⟨_, l, extra, ⟨_, _, _, _, _, _, _, h3, _, _, _, _, _, _, rfl⟩, rfl⟩ := hc
    simp [layersOf, owned, str, h3]
    omega
  | _ => simp [layersOf, owned]

theorem layersOf_length (cs : List Chunk) : (layersOf cs).length = (cs.map fun c => (layersOf [c]).length).sum := by
  induction cs with
  | nil => rfl
  | cons c cs ih =>
    rw [List.map_cons, List.sum_cons, ← ih]
    cases c <;> simp [layersOf, owned] <;> omega

theorem sum_mul_const {α : Type} (k : Nat) (w : α → Nat) (xs : List α) : (xs.map fun x => k * w x).sum = k * (xs.map w).sum := by
  induction xs with
  | nil => rfl
  | cons x xs ih => simp only [List.map_cons, List.sum_cons, ih]; rw [Nat.mul_add]

theorem frame_layers {U : UserDataChunk → Bytes → Prop} {f : RawFrame} {l : Bytes} (h : IsFrame U f l) :
    16 + 24 * (layersOf f.chunks).length ≤ l.length := by
  obtain ⟨_, _, _, cs, _, _, _, hs, _, rfl⟩ := h
  have := seq_size (w := fun c => 24 * (layersOf [c]).length) (fun c l h => layer_weight h) hs
  rw [sum_mul_const, ← layersOf_length] at this
  simp
  omega

/-- **C60, slots.** A parsed file has exactly one slot per frame and layer.  Every frame takes at least 16 and every
layer at least 24 bytes of the file, so the slots number at most `N * N / 1536` for a file of `N` bytes.
Missing: a bound linear in `N`; there is none, see `C60_slots_quadratic`. -/
theorem C60_slots_partial (plat : Plat) (b : Bytes) (f : File) (h : parseFile plat b = .ok f) :
    slotCount f = f.frames.length * f.layers.length ∧
    128 + 16 * f.frames.length + 24 * f.layers.length ≤ b.length ∧
    1536 * slotCount f ≤ b.length * b.length := by
  have h1 : slotCount f = f.frames.length * f.layers.length := by
    have := (C28_bounded plat b).2 f h
    unfold slotCount
    have e : f.frames.map (·.cels.length) = f.frames.map fun _ => f.layers.length :=
      List.map_congr_left this.2
    rw [e, List.map_const', List.sum_replicate_nat]
  have h2 : 128 + 16 * f.frames.length + 24 * f.layers.length ≤ b.length := by
    obtain ⟨raw, hr, ha⟩ := parseFile_ok.1 h
    obtain ⟨p, _, _, rfl⟩ := (assembleFile_ok (fresh hr)).1 ha
    obtain ⟨hb, fb, hh, _, hs, rfl⟩ := parseRawFile_ok.1 hr
    have := seq_size (w := fun f => 16 + 24 * (layersOf f.chunks).length) (fun _ _ h => frame_layers h) hs
    rw [sum_map_add, sum_mul_const, List.map_const', List.sum_replicate_nat] at this
    simp only [List.length_append, header_length hh, List.length_map, allLayers, sum_length_flatMap]
    omega
  refine ⟨h1, h2, ?_⟩
  rw [h1]
  have := four_mul_le_sq (16 * f.frames.length) (24 * f.layers.length) b.length (by omega)
  have e : 1536 * (f.frames.length * f.layers.length) = 4 * (16 * f.frames.length * (24 * f.layers.length)) := by
    grind
  omega

/-- `n` frames with one nameless layer each and no cels. -/
def Sample.layersPerFrame (n : Nat) : Bytes :=
  Sample.header 1 1 32 ++ (List.replicate n (Sample.frame 100 [Sample.layer 1 0 0 255 []])).flatten

theorem Sample.isFrame (U : UserDataChunk → Bytes → Prop) :
    IsFrame U ⟨100, [.layer ⟨⟨1⟩, .normal, 0, .normal, 255, "", none, none⟩]⟩
      (Sample.frame 100 [Sample.layer 1 0 0 255 []]) := by
  refine ⟨0, 1, [0, 0], Sample.layer 1 0 0 255 [], [], rfl, by decide, ?_, by decide, by decide +kernel⟩
  have e : Sample.layer 1 0 0 255 [] = Sample.layer 1 0 0 255 [] ++ [] := by simp
  rw [e]
  refine .cons ?_ .nil
  refine ⟨0x2004, _, ?_, ⟨rfl, _, [], ⟨1, 0, 0, 0, 0, [0, 0, 0], [], rfl, by unfold FitsStr; decide +kernel, by decide, by decide, by decide,
    ⟨by decide, rfl⟩, rfl, rfl⟩, rfl⟩, by decide +kernel⟩
  decide +kernel

theorem seq_replicate {α : Type} {G : α → Bytes → Prop} {x : α} {l : Bytes} (h : G x l) (n : Nat) :
    Seq G (List.replicate n x) (List.replicate n l).flatten := by
  induction n with
  | zero => exact .nil
  | succ n ih => exact .cons h ih

theorem Sample.isHeader : ∃ h : Header, h.colorDepth = .rgba ∧ IsHeader h (Sample.header 1 1 32) :=
  ⟨⟨0, 1, 1, 1, .rgba, 0, 0, 0, 0, 0, 0, 0, 0, 0, 0⟩, rfl, 32, List.replicate 3 0, List.replicate 84 0, rfl, rfl,
    by decide, by decide +kernel⟩

/-- **C60.** No linear bound holds for the slots: for every `n` there is a file of `128 + 40 * n` bytes that parses to
`n * n` slots, all empty. -/
theorem C60_slots_quadratic (plat : Plat) (n : Nat) (hn : 1 ≤ n) :
    (Sample.layersPerFrame n).length = 128 + 40 * n ∧
    ∃ f, parseFile plat (Sample.layersPerFrame n) = .ok f ∧ slotCount f = n * n ∧
      ∀ fr ∈ f.frames, ∀ c ∈ fr.cels, c = none := by
  constructor
  · have e : (Sample.frame 100 [Sample.layer 1 0 0 255 []]).length = 40 := by decide +kernel
    have e' : (Sample.header 1 1 32).length = 128 := by decide +kernel
    rw [Sample.layersPerFrame, List.length_append, e', List.length_flatten, List.map_replicate, e,
      List.sum_replicate_nat, Nat.mul_comm]
  · obtain ⟨h, hd, hh⟩ := Sample.isHeader
    let raw : RawFile := ⟨h, List.replicate n ⟨100, [.layer ⟨⟨1⟩, .normal, 0, .normal, 255, "", none, none⟩]⟩⟩
    have hraw : parseRawFile plat (Sample.layersPerFrame n) = .ok raw :=
      parseRawFile_ok.2 ⟨_, _, hh, by
        intro e
        have := congrArg List.length e
        simp [raw] at this
        omega, seq_replicate (Sample.isFrame _) n, rfl⟩
    have hcels : ∀ fr ∈ raw.frames, celsOf fr.chunks = [] := by
      intro fr hfr
      rw [List.eq_of_mem_replicate hfr]
      rfl
    have hlayers : (allLayers raw.frames).length = n := by
      simp [raw, allLayers, layersOf, owned]
    have hok := (assembleFile_ok (fresh hraw)).2 ⟨none, by rw [filePalette_eq]; simp [raw, hd], (by
      intro c hc
      obtain ⟨fr, h1, h2⟩ := List.mem_flatMap.1 hc
      rw [hcels fr h1] at h2
      cases h2), rfl⟩
    refine ⟨_, parseFile_ok.2 ⟨raw, hraw, hok⟩, ?_, ?_⟩
    · have e : ∀ fr : RawFrame, (slots (allLayers raw.frames).length (celsOf fr.chunks)).length = n := by
        intro fr
        rw [hlayers]
        simp [slots]
      simp only [slotCount, List.map_map, Function.comp_def, e, List.map_const', List.sum_replicate_nat]
      simp [raw]
    · intro fr hfr c hc
      obtain ⟨fr', h1, rfl⟩ := List.mem_map.1 hfr
      dsimp only at hc
      rw [hcels fr' h1] at hc
      obtain ⟨i, _, rfl⟩ := List.mem_map.1 hc
      rfl

/-! ## Rendering -/

/-- **C60, rendering.** The buffers `render_frame` allocates are exactly the sizes the images of the drawn cels declare;
the buffer for an uncompressed image that has pixels is at most four times as long as the input (one byte of an indexed
image becomes four).
Missing: a bound for compressed images; there is none, see `C60_small_file_large_image`. -/
theorem C60_buffers_partial (plat : Plat) (b : Bytes) (f : AsepriteFile) (h : AsepriteFile.load plat b = .ok f)
    (inflate : Inflater) (sel : LayerSelection) (i : Nat) (lf : LFrame) (hf : f.frames[i]? = some lf) :
    (∀ n ∈ renderBuffers f sel i, ∃ c ∈ lf.cels, ∃ im, f.images[c.imageIndex]? = some im ∧
      (drawnOn f sel c).isSome = true ∧ n = im.width.toNat * im.height.toNat * 4) ∧
    ∀ c ∈ lf.cels, ∀ im, f.images[c.imageIndex]? = some im → im.compressed = false →
      HasPixels inflate f.file im → c.size.1.toNat * c.size.2.toNat * 4 ≤ 4 * b.length := by
  constructor
  · intro n hn
    simp only [renderBuffers, hf] at hn
    obtain ⟨c, hc, rfl⟩ := List.mem_map.1 hn
    obtain ⟨hc, hd⟩ := List.mem_filter.1 hc
    obtain ⟨im, him, hs⟩ := celsOk_of_load h hf c hc
    exact ⟨c, hc, im, him, hd, by rw [hs]⟩
  · intro c hc im him hcomp ⟨hdepth, hlen⟩
    obtain ⟨im', him', hs⟩ := celsOk_of_load h hf c hc
    rw [him] at him'
    cases him'
    rw [hs]
    simp only [hcomp, Bool.false_eq_true, if_false, pixelCount] at hlen
    obtain ⟨pre, post, hb⟩ := C27_zero_copy plat b f h im (List.mem_of_getElem? him)
    have hle : im.data.length ≤ b.length := by rw [hb]; simp; omega
    have hpos : 1 ≤ bytesPerPixel f.file.header.colorDepth := by
      cases hd : f.file.header.colorDepth with
      | unknown n => exact absurd hd (hdepth n)
      | _ => decide
    have := Nat.mul_le_mul_left (im.width.toNat * im.height.toNat) hpos
    simp only [Nat.mul_one] at this
    dsimp only
    omega

/-- Two layers with a raw cel each; both buffers have eight bytes. -/
example : (match AsepriteFile.load ⟨true, 10⟩ (Sample.header 2 1 32 ++ Sample.frame 100 [Sample.layer 1 0 0 255 [65],
      Sample.layer 1 0 0 200 [66], Sample.cel 1 1 0 2 1 [9, 10, 11, 12, 1, 2, 3, 4],
      Sample.cel 0 1 0 1 2 [9, 10, 11, 12, 1, 2, 3, 4]]) with
    | .ok f => renderBuffers f .visible 0 == [8, 8] && f.images.all fun im => !im.compressed
    | _ => false) = true := by decide +kernel

/-- A file with one cel that claims to be 65535 by 65535 pixels large and has no data at all. -/
def Sample.hugeCel : Bytes :=
  Sample.header 1 1 32 ++ Sample.frame 100 [Sample.layer 1 0 0 255 [], Sample.zcel 0 0 0 65535 65535 []]

/-- **C60.** A file of 194 bytes loads although its only image claims to have 16 GiB of pixels: `load_image` asks the
caller for a buffer of that size and `render_frame`, called for a canvas of a single pixel, allocates one. -/
theorem C60_small_file_large_image :
    Sample.hugeCel.length = 194 ∧
    ∃ f, AsepriteFile.load ⟨false, 0⟩ Sample.hugeCel = .ok f ∧ f.size = (1, 1) ∧
      renderBuffers f .visible 0 = [17179344900] ∧
      ∀ inflate (t : Bytes), (f.loadImage inflate 0 t).1 = .err .targetBufferTooSmall ↔ t.length < 17179344900 := by
  refine ⟨by decide +kernel, ?_⟩
  have h : (match AsepriteFile.load ⟨false, 0⟩ Sample.hugeCel with
      | .ok f => decide (f.size = (1, 1) ∧ renderBuffers f .visible 0 = [17179344900] ∧
          f.images = [⟨65535, 65535, [], true⟩])
      | _ => false) = true := by decide +kernel
  split at h
  · next f hf =>
    obtain ⟨h1, h2, h3⟩ := of_decide_eq_true h
    refine ⟨f, hf, h1, h2, fun inflate t => ?_⟩
    exact (C43_contract_partial _ _ f hf inflate 0 ⟨65535, 65535, [], true⟩ (by rw [h3]; rfl) t).1
  · cases h

end Ase
