import Verif.Props.Attach

/-!
# C28: the size of the result is bounded by the size of the input
-/

namespace Ase

open Spec

theorem seq_size {α : Type} {G : α → Bytes → Prop} {w : α → Nat} (hw : ∀ x l, G x l → w x ≤ l.length) {xs : List α}
    {l : Bytes} (h : Seq G xs l) : (xs.map w).sum ≤ l.length := by
  induction h with
  | nil => simp
  | cons hx _ ih =>
    have := hw _ _ hx
    simp
    omega

theorem sum_const_one {α : Type} (xs : List α) : (xs.map fun _ => 1).sum = xs.length := by
  induction xs with
  | nil => rfl
  | cons x xs ih => simp only [List.map_cons, List.sum_cons, ih, List.length_cons]; omega

theorem header_length {h : Header} {l : Bytes} (hl : IsHeader h l) : l.length = 128 := by
  obtain ⟨_, _, _, h1, h2, _, e⟩ := hl
  rw [e]
  simp [h1, h2]

theorem seq_length {α : Type} {G : α → Bytes → Prop} (hw : ∀ x l, G x l → 1 ≤ l.length) {xs : List α}
    {l : Bytes} (h : Seq G xs l) : xs.length ≤ l.length := by
  have := seq_size (w := fun _ => 1) hw h
  rwa [sum_const_one] at this

theorem sum_map_add {α : Type} (f g : α → Nat) (xs : List α) :
    (xs.map fun x => f x + g x).sum = (xs.map f).sum + (xs.map g).sum := by
  induction xs with
  | nil => rfl
  | cons x xs ih => simp only [List.map_cons, List.sum_cons, ih]; omega

theorem sum_le_sum {α : Type} {f g : α → Nat} {xs : List α} (h : ∀ x ∈ xs, f x ≤ g x) :
    (xs.map f).sum ≤ (xs.map g).sum := by
  induction xs with
  | nil => simp
  | cons x xs ih =>
    have h1 := h x (by simp)
    have h2 := ih fun y hy => h y (by simp [hy])
    simp only [List.map_cons, List.sum_cons]
    omega

theorem oldPalette_items {c : OldPaletteChunk} {l : Bytes} (h : IsOldPalette c l) :
    c.packets.length + (c.packets.map (·.colors.length)).sum ≤ l.length := by
  obtain ⟨packets, _, hs, rfl⟩ := h
  have := seq_size (w := fun p : Packet => 1 + p.colors.length) (by
    rintro p l ⟨cs, _, _, hcs, rfl⟩
    have := seq_length (by rintro x l rfl; simp [rgb]) hcs
    simp
    omega) hs
  rw [sum_map_add, sum_const_one] at this
  simp
  omega

theorem content_items {U : UserDataChunk → Bytes → Prop} {c : Chunk} {code : UInt16} {body : Bytes}
    (h : IsContent U c code body) : chunkItems c ≤ body.length := by
  cases c with
  | palette0004 c | palette0011 c =>
    obtain ⟨_, l, extra, hl, rfl⟩ := h
    have := oldPalette_items hl
    simp [chunkItems]
    omega
  | externalFiles c =>
    obtain ⟨_, l, extra, ⟨res, es, _, _, hs, rfl⟩, rfl⟩ := h
    have := seq_length (by rintro x l ⟨_, _, _, _, _, rfl⟩; simp; omega) hs
    simp [chunkItems]
    omega
  | tags c =>
    obtain ⟨_, l, extra, ⟨res, es, _, _, hs, rfl⟩, rfl⟩ := h
    have := seq_length (by rintro x l ⟨_, _, _, _, _, _, _, _, rfl⟩; simp; omega) hs
    simp [chunkItems]
    omega
  | palette c =>
    obtain ⟨_, l, extra, ⟨res, es, _, _, _, hs, rfl⟩, rfl⟩ := h
    have := seq_length (by rintro x l ⟨_, _, _, rfl⟩; simp; omega) hs
    simp [chunkItems]
    omega
  | slice c =>
    obtain ⟨_, l, extra, ⟨_, _, ks, _, _, _, _, hs, rfl⟩, rfl⟩ := h
    have := seq_length (by rintro x l ⟨_, _, _, _, rfl⟩; simp; omega) hs
    simp [chunkItems]
    omega
  | mask c =>
    obtain ⟨_, _, _, _, rfl⟩ := h
    simp [chunkItems]
    omega
  | cel c =>
    obtain ⟨_, type, future, b, _, hb, _, rfl⟩ := h
    simp only [chunkItems]
    cases hc : c.content with
    | image i =>
      simp only [hc, swapFlips] at hb
      obtain ⟨_, rfl⟩ := hb
      simp
      omega
    | linkedCel => simp
    | compressedTilemap =>
      simp only [hc, swapFlips] at hb
      obtain ⟨_, _, _, rfl⟩ := hb
      simp
      omega
    | unknown =>
      simp only [hc, swapFlips] at hb
      obtain ⟨_, rfl⟩ := hb
      simp
      omega
  | tileset c =>
    obtain ⟨_, l, extra, ⟨_, _, _, ts, _, _, _, _, ht, rfl⟩, rfl⟩ := h
    simp only [chunkItems]
    cases hc : c.tiles with
    | none => simp
    | some d =>
      rw [hc] at ht
      obtain ⟨_, _, rfl⟩ := ht
      simp
      omega
  | _ => simp [chunkItems]

/-- The weight of a frame: 16 bytes for its header, 6 for each chunk, one for each element of the chunk's lists. -/
def Spec.frameWeight (f : RawFrame) : Nat := 16 + (f.chunks.map fun c => 6 + chunkItems c).sum

theorem frame_weight {U : UserDataChunk → Bytes → Prop} {f : RawFrame} {l : Bytes} (h : IsFrame U f l) :
    frameWeight f ≤ l.length := by
  obtain ⟨_, _, _, cs, _, _, _, hs, _, rfl⟩ := h
  have := seq_size (w := fun c => 6 + chunkItems c) (by
    rintro c l ⟨_, _, _, hc, rfl⟩
    have := content_items hc
    simp
    omega) hs
  simp [frameWeight]
  omega

theorem owned_length (cs : List Chunk) : (owned cs).length ≤ cs.length := by
  induction cs with
  | nil => simp [owned]
  | cons c cs ih => cases c <;> simp [owned] <;> omega

theorem collected_weight (cs : List Chunk) :
    (layersOf cs).length + (celsOf cs).length + (slicesOf cs).length + (tagsOf cs).length ≤
      (cs.map fun c => 6 + chunkItems c).sum := by
  induction cs with
  | nil => simp [layersOf, celsOf, slicesOf, tagsOf, owned]
  | cons c cs ih =>
    cases c <;> simp [layersOf, celsOf, slicesOf, tagsOf, owned, chunkItems] at ih ⊢ <;> omega

theorem sum_length_flatMap {α β : Type} (f : α → List β) (xs : List α) :
    (xs.flatMap f).length = (xs.map fun x => (f x).length).sum := by
  induction xs with
  | nil => rfl
  | cons x xs ih => simp [ih]

/-- **C28.** What a parse returns is bounded by the number of input bytes, whatever counts the file declares:
1. 128 bytes for the header, 16 for every frame, 6 for every chunk and one for every element of the lists in chunks
   (palette entries, packets and their colours, tags, slice keys, external files, bytes of images, masks, tilesets) fit
   into the input;
2. so the frames, layers, tags, slices and cels of a parsed `File` number less than the input bytes, and so do its
   filled cel slots. (Each frame has one slot per layer, so the number of empty slots is the product of two such
   numbers.) -/
theorem C28_bounded (plat : Plat) (b : Bytes) :
    (∀ raw, parseRawFile plat b = .ok raw → 128 + (raw.frames.map frameWeight).sum ≤ b.length) ∧
    (∀ f, parseFile plat b = .ok f →
      f.frames.length + f.layers.length + f.tags.length + f.slices.length +
        (f.frames.map fun fr => (fr.cels.filter (·.isSome)).length).sum < b.length ∧
      ∀ fr ∈ f.frames, fr.cels.length = f.layers.length) := by
  have hraw : ∀ raw, parseRawFile plat b = .ok raw → 128 + (raw.frames.map frameWeight).sum ≤ b.length := by
    intro raw h
    obtain ⟨hb, fb, hh, _, hs, rfl⟩ := parseRawFile_ok.1 h
    have := seq_size (w := frameWeight) (G := IsFrame (readsUserData plat)) (fun _ _ h => frame_weight h) hs
    rw [List.length_append, header_length hh]
    omega
  refine ⟨hraw, ?_⟩
  intro f hf
  obtain ⟨raw, hr, ha⟩ := parseFile_ok.1 hf
  obtain ⟨p, _, _, rfl⟩ := (assembleFile_ok (fresh hr)).1 ha
  have key := hraw raw hr
  constructor
  · simp only [List.length_map, allLayers, sum_length_flatMap, List.map_map, Function.comp_def]
    have filled : ∀ (n : Nat) (cels : List CelChunk), ((slots n cels).filter (·.isSome)).length ≤ cels.length := by
      intro n cels
      -- the filled slots are given by distinct layer indices of the cels
      have : ∀ (is : List Nat), is.Nodup → ((is.map (slot cels)).filter (·.isSome)).length ≤ cels.length := by
        induction cels with
        | nil =>
          intro is _
          simp [slot]
        | cons c cs ih =>
          intro is hd
          have hsplit : ((is.map (slot (c :: cs))).filter (·.isSome)).length ≤
              ((is.map (slot cs)).filter (·.isSome)).length + (is.filter fun i => c.layerIndex.toNat = i).length := by
            clear hd
            induction is with
            | nil => simp
            | cons i is ih2 =>
              simp only [List.map_cons, List.filter_cons, slot_cons]
              by_cases h : c.layerIndex.toNat = i
              · subst h
                cases hs : slot cs c.layerIndex.toNat <;> simp <;> omega
              · cases hs : slot cs i <;> simp [h] <;> omega
          have hone : (is.filter fun i => c.layerIndex.toNat = i).length ≤ 1 := by
            clear hsplit ih
            induction is with
            | nil => simp
            | cons i is ih2 =>
              obtain ⟨hni, hd⟩ := List.nodup_cons.1 hd
              simp only [List.filter_cons]
              by_cases h : c.layerIndex.toNat = i
              · subst h
                rw [List.filter_eq_nil_iff.2]
                · simp
                · intro j hj e
                  simp at e
                  subst e
                  exact hni hj
              · simp [h]
                simpa using ih2 hd
          have := ih is hd
          simp
          omega
      exact this _ List.nodup_range
    have h1 := sum_le_sum (xs := raw.frames)
      (f := fun f => 1 + ((layersOf f.chunks).length + ((tagsOf f.chunks).length + ((slicesOf f.chunks).length +
        ((slots (raw.frames.map fun f => (layersOf f.chunks).length).sum (celsOf f.chunks)).filter (·.isSome)).length))))
      (g := frameWeight) (by
        intro f _
        have h1 := collected_weight f.chunks
        have h2 := filled (raw.frames.map fun f => (layersOf f.chunks).length).sum (celsOf f.chunks)
        simp only [frameWeight]
        omega)
    simp only [sum_map_add] at h1
    have h2 := sum_const_one raw.frames
    omega
  · intro fr hfr
    simp only [List.mem_map] at hfr
    obtain ⟨rf, _, rfl⟩ := hfr
    simp [slots]

/-- A tags chunk that declares 1000 tags but contains one is rejected; the example file of C25 parses. -/
example : (match parseFile ⟨true, 10⟩ (Sample.header 1 1 32 ++ Sample.frame 1
      [Sample.chunk 0x2018 ([232, 3] ++ List.replicate 8 0 ++ Sample.tag 0 0 0 0 97)]) with
    | .err _ => true | _ => false) = true ∧
    (match parseFile ⟨true, 10⟩ (Sample.header 1 1 32 ++ Sample.frame 1
      [Sample.layer 1 0 0 255 [97], Sample.cel 0 0 0 1 1 [9, 8, 7, 6], Sample.tags [Sample.tag 0 0 0 0 97]]) with
    | .ok f => f.layers.length == 1 && f.tags.length == 1 | _ => false) = true := by decide +kernel

end Ase
