import Mathlib.Data.Fintype.Pigeonhole
import Mathlib.Data.Fintype.BigOperators
import Verif.Model.SipHash
import Verif.Props.RoundTrip
import Verif.Props.Cover

/-!
# Sprites with three dots

Three layers with one opaque pixel each, in three separate stripes of the canvas, and two frames: the second one links to
the images of the first one, but has its own positions.
-/

namespace Ase.Dots

open Spec

/-- A position in each stripe. -/
abbrev Pos := Fin 3 → Fin 32768 × Fin 8192

def x (p : Pos) (k : Fin 3) : Int16 := Int16.ofNat (p k).1
def y (p : Pos) (k : Fin 3) : Int16 := Int16.ofNat (8192 * k.val + (p k).2.val)

def layer : LayerChunk :=
  { flags := ⟨1⟩, layerType := .normal, childLevel := 0, blendMode := .normal, opacity := 255, name := "",
    tilesetIndex := none, userData := none }

def image (k : Fin 3) : Image := ⟨1, 1, [UInt8.ofNat k, 0, 0, 255], false⟩

def cel (content : CelContent) (p : Pos) (k : Fin 3) : CelChunk :=
  { layerIndex := UInt16.ofNat k, x := x p k, y := y p k, opacity := 255, zIndex := 0, content, userData := none }

/-- The file. -/
def raw (p q : Pos) : RawFile :=
  { header := ⟨0, 2, 32768, 24576, .rgba, 0, 0, 0, 0, 1, 1, 0, 0, 0, 0⟩,
    frames :=
      [⟨1, [.layer layer, .layer layer, .layer layer,
          .cel (cel (.image (image 0)) p 0), .cel (cel (.image (image 1)) p 1), .cel (cel (.image (image 2)) p 2)]⟩,
       ⟨1, [.cel (cel (.linkedCel 0) q 0), .cel (cel (.linkedCel 0) q 1), .cel (cel (.linkedCel 0) q 2)]⟩] }

def file (p q : Pos) : File :=
  { header := (raw p q).header, palette := none, layers := [layer, layer, layer],
    frames :=
      [⟨1, [some (cel (.image (image 0)) p 0), some (cel (.image (image 1)) p 1), some (cel (.image (image 2)) p 2)]⟩,
       ⟨1, [some (cel (.linkedCel 0) q 0), some (cel (.linkedCel 0) q 1), some (cel (.linkedCel 0) q 2)]⟩],
    tags := [], slices := [], userData := none }

def lcel (p : Pos) (k : Fin 3) : FrameCel := ⟨(x p k, y p k), (1, 1), k.val, k.val⟩

def lframe (p : Pos) : LFrame := ⟨1, (0, 0), [lcel p 0, lcel p 1, lcel p 2]⟩

def llayer : LLayer := ⟨"", 255, .normal, true, .normal⟩

def sprite (p q : Pos) : AsepriteFile :=
  { file := file p q, layers := [llayer, llayer, llayer], frames := [lframe p, lframe q], tags := [],
    images := [image 0, image 1, image 2] }

/-- What the hash of a frame is made from. -/
def input (p : Pos) : List HashInput := (lframe p).cels.map fun c => (c.imageIndex, c.layerIndex, c.origin, c.size)

theorem assemble (p q : Pos) : assembleFile (raw p q) = .ok (file p q) := by
  rw [assembleFile_eq]
  · have h1 : filePalette (raw p q) = .ok none := by rfl
    have h2 : allLayers (raw p q).frames = [layer, layer, layer] := by rfl
    rw [h1, h2]
    rfl
  · intro f hf c hc
    simp only [raw, List.mem_cons, List.not_mem_nil, or_false] at hf
    rcases hf with rfl | rfl <;> simp only [List.mem_cons, List.not_mem_nil, or_false] at hc
    · rcases hc with rfl | rfl | rfl | rfl | rfl | rfl <;> trivial
    · rcases hc with rfl | rfl | rfl <;> trivial

theorem ofFile (p q : Pos) : AsepriteFile.ofFile (file p q) = .ok (sprite p q) := by rfl

theorem cel_length (content : CelContent) (p : Pos) (k : Fin 3) :
    (chunkBytes (.cel (cel content p k))).length = 22 + (celContentBytes content).length := by
  simp [chunkBytes, contentBytes, celBytes, cel, zeros]
  omega

theorem layer_length : (chunkBytes (.layer layer)).length = 24 := by decide +kernel

theorem frame_length (f : RawFrame) : (frameBytes f).length = 16 + (f.chunks.map fun c => (chunkBytes c).length).sum := by
  simp [frameBytes, zeros, List.length_flatMap]
  omega

theorem fits (p q : Pos) : FitsFile (raw p q) := by
  refine ⟨trivial, by simp [raw], ?_⟩
  intro f hf
  simp only [raw, List.mem_cons, List.not_mem_nil, or_false] at hf
  rcases hf with rfl | rfl
  · refine ⟨?_, by simp [frame_length, cel_length, layer_length, celContentBytes, image]⟩
    intro c hc
    simp only [List.mem_cons, List.not_mem_nil, or_false] at hc
    rcases hc with rfl | rfl | rfl | rfl | rfl | rfl
    · exact ⟨⟨by decide, trivial, trivial, by decide +kernel, by decide, rfl⟩, by decide +kernel⟩
    · exact ⟨⟨by decide, trivial, trivial, by decide +kernel, by decide, rfl⟩, by decide +kernel⟩
    · exact ⟨⟨by decide, trivial, trivial, by decide +kernel, by decide, rfl⟩, by decide +kernel⟩
    all_goals exact ⟨⟨by simp [cel], rfl⟩, by simp [cel_length, celContentBytes, image]⟩
  · refine ⟨?_, by simp [frame_length, cel_length, celContentBytes]⟩
    intro c hc
    simp only [List.mem_cons, List.not_mem_nil, or_false] at hc
    rcases hc with rfl | rfl | rfl
    all_goals exact ⟨⟨by simp [cel], rfl⟩, by simp [cel_length, celContentBytes]⟩

theorem length (p q : Pos) : (fileBytes (raw p q)).length < 1000 := by
  rw [fileBytes, List.length_append, List.length_flatMap]
  simp [raw, frame_length, cel_length, layer_length, celContentBytes, image, headerBytes, zeros]

theorem loads (p q : Pos) (plat : Plat) :
    AsepriteFile.load plat (fileBytes (raw p q)) = .ok (sprite p q) := by
  have hp : parseRawFile plat (fileBytes (raw p q)) = .ok (raw p q) := by
    refine C54_round_trip_partial plat _ (fits p q) ?_ ?_ ?_
    · intro f hf c hc
      simp only [raw, List.mem_cons, List.not_mem_nil, or_false] at hf
      rcases hf with rfl | rfl <;> simp only [List.mem_cons, List.not_mem_nil, or_false] at hc
      · rcases hc with rfl | rfl | rfl | rfl | rfl | rfl <;> trivial
      · rcases hc with rfl | rfl | rfl <;> trivial
    · intro f hf c hc
      simp only [raw, List.mem_cons, List.not_mem_nil, or_false] at hf
      rcases hf with rfl | rfl <;> simp only [List.mem_cons, List.not_mem_nil, or_false] at hc
      · rcases hc with rfl | rfl | rfl | rfl | rfl | rfl <;> simp [NoFlips, cel]
      · rcases hc with rfl | rfl | rfl <;> simp [NoFlips, cel]
    · intro f hf c hc
      simp only [raw, List.mem_cons, List.not_mem_nil, or_false] at hf
      rcases hf with rfl | rfl <;> simp only [List.mem_cons, List.not_mem_nil, or_false] at hc
      · rcases hc with rfl | rfl | rfl | rfl | rfl | rfl <;> trivial
      · rcases hc with rfl | rfl | rfl <;> trivial
  rw [AsepriteFile.load, parseFile_eq hp, assemble]
  exact ofFile p q

/-! ## The pictures -/

theorem toInt_ofNat {n : Nat} (h : n < 32768) : (Int16.ofNat n).toInt = n := by
  rw [Int16.toInt_ofNat']
  simp [Int.bmod]
  omega

theorem x_toInt (p : Pos) (k : Fin 3) : (x p k).toInt = (p k).1.val := toInt_ofNat (p k).1.isLt

theorem y_toInt (p : Pos) (k : Fin 3) : (y p k).toInt = ((8192 * k.val + (p k).2.val : Nat) : Int) :=
  toInt_ofNat (by omega)

theorem covered (p : Pos) (k : Fin 3) (a b : Nat) : coveredBy (lcel p k) a b =
    if a = (p k).1.val ∧ b = 8192 * k.val + (p k).2.val then some 0 else none := by
  have h1 : (lcel p k).size = (1, 1) := rfl
  simp only [coveredBy, h1, show (lcel p k).origin.1 = x p k from rfl, show (lcel p k).origin.2 = y p k from rfl,
    x_toInt, y_toInt, show (1 : UInt16).toNat = 1 from rfl]
  by_cases h : a = (p k).1.val ∧ b = 8192 * k.val + (p k).2.val
  · rw [if_pos (by omega), if_pos h]
    have e1 : ((a : Int) - ((p k).1.val : Nat)).toNat = 0 := by omega
    have e2 : ((b : Int) - ((8192 * k.val + (p k).2.val : Nat) : Int)).toNat = 0 := by omega
    rw [e1, e2]
  · rw [if_neg (by omega), if_neg h]

theorem drawn (p q r : Pos) (sel : LayerSelection) (hsel : sel = .visible) (k : Fin 3) :
    drawnOn (sprite p q) sel (lcel r k) = some llayer := by
  subst hsel
  match k with
  | 0 => rfl
  | 1 => rfl
  | 2 => rfl

theorem color (p q r : Pos) (inflate : Inflater) (k : Fin 3) :
    imageColor inflate (sprite p q) (lcel r k).imageIndex 0 = some ⟨UInt8.ofNat k, 0, 0, 255⟩ := by
  match k with
  | 0 => rfl
  | 1 => rfl
  | 2 => rfl

theorem mem_lframe {p : Pos} {c : FrameCel} (h : c ∈ (lframe p).cels) : ∃ k, c = lcel p k := by
  simp only [lframe, List.mem_cons, List.not_mem_nil, or_false] at h
  rcases h with rfl | rfl | rfl
  · exact ⟨0, rfl⟩
  · exact ⟨1, rfl⟩
  · exact ⟨2, rfl⟩

theorem lcel_mem (p : Pos) (k : Fin 3) : lcel p k ∈ (lframe p).cels := by
  match k with
  | 0 => simp [lframe]
  | 1 => simp [lframe]
  | 2 => simp [lframe]

theorem render_ok (p q r : Pos) (plat : Plat) (inflate : Inflater) (i : Nat)
    (hi : (sprite p q).frames[i]? = some (lframe r)) (t : Bytes) (ht : 32768 * 24576 * 4 ≤ t.length) :
    ∃ u, (sprite p q).renderFrame plat inflate i .visible t = (.ok (), u) := by
  have h := C41_success_partial plat _ (sprite p q) (loads p q plat) inflate i (lframe r) hi .visible t ht
    (.inr fun c hc layer hd => by
      obtain ⟨k, rfl⟩ := mem_lframe hc
      rw [drawn p q r _ rfl] at hd
      cases hd
      rfl)
  refine ⟨_, Prod.ext (h.2 ?_) rfl⟩
  intro c hc layer im hd him
  obtain ⟨k, rfl⟩ := mem_lframe hc
  rw [drawn p q r _ rfl] at hd
  cases hd
  refine ⟨?_, rfl⟩
  have : im = image k := by
    match k with
    | 0 => exact (Option.some.inj him).symm
    | 1 => exact (Option.some.inj him).symm
    | 2 => exact (Option.some.inj him).symm
  subst this
  refine ⟨fun n h => ?_, rfl⟩
  cases h

/-- The pixel of dot `k` after rendering. -/
theorem shown (p q r : Pos) (plat : Plat) (inflate : Inflater) (i : Nat)
    (hi : (sprite p q).frames[i]? = some (lframe r)) (t u : Bytes)
    (hok : (sprite p q).renderFrame plat inflate i .visible t = (.ok (), u)) (k : Fin 3) :
    canvasPixel (sprite p q) u (r k).1 (8192 * k.val + (r k).2.val) = some ⟨UInt8.ofNat k, 0, 0, 255⟩ := by
  obtain ⟨below, above, hl⟩ := List.append_of_mem (lcel_mem r k)
  refine C74_on_top plat _ (sprite p q) (loads p q plat) inflate i (lframe r) hi .visible t u hok _ _ (r k).1.isLt
    (show _ < 24576 by omega) below above (lcel r k) hl _
    ⟨llayer, 0, drawn p q r _ rfl k, rfl, rfl, by rw [covered, if_pos ⟨rfl, rfl⟩], color p q r inflate k, rfl⟩ ?_
  intro d hd
  right
  have hmem : d ∈ (lframe r).cels := by rw [hl]; simp [hd]
  obtain ⟨m, rfl⟩ := mem_lframe hmem
  rw [covered, if_neg]
  rintro ⟨h1, h2⟩
  have hkm : k = m := by
    have := (r k).2.isLt
    have := (r m).2.isLt
    omega
  subst hkm
  have : (lframe r).cels.Nodup := by
    have : (lframe r).cels.map (·.imageIndex) = [0, 1, 2] := rfl
    refine List.Nodup.of_map (·.imageIndex) ?_
    rw [this]
    decide
  rw [hl] at this
  have := (List.nodup_append.1 this).2.1
  simp only [List.nodup_cons] at this
  exact this.1 hd

/-- Other pixels are as they were. -/
theorem not_shown (p q r : Pos) (plat : Plat) (inflate : Inflater) (i : Nat)
    (hi : (sprite p q).frames[i]? = some (lframe r)) (t u : Bytes)
    (hok : (sprite p q).renderFrame plat inflate i .visible t = (.ok (), u)) (a b : Nat) (ha : a < 32768)
    (hb : b < 24576) (hr : ∀ k, ¬ (a = (r k).1.val ∧ b = 8192 * k.val + (r k).2.val)) :
    canvasPixel (sprite p q) u a b = canvasPixel (sprite p q) t a b := by
  obtain ⟨before, after, h1, h2, h3⟩ := C37_pixels plat _ (sprite p q) (loads p q plat) inflate i (lframe r) hi
    .visible t u hok a b ha hb
  have : compose plat inflate (sprite p q) .visible a b (lframe r).cels before = .ok before := by
    simp only [lframe, compose, covered, if_neg (hr _), Option.bind_none, drawn p q r .visible rfl]
  rw [this] at h3
  cases h3
  rw [h1, h2]

theorem pixel_zeros {n i : Nat} {c : Color} (h : pixel (List.replicate n 0) i = some c) : c.a = 0 := by
  simp only [pixel, List.drop_replicate] at h
  generalize n - 4 * i = m at h
  match m with
  | 0 => simp at h
  | 1 => simp at h
  | 2 => simp at h
  | 3 => simp at h
  | m + 4 =>
    simp only [List.replicate_succ, Option.some.injEq] at h
    rw [← h]

/-- Frames with different positions have different pictures. -/
theorem pictures_differ (p q : Pos) (hpq : p ≠ q) (plat : Plat) (inflate : Inflater) (n : Nat)
    (u u' : Bytes) (hu : (sprite p q).renderFrame plat inflate 0 .visible (List.replicate n 0) = (.ok (), u))
    (hu' : (sprite p q).renderFrame plat inflate 1 .visible (List.replicate n 0) = (.ok (), u')) : u ≠ u' := by
  rintro rfl
  apply hpq
  funext k
  apply Classical.byContradiction
  intro hk
  have h1 := shown p q p plat inflate 0 rfl _ _ hu k
  rw [not_shown p q q plat inflate 1 rfl _ _ hu' _ _ (p k).1.isLt (by omega)] at h1
  · have := pixel_zeros h1
    simp at this
  · rintro m ⟨h2, h3⟩
    have hkm : k = m := by
      have := (p k).2.isLt
      have := (q m).2.isLt
      omega
    subst hkm
    exact hk (Prod.ext (Fin.ext h2) (Fin.ext (by omega)))

/-- There are more positions than hashes. -/
theorem collide (hash : List HashInput → UInt64) : ∃ p q : Pos, p ≠ q ∧ hash (input p) = hash (input q) := by
  obtain ⟨p, q, h1, h2⟩ := Fintype.exists_ne_map_eq_of_card_lt (fun p : Pos => (hash (input p)).toFin) (by
    rw [Fintype.card_fun, Fintype.card_prod, Fintype.card_fin, Fintype.card_fin, Fintype.card_fin, Fintype.card_fin]
    decide)
  exact ⟨p, q, h1, UInt64.toFin_inj.1 h2⟩

end Ase.Dots
