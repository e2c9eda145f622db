import Verif.Spec.Trim
import Verif.Props.Script
import Verif.Props.Sheet
import Verif.Props.Turned

/-!
# C147: cels cut off at the edges of the canvas
-/

namespace Ase

open Spec

/-- What is stored of a cel. -/
def trimmedItem (inflate : Inflater) (f : AsepriteFile) (c : FrameCel) : Item :=
  (c.layerIndex, (Int16.ofInt (trimmedCorner f c).1, Int16.ofInt (trimmedCorner f c).2), trimmedImage inflate f c)

/-- The sprite with its cels cut off. -/
def trimmedSprite (inflate : Inflater) (f : AsepriteFile) : Sprite :=
  { filmSprite f f.layers (f.frames.map fun fr => (fr.duration, fr.cels.map (trimmedItem inflate f))) with
    depth := .rgba, transparent := 0, palette := none, tags := f.tags }

section

variable {plat : Plat} {b : Bytes} {f g : AsepriteFile} {inflate : Inflater}

theorem trimmedStart_lt (canvas : Nat) (pos : Int16) : trimmedStart canvas pos.toInt < 2 ^ 15 := by
  have := pos.toInt_lt
  rw [trimmedStart]
  omega

theorem trimmedSize_lt (f : AsepriteFile) (c : FrameCel) : (trimmedSize f c).1 < 2 ^ 16 ∧ (trimmedSize f c).2 < 2 ^ 16 := by
  have h1 := f.size.1.toNat_lt
  have h2 := f.size.2.toNat_lt
  simp only [trimmedSize, trimmedLength]
  omega

theorem trimmed_origin (f : AsepriteFile) (c : FrameCel) :
    (Int16.ofInt (trimmedCorner f c).1).toInt = (trimmedCorner f c).1 ∧
    (Int16.ofInt (trimmedCorner f c).2).toInt = (trimmedCorner f c).2 := by
  have h1 := trimmedStart_lt f.size.1.toNat c.origin.1
  have h2 := trimmedStart_lt f.size.2.toNat c.origin.2
  constructor
  · exact Int16.toInt_ofInt_of_le (by simp only [trimmedCorner]; omega) (by simp only [trimmedCorner]; omega)
  · exact Int16.toInt_ofInt_of_le (by simp only [trimmedCorner]; omega) (by simp only [trimmedCorner]; omega)

theorem trimmed_width (inflate : Inflater) (f : AsepriteFile) (c : FrameCel) :
    (trimmedImage inflate f c).width.toNat = (trimmedSize f c).1 ∧
    (trimmedImage inflate f c).height.toNat = (trimmedSize f c).2 :=
  ⟨UInt16.toNat_ofNat_of_lt' (trimmedSize_lt f c).1, UInt16.toNat_ofNat_of_lt' (trimmedSize_lt f c).2⟩

theorem trimmed_data (inflate : Inflater) (f : AsepriteFile) (c : FrameCel) :
    (trimmedImage inflate f c).data.length = (trimmedSize f c).1 * (trimmedSize f c).2 * 4 :=
  (pixels_written (fun p => imageColor inflate f c.imageIndex
    ((((trimmedCorner f c).2 : Int) + (p / (trimmedSize f c).1 : Nat) - c.origin.2.toInt).toNat * c.size.1.toNat +
      (((trimmedCorner f c).1 : Int) + (p % (trimmedSize f c).1 : Nat) - c.origin.1.toInt).toNat)) _).1

/-- The part that was cut off is beyond the canvas. -/
theorem trimmed_covers (f : AsepriteFile) (c : FrameCel) {x y : Nat} (hx : x < f.size.1.toNat) (hy : y < f.size.2.toNat) :
    (((trimmedCorner f c).1 ≤ x ∧ x < (trimmedCorner f c).1 + (trimmedSize f c).1) ↔
      (c.origin.1.toInt ≤ x ∧ (x : Int) < c.origin.1.toInt + c.size.1.toNat)) ∧
    (((trimmedCorner f c).2 ≤ y ∧ y < (trimmedCorner f c).2 + (trimmedSize f c).2) ↔
      (c.origin.2.toInt ≤ y ∧ (y : Int) < c.origin.2.toInt + c.size.2.toNat)) := by
  simp only [trimmedCorner, trimmedSize, trimmedLength, trimmedStart]
  omega

theorem trimmed_stroke (hf : AsepriteFile.load plat b = .ok f) (hd : ∀ n, f.file.header.colorDepth ≠ .unknown n)
    (hl : g.layers = f.layers) (hg : g.file.header.colorDepth = .rgba) {fr : LFrame} (hfr : fr ∈ f.frames) {c : FrameCel}
    (hc : c ∈ fr.cels) {n : Nat} (hn : g.images[n]? = some (trimmedImage inflate f c)) (sel : LayerSelection) {x y : Nat}
    (hx : x < f.size.1.toNat) (hy : y < f.size.2.toNat) :
    strokeOf inflate g sel x y ⟨(trimmedItem inflate f c).2.1, ((trimmedImage inflate f c).width, (trimmedImage inflate f c).height),
      c.layerIndex, n⟩ = strokeOf inflate f sel x y c := by
  obtain ⟨im, hi, hsz⟩ := (C129_possible plat b f hf).size fr hfr c hc
  obtain ⟨o1, o2⟩ := trimmed_origin f c
  obtain ⟨w1, w2⟩ := trimmed_width inflate f c
  obtain ⟨v1, v2⟩ := trimmed_covers f c hx hy
  have hdr : drawnOn g sel ⟨(trimmedItem inflate f c).2.1, ((trimmedImage inflate f c).width, (trimmedImage inflate f c).height),
      c.layerIndex, n⟩ = drawnOn f sel c := by simp only [drawnOn, hl]
  simp only [strokeOf]
  rw [hdr]
  cases drawnOn f sel c with
  | none => rfl
  | some layer =>
    simp only [Option.bind_some, coveredBy, trimmedItem, o1, o2, w1, w2]
    by_cases hin : 0 ≤ (x : Int) - c.origin.1.toInt ∧ (x : Int) - c.origin.1.toInt < c.size.1.toNat ∧
        0 ≤ (y : Int) - c.origin.2.toInt ∧ (y : Int) - c.origin.2.toInt < c.size.2.toNat
    · have hin1 := v1.2 ⟨by omega, by omega⟩
      have hin2 := v2.2 ⟨by omega, by omega⟩
      rw [if_pos hin, if_pos (by omega), Option.bind_some, Option.bind_some]
      congr 1
      have ex : ((x : Int) - (trimmedCorner f c).1).toNat = x - (trimmedCorner f c).1 := by omega
      have ey : ((y : Int) - (trimmedCorner f c).2).toNat = y - (trimmedCorner f c).2 := by omega
      rw [ex, ey]
      have hlt : (y - (trimmedCorner f c).2) * (trimmedSize f c).1 + (x - (trimmedCorner f c).1) <
          (trimmedSize f c).1 * (trimmedSize f c).2 := by
        have := Nat.mul_le_mul_right (trimmedSize f c).1 (show y - (trimmedCorner f c).2 + 1 ≤ (trimmedSize f c).2 by omega)
        rw [Nat.succ_mul] at this
        have h3 := Nat.mul_comm (trimmedSize f c).1 (trimmedSize f c).2
        omega
      have hmod : ((y - (trimmedCorner f c).2) * (trimmedSize f c).1 + (x - (trimmedCorner f c).1)) % (trimmedSize f c).1 =
          x - (trimmedCorner f c).1 := by
        rw [Nat.add_comm ((y - (trimmedCorner f c).2) * _), Nat.add_mul_mod_self_right, Nat.mod_eq_of_lt (by omega)]
      have hdiv : ((y - (trimmedCorner f c).2) * (trimmedSize f c).1 + (x - (trimmedCorner f c).1)) / (trimmedSize f c).1 =
          y - (trimmedCorner f c).2 := by
        rw [Nat.add_comm ((y - (trimmedCorner f c).2) * _), Nat.add_mul_div_right _ _ (by omega), Nat.div_eq_of_lt (by omega),
          Nat.zero_add]
      have hsize : c.size.1.toNat = im.width.toNat ∧ c.size.2.toNat = im.height.toNat := by rw [hsz]; exact ⟨rfl, rfl⟩
      have hp : ((y : Int) - c.origin.2.toInt).toNat * c.size.1.toNat + ((x : Int) - c.origin.1.toInt).toNat <
          pixelCount im := by
        have := Nat.mul_le_mul_right c.size.1.toNat
          (show ((y : Int) - c.origin.2.toInt).toNat + 1 ≤ c.size.2.toNat by omega)
        rw [Nat.succ_mul] at this
        have h3 := Nat.mul_comm c.size.1.toNat c.size.2.toNat
        rw [pixelCount, ← hsize.1, ← hsize.2]
        omega
      obtain ⟨color, hcolor⟩ := imageColor_isSome hf hd inflate (show f.images[c.imageIndex]? = some im from hi) hp
      rw [hcolor]
      have hw := pixels_written (fun p => imageColor inflate f c.imageIndex
        ((((trimmedCorner f c).2 : Int) + (p / (trimmedSize f c).1 : Nat) - c.origin.2.toInt).toNat * c.size.1.toNat +
          (((trimmedCorner f c).1 : Int) + (p % (trimmedSize f c).1 : Nat) - c.origin.1.toInt).toNat))
        ((trimmedSize f c).1 * (trimmedSize f c).2)
      rw [imageColor, hn, Option.bind_some, hg, imageBytes]
      change pixel (_ ++ _) _ = _
      rw [pixel_append_left]
      · refine hw.2 _ _ hlt ?_
        rw [hmod, hdiv, ← hcolor]
        congr 1
        rw [show ((trimmedCorner f c).2 : Int) + ((y - (trimmedCorner f c).2 : Nat) : Int) = y by omega,
          show ((trimmedCorner f c).1 : Int) + ((x - (trimmedCorner f c).1 : Nat) : Int) = x by omega]
      · have := trimmed_data inflate f c
        change _ ≤ (trimmedImage inflate f c).data.length
        omega
    · rw [if_neg hin, if_neg (fun hh => by
        have h1 := v1.1 ⟨by omega, by omega⟩
        have h2 := v2.1 ⟨by omega, by omega⟩
        omega)]
      rfl

theorem trimmedSprite_possible (hf : AsepriteFile.load plat b = .ok f) (inflate : Inflater) :
    Possible (trimmedSprite inflate f) := by
  have hp := C129_possible plat b f hf
  have h : Possible (filmSprite f f.layers (f.frames.map fun fr => (fr.duration, fr.cels.map (trimmedItem inflate f)))) := by
    refine filmSprite_possible hf (by have : f.frames ≠ [] := hp.frames; simpa using this) hp.layers ?_ ?_
    · intro x hx
      obtain ⟨fr, hfr, rfl⟩ := List.mem_map.1 hx
      have := hp.sorted fr hfr
      rw [List.map_map]
      exact this
    · intro x hx it hit
      obtain ⟨fr, hfr, rfl⟩ := List.mem_map.1 hx
      obtain ⟨c, hc, rfl⟩ := List.mem_map.1 hit
      exact hp.layerIndex fr hfr c hc
  obtain ⟨home, hn⟩ := h.numbered
  exact ⟨nofun, nofun, fun _ => rfl, h.layers, hp.tags, h.frames, h.origin, h.sorted, h.layerIndex, h.size, home,
    ⟨hn.count, hn.ascending, hn.stored, hn.shown⟩⟩

theorem trimmed_get {i : Nat} {fr : LFrame} (h : (trimmedSprite inflate f).frames[i]? = some fr) :
    ∃ lf, f.frames[i]? = some lf ∧ fr.duration = lf.duration ∧ ∃ start,
      fr.cels = (lf.cels.zipIdx start).map (fun y : FrameCel × Nat => (⟨(trimmedItem inflate f y.1).2.1,
        ((trimmedImage inflate f y.1).width, (trimmedImage inflate f y.1).height), y.1.layerIndex, y.2⟩ : FrameCel)) ∧
      ∀ y ∈ lf.cels.zipIdx start, (trimmedSprite inflate f).images[y.2]? = some (trimmedImage inflate f y.1) := by
  obtain ⟨d, its, hk, rfl⟩ := filmSprite_frame (f := f) (layers := f.layers) h
  have hk' := hk
  rw [List.getElem?_map] at hk
  obtain ⟨lf, hlf, he⟩ := Option.map_eq_some_iff.1 hk
  cases he
  refine ⟨lf, hlf, rfl, startOf ((f.frames.map fun fr => (fr.duration, fr.cels.map (trimmedItem inflate f))).map (·.2)) i,
    ?_, fun y hy => ?_⟩
  · dsimp only
    rw [List.zipIdx_map, List.map_map]
    rfl
  · obtain ⟨h1, h2⟩ := List.mk_mem_zipIdx_iff_le_and_getElem?_sub.1 (show (y.1, y.2) ∈ _ from hy)
    have h3 : ((f.frames.map fun fr => (fr.duration, fr.cels.map (trimmedItem inflate f))).map (·.2))[i]? =
        some (lf.cels.map (trimmedItem inflate f)) := by rw [List.getElem?_map, hk']; rfl
    have h4 : (lf.cels.map (trimmedItem inflate f))[y.2 - startOf
        ((f.frames.map fun fr => (fr.duration, fr.cels.map (trimmedItem inflate f))).map (·.2)) i]? =
        some (trimmedItem inflate f y.1) := by rw [List.getElem?_map, h2]; rfl
    have h5 := flatten_at h3 h4
    rw [Nat.add_sub_cancel' h1] at h5
    show (((f.frames.map fun fr => (fr.duration, fr.cels.map (trimmedItem inflate f))).map (·.2)).flatten.map (·.2.2))[y.2]? = _
    rw [List.getElem?_map, h5]
    rfl

theorem trimmedSprite_small (inflate : Inflater) (hs : ∀ fr ∈ f.frames,
      2 ^ 23 + (f.layers.map fun l => 64 + (utf8 l.name).length).sum + (f.tags.map fun t => 64 + (utf8 t.name).length).sum +
        (fr.cels.map fun c => 64 + (trimmedSize f c).1 * (trimmedSize f c).2 * 4).sum < 2 ^ 32) :
    Small (trimmedSprite inflate f) := by
  intro fr hfr
  obtain ⟨i, hi⟩ := List.mem_iff_getElem?.1 hfr
  obtain ⟨lf, h1, -, start, h2, h3⟩ := trimmed_get hi
  have h4 := hs lf (List.mem_of_getElem? h1)
  have h5 : fr.cels.map (fun c => 64 + dataLength (trimmedSprite inflate f) c.imageIndex) =
      lf.cels.map fun c => 64 + (trimmedSize f c).1 * (trimmedSize f c).2 * 4 := by
    rw [h2, List.map_map]
    conv => rhs; rw [← List.zipIdx_map_fst start lf.cels, List.map_map]
    refine List.map_congr_left fun y hy => ?_
    simp only [Function.comp_def, dataLength, h3 y hy, Option.map_some, Option.getD_some, trimmed_data]
  rw [h5]
  exact h4

end

theorem trimmed_file (plat : Plat) (b : Bytes) (f : AsepriteFile) (hf : AsepriteFile.load plat b = .ok f)
    (hd : ∀ n, f.file.header.colorDepth ≠ .unknown n) (inflate : Inflater) (hs : ∀ fr ∈ f.frames,
      2 ^ 23 + (f.layers.map fun l => 64 + (utf8 l.name).length).sum + (f.tags.map fun t => 64 + (utf8 t.name).length).sum +
        (fr.cels.map fun c => 64 + (trimmedSize f c).1 * (trimmedSize f c).2 * 4).sum < 2 ^ 32) :
    ∃ c g, AsepriteFile.load plat c = .ok g ∧ spriteOf g = trimmedSprite inflate f ∧ InsideCanvas g ∧ g.size = f.size ∧ g.layers = f.layers ∧ g.tags = f.tags ∧
      g.frames.map (·.duration) = f.frames.map (·.duration) ∧
      g.frames.map (·.cels.map (·.layerIndex)) = f.frames.map (·.cels.map (·.layerIndex)) ∧
      ∀ (inflate' : Inflater) (i : Nat) (sel : LayerSelection) (t u : Bytes),
        (∀ t' u', f.renderFrame plat inflate i sel t = (.ok (), t') → g.renderFrame plat inflate' i sel u = (.ok (), u') →
          ∀ x y, x < f.size.1.toNat → y < f.size.2.toNat → canvasPixel f t x y = canvasPixel g u x y →
            canvasPixel f t' x y = canvasPixel g u' x y) ∧
        (NoAssertions plat f sel → RendersOk plat inflate f i sel t → HoldsCanvas g u →
          RendersOk plat inflate' g i sel u) := by
  obtain ⟨c, g, hc, he⟩ := C129_every plat _ (trimmedSprite_possible hf inflate) (trimmedSprite_small inflate hs)
  have el : g.layers = f.layers := congrArg Sprite.layers he
  have es : g.size = f.size := congrArg Sprite.size he
  have ed : g.file.header.colorDepth = .rgba := congrArg Sprite.depth he
  have ei : g.images = (trimmedSprite inflate f).images := congrArg Sprite.images he
  have ef : g.frames = (trimmedSprite inflate f).frames := congrArg Sprite.frames he
  have hflen : g.frames.length = f.frames.length := by rw [ef]; simp [trimmedSprite, filmSprite]
  have hget : ∀ (i : Nat) fr, g.frames[i]? = some fr → ∃ lf, f.frames[i]? = some lf ∧ fr.duration = lf.duration ∧ ∃ start,
      fr.cels = (lf.cels.zipIdx start).map (fun y : FrameCel × Nat => (⟨(trimmedItem inflate f y.1).2.1,
        ((trimmedImage inflate f y.1).width, (trimmedImage inflate f y.1).height), y.1.layerIndex, y.2⟩ : FrameCel)) ∧
      ∀ y ∈ lf.cels.zipIdx start, g.images[y.2]? = some (trimmedImage inflate f y.1) := by
    intro i fr h
    rw [ef] at h
    rw [ei]
    exact trimmed_get h
  have hraw : ∀ im ∈ g.images, im.compressed = false := by
    intro im hm
    rw [ei] at hm
    obtain ⟨it, h1, rfl⟩ := List.mem_map.1 hm
    obtain ⟨l, h2, h3⟩ := List.mem_flatten.1 h1
    obtain ⟨x, h4, rfl⟩ := List.mem_map.1 h2
    obtain ⟨fr, _, rfl⟩ := List.mem_map.1 h4
    obtain ⟨c, _, rfl⟩ := List.mem_map.1 h3
    rfl
  have hmapf : ∀ {β : Type} (φ ψ : LFrame → β), (∀ (i : Nat) fr lf, g.frames[i]? = some fr → f.frames[i]? = some lf → φ fr = ψ lf) →
      g.frames.map φ = f.frames.map ψ := by
    intro β φ ψ h
    refine List.ext_getElem? fun i => ?_
    rw [List.getElem?_map, List.getElem?_map]
    cases h1 : g.frames[i]? with
    | none =>
      rw [List.getElem?_eq_none (by have := List.getElem?_eq_none_iff.1 h1; omega)]
      rfl
    | some fr =>
      obtain ⟨lf, h2, -⟩ := hget i fr h1
      rw [h2]
      exact congrArg some (h i fr lf h1 h2)
  refine ⟨c, g, hc, he, ?_, es, el, congrArg Sprite.tags he, ?_, ?_, fun inflate' i sel t u => ?_⟩
  · intro fr hfr d hdm
    obtain ⟨i, hi⟩ := List.mem_iff_getElem?.1 hfr
    obtain ⟨lf, h1, -, start, h2, h3⟩ := hget i fr hi
    rw [h2] at hdm
    obtain ⟨y, hy, rfl⟩ := List.mem_map.1 hdm
    obtain ⟨o1, o2⟩ := trimmed_origin f y.1
    obtain ⟨w1, w2⟩ := trimmed_width inflate f y.1
    simp only [trimmedItem, o1, o2, w1, w2, es]
    simp only [trimmedCorner, trimmedSize, trimmedLength, trimmedStart]
    omega
  · refine hmapf _ _ fun i fr lf h1 h2 => ?_
    obtain ⟨lf', h3, h4, -⟩ := hget i fr h1
    rw [h2] at h3
    cases h3
    exact h4
  · refine hmapf _ _ fun i fr lf h1 h2 => ?_
    obtain ⟨lf', h3, -, start, h4, -⟩ := hget i fr h1
    rw [h2] at h3
    cases h3
    rw [h4, List.map_map]
    conv => rhs; rw [← List.zipIdx_map_fst start lf.cels, List.map_map]
    rfl
  · have hcase : ∀ lf, f.frames[i]? = some lf → ∃ lg, g.frames[i]? = some lg := fun lf h =>
      ⟨_, List.getElem?_eq_getElem (by have := (List.getElem?_eq_some_iff.1 h).1; omega)⟩
    refine ⟨fun t' u' ht hu x y hx hy hb => ?_, fun hn hok hu => ?_⟩
    · rw [raw_renderFrame hraw plat inflate] at hu
      cases hi : f.frames[i]? with
      | none =>
        have h0 := congrArg Prod.fst ht
        rw [renderFrame_eq, hi] at h0
        split at h0 <;> cases h0
      | some lf =>
        obtain ⟨lg, hj⟩ := hcase lf hi
        obtain ⟨lf', h3, -, start, h4, h5⟩ := hget i lg hj
        rw [hi] at h3
        cases h3
        refine C77_strokes plat b c f g hf hc inflate i i lf lg hi hj sel sel t t' u u' ht hu x y x y hx hy (es ▸ hx) (es ▸ hy)
          hb ?_
        rw [strokes, strokes, h4, List.filterMap_map]
        conv => lhs; rw [← List.zipIdx_map_fst start lf.cels, List.filterMap_map]
        refine List.filterMap_congr fun z hz => ?_
        exact (trimmed_stroke hf hd el ed (List.mem_of_getElem? hi) (List.fst_mem_of_mem_zipIdx hz) (h5 z hz) sel hx hy).symm
    · rw [RendersOk, raw_renderFrame hraw plat inflate]
      change RendersOk plat inflate g i sel u
      have takes : ∀ l, TakesLayer g sel l ↔ TakesLayer f sel l := fun l => by rw [TakesLayer, TakesLayer, el]
      cases hi : f.frames[i]? with
      | none =>
        rw [RendersOk, renderFrame_eq, hi] at hok
        split at hok <;> cases hok
      | some lf =>
        obtain ⟨lg, hj⟩ := hcase lf hi
        obtain ⟨lf', h3, -, start, h4, h5⟩ := hget i lg hj
        rw [hi] at h3
        cases h3
        have hn' : NoAssertions plat g sel := by
          rcases hn with h | h
          · exact .inl h
          · exact .inr fun l layer h1 h2 => h l layer (el ▸ h1) ((takes l).1 h2)
        have h1 := (C134_images plat b f hf inflate i lf hi sel hn t (holds_of_renders hf hok)).1 hok
        refine (C134_images plat c g hc inflate i lg hj sel hn' u hu).2 fun d hdm hl => ?_
        rw [h4] at hdm
        obtain ⟨z, hz, rfl⟩ := List.mem_map.1 hdm
        refine ⟨?_, fun layer h6 => (h1 z.1 (List.fst_mem_of_mem_zipIdx hz) ((takes _).1 hl)).2 layer (el ▸ h6)⟩
        dsimp only
        rw [loadImage_eq (h5 z hz), if_neg (by rw [List.length_replicate, pixelCount]; omega)]
        rw [AsepriteFile.decodeImage, ed]
        change (Buf.copyFromSlice _ _).1 = _
        rw [Buf.copyFromSlice, if_pos]
        have hw := trimmed_width inflate f z.1
        rw [List.length_take, List.length_replicate, pixelCount, Nat.min_self, trimmed_data, hw.1, hw.2]

/-- **C147.** Every sprite in a known colour mode can be stored with cels that do not reach over the edges of the canvas, if
that is not too large: there is a file of the same size with the same layers, durations and tags, all of whose cels are inside
the canvas, and every frame of it shows the same picture as before, with every selection, if the canvases were the same before.
If the frame of the first one can be rendered so can that of the second one, unless HSL modes in debug builds are involved. -/
theorem C147_trimmed (plat : Plat) (b : Bytes) (f : AsepriteFile) (hf : AsepriteFile.load plat b = .ok f)
    (hd : ∀ n, f.file.header.colorDepth ≠ .unknown n) (inflate : Inflater) (hs : ∀ fr ∈ f.frames,
      2 ^ 23 + (f.layers.map fun l => 64 + (utf8 l.name).length).sum + (f.tags.map fun t => 64 + (utf8 t.name).length).sum +
        (fr.cels.map fun c => 64 + (trimmedSize f c).1 * (trimmedSize f c).2 * 4).sum < 2 ^ 32) :
    ∃ c g, AsepriteFile.load plat c = .ok g ∧ InsideCanvas g ∧ g.size = f.size ∧ g.layers = f.layers ∧ g.tags = f.tags ∧
      g.frames.map (·.duration) = f.frames.map (·.duration) ∧
      g.frames.map (·.cels.map (·.layerIndex)) = f.frames.map (·.cels.map (·.layerIndex)) ∧
      ∀ (inflate' : Inflater) (i : Nat) (sel : LayerSelection) (t u : Bytes),
        (∀ t' u', f.renderFrame plat inflate i sel t = (.ok (), t') → g.renderFrame plat inflate' i sel u = (.ok (), u') →
          ∀ x y, x < f.size.1.toNat → y < f.size.2.toNat → canvasPixel f t x y = canvasPixel g u x y →
            canvasPixel f t' x y = canvasPixel g u' x y) ∧
        (NoAssertions plat f sel → RendersOk plat inflate f i sel t → HoldsCanvas g u →
          RendersOk plat inflate' g i sel u) := by
  obtain ⟨c, g, hc, -, h⟩ := trimmed_file plat b f hf hd inflate hs
  exact ⟨c, g, hc, h⟩

/-- **C147 (sheets).** So the condition of C145 on the edges is not needed: all frames of a sprite in a known colour mode can be
put side by side into one picture, each of them cut off at the edges of its canvas, if the sheet is not too wide or too large
and no HSL modes in debug builds are involved. -/
theorem C147_sheet (plat : Plat) (b : Bytes) (f : AsepriteFile) (hf : AsepriteFile.load plat b = .ok f)
    (hd : ∀ n, f.file.header.colorDepth ≠ .unknown n) (inflate : Inflater)
    (hn : plat.debug = false ∨ ∀ layer ∈ f.layers, isHsl layer.blendMode = false)
    (hwide : f.frames.length * f.size.1.toNat < 2 ^ 15) (hlayers : f.frames.length * f.layers.length ≤ 2 ^ 16)
    (hbytes : 2 ^ 23 + (f.tags.map fun t => 64 + (utf8 t.name).length).sum +
      (f.frames.map fun fr => (f.layers.map fun l => 64 + (utf8 l.name).length).sum +
        (fr.cels.map fun c => 64 + (trimmedSize f c).1 * (trimmedSize f c).2 * 4).sum).sum < 2 ^ 32) :
    ∃ c s, AsepriteFile.load plat c = .ok s ∧ s.frames.length = 1 ∧ s.size.1.toNat = f.frames.length * f.size.1.toNat ∧
      s.size.2 = f.size.2 ∧ s.layers = (List.replicate f.frames.length f.layers).flatten ∧
      ∀ (inflate' : Inflater) (sel : LayerSelection) (t : Bytes),
        let sel' := forEachCopy f.frames.length f.layers.length sel
        (∀ t', s.renderFrame plat inflate' 0 sel' t = (.ok (), t') → ∀ (i : Nat) (u u' : Bytes),
          f.renderFrame plat inflate i sel u = (.ok (), u') → ∀ x y, x < f.size.1.toNat → y < f.size.2.toNat →
          canvasPixel f u x y = canvasPixel s t (i * f.size.1.toNat + x) y →
          canvasPixel f u' x y = canvasPixel s t' (i * f.size.1.toNat + x) y) ∧
        ((∀ i, i < f.frames.length → ∃ u, RendersOk plat inflate f i sel u) → HoldsCanvas s t →
          RendersOk plat inflate' s 0 sel' t) := by
  have hle : ∀ fr ∈ f.frames, (f.layers.map fun l => 64 + (utf8 l.name).length).sum +
      (fr.cels.map fun c => 64 + (trimmedSize f c).1 * (trimmedSize f c).2 * 4).sum ≤
      (f.frames.map fun fr => (f.layers.map fun l => 64 + (utf8 l.name).length).sum +
        (fr.cels.map fun c => 64 + (trimmedSize f c).1 * (trimmedSize f c).2 * 4).sum).sum :=
    fun fr hfr => List.le_sum_of_mem (List.mem_map_of_mem hfr)
  have hs : ∀ fr ∈ f.frames, 2 ^ 23 + (f.layers.map fun l => 64 + (utf8 l.name).length).sum +
      (f.tags.map fun t => 64 + (utf8 t.name).length).sum +
      (fr.cels.map fun c => 64 + (trimmedSize f c).1 * (trimmedSize f c).2 * 4).sum < 2 ^ 32 := by
    intro fr hfr
    have := hle fr hfr
    omega
  obtain ⟨c, g, hc, he, hin, es, el, -, hdur, -, hr⟩ := trimmed_file plat b f hf hd inflate hs
  have hlen : g.frames.length = f.frames.length := by simpa using congrArg List.length hdur
  have hpage : ((List.range g.frames.length).map fun i => pageBytes (g, i)) =
      f.frames.map fun fr => (f.layers.map fun l => 64 + (utf8 l.name).length).sum +
        (fr.cels.map fun c => 64 + (trimmedSize f c).1 * (trimmedSize f c).2 * 4).sum := by
    refine List.ext_getElem? fun i => ?_
    rw [List.getElem?_map, List.getElem?_map]
    by_cases hi : i < g.frames.length
    · have hfr : (trimmedSprite inflate f).frames[i]? = some g.frames[i] := by
        rw [← he]; exact List.getElem?_eq_getElem hi
      obtain ⟨lf, h1, -, start, h2, h3⟩ := trimmed_get hfr
      rw [← he] at h3
      rw [List.getElem?_range hi, h1]
      simp only [Option.map_some, pageBytes, pageCels, List.getElem?_eq_getElem hi, Option.getD_some, el, h2, List.map_map]
      congr 3
      conv => rhs; rw [← List.zipIdx_map_fst start lf.cels, List.map_map]
      refine List.map_congr_left fun y hy => ?_
      simp only [Function.comp_def, show g.images[y.2]? = _ from h3 y hy, Option.map_some, Option.getD_some, trimmed_data]
    · rw [List.getElem?_eq_none (by simpa using hi), List.getElem?_eq_none (by omega)]
      rfl
  obtain ⟨c', s, hc', h1, h2, h3, h4, h5⟩ := C145_sheet plat c g hc (fun fr hfr d hdm => (hin fr hfr d hdm).1)
    (by rw [hlen, es]; exact hwide) (he ▸ trimmedSprite_small inflate hs) (by rw [hlen, el]; exact hlayers)
    (by rw [hpage]; omega)
  have noAssert : ∀ sel, NoAssertions plat f sel := fun sel =>
    hn.imp id fun h l layer hl _ => h layer (List.mem_of_getElem? hl)
  have holds : ∀ {i : Nat} {sel : LayerSelection} {u : Bytes}, RendersOk plat inflate f i sel u → HoldsCanvas g u := by
    intro i sel u hok
    have := holds_of_renders hf hok
    rw [HoldsCanvas, es]
    exact this
  refine ⟨c', s, hc', h1, by rw [h2, hlen, es], by rw [h3, es], by rw [h4, hlen, el], fun inflate' sel t => ?_⟩
  obtain ⟨h6, h7⟩ := h5 inflate' sel t
  rw [hlen, el] at h6 h7
  refine ⟨fun t' ht i u u' hu x y hx hy hb => ?_, fun hall ht => ?_⟩
  · have hok : RendersOk plat inflate f i sel u := by rw [RendersOk, hu]
    have hgok := (hr inflate' i sel u u).2 (noAssert sel) hok (holds hok)
    rw [es] at h6
    have hgu : g.renderFrame plat inflate' i sel u = (.ok (), (g.renderFrame plat inflate' i sel u).2) := Prod.ext hgok rfl
    have hcp : canvasPixel f u x y = canvasPixel g u x y := by
      have : g.file.header.width = f.file.header.width := congrArg Prod.fst es
      simp only [canvasPixel, this]
    rw [(hr inflate' i sel u u).1 u' _ hu hgu x y hx hy hcp]
    exact h6 t' ht i u _ hgu x y hx hy (hcp ▸ hb)
  · refine h7 hn (fun i hi => ?_) ht
    obtain ⟨u, hok⟩ := hall i hi
    exact ⟨u, (hr inflate' i sel u u).2 (noAssert sel) hok (holds hok)⟩

/-- Cels that reach over the left and the right edge, and one beyond the canvas: the hypotheses hold, and the file written down
here has the parts `trimmedImage` gives and the same picture. -/
example :
    let layers := [Sample.layer 1 0 0 255 [65], Sample.layer 1 0 1 200 [66], Sample.layer 1 0 0 255 [67]]
    let b := Sample.header 2 1 32 ++ Sample.frame 1 (layers ++ [
      Sample.cel 0 65535 0 2 2 [90, 80, 70, 255, 60, 50, 40, 255, 1, 1, 1, 255, 2, 2, 2, 255],
      Sample.cel 1 0 0 4 1 [200, 100, 0, 128, 1, 2, 3, 255, 4, 5, 6, 255, 7, 8, 9, 255],
      Sample.cel 2 9 9 1 1 [1, 1, 1, 1]])
    let b' := Sample.header 2 1 32 ++ Sample.frame 1 (layers ++ [Sample.cel 0 0 0 1 1 [60, 50, 40, 255],
      Sample.cel 1 0 0 2 1 [200, 100, 0, 128, 1, 2, 3, 255], Sample.cel 2 2 1 0 0 []])
    (match AsepriteFile.load ⟨true, 10⟩ b, AsepriteFile.load ⟨true, 10⟩ b' with
      | .ok f, .ok g => f.frames.all (fun fr => decide (
            2 ^ 23 + (f.layers.map fun l => 64 + (utf8 l.name).length).sum +
              (f.tags.map fun t => 64 + (utf8 t.name).length).sum +
              (fr.cels.map fun c => 64 + (trimmedSize f c).1 * (trimmedSize f c).2 * 4).sum < 2 ^ 32)) &&
          decide (InsideCanvas g) && !decide (InsideCanvas f) &&
          decide (2 ^ 23 + (f.tags.map fun t => 64 + (utf8 t.name).length).sum +
            (f.frames.map fun fr => (f.layers.map fun l => 64 + (utf8 l.name).length).sum +
              (fr.cels.map fun c => 64 + (trimmedSize f c).1 * (trimmedSize f c).2 * 4).sum).sum < 2 ^ 32) &&
          decide (∀ layer ∈ f.layers, isHsl layer.blendMode = false) && f.layers.length == 3 &&
          (f.frames.flatMap fun fr => fr.cels.map (trimmedImage Zlib.inflate f)) == g.images
      | _, _ => false) = true ∧
    Sample.render ⟨true, 10⟩ b 0 .all (List.replicate 8 0) = Sample.render ⟨true, 10⟩ b' 0 .all (List.replicate 8 0) ∧
    Sample.render ⟨true, 10⟩ b 0 .all (List.replicate 8 0) = some (.ok (), [55, 39, 25, 255, 1, 2, 3, 200]) := by
  decide +kernel

end Ase
