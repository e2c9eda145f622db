import Verif.Spec.DebugBuild
import Verif.Props.HslPanic
import Verif.Props.Strokes
import Verif.Props.Profile
import Verif.Props.Once

/-!
# C135: what a debug build can draw
-/

namespace Ase

open Spec

/-- One stroke in a debug build. -/
theorem stroke_debug {plat : Plat} (hp : plat.debug = true) (s : Stroke) (hk : isKnown s.mode = true) (below : Color) :
    (Passes below s → ∃ c, blend plat s.mode below s.color s.opacity = .ok c ∧
      blend ⟨false, 0⟩ s.mode below s.color s.opacity = .ok c) ∧
    (¬ Passes below s → blend plat s.mode below s.color s.opacity = .panic .debugAssertFailed) := by
  by_cases hh : isHsl s.mode = true
  · have h := C50_exactly_partial plat s.mode hh below s.color s.opacity
    have hiff : Passes below s ↔ ¬ (plat.debug = true ∧ below.a ≠ 0 ∧ (2 ≤ s.color.a.toNat ∨
        Hsl.sat (Hsl.source s.mode below s.color) ≠ 0 ∧ 1 < Hsl.target s.mode below s.color)) := by
      unfold Passes
      simp only [hh, hp, true_implies, true_and, not_and_or, not_or, ne_eq, not_not, not_lt, not_le]
      rw [Nat.lt_succ_iff]
    refine ⟨fun h1 => ?_, fun h1 => h.1 (not_not.1 fun h2 => h1 (hiff.2 h2))⟩
    obtain ⟨c, h2, h3⟩ := h.2 (hiff.1 h1)
    exact ⟨c, h2, h3 0⟩
  · have hpass : Passes below s := fun h => absurd h hh
    refine ⟨fun _ => ?_, fun h => absurd hpass h⟩
    obtain ⟨c, hc⟩ := C47_total s.mode (by simp [isSeparable, hk, hh]) below s.color s.opacity
    exact ⟨c, hc _, hc _⟩

theorem strokes_stuck (plat : Plat) (ss : List Stroke) (k : Panic) :
    ss.foldl (fun (r : Run Color) s => r.bind fun c => blend plat s.mode c s.color s.opacity) (.panic k) = .panic k := by
  induction ss with
  | nil => rfl
  | cons s ss ih => exact ih

/-- Several strokes in a debug build. -/
theorem strokes_debug {plat : Plat} (hp : plat.debug = true) (ss : List Stroke) (hk : ∀ s ∈ ss, isKnown s.mode = true)
    (c : Color) : (∃ out, ss.foldl (fun (r : Run Color) s => r.bind fun c => blend plat s.mode c s.color s.opacity) (.ok c)
      = .ok out) ↔ AllPass ss c := by
  induction ss generalizing c with
  | nil => exact ⟨fun _ => trivial, fun _ => ⟨c, rfl⟩⟩
  | cons s ss ih =>
    obtain ⟨h1, h2⟩ := stroke_debug hp s (hk s List.mem_cons_self) c
    rw [List.foldl_cons, AllPass]
    change (∃ out, ss.foldl _ (blend plat s.mode c s.color s.opacity) = .ok out) ↔ _
    by_cases hs : Passes c s
    · obtain ⟨d, h3, h4⟩ := h1 hs
      rw [h3, ih (fun s hm => hk s (List.mem_cons_of_mem _ hm)) d, h4]
      exact ⟨fun h => ⟨hs, fun c' hc' => by cases hc'; exact h⟩, fun h => h.2 d rfl⟩
    · rw [h2 hs, strokes_stuck]
      exact ⟨fun ⟨_, h⟩ => (by cases h), fun h => absurd h.1 hs⟩

theorem release_of_load {plat : Plat} {b : Bytes} {f : AsepriteFile} (h : AsepriteFile.load plat b = .ok f) :
    AsepriteFile.load ⟨false, plat.stack⟩ b = .ok f := by
  rcases C57_load (plat := plat) (plat' := ⟨false, plat.stack⟩) (Nat.le_refl _) (fun h => nomatch h) b with h1 | h1 | h1
  · rw [← h1, h]
  · rw [h] at h1; cases h1
  · rw [h] at h1; cases h1.2.2

theorem strokes_known {inflate : Inflater} {f : AsepriteFile} {sel : LayerSelection} {cels : List FrameCel}
    (h : ∀ c ∈ cels, ∀ layer im, drawnOn f sel c = some layer → f.images[c.imageIndex]? = some im →
      HasPixels inflate f.file im ∧ isKnown layer.blendMode = true) (x y : Nat) :
    ∀ s ∈ strokes inflate f sel x y cels, isKnown s.mode = true := by
  intro s hs
  obtain ⟨c, hc, h1⟩ := List.mem_filterMap.1 hs
  unfold strokeOf at h1
  obtain ⟨layer, h2, h3⟩ := Option.bind_eq_some_iff.1 h1
  obtain ⟨p, -, h4⟩ := Option.bind_eq_some_iff.1 h3
  obtain ⟨color, h5, rfl⟩ := Option.map_eq_some_iff.1 h4
  cases him : f.images[c.imageIndex]? with
  | none => rw [imageColor, him] at h5; cases h5
  | some im => exact (h c hc layer im h2 him).2

/-- **C135.** A debug build can draw a frame onto a buffer iff a release build can and on every pixel of the canvas all
strokes pass.  Both leave the same bytes then. -/
theorem C135_debug (plat : Plat) (hp : plat.debug = true) (b : Bytes) (f : AsepriteFile)
    (h : AsepriteFile.load plat b = .ok f) (inflate : Inflater) (i : Nat) (lf : LFrame) (hi : f.frames[i]? = some lf)
    (sel : LayerSelection) (t t' : Bytes) :
    f.renderFrame plat inflate i sel t = (.ok (), t') ↔
      f.renderFrame ⟨false, plat.stack⟩ inflate i sel t = (.ok (), t') ∧
      ∀ x y c, x < f.size.1.toNat → y < f.size.2.toNat → canvasPixel f t x y = some c →
        AllPass (strokes inflate f sel x y lf.cels) c := by
  have hr := release_of_load h
  rcases C57_render (plat := plat) (plat' := ⟨false, plat.stack⟩) (fun h => nomatch h) inflate f i sel t with he | ⟨-, he⟩
  · rw [← he]
    refine ⟨fun hok => ⟨hok, ?_⟩, fun hok => hok.1⟩
    have h1 : (f.renderFrame plat inflate i sel t).1 = .ok () := by rw [hok]
    have ht := holds_of_renders h h1
    obtain ⟨h2, h3⟩ := (C41_failures_partial plat b f h inflate i lf hi sel t ht).2.1 h1
    intro x y c hx hy hc
    obtain ⟨out, h4⟩ := h3 x y c hx hy hc
    rw [compose_strokes] at h4
    exact (strokes_debug hp _ (strokes_known h2 x y) c).1 ⟨out, h4⟩
  · constructor
    · intro hok
      rw [hok] at he
      rcases he with he | he <;> cases he
    · rintro ⟨hok, hall⟩
      exfalso
      have h1 : (f.renderFrame ⟨false, plat.stack⟩ inflate i sel t).1 = .ok () := by rw [hok]
      have ht := holds_of_renders hr h1
      have h2 := ((C41_failures_partial _ b f hr inflate i lf hi sel t ht).2.1 h1).1
      have h3 := (C41_failures_partial plat b f h inflate i lf hi sel t ht).2.2 ⟨h2, fun x y c hx hy hc => by
        rw [compose_strokes]
        exact (strokes_debug hp _ (strokes_known h2 x y) c).2 (hall x y c hx hy hc)⟩
      rcases he with he | he <;> rw [he] at h3 <;> cases h3

theorem allPass_visible {ss : List Stroke} {c : Color} (h : AllPass ss c) (hk : ∀ s ∈ ss, isKnown s.mode = true)
    (hc : c.a ≠ 0) : ∀ s ∈ ss, isHsl s.mode = true → s.color.a.toNat ≤ 1 := by
  induction ss generalizing c with
  | nil => intro s hs; cases hs
  | cons s ss ih =>
    intro s' hs' hh
    rcases List.mem_cons.1 hs' with rfl | hs'
    · exact ((h.1 hh).resolve_left hc).1
    · obtain ⟨d, -, hd⟩ := (stroke_debug (plat := ⟨true, 0⟩) rfl s (hk s List.mem_cons_self) c).1 h.1
      refine ih (h.2 d hd) (fun s hm => hk s (List.mem_cons_of_mem _ hm)) ?_ s' hs' hh
      have h1 := C66_blend _ _ _ _ _ _ hd
      intro h0
      rw [h0] at h1
      exact hc (UInt8.toNat_inj.1 (Nat.le_zero.1 (UInt8.le_iff_toNat_le.1 h1)))

/-- **C135 (on a visible canvas).** If a debug build draws a frame, no cel on a layer with an HSL mode has painted a colour
of alpha 2 or more on a canvas pixel that was not fully transparent before. -/
theorem C135_visible (plat : Plat) (hp : plat.debug = true) (b : Bytes) (f : AsepriteFile)
    (h : AsepriteFile.load plat b = .ok f) (inflate : Inflater) (i : Nat) (lf : LFrame) (hi : f.frames[i]? = some lf)
    (sel : LayerSelection) (t t' : Bytes) (hok : f.renderFrame plat inflate i sel t = (.ok (), t'))
    (cel : FrameCel) (hcel : cel ∈ lf.cels) (layer : LLayer) (hl : drawnOn f sel cel = some layer)
    (hm : isHsl layer.blendMode = true) (x y p : Nat) (hx : x < f.size.1.toNat) (hy : y < f.size.2.toNat)
    (hc : coveredBy cel x y = some p) (front : Color) (hf : imageColor inflate f cel.imageIndex p = some front)
    (before : Color) (hb : canvasPixel f t x y = some before) : before.a = 0 ∨ front.a.toNat ≤ 1 := by
  by_cases h0 : before.a = 0
  · exact .inl h0
  · right
    have h1 : (f.renderFrame plat inflate i sel t).1 = .ok () := by rw [hok]
    have h2 := ((C41_failures_partial plat b f h inflate i lf hi sel t (holds_of_renders h h1)).2.1 h1).1
    have h3 := ((C135_debug plat hp b f h inflate i lf hi sel t t').1 hok).2 x y before hx hy hb
    refine allPass_visible h3 (strokes_known h2 x y) h0 ⟨layer.blendMode, layer.opacity, front⟩ ?_ hm
    refine List.mem_filterMap.2 ⟨cel, hcel, ?_⟩
    rw [strokeOf, hl, Option.bind_some, hc, Option.bind_some, hf]
    rfl

/-- **C135 (combined_frame_image).** The same for `combined_frame_image`, with the visible layers; both builds return the same
hash, too. -/
theorem C135_combined (plat : Plat) (hp : plat.debug = true) (b : Bytes) (f : AsepriteFile)
    (h : AsepriteFile.load plat b = .ok f) (inflate : Inflater) (hash : List HashInput → UInt64) (i : Nat) (lf : LFrame)
    (hi : f.frames[i]? = some lf) (t t' : Bytes) (v : UInt64) :
    f.combinedFrameImage plat inflate hash i t = (.ok v, t') ↔
      f.combinedFrameImage ⟨false, plat.stack⟩ inflate hash i t = (.ok v, t') ∧
      ∀ x y c, x < f.size.1.toNat → y < f.size.2.toNat → canvasPixel f t x y = some c →
        AllPass (strokes inflate f .visible x y lf.cels) c := by
  have key : ∀ p : Plat, f.combinedFrameImage p inflate hash i t = (.ok v, t') ↔
      f.renderFrame p inflate i .visible t = (.ok (), t') ∧
      v = hash (lf.cels.map fun c => (c.imageIndex, c.layerIndex, c.origin, c.size)) := by
    intro p
    obtain ⟨h1, -, -, h2, -⟩ := C52_combined p inflate hash f i t
    rw [Prod.ext_iff, Prod.ext_iff, h2 v, h1]
    constructor
    · rintro ⟨⟨h3, lf', h4, h5⟩, h6⟩
      cases hi.symm.trans h4
      exact ⟨⟨h3, h6⟩, h5⟩
    · rintro ⟨⟨h3, h6⟩, h5⟩
      exact ⟨⟨h3, lf, hi, h5⟩, h6⟩
  rw [key, key, C135_debug plat hp b f h inflate i lf hi .visible t t']
  exact and_right_comm

/-- A layer with the mode hue above a normal one, on a canvas of two pixels: a debug build can draw it if the lower
layer leaves the canvas below the upper one transparent, but not if the two overlap. -/
example :
    let b := fun (x : UInt16) => Sample.header 2 1 32 ++ Sample.frame 1 [Sample.layer 1 0 0 255 [65],
      Sample.layer 1 0 12 255 [66], Sample.cel 0 0 0 1 1 [200, 100, 50, 255], Sample.cel 1 x 0 1 1 [9, 80, 7, 200]]
    ((Sample.render ⟨true, 10⟩ (b 1) 0 .all [0, 0, 0, 0, 0, 0, 0, 0])) = some (.ok (), [200, 100, 50, 255, 9, 80, 7, 200]) ∧
    ((Sample.render ⟨true, 10⟩ (b 0) 0 .all [0, 0, 0, 0, 0, 0, 0, 0]).map (·.1)) = some (.panic .debugAssertFailed) ∧
    ((Sample.render ⟨false, 10⟩ (b 0) 0 .all [0, 0, 0, 0, 0, 0, 0, 0]).map (·.1)) = some (.ok ()) := by
  decide +kernel

end Ase
