import Mathlib.Data.List.Forall2
import Verif.Props.Channels
import Verif.Props.Alpha

/-!
# C98: more in, more opaque out
-/

namespace Ase

open Spec

/-- The stroke `s'` is at least as opaque as `s`: neither its colour nor its layer is more transparent.  Colours and modes
may be different. -/
def Spec.AtMostAsOpaque (s s' : Stroke) : Prop := s.color.a ≤ s'.color.a ∧ s.opacity ≤ s'.opacity

/-- The alpha a list of strokes makes of an alpha. -/
theorem strokes_alpha {plat : Plat} {ss : List Stroke} (hm : ∀ s ∈ ss, isHsl s.mode = false) {c d : Color}
    (h : ss.foldl (fun (r : Run Color) s => r.bind fun c => blend plat s.mode c s.color s.opacity) (.ok c) = .ok d) :
    d.a.toNat = ss.foldl (fun a s => screen a (times s.color.a.toNat s.opacity.toNat)) c.a.toNat := by
  induction ss generalizing c with
  | nil => cases h; rfl
  | cons s ss ih =>
    rw [List.foldl_cons] at h ⊢
    cases hb : blend plat s.mode c s.color s.opacity with
    | err e => exact nomatch e
    | panic k =>
      have stuck : ∀ (ss : List Stroke) (k : Panic), ss.foldl (fun (r : Run Color) s =>
          r.bind fun c => blend plat s.mode c s.color s.opacity) (.panic k) = .panic k := by
        intro ss k
        induction ss with
        | nil => rfl
        | cons s ss ih => exact ih
      rw [show (Outcome.bind (.ok c) fun c => blend plat s.mode c s.color s.opacity) = .panic k from hb, stuck] at h
      cases h
    | ok c1 =>
      rw [show (Outcome.bind (.ok c) fun c => blend plat s.mode c s.color s.opacity) = .ok c1 from hb] at h
      rw [← blend_alpha plat s.mode (hm s List.mem_cons_self) c s.color c1 s.opacity hb]
      exact ih (fun x hx => hm x (List.mem_cons_of_mem _ hx)) h

theorem effective_le (s : Stroke) : times s.color.a.toNat s.opacity.toNat ≤ 255 :=
  Nat.le_trans (times_le_left _ _ (byte_le _)) (byte_le _)

/-- More strokes, more opaque ones, on something more opaque. -/
theorem alpha_mono {ss ss' : List Stroke} (hs : List.SublistForall₂ AtMostAsOpaque ss ss') {a a' : Nat} (ha : a ≤ a')
    (ha' : a' ≤ 255) :
    ss.foldl (fun a s => screen a (times s.color.a.toNat s.opacity.toNat)) a ≤
      ss'.foldl (fun a s => screen a (times s.color.a.toNat s.opacity.toNat)) a' := by
  have up : ∀ (l : List Stroke) (a : Nat), a ≤ 255 →
      a ≤ l.foldl (fun a s => screen a (times s.color.a.toNat s.opacity.toNat)) a := by
    intro l
    induction l with
    | nil => intro a _; exact Nat.le_refl _
    | cons s l ih =>
      intro a h
      have h1 := screen_le a _ h (effective_le s)
      have h2 := times_le_right a (times s.color.a.toNat s.opacity.toNat) h
      refine Nat.le_trans ?_ (ih _ h1.2)
      simp only [screen]
      omega
  induction hs generalizing a a' with
  | nil => exact Nat.le_trans ha (up _ _ ha')
  | @cons s s' l l' h _ ih =>
    have h1 := screen_le a' _ ha' (effective_le s')
    exact ih (screen_mono ha (times_mono (UInt8.le_iff_toNat_le.1 h.1) (UInt8.le_iff_toNat_le.1 h.2)) ha'
      (effective_le s')) h1.2
  | @cons_right s' l l' _ ih =>
    have h1 := screen_le a' _ ha' (effective_le s')
    have h2 := up [s'] a' ha'
    exact ih (Nat.le_trans ha h2) h1.2

/-- **C98.** Compare two pixels, of the same or of different sprites.  If what was there before is not more transparent on
the second one, and everything that is painted on the first one has something at least as opaque painted on the second
one in its place, in the same order, whatever else may be painted between, then the second result is not more
transparent, whatever the colours and the modes are, except for the modes on hue, saturation and luminosity. -/
theorem C98_more_opaque (plat : Plat) (b b' : Bytes) (f g : AsepriteFile) (hf : AsepriteFile.load plat b = .ok f)
    (hg : AsepriteFile.load plat b' = .ok g) (inflate : Inflater) (i j : Nat) (lf lg : LFrame)
    (hi : f.frames[i]? = some lf) (hj : g.frames[j]? = some lg) (sel sel' : LayerSelection) (t t' u u' : Bytes)
    (ht : f.renderFrame plat inflate i sel t = (.ok (), t')) (hu : g.renderFrame plat inflate j sel' u = (.ok (), u'))
    (x y x' y' : Nat) (hx : x < f.size.1.toNat) (hy : y < f.size.2.toNat) (hx' : x' < g.size.1.toNat)
    (hy' : y' < g.size.2.toNat) (c c' : Color) (hc : canvasPixel f t x y = some c)
    (hc' : canvasPixel g u x' y' = some c') (hcc : c.a ≤ c'.a)
    (hs : List.SublistForall₂ AtMostAsOpaque (strokes inflate f sel x y lf.cels) (strokes inflate g sel' x' y' lg.cels))
    (hm : ∀ s ∈ strokes inflate f sel x y lf.cels, isHsl s.mode = false)
    (hm' : ∀ s ∈ strokes inflate g sel' x' y' lg.cels, isHsl s.mode = false) :
    ∃ d d', canvasPixel f t' x y = some d ∧ canvasPixel g u' x' y' = some d' ∧ d.a ≤ d'.a := by
  obtain ⟨c1, d, h1, h2, h3⟩ := C37_pixels plat b f hf inflate i lf hi sel t t' ht x y hx hy
  obtain ⟨c2, d', h1', h2', h3'⟩ := C37_pixels plat b' g hg inflate j lg hj sel' u u' hu x' y' hx' hy'
  rw [hc] at h1
  rw [hc'] at h1'
  cases h1
  cases h1'
  rw [compose_strokes] at h3 h3'
  refine ⟨d, d', h2, h2', UInt8.le_iff_toNat_le.2 ?_⟩
  rw [strokes_alpha hm h3, strokes_alpha hm' h3']
  exact alpha_mono hs (UInt8.le_iff_toNat_le.1 hcc) (byte_le _)

/-- **C98 (selections).** Selecting more layers never makes a picture more transparent, unless a mode on hue, saturation
or luminosity is involved. -/
theorem C98_selection (plat : Plat) (b : Bytes) (f : AsepriteFile) (hf : AsepriteFile.load plat b = .ok f)
    (inflate : Inflater) (i : Nat) (lf : LFrame) (hi : f.frames[i]? = some lf) (sel sel' : LayerSelection)
    (hsel : ∀ (l : Nat) (layer : LLayer), f.layers[l]? = some layer → Selects sel l layer → Selects sel' l layer)
    (hm : ∀ layer ∈ f.layers, isHsl layer.blendMode = false) (t t' u' : Bytes)
    (ht : f.renderFrame plat inflate i sel t = (.ok (), t')) (hu : f.renderFrame plat inflate i sel' t = (.ok (), u'))
    (x y : Nat) (hx : x < f.size.1.toNat) (hy : y < f.size.2.toNat) :
    ∃ d d', canvasPixel f t' x y = some d ∧ canvasPixel f u' x y = some d' ∧ d.a ≤ d'.a := by
  have mode : ∀ sel, ∀ s ∈ strokes inflate f sel x y lf.cels, isHsl s.mode = false := by
    intro sel s hs
    obtain ⟨cel, _, h⟩ := List.mem_filterMap.1 hs
    unfold strokeOf at h
    obtain ⟨layer, h1, h⟩ := Option.bind_eq_some_iff.1 h
    obtain ⟨p, _, h⟩ := Option.bind_eq_some_iff.1 h
    obtain ⟨col, _, rfl⟩ := Option.map_eq_some_iff.1 h
    refine hm layer ?_
    unfold drawnOn at h1
    cases hl : f.layers[cel.layerIndex]? with
    | none => rw [hl] at h1; cases h1
    | some l =>
      rw [hl] at h1
      dsimp only at h1
      split at h1
      · cases h1
        exact List.mem_of_getElem? hl
      · cases h1
  have sub : ∀ cels, List.SublistForall₂ AtMostAsOpaque (strokes inflate f sel x y cels) (strokes inflate f sel' x y cels) := by
    intro cels
    induction cels with
    | nil => exact .nil
    | cons cel cels ih =>
      have one : ∀ layer, drawnOn f sel cel = some layer → drawnOn f sel' cel = some layer := by
        intro layer h
        unfold drawnOn at h ⊢
        cases hl : f.layers[cel.layerIndex]? with
        | none => rw [hl] at h; cases h
        | some l =>
          rw [hl] at h
          dsimp only at h ⊢
          split at h
          · next hcond => rw [if_pos ⟨hcond.1, hsel _ _ hl hcond.2⟩]; exact h
          · cases h
      unfold strokes at ih ⊢
      rw [List.filterMap_cons, List.filterMap_cons]
      cases hst : strokeOf inflate f sel x y cel with
      | none =>
        cases hst' : strokeOf inflate f sel' x y cel with
        | none => exact ih
        | some s' => exact .cons_right ih
      | some s =>
        have : strokeOf inflate f sel' x y cel = some s := by
          unfold strokeOf at hst ⊢
          obtain ⟨layer, h1, h⟩ := Option.bind_eq_some_iff.1 hst
          rw [one layer h1]
          exact h
        rw [this]
        exact .cons ⟨UInt8.le_refl _, UInt8.le_refl _⟩ ih
  obtain ⟨c, _, h1, _, _⟩ := C37_pixels plat b f hf inflate i lf hi sel t t' ht x y hx hy
  exact C98_more_opaque plat b b f f hf hf inflate i i lf lf hi hi sel sel' t t' t u' ht hu x y x y hx hy hx hy c c h1 h1
    (UInt8.le_refl _) (sub lf.cels) (mode sel) (mode sel')

/-- One layer of two, and both of them, on a half transparent buffer. -/
example :
    let b := Sample.header 1 1 32 ++ Sample.frame 1 [Sample.layer 1 0 0 255 [65], Sample.layer 1 0 1 200 [66],
      Sample.cel 0 0 0 1 1 [10, 80, 5, 100], Sample.cel 1 0 0 1 1 [55, 255, 15, 130]]
    Sample.render ⟨true, 10⟩ b 0 (.mask [false, true]) [1, 2, 3, 128] = some (.ok (), [13, 60, 4, 179]) ∧
    Sample.render ⟨true, 10⟩ b 0 .all [1, 2, 3, 128] = some (.ok (), [10, 67, 4, 209]) := by
  decide +kernel

/-- A less opaque colour on a less opaque layer, and a more opaque one of another colour with another mode. -/
example :
    let b := Sample.header 1 1 32 ++ Sample.frame 1 [Sample.layer 1 0 0 200 [65], Sample.cel 0 0 0 1 1 [10, 80, 5, 100]]
    let b' := Sample.header 1 1 32 ++ Sample.frame 1 [Sample.layer 1 0 2 201 [65], Sample.layer 1 0 1 1 [65],
      Sample.cel 0 0 0 1 1 [90, 8, 50, 110], Sample.cel 1 0 0 1 1 [1, 1, 1, 255]]
    Sample.render ⟨true, 10⟩ b 0 .all [9, 9, 9, 100] = some (.ok (), [9, 46, 7, 147]) ∧
    Sample.render ⟨true, 10⟩ b' 0 .all [9, 9, 9, 100] = some (.ok (), [56, 11, 34, 153]) ∧
    (match AsepriteFile.load ⟨true, 10⟩ b, AsepriteFile.load ⟨true, 10⟩ b' with
      | .ok f, .ok g => (match f.frames[0]?, g.frames[0]? with
          | some lf, some lg => (strokes (fun _ _ => (.streamEnd, [])) f .all 0 0 lf.cels,
              strokes (fun _ _ => (.streamEnd, [])) g .all 0 0 lg.cels)
          | _, _ => ([], []))
      | _, _ => ([], [])) = ([⟨.normal, 200, ⟨10, 80, 5, 100⟩⟩], [⟨.screen, 201, ⟨90, 8, 50, 110⟩⟩,
        ⟨.multiply, 1, ⟨1, 1, 1, 255⟩⟩]) ∧
    List.SublistForall₂ AtMostAsOpaque [⟨.normal, 200, ⟨10, 80, 5, 100⟩⟩]
      [⟨.screen, 201, ⟨90, 8, 50, 110⟩⟩, ⟨.multiply, 1, ⟨1, 1, 1, 255⟩⟩] :=
  ⟨by decide +kernel, by decide +kernel, by decide +kernel, .cons (by unfold AtMostAsOpaque; decide) .nil⟩

/-- The exception is needed: with the hue mode, in a build without overflow checks, a pixel of the upper layer that is more
opaque makes a picture that is more transparent. -/
theorem C98_hue_false :
    let file (a : UInt8) := Sample.header 1 1 32 ++ Sample.frame 1 [Sample.layer 1 0 0 255 [65],
      Sample.layer 1 0 12 255 [66], Sample.cel 0 0 0 1 1 [10, 200, 50, 200], Sample.cel 1 0 0 1 1 [200, 100, 20, a]]
    Sample.render ⟨false, 10⟩ (file 100) 0 .all [0, 0, 0, 0] = some (.ok (), [161, 173, 99, 232]) ∧
    Sample.render ⟨false, 10⟩ (file 254) 0 .all [0, 0, 0, 0] = some (.ok (), [21, 195, 49, 203]) := by
  decide +kernel

end Ase
