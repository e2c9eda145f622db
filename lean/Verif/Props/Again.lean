import Verif.Spec.Again
import Verif.Props.Channels
import Verif.Props.Algebra
import Verif.Props.Failures

/-!
# C100: painting a frame once more
-/

namespace Ase

open Spec

/-- What a solid or unseen stroke does to a channel of an opaque colour. -/
def limit (ch : Color → UInt8) (x : Nat) (s : Stroke) : Nat :=
  if s.color.a = 255 ∧ s.opacity = 255 then
    match s.mode with
    | .darken => min x (ch s.color).toNat
    | .lighten => max x (ch s.color).toNat
    | _ => (ch s.color).toNat
  else x

/-- The strokes together limit a channel to a range. -/
theorem limit_range (ch : Color → UInt8) (ss : List Stroke) :
    ∃ lo hi, lo ≤ hi ∧ ∀ x, x ≤ 255 → ss.foldl (limit ch) x = max lo (min hi x) := by
  induction ss with
  | nil => exact ⟨0, 255, by omega, fun x hx => by rw [List.foldl_nil]; omega⟩
  | cons s ss ih =>
    obtain ⟨lo, hi, h1, h2⟩ := ih
    have hv := byte_le (ch s.color)
    simp only [List.foldl_cons]
    by_cases hs : s.color.a = 255 ∧ s.opacity = 255
    · have e : ∀ x, limit ch x s = match s.mode with
          | .darken => min x (ch s.color).toNat
          | .lighten => max x (ch s.color).toNat
          | _ => (ch s.color).toNat := fun x => by unfold limit; rw [if_pos hs]
      by_cases hd : s.mode = .darken
      · refine ⟨lo, max lo (min hi (ch s.color).toNat), by omega, fun x hx => ?_⟩
        rw [e, hd, h2 _ (by dsimp only; omega)]
        dsimp only
        omega
      · by_cases hl : s.mode = .lighten
        · refine ⟨max lo (min hi (ch s.color).toNat), hi, by omega, fun x hx => ?_⟩
          rw [e, hl, h2 _ (by dsimp only; omega)]
          dsimp only
          omega
        · refine ⟨max lo (min hi (ch s.color).toNat), max lo (min hi (ch s.color).toNat), by omega, fun x hx => ?_⟩
          have e' : limit ch x s = (ch s.color).toNat := by
            rw [e]
            split
            · next h => exact absurd h hd
            · next h => exact absurd h hl
            · rfl
          rw [e', h2 _ hv]
          omega
    · refine ⟨lo, hi, h1, fun x hx => ?_⟩
      rw [show limit ch x s = x by unfold limit; rw [if_neg hs], h2 x hx]

theorem limit_again (ch : Color → UInt8) (ss : List Stroke) (x : Nat) (hx : x ≤ 255) :
    ss.foldl (limit ch) (ss.foldl (limit ch) x) = ss.foldl (limit ch) x := by
  obtain ⟨lo, hi, h1, h2⟩ := limit_range ch ss
  have h3 := h2 x hx
  have h4 : ss.foldl (limit ch) x ≤ 255 := by
    have : ∀ (ss : List Stroke) (x : Nat), x ≤ 255 → ss.foldl (limit ch) x ≤ 255 := by
      intro ss
      induction ss with
      | nil => exact fun _ h => h
      | cons s ss ih =>
        intro x hx
        rw [List.foldl_cons]
        refine ih _ ?_
        have := byte_le (ch s.color)
        unfold limit
        split
        · split <;> omega
        · exact hx
    exact this ss x hx
  rw [h2 _ h4, h3]
  omega

theorem color_ext {c d : Color} (h : ∀ ch, IsChannel ch → (ch c).toNat = (ch d).toNat) (ha : c.a = d.a) : c = d := by
  have h1 := UInt8.toNat_inj.1 (h _ (.inl rfl))
  have h2 := UInt8.toNat_inj.1 (h _ (.inr (.inl rfl)))
  have h3 := UInt8.toNat_inj.1 (h _ (.inr (.inr rfl)))
  cases c; cases d
  simp only at h1 h2 h3 ha
  rw [h1, h2, h3, ha]

/-- A solid stroke on anything: the result is opaque, and the stroke has nothing to add to it. -/
theorem solid_stroke (plat : Plat) {s : Stroke} (hs : s.Solid) (c : Color) :
    ∃ d, blend plat s.mode c s.color s.opacity = .ok d ∧ d.a = 255 ∧
      (∀ ch, IsChannel ch → limit ch (ch d).toNat s = (ch d).toNat) ∧
      (c.a = 255 → ∀ ch, IsChannel ch → (ch d).toNat = limit ch (ch c).toNat s) := by
  obtain ⟨hm, ha, ho⟩ := hs
  have hlim : ∀ (ch : Color → UInt8) (x : Nat), limit ch x s = match s.mode with
      | .darken => min x (ch s.color).toNat
      | .lighten => max x (ch s.color).toNat
      | _ => (ch s.color).toNat := fun ch x => by unfold limit; rw [if_pos ⟨ha, ho⟩]
  have hfull : ∀ (col : Color), col.a = 255 → blend plat .normal c col s.opacity = .ok col := by
    intro col hc
    obtain ⟨n, h1, h2, -⟩ := C46_normal plat c col s.opacity
    rw [h1, h2 hc ho]
  rcases hm with hm | hm | hm
  · refine ⟨s.color, by rw [hm]; exact hfull _ ha, ha, ?_, ?_⟩
    · intro ch _; rw [hlim, hm]
    · intro _ ch _; rw [hlim, hm]
  all_goals
  · by_cases hc0 : c.a = 0
    · obtain ⟨d, h1, h2, h3, h4, h5⟩ := C48_transparent_backdrop plat s.mode (by rw [hm]; rfl) c s.color s.opacity hc0
      have hd : ∀ ch, IsChannel ch → ch d = ch s.color := by
        rintro ch (rfl | rfl | rfl) <;> assumption
      refine ⟨d, h1, ?_, ?_, ?_⟩
      · rw [ha, ho] at h5
        unfold Nearest toI at h5
        have := byte_le d.a
        refine UInt8.toNat_inj.1 ?_
        simp only [show (255 : UInt8).toNat = 255 from rfl] at h5 ⊢
        omega
      · intro ch hch
        rw [hlim, hm, hd ch hch]
        dsimp only
        omega
      · intro h; rw [hc0] at h; cases h
    · have hb : ∀ ch : Color → UInt8, (ch c).toNat ≤ 255 ∧ (ch s.color).toNat ≤ 255 := fun ch => ⟨byte_le _, byte_le _⟩
      obtain ⟨g, hg, hg'⟩ : ∃ g, channelFn s.mode = some g ∧ ∀ x y, (g x y = min x y ∧ s.mode = .darken) ∨
          (g x y = max x y ∧ s.mode = .lighten) := by
        rw [hm]
        refine ⟨_, rfl, fun x y => ?_⟩
        first
        | exact .inl ⟨rfl, rfl⟩
        | exact .inr ⟨rfl, rfl⟩
      have hle : ∀ ch : Color → UInt8, g (ch c).toNat (ch s.color).toNat < 256 := by
        intro ch
        have := hb ch
        rcases hg' (ch c).toNat (ch s.color).toNat with ⟨h, -⟩ | ⟨h, -⟩ <;> omega
      obtain ⟨n, p, d, h1, h2, h3, h4, h5⟩ := C56_composite plat s.mode g hg c s.color
        ⟨UInt8.ofNat (g c.r.toNat s.color.r.toNat), UInt8.ofNat (g c.g.toNat s.color.g.toNat),
          UInt8.ofNat (g c.b.toNat s.color.b.toNat), s.color.a⟩ s.opacity hc0
        (by simp [Nat.mod_eq_of_lt (hle Color.r)]) (by simp [Nat.mod_eq_of_lt (hle Color.g)])
        (by simp [Nat.mod_eq_of_lt (hle Color.b)]) rfl
      rw [hfull _ ha] at h1
      have h2' := h2.symm.trans (hfull _ ha)
      cases h1
      cases h2'
      have hp : ∀ ch, IsChannel ch → toI (ch ⟨UInt8.ofNat (g c.r.toNat s.color.r.toNat),
          UInt8.ofNat (g c.g.toNat s.color.g.toNat), UInt8.ofNat (g c.b.toNat s.color.b.toNat), s.color.a⟩) =
            (g (ch c).toNat (ch s.color).toNat : Nat) := by
        rintro ch (rfl | rfl | rfl)
        · simp [toI, Nat.mod_eq_of_lt (hle Color.r)]
        · simp [toI, Nat.mod_eq_of_lt (hle Color.g)]
        · simp [toI, Nat.mod_eq_of_lt (hle Color.b)]
      refine ⟨d, h3, by rw [h4, ha], ?_, ?_⟩
      · intro ch hch
        have e := h5 ch hch
        rw [hp ch hch] at e
        have ht := times_le_left c.a.toNat (times s.color.a.toNat s.opacity.toNat)
          (Nat.le_trans (times_le_left _ _ (byte_le _)) (byte_le _))
        have hca := byte_le c.a
        have hbc := hb ch
        rw [hlim, hm]
        dsimp only
        rcases hg' (ch c).toNat (ch s.color).toNat with ⟨hx, hy⟩ | ⟨hx, hy⟩
        · first
          | (rw [hm] at hy; cases hy; done)
          | (have k1 := mix_between (toI (ch s.color)) (g (ch c).toNat (ch s.color).toNat : Nat) (toI c.a) 0
                (toI (ch s.color)) (toI_nonneg _) (toI_le _) ⟨toI_nonneg _, Int.le_refl _⟩
                ⟨Int.natCast_nonneg _, by unfold toI; omega⟩
             have k2 := mix_between _ (g (ch c).toNat (ch s.color).toNat : Nat)
                (times c.a.toNat (times s.color.a.toNat s.opacity.toNat)) 0
                (toI (ch s.color)) (Int.natCast_nonneg _) (by omega) k1 ⟨Int.natCast_nonneg _, by unfold toI; omega⟩
             rw [← e] at k2
             unfold toI at k2
             omega)
        · first
          | (rw [hm] at hy; cases hy; done)
          | (have k1 := mix_between (toI (ch s.color)) (g (ch c).toNat (ch s.color).toNat : Nat) (toI c.a)
                (toI (ch s.color)) 255 (toI_nonneg _) (toI_le _) ⟨Int.le_refl _, toI_le _⟩
                ⟨by unfold toI; omega, by omega⟩
             have k2 := mix_between _ (g (ch c).toNat (ch s.color).toNat : Nat)
                (times c.a.toNat (times s.color.a.toNat s.opacity.toNat))
                (toI (ch s.color)) 255 (Int.natCast_nonneg _) (by omega) k1 ⟨by unfold toI; omega, by omega⟩
             rw [← e] at k2
             unfold toI at k2
             omega)
      · intro hc ch hch
        have e := h5 ch hch
        rw [hp ch hch, hc, ha, ho] at e
        rw [show (times (255 : UInt8).toNat (times (255 : UInt8).toNat (255 : UInt8).toNat) : Int) = 255 by decide,
          mix_full] at e
        rw [hlim, hm]
        dsimp only
        unfold toI at e
        rcases hg' (ch c).toNat (ch s.color).toNat with ⟨hx, hy⟩ | ⟨hx, hy⟩
        · first
          | (rw [hm] at hy; cases hy; done)
          | omega
        · first
          | (rw [hm] at hy; cases hy; done)
          | omega

/-- An unseen stroke. -/
theorem unseen_stroke (plat : Plat) {s : Stroke} (hs : s.Unseen) (c : Color) :
    blend plat s.mode c s.color s.opacity = .ok (if c.a = 0 then ⟨s.color.r, s.color.g, s.color.b, 0⟩ else c) := by
  obtain ⟨hk, hh, h0⟩ := hs
  by_cases hc : c.a = 0
  · rw [if_pos hc]
    obtain ⟨d, h1, h2, h3, h4, h5⟩ := C48_transparent_backdrop plat s.mode hk c s.color s.opacity hc
    rw [h1]
    have : d.a = 0 := by
      unfold Nearest toI at h5
      have e : (s.color.a.toNat : Int) * s.opacity.toNat = 0 := by
        rcases h0 with h | h <;> rw [h] <;> simp
      rw [e] at h5
      refine UInt8.toNat_inj.1 ?_
      simp only [show (0 : UInt8).toNat = 0 from rfl]
      omega
    cases d
    simp only at h2 h3 h4 this
    rw [h2, h3, h4, this]
  · rw [if_neg hc]
    exact C48_transparent_source plat s.mode (.inl (by simp [isSeparable, hk, hh])) c s.color s.opacity hc h0

theorem limit_unseen (ch : Color → UInt8) {s : Stroke} (hs : s.Unseen) (x : Nat) : limit ch x s = x := by
  unfold limit
  rw [if_neg]
  rintro ⟨h1, h2⟩
  rcases hs.2.2 with h | h
  · rw [h] at h1; cases h1
  · rw [h] at h2; cases h2

/-- Strokes one after the other. -/
abbrev paintAll (plat : Plat) (ss : List Stroke) (c : Color) : Run Color :=
  ss.foldl (fun (r : Run Color) s => r.bind fun c => blend plat s.mode c s.color s.opacity) (.ok c)

theorem paintAll_cons (plat : Plat) (s : Stroke) (ss : List Stroke) {c d : Color}
    (h : blend plat s.mode c s.color s.opacity = .ok d) : paintAll plat (s :: ss) c = paintAll plat ss d := by
  show ss.foldl _ (blend plat s.mode c s.color s.opacity) = _
  rw [h]

/-- On an opaque colour. -/
theorem paintAll_opaque (plat : Plat) {ss : List Stroke} (hs : ∀ s ∈ ss, s.Solid ∨ s.Unseen) {c : Color} (hc : c.a = 255) :
    ∃ d, paintAll plat ss c = .ok d ∧ d.a = 255 ∧
      ∀ ch, IsChannel ch → (ch d).toNat = ss.foldl (limit ch) (ch c).toNat := by
  induction ss generalizing c with
  | nil => exact ⟨c, rfl, hc, fun _ _ => rfl⟩
  | cons s ss ih =>
    have ih := fun c hc => ih (fun x hx => hs x (List.mem_cons_of_mem _ hx)) (c := c) hc
    rcases hs s List.mem_cons_self with h | h
    · obtain ⟨d, h1, h2, -, h3⟩ := solid_stroke plat h c
      obtain ⟨e, h4, h5, h6⟩ := ih d h2
      refine ⟨e, by rw [paintAll_cons plat s ss h1]; exact h4, h5, fun ch hch => ?_⟩
      rw [h6 ch hch, h3 hc ch hch, List.foldl_cons]
    · have h1 := unseen_stroke plat h c
      rw [if_neg (by rw [hc]; decide)] at h1
      obtain ⟨e, h4, h5, h6⟩ := ih c hc
      refine ⟨e, by rw [paintAll_cons plat s ss h1]; exact h4, h5, fun ch hch => ?_⟩
      rw [h6 ch hch, List.foldl_cons, limit_unseen ch h]

/-- On any colour, with a solid stroke among them. -/
theorem paintAll_solid (plat : Plat) {ss : List Stroke} (hs : ∀ s ∈ ss, s.Solid ∨ s.Unseen) (hx : ∃ s ∈ ss, s.Solid)
    (c : Color) : ∃ d z, paintAll plat ss c = .ok d ∧ d.a = 255 ∧
      ∀ ch, IsChannel ch → (ch d).toNat = ss.foldl (limit ch) (ch z).toNat := by
  induction ss generalizing c with
  | nil => obtain ⟨s, h, -⟩ := hx; cases h
  | cons s ss ih =>
    have hs' : ∀ s ∈ ss, s.Solid ∨ s.Unseen := fun x hx => hs x (List.mem_cons_of_mem _ hx)
    by_cases h : s.Solid
    · obtain ⟨d, h1, h2, h3, -⟩ := solid_stroke plat h c
      obtain ⟨e, h4, h5, h6⟩ := paintAll_opaque plat hs' h2
      refine ⟨e, d, by rw [paintAll_cons plat s ss h1]; exact h4, h5, fun ch hch => ?_⟩
      rw [h6 ch hch, List.foldl_cons, h3 ch hch]
    · have hu := (hs s List.mem_cons_self).resolve_left h
      have hx' : ∃ s ∈ ss, s.Solid := by
        obtain ⟨r, hr, hr'⟩ := hx
        rcases List.mem_cons.1 hr with rfl | hr
        · exact absurd hr' h
        · exact ⟨r, hr, hr'⟩
      obtain ⟨d, z, h4, h5, h6⟩ := ih hs' hx' (if c.a = 0 then ⟨s.color.r, s.color.g, s.color.b, 0⟩ else c)
      refine ⟨d, z, by rw [paintAll_cons plat s ss (unseen_stroke plat hu c)]; exact h4, h5, fun ch hch => ?_⟩
      rw [h6 ch hch, List.foldl_cons, limit_unseen ch hu]

/-- Unseen strokes only. -/
theorem paintAll_unseen (plat : Plat) {ss : List Stroke} (hs : ∀ s ∈ ss, s.Unseen) (c : Color) :
    ∃ d, paintAll plat ss c = .ok d ∧ (c.a ≠ 0 → d = c) ∧
      (c.a = 0 → d.a = 0 ∧ ∀ c' : Color, c'.a = 0 → ss ≠ [] → paintAll plat ss c' = .ok d) ∧ (ss = [] → d = c) := by
  induction ss generalizing c with
  | nil => exact ⟨c, rfl, fun _ => rfl, fun h => ⟨h, fun _ _ h => absurd rfl h⟩, fun _ => rfl⟩
  | cons s ss ih =>
    have hu := unseen_stroke plat (hs s List.mem_cons_self)
    obtain ⟨d, h1, h2, h3, h4⟩ := ih (fun x hx => hs x (List.mem_cons_of_mem _ hx))
      (if c.a = 0 then ⟨s.color.r, s.color.g, s.color.b, 0⟩ else c)
    refine ⟨d, by rw [paintAll_cons plat s ss (hu c)]; exact h1, fun hc => ?_, fun hc => ?_, fun h => nomatch h⟩
    · rw [if_neg hc] at h2
      exact h2 hc
    · rw [if_pos hc] at h1 h3
      refine ⟨(h3 rfl).1, fun c' hc' _ => ?_⟩
      rw [paintAll_cons plat s ss (hu c'), if_pos hc']
      exact h1

/-- Once more changes nothing. -/
theorem paintAll_again (plat : Plat) {ss : List Stroke} (hs : ∀ s ∈ ss, s.Solid ∨ s.Unseen) {c d : Color}
    (h : paintAll plat ss c = .ok d) : paintAll plat ss d = .ok d := by
  by_cases hx : ∃ s ∈ ss, s.Solid
  · obtain ⟨d', z, h1, h2, h3⟩ := paintAll_solid plat hs hx c
    rw [h] at h1
    cases h1
    obtain ⟨e, h4, h5, h6⟩ := paintAll_opaque plat hs h2
    rw [h4]
    congr 1
    refine color_ext (fun ch hch => ?_) (by rw [h5, h2])
    rw [h6 ch hch, h3 ch hch, limit_again ch ss _ (byte_le _)]
  · have hu : ∀ s ∈ ss, s.Unseen := fun s hs' => (hs s hs').resolve_left fun h => hx ⟨s, hs', h⟩
    obtain ⟨d', h1, h2, h3, h4⟩ := paintAll_unseen plat hu c
    rw [h] at h1
    cases h1
    by_cases hc : c.a = 0
    · by_cases he : ss = []
      · subst he; rfl
      · exact (h3 hc).2 d (h3 hc).1 he
    · rw [h2 hc] at h ⊢
      exact h

/-- **C100 (pixels).** Rendering a frame a second time over itself does not change the pixels on which everything is painted
with full opacity in the modes normal, darken and lighten, or cannot be seen. -/
theorem C100_pixel (plat : Plat) (b : Bytes) (f : AsepriteFile) (h : AsepriteFile.load plat b = .ok f)
    (inflate : Inflater) (i : Nat) (lf : LFrame) (hi : f.frames[i]? = some lf) (sel : LayerSelection) (t t' t'' : Bytes)
    (hok : f.renderFrame plat inflate i sel t = (.ok (), t')) (hok' : f.renderFrame plat inflate i sel t' = (.ok (), t''))
    (x y : Nat) (hx : x < f.size.1.toNat) (hy : y < f.size.2.toNat)
    (hs : ∀ s ∈ strokes inflate f sel x y lf.cels, s.Solid ∨ s.Unseen) :
    canvasPixel f t'' x y = canvasPixel f t' x y := by
  obtain ⟨c, d, h1, h2, h3⟩ := C37_pixels plat b f h inflate i lf hi sel t t' hok x y hx hy
  obtain ⟨c', d', h4, h5, h6⟩ := C37_pixels plat b f h inflate i lf hi sel t' t'' hok' x y hx hy
  rw [h2] at h4
  cases h4
  rw [compose_strokes] at h3 h6
  have := paintAll_again plat hs h3
  rw [show paintAll plat (strokes inflate f sel x y lf.cels) d = .ok d' from h6] at this
  cases this
  rw [h5, h2]

/-- **C100 (frames).** If this is so on the whole canvas, rendering the frame once more succeeds and leaves the buffer as it
is.  (In debug builds no layer may use hue, saturation, color or luminosity, C50.) -/
theorem C100_again (plat : Plat) (b : Bytes) (f : AsepriteFile) (h : AsepriteFile.load plat b = .ok f)
    (inflate : Inflater) (i : Nat) (lf : LFrame) (hi : f.frames[i]? = some lf) (sel : LayerSelection) (t t' : Bytes)
    (hm : plat.debug = false ∨ ∀ c ∈ lf.cels, ∀ layer, drawnOn f sel c = some layer → isHsl layer.blendMode = false)
    (hok : f.renderFrame plat inflate i sel t = (.ok (), t'))
    (hs : ∀ x y, x < f.size.1.toNat → y < f.size.2.toNat →
      ∀ s ∈ strokes inflate f sel x y lf.cels, s.Solid ∨ s.Unseen) :
    f.renderFrame plat inflate i sel t' = (.ok (), t') := by
  have hb := C36_buffer plat b f h inflate i sel t
  rw [hok] at hb
  dsimp only at hb
  have ht : f.size.1.toNat * f.size.2.toNat * 4 ≤ t.length := by
    refine Nat.le_of_not_lt fun hlt => ?_
    cases hb.1.2 hlt
  have hall := (C41_success_partial plat b f h inflate i lf hi sel t ht hm).1 (by rw [hok])
  have hok2 := (C41_success_partial plat b f h inflate i lf hi sel t' (by rw [hb.2.2.1]; exact ht) hm).2 hall
  cases e : f.renderFrame plat inflate i sel t' with
  | mk r t'' =>
    rw [e] at hok2
    dsimp only at hok2
    subst hok2
    have hb' := C36_buffer plat b f h inflate i sel t'
    rw [e] at hb'
    dsimp only at hb'
    congr 1
    rw [← List.take_append_drop (f.size.1.toNat * f.size.2.toNat * 4) t'',
      ← List.take_append_drop (f.size.1.toNat * f.size.2.toNat * 4) t', hb'.2.2.2]
    congr 1
    have hl := hb.2.2.1
    have hl' := hb'.2.2.1
    refine take_of_pixels (by omega) (by omega) fun p hp => ?_
    have hw : 0 < f.size.1.toNat := Nat.pos_of_ne_zero fun h => by rw [h] at hp; omega
    have h1 : p % f.size.1.toNat < f.size.1.toNat := Nat.mod_lt _ hw
    have h2 : p / f.size.1.toNat < f.size.2.toNat := (Nat.div_lt_iff_lt_mul hw).2 (by rw [Nat.mul_comm]; exact hp)
    have := C100_pixel plat b f h inflate i lf hi sel t t' t'' hok e _ _ h1 h2 (hs _ _ h1 h2)
    unfold canvasPixel at this
    rw [show f.file.header.width = f.size.1 from rfl, Nat.mul_comm, Nat.div_add_mod] at this
    exact this

/-- Where a layer is translucent or multiplied, it does. -/
theorem C100_not_always (plat : Plat) :
    blend plat .multiply ⟨200, 200, 200, 255⟩ ⟨100, 100, 100, 255⟩ 255 = .ok ⟨78, 78, 78, 255⟩ ∧
    blend plat .multiply ⟨78, 78, 78, 255⟩ ⟨100, 100, 100, 255⟩ 255 = .ok ⟨31, 31, 31, 255⟩ ∧
    blend plat .normal ⟨0, 0, 0, 255⟩ ⟨100, 100, 100, 128⟩ 255 = .ok ⟨50, 50, 50, 255⟩ ∧
    blend plat .normal ⟨50, 50, 50, 255⟩ ⟨100, 100, 100, 128⟩ 255 = .ok ⟨75, 75, 75, 255⟩ := by
  rw [blend_mode plat .multiply _ rfl, blend_mode plat .multiply _ rfl, blend_mode plat .normal _ rfl,
    blend_mode plat .normal _ rfl]
  exact ⟨congrArg _ (by decide +kernel), congrArg _ (by decide +kernel), congrArg _ (by decide +kernel),
    congrArg _ (by decide +kernel)⟩

/-! ## A frame -/

namespace Sample

/-- Three layers with cels of one row: an opaque and an invisible pixel; darken; lighten. -/
def limits : Bytes := header 2 1 32 ++ frame 10
  [layer 1 0 0 255 [65], layer 1 0 4 255 [66], layer 1 0 5 255 [67],
   cel 0 0 0 2 1 [10, 20, 30, 255, 7, 7, 7, 0], cel 1 0 0 2 1 [15, 15, 15, 255, 60, 70, 80, 255],
   cel 2 1 0 1 1 [65, 65, 65, 255]]

/-- What is painted on the two pixels of the frame. -/
def limitStrokes (x : Nat) : List Stroke :=
  match AsepriteFile.load ⟨true, 10⟩ limits with
  | .ok f => match f.frames[0]? with
    | some lf => strokes Sample.inflate f .visible x 0 lf.cels
    | none => []
  | _ => []

end Sample

-- it meets the hypotheses: what is painted on the two pixels,
example : Sample.limitStrokes 0 = [⟨.normal, 255, ⟨10, 20, 30, 255⟩⟩, ⟨.darken, 255, ⟨15, 15, 15, 255⟩⟩] ∧
    Sample.limitStrokes 1 = [⟨.normal, 255, ⟨7, 7, 7, 0⟩⟩, ⟨.darken, 255, ⟨60, 70, 80, 255⟩⟩,
      ⟨.lighten, 255, ⟨65, 65, 65, 255⟩⟩] ∧
    (∀ x ∈ [0, 1], ∀ s ∈ Sample.limitStrokes x,
      ((s.mode = .normal ∨ s.mode = .darken ∨ s.mode = .lighten) ∧ s.color.a = 255 ∧ s.opacity = 255) ∨
      (isKnown s.mode = true ∧ isHsl s.mode = false ∧ (s.color.a = 0 ∨ s.opacity = 0))) := by decide +kernel

-- and what comes of it on a translucent canvas, once and twice
example : Sample.render ⟨true, 10⟩ Sample.limits 0 .visible [1, 2, 3, 4, 100, 50, 75, 100] =
      some (.ok (), [10, 15, 15, 255, 65, 65, 77, 255]) ∧
    Sample.render ⟨true, 10⟩ Sample.limits 0 .visible [10, 15, 15, 255, 65, 65, 77, 255] =
      some (.ok (), [10, 15, 15, 255, 65, 65, 77, 255]) := by decide +kernel

end Ase
