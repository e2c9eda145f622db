import Verif.Props.Cover
import Verif.Spec.Strokes

/-!
# C77: a pixel depends only on the cels that cover it
-/

namespace Ase

open Spec

theorem compose_strokes (plat : Plat) (inflate : Inflater) (f : AsepriteFile) (sel : LayerSelection) (x y : Nat)
    (cels : List FrameCel) (c : Color) : compose plat inflate f sel x y cels c =
      (strokes inflate f sel x y cels).foldl (fun r s => r.bind fun c => blend plat s.mode c s.color s.opacity) (.ok c) := by
  have stuck : ∀ (ss : List Stroke) (k : Panic), ss.foldl (fun (r : Run Color) s =>
      r.bind fun c => blend plat s.mode c s.color s.opacity) (.panic k) = .panic k := by
    intro ss k
    induction ss with
    | nil => rfl
    | cons s ss ih => exact ih
  induction cels generalizing c with
  | nil => rfl
  | cons cel cels ih =>
    rw [compose, strokes, List.filterMap_cons, strokeOf]
    cases hd : drawnOn f sel cel with
    | none => simpa [strokes] using ih c
    | some layer =>
      cases hc : coveredBy cel x y with
      | none => simpa [strokes] using ih c
      | some p =>
        cases hi : imageColor inflate f cel.imageIndex p with
        | none => simpa [strokes, hi] using ih c
        | some front =>
          simp only [Option.bind_some, hi, Option.map_some, List.foldl_cons]
          cases hb : blend plat layer.blendMode c front layer.opacity with
          | ok c' => simpa [Outcome.bind, hb, strokes] using ih c'
          | err e => exact nomatch e
          | panic k => exact (stuck _ k).symm.trans (by rw [← hb]; rfl)

/-- **C77.** The colour of a canvas pixel after rendering depends only on its colour before and on what is painted on it
(colours, and modes and opacities of their layers, in order).  Two frames, of one sprite or of two, with whatever
selections, that paint the same on a pixel of each, show the same there. -/
theorem C77_strokes (plat : Plat) (b b' : Bytes) (f g : AsepriteFile) (hf : AsepriteFile.load plat b = .ok f)
    (hg : AsepriteFile.load plat b' = .ok g) (inflate : Inflater) (i j : Nat) (lf lg : LFrame)
    (hi : f.frames[i]? = some lf) (hj : g.frames[j]? = some lg) (sel sel' : LayerSelection) (t t' u u' : Bytes)
    (ht : f.renderFrame plat inflate i sel t = (.ok (), t')) (hu : g.renderFrame plat inflate j sel' u = (.ok (), u'))
    (x y x' y' : Nat) (hx : x < f.size.1.toNat) (hy : y < f.size.2.toNat) (hx' : x' < g.size.1.toNat)
    (hy' : y' < g.size.2.toNat) (hb : canvasPixel f t x y = canvasPixel g u x' y')
    (hs : strokes inflate f sel x y lf.cels = strokes inflate g sel' x' y' lg.cels) :
    canvasPixel f t' x y = canvasPixel g u' x' y' := by
  obtain ⟨c, d, h1, h2, h3⟩ := C37_pixels plat b f hf inflate i lf hi sel t t' ht x y hx hy
  obtain ⟨c', d', h1', h2', h3'⟩ := C37_pixels plat b' g hg inflate j lg hj sel' u u' hu x' y' hx' hy'
  rw [h1, h1'] at hb
  cases hb
  rw [compose_strokes, hs, ← compose_strokes] at h3
  rw [h3'] at h3
  cases h3
  rw [h2, h2']

/-- Cels that look alike paint the same. -/
theorem strokeOf_looks {inflate : Inflater} {f g : AsepriteFile} (hc : SameColors f g) {sel sel' : LayerSelection}
    {c d : FrameCel} (h : celLooks f sel c = celLooks g sel' d) (x y : Nat) :
    strokeOf inflate f sel x y c = strokeOf inflate g sel' x y d := by
  simp only [celLooks, Prod.mk.injEq] at h
  obtain ⟨h1, h2, h3, h4⟩ := h
  have hcov : coveredBy c x y = coveredBy d x y := by rw [coveredBy, coveredBy, h2, h3]
  have hcol : imageColor inflate f c.imageIndex = imageColor inflate g d.imageIndex := by
    funext p
    unfold imageColor
    rw [h4]
    congr 1
    funext im
    unfold imageBytes
    rw [hc.1]
    by_cases hd : g.file.header.colorDepth = .indexed
    · rw [hc.2 (hc.1.trans hd)]
    · unfold storedPixel
      cases hdep : g.file.header.colorDepth with
      | indexed => exact absurd hdep hd
      | _ => rfl
  unfold strokeOf
  rw [hcov, hcol]
  cases hd : drawnOn f sel c <;> cases hd' : drawnOn g sel' d <;> rw [hd, hd'] at h1 <;> simp at h1 ⊢
  rw [h1.1, h1.2]

theorem strokes_looks {inflate : Inflater} {f g : AsepriteFile} (hc : SameColors f g) {sel sel' : LayerSelection}
    {cs ds : List FrameCel} (h : cs.map (celLooks f sel) = ds.map (celLooks g sel')) (x y : Nat) :
    strokes inflate f sel x y cs = strokes inflate g sel' x y ds := by
  induction cs generalizing ds with
  | nil =>
    cases ds with
    | nil => rfl
    | cons d ds => simp at h
  | cons c cs ih =>
    cases ds with
    | nil => simp at h
    | cons d ds =>
      simp only [List.map_cons, List.cons.injEq] at h
      unfold strokes
      rw [List.filterMap_cons, List.filterMap_cons, strokeOf_looks hc h.1 x y]
      have := ih h.2
      unfold strokes at this
      rw [this]

theorem strokeOf_none {inflate : Inflater} {f : AsepriteFile} {sel : LayerSelection} {x y : Nat} {c : FrameCel}
    (h : drawnOn f sel c = none ∨ coveredBy c x y = none) : strokeOf inflate f sel x y c = none := by
  unfold strokeOf
  rcases h with h | h <;> rw [h]
  · rfl
  · cases drawnOn f sel c <;> rfl

/-- **C77 (damage).** Let two frames have cels that look alike, except that some (`cs`, `ds`) are exchanged for others,
added or removed.  Then only pixels covered by a drawn one of these can be different. -/
theorem C77_damage (plat : Plat) (b b' : Bytes) (f g : AsepriteFile) (hf : AsepriteFile.load plat b = .ok f)
    (hg : AsepriteFile.load plat b' = .ok g) (hc : SameColors f g) (inflate : Inflater) (i j : Nat) (lf lg : LFrame)
    (hi : f.frames[i]? = some lf) (hj : g.frames[j]? = some lg) (sel sel' : LayerSelection) (t t' u u' : Bytes)
    (ht : f.renderFrame plat inflate i sel t = (.ok (), t')) (hu : g.renderFrame plat inflate j sel' u = (.ok (), u'))
    (low low' cs ds high high' : List FrameCel) (hl : lf.cels = low ++ cs ++ high) (hl' : lg.cels = low' ++ ds ++ high')
    (h1 : low.map (celLooks f sel) = low'.map (celLooks g sel'))
    (h2 : high.map (celLooks f sel) = high'.map (celLooks g sel'))
    (x y : Nat) (hx : x < f.size.1.toNat) (hy : y < f.size.2.toNat) (hx' : x < g.size.1.toNat) (hy' : y < g.size.2.toNat)
    (hb : canvasPixel f t x y = canvasPixel g u x y)
    (hcs : ∀ c ∈ cs, drawnOn f sel c = none ∨ coveredBy c x y = none)
    (hds : ∀ d ∈ ds, drawnOn g sel' d = none ∨ coveredBy d x y = none) :
    canvasPixel f t' x y = canvasPixel g u' x y := by
  refine C77_strokes plat b b' f g hf hg inflate i j lf lg hi hj sel sel' t t' u u' ht hu x y x y hx hy hx' hy' hb ?_
  have e1 : strokes inflate f sel x y cs = [] := by
    unfold strokes
    rw [List.filterMap_eq_nil_iff]
    exact fun c h => strokeOf_none (hcs c h)
  have e2 : strokes inflate g sel' x y ds = [] := by
    unfold strokes
    rw [List.filterMap_eq_nil_iff]
    exact fun c h => strokeOf_none (hds c h)
  have e3 := strokes_looks (inflate := inflate) hc h1 x y
  have e4 := strokes_looks (inflate := inflate) hc h2 x y
  rw [hl, hl']
  unfold strokes at *
  simp only [List.filterMap_append, e1, e2, e3, e4]

/-- The cel on the second pixel is exchanged for another one; the first pixel does not change. -/
example :
    let b (x : UInt8) := Sample.header 2 1 32 ++ Sample.frame 1 [Sample.layer 1 0 0 255 [65], Sample.layer 1 0 0 255 [66],
      Sample.cel 0 0 0 1 1 [9, 8, 7, 200], Sample.cel 1 1 0 1 1 [x, 60, 70, 255]]
    (match AsepriteFile.load ⟨true, 10⟩ (b 5), AsepriteFile.load ⟨true, 10⟩ (b 6) with
      | .ok f, .ok g =>
        (match f.frames[0]?, g.frames[0]? with
          | some lf, some lg => decide ((lf.cels.take 1).map (celLooks f .all) = (lg.cels.take 1).map (celLooks g .all) ∧
              (lf.cels.drop 1).map (fun c => coveredBy c 0 0) = [none] ∧
              (lg.cels.drop 1).map (fun c => coveredBy c 0 0) = [none])
          | _, _ => false)
      | _, _ => false) = true ∧
    Sample.render ⟨true, 10⟩ (b 5) 0 .all [1, 2, 3, 255, 5, 6, 7, 255] = some (.ok (), [7, 6, 6, 255, 5, 60, 70, 255]) ∧
    Sample.render ⟨true, 10⟩ (b 6) 0 .all [1, 2, 3, 255, 5, 6, 7, 255] = some (.ok (), [7, 6, 6, 255, 6, 60, 70, 255]) := by
  decide +kernel

/-- Buffers with the same pixels. -/
theorem take_of_pixels {a b : Bytes} {n : Nat} (ha : n * 4 ≤ a.length) (hb : n * 4 ≤ b.length)
    (h : ∀ p, p < n → pixel a p = pixel b p) : a.take (n * 4) = b.take (n * 4) := by
  have get : ∀ (l : Bytes) (p : Nat), 4 * p + 4 ≤ l.length → ∃ q r s v, pixel l p = some ⟨q, r, s, v⟩ ∧
      l[4 * p]? = some q ∧ l[4 * p + 1]? = some r ∧ l[4 * p + 2]? = some s ∧ l[4 * p + 3]? = some v := by
    intro l p hl
    have e : ∀ k, l[4 * p + k]? = (l.drop (4 * p))[k]? := fun k => by rw [List.getElem?_drop]
    have e0 := e 0
    rw [Nat.add_zero] at e0
    rw [e0, e 1, e 2, e 3]
    unfold pixel
    have hl' : 4 ≤ (l.drop (4 * p)).length := by rw [List.length_drop]; omega
    match hm : l.drop (4 * p), hl' with
    | q :: r :: s :: v :: rest, _ => exact ⟨q, r, s, v, rfl, rfl, rfl, rfl, rfl⟩
  refine List.ext_getElem? fun k => ?_
  by_cases hk : k < n * 4
  · rw [List.getElem?_take_of_lt hk, List.getElem?_take_of_lt hk]
    obtain ⟨q, r, s, v, h0, h1, h2, h3, h4⟩ := get a (k / 4) (by omega)
    obtain ⟨q', r', s', v', h0', h1', h2', h3', h4'⟩ := get b (k / 4) (by omega)
    rw [h (k / 4) (by omega), h0'] at h0
    cases h0
    have : k = 4 * (k / 4) ∨ k = 4 * (k / 4) + 1 ∨ k = 4 * (k / 4) + 2 ∨ k = 4 * (k / 4) + 3 := by omega
    rcases this with e | e | e | e <;> rw [e]
    · rw [h1, h1']
    · rw [h2, h2']
    · rw [h3, h3']
    · rw [h4, h4']
  · rw [List.getElem?_eq_none (by rw [List.length_take]; omega), List.getElem?_eq_none (by rw [List.length_take]; omega)]

/-- Renderings into the same buffer that show the same everywhere. -/
theorem same_buffer {plat : Plat} {b b' : Bytes} {f g : AsepriteFile} (hf : AsepriteFile.load plat b = .ok f)
    (hg : AsepriteFile.load plat b' = .ok g) (hz : f.size = g.size) {inflate : Inflater} {i j : Nat}
    {sel sel' : LayerSelection} {t t' u' : Bytes}
    (ht : f.renderFrame plat inflate i sel t = (.ok (), t')) (hu : g.renderFrame plat inflate j sel' t = (.ok (), u'))
    (key : ∀ x y, x < f.size.1.toNat → y < f.size.2.toNat → canvasPixel f t' x y = canvasPixel g u' x y) :
    t' = u' := by
  have a1 := (C36_buffer plat b f hf inflate i sel t).2.2
  have a2 := (C36_buffer plat b' g hg inflate j sel' t).2.2
  have a0 := (C36_buffer plat b f hf inflate i sel t).1
  rw [ht] at a1 a0
  rw [hu, ← hz] at a2
  dsimp only at a0 a1 a2
  have hlt : f.size.1.toNat * f.size.2.toNat * 4 ≤ t.length := by
    refine Nat.le_of_not_lt fun h => ?_
    have := a0.2 h
    cases this
  rw [← List.take_append_drop (f.size.1.toNat * f.size.2.toNat * 4) t',
    ← List.take_append_drop (f.size.1.toNat * f.size.2.toNat * 4) u', a1.2, a2.2]
  congr 1
  refine take_of_pixels (by omega) (by omega) fun p hp => ?_
  have hw : 0 < f.size.1.toNat := Nat.pos_of_ne_zero fun h => by rw [h] at hp; omega
  have := key (p % f.size.1.toNat) (p / f.size.1.toNat) (Nat.mod_lt _ hw)
    ((Nat.div_lt_iff_lt_mul hw).2 (by rw [Nat.mul_comm]; exact hp))
  unfold canvasPixel at this
  rw [show g.file.header.width = f.size.1 from (congrArg Prod.fst hz).symm,
    show f.file.header.width = f.size.1 from rfl, Nat.mul_comm, Nat.div_add_mod] at this
  exact this

/-- **C77 (order).** The order of two neighbouring cels matters only where both of them cover the canvas: if they do so
nowhere, exchanging them (for instance because their layers were exchanged) changes no pixel. -/
theorem C77_order (plat : Plat) (b b' : Bytes) (f g : AsepriteFile) (hf : AsepriteFile.load plat b = .ok f)
    (hg : AsepriteFile.load plat b' = .ok g) (hz : f.size = g.size) (hc : SameColors f g) (inflate : Inflater)
    (i j : Nat) (lf lg : LFrame) (hi : f.frames[i]? = some lf) (hj : g.frames[j]? = some lg)
    (sel sel' : LayerSelection) (t t' u' : Bytes)
    (ht : f.renderFrame plat inflate i sel t = (.ok (), t')) (hu : g.renderFrame plat inflate j sel' t = (.ok (), u'))
    (low low' high high' : List FrameCel) (c d c' d' : FrameCel) (hl : lf.cels = low ++ [c, d] ++ high)
    (hl' : lg.cels = low' ++ [d', c'] ++ high')
    (h1 : low.map (celLooks f sel) = low'.map (celLooks g sel'))
    (h2 : high.map (celLooks f sel) = high'.map (celLooks g sel'))
    (h3 : celLooks f sel c = celLooks g sel' c') (h4 : celLooks f sel d = celLooks g sel' d')
    (hcd : ∀ x y, x < f.size.1.toNat → y < f.size.2.toNat →
      drawnOn f sel c = none ∨ drawnOn f sel d = none ∨ coveredBy c x y = none ∨ coveredBy d x y = none) :
    t' = u' := by
  have key : ∀ x y, x < f.size.1.toNat → y < f.size.2.toNat → canvasPixel f t' x y = canvasPixel g u' x y := by
    intro x y hx hy
    refine C77_strokes plat b b' f g hf hg inflate i j lf lg hi hj sel sel' t t' t u' ht hu x y x y hx hy
      (hz ▸ hx) (hz ▸ hy) ?_ ?_
    · unfold canvasPixel
      rw [show f.file.header.width = g.file.header.width from congrArg Prod.fst hz]
    · have e3 := strokes_looks (inflate := inflate) hc h1 x y
      have e4 := strokes_looks (inflate := inflate) hc h2 x y
      have e5 := strokeOf_looks (inflate := inflate) hc h3 x y
      have e6 := strokeOf_looks (inflate := inflate) hc h4 x y
      have e7 : strokeOf inflate f sel x y c = none ∨ strokeOf inflate f sel x y d = none := by
        rcases hcd x y hx hy with h | h | h | h
        · exact .inl (strokeOf_none (.inl h))
        · exact .inr (strokeOf_none (.inl h))
        · exact .inl (strokeOf_none (.inr h))
        · exact .inr (strokeOf_none (.inr h))
      rw [hl, hl']
      unfold strokes at *
      simp only [List.filterMap_append, e3, e4, List.filterMap_cons, List.filterMap_nil, ← e5, ← e6]
      rcases e7 with e | e <;> rw [e]
  exact same_buffer hf hg hz ht hu key

/-- Two layers and two cels side by side; the layers exchanged: the cels look alike in the other order, they cover no
common pixel, and the pictures are the same. -/
example :
    let a := Sample.layer 1 0 0 255 [65]
    let m := Sample.layer 1 0 1 100 [66]
    let b := Sample.header 2 1 32 ++ Sample.frame 1 [a, m, Sample.cel 0 0 0 1 1 [9, 8, 7, 200],
      Sample.cel 1 1 0 1 1 [50, 60, 70, 80]]
    let b' := Sample.header 2 1 32 ++ Sample.frame 1 [m, a, Sample.cel 0 1 0 1 1 [50, 60, 70, 80],
      Sample.cel 1 0 0 1 1 [9, 8, 7, 200]]
    (match AsepriteFile.load ⟨true, 10⟩ b, AsepriteFile.load ⟨true, 10⟩ b' with
      | .ok f, .ok g =>
        (match f.frames[0]?, g.frames[0]? with
          | some lf, some lg =>
            (match lf.cels, lg.cels with
              | [c, d], [d', c'] => decide (celLooks f .visible c = celLooks g .visible c' ∧
                  celLooks f .visible d = celLooks g .visible d' ∧ (drawnOn f .visible c).isSome ∧
                  (drawnOn f .visible d).isSome ∧ coveredBy c 1 0 = none ∧ coveredBy d 0 0 = none)
              | _, _ => false)
          | _, _ => false)
      | _, _ => false) = true ∧
    Sample.render ⟨true, 10⟩ b 0 .visible [1, 2, 3, 255, 5, 6, 7, 255] =
      some (.ok (), [7, 6, 6, 255, 5, 6, 7, 255]) ∧
    Sample.render ⟨true, 10⟩ b' 0 .visible [1, 2, 3, 255, 5, 6, 7, 255] =
      some (.ok (), [7, 6, 6, 255, 5, 6, 7, 255]) := by
  decide +kernel

theorem covered_lt {c : FrameCel} {x y p : Nat} (h : coveredBy c x y = some p) :
    p < c.size.1.toNat * c.size.2.toNat := by
  unfold coveredBy at h
  dsimp only at h
  split at h
  · next hd =>
    cases h
    obtain ⟨h1, h2, h3, h4⟩ := hd
    generalize (x : Int) - c.origin.1.toInt = dx at *
    generalize (y : Int) - c.origin.2.toInt = dy at *
    have e1 : dx.toNat < c.size.1.toNat := by omega
    have e2 : dy.toNat + 1 ≤ c.size.2.toNat := by omega
    have e3 := Nat.mul_le_mul_right c.size.1.toNat e2
    rw [Nat.mul_comm c.size.1.toNat]
    rw [Nat.add_mul, Nat.one_mul] at e3
    omega
  · cases h

/-- **C77 (palette).** Palette entries that do not occur in the images of a frame do not matter: if the palettes of two
indexed sprites agree in all entries that do, and the frames have cels that look alike otherwise, the pictures are the
same. -/
theorem C77_palette (plat : Plat) (b b' : Bytes) (f g : AsepriteFile) (hf : AsepriteFile.load plat b = .ok f)
    (hg : AsepriteFile.load plat b' = .ok g) (hz : f.size = g.size) (hdf : f.file.header.colorDepth = .indexed)
    (hdg : g.file.header.colorDepth = .indexed) (pal pal' : Palette) (hp : f.file.palette = some pal)
    (hp' : g.file.palette = some pal') (inflate : Inflater) (i j : Nat) (lf lg : LFrame) (hi : f.frames[i]? = some lf)
    (hj : g.frames[j]? = some lg) (sel sel' : LayerSelection) (t t' u' : Bytes)
    (ht : f.renderFrame plat inflate i sel t = (.ok (), t')) (hu : g.renderFrame plat inflate j sel' t = (.ok (), u'))
    (hl : lf.cels.map (celLooks f sel) = lg.cels.map (celLooks g sel'))
    (hv : ∀ c ∈ lf.cels, ∀ im, f.images[c.imageIndex]? = some im →
      ∀ v ∈ (imageBytes inflate f.file im).take (pixelCount im), pal.colors[v.toNat]? = pal'.colors[v.toNat]?) :
    t' = u' := by
  refine same_buffer hf hg hz ht hu fun x y hx hy => ?_
  refine C77_strokes plat b b' f g hf hg inflate i j lf lg hi hj sel sel' t t' t u' ht hu x y x y hx hy
    (hz ▸ hx) (hz ▸ hy) ?_ ?_
  · unfold canvasPixel
    rw [show f.file.header.width = g.file.header.width from congrArg Prod.fst hz]
  have href := (C31_references plat b f hf lf (List.mem_of_getElem? hi)).1
  generalize lf.cels = cs at *
  generalize lg.cels = ds at *
  clear hi hj ht hu
  induction cs generalizing ds with
  | nil =>
    cases ds with
    | nil => rfl
    | cons d ds => simp at hl
  | cons c cs ih =>
    cases ds with
    | nil => simp at hl
    | cons d ds =>
      simp only [List.map_cons, List.cons.injEq] at hl
      unfold strokes at *
      rw [List.filterMap_cons, List.filterMap_cons,
        ih (fun c hc => hv c (List.mem_cons_of_mem _ hc)) (fun c hc => href c (List.mem_cons_of_mem _ hc)) ds hl.2]
      suffices h : strokeOf inflate f sel x y c = strokeOf inflate g sel' x y d by rw [h]
      have h := hl.1
      simp only [celLooks, Prod.mk.injEq] at h
      obtain ⟨h1, h2, h3, h4⟩ := h
      have hcov : coveredBy c x y = coveredBy d x y := by rw [coveredBy, coveredBy, h2, h3]
      have hcol : ∀ p, coveredBy c x y = some p →
          imageColor inflate f c.imageIndex p = imageColor inflate g d.imageIndex p := by
        intro p hcp
        obtain ⟨-, im, him, hs⟩ := href c (List.mem_cons_self ..)
        have hlt := covered_lt hcp
        unfold imageColor
        rw [← h4, him]
        dsimp only [Option.bind_some]
        have eb : imageBytes inflate g.file im = imageBytes inflate f.file im := by
          unfold imageBytes
          rw [hdf, hdg]
        rw [eb, hdf, hdg, hp, hp']
        unfold storedPixel
        cases hq : (imageBytes inflate f.file im)[p]? with
        | none => rfl
        | some v =>
          have : v ∈ (imageBytes inflate f.file im).take (pixelCount im) := by
            refine List.mem_of_getElem? (i := p) ?_
            rw [List.getElem?_take_of_lt, hq]
            rw [hs] at hlt
            exact hlt
          have := hv c (List.mem_cons_self ..) im him v this
          dsimp only [Option.bind_eq_bind, Option.bind_some]
          rw [this]
      unfold strokeOf
      rw [← hcov]
      cases hc : coveredBy c x y with
      | none => cases drawnOn f sel c <;> cases drawnOn g sel' d <;> rfl
      | some p =>
        simp only [Option.bind_some, hcol p hc]
        cases hd : drawnOn f sel c <;> cases hd' : drawnOn g sel' d <;> rw [hd, hd'] at h1 <;> simp at h1 ⊢
        rw [h1.1, h1.2]

/-- An indexed sprite whose only pixel has the index 1, with two palettes that differ in entry 2. -/
example :
    let b (c : Bytes) := Sample.header 1 1 8 ++ Sample.frame 1 [Sample.palette 0 [[0, 0, 0, 255], [1, 2, 3, 255], c],
      Sample.layer 1 0 0 255 [65], Sample.cel 0 0 0 1 1 [1]]
    (match AsepriteFile.load ⟨true, 10⟩ (b [7, 7, 7, 255]), AsepriteFile.load ⟨true, 10⟩ (b [8, 8, 8, 255]) with
      | .ok f, .ok g => decide (f.file.palette.map (·.colors) ≠ g.file.palette.map (·.colors) ∧
          f.images.map (fun im => (imageBytes Sample.inflate f.file im).take (pixelCount im)) = [[1]] ∧
          f.frames.flatMap (fun lf => lf.cels.map (celLooks f .all)) =
            g.frames.flatMap (fun lf => lf.cels.map (celLooks g .all)))
      | _, _ => false) = true ∧
    Sample.render ⟨true, 10⟩ (b [7, 7, 7, 255]) 0 .all [0, 0, 0, 0] = some (.ok (), [1, 2, 3, 255]) ∧
    Sample.render ⟨true, 10⟩ (b [8, 8, 8, 255]) 0 .all [0, 0, 0, 0] = some (.ok (), [1, 2, 3, 255]) := by
  decide +kernel

end Ase
