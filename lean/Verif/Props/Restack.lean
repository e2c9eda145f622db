import Verif.Spec.Restack
import Verif.Props.Rearrange

/-!
# C114: layers that do not overlap may be put in any order
-/

namespace Ase

open Spec

/-! ## Lists -/

/-- Increasing lists of numbers with the same members are equal. -/
theorem increasing_ext : ∀ {as bs : List Nat}, as.Pairwise (· < ·) → bs.Pairwise (· < ·) → (∀ n, n ∈ as ↔ n ∈ bs) → as = bs
  | [], [], _, _, _ => rfl
  | [], b :: bs, _, _, h => absurd ((h b).2 List.mem_cons_self) List.not_mem_nil
  | a :: as, [], _, _, h => absurd ((h a).1 List.mem_cons_self) List.not_mem_nil
  | a :: as, b :: bs, ha, hb, h => by
    rw [List.pairwise_cons] at ha hb
    have hab : a = b := by
      have h1 := (h a).1 List.mem_cons_self
      have h2 := (h b).2 List.mem_cons_self
      rw [List.mem_cons] at h1 h2
      rcases h1 with h1 | h1
      · exact h1
      · rcases h2 with h2 | h2
        · exact h2.symm
        · exact absurd (ha.1 b h2) (Nat.lt_asymm (hb.1 a h1))
    subst hab
    congr 1
    refine increasing_ext ha.2 hb.2 fun n => ?_
    have := h n
    rw [List.mem_cons, List.mem_cons] at this
    constructor
    · intro hn
      exact (this.1 (.inr hn)).resolve_left (Nat.ne_of_gt (ha.1 n hn))
    · intro hn
      exact (this.2 (.inr hn)).resolve_left (Nat.ne_of_gt (hb.1 n hn))

theorem filterMap_filter_isSome {α β : Type} (F : α → Option β) (l : List α) :
    (l.filter fun a => (F a).isSome).filterMap F = l.filterMap F := by
  induction l with
  | nil => rfl
  | cons a l ih =>
    rw [List.filter_cons]
    cases h : F a with
    | none => simp only [Option.isSome_none, Bool.false_eq_true, if_false, List.filterMap_cons_none h, ih]
    | some b => simp only [Option.isSome_some, if_true, List.filterMap_cons_some h, ih]

/-- Going through numbers in another order finds the same, if what is found is found in the same order. -/
theorem range_reordered {β : Type} {n n' : Nat} {place back : Nat → Nat}
    (h2 : ∀ m, place (back m) = m) {F G : Nat → Option β} (hFG : ∀ l, G (place l) = F l) (hn : ∀ l, n ≤ l → F l = none)
    (hn' : ∀ l, n' ≤ l → G l = none)
    (ho : ∀ l m, l < m → (F l).isSome = true → (F m).isSome = true → place l < place m) :
    (List.range n').filterMap G = (List.range n).filterMap F := by
  rw [← filterMap_filter_isSome F, ← filterMap_filter_isSome G]
  have e : (List.range n').filter (fun a => (G a).isSome) = ((List.range n).filter fun a => (F a).isSome).map place := by
    refine increasing_ext (List.Pairwise.filter _ List.pairwise_lt_range) ?_ fun k => ?_
    · rw [List.pairwise_map]
      refine List.Pairwise.imp_of_mem (fun {l m} hl hm hlm => ?_) (List.Pairwise.filter _ List.pairwise_lt_range)
      exact ho l m hlm (List.mem_filter.1 hl).2 (List.mem_filter.1 hm).2
    · rw [List.mem_filter, List.mem_range, List.mem_map]
      constructor
      · rintro ⟨-, hk⟩
        refine ⟨back k, ?_, h2 k⟩
        rw [List.mem_filter, List.mem_range, ← hFG, h2]
        refine ⟨Nat.lt_of_not_le fun h => ?_, hk⟩
        have := hFG (back k)
        rw [h2, hn _ h] at this
        rw [this] at hk
        cases hk
      · rintro ⟨l, hl, rfl⟩
        rw [List.mem_filter] at hl
        rw [hFG]
        refine ⟨Nat.lt_of_not_le fun h => ?_, hl.2⟩
        have := hFG l
        rw [hn' _ h] at this
        rw [← this] at hl
        cases hl.2
  rw [e, List.filterMap_map]
  exact List.filterMap_congr fun l _ => hFG l

/-! ## Drawings -/

/-- What a drawing paints on a pixel. -/
def paintOf (inflate : Inflater) (file : File) (x y : Nat)
    (v : (Int16 × Int16) × (UInt16 × UInt16) × Option Image × BlendMode × UInt8) : Option Stroke :=
  (coveredBy { origin := v.1, size := v.2.1, layerIndex := 0, imageIndex := 0 } x y).bind fun p =>
    (v.2.2.1.bind fun im => storedPixel file.header.colorDepth file.palette (imageBytes inflate file im) p).map fun color =>
      ⟨v.2.2.2.1, v.2.2.2.2, color⟩

theorem strokeOf_paintOf (inflate : Inflater) (f : AsepriteFile) (sel : LayerSelection) (x y : Nat) (c : FrameCel) :
    strokeOf inflate f sel x y c = (cellDraw f sel c).bind (paintOf inflate f.file x y) := by
  unfold strokeOf cellDraw
  cases drawnOn f sel c <;> rfl

theorem strokes_paintOf (inflate : Inflater) (f : AsepriteFile) (sel : LayerSelection) (x y : Nat) (cs : List FrameCel) :
    strokes inflate f sel x y cs = (cs.filterMap (cellDraw f sel)).filterMap (paintOf inflate f.file x y) := by
  unfold strokes
  rw [List.filterMap_filterMap]
  exact List.filterMap_congr fun c _ => strokeOf_paintOf inflate f sel x y c

theorem paintOf_congr {f g : AsepriteFile} (hdep : f.file.header.colorDepth = g.file.header.colorDepth)
    (hpal : f.file.palette = g.file.palette) (inflate : Inflater) (x y : Nat) :
    paintOf inflate f.file x y = paintOf inflate g.file x y := by
  funext v
  unfold paintOf imageBytes
  rw [hdep, hpal]

/-- A drawing that does not lie on the pixel paints nothing there. -/
theorem paintOf_away {inflate : Inflater} {file : File} {x y : Nat} {d : Drawing} (h : d.liesOn x y = false) :
    paintOf inflate file x y (drawingFacts d) = none := by
  have : coveredBy { origin := (d.x, d.y), size := (d.image.width, d.image.height), layerIndex := 0, imageIndex := 0 } x y = none := by
    unfold coveredBy
    dsimp only
    rw [if_neg]
    have h := of_decide_eq_false h
    unfold LiesOn at h
    dsimp only at h
    omega
  unfold paintOf drawingFacts
  dsimp only
  rw [this]
  rfl

theorem filterMap_filter_none {α β : Type} {F : α → Option β} {p : α → Bool} {l : List α}
    (h : ∀ a ∈ l, p a = false → F a = none) : (l.filter p).filterMap F = l.filterMap F := by
  induction l with
  | nil => rfl
  | cons a l ih =>
    have ih := ih fun b hb => h b (List.mem_cons_of_mem _ hb)
    rw [List.filter_cons]
    cases hp : p a with
    | true => rw [if_pos rfl, List.filterMap_cons, List.filterMap_cons, ih]
    | false => rw [if_neg (by simp), List.filterMap_cons_none (h a List.mem_cons_self hp), ih]

/-- **C114 (drawings).** Let two frames, of one file or of two with the same canvas, draw the same images, maybe in another
order, but on each pixel of the canvas in the same order.  Then rendering one of them succeeds if rendering the other one
does, and leaves the same buffer. -/
theorem C114_drawings (plat : Plat) (b b' : Bytes) (raw raw' : RawFile) (hr : parseRawFile plat b = .ok raw)
    (hr' : parseRawFile plat b' = .ok raw') (f g : AsepriteFile) (hf : AsepriteFile.load plat b = .ok f)
    (hg : AsepriteFile.load plat b' = .ok g) (ht : NoTilemaps raw) (ht' : NoTilemaps raw') (hc : canvas raw = canvas raw')
    (i j : Nat) (hi : i < raw.frames.length) (hj : j < raw'.frames.length) (sel sel' : LayerSelection)
    (hsame : ∀ d, d ∈ drawings raw sel i ↔ d ∈ drawings raw' sel' j)
    (horder : ∀ x y, x < raw.header.width.toNat → y < raw.header.height.toNat →
      (drawings raw sel i).filter (·.liesOn x y) = (drawings raw' sel' j).filter (·.liesOn x y))
    (inflate : Inflater) (t t' : Bytes) :
    f.renderFrame plat inflate i sel t = (.ok (), t') ↔ g.renderFrame plat inflate j sel' t = (.ok (), t') := by
  obtain ⟨f1, f2⟩ := load_ok.1 hf
  obtain ⟨g1, g2⟩ := load_ok.1 hg
  have hP := parsed_of_parse hr f1
  have hQ := parsed_of_parse hr' g1
  have hfl : i < f.frames.length := by rw [(frames_of_load f2).1, hP.frames, List.length_map]; exact hi
  have hgl : j < g.frames.length := by rw [(frames_of_load g2).1, hQ.frames, List.length_map]; exact hj
  have hpal : f.file.palette = g.file.palette := by
    have := hP.palette
    rw [filePalette_canvas hc, hQ.palette] at this
    exact (Outcome.ok.inj this).symm
  have hsz : f.size = g.size := by
    simp only [AsepriteFile.size, hP.header, hQ.header]
    rw [show raw.header.width = raw'.header.width from congrArg Canvas.width hc,
      show raw.header.height = raw'.header.height from congrArg Canvas.height hc]
  have hdep : f.file.header.colorDepth = g.file.header.colorDepth := by
    rw [hP.header, hQ.header]
    exact congrArg Canvas.colorDepth hc
  have hlf := List.getElem?_eq_getElem hfl
  have hlg := List.getElem?_eq_getElem hgl
  have dF := cels_drawings hr hf ht hlf sel
  have dG := cels_drawings hr' hg ht' hlg sel'
  have hstr : ∀ x y, x < f.size.1.toNat → y < f.size.2.toNat →
      strokes inflate f sel x y f.frames[i].cels = strokes inflate g sel' x y g.frames[j].cels := by
    intro x y hx hy
    rw [strokes_paintOf, strokes_paintOf, dF, dG, ← paintOf_congr hdep hpal, List.filterMap_map, List.filterMap_map]
    have away : ∀ ds : List Drawing, (ds.filter (·.liesOn x y)).filterMap (paintOf inflate f.file x y ∘ drawingFacts) =
        ds.filterMap (paintOf inflate f.file x y ∘ drawingFacts) :=
      fun ds => filterMap_filter_none fun d _ h => paintOf_away h
    rw [← away, ← away (drawings raw' sel' j), horder x y (by rw [← hP.header]; exact hx) (by rw [← hP.header]; exact hy)]
  have hgood : ∀ {h k : AsepriteFile} {sl sl' : LayerSelection} {cs ds : List FrameCel},
      h.file.header.colorDepth = k.file.header.colorDepth →
      (∀ v, v ∈ ds.filterMap (cellDraw k sl') → v ∈ cs.filterMap (cellDraw h sl)) →
      (∀ c ∈ cs, ∀ layer im, drawnOn h sl c = some layer → h.images[c.imageIndex]? = some im →
        HasPixels inflate h.file im ∧ isKnown layer.blendMode = true) →
      ∀ c ∈ ds, ∀ layer im, drawnOn k sl' c = some layer → k.images[c.imageIndex]? = some im →
        HasPixels inflate k.file im ∧ isKnown layer.blendMode = true := by
    intro h k sl sl' cs ds hd hm hgood c hcs layer im h1 h2
    have hv : (c.origin, c.size, k.images[c.imageIndex]?, layer.blendMode, layer.opacity) ∈ ds.filterMap (cellDraw k sl') := by
      rw [List.mem_filterMap]
      exact ⟨c, hcs, by unfold cellDraw; rw [h1]; rfl⟩
    obtain ⟨c', hc', e⟩ := List.mem_filterMap.1 (hm _ hv)
    unfold cellDraw at e
    obtain ⟨layer', h1', e⟩ := Option.map_eq_some_iff.1 e
    simp only [Prod.mk.injEq] at e
    obtain ⟨-, -, e3, e4, -⟩ := e
    have := hgood c' hc' layer' im h1' (e3.trans h2)
    rw [e4] at this
    unfold HasPixels at this ⊢
    rw [hd] at this
    exact this
  have hmem : ∀ v, v ∈ f.frames[i].cels.filterMap (cellDraw f sel) ↔ v ∈ g.frames[j].cels.filterMap (cellDraw g sel') := by
    intro v
    rw [dF, dG, List.mem_map, List.mem_map]
    constructor
    · rintro ⟨d, h1, h2⟩
      exact ⟨d, (hsame d).1 h1, h2⟩
    · rintro ⟨d, h1, h2⟩
      exact ⟨d, (hsame d).2 h1, h2⟩
  have hw : f.file.header.width = g.file.header.width := congrArg Prod.fst hsz
  have hcan : ∀ t x y, canvasPixel f t x y = canvasPixel g t x y := by
    intro t x y
    unfold canvasPixel
    rw [hw]
  have hok : (f.renderFrame plat inflate i sel t).1 = .ok () ↔ (g.renderFrame plat inflate j sel' t).1 = .ok () := by
    by_cases hlen : f.size.1.toNat * f.size.2.toNat * 4 ≤ t.length
    · rw [(C41_failures_partial plat b f hf inflate i _ hlf sel t hlen).2,
        (C41_failures_partial plat b' g hg inflate j _ hlg sel' t (hsz ▸ hlen)).2]
      refine and_congr ⟨hgood hdep fun v => (hmem v).2, hgood hdep.symm fun v => (hmem v).1⟩ ?_
      constructor
      · intro h x y c hx hy hcp
        have := h x y c (hsz ▸ hx) (hsz ▸ hy) (by rw [hcan]; exact hcp)
        rw [compose_strokes, hstr x y (hsz ▸ hx) (hsz ▸ hy), ← compose_strokes] at this
        exact this
      · intro h x y c hx hy hcp
        have := h x y c (hsz ▸ hx) (hsz ▸ hy) (by rw [← hcan]; exact hcp)
        rw [compose_strokes, ← hstr x y hx hy, ← compose_strokes] at this
        exact this
    · have e1 := (C36_buffer plat b f hf inflate i sel t).1.2 (by omega)
      have e2 := (C36_buffer plat b' g hg inflate j sel' t).1.2 (by rw [← hsz]; omega)
      rw [e1, e2]
  have hbuf : ∀ u u', f.renderFrame plat inflate i sel t = (.ok (), u) → g.renderFrame plat inflate j sel' t = (.ok (), u') →
      u = u' := by
    intro u u' h1 h2
    refine same_buffer hf hg hsz h1 h2 fun x y hx hy => ?_
    exact C77_strokes plat b b' f g hf hg inflate i j _ _ hlf hlg sel sel' t u t u' h1 h2 x y x y hx hy (hsz ▸ hx) (hsz ▸ hy)
      (hcan t x y) (hstr x y hx hy)
  constructor
  · intro h
    have h2 := hok.1 (by rw [h])
    have h3 : g.renderFrame plat inflate j sel' t = (.ok (), (g.renderFrame plat inflate j sel' t).2) := by rw [← h2]
    rw [h3, hbuf _ _ h h3]
  · intro h
    have h2 := hok.2 (by rw [h])
    have h3 : f.renderFrame plat inflate i sel t = (.ok (), (f.renderFrame plat inflate i sel t).2) := by rw [← h2]
    rw [h3, hbuf _ _ h3 h]

/-! ## Layers -/

theorem restacked_own {o o' : Option CelChunk} (h : o'.map celPlace = o.map celPlace) : o'.bind ownImage = o.bind ownImage := by
  cases o with
  | none => cases o' with
    | none => rfl
    | some _ => cases h
  | some c => cases o' with
    | none => cases h
    | some d =>
      simp only [Option.map_some, Option.some.injEq, celPlace, Prod.mk.injEq] at h
      show ownImage d = ownImage c
      unfold ownImage
      rw [h.2.2]

theorem restacked_imageOf {place back : Nat → Nat} {raw raw' : RawFile} (h : Restacked place back raw raw') {l : Nat}
    {c d : CelChunk} (hcd : d.content = c.content) : Doc.imageOf raw' (place l) d = Doc.imageOf raw l c := by
  unfold Doc.imageOf
  rw [hcd]
  cases c.content with
  | linkedCel k => exact restacked_own (h.cels _ l)
  | _ => rfl

theorem restacked_shown {place back : Nat → Nat} {raw raw' : RawFile} (h : Restacked place back raw raw') (i l : Nat) :
    shown raw' i (place l) = shown raw i l := by
  have hc := h.cels i l
  unfold shown
  revert hc
  cases Doc.celOf raw i l <;> cases Doc.celOf raw' i (place l) <;> intro hc <;> try cases hc
  · rfl
  · rename_i c d
    simp only [Option.map_some, Option.some.injEq, celPlace, Prod.mk.injEq] at hc
    obtain ⟨hx, hy, hcd⟩ := hc
    rw [Option.bind_some, Option.bind_some, hx, hy, restacked_imageOf h hcd]

/-- What is drawn of layer `l`. -/
def drawingOf (raw : RawFile) (sel : LayerSelection) (i l : Nat) : Option Drawing :=
  match (Doc.layers raw)[l]?, shown raw i l with
  | some c, some (x, y, im) => if drawsLayer sel l c then some ⟨x, y, im, c.blendMode, c.opacity⟩ else none
  | _, _ => none

theorem drawings_of (raw : RawFile) (sel : LayerSelection) (i : Nat) :
    drawings raw sel i = (List.range (Doc.layers raw).length).filterMap (drawingOf raw sel i) := rfl

theorem drawingOf_beyond {raw : RawFile} {sel : LayerSelection} {i l : Nat} (h : (Doc.layers raw).length ≤ l) :
    drawingOf raw sel i l = none := by
  unfold drawingOf
  rw [List.getElem?_eq_none h]

theorem mem_drawings {raw : RawFile} {sel : LayerSelection} {i : Nat} {d : Drawing} :
    d ∈ drawings raw sel i ↔ ∃ l, drawingOf raw sel i l = some d := by
  rw [drawings_of, List.mem_filterMap]
  constructor
  · rintro ⟨l, -, h⟩
    exact ⟨l, h⟩
  · rintro ⟨l, h⟩
    refine ⟨l, List.mem_range.2 (Nat.lt_of_not_le fun hl => ?_), h⟩
    rw [drawingOf_beyond hl] at h
    cases h

theorem drawingOf_some {raw : RawFile} {sel : LayerSelection} {i l : Nat} {d : Drawing} (h : drawingOf raw sel i l = some d) :
    ∃ c, (Doc.layers raw)[l]? = some c ∧ drawsLayer sel l c = true ∧ shown raw i l = some (d.x, d.y, d.image) := by
  unfold drawingOf at h
  split at h
  · next c x y im h1 h2 =>
    split at h
    · next h3 =>
      cases h
      exact ⟨c, h1, h3, h2⟩
    · cases h
  · cases h

theorem restacked_draws {place : Nat → Nat} {sel sel' : LayerSelection} (hs : SameChoice place sel sel') {l : Nat}
    {c d : LayerChunk} (h : layerLook d = layerLook c) :
    drawsLayer sel' (place l) d = drawsLayer sel l c ∧ d.blendMode = c.blendMode ∧ d.opacity = c.opacity := by
  simp only [layerLook, Prod.mk.injEq] at h
  obtain ⟨e1, e2, e3, e4⟩ := h
  refine ⟨?_, e3, e4⟩
  cases sel <;> cases sel' <;> try exact hs.elim
  · simp only [drawsLayer, e1, e2]
  · simp only [drawsLayer, e1]
  · have := hs l
    simp only [drawsLayer, e1, this]

theorem restacked_drawingOf {place back : Nat → Nat} {raw raw' : RawFile} (h : Restacked place back raw raw')
    {sel sel' : LayerSelection} (hs : SameChoice place sel sel') (i l : Nat) :
    drawingOf raw' sel' i (place l) = drawingOf raw sel i l := by
  have hl := h.layers l
  unfold drawingOf
  rw [restacked_shown h]
  cases h1 : (Doc.layers raw)[l]? with
  | none =>
    rw [h1] at hl
    rw [Option.map_eq_none_iff.1 hl]
  | some c =>
    rw [h1, Option.map_some] at hl
    obtain ⟨d, h2, h3⟩ := Option.map_eq_some_iff.1 hl
    rw [h2]
    obtain ⟨e1, e2, e3⟩ := restacked_draws hs (l := l) h3
    cases shown raw i l with
    | none => rfl
    | some s => simp only [e1, e2, e3]

/-- **C114 (layers).** Put the layers of a file in another order, renumbering the cels, such that in frame `i` no two
selected layers that have changed sides show something on a common pixel of the canvas.  Then rendering this frame succeeds
if it did, and leaves the same buffer as before. -/
theorem C114_layers (plat : Plat) (b b' : Bytes) (raw raw' : RawFile) (hr : parseRawFile plat b = .ok raw)
    (hr' : parseRawFile plat b' = .ok raw') (place back : Nat → Nat) (h : Restacked place back raw raw')
    (f g : AsepriteFile) (hf : AsepriteFile.load plat b = .ok f) (hg : AsepriteFile.load plat b' = .ok g)
    (ht : NoTilemaps raw) (sel sel' : LayerSelection) (hs : SameChoice place sel sel') (i : Nat)
    (hi : i < raw.frames.length) (ha : SidesApart place raw sel i) (inflate : Inflater) (t t' : Bytes) :
    f.renderFrame plat inflate i sel t = (.ok (), t') ↔ g.renderFrame plat inflate i sel' t = (.ok (), t') := by
  have ht' : NoTilemaps raw' := by
    intro c hc
    obtain ⟨m, hm⟩ := List.getElem?_of_mem hc
    have := h.layers (back m)
    rw [h.andBack, hm, Option.map_some] at this
    obtain ⟨d, h1, h2⟩ := Option.map_eq_some_iff.1 this.symm
    simp only [layerLook, Prod.mk.injEq] at h2
    rw [← h2.1]
    exact ht d (List.mem_of_getElem? h1)
  refine C114_drawings plat b b' raw raw' hr hr' f g hf hg ht ht' h.canvas i i hi (h.frames ▸ hi) sel sel' ?_ ?_ inflate t t'
  · intro d
    rw [mem_drawings, mem_drawings]
    constructor
    · rintro ⟨l, hl⟩
      exact ⟨place l, (restacked_drawingOf h hs i l).trans hl⟩
    · rintro ⟨m, hm⟩
      refine ⟨back m, ?_⟩
      rw [← restacked_drawingOf h hs, h.andBack, hm]
  · intro x y hx hy
    rw [drawings_of, drawings_of, List.filter_filterMap, List.filter_filterMap]
    refine (range_reordered h.andBack (F := fun l => (drawingOf raw sel i l).filter (·.liesOn x y))
      (G := fun m => (drawingOf raw' sel' i m).filter (·.liesOn x y)) ?_ ?_ ?_ ?_).symm
    · intro l
      rw [restacked_drawingOf h hs]
    · intro l hl
      rw [drawingOf_beyond hl]
      rfl
    · intro l hl
      rw [drawingOf_beyond hl]
      rfl
    · intro l m hlm hl hm
      refine Nat.lt_of_not_le fun hle => ?_
      have hlt : place m < place l := by
        refine Nat.lt_of_le_of_ne hle fun e => ?_
        have := h.there m
        rw [e, h.there] at this
        omega
      obtain ⟨d, hd⟩ := Option.isSome_iff_exists.1 hl
      obtain ⟨d', hd'⟩ := Option.isSome_iff_exists.1 hm
      obtain ⟨h1, h2⟩ := Option.filter_eq_some_iff.1 hd
      obtain ⟨h1', h2'⟩ := Option.filter_eq_some_iff.1 hd'
      obtain ⟨c, a1, a2, a3⟩ := drawingOf_some h1
      obtain ⟨c', b1, b2, b3⟩ := drawingOf_some h1'
      exact ha l m c c' _ _ hlm hlt a1 b1 a2 b2 a3 b3 x y hx hy ⟨of_decide_eq_true h2, of_decide_eq_true h2'⟩

theorem celOf_of_mem {raw : RawFile} {i : Nat} {fr : RawFrame} (hfr : raw.frames[i]? = some fr) {c : CelChunk}
    (hc : c ∈ Doc.cels fr) : ∃ d, Doc.celOf raw i c.layerIndex.toNat = some d := by
  unfold Doc.celOf
  rw [hfr, Option.bind_some]
  unfold slot
  cases hl : (List.filter (fun d : CelChunk => decide (d.layerIndex.toNat = c.layerIndex.toNat)) (Doc.cels fr)).getLast? with
  | some d => exact ⟨d, rfl⟩
  | none =>
    rw [List.getLast?_eq_none_iff, List.filter_eq_nil_iff] at hl
    exact absurd (decide_eq_true rfl) (hl c hc)

theorem mem_of_celOf {raw : RawFile} {i l : Nat} {d : CelChunk} (h : Doc.celOf raw i l = some d) :
    ∃ fr, raw.frames[i]? = some fr ∧ d ∈ Doc.cels fr ∧ d.layerIndex.toNat = l := by
  unfold Doc.celOf at h
  obtain ⟨fr, e1, e2⟩ := Option.bind_eq_some_iff.1 h
  unfold slot at e2
  have hm := List.mem_filter.1 (List.mem_of_getLast? e2)
  exact ⟨fr, e1, hm.1, of_decide_eq_true hm.2⟩

theorem layerCount_doc (raw : RawFile) : (allLayers raw.frames).length = (Doc.layers raw).length := by
  simpa using congrArg List.length (allLayers_bare raw)

/-- **C114 (loads).** A file with its layers in another order loads if the original does, with as many frames and the
same size. -/
theorem C114_loads (plat : Plat) (b b' : Bytes) (raw raw' : RawFile) (hr : parseRawFile plat b = .ok raw)
    (hr' : parseRawFile plat b' = .ok raw') (place back : Nat → Nat) (h : Restacked place back raw raw')
    (f : AsepriteFile) (hf : AsepriteFile.load plat b = .ok f) :
    ∃ g, AsepriteFile.load plat b' = .ok g ∧ g.frames.length = f.frames.length ∧ g.size = f.size := by
  have key : ∃ g, AsepriteFile.load plat b' = .ok g := by
    obtain ⟨hp, hidx, hres⟩ := (loads_doc hr).1 ⟨f, hf⟩
    rw [loads_doc hr']
    refine ⟨filePalette_canvas h.canvas ▸ hp, ?_, ?_⟩
    · intro fr' hfr c hc
      obtain ⟨j, hj⟩ := List.getElem?_of_mem hfr
      obtain ⟨d, hd⟩ := celOf_of_mem hj hc
      have hs := h.cels j (back c.layerIndex.toNat)
      rw [h.andBack, hd, Option.map_some] at hs
      obtain ⟨d0, hd0, -⟩ := Option.map_eq_some_iff.1 hs.symm
      obtain ⟨fr, e1, e2, e3⟩ := mem_of_celOf hd0
      have hlt := hidx fr (List.mem_of_getElem? e1) d0 e2
      rw [e3, layerCount_doc] at hlt
      have hl := h.layers (back c.layerIndex.toNat)
      rw [h.andBack, List.getElem?_eq_getElem hlt, Option.map_some] at hl
      obtain ⟨x, hx, -⟩ := Option.map_eq_some_iff.1 hl
      rw [layerCount_doc]
      exact (List.getElem?_eq_some_iff.1 hx).1
    · intro j m d hd
      have hs := h.cels j (back m)
      rw [h.andBack, hd, Option.map_some] at hs
      obtain ⟨c, hc, e⟩ := Option.map_eq_some_iff.1 hs.symm
      have hi := restacked_imageOf h (l := back m) (c := c) (d := d) (congrArg (fun p => p.2.2) e).symm
      rw [h.andBack] at hi
      rw [hi]
      exact hres _ _ _ hc
  obtain ⟨g, hg⟩ := key
  obtain ⟨f1, f2⟩ := load_ok.1 hf
  obtain ⟨g1, g2⟩ := load_ok.1 hg
  have hP := parsed_of_parse hr f1
  have hQ := parsed_of_parse hr' g1
  refine ⟨g, hg, ?_, ?_⟩
  · rw [(frames_of_load f2).1, (frames_of_load g2).1, hP.frames, hQ.frames, List.length_map, List.length_map, h.frames]
  · simp only [AsepriteFile.size, hP.header, hQ.header]
    rw [show raw.header.width = raw'.header.width from congrArg Canvas.width h.canvas,
      show raw.header.height = raw'.header.height from congrArg Canvas.height h.canvas]

/-! Three layers A, B, C on a canvas of three pixels: A covers the first one, and B and C both cover the other two.  A is
moved to the top. -/
def Sample.layerA := Sample.layer 1 0 0 255 [65]
def Sample.layerB := Sample.layer 1 0 1 255 [66]
def Sample.layerC := Sample.layer 1 0 0 100 [67]

def Sample.stackABC : Bytes := Sample.header 3 1 32 ++ Sample.frame 1 [Sample.layerA, Sample.layerB, Sample.layerC,
  Sample.cel 0 0 0 1 1 [1, 2, 3, 255], Sample.cel 1 1 0 2 1 [4, 5, 6, 255, 7, 8, 9, 255],
  Sample.cel 2 1 0 2 1 [90, 80, 70, 255, 60, 50, 40, 255]] ++ Sample.frame 1 [Sample.link 0 0, Sample.link 2 0]

def Sample.stackBCA : Bytes := Sample.header 3 1 32 ++ Sample.frame 1 [Sample.layerB, Sample.layerC, Sample.layerA,
  Sample.cel 0 1 0 2 1 [4, 5, 6, 255, 7, 8, 9, 255], Sample.cel 1 1 0 2 1 [90, 80, 70, 255, 60, 50, 40, 255],
  Sample.cel 2 0 0 1 1 [1, 2, 3, 255]] ++ Sample.frame 1 [Sample.link 1 0, Sample.link 2 0]

def Sample.toTop (l : Nat) : Nat := [2, 0, 1].getD l l
def Sample.fromTop (l : Nat) : Nat := [1, 2, 0].getD l l

example : (∀ l, Sample.fromTop (Sample.toTop l) = l) ∧ ∀ m, Sample.toTop (Sample.fromTop m) = m := by
  constructor <;> intro l <;> match l with
    | 0 | 1 | 2 => rfl
    | n + 3 => simp [Sample.toTop, Sample.fromTop]

example :
    (match parseRawFile ⟨true, 10⟩ Sample.stackABC, parseRawFile ⟨true, 10⟩ Sample.stackBCA with
      | .ok raw, .ok raw' =>
        decide (canvas raw = canvas raw') && raw.frames.length == 2 && raw'.frames.length == 2 && decide (NoTilemaps raw) &&
        (Doc.layers raw).length == 3 && (Doc.layers raw').length == 3 &&
        (List.range 3).all (fun l =>
          decide ((Doc.layers raw')[Sample.toTop l]?.map layerLook = (Doc.layers raw)[l]?.map layerLook) &&
          (List.range 2).all fun i =>
            decide ((Doc.celOf raw' i (Sample.toTop l)).map celPlace = (Doc.celOf raw i l).map celPlace)) &&
        (raw.frames ++ raw'.frames).all (fun fr => (Doc.cels fr).all fun c => decide (c.layerIndex.toNat < 3)) &&
        (List.range 3).all (fun x => [1, 2].all fun m =>
          match shown raw 0 0, shown raw 0 m with
          | some s, some s' => !(decide (LiesOn s x 0) && decide (LiesOn s' x 0))
          | _, _ => false)
      | _, _ => false) = true := by decide +kernel

example :
    let t := List.replicate 12 (9 : UInt8)
    ∃ t', Sample.render ⟨true, 10⟩ Sample.stackABC 0 .visible t = some (.ok (), t') ∧
      Sample.render ⟨true, 10⟩ Sample.stackBCA 0 .visible t = some (.ok (), t') ∧
      t' = [1, 2, 3, 255, 37, 34, 31, 255, 27, 24, 21, 255] := ⟨_, by decide +kernel, by decide +kernel, rfl⟩

end Ase
