import Verif.Lemmas.Algebra
import Verif.Props.Channels

/-!
# C82: neutral colours; C83: negatives; C84: when the order of layers does not matter;
C85: darkening layers darken, lightening layers lighten
-/

namespace Ase

open Spec

theorem opaque_stays {plat : Plat} {m : BlendMode} {back front c : Color} {o : UInt8}
    (h : blend plat m back front o = .ok c) (hb : back.a = 255) : c.a = 255 := by
  have h1 := C66_blend plat m back front c o h
  rw [hb, UInt8.le_iff_toNat_le] at h1
  have h2 := byte_le c.a
  have h3 : (255 : UInt8).toNat = 255 := rfl
  exact UInt8.toNat_inj.1 (by omega)

theorem blend_mode (plat : Plat) (m : BlendMode) (f : Nat → Nat → Nat) (hf : channelFn m = some f) (b c : Color) (o : UInt8) :
    blend plat m b c o = .ok (modeU f b c o) := by
  obtain ⟨g, h1, h2⟩ := mode_eq plat m f hf
  rw [blend, h1, run_bind_ok, h2]

theorem color_ext_channels {c d : Color} (h : ∀ ch, IsChannel ch → ch c = ch d) (ha : c.a = d.a) : c = d := by
  obtain ⟨_, _, _, _⟩ := c
  obtain ⟨_, _, _, _⟩ := d
  have h1 := h Color.r (.inl rfl)
  have h2 := h Color.g (.inr (.inl rfl))
  have h3 := h Color.b (.inr (.inr rfl))
  simp only at h1 h2 h3 ha
  subst h1; subst h2; subst h3; subst ha
  rfl

/-! ## C82 -/

/-- **C82 (one stroke).** Painting on an opaque pixel, with any alpha and opacity: a channel in which the colour painted
has the neutral value of the mode is not changed. -/
theorem C82_stroke (plat : Plat) (m : BlendMode) (v : UInt8) (hv : neutral m = some v) (back front : Color) (o : UInt8)
    (hb : back.a = 255) :
    ∃ c, blend plat m back front o = .ok c ∧ c.a = 255 ∧ ∀ ch, IsChannel ch → ch front = v → ch c = ch back := by
  obtain ⟨f, hf, h⟩ := channelFn_neutral m v hv
  have hc := blend_mode plat m f hf back front o
  obtain ⟨h3, h4⟩ := blend_opaque plat m f hf back front _ o hb hc
  refine ⟨_, hc, h3, fun ch hch hv => toI_inj ?_⟩
  rw [h4 ch hch, hv, h _ (byte_le _)]
  exact toward_same _ _

-- white with half opacity, multiplied in red and green
example : neutral .multiply = some 255 ∧
    blend ⟨true, 0⟩ .multiply ⟨10, 200, 30, 255⟩ ⟨255, 255, 100, 200⟩ 128 = .ok ⟨10, 200, 23, 255⟩ := by decide +kernel

/-- On a pixel that is not opaque, the neutral colour shows. -/
theorem C82_translucent (plat : Plat) :
    blend plat .multiply ⟨10, 200, 30, 100⟩ ⟨255, 255, 255, 200⟩ 255 = .ok ⟨103, 221, 115, 222⟩ := by
  rw [blend_mode plat .multiply _ rfl]
  exact congrArg _ (by decide +kernel)

/-- **C82.** Strokes in the neutral colours of their modes do not count: an opaque pixel gets the colour it would get from
the other strokes alone. -/
theorem C82_neutral (plat : Plat) (b : Bytes) (f : AsepriteFile) (h : AsepriteFile.load plat b = .ok f)
    (inflate : Inflater) (i : Nat) (lf : LFrame) (hi : f.frames[i]? = some lf) (sel : LayerSelection) (t t' : Bytes)
    (hok : f.renderFrame plat inflate i sel t = (.ok (), t')) (x y : Nat) (hx : x < f.size.1.toNat)
    (hy : y < f.size.2.toNat) (before : Color) (hb : canvasPixel f t x y = some before) (ha : before.a = 255) :
    ∃ after, canvasPixel f t' x y = some after ∧
      ((strokes inflate f sel x y lf.cels).filter fun s => !s.isNeutral).foldl
        (fun (r : Run Color) s => r.bind fun c => blend plat s.mode c s.color s.opacity) (.ok before) = .ok after := by
  obtain ⟨c, d, h1, h2, h3⟩ := C37_pixels plat b f h inflate i lf hi sel t t' hok x y hx hy
  rw [hb] at h1
  cases h1
  rw [compose_strokes] at h3
  refine ⟨d, h2, ?_⟩
  generalize strokes inflate f sel x y lf.cels = ss at h3
  clear hb
  have stuck : ∀ (ss : List Stroke) (k : Panic), ss.foldl (fun (r : Run Color) s =>
      r.bind fun c => blend plat s.mode c s.color s.opacity) (.panic k) = .panic k := by
    intro ss k
    induction ss with
    | nil => rfl
    | cons s ss ih => exact ih
  induction ss generalizing before with
  | nil => exact h3
  | cons s ss ih =>
    rw [List.foldl_cons] at h3
    cases hs : blend plat s.mode before s.color s.opacity with
    | err e => exact nomatch e
    | panic k =>
      have : (Outcome.bind (.ok before) fun c => blend plat s.mode c s.color s.opacity) = .panic k := hs
      rw [this, stuck] at h3
      cases h3
    | ok c1 =>
      have e : (Outcome.bind (.ok before) fun c => blend plat s.mode c s.color s.opacity) = .ok c1 := hs
      rw [e] at h3
      have h5 := ih c1 (opaque_stays hs ha) h3
      by_cases hn : s.isNeutral
      · rw [List.filter_cons_of_neg (by simpa using hn)]
        have : c1 = before := by
          unfold Stroke.isNeutral at hn
          split at hn
          · next v hv =>
            simp only [Bool.and_eq_true, decide_eq_true_eq] at hn
            obtain ⟨c2, k1, k2, k3⟩ := C82_stroke plat s.mode v hv before s.color s.opacity ha
            rw [hs] at k1
            cases k1
            refine color_ext_channels (fun ch hch => k3 ch hch ?_) (k2.trans ha.symm)
            rcases hch with rfl | rfl | rfl
            · exact hn.1.1
            · exact hn.1.2
            · exact hn.2
          · cases hn
        rw [← this]
        exact h5
      · rw [List.filter_cons_of_pos (by simpa using hn), List.foldl_cons, e]
        exact h5

/-- So two frames with the same strokes but for neutral ones show the same on opaque pixels. -/
theorem C82_same (plat : Plat) (b b' : Bytes) (f g : AsepriteFile) (hf : AsepriteFile.load plat b = .ok f)
    (hg : AsepriteFile.load plat b' = .ok g) (inflate : Inflater) (i j : Nat) (lf lg : LFrame)
    (hi : f.frames[i]? = some lf) (hj : g.frames[j]? = some lg) (sel sel' : LayerSelection) (t t' u u' : Bytes)
    (ht : f.renderFrame plat inflate i sel t = (.ok (), t')) (hu : g.renderFrame plat inflate j sel' u = (.ok (), u'))
    (x y x' y' : Nat) (hx : x < f.size.1.toNat) (hy : y < f.size.2.toNat) (hx' : x' < g.size.1.toNat)
    (hy' : y' < g.size.2.toNat) (before : Color) (hb : canvasPixel f t x y = some before)
    (hb' : canvasPixel g u x' y' = some before) (ha : before.a = 255)
    (hs : (strokes inflate f sel x y lf.cels).filter (fun s => !s.isNeutral) =
      (strokes inflate g sel' x' y' lg.cels).filter (fun s => !s.isNeutral)) :
    canvasPixel f t' x y = canvasPixel g u' x' y' := by
  obtain ⟨d, h1, h2⟩ := C82_neutral plat b f hf inflate i lf hi sel t t' ht x y hx hy before hb ha
  obtain ⟨d', h1', h2'⟩ := C82_neutral plat b' g hg inflate j lg hj sel' u u' hu x' y' hx' hy' before hb' ha
  rw [hs, h2'] at h2
  cases h2
  rw [h1, h1']

-- a white layer multiplied and a black one added, between two others, against the sprite without them
example :
    let b := Sample.header 1 1 32 ++ Sample.frame 1 [Sample.layer 1 0 1 255 [65], Sample.layer 1 0 1 77 [66],
      Sample.layer 1 0 16 200 [67], Sample.layer 1 0 0 100 [68],
      Sample.cel 0 0 0 1 1 [10, 80, 5, 200], Sample.cel 1 0 0 1 1 [255, 255, 255, 130],
      Sample.cel 2 0 0 1 1 [0, 0, 0, 255], Sample.cel 3 0 0 1 1 [1, 8, 7, 130]]
    let b' := Sample.header 1 1 32 ++ Sample.frame 1 [Sample.layer 1 0 1 255 [65], Sample.layer 1 0 0 100 [66],
      Sample.cel 0 0 0 1 1 [10, 80, 5, 200], Sample.cel 1 0 0 1 1 [1, 8, 7, 130]]
    (match AsepriteFile.load ⟨true, 10⟩ b, AsepriteFile.load ⟨true, 10⟩ b' with
      | .ok f, .ok g =>
        (match f.frames[0]?, g.frames[0]? with
          | some lf, some lg =>
            decide ((strokes (fun _ _ => (.streamEnd, [])) f .all 0 0 lf.cels).length = 4 ∧
            (strokes (fun _ _ => (.streamEnd, [])) f .all 0 0 lf.cels).filter (fun s => !s.isNeutral) =
              strokes (fun _ _ => (.streamEnd, [])) g .all 0 0 lg.cels)
          | _, _ => false)
      | _, _ => false) = true ∧
    Sample.render ⟨true, 10⟩ b 0 .all [7, 90, 3, 255] = some (.ok (), [2, 36, 2, 255]) ∧
    Sample.render ⟨true, 10⟩ b' 0 .all [7, 90, 3, 255] = some (.ok (), [2, 36, 2, 255]) := by
  decide +kernel

/-! ## C83 -/

theorem toNat_negative (x : UInt8) : (255 - x).toNat = 255 - x.toNat := by
  have : x ≤ 255 := UInt8.le_iff_toNat_le.2 (byte_le x)
  rw [UInt8.toNat_sub_of_le _ _ this]
  rfl

theorem toI_negative (x : UInt8) : toI (255 - x) = 255 - toI x := by
  have := byte_le x
  rw [toI, toI, toNat_negative]
  omega

theorem channel_negative {ch : Color → UInt8} (hch : IsChannel ch) (c : Color) : ch (negative c) = 255 - ch c := by
  rcases hch with rfl | rfl | rfl <;> rfl

/-- **C83 (one stroke).** Painting a colour on an opaque pixel, and painting its negative on the negative in the dual mode,
give negatives of each other, with any alpha and opacity. -/
theorem C83_stroke (plat : Plat) (s s' : Stroke) (hs : Negative s s') (c d d' : Color) (ha : c.a = 255)
    (h : blend plat s.mode c s.color s.opacity = .ok d)
    (h' : blend plat s'.mode (negative c) s'.color s'.opacity = .ok d') : d' = negative d := by
  obtain ⟨ho, hs⟩ := hs
  have hd := opaque_stays h ha
  have hd' : d'.a = 255 := opaque_stays h' ha
  refine color_ext_channels (fun ch hch => toI_inj ?_) (hd'.trans hd.symm)
  rw [channel_negative hch, toI_negative]
  rcases hs with ⟨hm, hc⟩ | ⟨hm, hc⟩
  · obtain ⟨f, f', k1, k2, k3⟩ := channelFn_dual _ _ hm
    rw [(blend_opaque plat _ f k1 _ _ _ _ ha h).2 ch hch, (blend_opaque plat _ f' k2 (negative c) _ _ _ ha h').2 ch hch, hc,
      channel_negative hch, channel_negative hch, toI_negative, toNat_negative, toNat_negative,
      k3 _ _ (byte_le _) (byte_le _), ← ho]
    have := channelFn_le _ f k1 _ _ (byte_le (ch c)) (byte_le (ch s.color))
    rw [Int.natCast_sub this]
    exact toward_negative _ _ _
  · obtain ⟨f, f', k1, k2, k3⟩ := channelFn_reverse _ _ hm
    rw [(blend_opaque plat _ f k1 _ _ _ _ ha h).2 ch hch, (blend_opaque plat _ f' k2 (negative c) _ _ _ ha h').2 ch hch, hc,
      channel_negative hch, toI_negative, toNat_negative, k3 _ _ (byte_le _) (byte_le _), ← ho]
    have := channelFn_le _ f k1 _ _ (byte_le (ch c)) (byte_le (ch s.color))
    rw [Int.natCast_sub this]
    exact toward_negative _ _ _

/-- **C83.** If what is painted on an opaque pixel is, stroke by stroke, the negative of what is painted on another one, in
the dual modes, and the pixels were negatives of each other before, they are afterwards.  Multiply and screen, darken and
lighten, dodge and burn are dual to each other; normal, overlay and hard light are dual to themselves; adding is dual to
subtracting the same colour, dividing to burning with it. -/
theorem C83_negative (plat : Plat) (b b' : Bytes) (f g : AsepriteFile) (hf : AsepriteFile.load plat b = .ok f)
    (hg : AsepriteFile.load plat b' = .ok g) (inflate : Inflater) (i j : Nat) (lf lg : LFrame)
    (hi : f.frames[i]? = some lf) (hj : g.frames[j]? = some lg) (sel sel' : LayerSelection) (t t' u u' : Bytes)
    (ht : f.renderFrame plat inflate i sel t = (.ok (), t')) (hu : g.renderFrame plat inflate j sel' u = (.ok (), u'))
    (x y x' y' : Nat) (hx : x < f.size.1.toNat) (hy : y < f.size.2.toNat) (hx' : x' < g.size.1.toNat)
    (hy' : y' < g.size.2.toNat) (before : Color) (hb : canvasPixel f t x y = some before) (ha : before.a = 255)
    (hb' : canvasPixel g u x' y' = some (negative before))
    (hs : List.Forall₂ Negative (strokes inflate f sel x y lf.cels) (strokes inflate g sel' x' y' lg.cels)) :
    canvasPixel g u' x' y' = (canvasPixel f t' x y).map negative := by
  obtain ⟨c, d, h1, h2, h3⟩ := C37_pixels plat b f hf inflate i lf hi sel t t' ht x y hx hy
  obtain ⟨c', d', h1', h2', h3'⟩ := C37_pixels plat b' g hg inflate j lg hj sel' u u' hu x' y' hx' hy'
  rw [hb] at h1
  cases h1
  rw [hb'] at h1'
  cases h1'
  rw [compose_strokes] at h3 h3'
  rw [h2, h2']
  have := fold_related plat (fun c c' => c' = negative c ∧ c.a = 255) Negative ?_ hs ⟨rfl, ha⟩ h3 h3'
  · rw [this.1]; rfl
  · rintro s s' c c' d d' hs ⟨rfl, ha⟩ h h'
    exact ⟨C83_stroke plat s s' hs c d d' ha h h', opaque_stays h ha⟩

-- multiply, dodge and subtract, and their counterparts
example :
    let b (m1 m2 m3 : UInt16) (c1 c2 c3 : Bytes) := Sample.header 1 1 32 ++ Sample.frame 1 [Sample.layer 1 0 m1 255 [65],
      Sample.layer 1 0 m2 77 [66], Sample.layer 1 0 m3 200 [67],
      Sample.cel 0 0 0 1 1 c1, Sample.cel 1 0 0 1 1 c2, Sample.cel 2 0 0 1 1 c3]
    let p := b 1 6 17 [10, 80, 5, 200] [255, 100, 3, 130] [4, 0, 200, 255]
    let q := b 2 7 16 [245, 175, 250, 200] [0, 155, 252, 130] [4, 0, 200, 255]
    (match AsepriteFile.load ⟨true, 10⟩ p, AsepriteFile.load ⟨true, 10⟩ q with
      | .ok f, .ok g =>
        (match f.frames[0]?, g.frames[0]? with
          | some lf, some lg =>
            decide (strokes (fun _ _ => (.streamEnd, [])) f .all 0 0 lf.cels =
              [⟨.multiply, 255, ⟨10, 80, 5, 200⟩⟩, ⟨.colorDodge, 77, ⟨255, 100, 3, 130⟩⟩, ⟨.subtract, 200, ⟨4, 0, 200, 255⟩⟩] ∧
            strokes (fun _ _ => (.streamEnd, [])) g .all 0 0 lg.cels =
              [⟨.screen, 255, ⟨245, 175, 250, 200⟩⟩, ⟨.colorBurn, 77, ⟨0, 155, 252, 130⟩⟩,
                ⟨.addition, 200, ⟨4, 0, 200, 255⟩⟩])
          | _, _ => false)
      | _, _ => false) = true ∧
    Sample.render ⟨true, 10⟩ p 0 .all [7, 90, 230, 255] = some (.ok (), [37, 46, 12, 255]) ∧
    Sample.render ⟨true, 10⟩ q 0 .all [248, 165, 25, 255] = some (.ok (), [218, 209, 243, 255]) := by
  decide +kernel

/-! ## C84 -/

/-- **C84 (two colours).** On opaque colours at full opacity seven modes are symmetric, and overlay is hard light with the
colours exchanged. -/
theorem C84_symmetric (plat : Plat) (b c : Color) (hb : b.a = 255) (hc : c.a = 255) :
    (∀ m, symmetric m = true → blend plat m b c 255 = blend plat m c b 255) ∧
      blend plat .overlay b c 255 = blend plat .hardLight c b 255 := by
  have key : ∀ m m' f f', channelFn m = some f → channelFn m' = some f' → (∀ b s, f b s = f' s b) →
      blend plat m b c 255 = blend plat m' c b 255 := by
    intro m m' f f' hf hf' h
    obtain ⟨d, h1, h2, h3, h4, h5⟩ := C49_opaque plat m f hf b c hb hc
    obtain ⟨e, k1, k2, k3, k4, k5⟩ := C49_opaque plat m' f' hf' c b hc hb
    rw [h1, k1]
    congr 1
    refine color_ext_channels (fun ch hch => UInt8.toNat_inj.1 ?_) (h2.trans k2.symm)
    rcases hch with rfl | rfl | rfl
    · rw [h3, k3, h]
    · rw [h4, k4, h]
    · rw [h5, k5, h]
  refine ⟨fun m hm => ?_, key _ _ _ _ rfl rfl fun _ _ => rfl⟩
  obtain ⟨f, hf, h⟩ := channelFn_symmetric m hm
  exact key m m f f hf hf h

/-- **C84.** If everything painted on an opaque pixel is opaque, at full opacity, and in one and the same of the modes
darken, lighten, addition and subtract, then the order does not matter. -/
theorem C84_order (plat : Plat) (b b' : Bytes) (f g : AsepriteFile) (hf : AsepriteFile.load plat b = .ok f)
    (hg : AsepriteFile.load plat b' = .ok g) (inflate : Inflater) (i j : Nat) (lf lg : LFrame)
    (hi : f.frames[i]? = some lf) (hj : g.frames[j]? = some lg) (sel sel' : LayerSelection) (t t' u u' : Bytes)
    (ht : f.renderFrame plat inflate i sel t = (.ok (), t')) (hu : g.renderFrame plat inflate j sel' u = (.ok (), u'))
    (x y x' y' : Nat) (hx : x < f.size.1.toNat) (hy : y < f.size.2.toNat) (hx' : x' < g.size.1.toNat)
    (hy' : y' < g.size.2.toNat) (before : Color) (hb : canvasPixel f t x y = some before)
    (hb' : canvasPixel g u x' y' = some before) (ha : before.a = 255) (m : BlendMode) (hm : unordered m = true)
    (hs : ∀ s ∈ strokes inflate f sel x y lf.cels, s.mode = m ∧ s.color.a = 255 ∧ s.opacity = 255)
    (hp : (strokes inflate f sel x y lf.cels).Perm (strokes inflate g sel' x' y' lg.cels)) :
    canvasPixel f t' x y = canvasPixel g u' x' y' := by
  obtain ⟨c, d, h1, h2, h3⟩ := C37_pixels plat b f hf inflate i lf hi sel t t' ht x y hx hy
  obtain ⟨c', d', h1', h2', h3'⟩ := C37_pixels plat b' g hg inflate j lg hj sel' u u' hu x' y' hx' hy'
  rw [hb] at h1
  cases h1
  rw [hb'] at h1'
  cases h1'
  rw [compose_strokes] at h3 h3'
  rw [h2, h2']
  obtain ⟨fn, hfn, hcomm⟩ := channelFn_unordered m hm
  have hle := channelFn_le m fn hfn
  have hs' : ∀ s ∈ strokes inflate g sel' x' y' lg.cels, s.mode = m ∧ s.color.a = 255 ∧ s.opacity = 255 :=
    fun s h => hs s (hp.mem_iff.2 h)
  let paint : Color → Stroke → Color := fun c s =>
    ⟨chU fn c.r s.color.r, chU fn c.g s.color.g, chU fn c.b s.color.b, 255⟩
  have key : ∀ (ss : List Stroke) (c : Color), (∀ s ∈ ss, s.mode = m ∧ s.color.a = 255 ∧ s.opacity = 255) → c.a = 255 →
      ss.foldl (fun (r : Run Color) s => r.bind fun c => blend plat s.mode c s.color s.opacity) (.ok c) =
        .ok (ss.foldl paint c) := by
    intro ss
    induction ss with
    | nil => intro c _ _; rfl
    | cons s ss ih =>
      intro c hs hc
      obtain ⟨k1, k2, k3⟩ := hs s List.mem_cons_self
      obtain ⟨d, l1, l2, l3, l4, l5⟩ := C49_opaque plat m fn hfn c s.color hc k2
      rw [List.foldl_cons, List.foldl_cons]
      have e : (Outcome.bind (.ok c) fun c => blend plat s.mode c s.color s.opacity) = .ok (paint c s) := by
        change blend plat s.mode c s.color s.opacity = _
        rw [k1, k3, l1]
        congr 1
        refine color_ext_channels (fun ch hch => UInt8.toNat_inj.1 ?_) l2
        rcases hch with rfl | rfl | rfl
        · rw [l3, chU_toNat fn _ _ (hle _ _ (byte_le _) (byte_le _))]
        · rw [l4, chU_toNat fn _ _ (hle _ _ (byte_le _) (byte_le _))]
        · rw [l5, chU_toNat fn _ _ (hle _ _ (byte_le _) (byte_le _))]
      rw [e]
      exact ih _ (fun s h => hs s (List.mem_cons_of_mem _ h)) rfl
  rw [key _ _ hs ha] at h3
  rw [key _ _ hs' ha] at h3'
  have hcU : ∀ b s s' : UInt8, chU fn (chU fn b s) s' = chU fn (chU fn b s') s := by
    intro b s s'
    apply UInt8.toNat_inj.1
    have k : ∀ s, fn b.toNat (UInt8.toNat s) ≤ 255 := fun s => hle _ _ (byte_le _) (byte_le _)
    rw [chU_toNat fn (chU fn b s) s' (hle _ _ (byte_le _) (byte_le _)),
      chU_toNat fn (chU fn b s') s (hle _ _ (byte_le _) (byte_le _)), chU_toNat fn b s (k _), chU_toNat fn b s' (k _),
      hcomm _ _ _ (byte_le _)]
  have : (strokes inflate f sel x y lf.cels).foldl paint before = (strokes inflate g sel' x' y' lg.cels).foldl paint before := by
    refine hp.foldl_eq' (fun s _ s' _ c => ?_) before
    simp only [paint, hcU]
  rw [this] at h3
  cases h3
  cases h3'
  rfl

-- two layers of each sprite subtract, in opposite order
example :
    let b (c d : Bytes) := Sample.header 1 1 32 ++ Sample.frame 1 [Sample.layer 1 0 17 255 [65], Sample.layer 1 0 17 255 [66],
      Sample.cel 0 0 0 1 1 c, Sample.cel 1 0 0 1 1 d]
    let p := b [10, 80, 5, 255] [100, 60, 3, 255]
    let q := b [100, 60, 3, 255] [10, 80, 5, 255]
    (match AsepriteFile.load ⟨true, 10⟩ p, AsepriteFile.load ⟨true, 10⟩ q with
      | .ok f, .ok g =>
        (match f.frames[0]?, g.frames[0]? with
          | some lf, some lg =>
            decide (strokes (fun _ _ => (.streamEnd, [])) f .all 0 0 lf.cels =
              [⟨.subtract, 255, ⟨10, 80, 5, 255⟩⟩, ⟨.subtract, 255, ⟨100, 60, 3, 255⟩⟩] ∧
            strokes (fun _ _ => (.streamEnd, [])) g .all 0 0 lg.cels =
              [⟨.subtract, 255, ⟨100, 60, 3, 255⟩⟩, ⟨.subtract, 255, ⟨10, 80, 5, 255⟩⟩])
          | _, _ => false)
      | _, _ => false) = true ∧
    Sample.render ⟨true, 10⟩ p 0 .all [207, 90, 230, 255] = some (.ok (), [97, 0, 222, 255]) ∧
    Sample.render ⟨true, 10⟩ q 0 .all [207, 90, 230, 255] = some (.ok (), [97, 0, 222, 255]) := by
  decide +kernel

/-- Multiplying is symmetric, but the order of two layers matters, by rounding. -/
theorem C84_multiply (plat : Plat) :
    (do
      let c ← blend plat .multiply ⟨90, 90, 90, 255⟩ ⟨10, 10, 10, 255⟩ 255
      blend plat .multiply c ⟨99, 99, 99, 255⟩ 255) = .ok ⟨2, 2, 2, 255⟩ ∧
    (do
      let c ← blend plat .multiply ⟨90, 90, 90, 255⟩ ⟨99, 99, 99, 255⟩ 255
      blend plat .multiply c ⟨10, 10, 10, 255⟩ 255) = .ok ⟨1, 1, 1, 255⟩ := by
  have h := blend_mode plat .multiply _ rfl
  refine ⟨?_, ?_⟩
  · rw [h, run_bind_ok, h]
    exact congrArg Outcome.ok (by decide +kernel)
  · rw [h, run_bind_ok, h]
    exact congrArg Outcome.ok (by decide +kernel)

/-! ## C85 -/

/-- What holds of a pixel and is kept by each stroke holds after all strokes. -/
theorem fold_keeps (plat : Plat) (R : Color → Prop) (ss : List Stroke)
    (step : ∀ s ∈ ss, ∀ c d, R c → blend plat s.mode c s.color s.opacity = .ok d → R d) (c d : Color) (hc : R c)
    (h : ss.foldl (fun (r : Run Color) s => r.bind fun c => blend plat s.mode c s.color s.opacity) (.ok c) = .ok d) :
    R d := by
  have hs : List.Forall₂ (fun s s' => s = s' ∧ s ∈ ss) ss ss := by
    have : ∀ l : List Stroke, (∀ s ∈ l, s ∈ ss) → List.Forall₂ (fun s s' => s = s' ∧ s ∈ ss) l l := by
      intro l
      induction l with
      | nil => exact fun _ => .nil
      | cons s l ih =>
        exact fun h => .cons ⟨rfl, h s List.mem_cons_self⟩ (ih fun s hs => h s (List.mem_cons_of_mem _ hs))
    exact this ss fun s h => h
  refine (fold_related plat (fun c c' => c = c' ∧ R c) _ ?_ hs ⟨rfl, hc⟩ h h).2
  rintro s s' c c' d d' ⟨rfl, hs⟩ ⟨rfl, hc⟩ h h'
  rw [h] at h'
  cases h'
  exact ⟨rfl, step s hs c d hc h⟩

/-- **C85.** On an opaque pixel strokes in the modes multiply, darken, color burn and subtract never make a channel
brighter, and strokes in the modes screen, lighten, color dodge, addition and divide never make it darker, whatever their
colours, alphas and opacities. -/
theorem C85_darken (plat : Plat) (b : Bytes) (f : AsepriteFile) (h : AsepriteFile.load plat b = .ok f)
    (inflate : Inflater) (i : Nat) (lf : LFrame) (hi : f.frames[i]? = some lf) (sel : LayerSelection) (t t' : Bytes)
    (hok : f.renderFrame plat inflate i sel t = (.ok (), t')) (x y : Nat) (hx : x < f.size.1.toNat)
    (hy : y < f.size.2.toNat) (before : Color) (hb : canvasPixel f t x y = some before) (ha : before.a = 255)
    (ss : List Stroke) (hs : ss = strokes inflate f sel x y lf.cels) :
    ∃ after, canvasPixel f t' x y = some after ∧ ∀ ch, IsChannel ch →
      ((∀ s ∈ ss, darkening s.mode = true) → ch after ≤ ch before) ∧
      ((∀ s ∈ ss, lightening s.mode = true) → ch before ≤ ch after) := by
  obtain ⟨c, d, h1, h2, h3⟩ := C37_pixels plat b f h inflate i lf hi sel t t' hok x y hx hy
  rw [hb] at h1
  cases h1
  rw [compose_strokes, ← hs] at h3
  refine ⟨d, h2, fun ch hch => ⟨fun hm => ?_, fun hm => ?_⟩⟩
  · refine (fold_keeps plat (fun c => ch c ≤ ch before ∧ c.a = 255) ss ?_ before d ⟨UInt8.le_refl _, ha⟩ h3).1
    rintro s hs c d ⟨hc, hca⟩ hd
    obtain ⟨fn, k1, k2⟩ := channelFn_darkening _ (hm s hs)
    refine ⟨UInt8.le_trans ?_ hc, opaque_stays hd hca⟩
    rw [← toI_le_iff, (blend_opaque plat _ fn k1 _ _ _ _ hca hd).2 ch hch]
    refine (toward_between _ _ _ (Int.natCast_nonneg _) ?_).2 (Int.ofNat_le.2 (k2 _ _ (byte_le _) (byte_le _)))
    exact Int.ofNat_le.2 (Nat.le_trans (times_le_left _ _ (byte_le _)) (byte_le _))
  · refine (fold_keeps plat (fun c => ch before ≤ ch c ∧ c.a = 255) ss ?_ before d ⟨UInt8.le_refl _, ha⟩ h3).1
    rintro s hs c d ⟨hc, hca⟩ hd
    obtain ⟨fn, k1, k2⟩ := channelFn_lightening _ (hm s hs)
    refine ⟨UInt8.le_trans hc ?_, opaque_stays hd hca⟩
    rw [← toI_le_iff, (blend_opaque plat _ fn k1 _ _ _ _ hca hd).2 ch hch]
    refine (toward_between _ _ _ (Int.natCast_nonneg _) ?_).1 (Int.ofNat_le.2 (k2 _ _ (byte_le _) (byte_le _)))
    exact Int.ofNat_le.2 (Nat.le_trans (times_le_left _ _ (byte_le _)) (byte_le _))

-- a multiplying and a burning layer
example :
    let b := Sample.header 1 1 32 ++ Sample.frame 1 [Sample.layer 1 0 1 255 [65], Sample.layer 1 0 7 77 [66],
      Sample.cel 0 0 0 1 1 [10, 80, 5, 200], Sample.cel 1 0 0 1 1 [255, 100, 3, 130]]
    (match AsepriteFile.load ⟨true, 10⟩ b with
      | .ok f =>
        (match f.frames[0]? with
          | some lf => decide ((strokes (fun _ _ => (.streamEnd, [])) f .all 0 0 lf.cels).map (fun s => s.mode) =
              [.multiply, .colorBurn])
          | _ => false)
      | _ => false) = true ∧
    Sample.render ⟨true, 10⟩ b 0 .all [207, 90, 230, 255] = some (.ok (), [51, 36, 46, 255]) := by
  decide +kernel

/-- On a pixel that is not opaque, they may: here multiplying makes it brighter. -/
theorem C85_translucent (plat : Plat) :
    blend plat .multiply ⟨10, 10, 10, 100⟩ ⟨200, 200, 200, 200⟩ 255 = .ok ⟨82, 82, 82, 222⟩ := by
  rw [blend_mode plat .multiply _ rfl]
  exact congrArg _ (by decide +kernel)

/-- **C85 (no new extremes).** If everything is painted in the modes normal, darken and lighten, on a canvas of any alpha,
then no channel gets brighter than the brightest, or darker than the darkest, of what was there and what is painted. -/
theorem C85_between (plat : Plat) (b : Bytes) (f : AsepriteFile) (h : AsepriteFile.load plat b = .ok f)
    (inflate : Inflater) (i : Nat) (lf : LFrame) (hfr : f.frames[i]? = some lf) (sel : LayerSelection) (t t' : Bytes)
    (hok : f.renderFrame plat inflate i sel t = (.ok (), t')) (x y : Nat) (hx : x < f.size.1.toNat)
    (hy : y < f.size.2.toNat) (before : Color) (hb : canvasPixel f t x y = some before)
    (ss : List Stroke) (hs : ss = strokes inflate f sel x y lf.cels)
    (hm : ∀ s ∈ ss, s.mode = .normal ∨ s.mode = .darken ∨ s.mode = .lighten) (ch : Color → UInt8) (hch : IsChannel ch)
    (lo hi : UInt8) (h0 : lo ≤ ch before ∧ ch before ≤ hi) (h1 : ∀ s ∈ ss, lo ≤ ch s.color ∧ ch s.color ≤ hi) :
    ∃ after, canvasPixel f t' x y = some after ∧ lo ≤ ch after ∧ ch after ≤ hi := by
  obtain ⟨c, d, k1, h2, h3⟩ := C37_pixels plat b f h inflate i lf hfr sel t t' hok x y hx hy
  rw [hb] at k1
  cases k1
  rw [compose_strokes, ← hs] at h3
  refine ⟨d, h2, ?_⟩
  refine fold_keeps plat (fun c => lo ≤ ch c ∧ ch c ≤ hi) ss ?_ before d h0 h3
  rintro s hs c d hc hd
  have hh : isHsl s.mode = false := by rcases hm s hs with h | h | h <;> rw [h] <;> rfl
  have hstep := blend_step plat _ hh _ _ _ _ hd ch hch
  have hg : lo ≤ modeG s.mode ch (ch c) (ch s.color) ∧ modeG s.mode ch (ch c) (ch s.color) ≤ hi := by
    have k := h1 s hs
    obtain ⟨fn, k1, k2⟩ : ∃ fn, channelFn s.mode = some fn ∧ ∀ b s, min b s ≤ fn b s ∧ fn b s ≤ max b s := by
      rcases hm s hs with h | h | h <;> rw [h] <;> refine ⟨_, rfl, fun b s => ?_⟩
      · exact ⟨Nat.min_le_right _ _, Nat.le_max_right _ _⟩
      · exact ⟨Nat.le_refl _, Nat.le_trans (Nat.min_le_left _ _) (Nat.le_max_left _ _)⟩
      · exact ⟨Nat.le_trans (Nat.min_le_left _ _) (Nat.le_max_left _ _), Nat.le_refl _⟩
    rw [modeG, k1, UInt8.le_iff_toNat_le, UInt8.le_iff_toNat_le,
      chU_toNat fn _ _ (channelFn_le _ fn k1 _ _ (byte_le _) (byte_le _))]
    have k3 := k2 (ch c).toNat (ch s.color).toNat
    simp only [UInt8.le_iff_toNat_le] at k hc
    omega
  rw [← toI_le_iff, ← toI_le_iff, hstep]
  exact stepC_between _ _ _ _ _ _ lo hi hc (h1 s hs) hg

example :
    let b := Sample.header 1 1 32 ++ Sample.frame 1 [Sample.layer 1 0 0 200 [65], Sample.layer 1 0 4 77 [66],
      Sample.cel 0 0 0 1 1 [10, 80, 5, 200], Sample.cel 1 0 0 1 1 [55, 20, 70, 130]]
    (match AsepriteFile.load ⟨true, 10⟩ b with
      | .ok f =>
        (match f.frames[0]? with
          | some lf => decide (strokes (fun _ _ => (.streamEnd, [])) f .all 0 0 lf.cels =
              [⟨.normal, 200, ⟨10, 80, 5, 200⟩⟩, ⟨.darken, 77, ⟨55, 20, 70, 130⟩⟩])
          | _ => false)
      | _ => false) = true ∧
    Sample.render ⟨true, 10⟩ b 0 .all [70, 9, 23, 40] = some (.ok (), [19, 62, 11, 185]) := by
  decide +kernel

end Ase
