import Verif.Spec.Grey
import Verif.Lemmas.Profile
import Verif.Props.Hsl
import Verif.Props.Algebra

/-!
# C88: grey stays grey
-/

namespace Ase

open Spec

/-- A channel other than red is red. -/
theorem Spec.IsGrey.channel {c : Color} (h : IsGrey c) {ch : Color → UInt8} (hch : IsChannel ch) : ch c = c.r := by
  rcases hch with rfl | rfl | rfl
  · rfl
  · exact h.1.symm
  · exact (h.1.trans h.2).symm

theorem isGrey_of {c : Color} (h : ∀ ch, IsChannel ch → toI (ch c) = toI c.r) : IsGrey c :=
  ⟨(toI_inj (h Color.g (.inr (.inl rfl)))).symm,
    (toI_inj (h Color.g (.inr (.inl rfl)))).trans (toI_inj (h Color.b (.inr (.inr rfl)))).symm⟩

theorem blend_grey_separable {plat : Plat} {m : BlendMode} (hm : isHsl m = false) (hs : m ≠ .softLight)
    {back front c : Color} {o : UInt8} (hb : IsGrey back) (hf : IsGrey front)
    (h : blend plat m back front o = .ok c) : IsGrey c := by
  obtain ⟨f, hfn⟩ : ∃ f, channelFn m = some f := by
    cases m <;> first | exact ⟨_, rfl⟩ | exact absurd rfl hs | (cases hm; done) | cases h
  refine isGrey_of fun ch hch => ?_
  rw [blend_step plat m hm back front c o h ch hch, blend_step plat m hm back front c o h Color.r (.inl rfl),
    hb.channel hch, hf.channel hch, modeG, modeG, hfn]

theorem blend_release {plat : Plat} {m : BlendMode} {back front c : Color} {o : UInt8}
    (h : blend plat m back front o = .ok c) : blend ⟨false, plat.stack⟩ m back front o = .ok c := by
  rcases blendFn_sim (K := fun _ => True) (plat := plat) (plat' := ⟨false, plat.stack⟩) (by intro h; cases h)
    (by intros; trivial) (by intros; trivial) m with ⟨k, h1, _⟩ | ⟨f, g, h1, h2, h3⟩
  · rw [blend, h1] at h
    cases h
  · rw [blend, h1, run_bind_ok] at h
    rw [blend, h2, run_bind_ok]
    rcases h3 back front o with e | ⟨k, _, e⟩
    · rw [← e, h]
    · rw [e] at h
      cases h

open Hsl in
theorem sat_grey {c : Color} (h : IsGrey c) : sat (channels c) = 0 := by
  have h1 : ∀ i, channels c i = c.r.toNat := by
    intro i
    unfold channels
    rw [← h.2, ← h.1]
    split
    · rfl
    · split <;> rfl
  simp [sat, most, least, h1]

theorem blend_grey {plat : Plat} {m : BlendMode} (hm : coloring m = false) {back front c : Color} {o : UInt8}
    (hb : IsGrey back) (hf : IsGrey front) (h : blend plat m back front o = .ok c) : IsGrey c := by
  by_cases hh : isHsl m
  · by_cases ha : back.a = 0
    · obtain ⟨c', h', h1, h2, h3, _⟩ := C48_transparent_backdrop plat m (by cases m <;> first | rfl | cases hh)
        back front o ha
      rw [h] at h'
      cases h'
      exact ⟨by rw [h1, h2]; exact hf.1, by rw [h2, h3]; exact hf.2⟩
    · obtain ⟨col, _, hcol, _, hcomp⟩ := C76_hsl_colour_partial m hh back front
      have hz : Hsl.sat (Hsl.source m back front) = 0 := by
        cases m <;> first | (cases hm; done) | (cases hh; done) | exact sat_grey hf | exact sat_grey hb
      obtain ⟨hc1, hc2, _⟩ := hcol hz
      have hcg : IsGrey col := ⟨hc1.symm, hc1.trans hc2.symm⟩
      obtain ⟨n, p, c', hn, hp, hc', hmix⟩ := hcomp ⟨false, plat.stack⟩ o rfl ha
      rw [blend_release h] at hc'
      cases hc'
      have gn := blend_grey_separable rfl (by intro h; cases h) hb hf hn
      have gp := blend_grey_separable rfl (by intro h; cases h) hb hcg hp
      refine isGrey_of fun ch hch => ?_
      rw [hmix ch (by rcases hch with h | h | h <;> simp [h]), hmix Color.r (.inl rfl), gn.channel hch, gp.channel hch]
  · exact blend_grey_separable (by simpa using hh) (by rintro rfl; cases hm) hb hf h

/-- **C88 (one pixel).** If a pixel is grey, and only greys are painted on it, in modes other than soft light, hue and
saturation, then it stays grey.  Missing: these three modes, see `C88_not_grey`. -/
theorem C88_grey_partial (plat : Plat) (b : Bytes) (f : AsepriteFile) (hf : AsepriteFile.load plat b = .ok f)
    (inflate : Inflater) (i : Nat) (lf : LFrame) (hi : f.frames[i]? = some lf) (sel : LayerSelection) (t t' : Bytes)
    (ht : f.renderFrame plat inflate i sel t = (.ok (), t')) (x y : Nat) (hx : x < f.size.1.toNat)
    (hy : y < f.size.2.toNat) (before : Color) (hb : canvasPixel f t x y = some before) (hg : IsGrey before)
    (hs : ∀ s ∈ strokes inflate f sel x y lf.cels, IsGrey s.color ∧ coloring s.mode = false) :
    ∃ after, canvasPixel f t' x y = some after ∧ IsGrey after := by
  obtain ⟨c, d, h1, h2, h3⟩ := C37_pixels plat b f hf inflate i lf hi sel t t' ht x y hx hy
  rw [hb] at h1
  cases h1
  rw [compose_strokes] at h3
  exact ⟨d, h2, fold_keeps plat IsGrey _ (fun s hs' c d hc h => blend_grey (hs s hs').2 hc (hs s hs').1 h) _ _ hg h3⟩

/-- **C88.** Rendering a grayscale sprite on a grey canvas gives a grey picture, unless soft light, hue or saturation
layers are drawn.  Missing: these three modes, see `C88_not_grey`. -/
theorem C88_grayscale_partial (plat : Plat) (b : Bytes) (f : AsepriteFile) (hf : AsepriteFile.load plat b = .ok f)
    (hd : f.file.header.colorDepth = .grayscale) (inflate : Inflater) (i : Nat) (lf : LFrame)
    (hi : f.frames[i]? = some lf) (sel : LayerSelection)
    (hm : ∀ c ∈ lf.cels, ∀ layer, drawnOn f sel c = some layer → coloring layer.blendMode = false) (t t' : Bytes)
    (ht : f.renderFrame plat inflate i sel t = (.ok (), t'))
    (hg : ∀ x y c, x < f.size.1.toNat → y < f.size.2.toNat → canvasPixel f t x y = some c → IsGrey c) :
    ∀ x y, x < f.size.1.toNat → y < f.size.2.toNat → ∃ c, canvasPixel f t' x y = some c ∧ IsGrey c := by
  intro x y hx hy
  obtain ⟨c, d, h1, _⟩ := C37_pixels plat b f hf inflate i lf hi sel t t' ht x y hx hy
  refine C88_grey_partial plat b f hf inflate i lf hi sel t t' ht x y hx hy c h1 (hg x y c hx hy h1) fun s hs => ?_
  obtain ⟨cel, hcel, hs⟩ := List.mem_filterMap.1 hs
  simp only [strokeOf, Option.bind_eq_some_iff, Option.map_eq_some_iff] at hs
  obtain ⟨layer, hl, p, _, color, hc, rfl⟩ := hs
  refine ⟨?_, hm cel hcel layer hl⟩
  simp only [imageColor, Option.bind_eq_some_iff] at hc
  obtain ⟨im, _, hc⟩ := hc
  rw [hd, storedPixel] at hc
  split at hc
  · cases hc
    exact ⟨rfl, rfl⟩
  · cases hc

/-- A grayscale sprite: an opaque grey pixel, and another one in the given mode. -/
def Sample.greys (mode : UInt16) (back front alpha : UInt8) : Bytes := Sample.header 1 1 16 ++ Sample.frame 1
  [Sample.layer 1 0 0 255 [65], Sample.layer 1 0 mode 255 [66], Sample.cel 0 0 0 1 1 [back, 255],
    Sample.cel 1 0 0 1 1 [front, alpha]]

/-- Grayscale sprites with a layer in one of the three other modes that are rendered in colour: in soft light an opaque
light grey on an opaque grey becomes yellowish; in hue or saturation a half transparent black on an opaque dark grey
becomes red. -/
theorem C88_not_grey :
    Sample.render ⟨false, 10⟩ (Sample.greys 9 100 200 255) 0 .all [0, 0, 0, 0] = some (.ok (), [134, 134, 87, 255]) ∧
    Sample.render ⟨true, 10⟩ (Sample.greys 9 100 200 255) 0 .all [0, 0, 0, 0] = some (.ok (), [134, 134, 87, 255]) ∧
    Sample.render ⟨false, 10⟩ (Sample.greys 12 7 1 128) 0 .all [0, 0, 0, 0] = some (.ok (), [131, 71, 71, 255]) ∧
    Sample.render ⟨false, 10⟩ (Sample.greys 13 7 1 128) 0 .all [0, 0, 0, 0] = some (.ok (), [131, 71, 71, 255]) := by
  decide +kernel

/-- The hypotheses hold of a grayscale sprite with layers in the modes normal and luminosity. -/
example :
    (match AsepriteFile.load ⟨false, 10⟩ (Sample.greys 15 7 50 128) with
      | .ok f => decide (f.file.header.colorDepth = .grayscale) && decide (f.layers.map (·.blendMode) = [.normal, .luminosity])
        && (match f.frames with
          | [lf] => decide ((strokes Sample.inflate f .all 0 0 lf.cels).map (fun s => (s.mode, s.color)) =
              [(.normal, ⟨7, 7, 7, 255⟩), (.luminosity, ⟨50, 50, 50, 128⟩)])
          | _ => false)
      | _ => false) = true ∧
    Sample.render ⟨false, 10⟩ (Sample.greys 15 7 50 128) 0 .all [0, 0, 0, 0] = some (.ok (), [4, 4, 4, 255]) := by
  decide +kernel

end Ase
