import Verif.Spec.Camera
import Verif.Spec.Once
import Verif.Props.LayerFiles
import Verif.Props.Script
import Verif.Props.Window

/-!
# C146: animations made of parts of the canvas
-/

namespace Ase

open Spec

theorem pageItems_sorted {plat : Plat} {b : Bytes} {q : AsepriteFile × Nat} (h : AsepriteFile.load plat b = .ok q.1) :
    ((pageItems 0 q).map (·.1)).Pairwise (· < ·) ∧ ∀ it ∈ pageItems 0 q, it.1 < 2 ^ 16 := by
  have h1 := allItems_sorted (plat := plat) [q] 0 (by intro r hr; cases List.mem_singleton.1 hr; exact ⟨b, h⟩)
  rw [allItems, allItems, List.append_nil] at h1
  refine ⟨h1.1, fun it hit => ?_⟩
  obtain ⟨c, hc, he⟩ := List.mem_filterMap.1 hit
  split at he
  · cases he
    simp only [pageCels] at hc
    cases hf : q.1.frames[q.2]? with
    | none => simp [hf] at hc
    | some fr =>
      rw [hf] at hc
      simpa using (C129_possible plat b q.1 h).layerIndex fr (List.mem_of_getElem? hf) c hc
  · cases he

/-- **C146 (album).** Any frames of sprites that have the same layers, size, colour depth and palette can be the frames of one
file with these layers, with any durations, if that is not too large.  They are rendered as before, with every selection, onto
every buffer and in every build. -/
theorem C146_album (plat : Plat) (layers : List LLayer) (pages : List (UInt16 × (AsepriteFile × Nat))) (hne : pages ≠ [])
    (hload : ∀ q ∈ pages, (∃ b, AsepriteFile.load plat b = .ok q.2.1) ∧ q.2.2 < q.2.1.frames.length ∧ q.2.1.layers = layers)
    (hmedium : ∀ q ∈ pages, ∀ r ∈ pages, SameMedium q.2.1 r.2.1)
    (hbytes : ∀ q ∈ pages, 2 ^ 23 + pageBytes q.2 < 2 ^ 32) :
    ∃ c s, AsepriteFile.load plat c = .ok s ∧ s.layers = layers ∧ s.frames.map (·.duration) = pages.map (·.1) ∧
      (∀ q ∈ pages, SameMedium s q.2.1) ∧
      ∀ (p : Plat) (inflate : Inflater) (k : Nat) q, pages[k]? = some q → ∀ (sel : LayerSelection) (t : Bytes),
        s.renderFrame p inflate k sel t = q.2.1.renderFrame p inflate q.2.2 sel t := by
  obtain ⟨q0, h0⟩ := List.exists_mem_of_ne_nil _ hne
  obtain ⟨⟨b0, hb0⟩, -, hl0⟩ := hload q0 h0
  obtain ⟨c, s, hc, he⟩ := C129_every plat (filmSprite q0.2.1 layers (pages.map fun q => (q.1, pageItems 0 q.2)))
    (filmSprite_possible hb0 (by simpa using hne)
      (fun l hl => (C129_possible plat b0 _ hb0).layers l (show l ∈ q0.2.1.layers from hl0.symm ▸ hl))
      (fun x hx => by
        obtain ⟨q, hq, rfl⟩ := List.mem_map.1 hx
        obtain ⟨⟨b, hb⟩, -⟩ := hload q hq
        exact (pageItems_sorted hb).1)
      (fun x hx => by
        obtain ⟨q, hq, rfl⟩ := List.mem_map.1 hx
        obtain ⟨⟨b, hb⟩, -⟩ := hload q hq
        exact (pageItems_sorted hb).2))
    (filmSprite_small (fun x hx => by
      obtain ⟨q, hq, rfl⟩ := List.mem_map.1 hx
      have h1 := allItems_bytes [q.2] 0
      have h2 := hbytes q hq
      rw [pageLayers, List.flatMap_cons, List.flatMap_nil, List.append_nil, (hload q hq).2.2, allItems, allItems,
        List.append_nil, List.map_cons, List.map_nil, List.sum_cons, List.sum_nil] at h1
      dsimp only
      omega))
  have e4 : s.layers = layers := congrArg Sprite.layers he
  have e5 := congrArg Sprite.frames he
  have e6 := congrArg Sprite.images he
  have hsame : ∀ q ∈ pages, SameMedium s q.2.1 := by
    intro q hq
    obtain ⟨m1, m2, m3⟩ := hmedium q0 h0 q hq
    exact ⟨(congrArg Sprite.size he).trans m1, (congrArg Sprite.depth he).trans m2, (congrArg Sprite.palette he).trans m3⟩
  refine ⟨c, s, hc, e4, ?_, hsame, ?_⟩
  · show (spriteOf s).frames.map (·.duration) = _
    rw [e5]
    refine List.ext_getElem? fun k => ?_
    simp only [filmSprite, List.getElem?_map, List.getElem?_zipIdx]
    cases pages[k]? <;> rfl
  · intro p inflate k q hk sel t
    have hq := List.mem_of_getElem? hk
    obtain ⟨⟨b, hb⟩, hi, hlq⟩ := hload q hq
    obtain ⟨m1, m2, m3⟩ := hsame q hq
    have hk' : (pages.map fun q => (q.1, pageItems 0 q.2))[k]? = some (q.1, pageItems 0 q.2) := by
      rw [List.getElem?_map, hk]; rfl
    have hframe : s.frames[k]? = some ⟨q.1, (0, 0), ((pageItems 0 q.2).zipIdx
        (startOf ((pages.map fun q => (q.1, pageItems 0 q.2)).map (·.2)) k)).map fun y =>
          ⟨y.1.2.1, (y.1.2.2.width, y.1.2.2.height), y.1.1, y.2⟩⟩ := by
      show (spriteOf s).frames[k]? = _
      rw [e5]
      simp only [filmSprite, List.getElem?_map, List.getElem?_zipIdx, hk, Option.map_some, Nat.zero_add]
    have cb : canvasBytes q.2.1 = canvasBytes s := by
      simp only [canvasBytes]
      rw [show q.2.1.file.header.width = s.file.header.width from (congrArg Prod.fst m1).symm,
        show q.2.1.file.header.height = s.file.header.height from (congrArg Prod.snd m1).symm]
    rw [renderFrame_eq, renderFrame_eq, cb, hframe, List.getElem?_eq_getElem hi]
    split
    · rfl
    · dsimp only
      refine forEach_draws m1 m2 m3 p inflate sel sel _ _ _ (Nat.le_refl _) ?_ t
      rw [film_draw hk' e6, pageItems_draw hb 0 s.layers sel sel (fun l x hx => by
        rw [Nat.zero_add, e4, ← hlq]; exact ⟨hx, Iff.rfl⟩)]
      simp only [pageCels, List.getElem?_eq_getElem hi, Option.map_some, Option.getD_some]

/-- **C146.** A sprite can be filmed: for any list of shots, each showing a frame of it for some time as seen from some place of
the canvas, there is a file with the same layers and a canvas of any size that has these shots as frames, if the positions
fit and that is not too large.  Each of its frames shows what the frame of the sprite shows there, with every selection, if the
buffers were the same there before.  If no debug assertions are involved, rendering it succeeds iff rendering the frame of the
sprite does. -/
theorem C146_camera (plat : Plat) (b : Bytes) (f : AsepriteFile) (hf : AsepriteFile.load plat b = .ok f) (w h : UInt16)
    (shots : List Shot) (hne : shots ≠ [])
    (hin : ∀ s ∈ shots, s.frame < f.frames.length ∧ CanBeSeenFrom s.x s.y f) (hs : Small (spriteOf f)) :
    ∃ c g, AsepriteFile.load plat c = .ok g ∧ g.size = (w, h) ∧ g.layers = f.layers ∧
      g.frames.map (·.duration) = shots.map (·.duration) ∧
      ∀ (inflate : Inflater) (k : Nat) s, shots[k]? = some s → ∀ (sel : LayerSelection) (t u : Bytes),
        ((plat.debug = false ∨ ∀ layer ∈ f.layers, isHsl layer.blendMode = false) → HoldsCanvas f t → HoldsCanvas g u →
          (RendersOk plat inflate f s.frame sel t ↔ RendersOk plat inflate g k sel u)) ∧
        ∀ t' u', f.renderFrame plat inflate s.frame sel t = (.ok (), t') → g.renderFrame plat inflate k sel u = (.ok (), u') →
          ∀ x y x' y' : Nat, x < f.size.1.toNat → y < f.size.2.toNat → x' < w.toNat → y' < h.toNat →
            (x : Int) = s.x + x' → (y : Int) = s.y + y' →
            canvasPixel f t x y = canvasPixel g u x' y' → canvasPixel f t' x y = canvasPixel g u' x' y' := by
  have small : ∀ i, i < f.frames.length → 2 ^ 23 + pageBytes (f, i) < 2 ^ 32 := by
    intro i hi
    have h1 := hs _ (List.getElem_mem (l := f.frames) hi)
    simp only [spriteOf] at h1
    simp only [pageBytes, pageCels, List.getElem?_eq_getElem hi, Option.map_some, Option.getD_some]
    simp only [dataLength] at h1
    omega
  obtain ⟨gs, hlen, hg⟩ := list_of_exists shots.length (P := fun k g => ∀ s, shots[k]? = some s →
      (∃ c, AsepriteFile.load plat c = .ok g) ∧ spriteOf g = windowOf f s.x s.y w h ∧
      MovedPictures plat (-s.x) (-s.y) f g) (by
    intro k hk
    obtain ⟨c, g, h1, h2, h3⟩ := C142_window plat b f hf shots[k].x shots[k].y w h (hin _ (List.getElem_mem hk)).2 hs
    refine ⟨g, fun s hs' => ?_⟩
    rw [List.getElem?_eq_getElem hk] at hs'
    cases hs'
    exact ⟨⟨c, h1⟩, h2, h3⟩)
  let pages := (gs.zip shots).map fun x => (x.2.duration, (x.1, x.2.frame))
  have hzip : ∀ x ∈ gs.zip shots, ∃ k : Nat, gs[k]? = some x.1 ∧ shots[k]? = some x.2 := by
    intro x hx
    obtain ⟨k, hk⟩ := List.mem_iff_getElem?.1 hx
    rw [List.getElem?_zip_eq_some] at hk
    exact ⟨k, hk⟩
  have facts : ∀ x ∈ gs.zip shots, x.2 ∈ shots ∧ (∃ c, AsepriteFile.load plat c = .ok x.1) ∧
      spriteOf x.1 = windowOf f x.2.x x.2.y w h := by
    intro x hx
    obtain ⟨k, h1, h2⟩ := hzip x hx
    obtain ⟨h3, h4, -⟩ := hg k x.1 h1 x.2 h2
    exact ⟨List.mem_of_getElem? h2, h3, h4⟩
  have hget : ∀ (k : Nat) s, shots[k]? = some s → ∃ g, gs[k]? = some g ∧ pages[k]? = some (s.duration, (g, s.frame)) := by
    intro k s hk
    have hlt : k < gs.length := by rw [hlen]; exact (List.getElem?_eq_some_iff.1 hk).1
    refine ⟨gs[k], List.getElem?_eq_getElem hlt, ?_⟩
    rw [List.getElem?_map, List.getElem?_zip_eq_some (z := (gs[k], s)) |>.2 ⟨List.getElem?_eq_getElem hlt, hk⟩]
    rfl
  obtain ⟨c, s, hc, hl, hd, hm, hr⟩ := C146_album plat f.layers pages
    (by
      intro h0
      have := congrArg List.length h0
      have hp := List.length_pos_iff.2 hne
      simp only [pages, List.length_map, List.length_zip, hlen, Nat.min_self, List.length_nil] at this
      omega)
    (by
      intro q hq
      obtain ⟨x, hx, rfl⟩ := List.mem_map.1 hq
      obtain ⟨h1, h2, h3⟩ := facts x hx
      refine ⟨h2, ?_, congrArg Sprite.layers h3⟩
      have := congrArg (fun s => s.frames.length) h3
      simp only [windowOf, List.length_map] at this
      exact this ▸ (hin _ h1).1)
    (by
      intro q hq r hr
      obtain ⟨x, hx, rfl⟩ := List.mem_map.1 hq
      obtain ⟨y, hy, rfl⟩ := List.mem_map.1 hr
      obtain ⟨-, -, h3⟩ := facts x hx
      obtain ⟨-, -, h4⟩ := facts y hy
      exact ⟨(congrArg Sprite.size h3).trans (congrArg Sprite.size h4).symm,
        (congrArg Sprite.depth h3).trans (congrArg Sprite.depth h4).symm,
        (congrArg Sprite.palette h3).trans (congrArg Sprite.palette h4).symm⟩)
    (by
      intro q hq
      obtain ⟨x, hx, rfl⟩ := List.mem_map.1 hq
      obtain ⟨h1, -, h3⟩ := facts x hx
      have e1 : x.1.images = f.images := congrArg Sprite.images h3
      have e2 : x.1.layers = f.layers := congrArg Sprite.layers h3
      have e3 : x.1.frames = f.frames.map fun fr => { fr with cels := fr.cels.map (seenFrom x.2.x x.2.y) } :=
        congrArg Sprite.frames h3
      have e4 : pageBytes (x.1, x.2.frame) = pageBytes (f, x.2.frame) := by
        simp only [pageBytes, pageCels, e1, e2, e3, List.getElem?_map]
        cases f.frames[x.2.frame]? <;> simp [seenFrom, Function.comp_def]
      dsimp only
      rw [e4]
      exact small _ (hin _ h1).1)
  have hss : s.size = (w, h) := by
    obtain ⟨x, hx⟩ := List.exists_mem_of_ne_nil _ hne
    obtain ⟨k, hk⟩ := List.mem_iff_getElem?.1 hx
    obtain ⟨g, h1, h2⟩ := hget k x hk
    exact (hm _ (List.mem_of_getElem? h2)).1.trans (congrArg Sprite.size (hg k g h1 x hk).2.1)
  refine ⟨c, s, hc, hss, hl, ?_, fun inflate k shot hk sel t u => ?_⟩
  · have hz : (gs.zip shots).map Prod.snd = shots := List.map_snd_zip (by omega)
    rw [hd]
    conv => rhs; rw [← hz]
    rw [List.map_map, List.map_map]
    rfl
  · obtain ⟨g, h1, h2⟩ := hget k shot hk
    obtain ⟨-, h3, h4⟩ := hg k g h1 shot hk
    have hgs : g.size = (w, h) := congrArg Sprite.size h3
    have hrk := hr plat inflate k _ h2 sel u
    have hcp : ∀ t x y, canvasPixel s t x y = canvasPixel g t x y := by
      intro t x y
      have : s.file.header.width = g.file.header.width := congrArg Prod.fst (hss.trans hgs.symm)
      simp only [canvasPixel, this]
    refine ⟨fun hd ht hu => ?_, fun t' u' ht hu x y x' y' hx hy hx' hy' ex ey hb => ?_⟩
    · rw [RendersOk, RendersOk, hrk]
      refine h4.renders hd inflate shot.frame sel t u ht ?_
      rw [hgs, ← hss]; exact hu
    · rw [hrk] at hu
      rw [hcp]
      refine h4.render inflate shot.frame sel t t' u u' ht hu x y x' y' hx hy (by rw [hgs]; exact hx') (by rw [hgs]; exact hy')
        (by omega) (by omega) ?_
      rw [hb, hcp]

/-- **C146 (sheets).** So a sprite sheet, with `m` rows of `n` pictures of size `w` by `h`, can be cut into an animation: there
is a file of that size with the same layers whose frame number `k` shows the picture in row `k / n` and column `k % n`, with
every selection.  This is the reverse of C145. -/
theorem C146_sheet (plat : Plat) (b : Bytes) (f : AsepriteFile) (hf : AsepriteFile.load plat b = .ok f) (i : Nat)
    (hi : i < f.frames.length) (w h duration : UInt16) (n m : Nat) (hn : n ≠ 0) (hm : m ≠ 0)
    (hw : n * w.toNat ≤ f.size.1.toNat) (hh : m * h.toNat ≤ f.size.2.toNat)
    (hin : ∀ q r, q < n → r < m → CanBeSeenFrom (q * w.toNat : Nat) (r * h.toNat : Nat) f) (hs : Small (spriteOf f)) :
    ∃ c g, AsepriteFile.load plat c = .ok g ∧ g.size = (w, h) ∧ g.layers = f.layers ∧
      g.frames.map (·.duration) = List.replicate (n * m) duration ∧
      ∀ (inflate : Inflater) (k : Nat), k < n * m → ∀ (sel : LayerSelection) (t u : Bytes),
        ((plat.debug = false ∨ ∀ layer ∈ f.layers, isHsl layer.blendMode = false) → HoldsCanvas f t → HoldsCanvas g u →
          (RendersOk plat inflate f i sel t ↔ RendersOk plat inflate g k sel u)) ∧
        ∀ t' u', f.renderFrame plat inflate i sel t = (.ok (), t') → g.renderFrame plat inflate k sel u = (.ok (), u') →
          ∀ x y : Nat, x < w.toNat → y < h.toNat →
            canvasPixel f t (k % n * w.toNat + x) (k / n * h.toNat + y) = canvasPixel g u x y →
            canvasPixel f t' (k % n * w.toNat + x) (k / n * h.toNat + y) = canvasPixel g u' x y := by
  have hrow : ∀ k, k < n * m → k / n < m := fun k hk => Nat.div_lt_of_lt_mul hk
  have hcol : ∀ k, k % n < n := fun k => Nat.mod_lt _ (Nat.pos_of_ne_zero hn)
  obtain ⟨c, g, hc, h1, h2, h3, h4⟩ := C146_camera plat b f hf w h
    ((List.range (n * m)).map fun k => ⟨duration, i, (k % n * w.toNat : Nat), (k / n * h.toNat : Nat)⟩)
    (by
      have : n * m ≠ 0 := Nat.mul_ne_zero hn hm
      simpa using this)
    (by
      intro s hs'
      obtain ⟨k, hk, rfl⟩ := List.mem_map.1 hs'
      exact ⟨hi, hin _ _ (hcol k) (hrow k (List.mem_range.1 hk))⟩) hs
  refine ⟨c, g, hc, h1, h2, ?_, fun inflate k hk sel t u => ?_⟩
  · rw [h3, List.map_map]
    refine List.eq_replicate_iff.2 ⟨by simp, fun d hd => ?_⟩
    obtain ⟨_, _, rfl⟩ := List.mem_map.1 hd
    rfl
  · obtain ⟨h5, h6⟩ := h4 inflate k ⟨duration, i, (k % n * w.toNat : Nat), (k / n * h.toNat : Nat)⟩
      (by rw [List.getElem?_map, List.getElem?_range hk]; rfl) sel t u
    refine ⟨h5, fun t' u' ht hu x y hx hy hb => ?_⟩
    have b1 : (k % n + 1) * w.toNat ≤ n * w.toNat := Nat.mul_le_mul_right _ (hcol k)
    have b2 : (k / n + 1) * h.toNat ≤ m * h.toNat := Nat.mul_le_mul_right _ (hrow k hk)
    rw [Nat.succ_mul] at b1 b2
    exact h6 t' u' ht hu _ _ x y (by omega) (by omega) hx hy (by simp) (by simp) hb

/-- A picture of 4 by 1 pixels, seen from two places and with a shot beyond its left edge: the hypotheses hold, and the file
written down here, which has copies of the cels for each frame, shows the parts. -/
example :
    let layers := [Sample.layer 1 0 0 255 [65], Sample.layer 1 0 1 200 [66]]
    let a := fun x => Sample.cel 0 x 0 4 1 [90, 80, 70, 255, 60, 50, 40, 255, 1, 2, 3, 255, 4, 5, 6, 255]
    let c := fun x => Sample.cel 1 x 0 1 1 [200, 100, 0, 128]
    let b := Sample.header 4 1 32 ++ Sample.frame 1 (layers ++ [a 0, c 1])
    let film := Sample.header 2 1 32 ++ Sample.frame 5 (layers ++ [a 0, c 1]) ++ Sample.frame 6 [a 65534, c 65535] ++
      Sample.frame 7 [a 1, c 2]
    let pictures := fun k => Sample.render ⟨true, 10⟩ film k .all (List.replicate 8 0)
    (match AsepriteFile.load ⟨true, 10⟩ b with
      | .ok f => decide (CanBeSeenFrom 0 0 f ∧ CanBeSeenFrom 2 0 f ∧ CanBeSeenFrom (-1) 0 f ∧ Small (spriteOf f)) &&
          f.frames.length == 1
      | _ => false) = true ∧
    Sample.render ⟨true, 10⟩ b 0 .all (List.replicate 16 0) =
      some (.ok (), [90, 80, 70, 255, 55, 39, 25, 255, 1, 2, 3, 255, 4, 5, 6, 255]) ∧
    pictures 0 = some (.ok (), [90, 80, 70, 255, 55, 39, 25, 255]) ∧
    pictures 1 = some (.ok (), [1, 2, 3, 255, 4, 5, 6, 255]) ∧
    pictures 2 = some (.ok (), [0, 0, 0, 0, 90, 80, 70, 255]) := by
  decide +kernel

end Ase
