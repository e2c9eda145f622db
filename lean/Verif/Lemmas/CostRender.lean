import Verif.Model.CostRender
import Verif.Lemmas.Image
import Verif.Spec.Work

/-!
# The steps of `load_image` and `render_frame`
-/

namespace Ase.Timed

open Ase Spec

/-- On a buffer of `L` bytes, `p` does what `x` does and takes at most `n` steps, exactly `n` if it succeeds; the values
satisfy `Q`. -/
def Runs {α : Type} (L : Nat) (Q : α → Prop) (p : B α) (x : Buf α) (n : Nat) : Prop :=
  ∀ t : Bytes, t.length = L → (p t).2 = x t ∧ (x t).2.length = L ∧ (p t).1 ≤ n ∧
    ∀ a, (x t).1 = .ok a → (p t).1 = n ∧ Q a

theorem Runs.pure {α : Type} {L : Nat} {Q : α → Prop} {a : α} (h : Q a) :
    Runs L Q (Pure.pure a : B α) (Pure.pure a : Buf α) 0 := by
  intro t ht
  refine ⟨rfl, ht, Nat.le_refl _, ?_⟩
  intro b hb
  cases hb
  exact ⟨rfl, h⟩

theorem Runs.bind {α β : Type} {L : Nat} {Q : α → Prop} {R : β → Prop} {p : B α} {x : Buf α} {f : α → B β} {g : α → Buf β}
    {n m : Nat} (h : Runs L Q p x n) (h' : ∀ a, Q a → Runs L R (f a) (g a) m) :
    Runs L R (p >>= f) (x >>= g) (n + m) := by
  intro t ht
  obtain ⟨h1, h2, h3, h4⟩ := h t ht
  change (B.bind p f t).2 = Buf.bind x g t ∧ (Buf.bind x g t).2.length = L ∧ (B.bind p f t).1 ≤ n + m ∧
    ∀ a, (Buf.bind x g t).1 = .ok a → (B.bind p f t).1 = n + m ∧ R a
  unfold B.bind Buf.bind
  rcases hp : p t with ⟨s, y⟩
  rw [hp] at h1 h3 h4
  simp only at h1
  subst h1
  rcases hx : x t with ⟨a | e | k, t'⟩ <;> rw [hx] at h2 h4 <;> simp only at h2 h3 h4 ⊢
  · obtain ⟨rfl, hq⟩ := h4 a rfl
    obtain ⟨g1, g2, g3, g4⟩ := h' a hq t' h2
    refine ⟨g1, g2, Nat.add_le_add_left g3 _, fun b hb => ?_⟩
    obtain ⟨e1, e2⟩ := g4 b hb
    exact ⟨by rw [← e1]; rfl, e2⟩
  · exact ⟨by trivial, h2, by omega, fun _ h => by cases h⟩
  · exact ⟨by trivial, h2, by omega, fun _ h => by cases h⟩

/-- a step before -/
theorem Runs.tick {β : Type} {L : Nat} {R : β → Prop} {k : Nat} {f : Unit → B β} {x : Buf β} {m : Nat}
    (h : Runs L R (f ()) x m) : Runs L R (B.tick k >>= f) x (k + m) := by
  intro t ht
  obtain ⟨h1, h2, h3, h4⟩ := h t ht
  refine ⟨h1, h2, Nat.add_le_add_left h3 _, fun b hb => ?_⟩
  obtain ⟨e1, e2⟩ := h4 b hb
  exact ⟨by rw [← e1]; rfl, e2⟩

/-- what takes no step of its own -/
theorem Runs.lift {α : Type} {L : Nat} {Q : α → Prop} {x : Buf α} (hl : ∀ t : Bytes, t.length = L → (x t).2.length = L)
    (hq : ∀ t : Bytes, t.length = L → ∀ a, (x t).1 = .ok a → Q a) : Runs L Q (B.lift x) x 0 :=
  fun t ht => ⟨rfl, hl t ht, Nat.le_refl _, fun a ha => ⟨rfl, hq t ht a ha⟩⟩

/-- a failure, whatever the number of steps -/
theorem Runs.fail {α : Type} {L : Nat} {Q : α → Prop} {y : Outcome LoadImageError α} (hy : ∀ a, y ≠ .ok a) (n : Nat) :
    Runs L Q (B.lift (Buf.lift y)) (Buf.lift y) n :=
  fun _ ht => ⟨rfl, ht, Nat.zero_le _, fun a ha => (hy a ha).elim⟩

theorem Runs.weaken {α : Type} {L : Nat} {Q R : α → Prop} {p : B α} {x : Buf α} {n : Nat} (h : Runs L Q p x n)
    (hq : ∀ a, Q a → R a) : Runs L R p x n := by
  intro t ht
  obtain ⟨h1, h2, h3, h4⟩ := h t ht
  exact ⟨h1, h2, h3, fun a ha => ⟨(h4 a ha).1, hq _ (h4 a ha).2⟩⟩

theorem Runs.len {L : Nat} : Runs L (· = L) (B.lift Buf.len) Buf.len 0 := by
  refine Runs.lift (fun t ht => ht) fun t ht a ha => ?_
  cases ha
  exact ht

theorem Runs.set {L : Nat} (i : Nat) (v : UInt8) : Runs L (fun _ => True) (B.lift (Buf.set i v)) (Buf.set i v) 0 := by
  refine Runs.lift (fun t ht => ?_) fun _ _ _ _ => trivial
  unfold Buf.set
  split
  · simpa using ht
  · exact ht

theorem Runs.forEach {α : Type} {L : Nat} {body : α → B Unit} {body' : α → Buf Unit} {n : α → Nat} {xs : List α}
    (h : ∀ x ∈ xs, Runs L (fun _ => True) (body x) (body' x) (n x)) :
    Runs L (fun _ => True) (B.forEach body xs) (Buf.forEach body' xs) (xs.map fun x => 1 + n x).sum := by
  induction xs with
  | nil => exact Runs.pure trivial
  | cons x xs ih =>
    unfold B.forEach Buf.forEach
    have h1 := h x (by simp)
    have h2 := ih fun y hy => h y (by simp [hy])
    rw [List.map_cons, List.sum_cons, Nat.add_assoc]
    exact Runs.tick (Runs.bind h1 fun _ _ => h2)

theorem Runs.onPrefix {α : Type} {L n m : Nat} {Q : α → Prop} {p : B α} {x : Buf α} (hn : n ≤ L) (h : Runs n Q p x m) :
    Runs L Q (B.onPrefix n p) (Buf.onPrefix n x) m := by
  intro t ht
  obtain ⟨h1, h2, h3, h4⟩ := h (t.take n) (by simp; omega)
  unfold B.onPrefix Buf.onPrefix
  rw [if_pos (by omega), if_pos (by omega)]
  refine ⟨by rw [← h1], ?_, h3, h4⟩
  simp only [List.length_append, h2, List.length_drop]
  omega

theorem Runs.onFresh {L n m : Nat} {Q : Unit → Prop} {p : B Unit} {x : Buf Unit} (h : Runs n Q p x m) :
    Runs L (fun b => b.length = n) (B.onFresh n p) (Buf.onFresh n x) (n + m) := by
  intro t ht
  obtain ⟨h1, h2, h3, h4⟩ := h (List.replicate n 0) (by simp)
  unfold B.onFresh Buf.onFresh
  rcases hp : p (List.replicate n 0) with ⟨s, y⟩
  rw [hp] at h1 h3 h4
  simp only at h1
  subst h1
  rcases hx : x (List.replicate n 0) with ⟨a | e | k, t'⟩ <;> rw [hx] at h2 h4 <;> simp only at h2 h3 h4 ⊢
  · obtain ⟨rfl, hq⟩ := h4 a trivial
    refine ⟨trivial, ht, Nat.le_refl _, fun b hb => ?_⟩
    cases hb
    exact ⟨rfl, h2⟩
  · exact ⟨by trivial, ht, by omega, fun _ h => by cases h⟩
  · exact ⟨by trivial, ht, by omega, fun _ h => by cases h⟩

theorem Runs.copyFromSlice {L : Nat} (source : Bytes) :
    Runs L (fun _ => True) (B.copyFromSlice source) (Buf.copyFromSlice source) L := by
  intro t ht
  unfold B.copyFromSlice Buf.copyFromSlice
  by_cases hs : t.length = source.length
  · simp only [if_pos hs]
    refine ⟨trivial, by omega, by omega, fun _ _ => ⟨by omega, trivial⟩⟩
  · simp only [if_neg hs]
    exact ⟨trivial, ht, Nat.zero_le _, fun _ h => by cases h⟩

theorem Runs.decompress {L : Nat} (inflate : Inflater) (data : Bytes) :
    Runs L (fun _ => True) (decompress inflate data) (Ase.decompress inflate data) (data.length + L) := by
  intro t ht
  refine ⟨rfl, ?_, by unfold Timed.decompress; omega, fun _ _ => ⟨by unfold Timed.decompress; omega, trivial⟩⟩
  unfold Ase.decompress
  rcases inflate data t.length with ⟨s, out⟩
  cases s <;> simp only [List.length_append, List.length_take, List.length_drop] <;> omega

theorem Runs.grayscaleLoop {L : Nat} (i : Nat) (source : Bytes) :
    Runs L (fun _ => True) (grayscaleLoop i source) (Ase.grayscaleLoop i source) ((source.length + 1) / 2) := by
  fun_induction Ase.grayscaleLoop i source with
  | case1 i => exact Runs.pure trivial
  | case2 i v =>
    unfold Timed.grayscaleLoop
    have e : ([v].length + 1) / 2 = 1 + (0 + (0 + (0 + 0))) := by simp
    rw [e]
    refine Runs.tick ?_
    refine Runs.bind (Runs.set _ _) fun _ _ => ?_
    refine Runs.bind (Runs.set _ _) fun _ _ => ?_
    refine Runs.bind (Runs.set _ _) fun _ _ => ?_
    exact Runs.fail (by simp) _
  | case3 i v a rest ih =>
    have e : ((v :: a :: rest).length + 1) / 2 = 1 + (0 + (0 + (0 + (0 + (rest.length + 1) / 2)))) := by
      simp only [List.length_cons]; omega
    unfold Timed.grayscaleLoop
    rw [e]
    refine Runs.tick ?_
    refine Runs.bind (Runs.set _ _) fun _ _ => ?_
    refine Runs.bind (Runs.set _ _) fun _ _ => ?_
    refine Runs.bind (Runs.set _ _) fun _ _ => ?_
    exact Runs.bind (Runs.set _ _) fun _ _ => ih

theorem Runs.grayscaleToRgba {k : Nat} (source : Bytes) :
    Runs (k * 4) (fun _ => True) (grayscaleToRgba source) (Ase.grayscaleToRgba source) k := by
  have e : k = 0 + k := by omega
  unfold Timed.grayscaleToRgba Ase.grayscaleToRgba
  rw [e]
  refine Runs.bind (R := fun _ => True) (Runs.weaken Runs.len (R := (· = k * 4)) (fun a h => by omega)) fun a ha => ?_
  subst ha
  by_cases h : k * 4 ≠ source.length * 2
  · rw [if_pos h, if_pos h]
    exact Runs.fail (by simp) _
  · rw [if_neg h, if_neg h]
    have := Runs.grayscaleLoop (L := k * 4) 0 source
    have e2 : (source.length + 1) / 2 = k := by omega
    rw [e2] at this
    simpa using this

theorem Runs.indexedLoop {L : Nat} (p : Palette) (i : Nat) (source : Bytes) :
    Runs L (fun _ => True) (indexedLoop p i source) (Ase.indexedLoop p i source) source.length := by
  induction source generalizing i with
  | nil => exact Runs.pure trivial
  | cons px rest ih =>
    unfold Timed.indexedLoop Ase.indexedLoop
    have e : (px :: rest).length = 1 + (0 + (0 + (0 + (0 + rest.length)))) := by simp only [List.length_cons]; omega
    rw [e]
    refine Runs.tick ?_
    cases p.colors[px.toNat]? with
    | none => exact Runs.fail (by simp) _
    | some c =>
      refine Runs.bind (Runs.set _ _) fun _ _ => ?_
      refine Runs.bind (Runs.set _ _) fun _ _ => ?_
      refine Runs.bind (Runs.set _ _) fun _ _ => ?_
      exact Runs.bind (Runs.set _ _) fun _ _ => ih _

theorem Runs.indexedToRgba {k : Nat} (source : Bytes) (p : Palette) :
    Runs (k * 4) (fun _ => True) (indexedToRgba source p) (Ase.indexedToRgba source p) k := by
  unfold Timed.indexedToRgba Ase.indexedToRgba
  have e : k = 0 + k := by omega
  rw [e]
  refine Runs.bind (R := fun _ => True) (Runs.weaken Runs.len (R := (· = k * 4)) (fun a h => by omega)) fun a ha => ?_
  subst ha
  by_cases h : k * 4 ≠ source.length * 4
  · rw [if_pos h, if_pos h]
    exact Runs.fail (by simp) _
  · rw [if_neg h, if_neg h]
    have := Runs.indexedLoop (L := k * 4) p 0 source
    have e2 : source.length = k := by omega
    rw [e2] at this
    simpa using this

theorem Runs.paletteOrErr {L : Nat} (f : AsepriteFile) :
    Runs L (fun _ => True) (B.lift f.paletteOrErr) f.paletteOrErr 0 := by
  refine Runs.lift (fun t ht => ?_) fun _ _ _ _ => trivial
  unfold AsepriteFile.paletteOrErr
  cases f.file.palette <;> exact ht

theorem Runs.decodeImage (inflate : Inflater) (f : AsepriteFile) (image : Image) :
    Runs (image.width.toNat * image.height.toNat * 4) (fun _ => True) (decodeImage inflate f image)
      (f.decodeImage inflate image)
      (decodeWork f.file.header.colorDepth image.compressed (image.width.toNat * image.height.toNat)
        image.data.length) := by
  unfold Timed.decodeImage AsepriteFile.decodeImage decodeWork
  generalize image.width.toNat * image.height.toNat = k
  cases f.file.header.colorDepth <;> cases image.compressed <;> simp only
  · rw [Nat.mul_comm k 4]
    exact Runs.copyFromSlice image.data
  · rw [Nat.mul_comm k 4]
    exact Runs.decompress inflate image.data
  · exact Runs.grayscaleToRgba image.data
  · have e : 2 * k + (image.data.length + 2 * k) + k = (k * 2 + (image.data.length + k * 2)) + k := by omega
    rw [e]
    exact Runs.bind (Runs.onFresh (Runs.decompress inflate image.data)) fun b hb => Runs.grayscaleToRgba b
  · have := Runs.indexedToRgba (k := k) image.data
    have e : k = 0 + k := by omega
    have h := Runs.bind (Runs.paletteOrErr f (L := k * 4)) fun p _ => this p
    rw [← e] at h
    exact h 
  · have e : k + (image.data.length + k) + k = (k + (image.data.length + k)) + (0 + k) := by omega
    rw [e]
    exact Runs.bind (Runs.onFresh (Runs.decompress inflate image.data)) fun b hb =>
      Runs.bind (Runs.paletteOrErr f) fun p _ => Runs.indexedToRgba b p
  · exact Runs.fail (by simp) _
  · exact Runs.fail (by simp) _

theorem Runs.loadImage {L : Nat} (inflate : Inflater) (f : AsepriteFile) (index : Nat) :
    Runs L (fun _ => True) (loadImage inflate f index) (f.loadImage inflate index) (imageWork f index) := by
  unfold Timed.loadImage AsepriteFile.loadImage imageWork
  cases f.images[index]? with
  | none => exact Runs.fail (by simp) _
  | some image =>
    simp only
    have := Runs.decodeImage inflate f image
    generalize decodeWork f.file.header.colorDepth image.compressed (image.width.toNat * image.height.toNat)
      image.data.length = m at this ⊢
    have e : m = 0 + m := by omega
    rw [e]
    refine Runs.bind Runs.len fun a ha => ?_
    subst ha
    by_cases h : a < image.width.toNat * image.height.toNat * 4
    · rw [if_pos h, if_pos h]
      exact Runs.fail (by simp) _
    · rw [if_neg h, if_neg h]
      exact Runs.onPrefix (by omega) this

/-- A computation that does not change the size of the buffer. -/
def KeepsLen {α : Type} (x : Buf α) : Prop := ∀ t : Bytes, (x t).2.length = t.length

theorem KeepsLen.bind {α β : Type} {x : Buf α} {f : α → Buf β} (h : KeepsLen x) (h' : ∀ a, KeepsLen (f a)) :
    KeepsLen (x >>= f) := by
  intro t
  have h1 := h t
  change (Buf.bind x f t).2.length = _
  unfold Buf.bind
  rcases hx : x t with ⟨a | e | k, t'⟩ <;> rw [hx] at h1 <;> simp only at h1 ⊢
  · rw [h' a t', h1]
  · exact h1
  · exact h1

theorem KeepsLen.set (i : Nat) (v : UInt8) : KeepsLen (Buf.set i v) := by
  intro t
  unfold Buf.set
  split <;> simp

theorem KeepsLen.slice (i j : Nat) : KeepsLen (Buf.slice i j) := by
  intro t
  unfold Buf.slice
  split <;> rfl

theorem KeepsLen.lift {α : Type} (x : Outcome LoadImageError α) : KeepsLen (Buf.lift x) := fun _ => rfl

theorem KeepsLen.pure {α : Type} (a : α) : KeepsLen (Pure.pure a : Buf α) := fun _ => rfl

theorem keepsLen_renderPixel (plat : Plat) (f : AsepriteFile) (cel : FrameCel) (layer : LLayer) (fn : BlendFn) (c : Bytes)
    (y x : UInt16) : KeepsLen (f.renderPixel plat cel layer fn c y x) := by
  unfold AsepriteFile.renderPixel
  split
  · exact .pure _
  split
  · exact .pure _
  split
  · exact .pure _
  split
  · exact .pure _
  refine .bind (.lift _) fun _ => .bind (.slice _ _) fun _ => .bind (.lift _) fun _ => .bind (.lift _) fun _ =>
    .bind (.lift _) fun _ => .bind (.set _ _) fun _ => .bind (.set _ _) fun _ => .bind (.set _ _) fun _ => .set _ _

theorem Runs.renderCel {L : Nat} (plat : Plat) (inflate : Inflater) (f : AsepriteFile) (sel : LayerSelection)
    (cel : FrameCel) :
    Runs L (fun _ => True) (renderCel plat inflate f sel cel) (f.renderCel plat inflate sel cel) (celWork f sel cel) := by
  unfold Timed.renderCel AsepriteFile.renderCel celWork
  cases f.layers[cel.layerIndex]? with
  | none => exact Runs.pure trivial
  | some layer =>
    simp only
    by_cases h : layer.layerType = .group ∨ ¬ sel.isSelected cel.layerIndex layer
    · rw [if_pos h, if_pos h, if_pos h]
      exact Runs.pure trivial
    · rw [if_neg h, if_neg h, if_neg h]
      have e : cel.size.2.toNat * (1 + cel.size.1.toNat) = 0 + cel.size.2.toNat * (1 + cel.size.1.toNat) := by omega
      rw [e]
      refine Runs.bind (Q := fun _ => True) ?_ fun c _ => Runs.bind (Q := fun _ => True) ?_ fun fn _ => ?_
      · intro t ht
        obtain ⟨h1, h2, h3, h4⟩ := Runs.loadImage inflate f cel.imageIndex
          (List.replicate (cel.size.1.toNat * cel.size.2.toNat * 4) 0) rfl
        rcases hp : Timed.loadImage inflate f cel.imageIndex
          (List.replicate (cel.size.1.toNat * cel.size.2.toNat * 4) 0) with ⟨s, y⟩
        rw [hp] at h1 h3 h4
        simp only at h1
        subst h1
        rcases hx : f.loadImage inflate cel.imageIndex
          (List.replicate (cel.size.1.toNat * cel.size.2.toNat * 4) 0) with ⟨a | e | k, t'⟩ <;>
          rw [hx] at h2 h4 <;> simp only at h2 h3 h4 ⊢
        · obtain ⟨rfl, hq⟩ := h4 a trivial
          exact ⟨trivial, ht, Nat.le_refl _, fun b hb => ⟨rfl, trivial⟩⟩
        · exact ⟨by trivial, ht, by omega, fun _ h => by cases h⟩
        · exact ⟨by trivial, ht, by omega, fun _ h => by cases h⟩
      · exact Runs.lift (fun t ht => ht) fun _ _ _ _ => trivial
      · have hrow : ∀ y, Runs L (fun _ => True)
            (B.forEach (fun x => B.lift (f.renderPixel plat cel layer fn c y x)) (u16Range cel.size.1))
            (Buf.forEach (f.renderPixel plat cel layer fn c y) (u16Range cel.size.1)) cel.size.1.toNat := by
          intro y
          have := Runs.forEach (L := L) (body := fun x => B.lift (f.renderPixel plat cel layer fn c y x))
            (body' := f.renderPixel plat cel layer fn c y) (n := fun _ => 0) (xs := u16Range cel.size.1)
            fun x _ => Runs.lift (fun t ht => by rw [keepsLen_renderPixel, ht]) fun _ _ _ _ => trivial
          simpa [u16Range, Function.comp_def, List.map_const', List.sum_replicate_nat] using this
        have := Runs.forEach (L := L) (n := fun _ => cel.size.1.toNat) (xs := u16Range cel.size.2) fun y _ => hrow y
        simpa [u16Range, Function.comp_def, List.map_const', List.sum_replicate_nat] using this

theorem Runs.renderFrame {L : Nat} (plat : Plat) (inflate : Inflater) (f : AsepriteFile) (i : Nat) (sel : LayerSelection) :
    Runs L (fun _ => True) (renderFrame plat inflate f i sel) (f.renderFrame plat inflate i sel)
      (match f.frames[i]? with
       | none => 0
       | some fr => (fr.cels.map fun c => 1 + celWork f sel c).sum) := by
  unfold Timed.renderFrame AsepriteFile.renderFrame
  have e : ∀ m, m = 0 + m := by omega
  rw [e (match f.frames[i]? with
       | none => 0
       | some fr => (fr.cels.map fun c => 1 + celWork f sel c).sum)]
  refine Runs.bind Runs.len fun a ha => ?_
  subst ha
  by_cases h : a < f.file.header.width.toNat * f.file.header.height.toNat * 4
  · rw [if_pos h, if_pos h]
    exact Runs.fail (by simp) _
  · rw [if_neg h, if_neg h]
    cases f.frames[i]? with
    | none => exact Runs.fail (by simp) _
    | some fr => exact Runs.forEach fun c _ => Runs.renderCel plat inflate f sel c

end Ase.Timed
