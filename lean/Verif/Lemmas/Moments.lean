import Verif.Lemmas.Tasks
import Verif.Lemmas.Render

/-!
# What a program that is stopped leaves in the buffer
-/

namespace Ase

open Spec

/-- `t'` is in the buffer at some moment. -/
def Prog.Reach {α : Type} (x : Prog α) (t t' : Bytes) : Prop := ∃ n, (Prog.steps n (x, t)).2 = t'

theorem Prog.reach_ret {α : Type} {o : Outcome LoadImageError α} {t t' : Bytes} (h : (Prog.ret o).Reach t t') : t' = t := by
  obtain ⟨n, rfl⟩ := h
  rw [Prog.steps_ret]

theorem Prog.reach_length {α : Type} {x : Prog α} {t t' : Bytes} (h : x.Reach t t') : t'.length = t.length := by
  obtain ⟨n, rfl⟩ := h
  induction n with
  | zero => rfl
  | succ n ih => rw [Prog.steps_succ, Prog.next_length, ih]

theorem Prog.reach_step {α β : Type} {p : Prim β} {k : β → Prog α} {t t' : Bytes} (h : (Prog.step p k).Reach t t') :
    t' = t ∨ (∃ b t1, p.run t = (.ok b, t1) ∧ (k b).Reach t1 t') ∨
      ((∀ b, (p.run t).1 ≠ .ok b) ∧ t' = (p.run t).2) := by
  obtain ⟨n, rfl⟩ := h
  cases n with
  | zero => exact .inl rfl
  | succ n =>
    right
    rw [Prog.steps]
    dsimp only [Prog.next]
    cases p.run t with
    | mk o t1 =>
      cases o with
      | ok b => exact .inl ⟨b, t1, rfl, n, rfl⟩
      | err e => exact .inr ⟨by simp, by dsimp only; rw [Prog.steps_ret]⟩
      | panic q => exact .inr ⟨by simp, by dsimp only; rw [Prog.steps_ret]⟩

theorem Prog.reach_bind {α β : Type} {x : Prog α} {f : α → Prog β} {t t' : Bytes} (h : (Prog.bind x f).Reach t t') :
    x.Reach t t' ∨ ∃ a t1, x.run t = (.ok a, t1) ∧ (f a).Reach t1 t' := by
  induction x generalizing t with
  | ret o =>
    cases o with
    | ok a => exact .inr ⟨a, t, rfl, h⟩
    | err e => exact .inl ⟨0, (Prog.reach_ret h).symm⟩
    | panic q => exact .inl ⟨0, (Prog.reach_ret h).symm⟩
  | step p k ih =>
    rcases Prog.reach_step h with h | ⟨b, t1, hp, h⟩ | ⟨hp, h⟩
    · exact .inl ⟨0, h.symm⟩
    · rcases ih b h with ⟨n, hn⟩ | ⟨a, t2, h1, h2⟩
      · exact .inl ⟨n + 1, by rw [Prog.steps]; dsimp only [Prog.next]; rw [hp]; exact hn⟩
      · exact .inr ⟨a, t2, by simp only [Prog.run, Buf.bind, hp]; exact h1, h2⟩
    · refine .inl ⟨1, ?_⟩
      rw [Prog.steps, Prog.steps]
      dsimp only [Prog.next]
      rw [h]
      cases hr : p.run t with
      | mk o t1 =>
        cases o with
        | ok b => exact absurd (congrArg Prod.fst hr) (hp b)
        | err e => rfl
        | panic q => rfl

/-- What the end of a program leaves is also a moment of it. -/
theorem Prog.reach_first {α β : Type} {x : Prog α} {f : α → Prog β} {t t' : Bytes} (h : (Prog.bind x f).Reach t t')
    (hf : ∀ a t1 t', (f a).Reach t1 t' → t' = t1) : x.Reach t t' := by
  rcases Prog.reach_bind h with h | ⟨a, t1, h1, h2⟩
  · exact h
  · rw [hf a t1 t' h2]
    obtain ⟨n, hn⟩ := Prog.steps_end x t
    have h3 := hn n (Nat.le_refl n)
    have h4 := Prog.steps_run n (x, t)
    rw [Prog.result_ret _ _ h3] at h4
    exact ⟨n, congrArg Prod.snd (h4.trans h1)⟩

theorem Prog.reach_forEach {α : Type} {body : α → Prog Unit} {xs : List α} {t t' : Bytes}
    (h : (Prog.forEach body xs).Reach t t') : Buf.forEach (fun x => (body x).run) xs t = (.ok (), t') ∨
      ∃ pre x post t1, xs = pre ++ x :: post ∧ Buf.forEach (fun x => (body x).run) pre t = (.ok (), t1) ∧
        (body x).Reach t1 t' := by
  induction xs generalizing t with
  | nil => rw [Prog.reach_ret h]; exact .inl rfl
  | cons x xs ih =>
    rcases Prog.reach_bind h with h | ⟨a, t1, h1, h2⟩
    · exact .inr ⟨[], x, xs, t, rfl, rfl, h⟩
    · rcases ih h2 with h3 | ⟨pre, y, post, t2, rfl, h4, h5⟩
      · exact .inl (by rw [forEach_cons, h1]; exact h3)
      · exact .inr ⟨x :: pre, y, post, t2, rfl, by rw [forEach_cons, h1]; exact h4, h5⟩

/-! ## Programs that write from left to right -/

/-- The program writes at most single bytes, each at a position of `n` or more and to the right of those before. -/
def Prog.Rising {α : Type} : Nat → Prog α → Prop
  | _, .ret _ => True
  | n, .step p k => ((∀ t, (p.run t).2 = t) ∧ ∀ b, Prog.Rising n (k b)) ∨
      ∃ i, n ≤ i ∧ (∀ t, (p.run t).2 = t ∨ ∃ v, (p.run t).2 = t.set i v) ∧ ∀ b, Prog.Rising (i + 1) (k b)

theorem Prog.Rising.mono {α : Type} {x : Prog α} {m n : Nat} (hmn : m ≤ n) (h : x.Rising n) : x.Rising m := by
  induction x generalizing m n with
  | ret o => trivial
  | step p k ih =>
    rcases h with ⟨h1, h2⟩ | ⟨i, h1, h2, h3⟩
    · exact .inl ⟨h1, fun b => ih b hmn (h2 b)⟩
    · exact .inr ⟨i, by omega, h2, h3⟩

theorem Prog.Rising.take {α : Type} {x : Prog α} {n : Nat} (h : x.Rising n) (t : Bytes) :
    (x.run t).2.take n = t.take n := by
  induction x generalizing n t with
  | ret o => rfl
  | step p k ih =>
    have hp : (p.run t).2.take n = t.take n := by
      rcases h with ⟨h1, -⟩ | ⟨i, h1, h2, -⟩
      · rw [h1]
      · rcases h2 t with h | ⟨v, h⟩
        · rw [h]
        · rw [h, List.take_set_of_le h1]
    have hk : ∀ b, (k b).Rising n := by
      intro b
      rcases h with ⟨-, h2⟩ | ⟨i, h1, -, h3⟩
      · exact h2 b
      · exact (h3 b).mono (by omega)
    simp only [Prog.run, Buf.bind]
    cases hr : p.run t with
    | mk o t1 =>
      rw [hr] at hp
      cases o with
      | ok b => exact (ih b (hk b) t1).trans hp
      | err e => exact hp
      | panic q => exact hp

/-- At every moment the buffer holds the left part of what it will hold in the end and the right part of what it held in the
beginning. -/
theorem Prog.Rising.reach {α : Type} {x : Prog α} {n : Nat} (h : x.Rising n) {t t' : Bytes} (hr : x.Reach t t') :
    ∃ m, n ≤ m ∧ t' = (x.run t).2.take m ++ t.drop m := by
  induction x generalizing n t with
  | ret o => exact ⟨n, Nat.le_refl _, by rw [Prog.reach_ret hr]; exact (List.take_append_drop n t).symm⟩
  | step p k ih =>
    have htake := h.take t
    have hlen := (Prog.step p k).run_length t
    rcases Prog.reach_step hr with rfl | ⟨b, t1, hp, hr1⟩ | ⟨hp, rfl⟩
    · exact ⟨n, Nat.le_refl _, by rw [htake, List.take_append_drop]⟩
    · have e : (Prog.step p k).run t = (k b).run t1 := by simp only [Prog.run, Buf.bind, hp]
      rw [e]
      rcases h with ⟨h1, h2⟩ | ⟨i, h1, h2, h3⟩
      · have := h1 t
        rw [hp] at this
        cases this
        exact ih b (h2 b) hr1
      · obtain ⟨m, hm, hm'⟩ := ih b (h3 b) hr1
        refine ⟨m, by omega, hm'.trans ?_⟩
        congr 1
        have := h2 t
        rw [hp] at this
        rcases this with h | ⟨v, h⟩
        · exact congrArg _ h
        · dsimp only at h
          rw [h, List.drop_set_of_lt (by omega)]
    · refine ⟨max n t.length, by omega, ?_⟩
      have e : ((Prog.step p k).run t).2 = (p.run t).2 := by
        simp only [Prog.run, Buf.bind]
        cases hr : p.run t with
        | mk o t1 =>
          cases o with
          | ok b => exact absurd (congrArg Prod.fst hr) (hp b)
          | err e => rfl
          | panic q => rfl
      rw [e] at hlen ⊢
      rw [List.take_of_length_le (by omega), List.drop_eq_nil_of_le (by omega), List.append_nil]

theorem Prog.Rising.within {α : Type} {x : Prog α} {n : Nat} (h : x.Rising n) (size : Nat) :
    (Prog.within size x).Rising n := by
  induction x generalizing n with
  | ret o => trivial
  | step p k ih =>
    have hpre : ∀ t, (Prim.run (.pre size p) t).2 = if size ≤ t.length then (p.run (t.take size)).2 ++ t.drop size else t := by
      intro t
      simp only [Prim.run, Buf.onPrefix]
      split <;> rfl
    rcases h with ⟨h1, h2⟩ | ⟨i, h1, h2, h3⟩
    · refine .inl ⟨fun t => ?_, fun b => ih b (h2 b)⟩
      rw [hpre, h1, List.take_append_drop]
      split <;> rfl
    · refine .inr ⟨i, h1, fun t => ?_, fun b => ih b (h3 b)⟩
      rw [hpre]
      split
      · next hs =>
        rcases h2 (t.take size) with h | ⟨v, h⟩
        · rw [h, List.take_append_drop]; exact .inl rfl
        · rw [h]
          by_cases hi : i < size
          · refine .inr ⟨v, ?_⟩
            conv => rhs; rw [← List.take_append_drop size t]
            rw [List.set_append_left _ _ (by rw [List.length_take]; omega)]
          · rw [List.set_eq_of_length_le (by rw [List.length_take]; omega), List.take_append_drop]
            exact .inl rfl
      · exact .inl rfl

theorem Prog.Rising.read {α β : Type} {p : Prim β} {k : β → Prog α} {n : Nat} (h1 : ∀ t, (p.run t).2 = t)
    (h2 : ∀ b, (k b).Rising n) : (Prog.step p k).Rising n := .inl ⟨h1, h2⟩

theorem Prog.Rising.write {α : Type} {i : Nat} {v : UInt8} {k : Unit → Prog α} {n : Nat} (h1 : n ≤ i)
    (h2 : ∀ b, (k b).Rising (i + 1)) : (Prog.step (.set i v) k).Rising n :=
  .inr ⟨i, h1, fun t => by
    simp only [Prim.run, Buf.set]
    split
    · exact .inr ⟨v, rfl⟩
    · exact .inl rfl, h2⟩

theorem Prog.Rising.ret_bind {α β : Type} {o : Outcome LoadImageError α} {f : α → Prog β} {n : Nat}
    (h : ∀ a, (f a).Rising n) : (Prog.bind (.ret o) f).Rising n := by
  cases o with
  | ok a => exact h a
  | err e => trivial
  | panic k => trivial

theorem len_reads (t : Bytes) : (Prim.run .len t).2 = t := rfl

theorem slice_reads (i j : Nat) (t : Bytes) : (Prim.run (.slice i j) t).2 = t := by
  simp only [Prim.run, Buf.slice]
  split <;> rfl

theorem grayscaleLoopP_rising (i : Nat) (s : Bytes) : (grayscaleLoopP i s).Rising (i * 4) := by
  fun_induction grayscaleLoopP i s with
  | case1 i => trivial
  | case2 i v => exact .write (by omega) fun _ => .write (by omega) fun _ => .write (by omega) fun _ => trivial
  | case3 i v a rest ih =>
    exact .write (by omega) fun _ => .write (by omega) fun _ => .write (by omega) fun _ => .write (by omega) fun _ =>
      ih.mono (by omega)

theorem indexedLoopP_rising (palette : Palette) (i : Nat) (s : Bytes) : (indexedLoopP palette i s).Rising (i * 4) := by
  induction s generalizing i with
  | nil => trivial
  | cons px rest ih =>
    rw [indexedLoopP]
    cases palette.colors[px.toNat]? with
    | none => trivial
    | some c =>
      exact .write (by omega) fun _ => .write (by omega) fun _ => .write (by omega) fun _ => .write (by omega) fun _ =>
        (ih (i + 1)).mono (by omega)

theorem grayscaleToRgbaP_rising (s : Bytes) : (grayscaleToRgbaP s).Rising 0 := by
  refine .read len_reads fun n => ?_
  show Prog.Rising 0 (if n ≠ s.length * 2 then Prog.ret (.err .invalidImageData) else grayscaleLoopP 0 s)
  split
  · trivial
  · exact grayscaleLoopP_rising 0 s

theorem indexedToRgbaP_rising (s : Bytes) (palette : Palette) : (indexedToRgbaP s palette).Rising 0 := by
  refine .read len_reads fun n => ?_
  show Prog.Rising 0 (if n ≠ s.length * 4 then Prog.ret (.err .invalidImageData) else indexedLoopP palette 0 s)
  split
  · trivial
  · exact indexedLoopP_rising palette 0 s

theorem decodeImageP_rising (inflate : Inflater) (f : AsepriteFile) (image : Image)
    (h : f.file.header.colorDepth ≠ .rgba) : (f.decodeImageP inflate image).Rising 0 := by
  have hpal : ∀ k : Palette → Prog Unit, (∀ p, (k p).Rising 0) → (Prog.bind f.paletteOrErrP k).Rising 0 := by
    intro k hk
    unfold AsepriteFile.paletteOrErrP
    cases f.file.palette with
    | none => trivial
    | some p => exact hk p
  unfold AsepriteFile.decodeImageP
  cases hd : f.file.header.colorDepth <;> cases image.compressed
  case rgba.false => exact absurd hd h
  case rgba.true => exact absurd hd h
  case grayscale.false => exact grayscaleToRgbaP_rising _
  case grayscale.true => exact .ret_bind fun _ => grayscaleToRgbaP_rising _
  case indexed.false => exact hpal _ fun p => indexedToRgbaP_rising _ p
  case indexed.true => exact .ret_bind fun _ => hpal _ fun p => indexedToRgbaP_rising _ p
  all_goals trivial

theorem loadImageP_rising (inflate : Inflater) (f : AsepriteFile) (index : Nat)
    (h : f.file.header.colorDepth ≠ .rgba) : (f.loadImageP inflate index).Rising 0 := by
  unfold AsepriteFile.loadImageP
  cases f.images[index]? with
  | none => trivial
  | some image =>
    refine .read len_reads fun n => ?_
    show Prog.Rising 0 (if n < image.width.toNat * image.height.toNat * 4 then Prog.ret (.err .targetBufferTooSmall)
      else Prog.onPrefix (image.width.toNat * image.height.toNat * 4) (f.decodeImageP inflate image))
    split
    · trivial
    · refine .read len_reads fun l => ?_
      split
      · exact (decodeImageP_rising inflate f image h).within _
      · trivial

theorem renderPixelP_rising (plat : Plat) (f : AsepriteFile) (cel : FrameCel) (layer : LLayer) (blendFn : BlendFn)
    (celTarget : Bytes) (y x : UInt16) : (f.renderPixelP plat cel layer blendFn celTarget y x).Rising 0 := by
  unfold AsepriteFile.renderPixelP
  cases checkedAddSigned x cel.origin.1 with
  | none => trivial
  | some tx =>
    dsimp only
    split
    · trivial
    · cases checkedAddSigned y cel.origin.2 with
      | none => trivial
      | some ty =>
        dsimp only
        split
        · trivial
        · refine .ret_bind fun _ => .read (slice_reads _ _) fun _ =>
            .ret_bind fun _ => .ret_bind fun _ => .ret_bind fun _ => .ret_bind fun _ => ?_
          refine .write (Nat.zero_le _) fun _ => ?_
          refine .write (Nat.le_refl _) fun _ => ?_
          refine .write (Nat.le_refl _) fun _ => ?_
          exact .write (Nat.le_refl _) fun _ => trivial

end Ase
