import Verif.Model.Select
import Verif.Spec.Select
import Verif.Spec.Sample

/-!
# C104: the predicate of `select_layers` is asked once per layer, in order
-/

namespace Ase

open Spec

theorem collectMask_asked {σ : Type} (p : LLayer → σ → Run Bool × σ) (layers : List LLayer) (mask : List Bool) (s : σ) :
    (∃ states answers, states 0 = s ∧ Asked p layers layers.length states answers ∧
      collectMask p mask layers s = (.ok (mask ++ answers), states layers.length)) ∨
    ∃ states answers n layer k s', states 0 = s ∧ n < layers.length ∧ Asked p layers n states answers ∧
      layers[n]? = some layer ∧ p layer (states n) = (.panic k, s') ∧ collectMask p mask layers s = (.panic k, s') := by
  induction layers generalizing mask s with
  | nil => exact .inl ⟨fun _ => s, [], rfl, ⟨rfl, by simp⟩, by simp [collectMask]⟩
  | cons layer layers ih =>
    cases hp : p layer s with
    | mk r s1 =>
      cases r with
      | err e => cases e
      | panic k =>
        exact .inr ⟨fun _ => s, [], 0, layer, k, s1, rfl, by simp, ⟨rfl, by simp⟩, rfl, hp,
          by simp [collectMask, hp]⟩
      | ok b =>
        have e : collectMask p mask (layer :: layers) s = collectMask p (mask ++ [b]) layers s1 := by
          simp [collectMask, hp]
        have step : ∀ states answers n, states 0 = s1 → Asked p layers n states answers →
            Asked p (layer :: layers) (n + 1) (fun i => if i = 0 then s else states (i - 1)) (b :: answers) := by
          intro states answers n h0 ⟨hl, ha⟩
          refine ⟨by simp [hl], fun i hi => ?_⟩
          cases i with
          | zero => exact ⟨layer, b, rfl, rfl, by simp [hp, h0]⟩
          | succ i =>
            obtain ⟨l, b', h1, h2, h3⟩ := ha i (by omega)
            exact ⟨l, b', by simpa using h1, by simpa using h2, by simpa using h3⟩
        rcases ih (mask ++ [b]) s1 with ⟨states, answers, h0, ha, hc⟩ | ⟨states, answers, n, l, k, s', h0, hn, ha, hl, hk, hc⟩
        · exact .inl ⟨_, _, rfl, step states answers _ h0 ha, by rw [e, hc]; simp⟩
        · refine .inr ⟨_, _, n + 1, l, k, s', rfl, by simpa using hn, step states answers n h0 ha, by simpa using hl, ?_,
            e.trans hc⟩
          simpa using hk

/-- **C104.** `select_layers` asks the predicate about every layer, once each and in the order of the layers, and the mask
it returns consists of the answers; unless the predicate panics about one of the layers: then it is not asked about any
later one, and the panic is passed on.  In both cases the state of the predicate is what these questions leave. -/
theorem C104_asked {σ : Type} (f : AsepriteFile) (p : LLayer → σ → Run Bool × σ) (s : σ) :
    (∃ states answers, states 0 = s ∧ Asked p f.layers f.layers.length states answers ∧
      f.selectLayersWith p s = (.ok (.mask answers), states f.layers.length)) ∨
    ∃ states answers n layer k s', states 0 = s ∧ n < f.layers.length ∧ Asked p f.layers n states answers ∧
      f.layers[n]? = some layer ∧ p layer (states n) = (.panic k, s') ∧ f.selectLayersWith p s = (.panic k, s') := by
  unfold AsepriteFile.selectLayersWith
  rcases collectMask_asked p f.layers [] s with ⟨states, answers, h0, ha, hc⟩ | ⟨states, answers, n, l, k, s', h0, hn, ha, hl, hk, hc⟩
  · exact .inl ⟨states, answers, h0, ha, by rw [hc]; rfl⟩
  · exact .inr ⟨states, answers, n, l, k, s', h0, hn, ha, hl, hk, by rw [hc]⟩

/-- **C104 (log).** A predicate that writes down what it is asked ends with the list of the layers. -/
theorem C104_log (f : AsepriteFile) (p : LLayer → Bool) (log : List LLayer) :
    f.selectLayersWith (fun l log => (.ok (p l), log ++ [l])) log = (.ok (f.selectLayers p), log ++ f.layers) := by
  have key : ∀ (layers : List LLayer) (mask : List Bool) (log : List LLayer),
      collectMask (fun l log => (.ok (p l), log ++ [l])) mask layers log =
        (.ok (mask ++ layers.map p), log ++ layers) := by
    intro layers
    induction layers with
    | nil => intro mask log; simp [collectMask]
    | cons l layers ih => intro mask log; simp [collectMask, ih]
  unfold AsepriteFile.selectLayersWith
  rw [key]
  rfl

/-- **C104 (no effects).** With a predicate without effects it is the `select_layers` of C35. -/
theorem C104_pure {σ : Type} (f : AsepriteFile) (p : LLayer → Bool) (s : σ) :
    f.selectLayersWith (fun l s => (.ok (p l), s)) s = (.ok (f.selectLayers p), s) := by
  have key : ∀ (layers : List LLayer) (mask : List Bool),
      collectMask (fun l s => (.ok (p l), s)) mask layers s = (.ok (mask ++ layers.map p), s) := by
    intro layers
    induction layers with
    | nil => intro mask; simp [collectMask]
    | cons l layers ih => intro mask; simp [collectMask, ih]
  unfold AsepriteFile.selectLayersWith
  rw [key]
  rfl

/-- A predicate that takes every other layer by counting, and one that panics at its third question: both cases of
`C104_asked` occur. -/
example :
    let b := Sample.header 1 1 32 ++ Sample.frame 1 [Sample.layer 1 0 0 255 [65], Sample.layer 0 0 0 255 [66],
      Sample.layer 1 1 0 255 [67], Sample.layer 1 0 0 255 [68]]
    (match AsepriteFile.load ⟨true, 10⟩ b with
      | .ok f => decide (
          f.selectLayersWith (fun _ (n : Nat) => (.ok (n % 2 == 0), n + 1)) 0 = (.ok (.mask [true, false, true, false]), 4) ∧
          f.selectLayersWith (fun l (n : Nat) => (if n = 2 then .panic .overflow else .ok l.visible, n + 1)) 0 =
            (.panic .overflow, 3) ∧
          f.selectLayersWith (fun l (log : List String) => (.ok l.visible, log ++ [l.name])) [] =
            (.ok (.mask [true, false, true, true]), ["A", "B", "C", "D"]))
      | _ => false) = true := by
  decide +kernel

end Ase
