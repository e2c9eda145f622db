import Verif.Lemmas.Tasks
import Verif.Props.Render

/-!
# C105: calls that run at the same time do not disturb each other
-/

namespace Ase

open Spec

theorem launch_run (plat : Plat) (inflate : Inflater) (hash : List HashInput → UInt64) (rs : List Request)
    (memory : Bytes) (schedule : List Nat) (ha : Apart rs memory.length) :
    ((launch plat inflate hash rs memory).run schedule).memory.length = memory.length ∧
    (∀ p, (∀ r ∈ rs, ¬ (r.start ≤ p ∧ p < r.start + r.size)) →
      ((launch plat inflate hash rs memory).run schedule).memory[p]? = memory[p]?) ∧
    ∀ (i : Nat) (r : Request), rs[i]? = some r →
      returned ((launch plat inflate hash rs memory).run schedule) i =
        (Prog.steps (schedule.count i) (r.call.prog plat inflate hash r.sprite, r.part memory)).1.result ∧
      r.part ((launch plat inflate hash rs memory).run schedule).memory =
        (Prog.steps (schedule.count i) (r.call.prog plat inflate hash r.sprite, r.part memory)).2 := by
  have key := machine_run (launch plat inflate hash rs memory) schedule
    (by
      intro job hj
      obtain ⟨r, hr, rfl⟩ := List.mem_map.1 hj
      exact ha.1 r hr)
    (by
      intro i j a b hij h1 h2
      simp only [launch, List.getElem?_map, Option.map_eq_some_iff] at h1 h2
      obtain ⟨r, hr, rfl⟩ := h1
      obtain ⟨s, hs, rfl⟩ := h2
      exact ha.2 i j r s hij hr hs)
  obtain ⟨h1, h2, h3⟩ := key
  refine ⟨h1, fun p hp => h2 p ?_, fun i r hr => ?_⟩
  · intro job hj
    obtain ⟨r, hr, rfl⟩ := List.mem_map.1 hj
    exact hp r hr
  · have := h3 i ⟨r.call.prog plat inflate hash r.sprite, r.start, r.size⟩ (by
      simp only [launch, List.getElem?_map, hr, Option.map_some])
    refine ⟨?_, this.2⟩
    unfold returned
    rw [this.1]
    rfl

/-- **C105.** Several calls (`render_frame`, `combined_frame_image`, `load_image`; on one sprite or on several) have buffers
that do not overlap.  Whatever the order in which their steps are taken, a call that has returned has returned what it
returns when it runs alone, and its buffer holds what it then holds. -/
theorem C105_finished (plat : Plat) (inflate : Inflater) (hash : List HashInput → UInt64) (rs : List Request)
    (memory : Bytes) (ha : Apart rs memory.length) (schedule : List Nat) (i : Nat) (r : Request) (hr : rs[i]? = some r)
    (o : Outcome LoadImageError (Option UInt64))
    (ho : returned ((launch plat inflate hash rs memory).run schedule) i = some o) :
    (o, r.part ((launch plat inflate hash rs memory).run schedule).memory) =
      r.alone plat inflate hash (r.part memory) := by
  obtain ⟨h1, h2⟩ := (launch_run plat inflate hash rs memory schedule ha).2.2 i r hr
  rw [h1] at ho
  have hret := Prog.result_ret _ o ho
  have hrun := Prog.steps_run (schedule.count i) (r.call.prog plat inflate hash r.sprite, r.part memory)
  rw [hret] at hrun
  rw [h2, ← call_run]
  exact hrun

/-- **C105 (no waiting).** Every call returns after a number of its own steps that does not depend on what the others do:
nobody waits for anybody, even if others never return. -/
theorem C105_progress (plat : Plat) (inflate : Inflater) (hash : List HashInput → UInt64) (r : Request) (part : Bytes) :
    ∃ n, ∀ (rs : List Request) (memory : Bytes) (schedule : List Nat) (i : Nat), Apart rs memory.length →
      rs[i]? = some r → r.part memory = part → n ≤ schedule.count i →
      returned ((launch plat inflate hash rs memory).run schedule) i = some (r.alone plat inflate hash part).1 := by
  obtain ⟨n, hn⟩ := Prog.steps_end (r.call.prog plat inflate hash r.sprite) part
  refine ⟨n, fun rs memory schedule i ha hr hp hc => ?_⟩
  rw [((launch_run plat inflate hash rs memory schedule ha).2.2 i r hr).1, hp, hn _ hc, call_run]

/-- **C105 (at any moment).** Even before it returns, a call is exactly as far, and its buffer holds exactly the bytes, as if
it had made the same number of steps on a copy of its buffer with nothing else running. -/
theorem C105_any_moment (plat : Plat) (inflate : Inflater) (hash : List HashInput → UInt64) (rs : List Request)
    (memory : Bytes) (ha : Apart rs memory.length) (schedule : List Nat) (i : Nat) (r : Request) (hr : rs[i]? = some r) :
    let single := (launch plat inflate hash [{ r with start := 0 }] (r.part memory)).run
      (List.replicate (schedule.count i) 0)
    returned ((launch plat inflate hash rs memory).run schedule) i = returned single 0 ∧
      r.part ((launch plat inflate hash rs memory).run schedule).memory = single.memory := by
  intro single
  have hin := ha.1 r (List.mem_of_getElem? hr)
  have hlen : (r.part memory).length = r.size := by
    simp only [Request.part, List.length_take, List.length_drop]
    omega
  obtain ⟨h1, h2⟩ := (launch_run plat inflate hash rs memory schedule ha).2.2 i r hr
  have hs := launch_run plat inflate hash [{ r with start := 0 }] (r.part memory)
    (List.replicate (schedule.count i) 0)
    ⟨by
      intro x hx
      rw [List.mem_singleton] at hx
      subst hx
      dsimp only
      omega, by
      intro a b x y hab hx hy
      have := (List.getElem?_eq_some_iff.1 hx).1
      have := (List.getElem?_eq_some_iff.1 hy).1
      simp only [List.length_singleton] at *
      omega⟩
  obtain ⟨h3, h4⟩ := hs.2.2 0 { r with start := 0 } rfl
  have hpart : ∀ t : Bytes, t.length = r.size → Request.part { r with start := 0 } t = t := by
    intro t ht
    simp only [Request.part, List.drop_zero]
    exact List.take_of_length_le (by omega)
  rw [List.count_replicate_self, hpart _ hlen] at h3 h4
  refine ⟨h1.trans h3.symm, h2.trans (h4.symm.trans (hpart _ ?_))⟩
  rw [hs.1, hlen]

/-- **C105 (elsewhere).** The rest of the memory is never touched. -/
theorem C105_elsewhere (plat : Plat) (inflate : Inflater) (hash : List HashInput → UInt64) (rs : List Request)
    (memory : Bytes) (ha : Apart rs memory.length) (schedule : List Nat) :
    ((launch plat inflate hash rs memory).run schedule).memory.length = memory.length ∧
    ∀ p, (∀ r ∈ rs, ¬ (r.start ≤ p ∧ p < r.start + r.size)) →
      ((launch plat inflate hash rs memory).run schedule).memory[p]? = memory[p]? :=
  ⟨(launch_run plat inflate hash rs memory schedule ha).1, (launch_run plat inflate hash rs memory schedule ha).2.1⟩

/-- **C105 (any order).** Two schedules that both let every call return leave the same memory and the same results. -/
theorem C105_any_order (plat : Plat) (inflate : Inflater) (hash : List HashInput → UInt64) (rs : List Request)
    (memory : Bytes) (ha : Apart rs memory.length) (s s' : List Nat)
    (hs : ∀ i, i < rs.length → (returned ((launch plat inflate hash rs memory).run s) i).isSome)
    (hs' : ∀ i, i < rs.length → (returned ((launch plat inflate hash rs memory).run s') i).isSome) :
    ((launch plat inflate hash rs memory).run s).memory = ((launch plat inflate hash rs memory).run s').memory ∧
    ∀ i, i < rs.length → returned ((launch plat inflate hash rs memory).run s) i =
      returned ((launch plat inflate hash rs memory).run s') i := by
  have key : ∀ (i : Nat) (r : Request), rs[i]? = some r →
      returned ((launch plat inflate hash rs memory).run s) i =
        returned ((launch plat inflate hash rs memory).run s') i ∧
      r.part ((launch plat inflate hash rs memory).run s).memory =
        r.part ((launch plat inflate hash rs memory).run s').memory := by
    intro i r hr
    have hi := (List.getElem?_eq_some_iff.1 hr).1
    obtain ⟨o, ho⟩ := Option.isSome_iff_exists.1 (hs i hi)
    obtain ⟨o', ho'⟩ := Option.isSome_iff_exists.1 (hs' i hi)
    have h1 := C105_finished plat inflate hash rs memory ha s i r hr o ho
    have h2 := C105_finished plat inflate hash rs memory ha s' i r hr o' ho'
    have h3 := Prod.mk.inj (h1.trans h2.symm)
    exact ⟨by rw [ho, ho', h3.1], h3.2⟩
  refine ⟨List.ext_getElem? fun p => ?_, fun i hi => (key i _ (List.getElem?_eq_getElem hi)).1⟩
  by_cases hp : ∃ r ∈ rs, r.start ≤ p ∧ p < r.start + r.size
  · obtain ⟨r, hr, h1, h2⟩ := hp
    obtain ⟨i, hi⟩ := List.getElem?_of_mem hr
    have h := congrArg (fun l => l[p - r.start]?) (key i r hi).2
    simp only [Request.part, List.getElem?_take, if_pos (show p - r.start < r.size by omega), List.getElem?_drop,
      show r.start + (p - r.start) = p by omega] at h
    exact h
  · have h : ∀ r ∈ rs, ¬ (r.start ≤ p ∧ p < r.start + r.size) := fun r hr hb => hp ⟨r, hr, hb⟩
    rw [(C105_elsewhere plat inflate hash rs memory ha s).2 p h,
      (C105_elsewhere plat inflate hash rs memory ha s').2 p h]

/-- Two frames of one sprite and an image whose number is too large, in one memory of eleven bytes, step by step in turn and
one after the other: after three rounds nothing has ended but the panicking call, after forty rounds everything is, and the
memory is the same as when they run one after the other. -/
example :
    let b := Sample.header 1 1 32 ++ Sample.frame 1 [Sample.layer 1 0 0 255 [65], Sample.cel 0 0 0 1 1 [1, 2, 3, 255]] ++
      Sample.frame 1 [Sample.cel 0 0 0 1 1 [4, 5, 6, 255]]
    (match AsepriteFile.load ⟨true, 10⟩ b with
      | .ok f =>
        let rs : List Request := [⟨f, .render 0 .visible, 0, 4⟩, ⟨f, .render 1 .visible, 6, 4⟩, ⟨f, .image 9, 4, 2⟩]
        let m := launch ⟨true, 10⟩ Sample.inflate (fun _ => 0) rs (List.replicate 11 9)
        let turn := fun n => (List.replicate n [2, 0, 1]).flatten
        decide (returned (m.run (turn 3)) 0 = none ∧ returned (m.run (turn 3)) 1 = none ∧
          returned (m.run (turn 3)) 2 = some (.panic .indexOutOfBounds) ∧
          returned (m.run (turn 40)) 0 = some (.ok none) ∧ returned (m.run (turn 40)) 1 = some (.ok none) ∧
          (m.run (turn 40)).memory = [1, 2, 3, 255, 9, 9, 4, 5, 6, 255, 9] ∧
          (m.run (List.replicate 40 1 ++ List.replicate 40 2 ++ List.replicate 40 0)).memory = (m.run (turn 40)).memory)
      | _ => false) = true := by
  decide +kernel

end Ase
