import Verif.Spec.Tasks

/-!
# Lemmas about programs that can be stopped
-/

namespace Ase

open Spec

theorem Prim.run_length {β : Type} (p : Prim β) (t : Bytes) : (p.run t).2.length = t.length := by
  induction p generalizing t with
  | len => rfl
  | slice i j => simp only [Prim.run, Buf.slice]; split <;> rfl
  | set i v => simp only [Prim.run, Buf.set]; split <;> simp
  | copy s => simp only [Prim.run, Buf.copyFromSlice]; split <;> simp_all
  | decompress inflate data =>
    simp only [Prim.run, Ase.decompress]
    cases inflate data t.length with
    | mk status out =>
      cases status <;> (simp only [List.length_append, List.length_take, List.length_drop]; omega)
  | pre n p ih =>
    simp only [Prim.run, Buf.onPrefix]
    split
    · simp only [List.length_append, ih, List.length_take, List.length_drop]; omega
    · rfl

theorem Prog.run_length {α : Type} (x : Prog α) (t : Bytes) : (x.run t).2.length = t.length := by
  induction x generalizing t with
  | ret o => rfl
  | step p k ih =>
    have h := p.run_length t
    simp only [Prog.run, Buf.bind]
    cases hp : p.run t with
    | mk o t' =>
      rw [hp] at h
      cases o with
      | ok b => exact (ih b t').trans h
      | err e => exact h
      | panic q => exact h

theorem Buf.bind_pureL {α β : Type} (a : α) (f : α → Buf β) : Buf.bind (Buf.lift (.ok a)) f = f a := rfl

theorem Buf.bind_assoc {α β γ : Type} (x : Buf α) (f : α → Buf β) (g : β → Buf γ) :
    Buf.bind (Buf.bind x f) g = Buf.bind x fun a => Buf.bind (f a) g := by
  funext t
  simp only [Buf.bind]
  cases x t with
  | mk o t' => cases o <;> rfl

theorem Prog.run_bind {α β : Type} (x : Prog α) (f : α → Prog β) :
    (Prog.bind x f).run = Buf.bind x.run fun a => (f a).run := by
  induction x with
  | ret o => cases o <;> rfl
  | step p k ih =>
    simp only [Prog.bind, Prog.run, Buf.bind_assoc]
    congr
    funext b
    exact ih b

theorem Prog.run_bind' {α β : Type} (x : Prog α) (f : α → Prog β) :
    (x >>= f).run = (x.run >>= fun a => (f a).run : Buf β) := Prog.run_bind x f

theorem Prog.run_pure {α : Type} (a : α) : (pure a : Prog α).run = (pure a : Buf α) := rfl

theorem Prog.run_prim {α : Type} (p : Prim α) : (Prog.prim p).run = p.run := by
  funext t
  simp only [Prog.prim, Prog.run, Buf.bind]
  cases p.run t with
  | mk o t' => cases o <;> rfl

theorem Prog.run_forEach {α : Type} (body : α → Prog Unit) (xs : List α) :
    (Prog.forEach body xs).run = Buf.forEach (fun x => (body x).run) xs := by
  induction xs with
  | nil => rfl
  | cons x xs ih => rw [Prog.forEach, Prog.run_bind, Buf.forEach, ih]

theorem Prog.run_within {α : Type} (n : Nat) (x : Prog α) (t : Bytes) (h : n ≤ t.length) :
    (Prog.within n x).run t = Buf.onPrefix n x.run t := by
  induction x generalizing t with
  | ret o => simp [Prog.within, Prog.run, Buf.lift, Buf.onPrefix, h]
  | step p k ih =>
    have hl := p.run_length (t.take n)
    simp only [Prog.within, Prog.run, Buf.bind, Prim.run, Buf.onPrefix, h, if_true]
    cases hp : p.run (t.take n) with
    | mk o t' =>
      rw [hp] at hl
      simp only [List.length_take] at hl
      cases o with
      | err e => rfl
      | panic q => rfl
      | ok b =>
        have hn : n = t'.length := by omega
        simp only
        rw [ih b _ (by simp only [List.length_append]; omega)]
        simp only [Buf.onPrefix]
        rw [if_pos (by simp only [List.length_append]; omega)]
        subst hn
        simp

theorem Prog.run_onPrefix {α : Type} (n : Nat) (x : Prog α) : (Prog.onPrefix n x).run = Buf.onPrefix n x.run := by
  funext t
  simp only [Prog.onPrefix, Prog.run, Prim.run, Buf.bind, Buf.len]
  by_cases h : n ≤ t.length
  · simp only [h, if_true, Prog.run_within n x t h]
  · simp only [h, if_false, Prog.run, Buf.lift, Buf.onPrefix]

/-! ## The programs do what the functions do -/

theorem grayscaleLoopP_run (i : Nat) (s : Bytes) : (grayscaleLoopP i s).run = grayscaleLoop i s := by
  fun_induction grayscaleLoopP i s with
  | case1 i => rw [grayscaleLoop]; rfl
  | case2 i v => rw [grayscaleLoop]; simp only [Prog.run_bind', Prog.run_prim]; rfl
  | case3 i v a rest ih => rw [grayscaleLoop]; simp only [Prog.run_bind', Prog.run_prim, ih]; rfl

theorem grayscaleToRgbaP_run (s : Bytes) : (grayscaleToRgbaP s).run = grayscaleToRgba s := by
  unfold grayscaleToRgbaP grayscaleToRgba
  simp only [Prog.run_bind', Prog.run_prim]
  refine congrArg (Bind.bind (m := Buf) Buf.len) (funext fun n => ?_)
  split
  · rfl
  · exact grayscaleLoopP_run 0 s

theorem indexedLoopP_run (palette : Palette) (i : Nat) (s : Bytes) :
    (indexedLoopP palette i s).run = indexedLoop palette i s := by
  induction s generalizing i with
  | nil => rfl
  | cons px rest ih =>
    rw [indexedLoopP, indexedLoop]
    cases palette.colors[px.toNat]? with
    | none => rfl
    | some color => simp only [Prog.run_bind', Prog.run_prim, ih]; rfl

theorem indexedToRgbaP_run (s : Bytes) (palette : Palette) :
    (indexedToRgbaP s palette).run = indexedToRgba s palette := by
  unfold indexedToRgbaP indexedToRgba
  simp only [Prog.run_bind', Prog.run_prim]
  refine congrArg (Bind.bind (m := Buf) Buf.len) (funext fun n => ?_)
  split
  · rfl
  · exact indexedLoopP_run palette 0 s

theorem paletteOrErrP_run (f : AsepriteFile) : f.paletteOrErrP.run = f.paletteOrErr := by
  unfold AsepriteFile.paletteOrErrP AsepriteFile.paletteOrErr
  cases f.file.palette <;> rfl

theorem decompressFresh_run (inflate : Inflater) (data : Bytes) (n : Nat) :
    (Prog.ret (decompressFresh inflate data n)).run = Buf.onFresh n (decompress inflate data) := by
  funext t
  simp only [Prog.run, Buf.lift, Buf.onFresh, decompressFresh]
  cases decompress inflate data (List.replicate n 0) with
  | mk o t' => cases o <;> rfl

theorem decodeImageP_run (inflate : Inflater) (f : AsepriteFile) (image : Image) :
    (f.decodeImageP inflate image).run = f.decodeImage inflate image := by
  unfold AsepriteFile.decodeImageP AsepriteFile.decodeImage
  cases f.file.header.colorDepth <;> cases image.compressed <;>
    simp only [Prog.run_bind', Prog.run_prim, decompressFresh_run, paletteOrErrP_run, grayscaleToRgbaP_run,
      indexedToRgbaP_run] <;> rfl

theorem loadImageP_run (inflate : Inflater) (f : AsepriteFile) (index : Nat) :
    (f.loadImageP inflate index).run = f.loadImage inflate index := by
  unfold AsepriteFile.loadImageP AsepriteFile.loadImage
  cases f.images[index]? with
  | none => rfl
  | some image =>
    simp only [Prog.run_bind', Prog.run_prim]
    refine congrArg (Bind.bind (m := Buf) Buf.len) (funext fun n => ?_)
    split
    · rfl
    · rw [Prog.run_onPrefix, decodeImageP_run]

theorem renderPixelP_run (plat : Plat) (f : AsepriteFile) (cel : FrameCel) (layer : LLayer) (blendFn : BlendFn)
    (celTarget : Bytes) (y x : UInt16) : (f.renderPixelP plat cel layer blendFn celTarget y x).run =
      f.renderPixel plat cel layer blendFn celTarget y x := by
  unfold AsepriteFile.renderPixelP AsepriteFile.renderPixel
  cases checkedAddSigned x cel.origin.1 with
  | none => rfl
  | some tx =>
    dsimp only
    split
    · rfl
    · cases checkedAddSigned y cel.origin.2 with
      | none => rfl
      | some ty =>
        dsimp only
        split
        · rfl
        · simp only [Prog.run_bind', Prog.run_prim]
          rfl

theorem renderCelP_run (plat : Plat) (inflate : Inflater) (f : AsepriteFile) (sel : LayerSelection) (cel : FrameCel) :
    (f.renderCelP plat inflate sel cel).run = f.renderCel plat inflate sel cel := by
  unfold AsepriteFile.renderCelP AsepriteFile.renderCel
  cases f.layers[cel.layerIndex]? with
  | none => rfl
  | some layer =>
    dsimp only
    split
    · rfl
    · have e : (Prog.ret (f.celImage inflate cel)).run = (fun t =>
          match f.loadImage inflate cel.imageIndex (List.replicate (cel.size.1.toNat * cel.size.2.toNat * 4) 0) with
          | (.ok (), c) => (.ok c, t)
          | (.err _, _) => (.panic .unwrapOnErr, t)
          | (.panic k, _) => (.panic k, t) : Buf Bytes) := by
        funext t
        simp only [Prog.run, Buf.lift, AsepriteFile.celImage]
        cases f.loadImage inflate cel.imageIndex (List.replicate (cel.size.1.toNat * cel.size.2.toNat * 4) 0) with
        | mk o c => cases o <;> rfl
      simp only [Prog.run_bind', Prog.run_forEach, renderPixelP_run, e]
      rfl

theorem renderFrameP_run (plat : Plat) (inflate : Inflater) (f : AsepriteFile) (i : Nat) (sel : LayerSelection) :
    (f.renderFrameP plat inflate i sel).run = f.renderFrame plat inflate i sel := by
  unfold AsepriteFile.renderFrameP AsepriteFile.renderFrame
  simp only [Prog.run_bind', Prog.run_prim]
  refine congrArg (Bind.bind (m := Buf) Buf.len) (funext fun n => ?_)
  split
  · rfl
  · cases f.frames[i]? with
    | none => rfl
    | some frame => simp only [Prog.run_forEach, renderCelP_run]

theorem combinedFrameImageP_run (plat : Plat) (inflate : Inflater) (hash : List HashInput → UInt64) (f : AsepriteFile)
    (i : Nat) : (f.combinedFrameImageP plat inflate hash i).run = f.combinedFrameImage plat inflate hash i := by
  unfold AsepriteFile.combinedFrameImageP AsepriteFile.combinedFrameImage
  rw [Prog.run_bind', renderFrameP_run]
  refine congrArg (Bind.bind (m := Buf) (f.renderFrame plat inflate i .visible)) (funext fun _ => ?_)
  cases f.frames[i]? <;> rfl

theorem call_run (plat : Plat) (inflate : Inflater) (hash : List HashInput → UInt64) (r : Request) (t : Bytes) :
    (r.call.prog plat inflate hash r.sprite).run t = r.alone plat inflate hash t := by
  unfold Call.prog Request.alone
  cases r.call with
  | render i sel =>
    simp only [Prog.run_bind', renderFrameP_run]
    show Buf.bind _ _ t = _
    simp only [Buf.bind]
    cases r.sprite.renderFrame plat inflate i sel t with
    | mk o t' => cases o <;> rfl
  | combined i =>
    simp only [Prog.run_bind', combinedFrameImageP_run]
    show Buf.bind _ _ t = _
    simp only [Buf.bind]
    cases r.sprite.combinedFrameImage plat inflate hash i t with
    | mk o t' => cases o <;> rfl
  | image i =>
    simp only [Prog.run_bind', loadImageP_run]
    show Buf.bind _ _ t = _
    simp only [Buf.bind]
    cases r.sprite.loadImage inflate i t with
    | mk o t' => cases o <;> rfl

/-! ## Steps -/

/-- Several steps of one program. -/
def Prog.steps {α : Type} : Nat → Prog α × Bytes → Prog α × Bytes
  | 0, s => s
  | n + 1, s => Prog.steps n (s.1.next s.2)

theorem Prog.steps_succ {α : Type} (n : Nat) (s : Prog α × Bytes) :
    Prog.steps (n + 1) s = (Prog.steps n s).1.next (Prog.steps n s).2 := by
  induction n generalizing s with
  | zero => rfl
  | succ n ih => rw [Prog.steps, ih]; rfl

theorem Prog.next_run {α : Type} (x : Prog α) (t : Bytes) : (x.next t).1.run (x.next t).2 = x.run t := by
  cases x with
  | ret o => rfl
  | step p k =>
    simp only [Prog.next, Prog.run, Buf.bind]
    cases p.run t with
    | mk o t' => cases o <;> rfl

theorem Prog.next_length {α : Type} (x : Prog α) (t : Bytes) : (x.next t).2.length = t.length := by
  cases x with
  | ret o => rfl
  | step p k =>
    have h := p.run_length t
    simp only [Prog.next]
    cases hp : p.run t with
    | mk o t' =>
      rw [hp] at h
      cases o <;> exact h

theorem Prog.steps_run {α : Type} (n : Nat) (s : Prog α × Bytes) :
    (Prog.steps n s).1.run (Prog.steps n s).2 = s.1.run s.2 := by
  induction n generalizing s with
  | zero => rfl
  | succ n ih => rw [Prog.steps, ih, Prog.next_run]

theorem Prog.result_ret {α : Type} (x : Prog α) (o : Outcome LoadImageError α) (h : x.result = some o) : x = .ret o := by
  cases x with
  | ret o' => cases h; rfl
  | step p k => cases h

theorem Prog.steps_ret {α : Type} (n : Nat) (o : Outcome LoadImageError α) (t : Bytes) :
    Prog.steps n (.ret o, t) = (.ret o, t) := by
  induction n with
  | zero => rfl
  | succ n ih => exact ih

/-- Every program ends. -/
theorem Prog.steps_end {α : Type} (x : Prog α) (t : Bytes) : ∃ n, ∀ k, n ≤ k →
    (Prog.steps k (x, t)).1.result = some (x.run t).1 := by
  induction x generalizing t with
  | ret o => exact ⟨0, fun k _ => by rw [Prog.steps_ret]; rfl⟩
  | step p k ih =>
    cases hp : p.run t with
    | mk o t' =>
      have e : (Prog.step p k).next t = (match o with
          | .ok b => (k b, t')
          | .err e => (.ret (.err e), t')
          | .panic q => (.ret (.panic q), t')) := by
        simp only [Prog.next, hp]
        cases o <;> rfl
      have er : (Prog.step p k).run t = (match o with
          | .ok b => (k b).run t'
          | .err e => (.err e, t')
          | .panic q => (.panic q, t')) := by
        simp only [Prog.run, Buf.bind, hp]
        cases o <;> rfl
      cases o with
      | ok b =>
        obtain ⟨n, hn⟩ := ih b t'
        refine ⟨n + 1, fun j hj => ?_⟩
        obtain ⟨j, rfl⟩ : ∃ i, j = i + 1 := ⟨j - 1, by omega⟩
        rw [Prog.steps, e, er]
        exact hn j (by omega)
      | err x =>
        refine ⟨1, fun j hj => ?_⟩
        obtain ⟨j, rfl⟩ : ∃ i, j = i + 1 := ⟨j - 1, by omega⟩
        rw [Prog.steps, e, er, Prog.steps_ret]
        rfl
      | panic x =>
        refine ⟨1, fun j hj => ?_⟩
        obtain ⟨j, rfl⟩ : ∃ i, j = i + 1 := ⟨j - 1, by omega⟩
        rw [Prog.steps, e, er, Prog.steps_ret]
        rfl

/-! ## The machine -/

theorem part_same (mem part : Bytes) (start size : Nat) (h : start + size ≤ mem.length) (hp : part.length = size) :
    ((mem.take start ++ part ++ mem.drop (start + size)).drop start).take size = part := by
  have h1 : (mem.take start).length = start := by rw [List.length_take]; omega
  rw [List.append_assoc, List.drop_append_of_le_length (by omega), List.drop_of_length_le (by omega), List.nil_append,
    List.take_append_of_le_length (by omega), List.take_of_length_le (by omega)]

theorem splice_length (mem part : Bytes) (start size : Nat) (h : start + size ≤ mem.length) (hp : part.length = size) :
    (mem.take start ++ part ++ mem.drop (start + size)).length = mem.length := by
  simp only [List.length_append, List.length_take, List.length_drop]
  omega

theorem splice_outside (mem part : Bytes) (start size : Nat) (h : start + size ≤ mem.length) (hp : part.length = size)
    (p : Nat) (ho : ¬ (start ≤ p ∧ p < start + size)) :
    (mem.take start ++ part ++ mem.drop (start + size))[p]? = mem[p]? := by
  by_cases h1 : p < start
  · rw [List.append_assoc, List.getElem?_append_left (by rw [List.length_take]; omega), List.getElem?_take, if_pos h1]
  · rw [List.getElem?_append_right (by simp only [List.length_append, List.length_take]; omega), List.getElem?_drop]
    congr 1
    simp only [List.length_append, List.length_take]
    omega

theorem part_other (mem part : Bytes) (start size start' size' : Nat) (h : start + size ≤ mem.length)
    (hp : part.length = size) (hd : start + size ≤ start' ∨ start' + size' ≤ start) :
    ((mem.take start ++ part ++ mem.drop (start + size)).drop start').take size' = (mem.drop start').take size' := by
  refine List.ext_getElem? fun p => ?_
  rw [List.getElem?_take, List.getElem?_take]
  split
  · rw [List.getElem?_drop, List.getElem?_drop, splice_outside mem part start size h hp _ (by omega)]
  · rfl

/-- After any schedule each job is where its own steps lead it, and the rest of the memory is as it was. -/
theorem machine_run (m : Machine) (schedule : List Nat) (hin : ∀ job ∈ m.jobs, job.start + job.size ≤ m.memory.length)
    (hd : ∀ (i j : Nat) (a b : Job), i ≠ j → m.jobs[i]? = some a → m.jobs[j]? = some b →
      a.start + a.size ≤ b.start ∨ b.start + b.size ≤ a.start) :
    (m.run schedule).memory.length = m.memory.length ∧
    (∀ p, (∀ job ∈ m.jobs, ¬ (job.start ≤ p ∧ p < job.start + job.size)) → (m.run schedule).memory[p]? = m.memory[p]?) ∧
    ∀ (i : Nat) (job : Job), m.jobs[i]? = some job →
      (m.run schedule).jobs[i]? = some { job with
        prog := (Prog.steps (schedule.count i) (job.prog, (m.memory.drop job.start).take job.size)).1 } ∧
      ((m.run schedule).memory.drop job.start).take job.size =
        (Prog.steps (schedule.count i) (job.prog, (m.memory.drop job.start).take job.size)).2 := by
  induction schedule generalizing m with
  | nil => exact ⟨rfl, fun _ _ => rfl, fun i job h => ⟨h, rfl⟩⟩
  | cons s rest ih =>
    rw [show m.run (s :: rest) = (m.step s).run rest from rfl]
    cases hs : m.jobs[s]? with
    | none =>
      have e : m.step s = m := by simp only [Machine.step, hs]
      rw [e]
      obtain ⟨h1, h2, h3⟩ := ih m hin hd
      refine ⟨h1, h2, fun i job hi => ?_⟩
      have : (s :: rest).count i = rest.count i := by
        rw [List.count_cons]
        have : s ≠ i := fun h => by rw [h, hi] at hs; cases hs
        simp [this]
      rw [this]
      exact h3 i job hi
    | some act =>
      have hact := hin act (List.mem_of_getElem? hs)
      generalize hn : act.prog.next ((m.memory.drop act.start).take act.size) = nx
      have hl : nx.2.length = act.size := by
        rw [← hn, Prog.next_length, List.length_take, List.length_drop]
        omega
      have e : m.step s = ⟨m.memory.take act.start ++ nx.2 ++ m.memory.drop (act.start + act.size),
          m.jobs.set s { act with prog := nx.1 }⟩ := by
        simp only [Machine.step, hs, hn]
      have hlen := splice_length m.memory nx.2 act.start act.size hact hl
      have hjobs : ∀ (i : Nat) (a : Job), (m.jobs.set s { act with prog := nx.1 })[i]? = some a →
          ∃ a', m.jobs[i]? = some a' ∧ a'.start = a.start ∧ a'.size = a.size := by
        intro i a ha
        rw [List.getElem?_set] at ha
        split at ha
        · next h =>
          subst h
          split at ha
          · cases ha
            exact ⟨act, hs, rfl, rfl⟩
          · cases ha
        · exact ⟨a, ha, rfl, rfl⟩
      obtain ⟨h1, h2, h3⟩ := ih (m.step s)
        (by
          rw [e]
          intro job hj
          obtain ⟨i, hi⟩ := List.getElem?_of_mem hj
          obtain ⟨a', ha, e1, e2⟩ := hjobs i job hi
          dsimp only
          rw [hlen, ← e1, ← e2]
          exact hin a' (List.mem_of_getElem? ha))
        (by
          rw [e]
          intro i j a b hij ha hb
          obtain ⟨a', ha', e1, e2⟩ := hjobs i a ha
          obtain ⟨b', hb', e3, e4⟩ := hjobs j b hb
          rw [← e1, ← e2, ← e3, ← e4]
          exact hd i j a' b' hij ha' hb')
      refine ⟨h1.trans (by rw [e]; exact hlen), fun p hp => ?_, fun i job hi => ?_⟩
      · rw [h2 p (by
          rw [e]
          intro job hj
          obtain ⟨i, hi⟩ := List.getElem?_of_mem hj
          obtain ⟨a', ha, e1, e2⟩ := hjobs i job hi
          rw [← e1, ← e2]
          exact hp a' (List.mem_of_getElem? ha))]
        rw [e]
        exact splice_outside m.memory nx.2 act.start act.size hact hl p (hp act (List.mem_of_getElem? hs))
      · by_cases his : s = i
        · subst his
          rw [hs] at hi
          cases hi
          have hlt : s < m.jobs.length := (List.getElem?_eq_some_iff.1 hs).1
          have := h3 s { act with prog := nx.1 } (by rw [e]; simp [hlt])
          have hc : (s :: rest).count s = rest.count s + 1 := by simp
          rw [hc, Prog.steps]
          dsimp only at this ⊢
          rw [hn]
          rw [e] at this ⊢
          dsimp only at this
          rw [part_same m.memory nx.2 act.start act.size hact hl] at this
          exact this
        · have hc : (s :: rest).count i = rest.count i := by simp [his]
          have := h3 i job (by rw [e]; simpa [his] using hi)
          rw [hc]
          rw [e] at this ⊢
          dsimp only at this
          rw [part_other m.memory nx.2 act.start act.size job.start job.size hact hl (hd s i act job his hs hi)] at this
          exact this

end Ase
