import Verif.Model.Readme
import Verif.Props.AsRead
import Verif.Props.Failures
import Verif.Props.Profile

/-!
# C126: the program in the README
-/

namespace Ase

open Spec

/-- A sprite that was loaded has a first frame. -/
theorem first_frame {plat : Plat} {b : Bytes} {raw : RawFile} (hr : parseRawFile plat b = .ok raw) {f : AsepriteFile}
    (hf : AsepriteFile.load plat b = .ok f) : 0 < raw.frames.length ∧ 0 < f.frames.length := by
  obtain ⟨h1, h2⟩ := load_ok.1 hf
  have hP := parsed_of_parse hr h1
  obtain ⟨_, _, _, hne, -⟩ := (C08_file_framing plat b raw).1 hr
  have := List.length_pos_iff.2 hne
  refine ⟨this, ?_⟩
  rw [(frames_of_load h2).1, hP.frames, List.length_map]
  exact this

theorem raw_of_load {plat : Plat} {b : Bytes} {f : AsepriteFile} (hf : AsepriteFile.load plat b = .ok f) :
    ∃ raw, parseRawFile plat b = .ok raw := by
  obtain ⟨h1, -⟩ := load_ok.1 hf
  unfold parseFile at h1
  rw [outcome_bind_def] at h1
  cases h : parseRawFile plat b with
  | ok raw => exact ⟨raw, rfl⟩
  | err e => rw [h] at h1; cases h1
  | panic k => rw [h] at h1; cases h1

theorem readme_loaded {plat : Plat} {inflate : Inflater} {b : Bytes} {f : AsepriteFile} (hf : AsepriteFile.load plat b = .ok f) :
    readme plat inflate b =
      match f.renderFrame plat inflate 0 .visible (List.replicate (f.size.1.toNat * f.size.2.toNat * 4) 0) with
      | (.ok (), rgba) => .ok rgba
      | (.err e, _) => .err (.inr e)
      | (.panic k, _) => .panic k := by
  unfold readme
  rw [hf]
  rfl

/-- **C126.** The program in the README stops with an error exactly if the file does not load, with the error of `load`: the
second `?` never returns.  Where it does not panic the file loads, and the bytes are four for every pixel of the canvas:
the picture of frame 0 as the format describes it (in the reading of C58), over transparent black. -/
theorem C126_readme (plat : Plat) (inflate : Inflater) (b : Bytes) :
    (∀ e, readme plat inflate b = .err e ↔ ∃ e', e = .inl e' ∧ AsepriteFile.load plat b = .err e') ∧
    ∀ rgba, readme plat inflate b = .ok rgba → ∃ raw, parseRawFile plat b = .ok raw ∧
      rgba.length = raw.header.width.toNat * raw.header.height.toNat * 4 ∧
      ∀ x y, x < raw.header.width.toNat → y < raw.header.height.toNat →
        ∃ color, pixel rgba (y * raw.header.width.toNat + x) = some color ∧
          Doc.picture plat inflate (Doc.asRead (·.visible) raw) 0 x y ⟨0, 0, 0, 0⟩ = .ok color := by
  cases hf : AsepriteFile.load plat b with
  | err e => simp [readme, hf, eq_comm]
  | panic k => simp [readme, hf]
  | ok f =>
    obtain ⟨raw, hr⟩ := raw_of_load hf
    obtain ⟨hpos, hposf⟩ := first_frame hr hf
    obtain ⟨h1, -⟩ := load_ok.1 hf
    have hh : f.file.header = raw.header := (parsed_of_parse hr h1).header
    have hres := (C41_failures_partial plat b f hf inflate 0 _ (List.getElem?_eq_getElem hposf) .visible
      (List.replicate (f.size.1.toNat * f.size.2.toNat * 4) 0) (by simp)).1
    have hlen := (C36_buffer plat b f hf inflate 0 .visible
      (List.replicate (f.size.1.toNat * f.size.2.toNat * 4) 0)).2.2.1
    have hpic := C58_as_read plat b raw f hr hf inflate 0 hpos .visible (·.visible) (.inr (.inl ⟨rfl, rfl⟩))
      (List.replicate (f.size.1.toNat * f.size.2.toNat * 4) 0)
    rw [readme_loaded hf]
    rcases hrun : f.renderFrame plat inflate 0 .visible (List.replicate (f.size.1.toNat * f.size.2.toNat * 4) 0) with ⟨o, t'⟩
    rw [hrun] at hres hlen hpic
    dsimp only at hres hlen
    rcases hres with rfl | ⟨k, rfl⟩
    · refine ⟨fun e => by simp, ?_⟩
      intro rgba he
      obtain rfl := Outcome.ok.inj he
      refine ⟨raw, hr, ?_, ?_⟩
      · rw [hlen, List.length_replicate]
        simp only [AsepriteFile.size, hh]
      · intro x y hx hy
        obtain ⟨before, after, h2, h3, h4⟩ := hpic t' rfl x y hx hy
        have : before = ⟨0, 0, 0, 0⟩ := by
          unfold pixel at h2
          rw [List.drop_replicate] at h2
          revert h2
          generalize f.size.1.toNat * f.size.2.toNat * 4 - 4 * (y * raw.header.width.toNat + x) = n
          match n with
          | 0 | 1 | 2 | 3 => simp [List.replicate]
          | n + 4 => simp [List.replicate_succ, eq_comm]
        exact ⟨after, h3, this ▸ h4⟩
    · exact ⟨fun e => by simp, fun rgba he => nomatch he⟩

/-- **C126, success.** In a release build the program succeeds exactly if the file loads, and every cel of the first frame
that is on a visible layer (and not a group) has an image that can be decoded and a blend mode the crate knows. -/
theorem C126_succeeds (plat : Plat) (hd : plat.debug = false) (inflate : Inflater) (b : Bytes) :
    (∃ rgba, readme plat inflate b = .ok rgba) ↔
      ∃ f lf, AsepriteFile.load plat b = .ok f ∧ f.frames[0]? = some lf ∧
        ∀ c ∈ lf.cels, ∀ layer im, drawnOn f .visible c = some layer → f.images[c.imageIndex]? = some im →
          HasPixels inflate f.file im ∧ isKnown layer.blendMode = true := by
  cases hf : AsepriteFile.load plat b with
  | err e => simp [readme, hf]
  | panic k => simp [readme, hf]
  | ok f =>
    obtain ⟨raw, hr⟩ := raw_of_load hf
    obtain ⟨-, hposf⟩ := first_frame hr hf
    have key := C41_success_partial plat b f hf inflate 0 _ (List.getElem?_eq_getElem hposf) .visible
      (List.replicate (f.size.1.toNat * f.size.2.toNat * 4) 0) (by simp) (.inl hd)
    have e : (∃ rgba, readme plat inflate b = .ok rgba) ↔
        (f.renderFrame plat inflate 0 .visible (List.replicate (f.size.1.toNat * f.size.2.toNat * 4) 0)).1 = .ok () := by
      rw [readme_loaded hf]
      rcases f.renderFrame plat inflate 0 .visible (List.replicate (f.size.1.toNat * f.size.2.toNat * 4) 0) with ⟨_ | _ | _, t'⟩ <;> simp
    rw [e, key]
    constructor
    · intro h
      exact ⟨f, _, rfl, List.getElem?_eq_getElem hposf, h⟩
    · rintro ⟨f', lf, h1, h2, h3⟩
      obtain rfl := Outcome.ok.inj h1
      rw [List.getElem?_eq_getElem hposf] at h2
      obtain rfl := Option.some.inj h2
      exact h3

/-- **C126, builds.** Two builds (with or without overflow checks and assertions, with stacks of any size) on which the program
does not panic give the same. -/
theorem C126_builds (plat plat' : Plat) (inflate : Inflater) (b : Bytes) (h : Finished (readme plat inflate b))
    (h' : Finished (readme plat' inflate b)) : readme plat inflate b = readme plat' inflate b := by
  have fin : ∀ p : Plat, Finished (readme p inflate b) → Finished (AsepriteFile.load p b) := by
    intro p hp k hk
    exact hp k (by unfold readme; rw [hk])
  have hl := C57_load_agrees plat plat' b (fin _ h) (fin _ h')
  cases hf : AsepriteFile.load plat b with
  | err e => unfold readme; rw [← hl, hf]
  | panic k => exact absurd hf (fin _ h k)
  | ok f =>
    rw [hf] at hl
    have fin' : ∀ p : Plat, AsepriteFile.load p b = .ok f → Finished (readme p inflate b) →
        Finished (f.renderFrame p inflate 0 .visible (List.replicate (f.size.1.toNat * f.size.2.toNat * 4) 0)).1 := by
      intro p hp hfin k hk
      refine hfin k ?_
      rw [readme_loaded hp]
      revert hk
      rcases f.renderFrame p inflate 0 .visible (List.replicate (f.size.1.toNat * f.size.2.toNat * 4) 0) with ⟨_ | _ | _, t'⟩ <;> simp
    rw [readme_loaded hf, readme_loaded hl.symm, C57_render_agrees plat plat' inflate f 0 .visible _ (fin' _ hf h) (fin' _ hl.symm h')]

/-- The picture of the example of C37: two cels, the upper one multiplied. -/
example : readme ⟨false, 10⟩ Sample.inflate Sample.picture =
    .ok [10, 20, 30, 255, 0, 0, 0, 0, 0, 0, 0, 0, 40, 38, 51, 255, 200, 150, 100, 64, 0, 0, 0, 0] := by decide +kernel

/-- The other ways it ends: a file without frames, an image that is too short, and one that cannot be decompressed. -/
example : (∃ e, readme ⟨false, 10⟩ Sample.inflate (Sample.header 1 1 32) = .err (.inl e)) ∧
    readme ⟨false, 10⟩ Sample.inflate (Sample.header 1 1 32 ++ Sample.frame 1 [Sample.layer 1 0 0 255 [65],
      Sample.cel 0 0 0 1 1 [1, 2]]) = .panic .lengthMismatch ∧
    readme ⟨false, 10⟩ Sample.inflate (Sample.header 1 1 32 ++ Sample.frame 1 [Sample.layer 1 0 0 255 [65],
      Sample.zcel 0 0 0 1 1 [1, 2]]) = .panic .unwrapOnErr := by
  refine ⟨?_, by decide +kernel, by decide +kernel⟩
  have : (match readme ⟨false, 10⟩ Sample.inflate (Sample.header 1 1 32) with
    | .err (.inl _) => true | _ => false) = true := by decide +kernel
  revert this
  generalize readme ⟨false, 10⟩ Sample.inflate (Sample.header 1 1 32) = o
  rcases o with _ | (e | _) | _ <;> intro h
  · cases h
  · exact ⟨e, rfl⟩
  · cases h
  · cases h

end Ase
