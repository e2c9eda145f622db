import Verif.Props.Framing
import Verif.Lemmas.PanicsExact

/-!
# C10: truncated files
-/

namespace Ase

open Spec

private theorem seq_prefix {α : Type} {p : P α} {G : α → Bytes → Prop} (h : Parses p G) (hne : ∀ x l, G x l → l ≠ [])
    {xs ys : List α} {l l' t : Bytes} (hx : Seq G xs l) (hy : Seq G ys l') (e : l = l' ++ t) :
    ys = xs.take ys.length ∧ (t ≠ [] → ys.length < xs.length) ∧ Seq G (xs.drop ys.length) t := by
  induction hy generalizing xs l with
  | nil =>
    refine ⟨by simp, fun ht => ?_, by rw [e] at hx; exact hx⟩
    cases hx with
    | nil => exact absurd e.symm (by simpa using ht)
    | cons => simp
  | @cons y ys k ks hy hys ih =>
    cases hx with
    | nil =>
      exfalso
      have := hne _ _ hy
      have e := congrArg List.length e
      simp at e
      exact this (List.length_eq_zero_iff.1 (by omega))
    | @cons x xs k' ks' hx hxs =>
      have h1 := (h (k' ++ ks') ks' x).2 ⟨k', hx, rfl⟩
      have h2 := (h (k' ++ ks') (ks ++ t) y).2 ⟨k, hy, by rw [e]; simp⟩
      rw [h1] at h2
      cases h2
      have := ih hxs rfl
      exact ⟨by simp [← this.1], fun ht => by simp; exact this.2.1 ht, this.2.2⟩

/-- **C10.** Let `b` be a file that parses, cut after its first `n` bytes.
1. What is left parses exactly if the cut is at the end of a frame record that is neither before the first nor after the
   last one: `b` is a header, some frame records and some more of them, at least one on each side, and the cut is between
   the two.  The result then has the header and those leading frames of the file.
2. In all other cases (a cut inside the header, after the header, inside a frame or a chunk) it is an error, never a
   panic. -/
theorem C10_truncation (plat : Plat) (b : Bytes) (n : Nat) (f : RawFile) (hn : n < b.length)
    (hf : parseRawFile plat b = .ok f) :
    (∀ f', parseRawFile plat (b.take n) = .ok f' ↔ ∃ (header frames rest : Bytes) (m : Nat), 0 < m ∧
      m < f.frames.length ∧ IsHeader f.header header ∧
      Seq (IsFrame (readsUserData plat)) (f.frames.take m) frames ∧
      Seq (IsFrame (readsUserData plat)) (f.frames.drop m) rest ∧
      b = header ++ frames ++ rest ∧ n = header.length + frames.length ∧
      f' = { f with frames := f.frames.take m }) ∧
    ((∃ f', parseRawFile plat (b.take n) = .ok f') ∨ ∃ e, parseRawFile plat (b.take n) = .err e) := by
  refine ⟨fun f' => ⟨fun hf' => ?_, ?_⟩, ?_⟩
  · obtain ⟨h, fs, hh, hne, hs, hb⟩ := parseRawFile_ok.1 hf
    obtain ⟨h', fs', hh', hne', hs', hb'⟩ := parseRawFile_ok.1 hf'
    have hsplit : b = h' ++ (fs' ++ b.drop n) := by
      conv => lhs; rw [← List.take_append_drop n b, hb']
      simp
    have hdrop : b.drop n ≠ [] := by simp [List.drop_eq_nil_iff]; omega
    have h1 := (parses_header b fs f.header).2 ⟨h, hh, hb⟩
    have h2 := (parses_header b (fs' ++ b.drop n) f'.header).2 ⟨h', hh', hsplit⟩
    rw [h1] at h2
    injection h2 with h2
    injection h2 with h3 h4
    have key := seq_prefix (parses_rawframe plat) (fun _ _ => isFrame_ne) hs hs' h3
    refine ⟨h', fs', b.drop n, f'.frames.length, List.length_pos_iff.2 hne', key.2.1 hdrop, by rw [h4]; exact hh', ?_,
      key.2.2, by rw [List.append_assoc]; exact hsplit, ?_, ?_⟩
    · rw [← key.1]
      exact hs'
    · have := congrArg List.length hb'
      rw [List.length_take, List.length_append] at this
      omega
    · rw [← key.1, h4]
  · rintro ⟨header, frames, rest, m, hm, hm', hh, hs, _, hb, rfl, rfl⟩
    refine parseRawFile_ok.2 ⟨header, frames, hh, ?_, hs, ?_⟩
    · intro h
      have := congrArg List.length h
      rw [List.length_take, List.length_nil] at this
      omega
    · rw [hb, ← List.length_append, List.take_left]
  · cases hp : parseRawFile plat (b.take n) with
    | ok f' => exact .inl ⟨f', rfl⟩
    | err e => exact .inr ⟨e, rfl⟩
    | panic k =>
      exfalso
      obtain ⟨body, ⟨h, hb, fs, fb, frame, rest, old, duration, new, res, cs, cb, extra, hh, hs, hl, he, hres, hcs, hc, hbl,
        hfr⟩, hu⟩ := parseRawFile_panic_iff.1 hp
      have : parseRawFile plat b = .panic k := by
        refine parseRawFile_panic_iff.2 ⟨body, ⟨h, hb, fs, fb, frame, rest ++ b.drop n, old, duration, new, res, cs, cb,
          extra, hh, hs, hl, ?_, hres, hcs, hc, hbl, hfr⟩, hu⟩
        conv => lhs; rw [← List.take_append_drop n b, he]
        simp
      rw [hf] at this
      cases this

/-- Cutting the two frame file after its first frame is accepted, one byte earlier is not. -/
example :
    let header : Bytes := [0, 0, 0, 0, 0xE0, 0xA5] ++ [1, 0, 1, 0, 1, 0, 32, 0] ++ List.replicate 114 0
    let frame : Bytes := [16, 0, 0, 0, 0xFA, 0xF1, 0, 0, 100, 0, 0, 0, 0, 0, 0, 0]
    (match parseRawFile ⟨true, 10⟩ ((header ++ frame ++ frame).take 144) with
      | .ok f => f.frames.length == 1 | _ => false) = true ∧
    (match parseRawFile ⟨true, 10⟩ ((header ++ frame ++ frame).take 143) with | .err _ => true | _ => false) = true := by
  decide +kernel

end Ase
