import Verif.Lemmas.Deflate

/-!
# The zlib decoder accepts exactly the zlib streams
-/

namespace Ase.Zlib
open Spec.Deflate

/-- The decoder with the bits `b` to read, after writing `out` to a target of size `R`. -/
def atState (R : Nat) (b : List Bool) (out : Bytes) : St := ⟨b, R - out.length, out.reverse⟩

theorem bind_eq_ok {α β : Type} {x : D α} {f : α → D β} {st st'' : St} {b : β} (h : (x >>= f) st = .ok (b, st'')) :
    ∃ a st', x st = .ok (a, st') ∧ f a st' = .ok (b, st'') := by
  rw [bind_run] at h
  split at h
  · next a st' hx => exact ⟨a, st', hx, h⟩
  · cases h

/-! ## Steps that only read -/

theorem number_run (k v : Nat) (hv : v < 2 ^ k) (R : Nat) (rest : List Bool) (out : Bytes) :
    number k (atState R (lsb k v ++ rest) out) = .ok (v, atState R rest out) := by
  rw [lsb_eq]
  exact number_bitsOf k v hv rest _ _

theorem number_ok {k v : Nat} {st st' : St} (h : number k st = .ok (v, st')) :
    v < 2 ^ k ∧ st = ⟨lsb k v ++ st'.bits, st'.room, st'.out⟩ := by
  induction k generalizing v st with
  | zero => cases h; exact ⟨by decide, rfl⟩
  | succ k ih =>
    rw [number] at h
    obtain ⟨b, s1, h1, h⟩ := bind_eq_ok h
    obtain ⟨u, s2, h2, h⟩ := bind_eq_ok h
    cases h
    obtain ⟨h3, h4⟩ := ih h2
    obtain ⟨bs, r, o⟩ := st
    cases bs with
    | nil => cases h1
    | cons c bs =>
      cases h1
      cases h4
      refine ⟨by rw [Nat.pow_succ]; cases b <;> simp <;> omega, ?_⟩
      have e1 : (b.toNat + 2 * u).testBit 0 = b := by cases b <;> simp [Nat.testBit_zero] <;> omega
      have e2 : (b.toNat + 2 * u) / 2 = u := by cases b <;> simp <;> omega
      simp only [lsb_eq, bitsOf, e1, e2, List.cons_append]

theorem number_at {k v R : Nat} {b : List Bool} {out : Bytes} {st' : St} (h : number k (atState R b out) = .ok (v, st')) :
    v < 2 ^ k ∧ ∃ rest, b = lsb k v ++ rest ∧ st' = atState R rest out := by
  obtain ⟨h1, h2⟩ := number_ok h
  obtain ⟨b', r', o'⟩ := st'
  simp only [atState, St.mk.injEq] at h2
  obtain ⟨e1, e2, e3⟩ := h2
  exact ⟨h1, b', e1, by rw [atState, e2, e3]⟩

theorem symbol_at_run {lens : List Nat} (hf : Fits lens) {s : Nat} {w : List Bool} (h : Codeword lens s w) (R : Nat)
    (rest : List Bool) (out : Bytes) :
    symbol (groups lens) 0 (atState R (w ++ rest) out) = .ok (s, atState R rest out) :=
  symbol_codeword hf h rest _ _

theorem symbol_at {lens : List Nat} (hf : Fits lens) {s R : Nat} {b : List Bool} {out : Bytes} {st' : St}
    (h : symbol (groups lens) 0 (atState R b out) = .ok (s, st')) :
    ∃ w rest, Codeword lens s w ∧ b = w ++ rest ∧ st' = atState R rest out := by
  obtain ⟨w, h1, h2⟩ := codeword_of_symbol hf h
  obtain ⟨b', r', o'⟩ := st'
  simp only [atState, St.mk.injEq] at h2
  obtain ⟨e1, e2, e3⟩ := h2
  exact ⟨w, b', h1, e1, by rw [atState, e2, e3]⟩

theorem lengthTable_eq : ∀ i < 29, lengthTable[i]? = some (lengthBase i, lengthExtra i) := by decide +kernel

theorem distanceTable_eq : ∀ i < 30, distanceTable[i]? = some (distanceBase i, distanceExtra i) := by decide +kernel

theorem length_run (i e : Nat) (hi : i < 29) (he : e < 2 ^ lengthExtra i) (R : Nat) (rest : List Bool) (out : Bytes) :
    extended lengthTable i (atState R (lsb (lengthExtra i) e ++ rest) out) = .ok (lengthBase i + e, atState R rest out) := by
  unfold extended
  rw [lengthTable_eq i hi]
  simp only
  rw [bind_ok (number_run _ _ he _ _ _)]
  rfl

theorem distance_run (i e : Nat) (hi : i < 30) (he : e < 2 ^ distanceExtra i) (R : Nat) (rest : List Bool) (out : Bytes) :
    extended distanceTable i (atState R (lsb (distanceExtra i) e ++ rest) out) =
      .ok (distanceBase i + e, atState R rest out) := by
  unfold extended
  rw [distanceTable_eq i hi]
  simp only
  rw [bind_ok (number_run _ _ he _ _ _)]
  rfl

theorem extended_at {t : List (Nat × Nat)} {i v R : Nat} {b : List Bool} {out : Bytes} {st' : St}
    (h : extended t i (atState R b out) = .ok (v, st')) :
    ∃ base extra e rest, t[i]? = some (base, extra) ∧ e < 2 ^ extra ∧ v = base + e ∧ b = lsb extra e ++ rest ∧
      st' = atState R rest out := by
  unfold extended at h
  cases ht : t[i]? with
  | some p =>
    obtain ⟨base, extra⟩ := p
    rw [ht] at h
    obtain ⟨e, s1, h1, h⟩ := bind_eq_ok h
    cases h
    obtain ⟨h2, rest, h3, h4⟩ := number_at h1
    exact ⟨base, extra, e, rest, rfl, h2, rfl, h3, h4⟩
  | none => rw [ht] at h; cases h

theorem length_at {i v R : Nat} {b : List Bool} {out : Bytes} {st' : St}
    (h : extended lengthTable i (atState R b out) = .ok (v, st')) :
    i < 29 ∧ ∃ e rest, e < 2 ^ lengthExtra i ∧ v = lengthBase i + e ∧ b = lsb (lengthExtra i) e ++ rest ∧
      st' = atState R rest out := by
  obtain ⟨base, extra, e, rest, h1, h2, h3, h4, h5⟩ := extended_at h
  have hi : i < 29 := (List.getElem?_eq_some_iff.1 h1).1
  rw [lengthTable_eq i hi] at h1
  cases h1
  exact ⟨hi, e, rest, h2, h3, h4, h5⟩

theorem distance_at {i v R : Nat} {b : List Bool} {out : Bytes} {st' : St}
    (h : extended distanceTable i (atState R b out) = .ok (v, st')) :
    i < 30 ∧ ∃ e rest, e < 2 ^ distanceExtra i ∧ v = distanceBase i + e ∧ b = lsb (distanceExtra i) e ++ rest ∧
      st' = atState R rest out := by
  obtain ⟨base, extra, e, rest, h1, h2, h3, h4, h5⟩ := extended_at h
  have hi : i < 30 := (List.getElem?_eq_some_iff.1 h1).1
  rw [distanceTable_eq i hi] at h1
  cases h1
  exact ⟨hi, e, rest, h2, h3, h4, h5⟩

/-! ## Output -/

theorem emit_run (x : UInt8) (R : Nat) (b : List Bool) (out : Bytes) (h : out.length < R) :
    emit x (atState R b out) = .ok ((), atState R b (out ++ [x])) := by
  unfold emit atState
  obtain ⟨r, hr⟩ : ∃ r, R - out.length = r + 1 := ⟨R - out.length - 1, by omega⟩
  simp only [hr, List.length_append, List.length_cons, List.length_nil, List.reverse_append, List.reverse_cons,
    List.reverse_nil, List.nil_append, List.cons_append, Except.ok.injEq, Prod.mk.injEq, St.mk.injEq, and_true, true_and]
  omega

theorem emit_at {x : UInt8} {R : Nat} {b : List Bool} {out : Bytes} {st' : St}
    (h : emit x (atState R b out) = .ok ((), st')) : out.length < R ∧ st' = atState R b (out ++ [x]) := by
  by_cases hr : out.length < R
  · rw [emit_run x R b out hr] at h
    cases h
    exact ⟨hr, rfl⟩
  · unfold emit atState at h
    simp only [show R - out.length = 0 by omega] at h
    cases h

theorem back (out : Bytes) (d : Nat) (hd : 0 < d) (h : d ≤ out.length) : out.reverse[d - 1]? = out[out.length - d]? := by
  rw [List.getElem?_reverse (by omega), show out.length - 1 - (d - 1) = out.length - d by omega]

theorem copy_run (d n : Nat) (hd : 0 < d) (R : Nat) (b : List Bool) (out mid : Bytes) (h : Copied out n d mid)
    (hr : mid.length ≤ R) : copy d n (atState R b out) = .ok ((), atState R b mid) := by
  induction n generalizing out with
  | zero =>
    obtain ⟨_, h2, h3, _⟩ := h
    rw [h2.eq_of_length (by omega)]
    rfl
  | succ n ih =>
    obtain ⟨h1, ⟨tl, rfl⟩, h3, h4⟩ := h
    cases tl with
    | nil => simp at h3
    | cons x tl =>
      have hx := h4 out.length (Nat.le_refl _) (by rw [h3]; omega)
      rw [List.getElem?_append_right (Nat.le_refl _), Nat.sub_self, List.getElem?_append_left (by omega)] at hx
      rw [copy, bind_ok (get_run _)]
      rw [show (atState R b out).out = out.reverse from rfl, back out d hd h1, ← hx]
      simp only [List.getElem?_cons_zero]
      rw [bind_ok (emit_run x R b out (by omega))]
      refine ih (out ++ [x]) ⟨by simp; omega, ⟨tl, by simp⟩, by simp at h3 ⊢; omega, ?_⟩
      intro i hi hi'
      exact h4 i (by simp at hi; omega) hi'

theorem copy_at {d n : Nat} (hd : 0 < d) {R : Nat} {b : List Bool} {out : Bytes} {st' : St} (hR : out.length ≤ R)
    (h : copy d n (atState R b out) = .ok ((), st')) :
    ∃ mid, st' = atState R b mid ∧ mid.length ≤ R ∧ out <+: mid ∧ mid.length = out.length + n ∧ (0 < n → d ≤ out.length) ∧
      ∀ i, out.length ≤ i → i < mid.length → mid[i]? = mid[i - d]? := by
  induction n generalizing out with
  | zero =>
    cases h
    refine ⟨out, rfl, hR, List.prefix_refl _, rfl, fun h => absurd h (by decide), fun i h1 h2 => ?_⟩
    omega
  | succ n ih =>
    rw [copy] at h
    obtain ⟨_, _, h1, h⟩ := bind_eq_ok h
    cases h1
    rw [show (atState R b out).out = out.reverse from rfl] at h
    cases hx : out.reverse[d - 1]? with
    | some x =>
      rw [hx] at h
      obtain ⟨_, s, h1, h⟩ := bind_eq_ok h
      obtain ⟨hlt, rfl⟩ := emit_at h1
      have hdl : d - 1 < out.length := by
        have := (List.getElem?_eq_some_iff.1 hx).1
        simpa using this
      rw [back out d hd (by omega)] at hx
      obtain ⟨mid, h2, h3, h4, h5, _, h6⟩ := ih (by simp; omega) h
      obtain ⟨tl, rfl⟩ := h4
      simp only [List.length_append, List.length_cons, List.length_nil] at h5 h6
      refine ⟨_, h2, h3, ⟨[x] ++ tl, by simp⟩, by simp only [List.length_append, List.length_cons, List.length_nil]; omega,
        fun _ => by omega, ?_⟩
      intro i hi hi'
      by_cases he : i = out.length
      · subst he
        rw [show (out ++ [x] ++ tl)[out.length]? = some x by simp, List.append_assoc, List.getElem?_append_left (by omega), hx]
      · simp only [List.length_append, List.length_cons, List.length_nil] at hi'
        exact h6 i (by omega) hi'
    | none => rw [hx] at h; cases h

/-! ## Compressed data -/

theorem Items.grows {lit dist : List Nat} {out : Bytes} {ws : List Bool} {out' : Bytes} (h : Items lit dist out ws out') :
    out.length ≤ out'.length := by
  induction h with
  | stop => exact Nat.le_refl _
  | literal x _ _ ih => simp at ih; omega
  | copy i e j d _ _ _ _ _ _ hc _ ih =>
    obtain ⟨_, _, h3, _⟩ := hc
    omega

theorem codes_run {lit dist : List Nat} (hl : Fits lit) (hd : Fits dist) {out : Bytes} {ws : List Bool} {out' : Bytes}
    (h : Items lit dist out ws out') (fuel R : Nat) (rest : List Bool) (hf : ws.length < fuel) (hR : out'.length ≤ R) :
    codes (groups lit) (groups dist) fuel (atState R (ws ++ rest) out) = .ok ((), atState R rest out') := by
  induction h generalizing fuel with
  | stop hw =>
    obtain ⟨f, rfl⟩ : ∃ f, fuel = f + 1 := ⟨fuel - 1, by omega⟩
    rw [codes, bind_ok (symbol_at_run hl hw R rest _)]
    simp [pure_run]
  | @literal out w ws out' x hw hi ih =>
    obtain ⟨f, rfl⟩ : ∃ f, fuel = f + 1 := ⟨fuel - 1, by omega⟩
    have hp := Codeword.pos hw
    have hg := Items.grows hi
    simp only [List.length_append, List.length_cons, List.length_nil] at hf hg
    rw [codes, List.append_assoc, bind_ok (symbol_at_run hl hw R _ _), if_pos x.toNat_lt]
    have hx : x.toNat.toUInt8 = x := by simp
    rw [hx, bind_ok (emit_run x R _ _ (by omega))]
    exact ih f (by omega) hR
  | @copy out w v ws mid out' i e j d hw hi he hv hj hd' hc hit ih =>
    obtain ⟨f, rfl⟩ : ∃ f, fuel = f + 1 := ⟨fuel - 1, by omega⟩
    have hp := Codeword.pos hw
    have hg := Items.grows hit
    simp only [List.length_append] at hf
    simp only [List.append_assoc]
    rw [codes, bind_ok (symbol_at_run hl hw R _ _), if_neg (by omega), if_neg (by omega),
      show 257 + i - 257 = i by omega, bind_ok (length_run i e hi he R _ _), bind_ok (symbol_at_run hd hv R _ _),
      bind_ok (distance_run j d hj hd' R _ _), bind_ok (copy_run _ _ (by unfold distanceBase; omega) R _ _ _ hc (by omega))]
    exact ih f (by omega) hR

theorem codes_at {lit dist : List Nat} (hl : Fits lit) (hd : Fits dist) {fuel R : Nat} {b : List Bool} {out : Bytes}
    {st' : St} (hR : out.length ≤ R) (h : codes (groups lit) (groups dist) fuel (atState R b out) = .ok ((), st')) :
    ∃ ws rest out', b = ws ++ rest ∧ Items lit dist out ws out' ∧ out'.length ≤ R ∧ st' = atState R rest out' := by
  induction fuel generalizing b out with
  | zero => cases h
  | succ fuel ih =>
    rw [codes] at h
    obtain ⟨s, s1, h1, h⟩ := bind_eq_ok h
    obtain ⟨w, rest, hw, rfl, rfl⟩ := symbol_at hl h1
    split at h
    · next hs =>
      obtain ⟨_, s2, h2, h⟩ := bind_eq_ok h
      obtain ⟨hlt, rfl⟩ := emit_at h2
      obtain ⟨ws, rest', out', rfl, h3, h4, h5⟩ := ih (by simp; omega) h
      refine ⟨w ++ ws, rest', out', by simp, Items.literal _ ?_ h3, h4, h5⟩
      have : s.toUInt8.toNat = s := by rw [Nat.toUInt8, UInt8.toNat_ofNat', Nat.mod_eq_of_lt hs]
      rw [this]
      exact hw
    · split at h
      · next hs =>
        cases h
        subst hs
        exact ⟨w, rest, out, rfl, Items.stop hw, hR, rfl⟩
      · next h256 hne =>
        obtain ⟨n, s2, h2, h⟩ := bind_eq_ok h
        obtain ⟨hi, e, rest2, he, hn, hb, rfl⟩ := length_at h2
        obtain ⟨j, s3, h3, h⟩ := bind_eq_ok h
        obtain ⟨v, rest3, hv, rfl, rfl⟩ := symbol_at hd h3
        obtain ⟨m, s4, h4, h⟩ := bind_eq_ok h
        obtain ⟨hj, d, rest4, hdd, hn', hb', rfl⟩ := distance_at h4
        obtain ⟨_, s5, h5, h⟩ := bind_eq_ok h
        obtain ⟨mid, rfl, h6, h7, h8, h9, h10⟩ := copy_at (by rw [hn']; unfold distanceBase; omega) hR h5
        obtain ⟨ws, rest', out', rfl, h11, h12, h13⟩ := ih h6 h
        have hpos : 0 < n := by rw [hn]; unfold lengthBase; split <;> omega
        rw [hn] at h8
        rw [hn'] at h9 h10
        refine ⟨w ++ lsb (lengthExtra (s - 257)) e ++ v ++ lsb (distanceExtra j) d ++ ws, rest', out', by rw [hb, hb']; simp,
          Items.copy (s - 257) e j d ?_ hi he hv hj hdd ⟨h9 hpos, h7, h8, h10⟩ h11, h12, h13⟩
        rw [show 257 + (s - 257) = s by omega]
        exact hw

/-! ## Code lengths -/

theorem codeLengths_succ (gs : List (List Nat)) (n fuel : Nat) (acc : List Nat) : codeLengths gs n (fuel + 1) acc =
    (if n ≤ acc.length then (if acc.length = n then pure acc.reverse else fail .error)
    else do
      let s ← symbol gs 0
      if s < 16 then codeLengths gs n fuel (s :: acc)
      else if s = 16 then
        match acc with
        | [] => fail .error
        | x :: _ => do
          let r ← number 2
          codeLengths gs n fuel (List.replicate (3 + r) x ++ acc)
      else if s = 17 then do
        let r ← number 3
        codeLengths gs n fuel (List.replicate (3 + r) 0 ++ acc)
      else do
        let r ← number 7
        codeLengths gs n fuel (List.replicate (11 + r) 0 ++ acc)) := by
  cases acc <;> rfl

theorem Lengths.grows {cl xs ys : List Nat} {ws : List Bool} (h : Lengths cl xs ws ys) :
    xs.length ≤ ys.length ∧ (ws ≠ [] → xs.length < ys.length) := by
  induction h with
  | done => exact ⟨Nat.le_refl _, fun h => absurd rfl h⟩
  | one s _ _ _ ih => simp at ih; exact ⟨by omega, fun _ => by omega⟩
  | again r x _ _ _ _ ih => simp at ih; exact ⟨by omega, fun _ => by omega⟩
  | zeros r _ _ _ ih => simp at ih; exact ⟨by omega, fun _ => by omega⟩
  | manyZeros r _ _ _ ih => simp at ih; exact ⟨by omega, fun _ => by omega⟩

theorem codeLengths_run {cl : List Nat} (hc : Fits cl) {xs ys : List Nat} {ws : List Bool} (h : Lengths cl xs ws ys)
    (n : Nat) (hn : ys.length = n) (fuel : Nat) (hf : n - xs.length < fuel) (R : Nat) (rest : List Bool) (out : Bytes) :
    codeLengths (groups cl) n fuel xs.reverse (atState R (ws ++ rest) out) = .ok (ys, atState R rest out) := by
  induction h generalizing fuel with
  | done =>
    obtain ⟨f, rfl⟩ : ∃ f, fuel = f + 1 := ⟨fuel - 1, by omega⟩
    rw [codeLengths_succ, if_pos (by simp; omega), if_pos (by simpa using hn), List.reverse_reverse]
    rfl
  | @one xs w ws ys s hs hw hl ih =>
    obtain ⟨f, rfl⟩ : ∃ f, fuel = f + 1 := ⟨fuel - 1, by omega⟩
    have hg := (Lengths.grows hl).1
    simp only [List.length_append, List.length_cons, List.length_nil] at hg ih
    rw [codeLengths_succ, if_neg (by simp; omega), List.append_assoc, bind_ok (symbol_at_run hc hw R _ _), if_pos hs]
    have := ih hn f (by omega)
    rw [List.reverse_append] at this
    exact this
  | @again xs w ws ys r x hw hr hx hl ih =>
    obtain ⟨f, rfl⟩ : ∃ f, fuel = f + 1 := ⟨fuel - 1, by omega⟩
    have hg := (Lengths.grows hl).1
    simp only [List.length_append, List.length_replicate] at hg ih
    simp only [List.append_assoc]
    rw [codeLengths_succ, if_neg (by simp; omega), bind_ok (symbol_at_run hc hw R _ _), if_neg (by decide), if_pos rfl]
    obtain ⟨tl, hxs⟩ : ∃ tl, xs.reverse = x :: tl := by
      cases hc : xs.reverse with
      | nil => rw [List.reverse_eq_nil_iff] at hc; subst hc; cases hx
      | cons y tl =>
        have := List.head?_reverse (l := xs)
        rw [hc, hx] at this
        cases this
        exact ⟨tl, rfl⟩
    have := ih hn f (by omega)
    rw [List.reverse_append, List.reverse_replicate] at this
    rw [hxs] at this ⊢
    simp only
    rw [bind_ok (number_run 2 r hr R _ _)]
    exact this
  | @zeros xs w ws ys r hw hr hl ih =>
    obtain ⟨f, rfl⟩ : ∃ f, fuel = f + 1 := ⟨fuel - 1, by omega⟩
    have hg := (Lengths.grows hl).1
    simp only [List.length_append, List.length_replicate] at hg ih
    simp only [List.append_assoc]
    rw [codeLengths_succ, if_neg (by simp; omega), bind_ok (symbol_at_run hc hw R _ _), if_neg (by decide), if_neg (by decide),
      if_pos rfl, bind_ok (number_run 3 r hr R _ _)]
    have := ih hn f (by omega)
    rw [List.reverse_append, List.reverse_replicate] at this
    exact this
  | @manyZeros xs w ws ys r hw hr hl ih =>
    obtain ⟨f, rfl⟩ : ∃ f, fuel = f + 1 := ⟨fuel - 1, by omega⟩
    have hg := (Lengths.grows hl).1
    simp only [List.length_append, List.length_replicate] at hg ih
    simp only [List.append_assoc]
    rw [codeLengths_succ, if_neg (by simp; omega), bind_ok (symbol_at_run hc hw R _ _), if_neg (by decide), if_neg (by decide),
      if_neg (by decide), bind_ok (number_run 7 r hr R _ _)]
    have := ih hn f (by omega)
    rw [List.reverse_append, List.reverse_replicate] at this
    exact this

theorem codeLengths_at {cl : List Nat} (hc : Fits cl) (hcl : cl.length ≤ 19) {n fuel R : Nat} {xs ys : List Nat}
    {b : List Bool} {out : Bytes} {st' : St}
    (h : codeLengths (groups cl) n fuel xs.reverse (atState R b out) = .ok (ys, st')) :
    ∃ ws rest, b = ws ++ rest ∧ Lengths cl xs ws ys ∧ ys.length = n ∧ st' = atState R rest out := by
  induction fuel generalizing xs b with
  | zero => rw [codeLengths.eq_1] at h; cases h
  | succ fuel ih =>
    rw [codeLengths_succ] at h
    split at h
    · split at h
      · next hn =>
        rw [List.reverse_reverse] at h
        cases h
        exact ⟨[], b, rfl, Lengths.done, by simpa using hn, rfl⟩
      · cases h
    · obtain ⟨s, s1, h1, h⟩ := bind_eq_ok h
      obtain ⟨w, rest, hw, rfl, rfl⟩ := symbol_at hc h1
      have hs : s < 19 := by
        obtain ⟨l, hl, _⟩ := hw
        have := (List.getElem?_eq_some_iff.1 hl).1
        omega
      split at h
      · next h16 =>
        have e : s :: xs.reverse = (xs ++ [s]).reverse := by simp
        rw [e] at h
        obtain ⟨ws, rest', rfl, h2, h3, h4⟩ := ih h
        exact ⟨w ++ ws, rest', by simp, Lengths.one s h16 hw h2, h3, h4⟩
      · split at h
        · next h16 =>
          subst h16
          cases hx : xs.reverse with
          | nil => rw [hx] at h; cases h
          | cons x tl =>
            rw [hx] at h
            simp only at h
            obtain ⟨r, s2, h2, h⟩ := bind_eq_ok h
            obtain ⟨hr, rest2, rfl, rfl⟩ := number_at h2
            have e : List.replicate (3 + r) x ++ x :: tl = (xs ++ List.replicate (3 + r) x).reverse := by
              rw [List.reverse_append, List.reverse_replicate, hx]
            rw [e] at h
            obtain ⟨ws, rest', rfl, h3, h4, h5⟩ := ih h
            have hl : xs.getLast? = some x := by rw [← List.head?_reverse, hx]; rfl
            exact ⟨w ++ lsb 2 r ++ ws, rest', by simp, Lengths.again r x hw hr hl h3, h4, h5⟩
        · split at h
          · next h17 =>
            subst h17
            obtain ⟨r, s2, h2, h⟩ := bind_eq_ok h
            obtain ⟨hr, rest2, rfl, rfl⟩ := number_at h2
            have e : List.replicate (3 + r) 0 ++ xs.reverse = (xs ++ List.replicate (3 + r) 0).reverse := by
              rw [List.reverse_append, List.reverse_replicate]
            rw [e] at h
            obtain ⟨ws, rest', rfl, h3, h4, h5⟩ := ih h
            exact ⟨w ++ lsb 3 r ++ ws, rest', by simp, Lengths.zeros r hw hr h3, h4, h5⟩
          · obtain ⟨r, s2, h2, h⟩ := bind_eq_ok h
            obtain ⟨hr, rest2, rfl, rfl⟩ := number_at h2
            have e : List.replicate (11 + r) 0 ++ xs.reverse = (xs ++ List.replicate (11 + r) 0).reverse := by
              rw [List.reverse_append, List.reverse_replicate]
            rw [e] at h
            obtain ⟨ws, rest', rfl, h3, h4, h5⟩ := ih h
            have h18 : s = 18 := by omega
            subst h18
            exact ⟨w ++ lsb 7 r ++ ws, rest', by simp, Lengths.manyZeros r hw hr h3, h4, h5⟩

theorem threeBits_run (ls : List Nat) (h : ∀ l ∈ ls, l < 8) (R : Nat) (rest : List Bool) (out : Bytes) :
    threeBits ls.length (atState R (ls.flatMap (lsb 3) ++ rest) out) = .ok (ls, atState R rest out) := by
  induction ls with
  | nil => rfl
  | cons l ls ih =>
    rw [List.length_cons, threeBits, List.flatMap_cons, List.append_assoc,
      bind_ok (number_run 3 l (h l (by simp)) R _ _), bind_ok (ih fun l hl => h l (by simp [hl]))]
    rfl

theorem threeBits_at {k R : Nat} {ls : List Nat} {b : List Bool} {out : Bytes} {st' : St}
    (h : threeBits k (atState R b out) = .ok (ls, st')) :
    ls.length = k ∧ (∀ l ∈ ls, l < 8) ∧ ∃ rest, b = ls.flatMap (lsb 3) ++ rest ∧ st' = atState R rest out := by
  induction k generalizing ls b with
  | zero => cases h; exact ⟨rfl, by simp, b, rfl, rfl⟩
  | succ k ih =>
    rw [threeBits] at h
    obtain ⟨x, s1, h1, h⟩ := bind_eq_ok h
    obtain ⟨hx, rest, rfl, rfl⟩ := number_at h1
    obtain ⟨xs, s2, h2, h⟩ := bind_eq_ok h
    cases h
    obtain ⟨h3, h4, rest', rfl, h5⟩ := ih h2
    refine ⟨by simp [h3], ?_, rest', by simp, h5⟩
    intro l hl
    cases hl with
    | head => exact hx
    | tail _ hm => exact h4 l hm

/-- The lengths of the code of code lengths the decoder makes from those given. -/
def spread (ls : List Nat) : List Nat := (List.range 19).map fun i => ((lengthOrder.zip ls).lookup i).getD 0

theorem lookup_zip (os ls : List Nat) (hn : os.Nodup) (k s : Nat) (h : os[k]? = some s) : (os.zip ls).lookup s = ls[k]? := by
  induction os generalizing ls k with
  | nil => cases h
  | cons o os ih =>
    cases ls with
    | nil => simp
    | cons l ls =>
      rw [List.zip_cons_cons, List.lookup_cons]
      have h1 := (List.nodup_cons.1 hn).1
      cases k with
      | zero => cases h; simp
      | succ k =>
        have : s ≠ o := fun e => h1 (e ▸ List.mem_of_getElem? h)
        rw [show (s == o) = false by simpa using this]
        exact ih ls (List.nodup_cons.1 hn).2 k h

theorem spread_inOrder (ls : List Nat) : InOrder ls (spread ls) := by
  refine ⟨by simp [spread], fun k s h => ?_⟩
  have hs : ∀ k < 19, ∀ s, order[k]? = some s → s < 19 := by
    have : ∀ k < 19, ∀ s ∈ order[k]?, s < 19 := by decide +kernel
    exact this
  have hk : k < 19 := (List.getElem?_eq_some_iff.1 h).1
  unfold spread
  rw [List.getElem?_map, List.getElem?_range (hs k hk s h), Option.map_some, lookup_zip lengthOrder ls (by decide +kernel) k s h]

theorem InOrder.unique {ls cl : List Nat} (h : InOrder ls cl) : cl = spread ls := by
  have h' := spread_inOrder ls
  apply List.ext_getElem?
  intro s
  by_cases hs : s < 19
  · have : ∀ s < 19, ∃ k < 19, order[k]? = some s := by decide +kernel
    obtain ⟨k, _, hk⟩ := this s hs
    rw [h.2 k s hk, h'.2 k s hk]
  · rw [List.getElem?_eq_none (by rw [h.1]; omega), List.getElem?_eq_none (by rw [h'.1]; omega)]

/-! ## Blocks -/

theorem dynamic_run {out : Bytes} {ws vs : List Bool} {out' : Bytes} (nlit ndist : Nat) (ls cl ys : List Nat)
    (h1 : 257 ≤ nlit) (h2 : nlit ≤ 286) (h3 : 1 ≤ ndist) (h4 : ndist ≤ 30) (h5 : 4 ≤ ls.length) (h6 : ls.length ≤ 19)
    (h7 : ∀ l ∈ ls, l < 8) (h8 : InOrder ls cl) (h9 : Usable cl) (h10 : Lengths cl [] vs ys)
    (h11 : ys.length = nlit + ndist) (h12 : Usable (ys.take nlit)) (h13 : Usable (ys.drop nlit))
    (h14 : Items (ys.take nlit) (ys.drop nlit) out ws out') (R : Nat) (rest : List Bool) (hR : out'.length ≤ R) :
    dynamic (atState R (lsb 5 (nlit - 257) ++ lsb 5 (ndist - 1) ++ lsb 4 (ls.length - 4) ++ ls.flatMap (lsb 3) ++ vs ++ ws ++
      rest) out) = .ok ((), atState R rest out') := by
  have e := InOrder.unique h8
  simp only [List.append_assoc]
  rw [dynamic, bind_ok (number_run 5 _ (by omega) R _ _), bind_ok (number_run 5 _ (by omega) R _ _),
    bind_ok (number_run 4 _ (by omega) R _ _)]
  dsimp only
  rw [if_neg (by omega), show ls.length - 4 + 4 = ls.length by omega, bind_ok (threeBits_run ls h7 R _ _)]
  have e1 : (List.range 19).map (fun i => ((lengthOrder.zip ls).lookup i).getD 0) = cl := e.symm
  rw [e1]
  rw [if_neg (by simp [(usable_iff cl).2 h9]), show nlit - 257 + 257 + (ndist - 1 + 1) = nlit + ndist by omega,
    bind_ok (show codeLengths (groups cl) (nlit + ndist) (nlit - 257 + (ndist - 1) + 259) []
      (atState R (vs ++ (ws ++ rest)) out) = _ from
      codeLengths_run (Usable.fits h9) h10 (nlit + ndist) h11 _ (by simp; omega) R _ _)]
  rw [show nlit - 257 + 257 = nlit by omega]
  rw [if_neg (by simp [(usable_iff _).2 h12, (usable_iff _).2 h13]), bind_ok (get_run _)]
  exact codes_run (Usable.fits h12) (Usable.fits h13) h14 _ R rest (by simp [atState]; omega) hR

theorem dynamic_at {R : Nat} {b : List Bool} {out : Bytes} {st' : St} (pos : Nat) (hR : out.length ≤ R)
    (h : dynamic (atState R b out) = .ok ((), st')) :
    ∃ ws rest out', b = ws ++ rest ∧ Block pos 2 out ws out' ∧ out'.length ≤ R ∧ st' = atState R rest out' := by
  rw [dynamic] at h
  obtain ⟨hlit, s1, h1, h⟩ := bind_eq_ok h
  obtain ⟨hl, r1, rfl, rfl⟩ := number_at h1
  obtain ⟨hdist, s1, h1, h⟩ := bind_eq_ok h
  obtain ⟨hd, r2, rfl, rfl⟩ := number_at h1
  obtain ⟨hclen, s1, h1, h⟩ := bind_eq_ok h
  obtain ⟨hc, r3, rfl, rfl⟩ := number_at h1
  dsimp only at h
  split at h
  · cases h
  · next hb =>
    obtain ⟨ls, s1, h1, h⟩ := bind_eq_ok h
    obtain ⟨hls, hls8, r4, rfl, rfl⟩ := threeBits_at h1
    have e1 : (List.range 19).map (fun i => ((lengthOrder.zip ls).lookup i).getD 0) = spread ls := rfl
    rw [e1] at h
    split at h
    · cases h
    · next hu =>
      have hu : Usable (spread ls) := (usable_iff _).1 (by simpa using hu)
      obtain ⟨ys, s1, h1, h⟩ := bind_eq_ok h
      obtain ⟨vs, r5, rfl, hL, hy, rfl⟩ := codeLengths_at (xs := []) (Usable.fits hu) (by rw [(spread_inOrder ls).1]; decide) h1
      split at h
      · cases h
      · next hu2 =>
        simp only [Bool.not_eq_true', Bool.not_eq_false, Bool.and_eq_true, usable_iff] at hu2
        obtain ⟨_, s1, h1, h⟩ := bind_eq_ok h
        cases h1
        obtain ⟨ws, rest, out', rfl, hI, hR', hst⟩ := codes_at (Usable.fits hu2.1) (Usable.fits hu2.2) hR h
        have key := Block.dynamic (pos := pos) (hlit + 257) (hdist + 1) ls (spread ls) ys (by omega) (by omega) (by omega)
          (by omega) (by omega) (by omega) hls8 (spread_inOrder ls) hu hL hy hu2.1 hu2.2 hI
        rw [show hlit + 257 - 257 = hlit by omega, show hdist + 1 - 1 = hdist by omega,
          show ls.length - 4 = hclen by omega] at key
        exact ⟨_, rest, out', by simp only [List.append_assoc], key, hR', hst⟩

theorem bits_length (data : Bytes) : (bits data).length = 8 * data.length := flatMap_length data

theorem lsb_length (k v : Nat) : (lsb k v).length = k := by simp [lsb]

theorem copyRaw_at_run (data : Bytes) (R : Nat) (rest : List Bool) (out : Bytes) (hR : (out ++ data).length ≤ R) :
    copyRaw data.length (atState R (bits data ++ rest) out) = .ok ((), atState R rest (out ++ data)) := by
  simp only [List.length_append] at hR
  unfold atState
  rw [bits_eq, copyRaw_run data rest _ _ (by omega)]
  simp only [List.length_append, List.reverse_append, Nat.sub_sub]

theorem copyRaw_at {n R : Nat} {b : List Bool} {out : Bytes} {st' : St} (hR : out.length ≤ R)
    (h : copyRaw n (atState R b out) = .ok ((), st')) :
    ∃ data rest, data.length = n ∧ b = bits data ++ rest ∧ (out ++ data).length ≤ R ∧ st' = atState R rest (out ++ data) := by
  induction n generalizing b out with
  | zero => cases h; exact ⟨[], b, rfl, rfl, by simpa using hR, by simp⟩
  | succ n ih =>
    rw [copyRaw] at h
    obtain ⟨v, s1, h1, h⟩ := bind_eq_ok h
    obtain ⟨hv, rest, rfl, rfl⟩ := number_at h1
    obtain ⟨_, s1, h1, h⟩ := bind_eq_ok h
    obtain ⟨hlt, rfl⟩ := emit_at h1
    obtain ⟨data, rest', h2, rfl, h3, h4⟩ := ih (by simp; omega) h
    have hx : v.toUInt8.toNat = v := by rw [Nat.toUInt8, UInt8.toNat_ofNat', Nat.mod_eq_of_lt hv]
    refine ⟨v.toUInt8 :: data, rest', by simp [h2], ?_, ?_, ?_⟩
    · simp only [bits, List.flatMap_cons, hx, List.append_assoc]
    · simpa using h3
    · simpa using h4

theorem align_run (R : Nat) (pad rest : List Bool) (out : Bytes) (h1 : pad.length < 8) (h2 : rest.length % 8 = 0) :
    align (atState R (pad ++ rest) out) = .ok ((), atState R rest out) := by
  unfold align atState
  simp only [List.length_append]
  rw [show (pad.length + rest.length) % 8 = pad.length by omega, List.drop_left]

theorem align_at (R : Nat) (b : List Bool) (out : Bytes) :
    ∃ pad rest, b = pad ++ rest ∧ pad.length < 8 ∧ rest.length % 8 = 0 ∧ align (atState R b out) = .ok ((), atState R rest out) := by
  refine ⟨b.take (b.length % 8), b.drop (b.length % 8), (List.take_append_drop _ _).symm, ?_, ?_, rfl⟩
  · rw [List.length_take]
    omega
  · rw [List.length_drop]
    omega

theorem fixedLit_fits : Fits Spec.Deflate.fixedLit := by unfold Fits; decide +kernel
theorem fixedDist_fits : Fits Spec.Deflate.fixedDist := by unfold Fits; decide +kernel

/-- What the decoder does after the first three bits of a block. -/
def block (type : Nat) : D Unit :=
  if type = 0 then stored
  else if type = 1 then do
    let st ← get
    codes fixedLit fixedDist (st.bits.length + 1)
  else if type = 2 then dynamic
  else fail .error

theorem blocks_succ (fuel : Nat) (st : St) : blocks (fuel + 1) st =
    (do
      let final ← bit
      let type ← number 2
      block type
      if final then pure () else blocks fuel) st := by
  rw [blocks, bind_run, bind_run]
  split
  · rw [bind_run, bind_run]
    split
    · unfold block
      split
      · rfl
      · split
        · rfl
        · split
          · rfl
          · rfl
    · rfl
  · rfl

theorem block_run {pos type : Nat} {out : Bytes} {ws : List Bool} {out' : Bytes} (h : Block pos type out ws out') (R : Nat)
    (rest : List Bool) (hR : out'.length ≤ R) (hp : (pos + (ws ++ rest).length) % 8 = 0) :
    block type (atState R (ws ++ rest) out) = .ok ((), atState R rest out') := by
  cases h with
  | stored pad data h1 h2 h3 =>
    rw [block, if_pos rfl, stored]
    simp only [List.append_assoc] at hp ⊢
    simp only [List.length_append, lsb_length, bits_length] at hp
    rw [bind_ok (align_run R pad _ out h1 (by simp only [List.length_append, lsb_length, bits_length]; omega)),
      bind_ok (number_run 16 _ h3 R _ _), bind_ok (number_run 16 _ (by omega) R _ _), if_pos (by omega),
      copyRaw_at_run data R rest out hR]
  | fixed h =>
    rw [block, if_neg (by decide), if_pos rfl, bind_ok (get_run _)]
    exact codes_run fixedLit_fits fixedDist_fits h _ R rest (by simp [atState]; omega) hR
  | dynamic nlit ndist ls cl ys h1 h2 h3 h4 h5 h6 h7 h8 h9 h10 h11 h12 h13 h14 =>
    rw [block, if_neg (by decide), if_neg (by decide), if_pos rfl]
    exact dynamic_run nlit ndist ls cl ys h1 h2 h3 h4 h5 h6 h7 h8 h9 h10 h11 h12 h13 h14 R rest hR

theorem block_at {pos type R : Nat} {b : List Bool} {out : Bytes} {st' : St} (hR : out.length ≤ R)
    (hp : (pos + b.length) % 8 = 0) (h : block type (atState R b out) = .ok ((), st')) :
    ∃ ws rest out', b = ws ++ rest ∧ Block pos type out ws out' ∧ out'.length ≤ R ∧ st' = atState R rest out' := by
  unfold block at h
  split at h
  · next ht =>
    subst ht
    rw [stored] at h
    obtain ⟨pad, r1, rfl, h1, h2, ha⟩ := align_at R b out
    rw [bind_ok ha] at h
    obtain ⟨n, s1, h3, h⟩ := bind_eq_ok h
    obtain ⟨hn, r2, rfl, rfl⟩ := number_at h3
    obtain ⟨m, s1, h3, h⟩ := bind_eq_ok h
    obtain ⟨hm, r3, rfl, rfl⟩ := number_at h3
    split at h
    · next hs =>
      obtain ⟨data, rest, rfl, rfl, h4, h5⟩ := copyRaw_at hR h
      have hm' : m = 65535 - data.length := by omega
      subst hm'
      refine ⟨_, rest, _, ?_, Block.stored pad data h1 ?_ hn, h4, h5⟩
      · simp only [List.append_assoc]
      · simp only [List.length_append, lsb_length, bits_length] at hp h2
        omega
    · cases h
  · split at h
    · next ht =>
      subst ht
      rw [bind_ok (get_run _)] at h
      obtain ⟨ws, rest, out', h1, h2, h3, h4⟩ := codes_at fixedLit_fits fixedDist_fits hR h
      exact ⟨ws, rest, out', h1, Block.fixed h2, h3, h4⟩
    · split at h
      · next ht =>
        subst ht
        exact dynamic_at pos hR h
      · cases h

theorem Block.grows {pos type : Nat} {out : Bytes} {ws : List Bool} {out' : Bytes} (h : Block pos type out ws out') :
    out.length ≤ out'.length ∧ type < 3 := by
  cases h with
  | stored => exact ⟨by simp, by decide⟩
  | fixed h => exact ⟨Items.grows h, by decide⟩
  | dynamic _ _ _ _ _ _ _ _ _ _ _ _ _ _ _ _ _ _ h => exact ⟨Items.grows h, by decide⟩

theorem Blocks.grows {pos : Nat} {out : Bytes} {ws : List Bool} {out' : Bytes} (h : Blocks pos out ws out') :
    out.length ≤ out'.length := by
  induction h with
  | last _ h => exact (Block.grows h).1
  | more _ h _ ih => exact Nat.le_trans (Block.grows h).1 ih

theorem bit_run (x : Bool) (R : Nat) (b : List Bool) (out : Bytes) :
    bit (atState R (x :: b) out) = .ok (x, atState R b out) := rfl

theorem bit_at {x : Bool} {R : Nat} {b : List Bool} {out : Bytes} {st' : St} (h : bit (atState R b out) = .ok (x, st')) :
    ∃ rest, b = x :: rest ∧ st' = atState R rest out := by
  cases b with
  | nil => cases h
  | cons y b => cases h; exact ⟨b, rfl, rfl⟩

theorem blocks_run {pos : Nat} {out : Bytes} {ws : List Bool} {out' : Bytes} (h : Blocks pos out ws out') (fuel R : Nat)
    (rest : List Bool) (hf : ws.length < fuel) (hR : out'.length ≤ R) (hp : (pos + (ws ++ rest).length) % 8 = 0) :
    blocks fuel (atState R (ws ++ rest) out) = .ok ((), atState R rest out') := by
  induction h generalizing fuel with
  | last type h =>
    obtain ⟨f, rfl⟩ : ∃ f, fuel = f + 1 := ⟨fuel - 1, by omega⟩
    simp only [List.append_assoc, List.cons_append, List.nil_append, List.length_cons, List.length_append, lsb_length] at hp ⊢
    rw [blocks_succ, bind_ok (bit_run _ _ _ _),
      bind_ok (number_run 2 type (Nat.lt_of_lt_of_le (Block.grows h).2 (by decide)) R _ _),
      bind_ok (block_run h R rest hR (by simp only [List.length_append]; omega))]
    rfl
  | more type h hb ih =>
    obtain ⟨f, rfl⟩ : ∃ f, fuel = f + 1 := ⟨fuel - 1, by omega⟩
    have hg := Blocks.grows hb
    simp only [List.append_assoc, List.cons_append, List.nil_append, List.length_cons, List.length_append, lsb_length] at hp hf ⊢
    rw [blocks_succ, bind_ok (bit_run _ _ _ _),
      bind_ok (number_run 2 type (Nat.lt_of_lt_of_le (Block.grows h).2 (by decide)) R _ _),
      bind_ok (block_run h R _ (by omega) (by simp only [List.length_append]; omega))]
    exact ih f (by omega) hR (by simp only [List.length_append]; omega)

theorem blocks_at {fuel pos R : Nat} {b : List Bool} {out : Bytes} {st' : St} (hR : out.length ≤ R)
    (hp : (pos + b.length) % 8 = 0) (h : blocks fuel (atState R b out) = .ok ((), st')) :
    ∃ ws rest out', b = ws ++ rest ∧ Blocks pos out ws out' ∧ out'.length ≤ R ∧ st' = atState R rest out' := by
  induction fuel generalizing pos b out with
  | zero => cases h
  | succ fuel ih =>
    rw [blocks_succ] at h
    obtain ⟨final, s1, h1, h⟩ := bind_eq_ok h
    obtain ⟨r1, rfl, rfl⟩ := bit_at h1
    obtain ⟨type, s1, h1, h⟩ := bind_eq_ok h
    obtain ⟨ht, r2, rfl, rfl⟩ := number_at h1
    obtain ⟨_, s1, h1, h⟩ := bind_eq_ok h
    simp only [List.length_cons, List.length_append, lsb_length] at hp
    obtain ⟨ws, rest, mid, rfl, hB, hR', rfl⟩ := block_at (pos := pos + 3) hR (by omega) h1
    cases final with
    | true =>
      cases h
      exact ⟨_, rest, mid, by simp, Blocks.last type hB, hR', rfl⟩
    | false =>
      simp only [List.length_append] at hp
      obtain ⟨vs, rest', out', rfl, h2, h3, h4⟩ := ih (pos := pos + 3 + ws.length) hR' (by omega) h
      exact ⟨_, rest', out', by simp, Blocks.more type hB h2, h3, h4⟩

/-! ## The checksum -/

theorem adler_eq (a b : Nat) (ha : a < 65521) (hb : b < 65521) (data : Bytes) : adler a b data =
    (b + ((List.range data.length).map fun i => (a + ((data.take (i + 1)).map UInt8.toNat).sum) % 65521).sum) % 65521 * 65536 +
      (a + (data.map UInt8.toNat).sum) % 65521 := by
  induction data generalizing a b with
  | nil => simp [adler, Nat.mod_eq_of_lt ha, Nat.mod_eq_of_lt hb]
  | cons x xs ih =>
    rw [adler, ih _ _ (Nat.mod_lt _ (by decide)) (Nat.mod_lt _ (by decide)), List.length_cons, List.range_succ_eq_map,
      List.map_cons, List.sum_cons, List.map_map, List.map_cons, List.sum_cons]
    have e : ((fun i => (a + ((List.take (i + 1) (x :: xs)).map UInt8.toNat).sum) % 65521) ∘ Nat.succ) =
        fun i => ((a + x.toNat) % 65521 + ((xs.take (i + 1)).map UInt8.toNat).sum) % 65521 := by
      funext i
      simp only [Function.comp, List.take_succ_cons, List.map_cons, List.sum_cons]
      omega
    rw [e]
    simp only [Nat.zero_add, List.take_succ_cons, List.take_zero, List.map_cons, List.map_nil, List.sum_cons, List.sum_nil,
      Nat.add_zero]
    generalize ((List.range xs.length).map fun i =>
      ((a + x.toNat) % 65521 + ((xs.take (i + 1)).map UInt8.toNat).sum) % 65521).sum = S
    omega

theorem adler_sums (data : Bytes) : adler 1 0 data = sum2 data * 65536 + sum1 data := by
  rw [adler_eq 1 0 (by decide) (by decide), sum2, sum1, Nat.zero_add]
  rfl

theorem checksum_iff (data : Bytes) (c3 c2 c1 c0 : UInt8) :
    ((c3.toNat * 256 + c2.toNat) * 256 + c1.toNat) * 256 + c0.toNat = adler 1 0 data ↔ [c3, c2, c1, c0] = checksum data := by
  have h1 : sum1 data < 65521 := Nat.mod_lt _ (by decide)
  have h2 : sum2 data < 65521 := Nat.mod_lt _ (by decide)
  rw [adler_sums, checksum]
  generalize sum1 data = s at *
  generalize sum2 data = t at *
  have := c3.toNat_lt
  have := c2.toNat_lt
  have := c1.toNat_lt
  have := c0.toNat_lt
  simp only [List.map_cons, List.map_nil, List.cons.injEq, and_true, ← UInt8.toNat_inj, UInt8.toNat_ofNat']
  omega

/-! ## Streams -/

theorem bits_append (a b : Bytes) : bits (a ++ b) = bits a ++ bits b := List.flatMap_append

theorem byte_run (x : UInt8) (data : Bytes) (R : Nat) (out : Bytes) :
    number 8 (atState R (bits (x :: data)) out) = .ok (x.toNat, atState R (bits data) out) :=
  number_run 8 x.toNat x.toNat_lt R (bits data) out

theorem byte_at {v R : Nat} {data : Bytes} {out : Bytes} {st' : St}
    (h : number 8 (atState R (bits data) out) = .ok (v, st')) :
    ∃ x rest, data = x :: rest ∧ v = x.toNat ∧ st' = atState R (bits rest) out := by
  cases data with
  | nil => cases h
  | cons x data =>
    rw [byte_run] at h
    cases h
    exact ⟨x, data, rfl, rfl, rfl⟩

/-- A part of the bits that ends between two bytes belongs to a part of the bytes. -/
theorem bits_split {data : Bytes} {u v : List Bool} (h : bits data = u ++ v) (hv : v.length % 8 = 0) :
    ∃ a b, data = a ++ b ∧ bits a = u ∧ bits b = v := by
  have hl := congrArg List.length h
  rw [bits_length, List.length_append] at hl
  have h' := h
  rw [← List.take_append_drop (u.length / 8) data, bits_append] at h'
  have := List.append_inj h' (by rw [bits_length, List.length_take]; omega)
  exact ⟨_, _, (List.take_append_drop (u.length / 8) data).symm, this.1, this.2⟩

theorem stream_run {z content : Bytes} (h : IsZlib z content) (rest : Bytes) (R : Nat) (hR : content.length ≤ R) :
    stream (atState R (bits (z ++ rest)) []) = .ok ((), atState R (bits rest) content) := by
  obtain ⟨cmf, flg, body, ws, pad, rfl, h1, h2, h3, h4, h5, h6, h7⟩ := h
  have hl := congrArg List.length h5
  rw [bits_length, List.length_append] at hl
  rw [stream, List.append_assoc, List.append_assoc, List.cons_append, List.cons_append, List.nil_append,
    bind_ok (byte_run cmf _ R []), bind_ok (byte_run flg _ R [])]
  dsimp only
  rw [if_neg (by omega), bind_ok (get_run _), bits_append, h5, List.append_assoc]
  rw [bind_ok (blocks_run h7 _ R _ (by simp [atState]; omega) hR
    (by simp only [List.length_append, bits_length]; omega)),
    bind_ok (align_run R pad _ content h6 (by rw [bits_length]; omega))]
  obtain ⟨c3, c2, c1, c0, hc⟩ : ∃ c3 c2 c1 c0, checksum content = [c3, c2, c1, c0] := ⟨_, _, _, _, rfl⟩
  rw [hc]
  simp only [List.cons_append, List.nil_append]
  rw [bind_ok (byte_run c3 _ R _), bind_ok (byte_run c2 _ R _), bind_ok (byte_run c1 _ R _), bind_ok (byte_run c0 _ R _),
    bind_ok (get_run _)]
  rw [if_neg]
  · rfl
  · simp only [atState, List.reverse_reverse, ne_eq, Classical.not_not]
    exact (checksum_iff content c3 c2 c1 c0).2 hc.symm

theorem stream_at {data : Bytes} {R : Nat} {st' : St} (h : stream (atState R (bits data) []) = .ok ((), st')) :
    ∃ z rest content, data = z ++ rest ∧ IsZlib z content ∧ content.length ≤ R ∧ st' = atState R (bits rest) content := by
  rw [stream] at h
  obtain ⟨v, s1, h1, h⟩ := bind_eq_ok h
  obtain ⟨cmf, r1, rfl, rfl, rfl⟩ := byte_at h1
  obtain ⟨v, s1, h1, h⟩ := bind_eq_ok h
  obtain ⟨flg, r2, rfl, rfl, rfl⟩ := byte_at h1
  dsimp only at h
  split at h
  · cases h
  · next hh =>
    rw [bind_ok (get_run _)] at h
    obtain ⟨_, s1, h1, h⟩ := bind_eq_ok h
    obtain ⟨ws, b, content, hb, hB, hR, rfl⟩ := blocks_at (pos := 0) (Nat.zero_le _) (by rw [bits_length]; omega) h1
    obtain ⟨pad, b', rfl, hp, hb', ha⟩ := align_at R b content
    rw [bind_ok ha] at h
    rw [← List.append_assoc] at hb
    obtain ⟨body, r3, rfl, hbody, rfl⟩ := bits_split hb hb'
    obtain ⟨v, s1, h1, h⟩ := bind_eq_ok h
    obtain ⟨c3, r4, rfl, rfl, rfl⟩ := byte_at h1
    obtain ⟨v, s1, h1, h⟩ := bind_eq_ok h
    obtain ⟨c2, r4, rfl, rfl, rfl⟩ := byte_at h1
    obtain ⟨v, s1, h1, h⟩ := bind_eq_ok h
    obtain ⟨c1, r4, rfl, rfl, rfl⟩ := byte_at h1
    obtain ⟨v, s1, h1, h⟩ := bind_eq_ok h
    obtain ⟨c0, r4, rfl, rfl, rfl⟩ := byte_at h1
    rw [bind_ok (get_run _)] at h
    split at h
    · cases h
    · next hc =>
      cases h
      simp only [atState, List.reverse_reverse, ne_eq, Classical.not_not] at hc
      rw [checksum_iff] at hc
      refine ⟨[cmf, flg] ++ body ++ checksum content, r4, content, ?_,
        ⟨cmf, flg, body, ws, pad, rfl, by omega, by omega, by omega, by omega, hbody, hp, hB⟩, hR, rfl⟩
      rw [← hc]
      simp

/-- **The decoder accepts exactly the zlib streams**: it reports the end of the stream, with the output `out`, just when
the data begins with a zlib stream with this content and the target has room for it. -/
theorem inflate_iff (data : Bytes) (n : Nat) (out : Bytes) :
    inflate data n = (.streamEnd, out) ↔ out.length ≤ n ∧ ∃ z rest, data = z ++ rest ∧ IsZlib z out := by
  have hst : (⟨data.flatMap byteBits, n, []⟩ : St) = atState n (bits data) [] := rfl
  unfold inflate
  rw [hst]
  constructor
  · intro h
    cases hs : stream (atState n (bits data) []) with
    | error e =>
      rw [hs] at h
      exact absurd (congrArg Prod.fst h) (stream_error hs)
    | ok p =>
      obtain ⟨_, st⟩ := p
      rw [hs] at h
      obtain ⟨z, rest, content, rfl, h1, h2, rfl⟩ := stream_at hs
      simp only [atState, List.reverse_reverse, Prod.mk.injEq, true_and] at h
      subst h
      exact ⟨h2, z, rest, rfl, h1⟩
  · rintro ⟨h1, z, rest, rfl, h2⟩
    rw [stream_run h2 rest n h1]
    simp [atState]

end Ase.Zlib
