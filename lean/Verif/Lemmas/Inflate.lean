import Verif.Model.Inflate

/-!
# The zlib decoder: room and stored blocks
-/

namespace Ase.Zlib

theorem bind_run {α β : Type} (x : D α) (f : α → D β) (st : St) :
    (x >>= f) st = match x st with
      | .ok (a, st') => f a st'
      | .error e => .error e := by
  show StateT.bind x f st = _
  unfold StateT.bind
  show Except.bind (x st) _ = _
  cases x st <;> rfl

theorem pure_run {α : Type} (a : α) (st : St) : (pure a : D α) st = .ok (a, st) := rfl

theorem get_run (st : St) : (get : D St) st = .ok (st, st) := rfl

theorem bind_ok {α β : Type} {x : D α} {f : α → D β} {st st' : St} {a : α} (h : x st = .ok (a, st')) :
    (x >>= f) st = f a st' := by rw [bind_run, h]

/-! ## Room -/

/-- The step writes at most as much as there is room for, keeps track of the room and does not fail with `StreamEnd`. -/
def Keeps {α : Type} (x : D α) : Prop := ∀ st,
  match x st with
  | .ok (_, st') => st'.out.length + st'.room = st.out.length + st.room
  | .error e => e.2.length ≤ st.out.length + st.room ∧ e.1 ≠ .streamEnd

namespace Keeps

theorem bind {α β : Type} {x : D α} {f : α → D β} (hx : Keeps x) (hf : ∀ a, Keeps (f a)) : Keeps (x >>= f) := by
  intro st
  rw [bind_run]
  have h := hx st
  cases hs : x st with
  | error e => rw [hs] at h; exact h
  | ok p =>
    rw [hs] at h
    dsimp only at h
    have h2 := hf p.1 p.2
    dsimp only
    rw [← h]
    exact h2

theorem pure {α : Type} (a : α) : Keeps (Pure.pure a : D α) := fun _ => rfl

theorem get : Keeps (MonadState.get : D St) := fun _ => rfl

theorem fail {α : Type} (s : InflateStatus) (hs : s ≠ .streamEnd := by decide) : Keeps (Zlib.fail s : D α) := by
  intro st
  simp [Zlib.fail, hs]

theorem bit : Keeps bit := by
  intro st
  unfold Zlib.bit
  cases st.bits <;> simp

theorem number (k : Nat) : Keeps (number k) := by
  induction k with
  | zero => exact pure _
  | succ k ih => exact bind bit fun _ => bind ih fun _ => pure _

theorem align : Keeps align := fun _ => rfl

theorem emit (x : UInt8) : Keeps (emit x) := by
  intro st
  unfold Zlib.emit
  cases h : st.room with
  | zero => simp
  | succ r => simp; omega

theorem copy (d k : Nat) : Keeps (copy d k) := by
  induction k with
  | zero => exact pure _
  | succ k ih =>
    refine bind get fun st => ?_
    cases st.out[d - 1]? with
    | none => exact fail _
    | some x => exact bind (emit x) fun _ => ih

theorem copyRaw (k : Nat) : Keeps (copyRaw k) := by
  induction k with
  | zero => exact pure _
  | succ k ih => exact bind (number 8) fun _ => bind (emit _) fun _ => ih

theorem ite {α : Type} {c : Prop} [Decidable c] {x y : D α} (hx : Keeps x) (hy : Keeps y) : Keeps (if c then x else y) := by
  split <;> assumption

theorem stored : Keeps stored :=
  bind align fun _ => bind (number 16) fun _ => bind (number 16) fun _ => ite (copyRaw _) (fail _)

theorem symbol (gs : List (List Nat)) (c : Nat) : Keeps (symbol gs c) := by
  induction gs generalizing c with
  | nil => exact fail _
  | cons g gs ih =>
    refine bind bit fun b => ?_
    cases h : g[2 * c + b.toNat]? with
    | none => simp only [h]; exact ih _
    | some s => simp only [h]; exact pure _

theorem extended (t : List (Nat × Nat)) (i : Nat) : Keeps (extended t i) := by
  unfold Zlib.extended
  cases t[i]? with
  | none => exact fail _
  | some p => exact bind (number _) fun _ => pure _

/-- Takes a step apart. -/
local macro "steps" : tactic => `(tactic| with_reducible repeat' first
  | assumption | exact pure _ | exact fail _ | exact get | exact bit | exact number _ | exact align | exact emit _
  | exact copy _ _ | exact symbol _ _ | exact extended _ _ | exact stored | (refine bind ?_ fun _ => ?_)
  | (refine ite ?_ ?_) | (intro __do_jp; refine ite ?_ ?_))

theorem codes (lit dist : List (List Nat)) (fuel : Nat) : Keeps (codes lit dist fuel) := by
  induction fuel with
  | zero => exact fail _
  | succ fuel ih =>
    unfold Zlib.codes
    steps

theorem threeBits (k : Nat) : Keeps (threeBits k) := by
  induction k with
  | zero => exact pure _
  | succ k ih => exact bind (number 3) fun _ => bind ih fun _ => pure _

theorem codeLengths (gs : List (List Nat)) (n fuel : Nat) (acc : List Nat) : Keeps (codeLengths gs n fuel acc) := by
  induction fuel generalizing acc with
  | zero => exact fail _
  | succ fuel ih =>
    unfold Zlib.codeLengths
    refine ite (ite (pure _) (fail _)) (bind (symbol _ _) fun s => ite (ih _) (ite ?_ (ite
      (bind (number _) fun _ => ih _) (bind (number _) fun _ => ih _))))
    cases acc with
    | nil => exact fail _
    | cons x xs => exact bind (number _) fun _ => ih _

theorem dynamic : Keeps dynamic := by
  unfold Zlib.dynamic
  have h1 := threeBits
  have h2 := codeLengths
  have h3 := codes
  steps
  all_goals first
    | exact h1 _
    | exact h2 _ _ _ _
    | exact h3 _ _ _

theorem blocks (fuel : Nat) : Keeps (blocks fuel) := by
  induction fuel with
  | zero => exact fail _
  | succ fuel ih =>
    unfold Zlib.blocks
    steps
    all_goals first
      | exact codes _ _ _
      | exact dynamic

theorem stream : Keeps stream := by
  unfold Zlib.stream
  steps
  all_goals exact blocks _

end Keeps

theorem inflate_fits (data : Bytes) (n : Nat) : (inflate data n).2.length ≤ n := by
  unfold inflate
  have h := Keeps.stream ⟨data.flatMap byteBits, n, []⟩
  cases hs : stream ⟨data.flatMap byteBits, n, []⟩ with
  | ok p =>
    rw [hs] at h
    dsimp only at h ⊢
    simp only [List.length_nil, List.length_reverse] at h ⊢
    omega
  | error e =>
    rw [hs] at h
    simpa using h.1

/-- The decoder reports the end of the stream only after reading all of it. -/
theorem stream_error {st : St} {e : InflateStatus × Bytes} (h : stream st = .error e) : e.1 ≠ .streamEnd := by
  have := Keeps.stream st
  rw [h] at this
  exact this.2

/-! ## Bits -/

/-- The `k` bits of a number, least significant bit first. -/
def bitsOf : Nat → Nat → List Bool
  | 0, _ => []
  | k + 1, v => v.testBit 0 :: bitsOf k (v / 2)

theorem bitsOf_length (k v : Nat) : (bitsOf k v).length = k := by
  induction k generalizing v with
  | zero => rfl
  | succ k ih => simp [bitsOf, ih]

theorem bitsOf_add (j k v : Nat) : bitsOf (j + k) v = bitsOf j v ++ bitsOf k (v / 2 ^ j) := by
  induction j generalizing v with
  | zero => simp [bitsOf]
  | succ j ih =>
    rw [show j + 1 + k = (j + k) + 1 by omega, bitsOf, bitsOf, ih, Nat.div_div_eq_div_mul, Nat.pow_succ, Nat.mul_comm 2]
    rfl

theorem bitsOf_mod (k v : Nat) : bitsOf k (v % 2 ^ k) = bitsOf k v := by
  induction k generalizing v with
  | zero => rfl
  | succ k ih =>
    simp only [bitsOf]
    rw [show v % 2 ^ (k + 1) / 2 = v / 2 % 2 ^ k by
      rw [Nat.pow_succ, Nat.mul_comm, Nat.mod_mul_right_div_self], ih]
    congr 1
    simp

theorem number_bitsOf (k v : Nat) (hv : v < 2 ^ k) (rest : List Bool) (r : Nat) (o : Bytes) :
    number k ⟨bitsOf k v ++ rest, r, o⟩ = .ok (v, ⟨rest, r, o⟩) := by
  induction k generalizing v with
  | zero =>
    have : v = 0 := by simpa using hv
    subst this
    rfl
  | succ k ih =>
    have h1 : bit ⟨bitsOf (k + 1) v ++ rest, r, o⟩ = .ok (v.testBit 0, ⟨bitsOf k (v / 2) ++ rest, r, o⟩) := rfl
    rw [number, bind_ok h1, bind_ok (ih (v / 2) (by rw [Nat.pow_succ] at hv; omega)), pure_run]
    have : (v.testBit 0).toNat + 2 * (v / 2) = v := by
      have := Nat.toNat_testBit v 0
      simp only [Nat.pow_zero, Nat.div_one] at this
      omega
    rw [this]

theorem byteBits_eq (x : UInt8) : byteBits x = bitsOf 8 x.toNat := by
  unfold byteBits
  simp only [bitsOf, List.range, List.range.loop, List.map_cons, List.map_nil, Nat.div_div_eq_div_mul, Nat.testBit,
    Nat.shiftRight_eq_div_pow]

theorem flatMap_length (data : Bytes) : (data.flatMap byteBits).length = 8 * data.length := by
  induction data with
  | nil => rfl
  | cons x xs ih => simp only [List.flatMap_cons, List.length_append, ih, byteBits_eq, bitsOf_length, List.length_cons]; omega

/-! ## Stored blocks -/

theorem copyRaw_run (data : Bytes) (rest : List Bool) (r : Nat) (o : Bytes) (hr : data.length ≤ r) :
    copyRaw data.length ⟨data.flatMap byteBits ++ rest, r, o⟩ = .ok ((), ⟨rest, r - data.length, data.reverse ++ o⟩) := by
  induction data generalizing r o with
  | nil => rfl
  | cons x xs ih =>
    rw [List.length_cons, copyRaw, List.flatMap_cons, List.append_assoc, byteBits_eq,
      bind_ok (number_bitsOf 8 x.toNat x.toNat_lt _ r o)]
    simp only [List.length_cons] at hr
    obtain ⟨r, rfl⟩ : ∃ r', r = r' + 1 := ⟨r - 1, by omega⟩
    rw [bind_ok (show emit x.toNat.toUInt8 ⟨xs.flatMap byteBits ++ rest, r + 1, o⟩ =
      .ok ((), ⟨xs.flatMap byteBits ++ rest, r, x :: o⟩) by simp [emit]), ih r (x :: o) (by omega)]
    simp

/-- A number as 16 bits, least significant byte first. -/
def two (n : Nat) : Bytes := [UInt8.ofNat n, UInt8.ofNat (n / 256)]

theorem number_two (n : Nat) (hn : n < 65536) (rest : List Bool) (r : Nat) (o : Bytes) :
    number 16 ⟨(two n).flatMap byteBits ++ rest, r, o⟩ = .ok (n, ⟨rest, r, o⟩) := by
  have : (two n).flatMap byteBits = bitsOf 16 n := by
    rw [show (16 : Nat) = 8 + 8 from rfl, bitsOf_add]
    simp only [two, List.flatMap_cons, List.flatMap_nil, List.append_nil, byteBits_eq, UInt8.toNat_ofNat']
    rw [bitsOf_mod 8 n, bitsOf_mod 8 (n / 256)]
  rw [this]
  exact number_bitsOf 16 n (by simpa using hn) rest r o

/-- A stored block: is it the last one, and its data. -/
def storedBlock (final : Bool) (data : Bytes) : Bytes :=
  [if final then 1 else 0] ++ two data.length ++ two (65535 - data.length) ++ data

theorem stored_run (data : Bytes) (hd : data.length < 65536) (five : List Bool) (h5 : five.length = 5) (rest : Bytes)
    (r : Nat) (o : Bytes) (hr : data.length ≤ r) :
    stored ⟨five ++ (two data.length ++ two (65535 - data.length) ++ data ++ rest).flatMap byteBits, r, o⟩ =
      .ok ((), ⟨rest.flatMap byteBits, r - data.length, data.reverse ++ o⟩) := by
  have ha : align ⟨five ++ (two data.length ++ two (65535 - data.length) ++ data ++ rest).flatMap byteBits, r, o⟩ =
      .ok ((), ⟨(two data.length ++ two (65535 - data.length) ++ data ++ rest).flatMap byteBits, r, o⟩) := by
    unfold align
    simp only
    rw [List.length_append, flatMap_length, h5]
    rw [show ∀ n : Nat, (5 + 8 * n) % 8 = 5 by intro n; omega, List.drop_left' h5]
  rw [stored, bind_ok ha]
  simp only [List.flatMap_append, List.append_assoc]
  rw [bind_ok (number_two _ hd _ _ _), bind_ok (number_two _ (by omega) _ _ _), if_pos (by omega), copyRaw_run _ _ _ _ hr]

theorem header_bits (final : Bool) : byteBits (if final then 1 else 0) = final :: bitsOf 2 0 ++ bitsOf 5 0 := by
  cases final <;> decide +kernel

theorem blocks_stored (final : Bool) (data rest : Bytes) (hd : data.length < 65536) (fuel r : Nat) (o : Bytes)
    (hr : data.length ≤ r) :
    blocks (fuel + 1) ⟨(storedBlock final data ++ rest).flatMap byteBits, r, o⟩ =
      if final then .ok ((), ⟨rest.flatMap byteBits, r - data.length, data.reverse ++ o⟩)
      else blocks fuel ⟨rest.flatMap byteBits, r - data.length, data.reverse ++ o⟩ := by
  unfold storedBlock
  simp only [List.append_assoc, List.cons_append, List.nil_append, List.flatMap_cons]
  rw [header_bits, blocks]
  simp only [List.cons_append]
  rw [bind_ok (show bit _ = _ from rfl)]
  dsimp only
  simp only [List.append_assoc]
  rw [bind_ok (number_bitsOf 2 0 (by decide) _ r o)]
  simp only [if_true]
  have := stored_run data hd (bitsOf 5 0) (bitsOf_length _ _) rest r o hr
  simp only [List.append_assoc] at this
  rw [bind_ok this]
  cases final <;> rfl

/-- Blocks of stored data, the last one marked as the last one. -/
def storedBlocks : List Bytes → Bytes
  | [] => storedBlock true []
  | [d] => storedBlock true d
  | d :: ds => storedBlock false d ++ storedBlocks ds

theorem blocks_storedBlocks (ds : List Bytes) (rest : Bytes) (hd : ∀ d ∈ ds, d.length < 65536) (fuel r : Nat) (o : Bytes)
    (hf : ds.length < fuel) (hr : ds.flatten.length ≤ r) :
    blocks fuel ⟨(storedBlocks ds ++ rest).flatMap byteBits, r, o⟩ =
      .ok ((), ⟨rest.flatMap byteBits, r - ds.flatten.length, ds.flatten.reverse ++ o⟩) := by
  induction ds generalizing fuel r o with
  | nil =>
    obtain ⟨f, rfl⟩ : ∃ f, fuel = f + 1 := ⟨fuel - 1, by omega⟩
    rw [storedBlocks, blocks_stored true [] rest (by decide) f r o (by simp), if_pos rfl]
    simp
  | cons d ds ih =>
    obtain ⟨f, rfl⟩ : ∃ f, fuel = f + 1 := ⟨fuel - 1, by omega⟩
    have h1 := hd d (by simp)
    have h2 : ∀ d ∈ ds, d.length < 65536 := fun d hm => hd d (by simp [hm])
    simp only [List.flatten_cons, List.length_append, List.length_cons] at hr hf
    cases ds with
    | nil =>
      rw [storedBlocks, blocks_stored true d rest h1 f r o (by omega), if_pos rfl]
      simp
    | cons d' ds' =>
      rw [storedBlocks, List.append_assoc, blocks_stored false d _ h1 f r o (by omega)]
      · simp only [Bool.false_eq_true, if_false]
        rw [ih h2 f (r - d.length) (d.reverse ++ o) (by omega) (by omega)]
        simp only [List.flatten_cons, List.length_append, List.reverse_append, List.append_assoc]
        rw [Nat.sub_sub]
      · intro h; cases h

theorem storedBlocks_length (ds : List Bytes) : ds.length ≤ (storedBlocks ds).length := by
  induction ds with
  | nil => simp
  | cons d ds ih =>
    cases ds with
    | nil => simp [storedBlocks, storedBlock]
    | cons d' ds' =>
      rw [storedBlocks, List.length_append]
      · simp only [storedBlock, List.length_append, List.length_cons, List.length_nil] at ih ⊢
        omega
      · intro h; cases h

/-- A number of 32 bits, most significant byte first. -/
def four (n : Nat) : Bytes := [UInt8.ofNat (n / 16777216), UInt8.ofNat (n / 65536), UInt8.ofNat (n / 256), UInt8.ofNat n]

theorem adler_lt (a b : Nat) (ha : a < 65536) (hb : b < 65536) (data : Bytes) : adler a b data < 2 ^ 32 := by
  induction data generalizing a b with
  | nil => unfold adler; omega
  | cons x xs ih => exact ih _ _ (Nat.lt_trans (Nat.mod_lt _ (by decide)) (by decide)) (Nat.lt_trans (Nat.mod_lt _ (by decide)) (by decide))

theorem number_byte (x : UInt8) (rest : List Bool) (r : Nat) (o : Bytes) :
    number 8 ⟨byteBits x ++ rest, r, o⟩ = .ok (x.toNat, ⟨rest, r, o⟩) := by
  rw [byteBits_eq]
  exact number_bitsOf 8 x.toNat x.toNat_lt rest r o

/-- A zlib stream of stored blocks: header, blocks, checksum. -/
def storedStream (ds : List Bytes) : Bytes := [0x78, 0x01] ++ storedBlocks ds ++ four (adler 1 0 ds.flatten)

theorem inflate_storedStream (ds : List Bytes) (hd : ∀ d ∈ ds, d.length < 65536) (rest : Bytes) (n : Nat)
    (hn : ds.flatten.length ≤ n) : inflate (storedStream ds ++ rest) n = (.streamEnd, ds.flatten) := by
  have hlt := adler_lt 1 0 (by decide) (by decide) ds.flatten
  suffices h : stream ⟨(storedStream ds ++ rest).flatMap byteBits, n, []⟩ =
      .ok ((), ⟨rest.flatMap byteBits, n - ds.flatten.length, ds.flatten.reverse⟩) by
    unfold inflate
    rw [h]
    simp
  unfold storedStream
  generalize hA : adler 1 0 ds.flatten = A at *
  simp only [List.append_assoc, List.cons_append, List.nil_append, List.flatMap_cons]
  rw [stream, bind_ok (number_byte 0x78 _ n []), bind_ok (number_byte 0x01 _ n [])]
  dsimp only
  rw [if_neg (by decide), bind_ok (get_run _)]
  dsimp only
  rw [bind_ok (blocks_storedBlocks ds (four A ++ rest) hd _ n [] (by
    rw [flatMap_length, List.length_append]
    have := storedBlocks_length ds
    omega) hn)]
  have ha : align ⟨(four A ++ rest).flatMap byteBits, n - ds.flatten.length, ds.flatten.reverse ++ []⟩ =
      .ok ((), ⟨(four A ++ rest).flatMap byteBits, n - ds.flatten.length, ds.flatten.reverse⟩) := by
    unfold align
    simp only
    rw [flatMap_length, Nat.mul_mod_right]
    simp
  rw [bind_ok ha]
  simp only [four, List.cons_append, List.nil_append, List.flatMap_cons]
  rw [bind_ok (number_byte _ _ _ _), bind_ok (number_byte _ _ _ _), bind_ok (number_byte _ _ _ _),
    bind_ok (number_byte _ _ _ _), bind_ok (get_run _)]
  rw [if_neg]
  · rfl
  · simp only [List.reverse_reverse, hA, UInt8.toNat_ofNat']
    omega

end Ase.Zlib
