import Verif.Lemmas.Hash
import Verif.Props.Consequences
import Verif.Props.Sizes

/-!
# C75: what the hash of a frame tells
-/

namespace Ase

open Spec

theorem nativeBytes_length (k n : Nat) : (nativeBytes k n).length = k := by
  induction k generalizing n with
  | zero => rfl
  | succ k ih => simp [nativeBytes, ih]

theorem nativeBytes_inj {k m n : Nat} (hm : m < 256 ^ k) (hn : n < 256 ^ k) (h : nativeBytes k m = nativeBytes k n) :
    m = n := by
  induction k generalizing m n with
  | zero => simp at hm hn; omega
  | succ k ih =>
    simp only [nativeBytes, List.cons.injEq] at h
    have h1 := congrArg UInt8.toNat h.1
    simp only [UInt8.toNat_ofNat'] at h1
    have h2 := ih (by rw [Nat.pow_succ] at hm; omega) (by rw [Nat.pow_succ] at hn; omega) h.2
    omega

theorem toUInt16_inj {x y : Int16} (h : x.toUInt16 = y.toUInt16) : x = y := by
  cases x; cases y
  exact congrArg Int16.ofUInt16 h

theorem celHashBytes_length (c : HashInput) : (celHashBytes c).length = 24 := by
  simp [celHashBytes, nativeBytes_length]

theorem celHashBytes_inj {c d : HashInput} (h1 : c.1 < 2 ^ 64) (h2 : c.2.1 < 2 ^ 64) (h3 : d.1 < 2 ^ 64)
    (h4 : d.2.1 < 2 ^ 64) (h : celHashBytes c = celHashBytes d) : c = d := by
  obtain ⟨a, b, ⟨x, y⟩, w, v⟩ := c
  obtain ⟨a', b', ⟨x', y'⟩, w', v'⟩ := d
  simp only [celHashBytes] at h
  obtain ⟨h, e6⟩ := List.append_inj h (by simp [nativeBytes_length])
  obtain ⟨h, e5⟩ := List.append_inj h (by simp [nativeBytes_length])
  obtain ⟨h, e4⟩ := List.append_inj h (by simp [nativeBytes_length])
  obtain ⟨h, e3⟩ := List.append_inj h (by simp [nativeBytes_length])
  obtain ⟨e1, e2⟩ := List.append_inj h (by simp [nativeBytes_length])
  have i1 : a = a' := nativeBytes_inj (by simpa using h1) (by simpa using h3) e1
  have i2 : b = b' := nativeBytes_inj (by simpa using h2) (by simpa using h4) e2
  have i3 : x = x' := by
    have := nativeBytes_inj (UInt16.toNat_lt _) (UInt16.toNat_lt _) e3
    exact toUInt16_inj (UInt16.toNat_inj.1 this)
  have i4 : y = y' := by
    have := nativeBytes_inj (UInt16.toNat_lt _) (UInt16.toNat_lt _) e4
    exact toUInt16_inj (UInt16.toNat_inj.1 this)
  have i5 : w = w' := UInt16.toNat_inj.1 (nativeBytes_inj (UInt16.toNat_lt _) (UInt16.toNat_lt _) e5)
  have i6 : v = v' := UInt16.toNat_inj.1 (nativeBytes_inj (UInt16.toNat_lt _) (UInt16.toNat_lt _) e6)
  subst i1 i2 i3 i4 i5 i6
  rfl

/-- **C75 (nothing is lost before hashing).** The bytes fed to the hasher determine the list of cels: image, layer, origin
and size of each one, and their number.  (Indices of images and layers are `usize` values.) -/
theorem C75_bytes (cs ds : List HashInput) (hc : ∀ c ∈ cs, c.1 < 2 ^ 64 ∧ c.2.1 < 2 ^ 64)
    (hd : ∀ d ∈ ds, d.1 < 2 ^ 64 ∧ d.2.1 < 2 ^ 64) (h : hashBytes cs = hashBytes ds) : cs = ds := by
  induction cs generalizing ds with
  | nil =>
    cases ds with
    | nil => rfl
    | cons d ds =>
      have := congrArg List.length h
      simp [hashBytes, celHashBytes_length] at this
      try omega
  | cons c cs ih =>
    cases ds with
    | nil =>
      have := congrArg List.length h
      simp [hashBytes, celHashBytes_length] at this
      try omega
    | cons d ds =>
      simp only [hashBytes, List.flatMap_cons] at h
      obtain ⟨e1, e2⟩ := List.append_inj h (by rw [celHashBytes_length, celHashBytes_length])
      have hc1 := hc c (by simp)
      have hd1 := hd d (by simp)
      rw [celHashBytes_inj hc1.1 hc1.2 hd1.1 hd1.2 e1,
        ih ds (fun x hx => hc x (by simp [hx])) (fun x hx => hd x (by simp [hx])) e2]

example : hashBytes [(258, 1, (-1, 2), (3, 4))] =
    [2, 1, 0, 0, 0, 0, 0, 0, 1, 0, 0, 0, 0, 0, 0, 0, 255, 255, 2, 0, 3, 0, 4, 0] := by decide +kernel

/-- **C75 is false as one would like it**: equal hashes do not mean equal pictures.  Whatever 64-bit hash is made from the
cels (`DefaultHasher` or any other), there is a sprite with two frames that get the same hash although their pictures are
different: three layers with one dot each can be arranged in more ways than there are hashes. -/
theorem C75_equal_hash_other_picture (plat : Plat) (hash : List HashInput → UInt64) :
    ∃ b f, AsepriteFile.load plat b = .ok f ∧ ∀ inflate, ∃ t v u u',
      f.combinedFrameImage plat inflate hash 0 t = (.ok v, u) ∧
      f.combinedFrameImage plat inflate hash 1 t = (.ok v, u') ∧ u ≠ u' := by
  obtain ⟨p, q, hne, he⟩ := Dots.collide hash
  refine ⟨_, Dots.sprite p q, Dots.loads p q plat, fun inflate => ?_⟩
  obtain ⟨n, hn⟩ : ∃ n, 32768 * 24576 * 4 ≤ n := ⟨_, Nat.le_refl _⟩
  obtain ⟨u, hu⟩ := Dots.render_ok p q p plat inflate 0 rfl (List.replicate n 0) (by rw [List.length_replicate]; exact hn)
  obtain ⟨u', hu'⟩ := Dots.render_ok p q q plat inflate 1 rfl (List.replicate n 0) (by rw [List.length_replicate]; exact hn)
  refine ⟨List.replicate n 0, hash (Dots.input p), u, u', ?_, ?_, Dots.pictures_differ p q hne plat inflate n u u' hu hu'⟩
  · unfold AsepriteFile.combinedFrameImage
    rw [buf_bind, hu]
    rfl
  · unfold AsepriteFile.combinedFrameImage
    rw [buf_bind, hu', he]
    rfl

/-- Indices in a loaded sprite are smaller than the file. -/
theorem indices_small (plat : Plat) (b : Bytes) (f : AsepriteFile) (h : AsepriteFile.load plat b = .ok f)
    (hb : b.length < 2 ^ 64) (lf : LFrame) (hl : lf ∈ f.frames) (c : FrameCel) (hc : c ∈ lf.cels) :
    c.imageIndex < 2 ^ 64 ∧ c.layerIndex < 2 ^ 64 := by
  obtain ⟨h1, im, h2, -⟩ := (C31_references plat b f h lf hl).1 c hc
  have h3 := ((C28_bounded plat b).2 f.file (load_ok.1 h).1).1
  have h4 := (C63_images plat b f h).2.1
  have h5 : c.imageIndex < f.imageCount := (List.getElem?_eq_some_iff.1 h2).1
  have h6 : (f.file.frames.map fun fr => fr.cels.countP fun c => (c.bind ownImage).isSome).sum ≤
      (f.file.frames.map fun fr => (fr.cels.filter (·.isSome)).length).sum := by
    generalize f.file.frames = frs
    induction frs with
    | nil => exact Nat.le_refl _
    | cons fr frs ih =>
      simp only [List.map_cons, List.sum_cons]
      refine Nat.add_le_add ?_ ih
      rw [← List.countP_eq_length_filter]
      refine List.countP_mono_left ?_
      intro x _ hx
      cases x with
      | none => simp at hx
      | some x => rfl
  omega

/-- **C75 (the bytes do what the hash cannot).** Two frames of a loaded sprite that feed the same bytes to the hasher have the
same picture, for every decompressor and buffer. -/
theorem C75_equal_bytes_partial (plat : Plat) (b : Bytes) (f : AsepriteFile) (h : AsepriteFile.load plat b = .ok f)
    (hb : b.length < 2 ^ 64) (inflate : Inflater) (hash : List HashInput → UInt64) (i j : Nat) (lf lg : LFrame)
    (hi : f.frames[i]? = some lf) (hj : f.frames[j]? = some lg)
    (he : hashBytes (lf.cels.map fun c => (c.imageIndex, c.layerIndex, c.origin, c.size)) =
      hashBytes (lg.cels.map fun c => (c.imageIndex, c.layerIndex, c.origin, c.size))) (t : Bytes) :
    f.combinedFrameImage plat inflate hash i t = f.combinedFrameImage plat inflate hash j t := by
  refine (C52_same_hash plat inflate hash f i j lf lg hi hj).1 (C75_bytes _ _ ?_ ?_ he) t
  · intro c hc
    obtain ⟨d, hd, rfl⟩ := List.mem_map.1 hc
    exact indices_small plat b f h hb lf (List.mem_of_getElem? hi) d hd
  · intro c hc
    obtain ⟨d, hd, rfl⟩ := List.mem_map.1 hc
    exact indices_small plat b f h hb lg (List.mem_of_getElem? hj) d hd

/-- **C75 (whatever the hasher).** Two frames of a sprite that would get the same value from every hasher have the same
picture. -/
theorem C75_every_hasher_partial (plat : Plat) (b : Bytes) (f : AsepriteFile) (_h : AsepriteFile.load plat b = .ok f)
    (inflate : Inflater) (i j : Nat) (t u u' : Bytes)
    (hsame : ∀ hash : List HashInput → UInt64, ∃ v, f.combinedFrameImage plat inflate hash i t = (.ok v, u) ∧
      f.combinedFrameImage plat inflate hash j t = (.ok v, u')) : u = u' := by
  have frame : ∀ (k : Nat) (hash : List HashInput → UInt64) (v : UInt64) (w : Bytes),
      f.combinedFrameImage plat inflate hash k t = (.ok v, w) →
      ∃ lf, f.frames[k]? = some lf ∧ v = hash (lf.cels.map fun c => (c.imageIndex, c.layerIndex, c.origin, c.size)) := by
    intro k hash v w hk
    exact (((C52_combined plat inflate hash f k t).2.2.2.1 v).1 (by rw [hk])).2
  obtain ⟨v, h1, h2⟩ := hsame fun _ => 0
  obtain ⟨lf, hi, _⟩ := frame i _ v u h1
  obtain ⟨lg, hj, _⟩ := frame j _ v u' h2
  let hash : List HashInput → UInt64 := fun l =>
    if l = (lf.cels.map fun c => (c.imageIndex, c.layerIndex, c.origin, c.size)) then 0 else 1
  obtain ⟨v, h1, h2⟩ := hsame hash
  refine (C52_same_hash plat inflate hash f i j lf lg hi hj).2 (fun he => ?_) t u u' v h1 h2
  simp only [hash, if_pos] at he
  split at he
  · next h3 => exact h3.symm
  · cases he

/-- A sprite with one hidden layer that has a cel in the second of three frames; a visible layer with the same cel in the
first and the third one. -/
def hashSample : Bytes :=
  Sample.header 1 1 32 ++
  Sample.frame 10 [Sample.layer 1 0 0 255 [65], Sample.layer 0 0 0 255 [66], Sample.cel 0 0 0 1 1 [10, 20, 30, 255]] ++
  Sample.frame 10 [Sample.link 0 0, Sample.cel 1 0 0 1 1 [1, 2, 3, 4]] ++
  Sample.frame 10 [Sample.link 0 0]

/-- **C75 (the other way).** Frames with the same picture can have different hashes: cels on hidden layers are hashed too.
(Frames with the same cels have the same hash, C52.) -/
theorem C75_equal_picture_other_hash : ∃ f, AsepriteFile.load ⟨false, 10⟩ hashSample = .ok f ∧
    ∃ v v' u, f.combinedFrameImage ⟨false, 10⟩ Sample.inflate defaultHash 0 [0, 0, 0, 0] = (.ok v, u) ∧
      f.combinedFrameImage ⟨false, 10⟩ Sample.inflate defaultHash 1 [0, 0, 0, 0] = (.ok v', u) ∧
      f.combinedFrameImage ⟨false, 10⟩ Sample.inflate defaultHash 2 [0, 0, 0, 0] = (.ok v, u) ∧ v ≠ v' := by
  have h : (match AsepriteFile.load ⟨false, 10⟩ hashSample with
    | .ok f => (match f.combinedFrameImage ⟨false, 10⟩ Sample.inflate defaultHash 0 [0, 0, 0, 0],
          f.combinedFrameImage ⟨false, 10⟩ Sample.inflate defaultHash 1 [0, 0, 0, 0],
          f.combinedFrameImage ⟨false, 10⟩ Sample.inflate defaultHash 2 [0, 0, 0, 0] with
        | (.ok v, u), (.ok v', u'), (.ok v'', u'') => decide (u = u' ∧ v = v'' ∧ u = u'' ∧ v ≠ v')
        | _, _, _ => false)
    | _ => false) = true := by decide +kernel
  split at h
  · next f hf =>
    split at h
    · next v u v' u' v'' u'' h1 h2 h3 =>
      obtain ⟨rfl, rfl, rfl, hne⟩ := of_decide_eq_true h
      exact ⟨f, hf, v, v', u, h1, h2, h3, hne⟩
    · cases h
  · cases h

/-- The first and the third frame of that file feed the same bytes to the hasher, the second one others. -/
example : (match AsepriteFile.load ⟨false, 10⟩ hashSample with
    | .ok f => f.frames.map fun lf => hashBytes (lf.cels.map fun c => (c.imageIndex, c.layerIndex, c.origin, c.size))
    | _ => []) =
    let first : Bytes := [0, 0, 0, 0, 0, 0, 0, 0, 0, 0, 0, 0, 0, 0, 0, 0, 0, 0, 0, 0, 1, 0, 1, 0]
    [first, first ++ [1, 0, 0, 0, 0, 0, 0, 0, 1, 0, 0, 0, 0, 0, 0, 0, 0, 0, 0, 0, 1, 0, 1, 0], first] := by
  decide +kernel

end Ase
