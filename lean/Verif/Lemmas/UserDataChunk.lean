import Verif.Lemmas.PropertyTrees
import Verif.Lemmas.Panics

/-! # The user data chunk -/

namespace Ase

open Spec

attribute [local irreducible] List.append

/-- What the properties section of a chunk is, whether its contents are well formed or not: `x` is the outcome of
parsing the maps inside the declared size. -/
def PropsOutcome (plat : Plat) (x : Except NomErr (Bytes × List PropertiesMap)) (l : Bytes) : Prop :=
  ∃ (n : Nat) (payload : Bytes), 8 + payload.length < 2 ^ 32 ∧ n < 2 ^ 32 ∧
    l = leNat32 (8 + payload.length) ++ leNat32 n ++ payload ∧
    (match x with
     | .ok v => count (parsePropertiesMap plat.stack) n payload = .ok v
     | .error e => count (parsePropertiesMap plat.stack) n payload = .err e)

theorem parsePropertiesMaps_ok {plat : Plat} {b r : Bytes} {x : Except NomErr (Bytes × List PropertiesMap)}
    (hb : b.length < 2 ^ 63) :
    parsePropertiesMaps plat b = .ok (r, x) ↔ ∃ l, PropsOutcome plat x l ∧ b = l ++ r := by
  unfold parsePropertiesMaps
  constructor
  · intro H0
    obtain ⟨s, r1, h1, H1⟩ := P.bind_ok.1 H0; clear H0
    obtain ⟨n, r2, h2, H2⟩ := P.bind_ok.1 H1; clear H1
    obtain ⟨m, r3, h3, H3⟩ := P.bind_ok.1 H2; clear H2
    obtain ⟨payload, r4, h4, H4⟩ := P.bind_ok.1 H3; clear H3
    obtain ⟨hs, rfl⟩ := parseDwordAsUsize_ok.1 h1
    obtain ⟨hn, rfl⟩ := parseDwordAsUsize_ok.1 h2
    have h8 : 8 ≤ s ∧ m = s - 8 ∧ r3 = r2 := by
      unfold usizeSub8 at h3
      split at h3
      · next h => cases h3; exact ⟨h, rfl, rfl⟩
      · split at h3
        · cases h3
        · cases h3
          obtain ⟨hp, rfl⟩ := take_ok.1 h4
          simp at hb
          omega
    obtain ⟨h8, rfl, rfl⟩ := h8
    obtain ⟨hp, rfl⟩ := take_ok.1 h4
    refine ⟨leNat32 s ++ leNat32 n ++ payload, ⟨n, payload, by omega, hn, by rw [show 8 + payload.length = s by omega], ?_⟩, ?_⟩
    · split at H4
      · next v hv => cases H4; exact hv
      · next v hv => cases H4; exact hv
      · cases H4
    · split at H4
      · cases H4; simp
      · cases H4; simp
      · cases H4
  · rintro ⟨l, ⟨n, payload, hs, hn, rfl, hx⟩, rfl⟩
    refine P.bind_ok.2 ⟨8 + payload.length, leNat32 n ++ (payload ++ r), parseDwordAsUsize_ok.2 ⟨hs, by simp⟩, ?_⟩
    refine P.bind_ok.2 ⟨n, payload ++ r, parseDwordAsUsize_ok.2 ⟨hn, by simp⟩, ?_⟩
    refine P.bind_ok.2 ⟨payload.length, payload ++ r, ?_, ?_⟩
    · simp [usizeSub8, Outcome.bind]
    refine P.bind_ok.2 ⟨payload, r, take_ok.2 ⟨rfl, rfl⟩, ?_⟩
    split at hx
    · rw [hx]
    · rw [hx]

theorem parseUserDataChunk_ok {plat : Plat} {b r : Bytes} {c : UserDataChunk} (hb : b.length < 2 ^ 63) :
    parseUserDataChunk plat b = .ok (r, c) ↔
      ∃ (flags : UInt32) (t k p : Bytes), Opt (bit32 flags 0) IsStr c.text t ∧
        Opt (bit32 flags 1) (As Spec.color) c.color k ∧ Opt (bit32 flags 2) (PropsOutcome plat) c.propertiesMaps p ∧
        b = le32 flags ++ t ++ k ++ p ++ r := by
  unfold parseUserDataChunk
  have hmaps : ∀ {q : Prop} {cc : Bool} (_ : cc = true ↔ q) {b' r' : Bytes} {x}, b'.length ≤ b.length →
      (Ase.cond cc (parsePropertiesMaps plat) b' = .ok (r', x) ↔ ∃ l, Opt q (PropsOutcome plat) x l ∧ b' = l ++ r') := by
    intro q cc hq b' r' x hl
    cases cc with
    | true =>
      have hq : q := hq.1 rfl
      rw [Ase.cond, if_pos rfl]
      simp only [P.bind_ok, P.pure_ok]
      constructor
      · rintro ⟨y, _, hy, rfl, rfl⟩
        obtain ⟨l, hpo, rfl⟩ := (parsePropertiesMaps_ok (by omega)).1 hy
        exact ⟨l, ⟨hq, hpo⟩, rfl⟩
      · rintro ⟨l, ho, rfl⟩
        cases x with
        | none => exact absurd hq ho.1
        | some y => exact ⟨y, r', (parsePropertiesMaps_ok (by omega)).2 ⟨l, ho.2, rfl⟩, rfl, rfl⟩
    | false =>
      have hq : ¬ q := fun h => by simp at hq; exact hq h
      rw [Ase.cond, if_neg (by simp)]
      simp only [P.pure_ok]
      constructor
      · rintro ⟨rfl, rfl⟩; exact ⟨[], ⟨hq, rfl⟩, by simp⟩
      · rintro ⟨l, ho, rfl⟩
        cases x with
        | none => obtain ⟨_, rfl⟩ := ho; exact ⟨by simp, rfl⟩
        | some y => exact absurd ho.1 hq
  constructor
  · intro H0
    obtain ⟨flags, r1, h1, H1⟩ := P.bind_ok.1 H0; clear H0
    obtain rfl := dword_ok.1 h1
    obtain ⟨text, r2, h2, H2⟩ := P.bind_ok.1 H1; clear H1
    obtain ⟨t, ht, rfl⟩ := (parses_string.cond_opt (userData_hasText flags)).1 h2
    obtain ⟨color, r3, h3, H3⟩ := P.bind_ok.1 H2; clear H2
    obtain ⟨k, hk, rfl⟩ := ((Parses.of_eq @parseColor_ok).cond_opt (userData_hasColor flags)).1 h3
    obtain ⟨maps, r4, h4, H4⟩ := P.bind_ok.1 H3; clear H3
    obtain ⟨p, hp, rfl⟩ := (hmaps (userData_hasProperties flags) (by simp; omega)).1 h4
    obtain ⟨rfl, rfl⟩ := P.pure_ok.1 H4
    exact ⟨flags, t, k, p, ht, hk, hp, by simp⟩
  · rintro ⟨flags, t, k, p, ht, hk, hp, rfl⟩
    refine P.bind_ok.2 ⟨flags, t ++ (k ++ (p ++ r)), dword_ok.2 (by simp), ?_⟩
    refine P.bind_ok.2 ⟨c.text, k ++ (p ++ r), (parses_string.cond_opt (userData_hasText flags)).2 ⟨t, ht, rfl⟩, ?_⟩
    refine P.bind_ok.2 ⟨c.color, p ++ r, ((Parses.of_eq @parseColor_ok).cond_opt (userData_hasColor flags)).2 ⟨k, hk, rfl⟩, ?_⟩
    refine P.bind_ok.2 ⟨c.propertiesMaps, r, (hmaps (userData_hasProperties flags) (by simp; omega)).2 ⟨p, hp, rfl⟩, ?_⟩
    exact P.pure_ok.2 ⟨rfl, rfl⟩

/-- A well formed payload, with any depth that the stack can hold. -/
theorem propsOutcome_ok {plat : Plat} {v : Bytes × List PropertiesMap} {l : Bytes} (hl : l.length < 2 * plat.stack) :
    PropsOutcome plat (.ok v) l ↔ IsProperties true v l := by
  obtain ⟨rest, ms⟩ := v
  simp only [PropsOutcome, IsProperties, (parses_all plat.stack).2.2.1.count]
  constructor
  · rintro ⟨n, payload, hp, hn, rfl, rfl, e, he, rfl⟩
    exact ⟨plat.stack, e, by simpa [Nat.add_assoc] using hp, hn, he, by simp [Nat.add_assoc]⟩
  · rintro ⟨d, e, hp, hn, he, rfl⟩
    refine ⟨ms.length, e ++ rest, by simpa [Nat.add_assoc] using hp, hn, by simp [Nat.add_assoc], rfl, e, ?_, rfl⟩
    refine seq_imp he fun m _ l' hl' h => ?_
    simp at hl
    exact (depth_change true true d plat.stack).2.2.1 _ _ (by omega) h

end Ase
