import Verif.Model.Loader

/-!
# Comparing runs on two platforms

`Sim K o o'`: the outcome `o` is a panic of one of the kinds `K`, or the same as `o'`.
-/

namespace Ase

def Sim {ε α : Type} (K : Panic → Prop) (o o' : Outcome ε α) : Prop := o = o' ∨ ∃ k, K k ∧ o = .panic k

namespace Sim

theorem refl {ε α : Type} {K : Panic → Prop} (o : Outcome ε α) : Sim K o o := .inl rfl

theorem bind {ε α β : Type} {K : Panic → Prop} {o o' : Outcome ε α} {f f' : α → Outcome ε β} (h : Sim K o o')
    (hf : ∀ a, Sim K (f a) (f' a)) : Sim K (o >>= f) (o' >>= f') := by
  rcases h with rfl | ⟨k, hk, rfl⟩
  · cases o with
    | ok a => exact hf a
    | err e => exact .inl rfl
    | panic k => exact .inl rfl
  · exact .inr ⟨k, hk, rfl⟩

theorem ite {ε α : Type} {K : Panic → Prop} {c : Prop} [Decidable c] {o o' p p' : Outcome ε α} (h : Sim K o o')
    (h' : Sim K p p') : Sim K (if c then o else p) (if c then o' else p') := by
  by_cases hc : c
  · rw [if_pos hc, if_pos hc]; exact h
  · rw [if_neg hc, if_neg hc]; exact h'

theorem mapErr {ε ε' α : Type} {K : Panic → Prop} {o o' : Outcome ε α} (f : ε → ε') (h : Sim K o o') :
    Sim K (o.mapErr f) (o'.mapErr f) := by
  rcases h with rfl | ⟨k, hk, rfl⟩
  · exact refl _
  · exact .inr ⟨k, hk, rfl⟩

theorem lift {ε α : Type} {K : Panic → Prop} {o o' : Run α} (h : Sim K o o') :
    Sim K (o.lift : Outcome ε α) o'.lift := by
  rcases h with rfl | ⟨k, hk, rfl⟩
  · exact refl _
  · exact .inr ⟨k, hk, rfl⟩

end Sim

/-! ## Parsers -/

def SimP {α : Type} (K : Panic → Prop) (p q : P α) : Prop := ∀ b, Sim K (p b) (q b)

namespace SimP

variable {K : Panic → Prop}

theorem refl {α : Type} (p : P α) : SimP K p p := fun _ => .refl _

theorem bind {α β : Type} {p q : P α} {f g : α → P β} (h : SimP K p q) (hf : ∀ a, SimP K (f a) (g a)) :
    SimP K (p >>= f) (q >>= g) := by
  intro b
  show Sim K (P.bind p f b) (P.bind q g b)
  unfold P.bind
  rcases h b with h | ⟨k, hk, h⟩
  · rw [h]
    cases q b with
    | ok a => exact hf a.2 a.1
    | err e => exact .refl _
    | panic k => exact .refl _
  · exact .inr ⟨k, hk, by rw [h]⟩

theorem map {α β : Type} {p q : P α} {f : α → β} (h : SimP K p q) :
    SimP K (p >>= fun a => pure (f a)) (q >>= fun a => pure (f a)) := bind h fun _ => refl _

theorem count {α : Type} {p q : P α} (h : SimP K p q) (n : Nat) : SimP K (Ase.count p n) (Ase.count q n) := by
  induction n with
  | zero => exact refl _
  | succ n ih => exact bind h fun _ => bind ih fun _ => refl _

theorem cond {α : Type} {p q : P α} (h : SimP K p q) (c : Bool) : SimP K (Ase.cond c p) (Ase.cond c q) := by
  cases c with
  | false => exact refl _
  | true => exact map h

theorem onSlice {α : Type} {p q : P α} (h : SimP K p q) (s : Bytes) : SimP K (P.onSlice p s) (P.onSlice q s) := by
  intro b
  unfold P.onSlice
  rcases h s with h | ⟨k, hk, h⟩
  · rw [h]; exact .refl _
  · exact .inr ⟨k, hk, by rw [h]⟩

theorem many1Loop {α : Type} {p q : P α} (h : SimP K p q) : SimP K (Ase.many1Loop p) (Ase.many1Loop q) := by
  intro b
  generalize hn : b.length = n
  induction n using Nat.strongRecOn generalizing b with
  | _ n ih =>
    rw [Ase.many1Loop, Ase.many1Loop]
    rcases h b with h1 | ⟨k, hk, h1⟩
    · rw [h1]
      cases q b with
      | ok a =>
        obtain ⟨r, x⟩ := a
        dsimp only
        by_cases hl : r.length < b.length
        · rw [dif_pos hl, dif_pos hl]
          rcases ih r.length (by omega) r rfl with h2 | ⟨k, hk, h2⟩
          · rw [h2]; exact .refl _
          · exact .inr ⟨k, hk, by rw [h2]⟩
        · rw [dif_neg hl, dif_neg hl]; exact .refl _
      | err e => cases e <;> exact .refl _
      | panic k => exact .refl _
    · exact .inr ⟨k, hk, by rw [h1]⟩

theorem many1 {α : Type} {p q : P α} (h : SimP K p q) : SimP K (Ase.many1 p) (Ase.many1 q) :=
  bind h fun _ => bind (many1Loop h) fun _ => refl _

theorem allConsuming {α : Type} {p q : P α} (h : SimP K p q) : SimP K (Ase.allConsuming p) (Ase.allConsuming q) := by
  intro b
  unfold Ase.allConsuming
  rcases h b with h | ⟨k, hk, h⟩
  · rw [h]; exact .refl _
  · exact .inr ⟨k, hk, by rw [h]⟩

/-- More stack for the property parsers. -/
theorem properties (hK : K .stackOverflow) (d : Nat) : ∀ d', d ≤ d' →
    SimP K (parseValue d) (parseValue d') ∧ SimP K (parseVector d) (parseVector d') ∧
      SimP K (parsePropertiesMap d) (parsePropertiesMap d') ∧ SimP K (parseProperty d) (parseProperty d') := by
  induction d with
  | zero =>
    intro d' _
    refine ⟨?_, ?_, ?_, ?_⟩ <;> intro b
    · rw [parseValue]; exact .inr ⟨_, hK, rfl⟩
    · rw [parseVector]; exact .inr ⟨_, hK, rfl⟩
    · rw [parsePropertiesMap]; exact .inr ⟨_, hK, rfl⟩
    · rw [parseProperty]; exact .inr ⟨_, hK, rfl⟩
  | succ d ih =>
    intro d' hd
    obtain ⟨d', rfl⟩ : ∃ n, d' = n + 1 := ⟨d' - 1, by omega⟩
    obtain ⟨h1, h2, h3, h4⟩ := ih d' (by omega)
    refine ⟨?_, ?_, ?_, ?_⟩
    · rw [parseValue, parseValue]
      refine bind (refl _) fun code => ?_
      cases PropertyType.fromRepr code.toNat with
      | none => exact refl _
      | some t =>
        cases t with
        | vector => exact map h2
        | propertiesMap => exact map h3
        | _ => exact refl _
    · rw [parseVector, parseVector]
      refine bind (refl _) fun n => bind (refl _) fun code => ?_
      by_cases hc : code = 0
      · rw [if_pos hc, if_pos hc]; exact map (h1.count _)
      · rw [if_neg hc, if_neg hc]
        cases PropertyType.fromRepr code.toNat with
        | none => exact refl _
        | some t =>
          cases t with
          | vector => exact map (h2.count _)
          | propertiesMap => exact map (h3.count _)
          | _ => exact refl _
    · rw [parsePropertiesMap, parsePropertiesMap]
      exact bind (refl _) fun _ => bind (refl _) fun _ => map (h4.count _)
    · rw [parseProperty, parseProperty]
      exact bind (refl _) fun _ => map h1

end SimP

/-- `plat` has at most the stack of `plat'` and is a debug build if `plat'` is. -/
def Plat.Below (plat plat' : Plat) : Prop := plat.stack ≤ plat'.stack ∧ (plat'.debug = true → plat.debug = true)

section Parser

variable {K : Panic → Prop} {plat plat' : Plat}

theorem usizeSub8_sim (hd : plat'.debug = true → plat.debug = true)
    (hK : plat.debug = true → plat'.debug = false → K .overflow) (n : Nat) :
    Sim K (usizeSub8 plat n) (usizeSub8 plat' n) := by
  unfold usizeSub8
  by_cases hn : 8 ≤ n
  · rw [if_pos hn, if_pos hn]; exact .refl _
  · rw [if_neg hn, if_neg hn]
    cases h : plat.debug with
    | true =>
      cases h' : plat'.debug with
      | true => exact .refl _
      | false => exact .inr ⟨_, hK h h', rfl⟩
    | false =>
      cases h' : plat'.debug with
      | true => rw [hd h'] at h; cases h
      | false => exact .refl _

variable (hp : plat.Below plat') (hS : K .stackOverflow) (hO : plat.debug = true → plat'.debug = false → K .overflow)

include hp hS hO

theorem parsePropertiesMaps_sim : SimP K (parsePropertiesMaps plat) (parsePropertiesMaps plat') := by
  refine SimP.bind (.refl _) fun size => SimP.bind (.refl _) fun num => SimP.bind ?_ fun n => SimP.bind (.refl _) fun m => ?_
  · exact fun b => Sim.bind (usizeSub8_sim hp.2 hO size) fun _ => .refl _
  · intro b
    dsimp only
    rcases (SimP.properties hS plat.stack plat'.stack hp.1).2.2.1.count num m with h | ⟨k, hk, h⟩
    · rw [h]; exact .refl _
    · exact .inr ⟨k, hk, by rw [h]⟩

theorem parseUserDataChunk_sim : SimP K (parseUserDataChunk plat) (parseUserDataChunk plat') :=
  SimP.bind (.refl _) fun _ => SimP.bind (.refl _) fun _ => SimP.bind (.refl _) fun _ =>
    SimP.map ((parsePropertiesMaps_sim hp hS hO).cond _)

theorem parseChunk_sim : SimP K (parseChunk plat) (parseChunk plat') := by
  refine SimP.bind (.refl _) fun _ => SimP.bind (.refl _) fun _ => SimP.onSlice (SimP.bind (.refl _) fun t => ?_) _
  cases t with
  | error => exact .refl _
  | ok t =>
    cases t with
    | userData => exact SimP.map (parseUserDataChunk_sim hp hS hO)
    | _ => exact .refl _

theorem parseRawframe_sim : SimP K (parseRawframe plat) (parseRawframe plat') :=
  SimP.bind (.refl _) fun _ => SimP.bind (.refl _) fun _ => SimP.onSlice (SimP.bind (.refl _) fun _ =>
    SimP.bind (.refl _) fun _ => SimP.bind (.refl _) fun _ => SimP.bind (.refl _) fun _ => SimP.bind (.refl _) fun _ =>
    SimP.map ((parseChunk_sim hp hS hO).count _)) _

theorem parseRawFile_sim (b : Bytes) : Sim K (parseRawFile plat b) (parseRawFile plat' b) :=
  Sim.bind (.refl _) fun a => Sim.bind ((parseRawframe_sim hp hS hO).many1.allConsuming a.1) fun _ => .refl _

theorem parseFile_sim (b : Bytes) : Sim K (parseFile plat b) (parseFile plat' b) :=
  Sim.bind (parseRawFile_sim hp hS hO b) fun _ => .refl _

theorem load_sim (b : Bytes) : Sim K (AsepriteFile.load plat b) (AsepriteFile.load plat' b) :=
  Sim.bind ((parseFile_sim hp hS hO b).mapErr _) fun _ => .refl _

end Parser

/-! ## Blending -/

section Blend

variable {K : Panic → Prop} {plat plat' : Plat} (hd : plat'.debug = true → plat.debug = true)
  (hO : plat.debug = true → K .overflow) (hA : plat.debug = true → K .debugAssertFailed)

theorem sim_debug (hd : plat'.debug = true → plat.debug = true) {ε α : Type} {k : Panic} (hK : plat.debug = true → K k)
    (x : Outcome ε α) : Sim K (if plat.debug then .panic k else x) (if plat'.debug then .panic k else x) := by
  cases h : plat.debug with
  | true => exact .inr ⟨_, hK h, rfl⟩
  | false =>
    cases h' : plat'.debug with
    | true => rw [hd h'] at h; cases h
    | false => exact .refl _

include hd hO in
theorem i32Op_sim (n : Int) : Sim K (i32Op plat n) (i32Op plat' n) := .ite (.refl _) (sim_debug hd hO _)

include hd hO in
theorem u8Sub_sim (a b : UInt8) : Sim K (u8Sub plat a b) (u8Sub plat' a b) := .ite (.refl _) (sim_debug hd hO _)

include hd hA in
theorem debugAssert_sim (c : Bool) : Sim K (debugAssert plat c) (debugAssert plat' c) := by
  unfold debugAssert
  cases c with
  | true => simp only [Bool.not_true, Bool.and_false]; exact .refl _
  | false => simp only [Bool.not_false, Bool.and_true]; exact sim_debug hd hA _

include hd hA in
theorem ofI32_sim (r g b a : Int) : Sim K (Color.ofI32 plat r g b a) (Color.ofI32 plat' r g b a) :=
  .bind (debugAssert_sim hd hA _) fun _ => .bind (debugAssert_sim hd hA _) fun _ => .bind (debugAssert_sim hd hA _) fun _ =>
    .bind (debugAssert_sim hd hA _) fun _ => .refl _

include hd hO in
theorem mul8_sim (a b : Int) : Sim K (mul8 plat a b) (mul8 plat' a b) :=
  .bind (i32Op_sim hd hO _) fun _ => .bind (i32Op_sim hd hO _) fun _ => .bind (i32Op_sim hd hO _) fun _ => .refl _

include hd hO in
theorem div8_sim (a b : Int) : Sim K (div8 plat a b) (div8 plat' a b) :=
  .bind (i32Op_sim hd hO _) fun _ => .bind (.refl _) fun _ => .bind (i32Op_sim hd hO _) fun _ => .refl _

include hd hO in
theorem blend8_sim (a b o : UInt8) : Sim K (blend8 plat a b o) (blend8 plat' a b o) :=
  .bind (i32Op_sim hd hO _) fun _ => .bind (i32Op_sim hd hO _) fun _ => .bind (i32Op_sim hd hO _) fun _ =>
    .bind (i32Op_sim hd hO _) fun _ => .bind (i32Op_sim hd hO _) fun _ => .refl _

include hd hO in
theorem normalChannel_sim (a b c d : Int) : Sim K (normalChannel plat a b c d) (normalChannel plat' a b c d) :=
  .bind (i32Op_sim hd hO _) fun _ => .bind (i32Op_sim hd hO _) fun _ => .bind (.refl _) fun _ => i32Op_sim hd hO _

include hd hO hA in
theorem normal_sim (b f : Color) (o : UInt8) : Sim K (normal plat b f o) (normal plat' b f o) :=
  .ite (.bind (mul8_sim hd hO _ _) fun _ => .refl _) <| .ite (.refl _) <|
    .bind (mul8_sim hd hO _ _) fun _ => .bind (i32Op_sim hd hO _) fun _ => .bind (mul8_sim hd hO _ _) fun _ =>
    .bind (i32Op_sim hd hO _) fun _ => .bind (normalChannel_sim hd hO _ _ _ _) fun _ =>
    .bind (normalChannel_sim hd hO _ _ _ _) fun _ => .bind (normalChannel_sim hd hO _ _ _ _) fun _ => ofI32_sim hd hA _ _ _ _

include hd hO in
theorem merge_sim (b f : Color) (o : UInt8) : Sim K (merge plat b f o) (merge plat' b f o) :=
  .bind (.ite (.refl _) <| .ite (.refl _) <| .bind (blend8_sim hd hO _ _ _) fun _ => .bind (blend8_sim hd hO _ _ _) fun _ =>
    .bind (blend8_sim hd hO _ _ _) fun _ => .refl _) fun _ => .bind (blend8_sim hd hO _ _ _) fun _ => .refl _

include hd hO hA in
theorem blender_sim (b f : Color) (o : UInt8) {g g' : Color → Color → UInt8 → Run Color}
    (h : ∀ b f o, Sim K (g b f o) (g' b f o)) : Sim K (blender plat b f o g) (blender plat' b f o g') :=
  .ite (.bind (normal_sim hd hO hA _ _ _) fun _ => .bind (h _ _ _) fun _ => .bind (merge_sim hd hO _ _ _) fun _ =>
    .bind (mul8_sim hd hO _ _) fun _ => .bind (mul8_sim hd hO _ _) fun _ => merge_sim hd hO _ _ _)
    (normal_sim hd hO hA _ _ _)

include hd hO hA in
theorem blendChannel_sim (b f : Color) (o : UInt8) {g g' : Int → Int → Run UInt8}
    (h : ∀ b s, Sim K (g b s) (g' b s)) : Sim K (blendChannel plat b f o g) (blendChannel plat' b f o g') :=
  .bind (h _ _) fun _ => .bind (h _ _) fun _ => .bind (h _ _) fun _ => normal_sim hd hO hA _ _ _

include hd hO hA in
theorem additionBaseline_sim (b f : Color) (o : UInt8) : Sim K (additionBaseline plat b f o) (additionBaseline plat' b f o) :=
  .bind (i32Op_sim hd hO _) fun _ => .bind (i32Op_sim hd hO _) fun _ => .bind (i32Op_sim hd hO _) fun _ =>
    .bind (ofI32_sim hd hA _ _ _ _) fun _ => normal_sim hd hO hA _ _ _

include hd hO hA in
theorem subtractBaseline_sim (b f : Color) (o : UInt8) : Sim K (subtractBaseline plat b f o) (subtractBaseline plat' b f o) :=
  .bind (i32Op_sim hd hO _) fun _ => .bind (i32Op_sim hd hO _) fun _ => .bind (i32Op_sim hd hO _) fun _ =>
    .bind (ofI32_sim hd hA _ _ _ _) fun _ => normal_sim hd hO hA _ _ _

include hd hO in
theorem blendScreen_sim (a b : Int) : Sim K (blendScreen plat a b) (blendScreen plat' a b) :=
  .bind (i32Op_sim hd hO _) fun _ => .bind (mul8_sim hd hO _ _) fun _ => .bind (i32Op_sim hd hO _) fun _ => .refl _

include hd hO in
theorem blendHardLight_sim (a b : Int) : Sim K (blendHardLight plat a b) (blendHardLight plat' a b) :=
  .ite (mul8_sim hd hO _ _) (.bind (i32Op_sim hd hO _) fun _ => blendScreen_sim hd hO _ _)

include hd hO in
theorem blendColorDodge_sim (a b : Int) : Sim K (blendColorDodge plat a b) (blendColorDodge plat' a b) :=
  .ite (.refl _) (.bind (i32Op_sim hd hO _) fun _ => .ite (.refl _) (div8_sim hd hO _ _))

include hd hO in
theorem blendColorBurn_sim (a b : Int) : Sim K (blendColorBurn plat a b) (blendColorBurn plat' a b) :=
  .ite (.refl _) (.bind (i32Op_sim hd hO _) fun _ => .ite (.refl _) (.bind (div8_sim hd hO _ _) fun _ => u8Sub_sim hd hO _ _))

include hd hO in
theorem blendDivide_sim (a b : Int) : Sim K (blendDivide plat a b) (blendDivide plat' a b) :=
  .ite (.refl _) (.ite (.refl _) (div8_sim hd hO _ _))

include hd hO in
theorem blendDifference_sim (a b : Int) : Sim K (blendDifference plat a b) (blendDifference plat' a b) :=
  .bind (i32Op_sim hd hO _) fun _ => .refl _

include hd hO in
theorem blendExclusion_sim (a b : Int) : Sim K (blendExclusion plat a b) (blendExclusion plat' a b) :=
  .bind (mul8_sim hd hO _ _) fun _ => .bind (i32Op_sim hd hO _) fun _ => .bind (i32Op_sim hd hO _) fun _ =>
    .bind (i32Op_sim hd hO _) fun _ => .refl _

include hd hO hA in
theorem softLightBaseline_sim (b f : Color) (o : UInt8) :
    Sim K (softLightBaseline plat b f o) (softLightBaseline plat' b f o) :=
  .bind (ofI32_sim hd hA _ _ _ _) fun _ => normal_sim hd hO hA _ _ _

include hd hO hA in
theorem hslHueBaseline_sim (b f : Color) (o : UInt8) : Sim K (hslHueBaseline plat b f o) (hslHueBaseline plat' b f o) :=
  .bind (ofI32_sim hd hA _ _ _ _) fun _ => normal_sim hd hO hA _ _ _

include hd hO hA in
theorem hslSaturationBaseline_sim (b f : Color) (o : UInt8) :
    Sim K (hslSaturationBaseline plat b f o) (hslSaturationBaseline plat' b f o) :=
  .bind (ofI32_sim hd hA _ _ _ _) fun _ => normal_sim hd hO hA _ _ _

include hd hO hA in
theorem hslColorBaseline_sim (b f : Color) (o : UInt8) :
    Sim K (hslColorBaseline plat b f o) (hslColorBaseline plat' b f o) :=
  .bind (ofI32_sim hd hA _ _ _ _) fun _ => normal_sim hd hO hA _ _ _

include hd hO hA in
theorem hslLuminosityBaseline_sim (b f : Color) (o : UInt8) :
    Sim K (hslLuminosityBaseline plat b f o) (hslLuminosityBaseline plat' b f o) :=
  .bind (ofI32_sim hd hA _ _ _ _) fun _ => normal_sim hd hO hA _ _ _

/-- The blend function of a mode on the two platforms. -/
def SimFn (K : Panic → Prop) (x y : Run BlendFn) : Prop :=
  (∃ k, x = .panic k ∧ y = .panic k) ∨ ∃ f g, x = .ok f ∧ y = .ok g ∧ ∀ b s o, Sim K (f b s o) (g b s o)

include hd hO hA in
theorem blendFn_sim (m : BlendMode) : SimFn K (blendModeToBlendFn plat m) (blendModeToBlendFn plat' m) := by
  have ch : ∀ {g g' : Int → Int → Run UInt8}, (∀ b s, Sim K (g b s) (g' b s)) → ∀ b s o,
      Sim K (blender plat b s o fun b f o => blendChannel plat b f o g)
        (blender plat' b s o fun b f o => blendChannel plat' b f o g') := fun h b s o =>
    blender_sim hd hO hA b s o fun b f o => blendChannel_sim hd hO hA b f o h
  cases m with
  | normal => exact .inr ⟨_, _, rfl, rfl, normal_sim hd hO hA⟩
  | multiply => exact .inr ⟨_, _, rfl, rfl, ch (mul8_sim hd hO)⟩
  | screen => exact .inr ⟨_, _, rfl, rfl, ch (blendScreen_sim hd hO)⟩
  | overlay => exact .inr ⟨_, _, rfl, rfl, ch fun a b => blendHardLight_sim hd hO b a⟩
  | darken => exact .inr ⟨_, _, rfl, rfl, ch fun _ _ => .refl _⟩
  | lighten => exact .inr ⟨_, _, rfl, rfl, ch fun _ _ => .refl _⟩
  | colorDodge => exact .inr ⟨_, _, rfl, rfl, ch (blendColorDodge_sim hd hO)⟩
  | colorBurn => exact .inr ⟨_, _, rfl, rfl, ch (blendColorBurn_sim hd hO)⟩
  | hardLight => exact .inr ⟨_, _, rfl, rfl, ch (blendHardLight_sim hd hO)⟩
  | softLight => exact .inr ⟨_, _, rfl, rfl, fun b s o => blender_sim hd hO hA b s o (softLightBaseline_sim hd hO hA)⟩
  | difference => exact .inr ⟨_, _, rfl, rfl, ch (blendDifference_sim hd hO)⟩
  | exclusion => exact .inr ⟨_, _, rfl, rfl, ch (blendExclusion_sim hd hO)⟩
  | hue => exact .inr ⟨_, _, rfl, rfl, fun b s o => blender_sim hd hO hA b s o (hslHueBaseline_sim hd hO hA)⟩
  | saturation => exact .inr ⟨_, _, rfl, rfl, fun b s o => blender_sim hd hO hA b s o (hslSaturationBaseline_sim hd hO hA)⟩
  | color => exact .inr ⟨_, _, rfl, rfl, fun b s o => blender_sim hd hO hA b s o (hslColorBaseline_sim hd hO hA)⟩
  | luminosity => exact .inr ⟨_, _, rfl, rfl, fun b s o => blender_sim hd hO hA b s o (hslLuminosityBaseline_sim hd hO hA)⟩
  | addition => exact .inr ⟨_, _, rfl, rfl, fun b s o => blender_sim hd hO hA b s o (additionBaseline_sim hd hO hA)⟩
  | subtract => exact .inr ⟨_, _, rfl, rfl, fun b s o => blender_sim hd hO hA b s o (subtractBaseline_sim hd hO hA)⟩
  | divide => exact .inr ⟨_, _, rfl, rfl, ch (blendDivide_sim hd hO)⟩
  | unknown => exact .inl ⟨_, rfl, rfl⟩

end Blend

/-! ## Rendering -/

def SimB {α : Type} (K : Panic → Prop) (x y : Buf α) : Prop := ∀ t, x t = y t ∨ ∃ k, K k ∧ (x t).1 = .panic k

namespace SimB

variable {K : Panic → Prop}

theorem refl {α : Type} (x : Buf α) : SimB K x x := fun _ => .inl rfl

theorem bind {α β : Type} {x y : Buf α} {f g : α → Buf β} (h : SimB K x y) (hf : ∀ a, SimB K (f a) (g a)) :
    SimB K (x >>= f) (y >>= g) := by
  intro t
  show Buf.bind x f t = Buf.bind y g t ∨ ∃ k, K k ∧ (Buf.bind x f t).1 = .panic k
  unfold Buf.bind
  rcases h t with h | ⟨k, hk, h⟩
  · rw [h]
    obtain ⟨o, t'⟩ := y t
    cases o with
    | ok a => exact hf a t'
    | err e => exact .inl rfl
    | panic k => exact .inl rfl
  · refine .inr ⟨k, hk, ?_⟩
    generalize x t = z at h
    obtain ⟨o, t'⟩ := z
    cases h
    rfl

theorem lift {α : Type} {o o' : Outcome LoadImageError α} (h : Sim K o o') : SimB K (Buf.lift o) (Buf.lift o') := by
  intro t
  rcases h with rfl | ⟨k, hk, rfl⟩
  · exact .inl rfl
  · exact .inr ⟨k, hk, rfl⟩

theorem ite {α : Type} {c : Prop} [Decidable c] {x y x' y' : Buf α} (h : SimB K x y) (h' : SimB K x' y') :
    SimB K (if c then x else x') (if c then y else y') := by
  by_cases hc : c
  · rw [if_pos hc, if_pos hc]; exact h
  · rw [if_neg hc, if_neg hc]; exact h'

theorem forEach {α : Type} {f g : α → Buf Unit} (h : ∀ a, SimB K (f a) (g a)) (xs : List α) :
    SimB K (Buf.forEach f xs) (Buf.forEach g xs) := by
  induction xs with
  | nil => exact refl _
  | cons x xs ih => exact bind (h x) fun _ => ih

end SimB

section Render

variable {K : Panic → Prop} {plat plat' : Plat} (hd : plat'.debug = true → plat.debug = true)
  (hO : plat.debug = true → K .overflow) (hA : plat.debug = true → K .debugAssertFailed)

include hd hA in
theorem ofSlice_sim (s : Bytes) : Sim K (Color.ofSlice plat s) (Color.ofSlice plat' s) := by
  unfold Color.ofSlice
  by_cases hs : s.length ≠ 4
  · simp only [hs, ne_eq, not_false_eq_true, and_true]
    exact sim_debug hd hA _
  · simp only [hs, and_false]
    exact .refl _

include hd hA in
theorem renderPixel_sim (f : AsepriteFile) (cel : FrameCel) (layer : LLayer) {fn fn' : BlendFn}
    (hf : ∀ b s o, Sim K (fn b s o) (fn' b s o)) (c : Bytes) (y x : UInt16) :
    SimB K (f.renderPixel plat cel layer fn c y x) (f.renderPixel plat' cel layer fn' c y x) := by
  unfold AsepriteFile.renderPixel
  cases checkedAddSigned x cel.origin.1 with
  | none => exact .refl _
  | some tx =>
    refine .ite (.refl _) ?_
    cases checkedAddSigned y cel.origin.2 with
    | none => exact .refl _
    | some ty =>
      refine .ite (.refl _) ?_
      exact .bind (.refl _) fun _ => .bind (.refl _) fun _ => .bind (.lift (ofSlice_sim hd hA _).lift) fun _ =>
        .bind (.lift (ofSlice_sim hd hA _).lift) fun _ => .bind (.lift (hf _ _ _).lift) fun _ => .refl _

include hd hO hA in
theorem renderCel_sim (inflate : Inflater) (f : AsepriteFile) (sel : LayerSelection) (cel : FrameCel) :
    SimB K (f.renderCel plat inflate sel cel) (f.renderCel plat' inflate sel cel) := by
  unfold AsepriteFile.renderCel
  cases f.layers[cel.layerIndex]? with
  | none => exact .refl _
  | some layer =>
    refine .ite (.refl _) (.bind (.refl _) fun c => ?_)
    rcases blendFn_sim hd hO hA layer.blendMode with ⟨k, h, h'⟩ | ⟨g, g', h, h', hg⟩
    · rw [h, h']
      exact .refl _
    · rw [h, h']
      exact SimB.forEach (fun y => SimB.forEach (fun x => renderPixel_sim hd hA f cel layer hg c y x) _) _

include hd hO hA in
theorem renderFrame_sim (inflate : Inflater) (f : AsepriteFile) (i : Nat) (sel : LayerSelection) :
    SimB K (f.renderFrame plat inflate i sel) (f.renderFrame plat' inflate i sel) := by
  refine .bind (.refl _) fun n => .ite (.refl _) ?_
  cases f.frames[i]? with
  | none => exact .refl _
  | some frame => exact SimB.forEach (renderCel_sim hd hO hA inflate f sel) _

include hd hO hA in
theorem combinedFrameImage_sim (inflate : Inflater) (hash : List HashInput → UInt64) (f : AsepriteFile) (i : Nat) :
    SimB K (f.combinedFrameImage plat inflate hash i) (f.combinedFrameImage plat' inflate hash i) :=
  .bind (renderFrame_sim hd hO hA inflate f i _) fun _ => .refl _

end Render

end Ase
