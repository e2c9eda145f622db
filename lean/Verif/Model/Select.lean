import Verif.Model.Loader

/-!
# `select_layers` with a predicate that has effects

`predicate: impl Fn(&Layer) -> bool` may be a closure with interior mutability (a `Cell`, a counter, a log) and may panic.
`σ` is the state it can change.
-/

namespace Ase

/-- `self.layers.iter().map(predicate).collect()` (mod.rs:251): `collect` takes the layers one at a time, calls the
predicate on each and pushes its result; a panic of the predicate ends it. -/
def collectMask {σ : Type} (p : LLayer → σ → Run Bool × σ) (mask : List Bool) : List LLayer → σ → Run (List Bool) × σ
  | [], s => (.ok mask, s)
  | layer :: layers, s =>
    match p layer s with
    | (.ok b, s) => collectMask p (mask ++ [b]) layers s
    | (.err e, _) => nomatch e
    | (.panic k, s) => (.panic k, s)

/-- mod.rs:250-252 -/
def AsepriteFile.selectLayersWith {σ : Type} (f : AsepriteFile) (p : LLayer → σ → Run Bool × σ) (s : σ) :
    Run LayerSelection × σ :=
  match collectMask p [] f.layers s with
  | (.ok mask, s) => (.ok (.mask mask), s)
  | (.err e, _) => nomatch e
  | (.panic k, s) => (.panic k, s)

end Ase
