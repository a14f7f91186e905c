import Verif.Model.State
/-! # Model of `sim/src/integration/mod.rs` and `sim/src/integration/runge_kutta.rs`

`SVector<f64, n>` is `Fin n → F`.  The integrated function may panic, so it returns an
`Except Panic`. -/

namespace Post
variable {F : Type} [Flt F]

/-- nalgebra's `Vector::add_scalar` -/
def addScalar {n : Nat} (v : Fin n → F) (k : F) : Fin n → F := fun i => v i + k
/-- nalgebra's scalar times vector -/
def vscale {n : Nat} (k : F) (v : Fin n → F) : Fin n → F := fun i => k * v i
/-- nalgebra's vector addition -/
def vadd {n : Nat} (v w : Fin n → F) : Fin n → F := fun i => v i + w i
/-- `Iterator::sum::<SVector<f64, n>>()`: left fold from the zero vector -/
def vsum {n : Nat} (l : List (Fin n → F)) : Fin n → F := l.foldl vadd (fun _ => 0)

/-- runge_kutta.rs:15-19 struct `RungeKutta<R>` -/
structure RungeKutta (F : Type) (R : Nat) where
  a : Fin R → Fin R → F
  b : Fin R → F
  c : Fin R → F

/-- runge_kutta.rs:61-67 `RK4` -/
def RK4 : RungeKutta F 4 where
  a := fun i j => match i, j with
    | 0, _ => 0
    | 1, 0 => 0.5 | 1, _ => 0
    | 2, 1 => 0.5 | 2, _ => 0
    | 3, 2 => 1 | 3, _ => 0
  b := fun i => match i with
    | 0 => 1 / 6 | 1 => 1 / 3 | 2 => 1 / 3 | 3 => 1 / 6
  c := fun i => match i with
    | 0 => 0 | 1 => 0.5 | 2 => 0.5 | 3 => 1

/-- `k.set_column(i, &ki)` (runge_kutta.rs:46) on the matrix of stage vectors -/
def setCol {α : Type} {R : Nat} (k : Fin R → α) (i : Fin R) (v : α) : Fin R → α :=
  fun j => if j = i then v else k j

/-- runge_kutta.rs:38-47, one pass of the loop: the `i`-th stage vector is computed from the
stages so far and stored in column `i`. -/
def RungeKutta.stage {R dX dY : Nat} (rk : RungeKutta F R)
    (f : (Fin dX → F) → (Fin dY → F) → Except Panic (Fin dY → F))
    (x : Fin dX → F) (y : Fin dY → F) (h : F) (k : Fin R → Fin dY → F) (i : Fin R) :
    Except Panic (Fin R → Fin dY → F) := do
  let v ← f (addScalar x (rk.c i * h))
    (vadd y (vsum ((List.finRange R).map fun j => vscale (rk.a i j) (k j))))
  .ok (setCol k i (vscale h v))

/-- runge_kutta.rs:29-57 `RungeKutta::step` -/
def RungeKutta.step {R dX dY : Nat} (rk : RungeKutta F R)
    (f : (Fin dX → F) → (Fin dY → F) → Except Panic (Fin dY → F))
    (x : Fin dX → F) (y : Fin dY → F) (h : F) :
    Except Panic ((Fin dX → F) × (Fin dY → F)) := do
  let k ← (List.finRange R).foldlM (rk.stage f x y h) (fun _ _ => 0)
  .ok (addScalar x h,
    vadd y (vsum ((List.finRange R).map fun i => vscale (rk.b i) (k i))))

/-- integration/mod.rs:19-22 enum `Integrator` -/
inductive Integrator
  | rk4
deriving DecidableEq, Repr

/-- integration/mod.rs:39-41: the state function turned into a function on vectors -/
def convertedFunc (func : State F → Except Panic (State F)) (t : Fin 2 → F) (s : Fin 7 → F) :
    Except Panic (Fin 7 → F) := do
  let st ← func (State.fromVec t s)
  pure st.toDifferentialsVector

/-- integration/mod.rs:32-57 `Integrator::step` -/
def Integrator.step (i : Integrator) (func : State F → Except Panic (State F)) (s : State F)
    (stepsize : F) : Except Panic (State F) :=
  match i with
  | .rk4 => do
    let (timeVec, stateVec) ←
      RK4.step (convertedFunc func) (vec2 s.time s.timeSinceEvent) s.toPrimaryVec stepsize
    func (State.fromVec timeVec stateVec)

end Post
