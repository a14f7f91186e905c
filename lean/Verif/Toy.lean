import Verif.Model.Json
/-! # A small executable arithmetic for examples

`Fix` is decimal fixed-point arithmetic with three digits, truncating.  It rounds, has no NaN,
and crude elementary functions (`sin = 0`, `cos = 1`, ...).  It satisfies `LawfulFlt`.  It is
only used in `example`s: they run the model on concrete inputs inside the kernel and show that
the hypotheses of the theorems are met by concrete executions, in an arithmetic with rounding. -/

namespace Post

/-- a number of thousandths -/
structure Fix where
  milli : Int
deriving DecidableEq, Repr

namespace Fix

/-- integer square root by bisection on bits -/
def isqrt (n : Nat) : Nat :=
  (List.range 40).foldr (fun b r => let r' := r + 2 ^ b; if r' * r' ≤ n then r' else r) 0

end Fix

instance : LawfulFlt Fix where
  add a b := ⟨a.milli + b.milli⟩
  sub a b := ⟨a.milli - b.milli⟩
  mul a b := ⟨a.milli * b.milli / 1000⟩
  div a b := ⟨a.milli * 1000 / b.milli⟩
  neg a := ⟨-a.milli⟩
  ofSci m s e := ⟨if s then (m * 1000 / 10 ^ e : Nat) else (m * 10 ^ e * 1000 : Nat)⟩
  inf := ⟨10 ^ 30⟩
  nan := ⟨0⟩
  pi := ⟨3142⟩
  lt a b := decide (a.milli < b.milli)
  eq a b := decide (a.milli = b.milli)
  abs a := ⟨a.milli.natAbs⟩
  sqrt a := ⟨Fix.isqrt (a.milli.toNat * 1000)⟩
  sin _ := ⟨0⟩
  cos _ := ⟨1000⟩
  tan _ := ⟨0⟩
  asin _ := ⟨0⟩
  acos _ := ⟨0⟩
  atan _ := ⟨0⟩
  exp _ := ⟨1000⟩
  signum a := ⟨if a.milli < 0 then -1000 else 1000⟩
  powi a n := (List.replicate n a).foldl (fun x y => ⟨x.milli * y.milli / 1000⟩) ⟨1000⟩
  powf a _ := a
  rotFromMatrix m := m
  lt_irrefl a := by simp
  lt_trans a b c := by simp; omega
  lt_nonNan a b := by simp
  lt_total a b := by simp; omega
  eq_symm a b := by simp; omega
  eq_trans a b c := by simp; omega
  lt_of_lt_of_eq a b c := by simp; omega
  lt_of_eq_of_lt a b c := by simp; omega
  zero_nonNan := by decide
  one_nonNan := by decide
  zero_lt_one := by decide

namespace Toy

/-- A free-falling vehicle on a small slowly rotating planet, run until time 3.5. -/
def config1 : PhaseConfig Fix :=
  { PhaseConfig.empty with
    init := some ⟨0, 0, 0, 0⟩
    planetModel := some (.custom 100 100 ⟨1000, 0, 0, 0⟩ 0)
    vehicle := some ⟨some 10, some 5, none, none, none, none, none⟩
    endCriterion := some (.time, 3.5) }

/-- Then ten more seconds. -/
def config2 : PhaseConfig Fix :=
  { PhaseConfig.empty with endCriterion := some (.timeSinceEvent, 2) }

/-- the first phase of `config1`, ready to run -/
def phase1 : Phase Fix :=
  match Phase.new none config1 with
  | .ok p => p.reset
  | .error _ => .default

/-- the second phase after `config1` and `config2`, ready to run -/
def phase2 : Phase Fix :=
  match phase1.run 10 with
  | some ⟨_, .ok q⟩ =>
    match Phase.new (some q) config2 with
    | .ok p => p.reset
    | .error _ => .default
  | _ => .default

/-- A criterion that is always overshot and never met: the mass is 15 and never changes, its
target is 10.  (The corrected step size divides by zero, which is 0 here.) -/
def configStuck : PhaseConfig Fix :=
  { PhaseConfig.empty with endCriterion := some (.mass, 10) }

/-- the phase of `config1` with the criterion of `configStuck` -/
def stuck : Phase Fix := { phase1 with endCriterion := (.mass, 10) }

/-- a computed result is a success satisfying a test -/
def okAnd {α : Type} (x : Except Panic α) (f : α → Bool) : Bool :=
  match x with | .ok a => f a | .error _ => false

theorem okAnd_iff {α : Type} {x : Except Panic α} {f : α → Bool} :
    okAnd x f = true ↔ ∃ a, x = .ok a ∧ f a = true := by
  cases x <;> simp [okAnd]

/-- a computed run has finished normally, with rows and a phase satisfying a test -/
def ranAnd (x : Option (RunOut Fix)) (f : List (Row Fix) → Phase Fix → Bool) : Bool :=
  match x with | some ⟨rows, .ok q⟩ => f rows q | _ => false

theorem ranAnd_iff {x : Option (RunOut Fix)} {f : List (Row Fix) → Phase Fix → Bool} :
    ranAnd x f = true ↔ ∃ rows q, x = some ⟨rows, .ok q⟩ ∧ f rows q = true := by
  cases x with
  | none => simp [ranAnd]
  | some o =>
    obtain ⟨rows, res⟩ := o
    cases res with
    | error e => simp [ranAnd]
    | ok q =>
      constructor
      · intro h; exact ⟨rows, q, rfl, h⟩
      · rintro ⟨rows', q', h, hf⟩
        injection h with h; injection h with h1 h2; injection h2 with h2
        subst h1 h2; exact hf

/-- `n` steps -/
def steps : Nat → Phase Fix → Except Panic (Phase Fix)
  | 0, p => .ok p
  | n + 1, p => do steps n (← p.step)

end Toy
end Post
