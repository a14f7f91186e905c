import Verif.Ext
import Verif.Spec.Run
/-! # Specification vocabulary: a variable that moves steadily towards its target -/

namespace Post.Spec

/-- From state `s`, over steps of up to `h0` seconds, the variable `v` moves in the direction `dir`
(`1`: it grows, `-1`: it falls) at a rate between `m` and `M` per second: every step succeeds, and
the value `f h` reached by a step of `h` seconds changes with `h` at such a rate. -/
def MovesSteadily (p : Phase XR) (v : StateVariable) (h0 dir m M : ℝ) (s : State XR) : Prop :=
  ∃ f : ℝ → ℝ, v.getValue s = .fin (f 0) ∧
    (∀ h, 0 < h → h ≤ h0 → ∃ s', OneStep p (.fin h) s s' ∧ v.getValue s' = .fin (f h)) ∧
    ∀ a b, 0 ≤ a → a ≤ b → b ≤ h0 →
      m * (b - a) ≤ dir * (f b - f a) ∧ dir * (f b - f a) ≤ M * (b - a)

/-- The target `T` lies ahead of the value `y`, seen in the direction `dir`. -/
def Ahead (dir T y : ℝ) : Prop := 0 < dir * (T - y)

/-- The states that can be reached by flying on from `s0` in steps of positive size up to `h0`. -/
inductive WithinSteps (p : Phase XR) (h0 : ℝ) (s0 : State XR) : State XR → Prop
  | start : WithinSteps p h0 s0 s0
  | step {s s' : State XR} {h : ℝ} : WithinSteps p h0 s0 s → 0 < h → h ≤ h0 →
      OneStep p (.fin h) s s' → WithinSteps p h0 s0 s'

end Post.Spec
