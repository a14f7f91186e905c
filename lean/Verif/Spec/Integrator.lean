import Verif.Ext
import Verif.Model.Integrator
/-! # Specification of the classical Runge-Kutta method -/

namespace Post.Spec
noncomputable section

/-- A real vector as a vector of extended reals. -/
def vfin {n : Nat} (y : Fin n → ℝ) : Fin n → XR := fun i => .fin (y i)

/-- `x` with `k` added to each component. -/
def shift {n : Nat} (x : Fin n → ℝ) (k : ℝ) : Fin n → ℝ := fun i => x i + k

/-- The classical Runge-Kutta step for `y' = g(x, y)`, as found in textbooks. -/
def classicalRK4 {m n : Nat} (g : (Fin m → ℝ) → (Fin n → ℝ) → (Fin n → ℝ))
    (x : Fin m → ℝ) (y : Fin n → ℝ) (h : ℝ) : Fin n → ℝ :=
  let k1 := g x y
  let k2 := g (shift x (h / 2)) (y + (h / 2) • k1)
  let k3 := g (shift x (h / 2)) (y + (h / 2) • k2)
  let k4 := g (shift x h) (y + h • k3)
  y + (h / 6) • (k1 + (2 : ℝ) • k2 + (2 : ℝ) • k3 + k4)

/-- The function `f` of the program computes the real function `g`. -/
def Computes {m n : Nat} (f : (Fin m → XR) → (Fin n → XR) → Except Panic (Fin n → XR))
    (g : (Fin m → ℝ) → (Fin n → ℝ) → (Fin n → ℝ)) : Prop :=
  ∀ x y, f (vfin x) (vfin y) = .ok (vfin (g x y))

end
end Post.Spec
