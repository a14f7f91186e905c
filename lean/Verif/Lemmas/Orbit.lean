import Verif.Props.Order
import Mathlib.Analysis.ODE.ExistUnique
import Mathlib.Analysis.Calculus.MeanValue
/-! # Quantities conserved by a differential equation are almost conserved by an integration step -/

namespace Post
open Spec Flt Filter Topology Asymptotics

/-- If `E` is constant along the solutions of an autonomous equation, an integration step of size
`h` changes it by at most `K |h|^5`. -/
theorem conserved_drift {m n : Nat}
    {f : (Fin m → XR) → (Fin n → XR) → Except Panic (Fin n → XR)}
    {g : (Fin n → ℝ) → (Fin n → ℝ)} {x : Fin m → ℝ} {y : Fin n → ℝ}
    (hf : ∀ᶠ z in 𝓝 (x, y), f (vfin z.1) (vfin z.2) = .ok (vfin (g z.2)))
    (hg : AnalyticAt ℝ g y) {E : (Fin n → ℝ) → ℝ} (hE : ContDiffAt ℝ 1 E y)
    (hcons : ∀ᶠ z in 𝓝 y, ∀ (Y : ℝ → Fin n → ℝ) (t : ℝ), Y t = z → HasDerivAt Y (g z) t →
      HasDerivAt (fun τ => E (Y τ)) 0 t) :
    ∃ K δ, 0 < δ ∧ ∀ h : ℝ, |h| < δ → ∃ y', RK4.step f (vfin x) (vfin y) (.fin h) =
      .ok (vfin (shift x h), vfin y') ∧ |E y' - E y| ≤ K * |h| ^ 5 := by
  obtain ⟨Y, hY0, ε, hε, hY⟩ :=
    (hg.contDiffAt (n := 1)).exists_forall_mem_closedBall_exists_eq_forall_mem_Ioo_hasDerivAt₀ 0
  have hYc : ContinuousAt Y 0 := (hY 0 (by simp [hε])).continuousAt
  have hsol : ∀ᶠ t in 𝓝 (0 : ℝ), HasDerivAt Y (g (Y t)) t :=
    eventually_of_mem (Ioo_mem_nhds (by linarith) (by linarith)) hY
  obtain ⟨K, δ, hδ, H⟩ := C51_local_error (g := fun _ => g) (x := x) hf
    (hg.comp_of_eq analyticAt_snd rfl) (Y := Y) ⟨hY0, hsol⟩
  -- `E` is Lipschitz near `y`
  obtain ⟨L, u, hu, hL⟩ := hE.exists_lipschitzOnWith
  -- `E` is constant along `Y`
  have hnear : ∀ᶠ t in 𝓝 (0 : ℝ), HasDerivAt (fun τ => E (Y τ)) 0 t := by
    have h1 : Tendsto Y (𝓝 0) (𝓝 y) := by rw [← hY0]; exact hYc
    filter_upwards [hsol, h1.eventually hcons] with t ht hc
    exact hc Y t rfl ht
  obtain ⟨δ1, hδ1, hball⟩ := Metric.eventually_nhds_iff_ball.1 hnear
  have hconst : ∀ t, |t| < δ1 → E (Y t) = E y := by
    intro t ht
    have := (convex_ball (0 : ℝ) δ1).is_const_of_fderivWithin_eq_zero (𝕜 := ℝ)
      (f := fun τ => E (Y τ)) (x := t) (y := 0)
      (fun z hz => (hball z hz).differentiableAt.differentiableWithinAt) (fun z hz => by
        rw [fderivWithin_of_isOpen Metric.isOpen_ball hz]
        ext
        simp [(hball z hz).deriv]) (by simpa using ht) (by simpa using hδ1)
    simpa [hY0] using this
  -- both end points are in `u`
  have hYu : ∀ᶠ t in 𝓝 (0 : ℝ), Y t ∈ u := by
    have h1 : Tendsto Y (𝓝 0) (𝓝 y) := by rw [← hY0]; exact hYc
    exact h1 hu
  obtain ⟨r, hr, hru⟩ := Metric.mem_nhds_iff.1 hu
  have hsmall : ∀ᶠ t in 𝓝 (0 : ℝ), |K| * |t| ^ 5 + ‖Y t - y‖ < r := by
    have h1 : ContinuousAt (fun t => |K| * |t| ^ 5 + ‖Y t - y‖) 0 := by fun_prop
    refine h1.eventually_lt continuousAt_const ?_
    simp [hY0, hr]
  obtain ⟨δ2, hδ2, hball2⟩ := Metric.eventually_nhds_iff_ball.1 (hYu.and hsmall)
  refine ⟨L * |K|, min δ (min δ1 δ2), by positivity, fun h hh => ?_⟩
  obtain ⟨y', h1, h2⟩ := H h (lt_of_lt_of_le hh (min_le_left _ _))
  obtain ⟨h3, h4⟩ := hball2 h (by
    simpa using lt_of_lt_of_le hh ((min_le_right _ _).trans (min_le_right _ _)))
  have hK : ‖y' - Y h‖ ≤ |K| * |h| ^ 5 := by
    rw [pi_norm_le_iff_of_nonneg (by positivity)]
    intro i
    exact (h2 i).trans (by gcongr; exact le_abs_self K)
  have hy' : y' ∈ u := hru (by
    rw [Metric.mem_ball, dist_eq_norm]
    calc ‖y' - y‖ = ‖(y' - Y h) + (Y h - y)‖ := by congr 1; abel
      _ ≤ ‖y' - Y h‖ + ‖Y h - y‖ := norm_add_le _ _
      _ ≤ |K| * |h| ^ 5 + ‖Y h - y‖ := by gcongr
      _ < r := h4)
  refine ⟨y', h1, ?_⟩
  have h5 := hL.dist_le_mul _ hy' _ h3
  rw [hconst h (lt_of_lt_of_le hh ((min_le_right _ _).trans (min_le_left _ _))), Real.dist_eq,
    dist_eq_norm] at h5
  calc _ ≤ _ := h5
    _ ≤ L * (|K| * |h| ^ 5) := by gcongr
    _ = _ := by ring

end Post
