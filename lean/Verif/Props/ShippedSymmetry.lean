import Verif.Props.ShippedReal
import Verif.Props.Turn
import Verif.Props.Mirror
/-! # The symmetries of the example mission that comes with the program (C72, C73) -/

namespace Post
open Spec XR

namespace Shipped

theorem loaded_exact {cs : List (PhaseConfig XR)} (h : Simulation.fromFile (File.ofText text) = some cs) : cs = phases := by
  rw [ofText_exact, loads_exact] at h
  exact (Option.some.inj h).symm

theorem real {cs : List (PhaseConfig XR)} (h : Simulation.fromFile (File.ofText text) = some cs) : ∀ c ∈ cs, RealConfig c := by
  obtain ⟨cs', h', -, hr⟩ := C71_shipped
  rw [h] at h'
  rw [Option.some.inj h']
  exact hr

/-- The example looks at five variables only. -/
theorem uses {P : StateVariable → Prop} (h : P .time ∧ P .timeSinceEvent ∧ P .propellantMass ∧ P .alpha ∧ P .machNumber) :
    ∀ c ∈ (phases : List (PhaseConfig XR)), UsesOnly P c := by
  obtain ⟨h1, h2, h3, h4, h5⟩ := h
  intro c hc
  simp only [phases, List.mem_cons, List.not_mem_nil, or_false] at hc
  have ht : ∀ t ∈ ([table1, table2, table3, table4] : List (Table XR)), ∀ x ∈ tableVariables t, P x := by
    intro t ht x hx
    simp only [List.mem_cons, List.not_mem_nil, or_false] at ht
    rcases ht with rfl | rfl | rfl | rfl <;>
    · simp only [tableVariables, table1, table2, table3, table4, List.mem_cons, List.not_mem_nil, or_false] at hx
      rcases hx with rfl | rfl
      · exact h4
      · exact h5
  rcases hc with rfl | rfl | rfl | rfl | rfl | rfl | rfl | rfl | rfl | rfl | rfl <;> refine ⟨?_, ?_, ?_, ?_, ?_, ?_, ?_⟩ <;>
    first
    | (rintro v ⟨⟩; done)
    | (rintro v ⟨⟩ t ⟨⟩; done)
    | (rintro v ⟨⟩ t ⟨⟩; exact ht _ (by simp))
    | (rintro s ⟨⟩ a ⟨⟩; exact h2)
    | (rintro e ⟨⟩; exact h1)
    | (rintro e ⟨⟩; exact h2)
    | (rintro e ⟨⟩; exact h3)

theorem symmetric : ∀ c ∈ (phases : List (PhaseConfig XR)), ∀ pl, c.planetModel = some pl → SymmetricPlanet (Planet.ofConfig pl) := by
  intro c hc pl hpl
  simp only [phases, List.mem_cons, List.not_mem_nil, or_false] at hc
  rcases hc with rfl | rfl | rfl | rfl | rfl | rfl | rfl | rfl | rfl | rfl | rfl <;> cases hpl
  exact C73_presets.1

end Shipped

/-- C72 (the shipped example).  As long as its flight stays away from the singularities of the equations of motion, the example
mission launched `δ` degrees further east runs as it does from its own launch site, with the vectors of the inertial and the
planet's frame turned. -/
theorem C72_shipped {cs : List (PhaseConfig XR)} (h : Simulation.fromFile (File.ofText Shipped.text) = some cs)
    (hf : ∀ done c rest p, cs = done ++ c :: rest → Ready done c p → FliesRegularly p) (δ : ℝ) (fuel : ℕ) :
    Simulation.run fuel (cs.map (turnConfig δ)) = (Simulation.run fuel cs).map (turnOut δ) :=
  C72_longitude (Shipped.real h)
    (by rw [Shipped.loaded_exact h]; exact Shipped.uses (by unfold LongitudeFree; decide)) hf δ fuel

/-- C73 (the shipped example).  As long as its flight stays away from the singularities of the equations of motion, the example
mission launched from the opposite latitude with the azimuth counted from the south runs in the mirror. -/
theorem C73_shipped {cs : List (PhaseConfig XR)} (h : Simulation.fromFile (File.ofText Shipped.text) = some cs)
    (hf : ∀ done c rest p, cs = done ++ c :: rest → Ready done c p → FliesRegularly p) (fuel : ℕ) :
    Simulation.run fuel (cs.map mirrorConfig) = (Simulation.run fuel cs).map mirrorOut :=
  C73_hemispheres (Shipped.real h)
    (by rw [Shipped.loaded_exact h]; exact Shipped.uses (by unfold MirrorEven; decide))
    (by rw [Shipped.loaded_exact h]; exact Shipped.symmetric) hf fuel

end Post
