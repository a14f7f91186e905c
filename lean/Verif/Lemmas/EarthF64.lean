import Verif.Lemmas.GravF64
import Verif.Spec.DoubleOrbit
import Verif.Props.Accuracy
/-! # The built-in planets in double precision -/

namespace Post
open Spec
variable {L : Libm}

theorem near_mpf : Near (METER_PER_FOOT : F64 L) 0.3048 4e-17 :=
  Near.lit 3048 true 4 (by norm_num) (by norm_num [abs_of_pos]) (by norm_num [abs_of_pos])

theorem near_cubic : Near (CUBIC_METER_PER_CUBIC_FOOT : F64 L) (0.3048 * 0.3048 * 0.3048) 1.9e-17 := by
  have h1 : Near (METER_PER_FOOT * METER_PER_FOOT : F64 L) (0.3048 * 0.3048) 3.6e-17 :=
    near_mpf.mul near_mpf (A := 0.3048) (B := 0.3048) (M := 0.3048 * 0.3048) (by norm_num [abs_of_pos])
      (by norm_num [abs_of_pos]) (by norm_num [abs_of_pos]) (by norm_num) (by norm_num)
  exact h1.mul near_mpf (A := 0.3048 * 0.3048) (B := 0.3048) (M := 0.3048 * 0.3048 * 0.3048)
    (by norm_num [abs_of_pos]) (by norm_num [abs_of_pos]) (by norm_num [abs_of_pos]) (by norm_num) (by norm_num)

theorem near_radius : Near (2.0925741e7 * METER_PER_FOOT : F64 L) (20925741 * 0.3048) 1e-8 := by
  have h1 : Near (2.0925741e7 : F64 L) 20925741 3e-9 :=
    Near.lit 20925741 false 0 (by norm_num) (by norm_num [abs_of_pos]) (by norm_num [abs_of_pos])
  exact h1.mul near_mpf (A := 20925741) (B := 0.3048) (M := 20925741 * 0.3048)
    (by norm_num [abs_of_pos]) (by norm_num [abs_of_pos]) (by norm_num [abs_of_pos]) (by norm_num) (by norm_num)

theorem same_earth {P : Planet (F64 L)} {Q : Planet XR} (h : SameEarth P Q) :
    ∃ a b μ j2 j3 j4 ω, Q = realPlanet a b μ j2 j3 j4 ω ∧ IsEarth Q ∧ NearEarth P a μ j2 j3 j4 := by
  have hfin : ∀ {a b μ j2 j3 j4 ω : ℝ}, IsEarth (realPlanet a b μ j2 j3 j4 ω) →
      Near P.equatorialRadius a 1e-8 → Near P.grav.mu μ 0.5 → Near P.grav.j2 j2 1e-18 →
      Near P.grav.j3 j3 1e-20 → Near P.grav.j4 j4 1e-20 → NearEarth P a μ j2 j3 j4 := by
    intro a b μ j2 j3 j4 ω hE h1 h2 h3 h4 h5
    obtain ⟨k1, k2, k3, k4, k5, k6, k7⟩ := earth_values hE
    exact ⟨h1, h2, h3, h4, h5, k1, k2, k3, k4, k5, k6, k7⟩
  have mu1 : Near (1.4076539e16 * CUBIC_METER_PER_CUBIC_FOOT : F64 L)
      (1.4076539e16 * (0.3048 * 0.3048 * 0.3048)) 0.5 := by
    have h1 : Near (1.4076539e16 : F64 L) 1.4076539e16 2 :=
      Near.lit 14076539 false 9 (by norm_num) (by norm_num [abs_of_pos]) (by norm_num [abs_of_pos])
    exact h1.mul near_cubic (A := 1.4076539e16) (B := 0.3048 * 0.3048 * 0.3048)
      (M := 1.4076539e16 * (0.3048 * 0.3048 * 0.3048)) (by norm_num [abs_of_pos]) (by norm_num [abs_of_pos])
      (by norm_num [abs_of_pos]) (by norm_num) (by norm_num)
  have mu2 : Near (1.407645794e16 * CUBIC_METER_PER_CUBIC_FOOT : F64 L)
      (1.407645794e16 * (0.3048 * 0.3048 * 0.3048)) 0.5 := by
    have h1 : Near (1.407645794e16 : F64 L) 1.407645794e16 2 :=
      Near.lit 1407645794 false 7 (by norm_num) (by norm_num [abs_of_pos]) (by norm_num [abs_of_pos])
    exact h1.mul near_cubic (A := 1.407645794e16) (B := 0.3048 * 0.3048 * 0.3048)
      (M := 1.407645794e16 * (0.3048 * 0.3048 * 0.3048)) (by norm_num [abs_of_pos]) (by norm_num [abs_of_pos])
      (by norm_num [abs_of_pos]) (by norm_num) (by norm_num)
  rcases h with ⟨rfl, rfl⟩ | ⟨rfl, rfl⟩ | ⟨rfl, rfl⟩
  · have e : (EARTH_SPHERICAL : Planet XR) = realPlanet (20925741 * 0.3048) (20925741 * 0.3048)
        (1.4076539e16 * (0.3048 * 0.3048 * 0.3048)) 0 0 0 7.29211e-5 := by
      unfold EARTH_SPHERICAL realPlanet METER_PER_FOOT CUBIC_METER_PER_CUBIC_FOOT METER_PER_FOOT
      simp only [XR.fin_sci, XR.fin_zero, XR.fin_mul]
      norm_num
    exact ⟨_, _, _, _, _, _, _, e, .inl rfl, hfin (.inl e.symm) near_radius mu1 (Near.zero.mono (by norm_num))
      (Near.zero.mono (by norm_num)) (Near.zero.mono (by norm_num))⟩
  · have e : (EARTH_FISHER_1960 : Planet XR) = realPlanet (20925741 * 0.3048) (20855590 * 0.3048)
        (1.4076539e16 * (0.3048 * 0.3048 * 0.3048)) 1.0823e-3 0 0 7.29211e-5 := by
      unfold EARTH_FISHER_1960 realPlanet METER_PER_FOOT CUBIC_METER_PER_CUBIC_FOOT METER_PER_FOOT
      simp only [XR.fin_sci, XR.fin_zero, XR.fin_mul]
      norm_num
    exact ⟨_, _, _, _, _, _, _, e, .inr (.inl rfl), hfin (.inr (.inl e.symm)) near_radius mu1
      (Near.lit 10823 true 7 (by norm_num) (by norm_num [abs_of_pos]) (by norm_num [abs_of_pos]))
      (Near.zero.mono (by norm_num)) (Near.zero.mono (by norm_num))⟩
  · have e : (EARTH_SMITHSONIAN : Planet XR) = realPlanet (20925741 * 0.3048) (20855590 * 0.3048)
        (1.407645794e16 * (0.3048 * 0.3048 * 0.3048)) 1.082639e-3 (-2.565e-6) (-1.608e-6) 7.29211e-5 := by
      unfold EARTH_SMITHSONIAN realPlanet METER_PER_FOOT CUBIC_METER_PER_CUBIC_FOOT METER_PER_FOOT
      simp only [XR.fin_sci, XR.fin_mul, XR.fin_neg]
      norm_num
    exact ⟨_, _, _, _, _, _, _, e, .inr (.inr rfl), hfin (.inr (.inr e.symm)) near_radius mu2
      (Near.lit 1082639 true 9 (by norm_num) (by norm_num [abs_of_pos]) (by norm_num [abs_of_pos]))
      (Near.lit 2565 true 9 (by norm_num) (by norm_num [abs_of_pos]) (by norm_num [abs_of_pos])).neg
      (Near.lit 1608 true 9 (by norm_num) (by norm_num [abs_of_pos]) (by norm_num [abs_of_pos])).neg⟩

end Post
