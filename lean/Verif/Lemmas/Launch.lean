import Verif.Lemmas.Planet
import Verif.Props.State
/-! # Lemmas about the initialisation of the first phase in exact arithmetic -/

namespace Post
open Spec Flt

/-- The latitude the code computes from the configured one (in rad), for the ratio `κ` of the
squared radii. -/
theorem geocentricLat_fin (κ lat : ℝ) (hκ : 0 < κ) :
    ∃ g : ℝ, atan (powi (XR.fin κ) 2 * tan (XR.fin lat)) = .fin g ∧
      ((Real.cos lat ≠ 0 ∧ 0 < Real.cos g ∧
          Real.sin g * Real.cos lat = κ ^ 2 * Real.sin lat * Real.cos g) ∨
       (Real.cos lat = 0 ∧ Real.cos g = 0 ∧ Real.sin g = Real.sin lat)) := by
  by_cases hc : Real.cos lat = 0
  · have hs : Real.sin lat = 1 ∨ Real.sin lat = -1 := by
      have := Real.sin_sq_add_cos_sq lat
      rw [hc] at this
      have h1 : Real.sin lat ^ 2 = 1 := by linarith
      have h2 : (Real.sin lat - 1) * (Real.sin lat + 1) = 0 := by linarith
      rcases mul_eq_zero.1 h2 with h | h
      · left; linarith
      · right; linarith
    have ht : Flt.tan (XR.fin lat) = XR.infMul (Real.sin lat) := by
      show XR.tan _ = _
      simp [XR.tan, XR.lift, XR.div, hc]
    have hk : 0 < κ ^ 2 := by positivity
    rcases hs with hs | hs
    · refine ⟨Real.pi / 2, ?_, .inr ⟨hc, by simp, by simp [hs]⟩⟩
      rw [ht, hs, XR.fin_powi]
      have : (XR.infMul 1) = .pinf := by simp [XR.infMul]
      rw [this]
      have h2 : (XR.fin (κ ^ 2) * XR.pinf : XR) = .pinf := by
        show XR.infMul _ = _
        simp [XR.infMul, hk]
      rw [h2]; rfl
    · refine ⟨-(Real.pi / 2), ?_, .inr ⟨hc, by simp, by simp [hs]⟩⟩
      rw [ht, hs, XR.fin_powi]
      have : (XR.infMul (-1)) = .ninf := by simp [XR.infMul]
      rw [this]
      have h2 : (XR.fin (κ ^ 2) * XR.ninf : XR) = .ninf := by
        show XR.infMul _ = _
        have : ¬ (κ ^ 2 < 0) := not_lt.2 hk.le
        simp [XR.infMul, this, hk]
      rw [h2]; rfl
  · refine ⟨Real.arctan (κ ^ 2 * Real.tan lat), ?_, .inl ⟨hc, Real.cos_arctan_pos _, ?_⟩⟩
    · rw [XR.fin_tan _ hc, XR.fin_powi, XR.fin_mul, XR.fin_atan]
    · have h := Real.tan_arctan (κ ^ 2 * Real.tan lat)
      rw [Real.tan_eq_sin_div_cos, Real.tan_eq_sin_div_cos] at h
      have hp := (Real.cos_arctan_pos (κ ^ 2 * Real.tan lat)).ne'
      rw [Real.tan_eq_sin_div_cos] at hp ⊢
      rw [div_eq_iff hp] at h
      rw [h]
      field_simp

theorem cos_nonneg_of_geocentric {κ lat g : ℝ}
    (h : (Real.cos lat ≠ 0 ∧ 0 < Real.cos g ∧
          Real.sin g * Real.cos lat = κ ^ 2 * Real.sin lat * Real.cos g) ∨
       (Real.cos lat = 0 ∧ Real.cos g = 0 ∧ Real.sin g = Real.sin lat)) : 0 ≤ Real.cos g := by
  rcases h with h | h
  · exact h.2.1.le
  · exact h.2.1.ge

/-- The distance of the launch site from the centre. -/
noncomputable def siteDistance (a b g : ℝ) : ℝ :=
  a / Real.sqrt (1 + ((a / b) ^ 2 - 1) * Real.sin g ^ 2)

theorem siteDistance_pos {a b : ℝ} (ha : 0 < a) (hb : 0 < b) (g : ℝ) : 0 < siteDistance a b g :=
  div_pos ha (Real.sqrt_pos.2 (radicand_pos ha.ne' hb.ne' (Real.sin_sq_le_one g)))

/-- The first phase's launch frame, position and velocity. -/
theorem init_fin {p : Phase XR} {a b ω : ℝ} (hpa : p.planet.equatorialRadius = .fin a)
    (hpb : p.planet.polarRadius = .fin b) (hω : p.planet.rotationRate = .fin ω) (ha : 0 < a)
    (hb : 0 < b) (lat long az : ℝ) (alt : XR) :
    ∃ g : ℝ, (p.init ⟨.fin lat, .fin long, .fin az, alt⟩).launch =
        ⟨.fin g, .fin (rad long), .fin (rad az)⟩ ∧
      (p.init ⟨.fin lat, .fin long, .fin az, alt⟩).state.position =
        (rscale (siteDistance a b g) (up g (rad long))).fin ∧
      (p.init ⟨.fin lat, .fin long, .fin az, alt⟩).state.velocity =
        (rcross ⟨0, 0, ω⟩ (rscale (siteDistance a b g) (up g (rad long)))).fin ∧
      ((Real.cos (rad lat) ≠ 0 ∧ 0 < Real.cos g ∧
          Real.sin g * Real.cos (rad lat) = ((a / b) ^ 2) ^ 2 * Real.sin (rad lat) * Real.cos g) ∨
       (Real.cos (rad lat) = 0 ∧ Real.cos g = 0 ∧ Real.sin g = Real.sin (rad lat))) := by
  obtain ⟨g, hg, hcase⟩ := geocentricLat_fin ((a / b) ^ 2) (rad lat) (by positivity)
  have hpos := radicand_pos ha.ne' hb.ne' (Real.sin_sq_le_one g)
  have hk : powi (p.planet.equatorialRadius / p.planet.polarRadius) 2 = XR.fin ((a / b) ^ 2) := by
    rw [hpa, hpb, XR.fin_div _ _ hb.ne', XR.fin_powi]
  have hlat : toRadians (XR.fin lat) = .fin (rad lat) := toRadians_fin lat
  have hd : p.planet.equatorialRadius /
      sqrt (1 + (XR.fin ((a / b) ^ 2) - 1) * powi (sin (XR.fin g)) 2) =
      XR.fin (siteDistance a b g) := by
    rw [hpa]
    xr_eval
    rw [XR.fin_sqrt _ hpos.le, XR.fin_div _ _ (Real.sqrt_pos.2 hpos).ne']
    rfl
  have hposn : (p.init ⟨.fin lat, .fin long, .fin az, alt⟩).state.position =
      (rscale (siteDistance a b g) (up g (rad long))).fin := by
    show V3.smul _ _ = _
    rw [hk, hlat, hg, hd, show toRadians (XR.fin long) = .fin (rad long) from toRadians_fin long]
    rfl
  refine ⟨g, ?_, hposn, ?_, hcase⟩
  · show Launch.mk (atan (powi (powi (p.planet.equatorialRadius / p.planet.polarRadius) 2) 2 * tan (toRadians (XR.fin lat)))) _ _ = _
    rw [hk, hlat, hg]
    show Launch.mk _ (toRadians (XR.fin long)) (toRadians (XR.fin az)) = _
    rw [toRadians_fin, toRadians_fin]; rfl
  · show -(p.planet.velocityPlanet (p.init ⟨.fin lat, .fin long, .fin az, alt⟩).state.position .zero) = _
    rw [hposn, V3.fin_zero, velocityPlanet_fin hω, V3.fin_neg]
    simp only [rsub, rcross, V3.fin_inj, V3.mk.injEq]
    refine ⟨?_, ?_, ?_⟩ <;> ring

/-- What is known of the state with which a simulation starts. -/
theorem started_fin {c : PhaseConfig XR} {s : State XR} (h : Started c s) {a b ω lat long az : ℝ}
    {gr : Grav XR} (hp : IsPlanet (firstPlanet c) a b gr ω) (ha : 0 < a) (hb : 0 < b)
    (hl : LaunchSite c lat long az) :
    ∃ (p : Phase XR) (g : ℝ), Phase.new none c = .ok p ∧ p.planet = firstPlanet c ∧
      p.launch = ⟨.fin g, .fin (rad long), .fin (rad az)⟩ ∧ Consistent p.reset s ∧
      s.time = .fin 0 ∧
      s.position = (rscale (siteDistance a b g) (up g (rad long))).fin ∧
      s.velocity = (rcross ⟨0, 0, ω⟩ (rscale (siteDistance a b g) (up g (rad long)))).fin ∧
      ((Real.cos (rad lat) ≠ 0 ∧ 0 < Real.cos g ∧
          Real.sin g * Real.cos (rad lat) = ((a / b) ^ 2) ^ 2 * Real.sin (rad lat) * Real.cos g) ∨
       (Real.cos (rad lat) = 0 ∧ Real.cos g = 0 ∧ Real.sin g = Real.sin (rad lat))) := by
  obtain ⟨p, hnew, hsys⟩ := h
  obtain ⟨alt, hi⟩ := hl
  have hpl : ((Phase.base none).applyConfig c).planet = firstPlanet c := by
    rw [Phase.applyConfig_planet]
    unfold firstPlanet
    cases c.planetModel <;> rfl
  rcases Phase.new_ok hnew with ⟨hne, _⟩ | ⟨_, i, hi', hpe⟩
  · exact absurd rfl hne
  · rw [hi] at hi'
    injection hi' with hi'
    subst hi'
    have hIP : ((Phase.base none).applyConfig c).planet = ⟨.fin a, .fin b, gr, .fin ω⟩ := hpl.trans hp
    obtain ⟨g, h1, h2, h3, h4⟩ := init_fin (p := (Phase.base none).applyConfig c) (a := a) (b := b)
      (ω := ω) (by rw [hIP]) (by rw [hIP]) (by rw [hIP]) ha hb lat long az alt
    have hprim := Phase.system_primary hsys
    refine ⟨p, g, hnew, ?_, ?_, system_consistent hsys, ?_, ?_, ?_, h4⟩
    · rw [hpe]; exact hpl
    · rw [hpe]; exact h1
    · rw [hprim.1, hpe, ← XR.fin_zero]
      show ((Phase.base none).applyConfig c).state.time = _
      rw [Phase.applyConfig_state_time]; rfl
    · rw [hprim.2.2.1, ← h2, hpe]; rfl
    · rw [hprim.2.2.2.1, ← h3, hpe]; rfl

end Post
