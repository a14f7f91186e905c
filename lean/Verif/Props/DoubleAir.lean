import Verif.Lemmas.AirF64
import Verif.Props.DoubleThrottle
import Verif.Props.DoubleOrbit
/-! # C88: the standard atmosphere in double precision -/

set_option exponentiation.threshold 2000

namespace Post
open Spec Flt F64
variable {L : Libm}

theorem Rel.shows {x : F64 L} {ξ e : ℝ} (h : Rel x ξ e) : Agrees x ξ e := by
  obtain ⟨q, h1, h2⟩ := h
  exact ⟨q, ⟨q, h1, rfl⟩, h2⟩

theorem Spec.Agrees.rel {x : F64 L} {ξ e : ℝ} (h : Agrees x ξ e) : Rel x ξ e := by
  obtain ⟨r, ⟨q, h1, rfl⟩, h2⟩ := h
  exact ⟨q, h1, h2⟩

theorem rel_sqrt {x : F64 L} {ξ a e : ℝ} (h : Rel x ξ a) (h1 : 1e-20 ≤ ξ) (h3 : a ≤ 0.3)
    (he : a + 1.2e-16 * (1 + a) + 1e-30 ≤ e) : Rel (Flt.sqrt x) (Real.sqrt ξ) e := by
  have hξ : 0 < ξ := lt_of_lt_of_le (by norm_num) h1
  have hs : 0 < Real.sqrt ξ := Real.sqrt_pos.2 hξ
  have hss := Real.sq_sqrt hξ.le
  have hn : Near x ξ (a * ξ) := by
    have := h
    unfold Rel at this
    rwa [abs_of_pos hξ] at this
  have hlo : 1e-10 ≤ Real.sqrt ξ := Real.le_sqrt_of_sq_le (le_trans (by norm_num) h1)
  unfold Rel
  rw [abs_of_pos hs]
  refine hn.sqrt (b := Real.sqrt ξ) (M := Real.sqrt ξ) hs le_rfl ?_ le_rfl ?_
  · rw [hss]
    norm_num at h3
    nlinarith
  · have e1 : a * ξ / Real.sqrt ξ = a * Real.sqrt ξ := by
      rw [div_eq_iff hs.ne', mul_assoc, ← pow_two, hss]
    rw [e1]
    have e2 := mul_le_mul_of_nonneg_right he hs.le
    have e3 : (a + 1.2e-16 * (1 + a) + 1e-30) * Real.sqrt ξ = a * Real.sqrt ξ + 1.2e-16 * (Real.sqrt ξ + a * Real.sqrt ξ)
      + 1e-30 * Real.sqrt ξ := by ring
    rw [e3] at e2
    refine le_trans ?_ e2
    norm_num at hlo ⊢
    linarith

/-- the length of a vector -/
theorem rel_norm {v : V3 (F64 L)} {r : V3 ℝ} (hv : ReadsV v r) (h1 : 1e-3 ≤ rnorm r) (h2 : rnorm r ≤ 1e8) :
    Rel v.norm (rnorm r) 1e-15 := by
  obtain ⟨hx, hy, hz⟩ := readsV_near hv
  obtain ⟨bx, by', bz⟩ := comp_le_rnorm r
  have hsq := rnorm_sq r
  set V := rnorm r with hV
  have hV0 : 0 < V := lt_of_lt_of_le (by norm_num) h1
  have hVV : 1e-6 ≤ V ^ 2 := by
    have := pow_le_pow_left₀ (by norm_num) h1 2
    exact le_trans (by norm_num) this
  have hVV2 : V ^ 2 ≤ 1e16 := by
    have := mul_le_mul h2 h2 hV0.le (by norm_num)
    rw [← pow_two] at this
    exact this.trans (by norm_num)
  have qx := sq_nonneg r.x
  have qy := sq_nonneg r.y
  have qz := sq_nonneg r.z
  have sq : ∀ {a : F64 L} {A : ℝ}, Near a A 0 → A ^ 2 ≤ V ^ 2 → Near (a * a) (A * A) (1.21e-16 * V ^ 2) := by
    intro a A ha hA
    refine ha.mul ha (A := |A|) (B := |A|) (M := V ^ 2) le_rfl le_rfl ?_ ?_ ?_
    · rw [abs_of_nonneg (mul_self_nonneg A), ← pow_two]
      exact hA
    · norm_num at hVV ⊢
      linarith
    · norm_num at hVV2 ⊢
      linarith
  have mx := sq hx (by rw [hsq]; linarith)
  have my := sq hy (by rw [hsq]; linarith)
  have mz := sq hz (by rw [hsq]; linarith)
  have s1 : Near (v.x * v.x + v.y * v.y) (r.x * r.x + r.y * r.y) (3.7e-16 * V ^ 2) := by
    refine mx.add my (M := V ^ 2) ?_ ?_ ?_
    · rw [abs_of_nonneg (by nlinarith)]
      nlinarith
    · norm_num at hVV ⊢
      linarith
    · norm_num at hVV2 ⊢
      linarith
  have s2 : Near (v.x * v.x + v.y * v.y + v.z * v.z) (r.x * r.x + r.y * r.y + r.z * r.z) (6.3e-16 * V ^ 2) := by
    refine s1.add mz (M := V ^ 2) ?_ ?_ ?_
    · rw [abs_of_nonneg (by nlinarith)]
      nlinarith
    · norm_num at hVV ⊢
      linarith
    · norm_num at hVV2 ⊢
      linarith
  have hrel : Rel (v.x * v.x + v.y * v.y + v.z * v.z) (V ^ 2) 6.3e-16 := by
    unfold Rel
    rw [abs_of_nonneg (sq_nonneg V)]
    exact s2.congr (by rw [hsq]; ring)
  have := rel_sqrt hrel (e := 1e-15) (le_trans (by norm_num) hVV) (by norm_num) (by norm_num)
  rw [Real.sqrt_sq hV0.le] at this
  exact this

theorem air_double (hL : AirLibrary L) {x : F64 L} {h : ℝ} (hx : Reads x h) (h1 : -1e5 ≤ h) (h2 : h ≤ 7e6) :
    ∃ l, LayerNear h l ∧ 0 < l.temperature h ∧ 0 < l.pressure h ∧
      Rel (stdTemperature x) (l.temperature h) 1e-13 ∧
      Rel (stdPressure x) (l.pressure h) 2e-11 ∧
      Rel (stdDensity x) (l.pressure h / (airGasConstant * l.temperature h)) 3e-11 ∧
      (1e-70 ≤ l.pressure h / (airGasConstant * l.temperature h) ∧ l.pressure h / (airGasConstant * l.temperature h) ≤ 1e16) ∧
      Rel (stdSpeedOfSound x) (Real.sqrt (1.4 * airGasConstant * l.temperature h)) 2e-13 ∧
      (200 ≤ Real.sqrt (1.4 * airGasConstant * l.temperature h) ∧
        Real.sqrt (1.4 * airGasConstant * l.temperature h) ≤ 2000) := by
  obtain ⟨l, hl, hr⟩ := getTableRow_double hx
  obtain ⟨_, hT⟩ := temperature_double hx h1 h2 hl hr
  obtain ⟨hP, P1, _⟩ := pressure_double hL hx h1 h2 hl hr
  have P2 := layer_pressure_le hl h1 h2
  obtain ⟨_, _, _, T1, T2⟩ := layerNear_facts hl h1 h2
  have hTp : 0 < l.temperature h := by linarith
  have hPp : 0 < l.pressure h := lt_of_lt_of_le (by norm_num) P1
  have hR : 287 ≤ airGasConstant ∧ airGasConstant ≤ 288 := by
    unfold airGasConstant
    constructor <;> norm_num
  have hRp := airGasConstant_pos
  set T := l.temperature h with hTd
  set P := l.pressure h with hPd
  have hTR1 : 4e4 ≤ airGasConstant * T := by
    have := mul_le_mul hR.1 T1 (by norm_num) hRp.le
    exact le_trans (by norm_num) this
  have hTR2 : airGasConstant * T ≤ 1e6 := by
    have := mul_le_mul hR.2 T2 hTp.le (by norm_num)
    exact this.trans (by norm_num)
  have hTRp : 0 < airGasConstant * T := mul_pos hRp hTp
  have hρ1 : 1e-70 ≤ P / (airGasConstant * T) := by
    rw [le_div_iff₀ hTRp]
    refine le_trans ?_ P1
    norm_num at hTR2 ⊢
    linarith
  have hρ2 : P / (airGasConstant * T) ≤ 1e16 := by
    rw [div_le_iff₀ hTRp]
    refine P2.trans ?_
    norm_num at hTR1 ⊢
    linarith
  have hden : Rel (stdTemperature x * AIR_GAS_CONSTANT) (airGasConstant * T) 1.1e-13 := by
    refine (hT.mul gas_rel (e := 1.1e-13) (by norm_num) (by norm_num) (by norm_num) (by norm_num) ?_ ?_ (by norm_num)).congr
      (mul_comm _ _)
    · rw [mul_comm, abs_of_pos hTRp]
      exact le_trans (by norm_num) hTR1
    · rw [mul_comm, abs_of_pos hTRp]
      exact hTR2.trans (by norm_num)
  have hρ : Rel (stdDensity x) (P / (airGasConstant * T)) 3e-11 := by
    unfold stdDensity
    refine hP.div hden (by norm_num) (by norm_num) (by norm_num) (by norm_num) hTRp.ne' ?_ ?_ (by norm_num)
    · rw [abs_of_pos (div_pos hPp hTRp)]
      exact le_trans (by norm_num) hρ1
    · rw [abs_of_pos (div_pos hPp hTRp)]
      exact hρ2.trans (by norm_num)
  have hκ : Rel (AIR_KAPPA * AIR_GAS_CONSTANT : F64 L) (1.4 * airGasConstant) 7e-16 := by
    unfold AIR_KAPPA
    refine (rel_sci 140 true 2 (v := 1.4) (by norm_num) (by norm_num) (by norm_num)).mul gas_rel (by norm_num) (by norm_num)
      (by norm_num) (by norm_num) ?_ ?_ (by norm_num)
    · rw [abs_of_pos (by positivity)]
      have := hR.1
      norm_num
      linarith
    · rw [abs_of_pos (by positivity)]
      have := hR.2
      norm_num
      linarith
  have hsq : Rel (AIR_KAPPA * AIR_GAS_CONSTANT * stdTemperature x) (1.4 * airGasConstant * T) 1.1e-13 := by
    refine hκ.mul hT (by norm_num) (by norm_num) (by norm_num) (by norm_num) ?_ ?_ (by norm_num)
    · rw [mul_assoc, abs_of_pos (by positivity)]
      norm_num at hTR1 ⊢
      linarith
    · rw [mul_assoc, abs_of_pos (by positivity)]
      norm_num at hTR2 ⊢
      linarith
  refine ⟨l, hl, hTp, hPp, hT, hP, hρ, ⟨hρ1, hρ2⟩, ?_, ?_, ?_⟩
  · refine rel_sqrt hsq ?_ (by norm_num) (by norm_num)
    rw [mul_assoc]
    norm_num at hTR1 ⊢
    linarith
  · refine Real.le_sqrt_of_sq_le ?_
    rw [mul_assoc]
    norm_num at hTR1 ⊢
    linarith
  · rw [Real.sqrt_le_left (by norm_num), mul_assoc]
    norm_num at hTR2 ⊢
    linarith

theorem layerNear_inside {h : ℝ} {l : Layer} (hl : LayerNear h l) (hb : ∀ n ∈ layers, 1e-9 < |h - n.alt|) : LayerAt h l := by
  obtain ⟨below, above, e, h1, h2⟩ := hl
  refine ⟨below, above, e, ?_, ?_⟩
  · refine h1.imp_right fun g => ?_
    have k := hb l (by rw [e]; simp)
    by_contra hc
    push Not at hc
    rw [abs_of_neg (by linarith)] at k
    linarith
  · intro n hn
    have k := hb n (by
      rw [e]
      cases above with
      | nil => simp at hn
      | cons m above =>
        simp only [List.head?_cons, Option.mem_def, Option.some.injEq] at hn
        subst hn
        simp)
    have g := h2 n hn
    by_contra hc
    push Not at hc
    rw [abs_of_nonneg (by linarith)] at k
    linarith

/-- C88 (laws).  In double precision, at every altitude between 100 km below and 7000 km above sea level, the
temperature, pressure, density and speed of sound are numbers, greater than zero, that agree with the laws of the layer
of the altitude (or of one at most a nanometre away) up to rounding errors: relatively, 1e-13 for the temperature,
2e-11 for the pressure, 3e-11 for the density and 2e-13 for the speed of sound. -/
theorem C88_air (hL : AirLibrary L) {x : F64 L} {h : ℝ} (hx : Reads x h) (h1 : -1e5 ≤ h) (h2 : h ≤ 7e6) :
    ∃ l, LayerNear h l ∧ 0 < l.temperature h ∧ 0 < l.pressure h ∧
      Agrees (stdTemperature x) (l.temperature h) 1e-13 ∧
      Agrees (stdPressure x) (l.pressure h) 2e-11 ∧
      Agrees (stdDensity x) (l.pressure h / (airGasConstant * l.temperature h)) 3e-11 ∧
      Agrees (stdSpeedOfSound x) (Real.sqrt (1.4 * airGasConstant * l.temperature h)) 2e-13 := by
  obtain ⟨l, hl, p1, p2, hT, hP, hρ, _, ha, _⟩ := air_double hL hx h1 h2
  exact ⟨l, hl, p1, p2, hT.shows, hP.shows, hρ.shows, ha.shows⟩

/-- C88 (inside of a layer).  At an altitude that is not within a nanometre of the base of a layer the laws are those of
the layer of the altitude. -/
theorem C88_inside (hL : AirLibrary L) {x : F64 L} {h : ℝ} (hx : Reads x h) (h1 : -1e5 ≤ h) (h2 : h ≤ 7e6) {l : Layer}
    (hl : LayerAt h l) (hb : ∀ n ∈ layers, 1e-9 < |h - n.alt|) :
    Agrees (stdTemperature x) (l.temperature h) 1e-13 ∧
    Agrees (stdPressure x) (l.pressure h) 2e-11 ∧
    Agrees (stdDensity x) (l.pressure h / (airGasConstant * l.temperature h)) 3e-11 ∧
    Agrees (stdSpeedOfSound x) (Real.sqrt (1.4 * airGasConstant * l.temperature h)) 2e-13 := by
  obtain ⟨l', hl', _, _, h3⟩ := C88_air hL hx h1 h2
  obtain rfl := layerAt_unique (layerNear_inside hl' hb) hl
  exact h3

theorem shows_pos {x : F64 L} {ξ e : ℝ} (h : Agrees x ξ e) (hξ : 0 < ξ) (he : e ≤ 1e-10) : ∃ r > 0, Reads x r := by
  obtain ⟨r, h1, h2⟩ := h
  refine ⟨r, ?_, h1⟩
  rw [abs_of_pos hξ] at h2
  have := (abs_le.1 h2).1
  norm_num at he
  nlinarith

/-- C88 (never spoiled by rounding).  At these altitudes none of the four quantities is NaN, infinite, zero or
negative. -/
theorem C88_positive (hL : AirLibrary L) {x : F64 L} {h : ℝ} (hx : Reads x h) (h1 : -1e5 ≤ h) (h2 : h ≤ 7e6) :
    (∃ T > 0, Reads (stdTemperature x) T) ∧ (∃ P > 0, Reads (stdPressure x) P) ∧
    (∃ ρ > 0, Reads (stdDensity x) ρ) ∧ ∃ a > 0, Reads (stdSpeedOfSound x) a := by
  obtain ⟨l, _, hT, hP, s1, s2, s3, s4⟩ := C88_air hL hx h1 h2
  have hR := airGasConstant_pos
  refine ⟨shows_pos s1 hT ?_, shows_pos s2 hP ?_, shows_pos s3 (by positivity) ?_, shows_pos s4 (by positivity) ?_⟩ <;>
    norm_num

/-- C88 (visited states).  In every state visited by a phase with an atmosphere whose geopotential altitude is a
number between -100 and 7000 km, temperature, pressure and density agree with the laws of the layer up to rounding
errors; if the air speed is a number between a millimetre and 100 km per second, then so do the Mach number, the ratio
of the air speed to the speed of sound, and the dynamic pressure, half the density times the square of the air speed. -/
theorem C88_visited (hL : AirLibrary L) (hG : GoodLibrary L) {p : Phase (F64 L)} {s : State (F64 L)} (hs : Visited p s)
    (ha : p.atmosphere.model = .standardAtmosphere1962) {h : ℝ} (hh : Reads s.altitudeGeopotential h)
    (h1 : -1e5 ≤ h) (h2 : h ≤ 7e6) :
    ∃ l, LayerNear h l ∧ 0 < l.temperature h ∧ 0 < l.pressure h ∧
      Agrees s.temperature (l.temperature h) 1e-13 ∧ Agrees s.pressure (l.pressure h) 2e-11 ∧
      Agrees s.density (l.pressure h / (airGasConstant * l.temperature h)) 3e-11 ∧
      ∀ v : V3 ℝ, ReadsV s.velocityAtmosphere v → 1e-3 ≤ rnorm v → rnorm v ≤ 1e5 →
        Agrees s.machNumber (rnorm v / Real.sqrt (1.4 * airGasConstant * l.temperature h)) 3e-13 ∧
        Agrees s.dynamicPressure (l.pressure h / (airGasConstant * l.temperature h) / 2 * (v.x ^ 2 + v.y ^ 2 + v.z ^ 2))
          4e-11 := by
  have hc := C57_visited_consistent hs
  obtain ⟨l, hl, p1, p2, hT, hP, hρ, ⟨d1, d2⟩, hS, b1, b2⟩ := air_double hL hh h1 h2
  have hdens : Rel s.density (l.pressure h / (airGasConstant * l.temperature h)) 3e-11 := by
    rw [hc.density, Atmosphere.density, ha]
    exact hρ
  refine ⟨l, hl, p1, p2, ?_, ?_, hdens.shows, ?_⟩
  · rw [hc.temperature, Atmosphere.temperature, ha]
    exact hT.shows
  · rw [hc.pressure, Atmosphere.pressure, ha]
    exact hP.shows
  · intro v hv v1 v2
    have hn := rel_norm hv v1 (v2.trans (by norm_num))
    set V := rnorm v with hV
    set a := Real.sqrt (1.4 * airGasConstant * l.temperature h) with had
    set ρ := l.pressure h / (airGasConstant * l.temperature h) with hρd
    have hV0 : 0 < V := lt_of_lt_of_le (by norm_num) v1
    have ha0 : 0 < a := lt_of_lt_of_le (by norm_num) b1
    have hρ0 : 0 < ρ := lt_of_lt_of_le (by norm_num) d1
    have hVV : 1e-6 ≤ V ^ 2 := by
      have := pow_le_pow_left₀ (by norm_num) v1 2
      exact le_trans (by norm_num) this
    constructor
    · refine Rel.shows ?_
      rw [hc.machNumber, Atmosphere.machNumber, Atmosphere.speedOfSound, ha]
      refine hn.div hS (by norm_num) (by norm_num) (by norm_num) (by norm_num) ha0.ne' ?_ ?_ (by norm_num)
      · rw [abs_of_pos (div_pos hV0 ha0), le_div_iff₀ ha0]
        norm_num at v1 b2 ⊢
        linarith
      · rw [abs_of_pos (div_pos hV0 ha0), div_le_iff₀ ha0]
        norm_num at v2 b1 ⊢
        linarith
    · refine Rel.shows ?_
      rw [hc.dynamicPressure, Atmosphere.dynamicPressure]
      obtain ⟨q, hq, hq'⟩ := hn
      rw [abs_of_pos hV0] at hq'
      obtain ⟨q1, q2⟩ := abs_le.1 hq'
      have hqb : |q| ≤ 1e15 := by
        have : |(q : ℝ)| ≤ 1e15 := by
          rw [abs_le]
          norm_num at q1 q2 v2 ⊢
          constructor <;> linarith
        have h9 : ((|q| : ℚ) : ℝ) ≤ ((1e15 : ℚ) : ℝ) := by
          push_cast
          exact this.trans (by norm_num)
        exact_mod_cast h9
      obtain ⟨r, hr, hr'⟩ := hG.powi _ q 2 hq hqb (by norm_num)
      have hsq : Rel (Flt.powi s.velocityAtmosphere.norm 2) (V ^ 2) 4e-15 := by
        refine ⟨r, hr, ?_⟩
        have h3 : |(r : ℝ) - (q : ℝ) ^ 2| ≤ 1e-15 * |(q : ℝ)| ^ 2 + 1e-40 := by
          have h9 := (Rat.cast_le (K := ℝ)).2 hr'
          push_cast at h9
          exact h9.trans (by norm_num)
        rw [sq_abs] at h3
        have h4 : |(q : ℝ) ^ 2 - V ^ 2| ≤ 2.1e-15 * V ^ 2 := by
          rw [show (q : ℝ) ^ 2 - V ^ 2 = (q - V) * (q + V) by ring, abs_mul]
          have h5 : |(q : ℝ) + V| ≤ 2.1 * V := by
            rw [abs_le]
            norm_num at q1 q2 ⊢
            constructor <;> linarith
          calc |(q : ℝ) - V| * |(q : ℝ) + V| ≤ (1e-15 * V) * (2.1 * V) := mul_le_mul hq' h5 (abs_nonneg _) (by positivity)
            _ = 2.1e-15 * V ^ 2 := by ring
        rw [abs_of_nonneg (sq_nonneg V)]
        have h6 := abs_add_le ((r : ℝ) - (q : ℝ) ^ 2) ((q : ℝ) ^ 2 - V ^ 2)
        rw [sub_add_sub_cancel] at h6
        have h7 := (abs_le.1 h4).2
        norm_num at h3 h4 h6 h7 hVV ⊢
        linarith
      have hV2 : V ^ 2 ≤ 1e10 := by
        have := mul_le_mul v2 v2 hV0.le (by norm_num)
        rw [← pow_two] at this
        exact this.trans (by norm_num)
      have hV2p : 0 < V ^ 2 := by positivity
      have hhalf : Rel (0.5 * s.density) (0.5 * ρ) 3.1e-11 := by
        refine (rel_sci 5 true 1 (v := 0.5) (by norm_num) (by norm_num) (by norm_num)).mul hdens (by norm_num) (by norm_num)
          (by norm_num) (by norm_num) ?_ ?_ (by norm_num)
        · rw [abs_of_pos (by positivity)]
          refine le_trans ?_ (mul_le_mul_of_nonneg_left d1 (by norm_num))
          norm_num
        · rw [abs_of_pos (by positivity)]
          refine le_trans (mul_le_mul_of_nonneg_left d2 (by norm_num)) ?_
          norm_num
      have hfin : 0 < 0.5 * ρ * V ^ 2 := by positivity
      refine (hhalf.mul hsq (e := 4e-11) (by norm_num) (by norm_num) (by norm_num) (by norm_num) ?_ ?_ (by norm_num)).congr ?_
      · rw [abs_of_pos hfin]
        calc (1e-200 : ℝ) ≤ 0.5 * 1e-70 * 1e-6 := by norm_num
          _ ≤ 0.5 * ρ * V ^ 2 := by gcongr
      · rw [abs_of_pos hfin]
        calc 0.5 * ρ * V ^ 2 ≤ 0.5 * 1e16 * 1e10 := by gcongr
          _ ≤ 1e58 := by norm_num
      · rw [hV, rnorm_sq]
        ring

/-! ## Such a library exists, and an example -/

/-- A number close to `x`. -/
noncomputable def roundFine (x : ℝ) : Dbl := .round false (⌊x * 2 ^ 300⌋ / 2 ^ 300)

theorem roundFine_is {x : ℝ} (h1 : 1e-58 ≤ x) (h2 : x ≤ 1e58) :
    ∃ r, F64.Is (⟨roundFine x⟩ : F64 L) r ∧ |(r : ℝ) - x| ≤ 1e-15 * x := by
  have hx : 0 < x := lt_of_lt_of_le (by norm_num) h1
  have hd : |((⌊x * 2 ^ 300⌋ / 2 ^ 300 : ℚ) : ℝ) - x| ≤ 1e-20 * |x| := by
    have g1 : (⌊x * 2 ^ 300⌋ : ℝ) ≤ x * 2 ^ 300 := Int.floor_le _
    have g2 : x * 2 ^ 300 < ⌊x * 2 ^ 300⌋ + 1 := Int.lt_floor_add_one _
    push_cast
    rw [show (⌊x * 2 ^ 300⌋ : ℝ) / 2 ^ 300 - x = (⌊x * 2 ^ 300⌋ - x * 2 ^ 300) / 2 ^ 300 by field_simp, abs_div,
      div_le_iff₀ (by positivity)]
    have h3 : |(⌊x * 2 ^ 300⌋ : ℝ) - x * 2 ^ 300| ≤ 1 := by
      rw [abs_le]
      constructor <;> linarith
    refine h3.trans ?_
    rw [abs_of_pos hx, abs_of_pos (by positivity)]
    calc (1 : ℝ) ≤ 1e-20 * 1e-58 * 2 ^ 300 := by norm_num
      _ ≤ 1e-20 * x * 2 ^ 300 := by gcongr
  obtain ⟨r, h3, h4⟩ := is_round (L := L) (s := false) (Rel.small hd (by norm_num) (by rwa [abs_of_pos hx]))
  have := Rel.of_round h3 h4 hd (e := 1e-15) (by rw [abs_of_pos hx]; exact le_trans (by norm_num) h1) (by norm_num)
    (by norm_num)
  obtain ⟨r', k1, k2⟩ := this
  rw [abs_of_pos hx] at k2
  exact ⟨r', k1, k2⟩

/-- The library `goodLibm` with an exponential and a power function. -/
noncomputable def airLibm : Libm :=
  { goodLibm with
    exp := fun d => match d with
      | .fin s a => roundFine (Real.exp (Dbl.val s a : ℚ))
      | _ => .nan
    powf := fun d e => match d, e with
      | .fin s a, .fin s' a' => roundFine (((Dbl.val s a : ℚ) : ℝ) ^ ((Dbl.val s' a' : ℚ) : ℝ))
      | _, _ => .nan }

theorem airLibm_air : AirLibrary airLibm where
  exp := by
    rintro x q ⟨s, a, h1, rfl, _⟩ hq
    have e : Flt.exp x = (⟨roundFine (Real.exp (Dbl.val s a : ℚ))⟩ : F64 airLibm) := by
      show (⟨airLibm.exp x.dbl⟩ : F64 airLibm) = _
      rw [h1]
      rfl
    rw [e]
    have hq' : |((Dbl.val s a : ℚ) : ℝ)| ≤ 115 := by
      have : ((|Dbl.val s a| : ℚ) : ℝ) ≤ ((100 : ℚ) : ℝ) := by exact_mod_cast hq
      push_cast at this
      exact this.trans (by norm_num)
    obtain ⟨b1, b2⟩ := exp_bounds hq'
    exact roundFine_is (le_trans (by norm_num) b1) (b2.trans (by norm_num))
  powf := by
    rintro x y p q ⟨s, a, h1, rfl, _⟩ ⟨s', a', h2, rfl, _⟩ hp1 hp2 hq
    have e : Flt.powf x y = (⟨roundFine (((Dbl.val s a : ℚ) : ℝ) ^ ((Dbl.val s' a' : ℚ) : ℝ))⟩ : F64 airLibm) := by
      show (⟨airLibm.powf x.dbl y.dbl⟩ : F64 airLibm) = _
      rw [h1, h2]
      rfl
    rw [e]
    set p := Dbl.val s a
    set q := Dbl.val s' a'
    have hp1' : (25 : ℝ)⁻¹ ≤ p := by
      have : ((1 / 25 : ℚ) : ℝ) ≤ p := by exact_mod_cast hp1
      norm_num at this ⊢
      exact this
    have hp2' : (p : ℝ) ≤ 25 := by exact_mod_cast hp2
    have hp0 : 0 < (p : ℝ) := lt_of_lt_of_le (by norm_num) hp1'
    have hq' : |(q : ℝ)| ≤ 41 := by
      have : ((|q| : ℚ) : ℝ) ≤ ((41 : ℚ) : ℝ) := by exact_mod_cast hq
      push_cast at this
      exact this
    have hlog : |Real.log p| ≤ Real.log 25 := by
      rw [abs_le]
      constructor
      · rw [← Real.log_inv]
        exact Real.log_le_log (by norm_num) hp1'
      · exact Real.log_le_log hp0 hp2'
    have hlog25 : 0 ≤ Real.log 25 := Real.log_nonneg (by norm_num)
    have hz : |Real.log p * q| ≤ Real.log 25 * 41 := by
      rw [abs_mul]
      exact mul_le_mul hlog hq' (abs_nonneg _) hlog25
    have h25 : Real.exp (Real.log 25 * 41) = 25 ^ (41 : ℕ) := by
      rw [mul_comm, show (41 : ℝ) = ((41 : ℕ) : ℝ) by norm_num, Real.exp_nat_mul, Real.exp_log (by norm_num)]
    rw [abs_le] at hz
    refine roundFine_is ?_ ?_
    · rw [Real.rpow_def_of_pos hp0]
      refine le_trans ?_ (Real.exp_le_exp.2 hz.1)
      rw [Real.exp_neg, h25]
      norm_num
    · rw [Real.rpow_def_of_pos hp0]
      refine (Real.exp_le_exp.2 hz.2).trans ?_
      rw [h25]
      norm_num

theorem airLibm_good : GoodLibrary airLibm where
  sin x q h := by
    obtain ⟨r, h1, h2⟩ := goodLibm_good.sin ⟨x.dbl⟩ q h
    exact ⟨r, h1, h2⟩
  cos x q h := by
    obtain ⟨r, h1, h2⟩ := goodLibm_good.cos ⟨x.dbl⟩ q h
    exact ⟨r, h1, h2⟩
  powi x q n h hq hn := by
    obtain ⟨r, h1, h2⟩ := goodLibm_good.powi ⟨x.dbl⟩ q n h hq hn
    exact ⟨r, h1, h2⟩
  rot m hm := by
    have h := goodLibm_good.rot (m.map fun x => ⟨x.dbl⟩) (by
      intro x hx
      simp only [M3.map, V3.map, List.mem_cons, List.not_mem_nil, or_false] at hx
      have := fun y hy => hm y hy
      simp only [List.mem_cons, List.not_mem_nil, or_false] at this
      rcases hx with rfl | rfl | rfl | rfl | rfl | rfl | rfl | rfl | rfl
      · exact hm m.r1.x (by simp)
      · exact hm m.r1.y (by simp)
      · exact hm m.r1.z (by simp)
      · exact hm m.r2.x (by simp)
      · exact hm m.r2.y (by simp)
      · exact hm m.r2.z (by simp)
      · exact hm m.r3.x (by simp)
      · exact hm m.r3.y (by simp)
      · exact hm m.r3.z (by simp))
    intro x hx
    have e : Flt.rotFromMatrix m = (goodLibm.rotFromMatrix (m.map F64.dbl)).map (F64.mk (L := airLibm)) := rfl
    have e' : Flt.rotFromMatrix (m.map fun x => (⟨x.dbl⟩ : F64 goodLibm)) =
      (goodLibm.rotFromMatrix (m.map F64.dbl)).map (F64.mk (L := goodLibm)) := rfl
    rw [e] at hx
    rw [e'] at h
    generalize goodLibm.rotFromMatrix (m.map F64.dbl) = M at hx h
    have : (⟨x.dbl⟩ : F64 goodLibm) ∈ [M.r1.x, M.r1.y, M.r1.z, M.r2.x, M.r2.y, M.r2.z, M.r3.x, M.r3.y, M.r3.z].map
        (F64.mk (L := goodLibm)) := by
      have h1 : x ∈ [M.r1.x, M.r1.y, M.r1.z, M.r2.x, M.r2.y, M.r2.z, M.r3.x, M.r3.y, M.r3.z].map
        (F64.mk (L := airLibm)) := hx
      obtain ⟨d, h2, rfl⟩ := List.mem_map.1 h1
      exact List.mem_map.2 ⟨d, h2, rfl⟩
    exact h _ this

/-- At 5000 m the pressure is that of the lowest layer. -/
example : ∃ P > 0, Reads (stdPressure (5000 : F64 airLibm)) P ∧
    |P - (layer 0.0 0.21162166e4 518.67 (-0.35661600e-2)).pressure 5000| ≤ 1e-4 := by
  have hr : Reads (5000 : F64 airLibm) 5000 := by simpa using reads_nat (L := airLibm) 5000 (by norm_num)
  have hl : LayerAt 5000 (layer 0.0 0.21162166e4 518.67 (-0.35661600e-2)) :=
    ⟨[], layers.tail, rfl, .inl rfl, by
      intro n hn
      obtain rfl : n = layer 36089.239 0.47268050e3 389.97 0.0 := by
        simpa [layers, eq_comm] using hn
      unfold layer; norm_num⟩
  have hb : ∀ n ∈ layers, 1e-9 < |(5000 : ℝ) - n.alt| := by
    intro n hn
    unfold layers layer at hn
    simp only [List.mem_cons, List.not_mem_nil, or_false] at hn
    rcases hn with rfl | rfl | rfl | rfl | rfl | rfl | rfl | rfl | rfl | rfl | rfl | rfl | rfl | rfl | rfl | rfl | rfl | rfl | rfl |
      rfl | rfl | rfl <;> norm_num [abs_of_pos, abs_of_neg]
  obtain ⟨P, p1, p2⟩ := (C88_positive airLibm_air hr (by norm_num) (by norm_num)).2.1
  refine ⟨P, p1, p2, ?_⟩
  obtain ⟨P', ⟨q', q1, rfl⟩, e1⟩ := (C88_inside airLibm_air hr (by norm_num) (by norm_num) hl hb).2.1
  obtain ⟨q, q2, rfl⟩ := p2
  have hq : q = q' := Is.unique q2 q1
  subst hq
  refine e1.trans ?_
  set l := layer 0.0 0.21162166e4 518.67 (-0.35661600e-2) with hld
  have h0 : l.pressure 0 ≤ 1.1e5 := by
    unfold Layer.pressure
    rw [if_neg (by rw [hld]; norm_num [layer]), show l.temperature 0 = l.temp by
      rw [hld]; norm_num [layer, Layer.temperature], div_self (by rw [hld]; norm_num [layer]), Real.one_rpow]
    rw [hld]
    norm_num [layer]
  have hlt : l.pressure 5000 < l.pressure 0 := by
    refine layer_pressure_strictAnti (by rw [hld]; norm_num [layer]) (by rw [hld]; norm_num [layer]) (by norm_num) ?_
    intro x _ hx
    rw [hld]
    norm_num [layer, Layer.temperature]
    linarith
  have hpos : 0 < l.pressure 5000 := layer_pressure_pos (by rw [hld]; norm_num [layer]) (by rw [hld]; norm_num [layer])
    (by rw [hld]; norm_num [layer, Layer.temperature])
  rw [abs_of_pos hpos]
  norm_num at h0 ⊢
  linarith

end Post
