import Verif.Lemmas.Atmosphere
import Verif.Lemmas.AtmosNum
import Verif.Props.State
import Verif.Props.Planet
import Verif.Props.Unlimited
import Verif.Props.Aero
import Mathlib.Analysis.SpecialFunctions.Pow.Deriv
import Mathlib.Analysis.SpecialFunctions.ExpDeriv
/-! # The standard atmosphere (C46, C47, C48), vacuum (C49) and the air data (C50)

In exact arithmetic. -/

namespace Post
open Spec Flt

theorem airGasConstant_fin : (AIR_GAS_CONSTANT : XR) = .fin airGasConstant := by
  unfold AIR_GAS_CONSTANT AIR_MOLECULAR_WEIGHT GAS_CONSTANT airGasConstant
  xr_eval
  rw [XR.fin_div _ _ (by norm_num)]

theorem airGasConstant_pos : 0 < airGasConstant := by
  unfold airGasConstant; norm_num

theorem gravityPerGas_pos : 0 < gravityPerGas := by
  unfold gravityPerGas; exact div_pos (by norm_num) airGasConstant_pos

theorem gravityPerGas_fin : (STD_GRAVITY / AIR_GAS_CONSTANT : XR) = .fin gravityPerGas := by
  rw [airGasConstant_fin]
  unfold STD_GRAVITY gravityPerGas
  xr_eval
  rw [XR.fin_div _ _ airGasConstant_pos.ne']

theorem layer_pressure_pos {l : Layer} {h : ℝ} (hp : 0 < l.pres) (ht : 0 < l.temp)
    (hT : 0 < l.temperature h) : 0 < l.pressure h := by
  unfold Layer.pressure
  split_ifs
  · exact mul_pos hp (Real.exp_pos _)
  · exact mul_pos hp (Real.rpow_pos_of_pos (div_pos ht hT) _)

theorem stdTemperature_fin {h : ℝ} {l : Layer} (hl : LayerAt h l) :
    stdTemperature (XR.fin h) = .fin (l.temperature h) := by
  obtain ⟨l', hl', e⟩ := getTableRow_fin h
  obtain rfl := layerAt_unique hl' hl
  unfold stdTemperature
  rw [e]
  unfold Layer.fin Layer.temperature
  simp only [XR.fin_sub, XR.fin_mul, XR.fin_add]

theorem stdPressure_fin {h : ℝ} {l : Layer} (hl : LayerAt h l) :
    stdPressure (XR.fin h) = .fin (l.pressure h) := by
  have hT := layerAt_temperature_pos hl
  have ht := (layers_pos l (layerAt_mem hl)).1
  obtain ⟨l', hl', e⟩ := getTableRow_fin h
  obtain rfl := layerAt_unique hl' hl
  unfold stdPressure
  rw [e, stdTemperature_fin hl, gravityPerGas_fin]
  unfold Layer.fin Layer.pressure
  simp only [XR.fin_zero]
  by_cases hg : l.grad = 0
  · have : (!Flt.eq (XR.fin l.grad) (XR.fin 0)) = false := by
      rw [XR.fin_eq]; simp [hg]
    rw [this, if_neg (by simp), if_pos hg, XR.fin_neg, XR.fin_sub, XR.fin_mul,
      XR.fin_div _ _ ht.ne', XR.fin_exp, XR.fin_mul]
    congr 3; ring
  · have : (!Flt.eq (XR.fin l.grad) (XR.fin 0)) = true := by
      rw [XR.fin_eq]; simp [hg]
    rw [this, if_pos rfl, if_neg hg, XR.fin_div _ _ hT.ne', XR.fin_div _ _ hg,
      XR.fin_powf _ _ (div_pos ht hT), XR.fin_mul]

theorem stdDensity_fin {h : ℝ} {l : Layer} (hl : LayerAt h l) :
    stdDensity (XR.fin h) = .fin (l.pressure h / (airGasConstant * l.temperature h)) := by
  have hT := layerAt_temperature_pos hl
  unfold stdDensity
  rw [stdTemperature_fin hl, stdPressure_fin hl, airGasConstant_fin]
  simp only [XR.fin_mul]
  rw [XR.fin_div _ _ (mul_pos hT airGasConstant_pos).ne', mul_comm]

theorem stdSpeedOfSound_fin {h : ℝ} {l : Layer} (hl : LayerAt h l) :
    stdSpeedOfSound (XR.fin h) = .fin (Real.sqrt (1.4 * airGasConstant * l.temperature h)) := by
  have hT := layerAt_temperature_pos hl
  unfold stdSpeedOfSound
  rw [stdTemperature_fin hl, airGasConstant_fin]
  unfold AIR_KAPPA
  rw [XR.fin_sci, XR.fin_mul, XR.fin_mul, XR.fin_sqrt _ (by have := airGasConstant_pos; positivity)]
  norm_num

/-- C46.  At every real geopotential altitude the standard atmosphere has a positive temperature,
pressure, density and speed of sound, given by the laws of the one layer the altitude lies in. -/
theorem C46_laws (h : ℝ) : ∃! l, LayerAt h l ∧
    stdTemperature (XR.fin h) = .fin (l.temperature h) ∧ 0 < l.temperature h ∧
    stdPressure (XR.fin h) = .fin (l.pressure h) ∧ 0 < l.pressure h ∧
    stdDensity (XR.fin h) = .fin (l.pressure h / (airGasConstant * l.temperature h)) ∧
    0 < l.pressure h / (airGasConstant * l.temperature h) ∧
    stdSpeedOfSound (XR.fin h) = .fin (Real.sqrt (1.4 * airGasConstant * l.temperature h)) ∧
    0 < Real.sqrt (1.4 * airGasConstant * l.temperature h) := by
  obtain ⟨l, hl, -⟩ := getTableRow_fin h
  have hT := layerAt_temperature_pos hl
  obtain ⟨ht, hp⟩ := layers_pos l (layerAt_mem hl)
  have hR := airGasConstant_pos
  have hP := layer_pressure_pos hp ht hT
  refine ⟨l, ⟨hl, stdTemperature_fin hl, hT, stdPressure_fin hl, hP, stdDensity_fin hl, by positivity,
    stdSpeedOfSound_fin hl, Real.sqrt_pos.2 (by positivity)⟩, ?_⟩
  rintro l' ⟨hl', -⟩
  exact layerAt_unique hl hl'

/-- C46 (in flight).  Every state a phase with the standard atmosphere visits at a real
geopotential altitude carries these positive values; its Mach number is the air speed over the
positive speed of sound. -/
theorem C46_visited {p : Phase XR} {s : State XR} (hs : Visited p s)
    (ha : p.atmosphere.model = .standardAtmosphere1962) {h : ℝ}
    (hh : s.altitudeGeopotential = .fin h) :
    ∃ l, LayerAt h l ∧ s.temperature = .fin (l.temperature h) ∧ 0 < l.temperature h ∧
      s.pressure = .fin (l.pressure h) ∧ 0 < l.pressure h ∧
      s.density = .fin (l.pressure h / (airGasConstant * l.temperature h)) ∧
      0 < l.pressure h / (airGasConstant * l.temperature h) ∧
      ∀ v : V3 ℝ, s.velocityAtmosphere = v.fin →
        s.machNumber = .fin (rnorm v / Real.sqrt (1.4 * airGasConstant * l.temperature h)) := by
  have hc := C57_visited_consistent hs
  obtain ⟨l, ⟨hl, h1, h2, h3, h4, h5, h6, h7, h8⟩, -⟩ := C46_laws h
  refine ⟨l, hl, ?_, h2, ?_, h4, ?_, h6, ?_⟩
  · rw [hc.temperature, Atmosphere.temperature, ha, hh]; exact h1
  · rw [hc.pressure, Atmosphere.pressure, ha, hh]; exact h3
  · rw [hc.density, Atmosphere.density, ha, hh]; exact h5
  · intro v hv
    rw [hc.machNumber, Atmosphere.machNumber, Atmosphere.speedOfSound, ha, hh, hv, V3.fin_norm]
    show _ / stdSpeedOfSound (XR.fin h) = _
    rw [h7, XR.fin_div _ _ h8.ne']

/-! ## C47: ideal gas and hydrostatic equilibrium -/

theorem layer_temperature_deriv (l : Layer) (h : ℝ) : HasDerivAt l.temperature l.grad h := by
  have := (((hasDerivAt_id h).sub_const l.alt).const_mul l.grad).const_add l.temp
  have e' : l.temperature = fun x => l.temp + l.grad * (id x - l.alt) := by
    funext x; rfl
  rw [e']
  simpa only [mul_one] using this

/-- within a layer the pressure law satisfies the hydrostatic equation -/
theorem layer_hydrostatic {l : Layer} {h : ℝ} (ht : 0 < l.temp) (hT : 0 < l.temperature h) :
    HasDerivAt l.pressure (-(9.80665 * (l.pressure h / (airGasConstant * l.temperature h)))) h := by
  have hR := airGasConstant_pos
  by_cases hg : l.grad = 0
  · have hTt : l.temperature h = l.temp := by unfold Layer.temperature; rw [hg]; ring
    have e : l.pressure = fun h => l.pres * Real.exp (-(gravityPerGas * (h - l.alt) / l.temp)) := by
      funext x; unfold Layer.pressure; rw [if_pos hg]
    have h0 : HasDerivAt (fun x => -(gravityPerGas * (x - l.alt) / l.temp))
        (-(gravityPerGas / l.temp)) h := by
      have := ((((hasDerivAt_id h).sub_const l.alt).const_mul gravityPerGas).div_const l.temp).fun_neg
      simpa using this
    have := (h0.exp).const_mul l.pres
    rw [e]
    refine this.congr_deriv ?_
    rw [hTt]
    unfold gravityPerGas
    field_simp
  · have e : l.pressure = fun h => l.pres * (l.temp / l.temperature h) ^ (gravityPerGas / l.grad) := by
      funext x; unfold Layer.pressure; rw [if_neg hg]
    have hd := layer_temperature_deriv l h
    have h1 : HasDerivAt (fun x => l.temp / l.temperature x)
        (-(l.temp * l.grad) / l.temperature h ^ 2) h := by
      have := (hasDerivAt_const h l.temp).fun_div hd hT.ne'
      simpa using this
    have hpos : 0 < l.temp / l.temperature h := div_pos ht hT
    have := (h1.rpow_const (p := gravityPerGas / l.grad) (.inl hpos.ne')).const_mul l.pres
    rw [e]
    refine this.congr_deriv ?_
    rw [Real.rpow_sub_one hpos.ne']
    unfold gravityPerGas
    field_simp

theorem layer_pressure_strictAnti {l : Layer} {a b : ℝ} (hp : 0 < l.pres) (ht : 0 < l.temp)
    (hab : a < b) (hT : ∀ x, a ≤ x → x ≤ b → 0 < l.temperature x) : l.pressure b < l.pressure a := by
  have hd : ∀ x ∈ Set.Icc a b, HasDerivAt l.pressure _ x :=
    fun x hx => layer_hydrostatic ht (hT x hx.1 hx.2)
  have hanti : StrictAntiOn l.pressure (Set.Icc a b) := by
    apply strictAntiOn_of_deriv_neg (convex_Icc a b)
    · exact fun x hx => (hd x hx).continuousAt.continuousWithinAt
    · intro x hx
      rw [interior_Icc] at hx
      have hx' : x ∈ Set.Icc a b := ⟨hx.1.le, hx.2.le⟩
      rw [(hd x hx').deriv]
      have := hT x hx'.1 hx'.2
      have hR := airGasConstant_pos
      have hP := layer_pressure_pos hp ht this
      have : 0 < 9.80665 * (l.pressure x / (airGasConstant * l.temperature x)) := by positivity
      linarith
  exact hanti ⟨le_refl a, hab.le⟩ ⟨hab.le, le_refl b⟩ hab

theorem layerAt_between {a b x : ℝ} {l : Layer} (ha : LayerAt a l) (hb : LayerAt b l)
    (h1 : a ≤ x) (h2 : x ≤ b) : LayerAt x l := by
  obtain ⟨bl, ab, e, hA, hB⟩ := ha
  obtain ⟨bl', ab', e', hA', hB'⟩ := hb
  have hp := layers_pairwise
  have hn : layers.Nodup := hp.imp (fun h => by rintro rfl; exact lt_irrefl _ h)
  refine ⟨bl', ab', e', ?_, fun n hn => lt_of_le_of_lt h2 (hB' n hn)⟩
  by_cases h0 : bl' = []
  · exact .inl h0
  · right
    rcases hA with rfl | h'
    · -- the layer is the first
      exfalso
      rw [e, List.nil_append] at e'
      cases bl' with
      | nil => exact h0 rfl
      | cons c bl' =>
        rw [List.cons_append, List.cons.injEq] at e'
        rw [e, List.nil_append, e'.2, List.nodup_cons] at hn
        exact hn.1 (by simp)
    · exact h'.trans h1


/-- The real functions `T`, `P` and `ρ` are the temperature, pressure and density the program
computes for real geopotential altitudes. -/
structure Spec.AirOf (T P ρ : ℝ → ℝ) : Prop where
  temperature : ∀ h, stdTemperature (XR.fin h) = .fin (T h)
  pressure : ∀ h, stdPressure (XR.fin h) = .fin (P h)
  density : ∀ h, stdDensity (XR.fin h) = .fin (ρ h)

/-- There are such functions. -/
theorem airOf_exists : ∃ T P ρ, AirOf T P ρ := by
  choose f hf using fun h => (C46_laws h).exists
  exact ⟨fun h => (f h).temperature h, fun h => (f h).pressure h,
    fun h => (f h).pressure h / (airGasConstant * (f h).temperature h),
    fun h => (hf h).2.1, fun h => (hf h).2.2.2.1, fun h => (hf h).2.2.2.2.2.1⟩

namespace Spec.AirOf
variable {T P ρ : ℝ → ℝ} (hA : AirOf T P ρ)
include hA

theorem temperature_eq {h : ℝ} {l : Layer} (hl : LayerAt h l) : T h = l.temperature h := by
  have := hA.temperature h
  rw [stdTemperature_fin hl] at this
  simpa using this.symm

theorem pressure_eq {h : ℝ} {l : Layer} (hl : LayerAt h l) : P h = l.pressure h := by
  have := hA.pressure h
  rw [stdPressure_fin hl] at this
  simpa using this.symm

theorem density_eq {h : ℝ} {l : Layer} (hl : LayerAt h l) :
    ρ h = l.pressure h / (airGasConstant * l.temperature h) := by
  have := hA.density h
  rw [stdDensity_fin hl] at this
  simpa using this.symm

end Spec.AirOf

/-- the layer of an altitude extends upwards -/
theorem layerAt_right {h : ℝ} {l : Layer} (hl : LayerAt h l) :
    ∃ e > h, ∀ x, h ≤ x → x < e → LayerAt x l := by
  obtain ⟨b, a, e, hb, ha⟩ := hl
  cases a with
  | nil => exact ⟨h + 1, by linarith, fun x h1 _ => ⟨b, [], e, hb.imp_right (·.trans h1), by simp⟩⟩
  | cons n a =>
    refine ⟨n.alt, ha n (by simp), fun x h1 h2 => ⟨b, n :: a, e, hb.imp_right (·.trans h1), ?_⟩⟩
    simpa using h2

/-- the layer of an altitude that is not a base extends downwards -/
theorem layerAt_left {h : ℝ} {l : Layer} (hl : LayerAt h l) (hh : ∀ n ∈ layers.tail, h ≠ n.alt) :
    ∃ e < h, ∀ x, e < x → x ≤ h → LayerAt x l := by
  obtain ⟨b, a, e, hb, ha⟩ := hl
  by_cases h0 : b = []
  · exact ⟨h - 1, by linarith, fun x _ h1 => ⟨b, a, e, .inl h0, fun n hn => h1.trans_lt (ha n hn)⟩⟩
  · have hle : l.alt ≤ h := hb.resolve_left h0
    have hne : h ≠ l.alt := by
      apply hh
      rw [e]
      cases b with
      | nil => exact absurd rfl h0
      | cons c b => simp
    exact ⟨l.alt, lt_of_le_of_ne hle hne.symm,
      fun x h1 h2 => ⟨b, a, e, .inr h1.le, fun n hn => h2.trans_lt (ha n hn)⟩⟩

/-- C47.  The air is an ideal gas in hydrostatic equilibrium: pressure is density times gas
constant times temperature, and the pressure changes with altitude at the rate of the weight of
the air, from every altitude upwards, and in both directions except at the bases of the layers. -/
theorem C47_hydrostatic {T P ρ : ℝ → ℝ} (hA : AirOf T P ρ) (h : ℝ) :
    P h = ρ h * airGasConstant * T h ∧
    HasDerivWithinAt P (-(9.80665 * ρ h)) (Set.Ici h) h ∧
    ((∀ n ∈ layers.tail, h ≠ n.alt) → HasDerivAt P (-(9.80665 * ρ h)) h) := by
  obtain ⟨l, hl, -⟩ := getTableRow_fin h
  have hT := layerAt_temperature_pos hl
  have ht := (layers_pos l (layerAt_mem hl)).1
  have hR := airGasConstant_pos
  have hd := layer_hydrostatic ht hT
  rw [← hA.density_eq hl] at hd
  obtain ⟨e, he, hr⟩ := layerAt_right hl
  refine ⟨?_, ?_, ?_⟩
  · rw [hA.density_eq hl, hA.pressure_eq hl, hA.temperature_eq hl]
    field_simp
  · refine hd.hasDerivWithinAt.congr_of_eventuallyEq ?_ (hA.pressure_eq hl)
    have : Set.Iio e ∈ nhdsWithin h (Set.Ici h) := mem_nhdsWithin_of_mem_nhds (Iio_mem_nhds he)
    filter_upwards [this, self_mem_nhdsWithin] with x h1 h2
    exact hA.pressure_eq (hr x h2 h1)
  · intro hh
    obtain ⟨d, hd', hleft⟩ := layerAt_left hl hh
    refine hd.congr_of_eventuallyEq ?_
    filter_upwards [Ioo_mem_nhds hd' he] with x hx
    rcases le_or_gt x h with h1 | h1
    · exact hA.pressure_eq (hleft x hx.1 h1)
    · exact hA.pressure_eq (hr x h1.le hx.2)

/-- C47 (within a layer).  Pressure and density decrease strictly with altitude within a layer. -/
theorem C47_decreasing {T P ρ : ℝ → ℝ} (hA : AirOf T P ρ) {a b : ℝ} {l : Layer}
    (ha : LayerAt a l) (hb : LayerAt b l) (hab : a < b) : P b < P a ∧ ρ b < ρ a := by
  obtain ⟨ht, hp⟩ := layers_pos l (layerAt_mem ha)
  have hR := airGasConstant_pos
  have hT : ∀ x, a ≤ x → x ≤ b → 0 < l.temperature x :=
    fun x h1 h2 => layerAt_temperature_pos (layerAt_between ha hb h1 h2)
  refine ⟨?_, ?_⟩
  · rw [hA.pressure_eq ha, hA.pressure_eq hb]
    exact layer_pressure_strictAnti hp ht hab hT
  · rw [hA.density_eq ha, hA.density_eq hb]
    have hgrad : 0 < gravityPerGas + l.grad := by
      have : ∀ l ∈ layers, 0 < gravityPerGas + l.grad := by
        unfold layers layer gravityPerGas airGasConstant
        norm_num
      exact this l (layerAt_mem ha)
    have hd : ∀ x ∈ Set.Icc a b,
        HasDerivAt (fun x => l.pressure x / (airGasConstant * l.temperature x))
          (-(l.pressure x * (gravityPerGas + l.grad) / (airGasConstant * l.temperature x ^ 2))) x := by
      intro x hx
      have hTx := hT x hx.1 hx.2
      have h1 := layer_hydrostatic ht hTx
      have h2 : HasDerivAt (fun x => airGasConstant * l.temperature x) (airGasConstant * l.grad) x := by
        exact (layer_temperature_deriv l x).const_mul airGasConstant
      refine (h1.fun_div h2 (by positivity)).congr_deriv ?_
      unfold gravityPerGas
      field_simp
      ring
    have hanti : StrictAntiOn (fun x => l.pressure x / (airGasConstant * l.temperature x))
        (Set.Icc a b) := by
      apply strictAntiOn_of_deriv_neg (convex_Icc a b)
      · exact fun x hx => (hd x hx).continuousAt.continuousWithinAt
      · intro x hx
        rw [interior_Icc] at hx
        have hx' : x ∈ Set.Icc a b := ⟨hx.1.le, hx.2.le⟩
        rw [(hd x hx').deriv]
        have hTx := hT x hx'.1 hx'.2
        have hP := layer_pressure_pos hp ht hTx
        have : 0 < l.pressure x * (gravityPerGas + l.grad) / (airGasConstant * l.temperature x ^ 2) := by
          positivity
        linarith
    exact hanti ⟨le_refl a, hab.le⟩ ⟨hab.le, le_refl b⟩ hab


/-! ## C48: continuity across the bases of the layers -/

theorem nextLayer_of_tail {n : Layer} (hn : n ∈ layers.tail) : ∃ l, NextLayer l n := by
  obtain ⟨rest, e⟩ := layers_ends.1
  rw [e, List.tail_cons] at hn
  obtain ⟨b, a, rfl⟩ := List.append_of_mem hn
  rcases List.eq_nil_or_concat b with rfl | ⟨b', l, rfl⟩
  · exact ⟨_, [], a, e⟩
  · refine ⟨l, layer 0.0 0.21162166e4 518.67 (-0.35661600e-2) :: b', a, ?_⟩
    rw [e]; simp

theorem nextLayer_chain {R : Layer → Layer → Prop} (h : layers.IsChain R) {l n : Layer}
    (hn : NextLayer l n) : R l n := by
  obtain ⟨b, a, e⟩ := hn
  rw [e, List.isChain_append] at h
  exact (List.isChain_cons_cons.1 h.2.1).1

theorem nextLayer_lt {l n : Layer} (hn : NextLayer l n) : l.alt < n.alt :=
  nextLayer_chain layers_sorted hn

theorem nextLayer_base {l n : Layer} (hn : NextLayer l n) : LayerAt n.alt n := by
  obtain ⟨b, a, e⟩ := hn
  refine ⟨b ++ [l], a, by rw [e]; simp, .inr le_rfl, ?_⟩
  intro m hm
  cases a with
  | nil => simp at hm
  | cons k a =>
    obtain rfl : k = m := by simpa using hm
    exact nextLayer_lt ⟨b ++ [l], a, by rw [e]; simp⟩

theorem nextLayer_below {l n : Layer} (hn : NextLayer l n) {x : ℝ} (h1 : l.alt ≤ x)
    (h2 : x < n.alt) : LayerAt x l := by
  obtain ⟨b, a, e⟩ := hn
  exact ⟨b, n :: a, e, .inr h1, by simpa using h2⟩

open Filter Topology in
/-- what the atmosphere tends to when a base is approached from below -/
theorem below_base {T P ρ : ℝ → ℝ} (hA : AirOf T P ρ) {l n : Layer} (hn : NextLayer l n) :
    Tendsto T (𝓝[<] n.alt) (𝓝 (l.temperature n.alt)) ∧ T n.alt = n.temp ∧
    Tendsto P (𝓝[<] n.alt) (𝓝 (l.pressure n.alt)) ∧ P n.alt = n.pres := by
  have hmem : l ∈ layers := by obtain ⟨b, a, e⟩ := hn; rw [e]; simp
  obtain ⟨ht, hp⟩ := layers_pos l hmem
  have hT := nextLayer_chain layers_top hn
  have hev : ∀ᶠ x in 𝓝[<] n.alt, LayerAt x l := by
    have : Set.Ioo l.alt n.alt ∈ 𝓝[<] n.alt := Ioo_mem_nhdsLT (nextLayer_lt hn)
    filter_upwards [this] with x hx
    exact nextLayer_below hn hx.1.le hx.2
  have hb := nextLayer_base hn
  refine ⟨?_, ?_, ?_, ?_⟩
  · have := (layer_temperature_deriv l n.alt).continuousAt.tendsto
    refine (this.mono_left nhdsWithin_le_nhds).congr' ?_
    filter_upwards [hev] with x hx
    exact (hA.temperature_eq hx).symm
  · rw [hA.temperature_eq hb]; unfold Layer.temperature; ring
  · have := (layer_hydrostatic ht hT).continuousAt.tendsto
    refine (this.mono_left nhdsWithin_le_nhds).congr' ?_
    filter_upwards [hev] with x hx
    exact (hA.pressure_eq hx).symm
  · have hn' : 0 < n.temp := by
      have := (layers_pos n (layerAt_mem hb)).1; exact this
    rw [hA.pressure_eq hb]
    have e : n.temperature n.alt = n.temp := by unfold Layer.temperature; ring
    unfold Layer.pressure
    rw [e, div_self hn'.ne', Real.one_rpow, sub_self]
    simp

/-- The altitudes (in feet) at whose bases the table of the program is wrong. -/
def Spec.wrongTemperature (feet : ℝ) : Prop := feet = 396406.39 ∨ feet = 480781.04

/-- The altitudes (in feet) at whose bases the table of the program has a wrong pressure. -/
def Spec.wrongPressure (feet : ℝ) : Prop :=
  feet = 396406.39 ∨ feet = 480781.04 ∨ feet = 512046.16

theorem layers_temperature : layers.IsChain (fun l n =>
    wrongTemperature (n.alt / 0.3048) ∨ |l.temperature n.alt - n.temp| ≤ 1e-7 * n.temp) := by
  unfold layers wrongTemperature Layer.temperature layer
  norm_num [abs_le]

theorem abs_of_bounds {x y : ℝ} (h : 0.999999 * y ≤ x ∧ x ≤ 1.000001 * y) : |x - y| ≤ 1e-6 * y := by
  rw [abs_le]; constructor <;> norm_num at h ⊢ <;> linarith [h.1, h.2]

theorem layers_pressure : layers.IsChain (fun l n =>
    wrongPressure (n.alt / 0.3048) ∨ |l.pressure n.alt - n.pres| ≤ 1e-6 * n.pres) := by
  have w1 : wrongPressure ((layer 396406.39 0.52676024e-4 649.17 0.11443751e-1).alt / 0.3048) := by
    unfold wrongPressure layer; norm_num
  have w2 : wrongPressure ((layer 480781.04 0.10566108e-4 1729.17 0.86358208e-2).alt / 0.3048) := by
    unfold wrongPressure layer; norm_num
  have w3 : wrongPressure ((layer 512046.16 0.77263469e-5 1999.17 0.57749093e-2).alt / 0.3048) := by
    unfold wrongPressure layer; norm_num
  unfold layers
  simp only [List.isChain_cons_cons, List.IsChain.singleton, and_true]
  exact ⟨.inr (abs_of_bounds top_pressure_0), .inr (abs_of_bounds top_pressure_1),
    .inr (abs_of_bounds top_pressure_2), .inr (abs_of_bounds top_pressure_3),
    .inr (abs_of_bounds top_pressure_4), .inr (abs_of_bounds top_pressure_5),
    .inr (abs_of_bounds top_pressure_6), .inr (abs_of_bounds top_pressure_7),
    .inr (abs_of_bounds top_pressure_8), .inr (abs_of_bounds top_pressure_9),
    .inl w1, .inl w2, .inl w3,
    .inr (abs_of_bounds top_pressure_13), .inr (abs_of_bounds top_pressure_14),
    .inr (abs_of_bounds top_pressure_15), .inr (abs_of_bounds top_pressure_16),
    .inr (abs_of_bounds top_pressure_17), .inr (abs_of_bounds top_pressure_18),
    .inr (abs_of_bounds top_pressure_19), .inr (abs_of_bounds top_pressure_20)⟩

open Filter Topology in
/-- C48 (partial).  Temperature and pressure are continuous in the altitude: exactly so between
the bases of the layers, and up to a relative jump of 1e-7 and 1e-6, respectively, at the bases.
What is missing: the bases at 396406.39 ft and 480781.04 ft (temperature and pressure) and
512046.16 ft (pressure), where it is false: see `C48_refuted`. -/
theorem C48_continuous_partial {T P ρ : ℝ → ℝ} (hA : AirOf T P ρ) :
    (∀ h, (∀ n ∈ layers.tail, h ≠ n.alt) → ContinuousAt T h ∧ ContinuousAt P h) ∧
    ∀ n ∈ layers.tail, ∃ Tb Pb,
      Tendsto T (𝓝[<] n.alt) (𝓝 Tb) ∧ Tendsto T (𝓝[≥] n.alt) (𝓝 (T n.alt)) ∧
      Tendsto P (𝓝[<] n.alt) (𝓝 Pb) ∧ Tendsto P (𝓝[≥] n.alt) (𝓝 (P n.alt)) ∧
      (¬ wrongTemperature (n.alt / 0.3048) → |Tb - T n.alt| ≤ 1e-7 * T n.alt) ∧
      (¬ wrongPressure (n.alt / 0.3048) → |Pb - P n.alt| ≤ 1e-6 * P n.alt) := by
  refine ⟨fun h hh => ⟨?_, ((C47_hydrostatic hA h).2.2 hh).continuousAt⟩, ?_⟩
  · obtain ⟨l, hl, -⟩ := getTableRow_fin h
    obtain ⟨e, he, hr⟩ := layerAt_right hl
    obtain ⟨d, hd, hleft⟩ := layerAt_left hl hh
    refine (layer_temperature_deriv l h).continuousAt.congr ?_
    filter_upwards [Ioo_mem_nhds hd he] with x hx
    rcases le_or_gt x h with h1 | h1
    · exact (hA.temperature_eq (hleft x hx.1 h1)).symm
    · exact (hA.temperature_eq (hr x h1.le hx.2)).symm
  · intro n hn
    obtain ⟨l, hln⟩ := nextLayer_of_tail hn
    obtain ⟨h1, h2, h3, h4⟩ := below_base hA hln
    refine ⟨_, _, h1, ?_, h3, (C47_hydrostatic hA n.alt).2.1.continuousWithinAt, ?_, ?_⟩
    · have hb := nextLayer_base hln
      obtain ⟨e, he, hr⟩ := layerAt_right hb
      rw [hA.temperature_eq hb]
      refine ((layer_temperature_deriv n n.alt).continuousAt.tendsto.mono_left
        nhdsWithin_le_nhds).congr' ?_
      have : Set.Iio e ∈ 𝓝[≥] n.alt := mem_nhdsWithin_of_mem_nhds (Iio_mem_nhds he)
      filter_upwards [this, self_mem_nhdsWithin] with x k1 k2
      exact (hA.temperature_eq (hr x k2 k1)).symm
    · intro hw
      rw [h2]
      exact (nextLayer_chain layers_temperature hln).resolve_left hw
    · intro hw
      rw [h4]
      exact (nextLayer_chain layers_pressure hln).resolve_left hw

theorem nextLayer_eleven : NextLayer (layer 354753.59 0.15361733e-3 469.17 0.56867005e-2)
    (layer 396406.39 0.52676024e-4 649.17 0.11443751e-1) :=
  ⟨layers.take 10, layers.drop 12, rfl⟩

theorem nextLayer_twelve : NextLayer (layer 396406.39 0.52676024e-4 649.17 0.11443751e-1)
    (layer 480781.04 0.10566108e-4 1729.17 0.86358208e-2) :=
  ⟨layers.take 11, layers.drop 13, rfl⟩

open Filter Topology in
/-- C48 is false.  When the altitude of 396406.39 ft is reached from below the temperature drops
suddenly by more than eight percent of its value there and the pressure *rises* to more than 1.3
times what it was; at 480781.04 ft the temperature rises by more than six percent and the
pressure drops by more than a tenth.  (The base altitude 396406.39 ft in the table of the program
is ten thousand feet too high: the temperature law of the layer below reaches the tabulated
temperature of 649.17 degrees Rankine at 386406.39 ft.) -/
theorem C48_refuted {T P ρ : ℝ → ℝ} (hA : AirOf T P ρ) :
    (∃ Tb Pb, Tendsto T (𝓝[<] (396406.39 * 0.3048)) (𝓝 Tb) ∧
      Tendsto P (𝓝[<] (396406.39 * 0.3048)) (𝓝 Pb) ∧
      1.08 * T (396406.39 * 0.3048) < Tb ∧ 1.3 * Pb < P (396406.39 * 0.3048)) ∧
    (∃ Tb Pb, Tendsto T (𝓝[<] (480781.04 * 0.3048)) (𝓝 Tb) ∧
      Tendsto P (𝓝[<] (480781.04 * 0.3048)) (𝓝 Pb) ∧
      Tb < 0.94 * T (480781.04 * 0.3048) ∧ 1.1 * P (480781.04 * 0.3048) < Pb) ∧
    (∃ h < 396406.39 * 0.3048, P h < P (396406.39 * 0.3048)) ∧
    |(layer 354753.59 0.15361733e-3 469.17 0.56867005e-2).temperature (386406.39 * 0.3048)
      - 649.17 / 1.8| < 1e-4 := by
  obtain ⟨h1, h2, h3, h4⟩ := below_base hA nextLayer_eleven
  obtain ⟨k1, k2, k3, k4⟩ := below_base hA nextLayer_twelve
  have hp := top_pressure_10
  have hq := top_pressure_11
  have hpos : 0 < (layer 396406.39 0.52676024e-4 649.17 0.11443751e-1).pres := by
    unfold layer; norm_num
  have hpos' : 0 < (layer 480781.04 0.10566108e-4 1729.17 0.86358208e-2).pres := by
    unfold layer; norm_num
  have e1 : (layer 396406.39 0.52676024e-4 649.17 0.11443751e-1).alt = 396406.39 * 0.3048 := rfl
  have e2 : (layer 480781.04 0.10566108e-4 1729.17 0.86358208e-2).alt = 480781.04 * 0.3048 := rfl
  rw [e1] at h1 h2 h3 h4 hp
  rw [e2] at k1 k2 k3 k4 hq
  have hjump : 1.3 * (layer 354753.59 0.15361733e-3 469.17 0.56867005e-2).pressure
      (396406.39 * 0.3048) < P (396406.39 * 0.3048) := by
    rw [h4]; norm_num at hp hpos ⊢; linarith [hp.2]
  refine ⟨⟨_, _, h1, h3, ?_, hjump⟩, ⟨_, _, k1, k3, ?_, ?_⟩, ?_, ?_⟩
  · rw [h2]; unfold Layer.temperature layer; norm_num
  · rw [k2]; unfold Layer.temperature layer; norm_num
  · rw [k4]; norm_num at hq hpos' ⊢; linarith [hq.1]
  · have hP0 : 0 < P (396406.39 * 0.3048) := by rw [h4]; exact hpos
    have : (layer 354753.59 0.15361733e-3 469.17 0.56867005e-2).pressure
      (396406.39 * 0.3048) < P (396406.39 * 0.3048) := by
      by_contra hc
      push Not at hc
      norm_num at hc hjump hP0
      linarith
    obtain ⟨h, hh, hlt⟩ := ((h3.eventually (gt_mem_nhds this)).and self_mem_nhdsWithin).exists
    exact ⟨h, hlt, hh⟩
  · unfold Layer.temperature layer; norm_num [abs_lt]

/-! ## C49, C50: vacuum and the air data -/

/-- C49 (Mach number).  Without an atmosphere the Mach number is infinite whenever the vehicle
moves relative to the (absent) air, and not a number when it does not. -/
theorem C49_mach {p : Phase XR} {s : State XR} (hs : Visited p s)
    (ha : p.atmosphere.model = .noAtmosphere) {v : V3 ℝ} (hv : s.velocityAtmosphere = v.fin) :
    (v ≠ ⟨0, 0, 0⟩ → s.machNumber = .pinf) ∧ (v = ⟨0, 0, 0⟩ → s.machNumber = .nan) := by
  have hc := C57_visited_consistent hs
  have hm : s.machNumber = XR.infMul (rnorm v) := by
    rw [hc.machNumber, Atmosphere.machNumber, Atmosphere.speedOfSound, ha, hv, V3.fin_norm]
    show XR.fin _ / (0 : XR) = _
    rw [XR.fin_zero, XR.fin_div_zero]
  constructor
  · intro h
    rw [hm, XR.infMul, if_pos (rnorm_pos v h)]
  · rintro rfl
    rw [hm, (rnorm_eq_zero _).2 rfl, XR.infMul]
    simp

/-- C50 (air speed).  In any arithmetic the velocity relative to the air is the velocity relative
to the rotating planet minus the wind in force. -/
theorem C50_air_speed {F : Type} [Flt F] {p : Phase F} {s : State F} (hs : Visited p s) :
    s.velocityAtmosphere = s.velocityPlanet - p.atmosphere.wind :=
  (C57_visited_consistent hs).velocityAtmosphere

/-- C50 (dynamic pressure).  The dynamic pressure is half the density times the square of the air
speed; it is never negative, and it is zero exactly if there is no air or no air speed. -/
theorem C50_dynamic_pressure {p : Phase XR} {s : State XR} (hs : Visited p s) {d : ℝ} {v : V3 ℝ}
    (hd : s.density = .fin d) (hv : s.velocityAtmosphere = v.fin) :
    ∃ q, s.dynamicPressure = .fin q ∧ q = d / 2 * (v.x ^ 2 + v.y ^ 2 + v.z ^ 2) ∧
      (0 ≤ d → 0 ≤ q) ∧ (q = 0 ↔ d = 0 ∨ v = ⟨0, 0, 0⟩) := by
  have hc := C57_visited_consistent hs
  have hq : d / 2 * (v.x ^ 2 + v.y ^ 2 + v.z ^ 2) = 0.5 * d * rnorm v ^ 2 := by
    rw [rnorm_sq]; ring
  refine ⟨_, ?_, rfl, fun h => by positivity, ?_⟩
  · rw [hc.dynamicPressure, Atmosphere.dynamicPressure, hd, hv, V3.fin_norm, XR.fin_powi, XR.fin_sci,
      XR.fin_mul, XR.fin_mul, hq]
  · rw [hq]
    simp only [mul_eq_zero, pow_eq_zero_iff (two_ne_zero), rnorm_eq_zero]
    norm_num

/-- C49 (dynamic pressure).  Without an atmosphere the dynamic pressure is zero at every real speed. -/
theorem C49_dynamic_pressure {p : Phase XR} {s : State XR} (hs : Visited p s)
    (ha : p.atmosphere.model = .noAtmosphere) {v : V3 ℝ} (hv : s.velocityAtmosphere = v.fin) :
    s.dynamicPressure = .fin 0 := by
  have hc := C57_visited_consistent hs
  have hd : s.density = .fin 0 := by
    rw [hc.density, Atmosphere.density, ha]
    exact XR.fin_zero
  obtain ⟨q, hq, _, _, h0⟩ := C50_dynamic_pressure hs hd hv
  rw [hq, h0.2 (.inl rfl)]

/-- The states the theorems about visited states speak of exist: any vehicle without coefficient
tables, at any real position outside the core of the planet, visits one, with a real air speed. -/
theorem visits_air {p : Phase XR} {es : List RealEngine} (hE : HasEngines p.vehicle es)
    (hlim : p.maxAcceleration = Flt.inf) {a b ω : ℝ}
    (hpa : p.planet.equatorialRadius = .fin a) (hpb : p.planet.polarRadius = .fin b)
    (hω : p.planet.rotationRate = .fin ω) (ha : 0 < a) (hb : 0 < b)
    (hm : p.atmosphere.model = .standardAtmosphere1962) {w : V3 ℝ} (hw : p.atmosphere.wind = w.fin)
    (hd : p.vehicle.dragCoeff = .default) (hl : p.vehicle.liftCoeff = .default)
    (hy : p.vehicle.sideForceCoeff = .default)
    {m : ℝ} (hmass : p.state.mass = .fin m) (hm0 : 0 < m) {r v : V3 ℝ}
    (hr : p.state.position = r.fin) (hv : p.state.velocity = v.fin) (hr0 : r ≠ ⟨0, 0, 0⟩)
    (hcore : surfaceDistance a b r - (a + b) / 2 < rnorm r) :
    ∃ s, Visited p s ∧
      s.altitudeGeopotential =
        .fin (geopotential ((a + b) / 2) (rnorm r - surfaceDistance a b r)) ∧
      s.velocityAtmosphere = (rsub (rsub v (rcross ⟨0, 0, ω⟩ r)) w).fin := by
  have halt := altitude_fin hpa hpb ha.ne' hb.ne' hr0
  have hgeo := C45_value hpa hpb halt (by linarith)
  have hpr : ∃ x, (p.systemPre p.state).pressure = .fin x := by
    show ∃ x, p.atmosphere.pressure (p.systemAir (p.systemPlanet p.state)) = .fin x
    rw [Atmosphere.pressure, hm]
    show ∃ x, stdPressure (p.planet.geopotentialAltitude p.state.position) = .fin x
    rw [hr, hgeo]
    obtain ⟨l, h, _⟩ := C46_laws (geopotential ((a + b) / 2) (rnorm r - surfaceDistance a b r))
    exact ⟨_, h.2.2.2.1⟩
  obtain ⟨x, hx⟩ := hpr
  obtain ⟨s, hs⟩ := C15_never_aborts hlim hE hmass hm0 hx (C22_no_tables hd hl hy _)
  have hvis : Visited p s := ⟨s, [], _, hs, .nil _, .inl rfl⟩
  have hc := C57_visited_consistent hvis
  obtain ⟨_, _, h3, h4, _⟩ := Phase.system_primary hs
  refine ⟨s, hvis, ?_, ?_⟩
  · rw [hc.altitudeGeopotential, h3, hr, hgeo]
  · rw [hc.velocityAtmosphere, hc.velocityPlanet, h3, h4, hr, hv, velocityPlanet_fin hω, hw,
      V3.fin_sub']

example : LayerAt 5000 (layer 0.0 0.21162166e4 518.67 (-0.35661600e-2)) :=
  ⟨[], layers.tail, rfl, .inl rfl, by
    intro n hn
    obtain rfl : n = layer 36089.239 0.47268050e3 389.97 0.0 := by
      simpa [layers, eq_comm] using hn
    unfold layer; norm_num⟩

end Post
