import Verif.Spec.Stages
import Verif.Props.DoubleBurn
/-! # The thrust of mounted engines in double precision -/

namespace Post
open Spec Flt F64
variable {L : Libm}

theorem sin_close (hL : AngleLibrary L) {x : F64 L} {ξ : ℝ} (hx : Reads x ξ) (h : |ξ| ≤ 6) :
    Near (Flt.sin x) (Real.sin ξ) 1e-15 := by
  obtain ⟨q, hq, rfl⟩ := hx
  obtain ⟨r, h1, _, h2⟩ := hL.sin x q hq (by exact_mod_cast h)
  exact ⟨r, h1, h2⟩

theorem cos_close (hL : AngleLibrary L) {x : F64 L} {ξ : ℝ} (hx : Reads x ξ) (h : |ξ| ≤ 6) :
    Near (Flt.cos x) (Real.cos ξ) 1e-15 := by
  obtain ⟨q, hq, rfl⟩ := hx
  obtain ⟨r, h1, _, h2⟩ := hL.cos x q hq (by exact_mod_cast h)
  exact ⟨r, h1, h2⟩

theorem abs_mul_one {a b : ℝ} (ha : |a| ≤ 1) (hb : |b| ≤ 1) : |a * b| ≤ 1 := by
  rw [abs_mul]
  exact mul_le_one₀ ha (abs_nonneg _) hb

/-- the thrust of one engine in vacuum -/
theorem engine_thrust_near (hL : AngleLibrary L) {e : Engine (F64 L)} {E : RealEngine} (h : MountedDouble e E) :
    NearV (e.thrust 0) (E.thrustAt 0) (4e-15 * E.thrust + 1e-38) ∧
      (|(E.thrustAt 0).x| ≤ E.thrust ∧ |(E.thrustAt 0).y| ≤ E.thrust ∧ |(E.thrustAt 0).z| ≤ E.thrust) := by
  have ht := h.thrust_nonneg
  have ht2 := h.thrust_le
  have c1 := cos_close hL h.yaw h.yaw_le
  have c2 := cos_close hL h.pitch h.pitch_le
  have s1 := sin_close hL h.yaw h.yaw_le
  have s2 := sin_close hL h.pitch h.pitch_le
  have bc1 := Real.abs_cos_le_one E.yaw
  have bc2 := Real.abs_cos_le_one E.pitch
  have bs1 := Real.abs_sin_le_one E.yaw
  have bs2 := Real.abs_sin_le_one E.pitch
  have dx : Near (Flt.cos e.incidenceYaw * Flt.cos e.incidencePitch) (Real.cos E.yaw * Real.cos E.pitch) 3e-15 :=
    c1.mul c2 (A := 1) (B := 1) (M := 1) bc1 bc2 (abs_mul_one bc1 bc2) (by norm_num) (by norm_num)
  have dz : Near (Flt.cos e.incidenceYaw * Flt.sin e.incidencePitch) (Real.cos E.yaw * Real.sin E.pitch) 3e-15 :=
    c1.mul s2 (A := 1) (B := 1) (M := 1) bc1 bs2 (abs_mul_one bc1 bs2) (by norm_num) (by norm_num)
  have dy : Near (Flt.sin e.incidenceYaw) (Real.sin E.yaw) 3e-15 := s1.mono (by norm_num)
  have ha : Near (e.exitArea * 0) 0 0 := by
    obtain ⟨q, hq, _⟩ := h.area
    have := (zero_isZero (L := L)).mul_left hq
    exact reads_near.1 ⟨0, this.is, by norm_num⟩
  have hf : Near (e.thrustVac - e.exitArea * 0) E.thrust (1.2e-16 * E.thrust + 1e-40) := by
    refine ((reads_near.1 h.thrust).sub ha (M := E.thrust) ?_ ?_ ?_).congr (by ring)
    · rw [sub_zero, abs_of_nonneg ht]
    · norm_num
    · norm_num at ht2 ⊢; linarith
  have comp : ∀ {x : F64 L} {ξ : ℝ}, Near x ξ 3e-15 → |ξ| ≤ 1 →
      Near (x * (e.thrustVac - e.exitArea * 0)) (E.thrust * ξ) (4e-15 * E.thrust + 1e-38) ∧
        |E.thrust * ξ| ≤ E.thrust := by
    intro x ξ hx hξ
    have hb : |E.thrust * ξ| ≤ E.thrust := by
      rw [abs_mul, abs_of_nonneg ht]
      exact mul_le_of_le_one_right ht hξ
    refine ⟨(hx.mul hf (A := 1) (B := E.thrust) (M := E.thrust) (e := 4e-15 * E.thrust + 1e-38) hξ
      (by rw [abs_of_nonneg ht]) (by rw [mul_comm]; exact hb) ?_ ?_).congr (mul_comm _ _), hb⟩
    · norm_num
      linarith
    · norm_num at ht2 ⊢
      linarith
  have ez : E.thrustAt 0 = ⟨E.thrust * (Real.cos E.yaw * Real.cos E.pitch), E.thrust * Real.sin E.yaw,
      E.thrust * (Real.cos E.yaw * Real.sin E.pitch)⟩ := by
    unfold RealEngine.thrustAt RealEngine.direction rscale
    simp
  obtain ⟨x1, x2⟩ := comp dx (abs_mul_one bc1 bc2)
  obtain ⟨y1, y2⟩ := comp dy bs1
  obtain ⟨z1, z2⟩ := comp dz (abs_mul_one bc1 bs2)
  rw [ez]
  exact ⟨⟨x1, y1, z1⟩, x2, y2, z2⟩

/-- sums of components -/
theorem foldl_close {S : ℝ} (hS : S ≤ 1e12) : ∀ {l : List (F64 L)} {cs ts : List ℝ}
    (_ : List.Forall₂ (fun x (c : ℝ × ℝ) => 0 ≤ c.2 ∧ |c.1| ≤ c.2 ∧ Near x c.1 (4e-15 * c.2 + 1e-38)) l (cs.zip ts))
    (_ : cs.length = ts.length) {a : F64 L} {A B E : ℝ} (_ : Near a A E) (_ : |A| ≤ B) (_ : B + ts.sum ≤ S)
    (_ : E + ts.length * (5e-15 * S + 1e-36) ≤ 1e-12 * S + 1e-33),
    Near (l.foldl (· + ·) a) (A + cs.sum) (E + ts.length * (5e-15 * S + 1e-36)) := by
  intro l
  induction l with
  | nil =>
    intro cs ts h hl a A B E ha _ _ _
    have h0 : (cs.zip ts) = [] := by simpa using h
    cases cs with
    | nil =>
      cases ts with
      | nil => simpa using ha
      | cons _ _ => simp at hl
    | cons _ _ =>
      cases ts with
      | nil => simp at hl
      | cons _ _ => simp at h0
  | cons x l ih =>
    intro cs ts h hl a A B E ha hA hle hE
    cases cs with
    | nil => simp at h
    | cons c cs =>
      cases ts with
      | nil => simp at h
      | cons t ts =>
        rw [List.zip_cons_cons, List.forall₂_cons] at h
        obtain ⟨⟨h1, h2, h3⟩, h4⟩ := h
        have hl' : cs.length = ts.length := by simpa using hl
        have hts : 0 ≤ ts.sum := by
          refine List.sum_nonneg fun u hu => ?_
          obtain ⟨i, hi, rfl⟩ := List.getElem_of_mem hu
          have g := List.forall₂_iff_get.1 h4
          have hz : i < (cs.zip ts).length := by simp [hl', hi]
          have := (g.2 i (by rw [g.1]; exact hz) hz).1
          simpa using this
        have hE0 := ha.nonneg
        have hB0 := (abs_nonneg _).trans hA
        simp only [List.sum_cons, List.length_cons, Nat.cast_add, Nat.cast_one] at hle hE ⊢
        have hS0 : 0 ≤ S := by linarith
        have hlen : (0 : ℝ) ≤ ts.length * (5e-15 * S + 1e-36) := by positivity
        have htS : t ≤ S := by linarith
        have hAc : |A + c| ≤ B + t := (abs_add_le _ _).trans (add_le_add hA h2)
        have n1 : Near (a + x) (A + c) (E + (5e-15 * S + 1e-36)) := by
          refine ha.add h3 (M := S) (by linarith) ?_ ?_
          · norm_num at hE hlen htS ⊢
            linarith
          · norm_num at hE hlen htS hS ⊢
            linarith
        have n2 := ih h4 hl' n1 hAc (by linarith) (by linarith)
        simp only [List.foldl_cons]
        exact (n2.congr (by ring)).mono (le_of_eq (by ring))

theorem foldl_comp (f : V3 (F64 L) → F64 L) (hf : ∀ v w : V3 (F64 L), f (v + w) = f v + f w) :
    ∀ (l : List (V3 (F64 L))) (a : V3 (F64 L)), f (l.foldl (· + ·) a) = (l.map f).foldl (· + ·) (f a)
  | [], _ => rfl
  | v :: l, a => by
    simp only [List.foldl_cons, List.map_cons]
    rw [foldl_comp f hf l, hf]

/-- The full thrust in vacuum in double precision. -/
theorem thrust_near (hL : AngleLibrary L) {V : Vehicle (F64 L)} {Es : List RealEngine}
    (h : List.Forall₂ MountedDouble V.engines Es) (hlen : Es.length ≤ 100) (hS : sumOfThrusts Es ≤ 1e11) :
    0 ≤ sumOfThrusts Es ∧
    NearV (V.thrustForce 1 0) (fullThrust Es 0) (6e-13 * sumOfThrusts Es + 1e-33) ∧
    (|(fullThrust Es 0).x| ≤ sumOfThrusts Es ∧ |(fullThrust Es 0).y| ≤ sumOfThrusts Es ∧
      |(fullThrust Es 0).z| ≤ sumOfThrusts Es) := by
  set S := sumOfThrusts Es with hSd
  have hlenR : (Es.length : ℝ) ≤ 100 := by exact_mod_cast hlen
  have hS0 : 0 ≤ S := by
    refine List.sum_nonneg fun c hc => ?_
    obtain ⟨E, hE, rfl⟩ := List.mem_map.1 hc
    obtain ⟨i, hi, rfl⟩ := List.getElem_of_mem hE
    have h2 := List.forall₂_iff_get.1 h
    exact (h2.2 i (by rw [h2.1]; exact hi) hi).thrust_nonneg
  refine ⟨hS0, ?_⟩
  have hlen' : (Es.length : ℝ) * (5e-15 * S + 1e-36) ≤ 100 * (5e-15 * S + 1e-36) := by gcongr
  have key : ∀ (f : V3 (F64 L) → F64 L) (g : V3 ℝ → ℝ), (∀ v w : V3 (F64 L), f (v + w) = f v + f w) →
      f V3.zero = 0 →
      (∀ {v : V3 (F64 L)} {w : V3 ℝ} {e : ℝ}, NearV v w e → Near (f v) (g w) e) →
      (∀ E : RealEngine, (∃ e : Engine (F64 L), MountedDouble e E) → |g (E.thrustAt 0)| ≤ E.thrust) →
      Near (1 * f (V3.sum (V.engines.map fun e => e.thrust 0))) ((Es.map fun E => g (E.thrustAt 0)).sum)
        (6e-13 * S + 1e-33) ∧ |(Es.map fun E => g (E.thrustAt 0)).sum| ≤ S := by
    intro f g hf hf0 hn hg
    have hz : List.zip (Es.map fun E => g (E.thrustAt 0)) (Es.map (·.thrust)) =
        Es.map fun E => (g (E.thrustAt 0), E.thrust) := by
      exact List.zip_map'
    have hsum : |(Es.map fun E => g (E.thrustAt 0)).sum| ≤ S := by
      rw [hSd]
      unfold sumOfThrusts
      clear hlen hS hSd hS0 hlenR hlen' hz
      generalize V.engines = es at h
      induction h with
      | nil => simp
      | cons h1 _ ih =>
        simp only [List.map_cons, List.sum_cons]
        exact (abs_add_le _ _).trans (add_le_add (hg _ ⟨_, h1⟩) ih)
    have h1 : Near (f (V3.sum (V.engines.map fun e => e.thrust 0))) ((Es.map fun E => g (E.thrustAt 0)).sum)
        (5.1e-13 * S + 1e-34) := by
      have h2 := foldl_close (L := L) (S := S) (hS.trans (by norm_num)) (l := V.engines.map fun e => f (e.thrust 0))
        (cs := Es.map fun E => g (E.thrustAt 0)) (ts := Es.map (·.thrust)) (by
          rw [hz, List.forall₂_map_left_iff, List.forall₂_map_right_iff]
          exact h.imp fun e E he => ⟨he.thrust_nonneg, hg E ⟨e, he⟩, hn (engine_thrust_near hL he).1⟩)
        (by simp) (a := 0) (A := 0) (B := 0) (E := 0) Near.zero (by simp) (by rw [zero_add]; rfl) (by
          simp only [List.length_map, zero_add]
          refine hlen'.trans ?_
          norm_num at hS ⊢
          linarith)
      have e1 : f (V3.sum (V.engines.map fun e => e.thrust 0)) =
          (V.engines.map fun e => f (e.thrust 0)).foldl (· + ·) 0 := by
        unfold V3.sum
        rw [foldl_comp f hf, hf0, List.map_map]
        rfl
      rw [e1]
      refine (h2.congr (by ring)).mono ?_
      simp only [List.length_map, zero_add]
      refine hlen'.trans ?_
      norm_num
      linarith
    refine ⟨(Near.one.mul h1 (A := 1) (B := S) (M := S) (e := 6e-13 * S + 1e-33) (by simp) hsum (by simpa using hsum) ?_
      ?_).congr (one_mul _), hsum⟩
    · norm_num
      linarith
    · norm_num at hS ⊢
      linarith
  unfold Vehicle.thrustForce V3.smul
  have hfull : fullThrust Es 0 = ⟨(Es.map fun E => (E.thrustAt 0).x).sum, (Es.map fun E => (E.thrustAt 0).y).sum,
      (Es.map fun E => (E.thrustAt 0).z).sum⟩ := by
    unfold fullThrust rsum
    simp only [List.map_map]
    rfl
  rw [hfull]
  obtain ⟨x1, x2⟩ := key (·.x) (·.x) (fun _ _ => rfl) rfl (fun h => h.x)
    fun E ⟨e, he⟩ => (engine_thrust_near hL he).2.1
  obtain ⟨y1, y2⟩ := key (·.y) (·.y) (fun _ _ => rfl) rfl (fun h => h.y)
    fun E ⟨e, he⟩ => (engine_thrust_near hL he).2.2.1
  obtain ⟨z1, z2⟩ := key (·.z) (·.z) (fun _ _ => rfl) rfl (fun h => h.z)
    fun E ⟨e, he⟩ => (engine_thrust_near hL he).2.2.2
  exact ⟨⟨x1, y1, z1⟩, x2, y2, z2⟩

/-- Engines that propel a vehicle have a thrust in double precision that the throttle can work with. -/
theorem propels_thrust (hL : AngleLibrary L) {V : Vehicle (F64 L)} {Es : List RealEngine}
    (h : List.Forall₂ MountedDouble V.engines Es) (hlen : Es.length ≤ 100) (hS : sumOfThrusts Es ≤ 1e11)
    (h1 : 1 ≤ rnorm (fullThrust Es 0)) (h2 : sumOfThrusts Es ≤ 1e6 * rnorm (fullThrust Es 0)) :
    ∃ T, ReadsV (V.thrustForce 1 0) T ∧ 1e-6 ≤ rnorm T ∧ rnorm T ≤ 1e12 := by
  obtain ⟨hS0, ⟨⟨qx, ix, ex⟩, ⟨qy, iy, ey⟩, ⟨qz, iz, ez⟩⟩, bx, bY, bz⟩ := thrust_near hL h hlen hS
  set S := sumOfThrusts Es
  set F := fullThrust Es 0 with hF
  set T : V3 ℝ := ⟨qx, qy, qz⟩ with hT
  have hdist : rdist T F ≤ 2 * (6e-13 * S + 1e-33) := by
    unfold rdist rnorm rsub
    rw [Real.sqrt_le_left (by positivity)]
    have sq : ∀ {z : ℝ}, |z| ≤ 6e-13 * S + 1e-33 → z ^ 2 ≤ (6e-13 * S + 1e-33) ^ 2 := fun h => by
      rw [← sq_abs]
      exact pow_le_pow_left₀ (abs_nonneg _) h 2
    have s1 := sq ex
    have s2 := sq ey
    have s3 := sq ez
    have : 0 ≤ (6e-13 * S + 1e-33) ^ 2 := sq_nonneg _
    rw [mul_pow]
    linarith
  have hup := rnorm_triangle T F
  have hlo := rnorm_triangle F T
  rw [rdist_comm] at hlo
  refine ⟨T, ⟨⟨qx, ix, rfl⟩, ⟨qy, iy, rfl⟩, ⟨qz, iz, rfl⟩⟩, ?_, ?_⟩
  · norm_num at hdist h2 ⊢
    linarith
  · have hFS : rnorm F ≤ 2 * S := by
      unfold rnorm
      rw [Real.sqrt_le_left (by positivity)]
      have s1 := pow_le_pow_left₀ (abs_nonneg _) bx 2
      have s2 := pow_le_pow_left₀ (abs_nonneg _) bY 2
      have s3 := pow_le_pow_left₀ (abs_nonneg _) bz 2
      rw [sq_abs] at s1 s2 s3
      rw [mul_pow]
      have : 0 ≤ S ^ 2 := sq_nonneg _
      linarith
    norm_num at hdist hS ⊢
    linarith

/-! ## coasting in vacuum with an acceleration limit -/

/-- Without engines and without atmosphere the equations of motion do not fail, with or without limit. -/
theorem coast_vacuum {p : Phase (F64 L)} (hE : p.vehicle.engines = []) (hv : p.atmosphere.model = .noAtmosphere)
    (ht : p.vehicle.TablesOk)
    (hA : p.maxAcceleration = Flt.inf ∨ ∃ A, Reads p.maxAcceleration A ∧ 1e-6 ≤ A ∧ A ≤ 1e10)
    (s : State (F64 L)) {m : ℝ} (hm : Reads s.mass m) (hm0 : 0 < m) :
    ∃ d, p.system s = .ok d ∧ d.throttle = 1 := by
  obtain ⟨aero, ha⟩ := Vehicle.aeroForce_ok ht (p.systemPre s)
  obtain ⟨zx, zy, zz⟩ := aeroForce_zero hv ha
  have h1 : (p.systemForces (p.systemPre s) aero).throttle = 1 := by
    show p.vehicle.autoThrottle p.maxAcceleration (p.systemPre s).mass (p.systemPre s).pressure
      aero = _
    unfold Vehicle.autoThrottle Vehicle.thrustForce
    rw [hE, List.map_nil]
    have h0 : V3.beq (V3.smul (1 : F64 L) (V3.sum [])) .zero = true := by
      show ((Dbl.eq (Dbl.mul (.round false _) (.round false _)) (.round false _) &&
        Dbl.eq (Dbl.mul (.round false _) (.round false _)) (.round false _)) &&
        Dbl.eq (Dbl.mul (.round false _) (.round false _)) (.round false _)) = true
      decide +kernel
    simp only [h0, if_true]
  have h2 : p.exceedsLimit (p.systemForces (p.systemPre s) aero) = false := by
    unfold Phase.exceedsLimit
    rw [h1, Bool.or_eq_false_iff]
    constructor
    · rcases hA with hA | ⟨A, ⟨qA, hqA, rfl⟩, hA1, hA2⟩
      · have h3 : p.maxAcceleration * 1.001 = (Flt.inf : F64 L) := by
          rw [hA]
          show (⟨Dbl.mul (.inf false) (.round false _)⟩ : F64 L) = ⟨.inf false⟩
          congr 1
          decide +kernel
        rw [h3]
        exact lt_inf _
      · obtain ⟨mq, hmq, rfl⟩ := hm
        have hmq0 : mq ≠ 0 := by
          rintro rfl
          simp at hm0
        have z0 : IsZero ((1 : F64 L) * 0) := (zero_isZero (L := L)).mul_left is_one
        have hth : p.vehicle.thrustForce (p.vehicle.autoThrottle p.maxAcceleration s.mass (p.systemPre s).pressure aero)
            (p.systemPre s).pressure = ⟨1 * 0, 1 * 0, 1 * 0⟩ := by
          have e : p.vehicle.autoThrottle p.maxAcceleration s.mass (p.systemPre s).pressure aero = 1 := h1
          rw [e]
          unfold Vehicle.thrustForce
          rw [hE]
          rfl
        have hacc : ZeroV (p.systemForces (p.systemPre s) aero).vehicleAccelerationBody := by
          show ZeroV ((aero + p.vehicle.thrustForce (p.vehicle.autoThrottle p.maxAcceleration s.mass
            (p.systemPre s).pressure aero) (p.systemPre s).pressure).divS s.mass)
          rw [hth]
          exact ⟨(zx.add z0).div hmq hmq0, (zy.add z0).div hmq hmq0, (zz.add z0).div hmq hmq0⟩
        have hn := norm_zero hacc
        have hlim : Near (p.maxAcceleration * 1.001) (qA * 1.001) (1e-15 * qA) := by
          have hA0 : (0 : ℝ) < qA := lt_of_lt_of_le (by norm_num) hA1
          have h3 : Near (1.001 : F64 L) 1.001 2e-16 :=
            Near.lit 1001 true 3 (by norm_num) (by rw [abs_of_pos] <;> norm_num) (by rw [abs_of_pos] <;> norm_num)
          refine (Near.of_is hqA).mul h3 (A := qA) (B := 1.001) (M := qA * 1.001) (abs_of_pos hA0).le
            (by rw [abs_of_pos]; norm_num) (by rw [abs_of_pos (by positivity)]) ?_ ?_
          · linarith
          · linarith
        obtain ⟨l, hl, hl'⟩ := hlim
        unfold Flt.gt
        rw [is_lt hl hn]
        simp only [decide_eq_false_iff_not, not_lt]
        have h7 := (abs_le.1 hl').1
        have : (0 : ℝ) ≤ l := by linarith
        exact_mod_cast this
    · unfold Flt.isNan
      rw [LawfulFlt.one_nonNan]; rfl
  refine ⟨p.systemAcceleration (p.systemForces (p.systemPre s) aero), ?_, h1⟩
  unfold Phase.system
  simp only [ha, bind, Except.bind, h2, Bool.false_eq_true, if_false]

end Post
