import Verif.Lemmas.TrackF64
import Verif.Props.DoubleOrbit
import Verif.Props.DoubleAltitude
import Verif.Props.Frames
import Verif.Props.Print
/-! # C92: the position over ground in double precision -/

set_option exponentiation.threshold 2000

namespace Post
open Spec Flt F64
variable {L : Libm}

theorem turnZ_rotating (ω t : ℝ) (q : V3 ℝ) : rmulVec (turnZ (ω * t)) (rotating ω t q) = q := by
  rw [rotating_eq, (turnZ_isRotation _).mulVec_transpose_mulVec]

theorem rotating_turnZ (ω t : ℝ) (r : V3 ℝ) : rotating ω t (rmulVec (turnZ (ω * t)) r) = r := by
  rw [rotating_eq, (turnZ_isRotation _).transpose_mulVec_mulVec]

theorem rdist_rotate {R : M3 ℝ} (hR : R.IsRotation) (a b : V3 ℝ) : rdist (rmulVec R a) (rmulVec R b) = rdist a b := by
  unfold rdist
  rw [show rsub (rmulVec R a) (rmulVec R b) = rmulVec R (rsub a b) by
    simp only [rsub, rmulVec, rdot, V3.mk.injEq]
    refine ⟨?_, ?_, ?_⟩ <;> ring, hR.norm]

theorem rdist_triangle (a b c : V3 ℝ) : rdist a c ≤ rdist a b + rdist b c := by
  rw [← norm_e3_sub, ← norm_e3_sub, ← norm_e3_sub]
  exact norm_sub_le_norm_sub_add_norm_sub _ _ _

/-- the position over ground of a consistent state -/
theorem track_consistent (hF : FrameLibrary L) {p : Phase (F64 L)} {Q : Planet XR} (hP : SameEarth p.planet Q) {ω : ℝ}
    (hω : Q.rotationRate = .fin ω) {s : State (F64 L)} (hs : Consistent p s) {t : ℝ} (ht : Reads s.time t)
    (ht' : |t| ≤ 1e7) {r : V3 ℝ} (hr : ReadsV s.position r) (hr' : rnorm r ≤ 1e8) {q : V3 ℝ}
    (hq : rotating ω t q = r) : ∃ u, ReadsV s.positionPlanet u ∧ rdist u q ≤ 2e-4 := by
  rw [hs.positionPlanet]
  have h := positionPlanet_near hF hP hω ht ht' hr hr'
  rw [← hq, turnZ_rotating] at h
  exact h.readsV (by norm_num)

/-- C92 (position).  In every state visited by a phase near one of the three models of the Earth, at most 100000 km from
its centre and 10 million seconds from the beginning, the reported position relative to the Earth is a vector of numbers,
and it differs by at most 0.2 millimetres from the exact one: that of the point turning with the Earth that is at the
position of the state at the time of the state. -/
theorem C92_position (hF : FrameLibrary L) {p : Phase (F64 L)} {Q : Planet XR} (hP : SameEarth p.planet Q) {ω : ℝ}
    (hω : Q.rotationRate = .fin ω) {s : State (F64 L)} (hs : Visited p s) {t : ℝ} (ht : Reads s.time t)
    (ht' : |t| ≤ 1e7) {r : V3 ℝ} (hr : ReadsV s.position r) (hr' : rnorm r ≤ 1e8) {q : V3 ℝ}
    (hq : rotating ω t q = r) : ∃ u, ReadsV s.positionPlanet u ∧ rdist u q ≤ 2e-4 :=
  track_consistent hF hP hω (C57_visited_consistent hs) ht ht' hr hr' hq

/-- C92 (printed rows).  Each row printed by a run belongs to a state visited; the three integers printed for its position
differ by at most 0.5002 metres from the exact coordinates over ground of this state. -/
theorem C92_printed {fmt : F64 L → List Char} (hf : PrintsDouble fmt) (hF : FrameLibrary L) {p : Phase (F64 L)}
    {Q : Planet XR} (hP : SameEarth p.planet Q) {ω : ℝ} (hω : Q.rotationRate = .fin ω) {fuel : ℕ} {rows : List (Row (F64 L))}
    {res : Except Panic (Phase (F64 L))} (hrun : p.run fuel = some ⟨rows, res⟩) {row : Row (F64 L)} (hrow : row ∈ rows) :
    ∃ s, Visited p s ∧ row = s.row ∧ ∀ (t : ℝ) (r q : V3 ℝ), Reads s.time t → |t| ≤ 1e7 → ReadsV s.position r →
      rnorm r ≤ 1e8 → rotating ω t q = r → ∃ x y z : ℤ,
        (ShownAs (fmt row.positionPlanet.x) x ∧ |(x : ℝ) - q.x| ≤ 0.5002) ∧
        (ShownAs (fmt row.positionPlanet.y) y ∧ |(y : ℝ) - q.y| ≤ 0.5002) ∧
        (ShownAs (fmt row.positionPlanet.z) z ∧ |(z : ℝ) - q.z| ≤ 0.5002) := by
  obtain ⟨s, hs, rfl⟩ := (visited_of_run hrun).1 row hrow
  refine ⟨s, hs, rfl, fun t r q ht ht' hr hr' hq => ?_⟩
  obtain ⟨u, ⟨hx, hy, hz⟩, hu⟩ := C92_position hF hP hω hs ht ht' hr hr' hq
  obtain ⟨kx, ky, kz⟩ := comp_le_rnorm (rsub u q)
  have key : ∀ {x : F64 L} {ξ η : ℝ}, Reads x ξ → |ξ - η| ≤ rnorm (rsub u q) →
      ∃ n : ℤ, ShownAs (fmt x) n ∧ |(n : ℝ) - η| ≤ 0.5002 := by
    intro x ξ η h1 h2
    obtain ⟨n, h3, h4⟩ := C90_number hf h1
    refine ⟨n, h3, ?_⟩
    have h5 := abs_sub_le (n : ℝ) ξ η
    have h6 := h2.trans hu
    norm_num at *
    linarith
  obtain ⟨x, gx⟩ := key hx kx
  obtain ⟨y, gy⟩ := key hy ky
  obtain ⟨z, gz⟩ := key hz kz
  exact ⟨x, y, z, gx, gy, gz⟩

/-- C92 (orbits over ground).  A phase in double precision that coasts in vacuum, with the regular step of one second,
from a whole second `t0` to `n` seconds later: it prints `n` rows, one for each second, and the position over ground in
the row for second `t0 + k` is right to within the error of the orbit (see C84) and 0.2 millimetres: it is that of the point
of the turning Earth over which the true orbit is at this second. -/
theorem C92_orbit (hF : FrameLibrary L) (hL : GoodLibrary L) {p : Phase (F64 L)} (hp : CoastingDouble p) {Q : Planet XR}
    (hQ : SameEarth p.planet Q) {ω : ℝ} (hω : Q.rotationRate = .fin ω) {n : ℕ} (hn1 : 1 ≤ n) (hn : n ≤ 4800) {T : F64 L}
    (hc : p.endCriterion = (.timeSinceEvent, T)) (hT : Reads T n) (hst : Reads p.stepsize 1)
    (he : p.ended = false) {r v : ℝ → V3 ℝ}
    (hfall : ∀ t ∈ Set.Icc (0 : ℝ) n, FreeFall Q r v t)
    (hlo : ∀ t ∈ Set.Icc (0 : ℝ) n, 6.5e6 ≤ rnorm (r t))
    (hhi : ∀ t ∈ Set.Icc (0 : ℝ) n, rnorm (r t) ≤ 1.9e7)
    (hvV : ∀ t ∈ Set.Icc (0 : ℝ) n, rnorm (v t) ≤ 8000)
    {r0 v0 : V3 ℝ} {m er ev : ℝ} {t0 : ℕ} (ht0 : Reads p.state.time t0) (ht0' : t0 ≤ 9000000)
    (hs0 : ReadsAt p.state 0 r0 v0 m) (hm : m ≠ 0) (hd : p.state.mass.dbl.IsDouble)
    (hr0 : rdist r0 (r 0) ≤ er) (hv0 : rdist v0 (v 0) ≤ ev) (hsmall : er + 375 * ev ≤ 0.001) :
    ∃ (fuel : ℕ) (q : Phase (F64 L)) (rows : List (Row (F64 L))), p.run fuel = some ⟨rows, .ok q⟩ ∧ rows.length = n ∧
      ∀ k, ∀ row : Row (F64 L), rows[k]? = some row →
        Reads row.time ((t0 + (k + 1) : ℕ) : ℝ) ∧
        ∀ w, rotating ω ((t0 + (k + 1) : ℕ) : ℝ) w = r ((k + 1 : ℕ) : ℝ) →
          ∃ u, ReadsV row.positionPlanet u ∧
            rdist u w ≤ (er + 375 * ev) * Real.exp (((k + 1 : ℕ) : ℝ) / 375) +
              0.225 * (Real.exp (((k + 1 : ℕ) : ℝ) / 375) - 1) + 2e-4 := by
  obtain ⟨s, fuel, q, h1, _, hsys, hstep, h3⟩ := orbit_run hL hp hQ hn1 hn hc hT hst he hfall hlo hhi hvV ht0
    (by
      rw [abs_of_nonneg (Nat.cast_nonneg _)]
      have : (t0 : ℝ) ≤ 9000000 := by exact_mod_cast ht0'
      norm_num
      linarith) hs0 hm hd hr0 hv0 hsmall
  obtain ⟨q1, hq1, hq1'⟩ := hst
  obtain rfl : q1 = ((1 : ℕ) : ℚ) := by exact_mod_cast hq1'
  have htime : ∀ k ≤ n, ((s k).time).Is ((t0 + k : ℕ) : ℚ) := by
    intro k
    induction k with
    | zero =>
      intro _
      rw [(Phase.system_primary hsys).1]
      obtain ⟨q0, h1, h2⟩ := ht0
      obtain rfl : q0 = t0 := by exact_mod_cast h2
      exact h1
    | succ k ih =>
      intro hk
      rw [(oneStep_system (hstep k (by omega))).2.1]
      have := is_add_nat (ih (by omega)) hq1 (by omega)
      rwa [add_assoc] at this
  refine ⟨fuel, q, _, h1, by simp, ?_⟩
  intro k row hrow
  rw [List.getElem?_map] at hrow
  obtain ⟨k', hk', rfl⟩ := Option.map_eq_some_iff.1 hrow
  obtain ⟨hkn, rfl⟩ := List.getElem?_eq_some_iff.1 hk'
  rw [List.length_range] at hkn
  rw [List.getElem_range]
  have hread : Reads (s (k + 1)).time ((t0 + (k + 1) : ℕ) : ℝ) := ⟨_, htime (k + 1) (by omega), by norm_cast⟩
  refine ⟨hread, fun w hw => ?_⟩
  obtain ⟨r', v', f1, f2, _⟩ := h3 (k + 1) (by omega)
  obtain ⟨x, hx⟩ := (oneStep_system (hstep k hkn)).1
  have hin : ((k + 1 : ℕ) : ℝ) ∈ Set.Icc (0 : ℝ) n := ⟨by positivity, by exact_mod_cast hkn⟩
  have hbig : rnorm r' ≤ 1e8 := by
    have g1 := rnorm_triangle r' (r ((k + 1 : ℕ) : ℝ))
    have g2 := hhi _ hin
    have hx : ((k + 1 : ℕ) : ℝ) ≤ 4800 := by exact_mod_cast (by omega : k + 1 ≤ 4800)
    have g3 := exp_4800 hx
    have g4 := mul_le_mul_of_nonneg_right hsmall (Real.exp_pos (((k + 1 : ℕ) : ℝ) / 375)).le
    generalize ((k + 1 : ℕ) : ℝ) = K at g1 g2 g3 g4 f2
    norm_num at g2 g3 g4 f2 ⊢
    linarith
  set w' := rmulVec (turnZ (ω * ((t0 + (k + 1) : ℕ) : ℝ))) r' with hw'
  obtain ⟨u, hu, hu'⟩ := track_consistent hF hQ hω (system_consistent hx) hread (by
      rw [abs_of_nonneg (Nat.cast_nonneg _)]
      have : ((t0 + (k + 1) : ℕ) : ℝ) ≤ 9004800 := by exact_mod_cast (by omega)
      norm_num at this ⊢
      linarith) f1.position hbig (rotating_turnZ ω _ r')
  refine ⟨u, hu, ?_⟩
  have hd : rdist w' w = rdist r' (r ((k + 1 : ℕ) : ℝ)) := by
    have e : w = rmulVec (turnZ (ω * ((t0 + (k + 1) : ℕ) : ℝ))) (r ((k + 1 : ℕ) : ℝ)) := by rw [← hw, turnZ_rotating]
    rw [hw', e]
    exact rdist_rotate (turnZ_isRotation _) _ _
  have := rdist_triangle u w' w
  rw [hd] at this
  linarith

/-! ## A library with these properties, and an example -/

theorem fullLibm_frame : FrameLibrary fullLibm where
  sin := by
    rintro x q ⟨s, a, h1, rfl, _⟩ _
    have e : Flt.sin x = (⟨roundReal (Real.sin (Dbl.val s a : ℚ))⟩ : F64 fullLibm) := by
      show (⟨fullLibm.sin x.dbl⟩ : F64 fullLibm) = _
      rw [h1]
      rfl
    rw [e]
    obtain ⟨r, h2, h3⟩ := roundReal_is (L := fullLibm) ((Real.abs_sin_le_one (Dbl.val s a : ℚ)).trans (by norm_num))
    exact ⟨r, ⟨r, h2, rfl⟩, h3⟩
  cos := by
    rintro x q ⟨s, a, h1, rfl, _⟩ _
    have e : Flt.cos x = (⟨roundReal (Real.cos (Dbl.val s a : ℚ))⟩ : F64 fullLibm) := by
      show (⟨fullLibm.cos x.dbl⟩ : F64 fullLibm) = _
      rw [h1]
      rfl
    rw [e]
    obtain ⟨r, h2, h3⟩ := roundReal_is (L := fullLibm) ((Real.abs_cos_le_one (Dbl.val s a : ℚ)).trans (by norm_num))
    exact ⟨r, ⟨r, h2, rfl⟩, h3⟩
  rot := by
    intro m R hR hm
    have key : ∀ {x : F64 fullLibm} {ξ : ℝ}, WithinOf x ξ 1e-14 → |ξ| ≤ 1 → ∃ s a, x.dbl = .fin s a ∧ 0 ≤ a ∧ a ≤ 2 := by
      rintro x ξ ⟨_, ⟨_, ⟨s, a, h1, rfl, h2⟩, rfl⟩, h3⟩ h4
      refine ⟨s, a, h1, h2, ?_⟩
      have h5 := abs_sub_abs_le_abs_sub (((Dbl.val s a : ℚ) : ℝ)) ξ
      rw [show |((Dbl.val s a : ℚ) : ℝ)| = (a : ℝ) by
        rw [← Rat.cast_abs, Dbl.val_abs s h2]] at h5
      have h6 : (a : ℝ) ≤ 2 := by
        norm_num at h3
        linarith
      exact_mod_cast h6
    obtain ⟨⟨a, b, c⟩, ⟨d, e, f⟩, g, h, i⟩ := abs_entries hR
    have hid : Flt.rotFromMatrix m = m := by
      show (goodLibm.rotFromMatrix (m.map F64.dbl)).map (F64.mk (L := fullLibm)) = m
      unfold goodLibm
      simp only
      rw [if_pos]
      · rfl
      · intro x hx
        simp only [M3.map, V3.map, List.mem_cons, List.not_mem_nil, or_false] at hx
        rcases hx with rfl | rfl | rfl | rfl | rfl | rfl | rfl | rfl | rfl
        · exact key hm.xx a
        · exact key hm.xy b
        · exact key hm.xz c
        · exact key hm.yx d
        · exact key hm.yy e
        · exact key hm.yz f
        · exact key hm.zx g
        · exact key hm.zy h
        · exact key hm.zz i
    rw [hid]
    have mono : ∀ {x : F64 fullLibm} {ξ : ℝ}, WithinOf x ξ 1e-14 → WithinOf x ξ 1e-13 := by
      rintro x ξ ⟨r, h1, h2⟩
      exact ⟨r, h1, h2.trans (by norm_num)⟩
    exact ⟨mono hm.xx, mono hm.xy, mono hm.xz, mono hm.yx, mono hm.yy, mono hm.yz, mono hm.zx, mono hm.zy, mono hm.zz⟩

/-- A satellite over the equator, a quarter of an hour after the beginning. -/
noncomputable def exampleTrack : Phase (F64 fullLibm) :=
  { Phase.default with
    planet := EARTH_SMITHSONIAN
    state := { State.default with time := 900, position := ⟨7000000, 0, 0⟩, mass := 1000 } }

/-- The Earth has turned under it by 900 times the rotation rate. -/
example : ∃ s, Visited exampleTrack s ∧ ∃ u, ReadsV s.positionPlanet u ∧
    rdist u ⟨7000000 * Real.cos (7.29211e-5 * 900), -(7000000 * Real.sin (7.29211e-5 * 900)), 0⟩ ≤ 2e-4 := by
  obtain ⟨s, hs⟩ := coasting_system (p := exampleTrack) rfl rfl ⟨wellFormed_default, wellFormed_default, wellFormed_default⟩
    exampleTrack.state
  have hvis : Visited exampleTrack s := ⟨s, [], _, hs, .nil _, .inl rfl⟩
  have hz : Reads (0 : F64 fullLibm) 0 := reads_zero
  have hpr := Phase.system_primary hs
  have hread : ReadsV s.position ⟨7000000, 0, 0⟩ := by
    rw [hpr.2.2.1]
    have h9 : Reads (7000000 : F64 fullLibm) 7000000 := by simpa using reads_nat (L := fullLibm) 7000000 (by norm_num)
    exact ⟨h9, hz, hz⟩
  have htime : Reads s.time 900 := by
    rw [hpr.1]
    have h9 : Reads (900 : F64 fullLibm) 900 := by simpa using reads_nat (L := fullLibm) 900 (by norm_num)
    exact h9
  have hn : rnorm ⟨7000000, 0, 0⟩ = 7000000 := by
    unfold rnorm
    rw [show (7000000 : ℝ) ^ 2 + 0 ^ 2 + 0 ^ 2 = 7000000 ^ 2 by ring, Real.sqrt_sq (by norm_num)]
  have f3 : (EARTH_SMITHSONIAN : Planet XR).rotationRate = .fin 7.29211e-5 := by
    show (7.29211e-5 : XR) = _
    rw [XR.fin_sci]
  refine ⟨s, hvis, C92_position fullLibm_frame (.inr (.inr ⟨rfl, rfl⟩)) f3 hvis htime (by norm_num [abs_of_pos]) hread
    (by rw [hn]; norm_num) ?_⟩
  unfold rotating
  have h := Real.sin_sq_add_cos_sq (7.29211e-5 * 900)
  generalize Real.sin (7.29211e-5 * 900) = S at *
  generalize Real.cos (7.29211e-5 * 900) = C at *
  simp only [V3.mk.injEq]
  refine ⟨by linear_combination 7000000 * h, by ring, trivial⟩

end Post
