import Verif.Spec.Picture
import Verif.Props.Plot
import Verif.Props.Split
import Verif.Props.Real
import Verif.Props.Approach
import Mathlib.Data.List.Dedup
/-! # C80: the picture drawn by the plotting tool -/

namespace Post
open Spec Flt

/-! ## Labels, for any arithmetic -/

section
variable {F : Type} [Flt F]

theorem find_frame {data : List (List Char × List Plot.Line)} (hn : (data.map (·.1)).Nodup)
    {d : List Char × List Plot.Line} (hd : d ∈ data) {l : Plot.Line} {ls : List Plot.Line}
    (hl : d.2 = l :: ls) :
    (Plot.frame data).find? (fun r => decide (r.1 = d.1)) = some (d.1, l) := by
  induction data with
  | nil => simp at hd
  | cons e data ih =>
    rw [List.map_cons, List.nodup_cons] at hn
    have hf : Plot.frame (e :: data) = e.2.map (fun l => (e.1, l)) ++ Plot.frame data := rfl
    rw [hf, List.find?_append]
    rcases List.mem_cons.1 hd with rfl | hd
    · rw [hl]; simp
    · have hne : e.1 ≠ d.1 := by
        intro h
        exact hn.1 (h ▸ List.mem_map_of_mem hd)
      have : (e.2.map (fun l => (e.1, l))).find? (fun r => decide (r.1 = d.1)) = none := by
        rw [List.find?_eq_none]
        intro x hx
        obtain ⟨l, _, rfl⟩ := List.mem_map.1 hx
        simpa using hne
      rw [this, Option.none_or]
      exact ih hn.2 hd

/-- One label for every phase, at its first line. -/
theorem firsts_perm {data : List (List Char × List Plot.Line)} (hn : (data.map (·.1)).Nodup)
    (hne : ∀ d ∈ data, d.2 ≠ []) :
    (Plot.firsts (F := F) (Plot.frame data)).Perm
      (data.filterMap fun d => d.2.head?.map fun l => (d.1, Plot.km l.position)) := by
  have hkeys : ((Plot.frame data).map (·.1)).dedup.Perm (data.map (·.1)) := by
    refine (List.perm_ext_iff_of_nodup (List.nodup_dedup _) hn).2 fun a => ?_
    rw [List.mem_dedup, List.mem_map, List.mem_map]
    constructor
    · rintro ⟨r, hr, rfl⟩
      obtain ⟨d, hd, hr⟩ := List.mem_flatMap.1 hr
      obtain ⟨l, _, rfl⟩ := List.mem_map.1 hr
      exact ⟨d, hd, rfl⟩
    · rintro ⟨d, hd, rfl⟩
      obtain ⟨l, ls, hl⟩ := List.exists_cons_of_ne_nil (hne d hd)
      refine ⟨(d.1, l), List.mem_flatMap.2 ⟨d, hd, ?_⟩, rfl⟩
      rw [hl]; simp
  unfold Plot.firsts
  refine ((List.perm_insertionSort _ _).trans hkeys).filterMap _ |>.trans ?_
  rw [List.filterMap_map]
  refine List.Perm.of_eq (List.filterMap_congr fun d hd => ?_)
  obtain ⟨l, ls, hl⟩ := List.exists_cons_of_ne_nil (hne d hd)
  rw [Function.comp_apply, find_frame hn hd hl, hl]
  rfl

end

/-! ## Distances -/

theorem float_fin (n : Int) : (Plot.float n : XR) = .fin n := by
  unfold Plot.float
  have : ∀ k : ℕ, (Flt.ofSci k false 0 : XR) = .fin k := fun k => by
    show XR.fin (OfScientific.ofScientific k false 0) = _
    rw [XR.sci_nat]
  rw [this]
  split
  · next h =>
    rw [XR.fin_neg, XR.fin_inj]
    have : ((n.natAbs : ℤ) : ℝ) = ((-n : ℤ) : ℝ) := by
      exact_mod_cast congrArg (Int.cast (R := ℝ)) (Int.ofNat_natAbs_of_nonpos h.le)
    push_cast at this
    rw [Nat.cast_natAbs, ← neg_neg ((n : ℤ) : ℝ), ← this]
    push_cast; ring
  · next h =>
    rw [XR.fin_inj]
    have := congrArg (Int.cast (R := ℝ)) (Int.natAbs_of_nonneg (not_lt.1 h))
    rwa [Int.cast_natCast] at this

theorem km_fin (v : Int × Int × Int) :
    (Plot.km v : V3 XR) = V3.fin ⟨v.1 / 1000, v.2.1 / 1000, v.2.2 / 1000⟩ := by
  have h : (1e3 : XR) = .fin 1000 := by
    rw [XR.fin_sci]; norm_num
  unfold Plot.km
  simp only [float_fin, h, XR.fin_div _ _ (show (1000 : ℝ) ≠ 0 by norm_num)]
  rfl

theorem drawnAt_of_near {p : V3 XR} {v : Int × Int × Int} (hx : Near v.1 p.x) (hy : Near v.2.1 p.y)
    (hz : Near v.2.2 p.z) : DrawnAt p (Plot.km v) := by
  obtain ⟨x, hx, ex⟩ := hx
  obtain ⟨y, hy, ey⟩ := hy
  obtain ⟨z, hz, ez⟩ := hz
  refine ⟨⟨x, y, z⟩, _, V3.ext hx hy hz, km_fin v, ?_, ?_, ?_⟩
  all_goals
    simp only
    rw [mul_div_cancel₀ _ (by norm_num : (1000 : ℝ) ≠ 0)]
    assumption

theorem rnorm_near {a b : V3 ℝ} (hx : |b.x - a.x| ≤ 1 / 2) (hy : |b.y - a.y| ≤ 1 / 2)
    (hz : |b.z - a.z| ≤ 1 / 2) : |rnorm b - rnorm a| < 1 := by
  have hd : rnorm (rsub b a) < 1 := by
    unfold rnorm rsub
    rw [Real.sqrt_lt' one_pos]
    simp only
    have h1 := sq_le_sq' (abs_le.1 hx).1 (abs_le.1 hx).2
    have h2 := sq_le_sq' (abs_le.1 hy).1 (abs_le.1 hy).2
    have h3 := sq_le_sq' (abs_le.1 hz).1 (abs_le.1 hz).2
    linarith
  have h1 := rnorm_add_le a (rsub b a)
  have e1 : radd a (rsub b a) = b := by simp [radd, rsub]
  have h2 := rnorm_add_le b (rsub a b)
  have e2 : radd b (rsub a b) = a := by simp [radd, rsub]
  have e3 : rnorm (rsub a b) = rnorm (rsub b a) := by
    unfold rnorm rsub
    congr 1
    ring
  rw [e1] at h1
  rw [e2, e3] at h2
  rw [abs_lt]
  constructor <;> linarith

theorem colouredBy_of_near {p : V3 XR} {v : Int × Int × Int} (hx : Near v.1 p.x)
    (hy : Near v.2.1 p.y) (hz : Near v.2.2 p.z) :
    ColouredBy p (Flt.sqrt ((Plot.km v).x * (Plot.km v).x + (Plot.km v).y * (Plot.km v).y
      + (Plot.km v).z * (Plot.km v).z)) := by
  obtain ⟨x, hx, ex⟩ := hx
  obtain ⟨y, hy, ey⟩ := hy
  obtain ⟨z, hz, ez⟩ := hz
  have hn := rnorm_near (a := ⟨x, y, z⟩) (b := ⟨v.1, v.2.1, v.2.2⟩) ex ey ez
  refine ⟨⟨x, y, z⟩, rnorm ⟨v.1, v.2.1, v.2.2⟩ / 1000, V3.ext hx hy hz, ?_, ?_⟩
  · rw [km_fin]
    simp only [V3.fin, V3.map, XR.fin_mul, XR.fin_add]
    rw [XR.fin_sqrt _ (add_nonneg (add_nonneg (mul_self_nonneg _) (mul_self_nonneg _))
      (mul_self_nonneg _)), XR.fin_inj]
    unfold rnorm
    rw [show ((v.1 : ℝ) / 1000 * (v.1 / 1000) + v.2.1 / 1000 * (v.2.1 / 1000)
      + v.2.2 / 1000 * (v.2.2 / 1000)) = ((v.1 : ℝ) ^ 2 + v.2.1 ^ 2 + v.2.2 ^ 2) / 1000 ^ 2 by ring,
      Real.sqrt_div (by positivity), Real.sqrt_sq (by norm_num)]
  · rw [mul_div_cancel₀ _ (by norm_num : (1000 : ℝ) ≠ 0)]
    exact hn

theorem forall₂_flatMap {α β γ δ : Type} {R : α → β → Prop} {S : γ → δ → Prop} {f : α → List γ}
    {g : β → List δ} {as : List α} {bs : List β} (h : List.Forall₂ R as bs)
    (hRS : ∀ a b, a ∈ as → R a b → List.Forall₂ S (f a) (g b)) :
    List.Forall₂ S (as.flatMap f) (bs.flatMap g) := by
  induction h with
  | nil => exact .nil
  | @cons a b as bs h1 _ ih =>
    simp only [List.flatMap_cons]
    exact List.rel_append (hRS a b (by simp) h1) (ih fun a b ha => hRS a b (by simp [ha]))

/-- **C80** The picture.  If a simulation finishes, all numbers it prints are finite, its times are
not negative, and it prints at least two rows, the plotting tool draws a picture of its output:
a line through one point for each printed row, in the order of the rows and at most half a metre
off, coloured by the inertial speed in km/s, less than 1 m/s off; exactly one label for each phase,
its number, attached to the point of the first row of the phase; and the camera looks at the first
point, from twice its distance. -/
theorem C80_picture {fmt : XR → List Char} (hf : PrintsNearest fmt)
    {cs : List (PhaseConfig XR)} {log : List (LogEntry XR)} {s : State XR}
    (h : Simulation.Terminates cs ⟨log, .ok s⟩)
    (hr : ∀ r, LogEntry.row r ∈ log → FiniteRow r) {r1 r2 : Row XR} {rs : List (Row XR)}
    (h2 : rowsOf log = r1 :: r2 :: rs) :
    ∃ (phases : List (Nat × List (Row XR))) (pic : Plot.Picture XR),
      phases.map (·.1) = List.range' 1 cs.length ∧ log = phaseLog phases ∧
      Plot.render (Text.output fmt log) = some pic ∧
      List.Forall₂ (fun r q => DrawnAt r.positionPlanet q) (rowsOf log) pic.points ∧
      List.Forall₂ (fun r c => ColouredBy r.velocity c) (rowsOf log) pic.colours ∧
      (∃ labels, List.Forall₂ LabelOf phases labels ∧ pic.labels.Perm labels) ∧
      ∃ q, pic.points.head? = some q ∧ pic.camera = (V3.smul 2 q, q) := by
  have hne : cs ≠ [] := by
    rintro rfl
    obtain ⟨last, hseq, _⟩ := C53_terminates_ok_iff.1 h
    cases hseq
    cases h2
  obtain ⟨phases, data, e1, rfl, e3, e4, hrne⟩ := C63_plot_shows_simulation h hne
    fun r hr' => readable_of_finite hf (hr r hr')
  have hall : ∀ b ∈ phases, ∀ r ∈ b.2, FiniteRow r := fun b hb r hr' =>
    hr r (List.mem_flatMap.2 ⟨b, hb, by simp [hr']⟩)
  have hrows : rowsOf (phaseLog phases) = phases.flatMap (·.2) := by
    clear * -
    induction phases with
    | nil => rfl
    | cons b bs ih =>
      have : phaseLog (b :: bs) = .startingPhase b.1 :: (b.2.map .row ++ phaseLog bs) := rfl
      rw [this, rowsOf, rowsOf_append, ih, List.flatMap_cons]
      congr 1
      generalize b.2 = l
      induction l with
      | nil => rfl
      | cons r l ih => rw [List.map_cons, rowsOf, ih]
  have hmem : ∀ r ∈ rowsOf (phaseLog phases), FiniteRow r := by
    intro r hr'
    rw [hrows] at hr'
    obtain ⟨b, hb, hr'⟩ := List.mem_flatMap.1 hr'
    exact hall b hb r hr'
  have key := fun {x : XR} (hx : ∃ r : ℝ, x = .fin r) => (decimal_of_printsNearest hf hx).2
  have hpos : ∀ {r : Row XR} {l : Plot.Line}, FiniteRow r → PlotLine fmt r l →
      DrawnAt r.positionPlanet (Plot.km l.position) := by
    intro r l h1 h2
    rw [h2.position]
    exact drawnAt_of_near (key h1.px) (key h1.py) (key h1.pz)
  have hvel : ∀ {r : Row XR} {l : Plot.Line}, FiniteRow r → PlotLine fmt r l →
      ColouredBy r.velocity (Flt.sqrt ((Plot.km l.velocity).x * (Plot.km l.velocity).x +
        (Plot.km l.velocity).y * (Plot.km l.velocity).y
        + (Plot.km l.velocity).z * (Plot.km l.velocity).z)) := by
    intro r l h1 h2
    rw [h2.velocity]
    exact colouredBy_of_near (key h1.vx) (key h1.vy) (key h1.vz)
  have hframe : List.Forall₂ (fun r x => FiniteRow r ∧ PlotLine fmt r x.2)
      (rowsOf (phaseLog phases)) (Plot.frame data) := by
    rw [hrows]
    refine forall₂_flatMap e4 fun b d hb hbd => ?_
    rw [List.forall₂_map_right_iff]
    have := hall b hb
    have h5 := hbd.2
    revert this h5
    generalize b.2 = l1
    generalize d.2 = l2
    intro this h5
    induction h5 with
    | nil => exact .nil
    | cons h6 _ ih => exact .cons ⟨this _ (by simp), h6⟩ (ih fun r hr' => this r (by simp [hr']))
  have hlen : ∃ x1 x2 xs, Plot.frame data = x1 :: x2 :: xs := by
    rw [h2] at hframe
    generalize Plot.frame data = fr at hframe
    cases hframe with
    | cons _ h =>
      cases h with
      | cons _ _ => exact ⟨_, _, _, rfl⟩
  obtain ⟨x1, x2, xs, hx⟩ := hlen
  have hpic : Plot.render (F := XR) (Text.output fmt (phaseLog phases)) = some {
      points := (Plot.frame data).map fun r => Plot.km r.2.position
      colours := (Plot.frame data).map fun r =>
        let v : V3 XR := Plot.km r.2.velocity
        Flt.sqrt (v.x * v.x + v.y * v.y + v.z * v.z)
      labels := Plot.firsts (Plot.frame data)
      camera := (V3.smul 2 (Plot.km x1.2.position), Plot.km x1.2.position) } := by
    unfold Plot.render
    rw [e3]
    show Plot.picture data = _
    unfold Plot.picture
    simp only [hx]
  refine ⟨phases, _, e1, rfl, hpic, ?_, ?_, ?_, ?_⟩
  · rw [List.forall₂_map_right_iff]
    exact hframe.imp fun r x h => hpos h.1 h.2
  · rw [List.forall₂_map_right_iff]
    exact hframe.imp fun r x h => hvel h.1 h.2
  · have hnames : data.map (·.1) = phases.map (fun b => Nat.toDigits 10 b.1) := by
      clear * - e4
      unfold PlotOf at e4
      induction e4 with
      | nil => rfl
      | cons h _ ih => rw [List.map_cons, List.map_cons, h.1, ih]
    have hnodup : (data.map (·.1)).Nodup := by
      have h3 : (phases.map (·.1)).Nodup := by rw [e1]; exact List.nodup_range'
      have : phases.map (fun b => Nat.toDigits 10 b.1) = (phases.map (·.1)).map (Nat.toDigits 10) := by
        rw [List.map_map]; rfl
      rw [hnames, this]
      refine List.Nodup.map (fun a b hab => ?_) h3
      rw [← Nat.ofDigitChars_ten_toDigits (n := a), hab, Nat.ofDigitChars_ten_toDigits]
    have hdne : ∀ d ∈ data, d.2 ≠ [] := by
      clear * - e4 hrne
      unfold PlotOf at e4
      induction e4 with
      | nil => simp
      | @cons b d phases data hbd _ ih =>
        intro x hx
        rcases List.mem_cons.1 hx with rfl | hx
        · intro h3
          have h4 := hbd.2
          rw [h3] at h4
          refine hrne b (by simp) ?_
          cases h5 : b.2 with
          | nil => rfl
          | cons r l => rw [h5] at h4; cases h4
        · exact ih (fun b hb => hrne b (by simp [hb])) x hx
    refine ⟨_, ?_, firsts_perm hnodup hdne⟩
    clear * - e4 hall hrne hpos
    unfold PlotOf at e4
    induction e4 with
    | nil => exact .nil
    | @cons b d phases data hbd _ ih =>
      obtain ⟨r, rest, hb⟩ := List.exists_cons_of_ne_nil (hrne b (by simp))
      have hl := hbd.2
      have hfin := hall b (by simp)
      rw [hb] at hl hfin
      cases hd : d.2 with
      | nil => rw [hd] at hl; cases hl
      | cons l ls =>
        rw [hd] at hl
        have h1 : PlotLine fmt r l := by cases hl with | cons h _ => exact h
        rw [List.filterMap_cons, hd]
        refine .cons ⟨hbd.1, r, rest, hb, hpos (hfin r (by simp)) h1⟩
          (ih (fun b hb => hrne b (by simp [hb])) fun b hb => hall b (by simp [hb]))
  · exact ⟨Plot.km x1.2.position, by rw [hx]; rfl, rfl⟩

/-! ## Examples -/

theorem exampleThrow_real (e : StateVariable × XR) : RealConfig (exampleThrow e) where
  init := by rintro i ⟨⟩; exact ⟨isReal_fin _, isReal_fin _, isReal_fin _⟩
  vehicle := by
    rintro v ⟨⟩
    exact ⟨by rintro m ⟨⟩; exact isReal_fin _, by rintro m ⟨⟩; exact isReal_fin _, by rintro m ⟨⟩,
      by rintro m ⟨⟩, by rintro m ⟨⟩, by rintro m ⟨⟩, by rintro m ⟨⟩⟩
  steering := by rintro s ⟨⟩
  planet := by
    rintro s ⟨⟩
    exact ⟨10, 10, rfl, rfl, by norm_num, by norm_num,
      isReal_fin _, isReal_fin _, isReal_fin _, isReal_fin _, isReal_fin _⟩
  wind := by rintro a w ⟨⟩
  maxAcceleration := by rintro a ⟨⟩

/-- The throw of half a second: the first step of one second is discarded, then one of half a
second is made. -/
theorem exampleThrown_run : ∃ (q : Phase XR) (s0 s' : State XR),
    (exampleThrown (.timeSinceEvent, .fin (1 / 2))).run 2 = some ⟨[s0.row, s'.row], .ok q⟩ ∧
    s0.time = .fin 0 ∧ s'.time = .fin (1 / 2) ∧
    FliesRegularly (exampleThrown (.timeSinceEvent, .fin (1 / 2))) := by
  obtain ⟨hp, hp1, hp2, hmass⟩ := exampleThrown_start (.timeSinceEvent, .fin (1 / 2))
  have hst : (exampleThrown (.timeSinceEvent, .fin (1 / 2))).stepsize = .fin 1 := XR.fin_one
  have hcr : (exampleThrown (.timeSinceEvent, .fin (1 / 2))).endCriterion =
    (.timeSinceEvent, .fin (1 / 2)) := rfl
  have he : (exampleThrown (.timeSinceEvent, .fin (1 / 2))).ended = false := rfl
  have htr : (exampleThrown (.timeSinceEvent, .fin (1 / 2))).endCriterionTries = 0 := rfl
  have ht : (exampleThrown (.timeSinceEvent, .fin (1 / 2))).state.time = .fin 0 := XR.fin_zero
  have hte : (exampleThrown (.timeSinceEvent, .fin (1 / 2))).state.timeSinceEvent = .fin 0 :=
    XR.fin_zero
  have hv : SteersByRealVariables (exampleThrown (.timeSinceEvent, .fin (1 / 2))) :=
    fun _ => ⟨by decide, by decide, by decide⟩
  generalize exampleThrown (.timeSinceEvent, .fin (1 / 2)) = p at *
  obtain ⟨s0, hs0⟩ := system_coasting_ok hp.unlimited hp.engines hp.tables p.state
  have hpr := Phase.system_primary hs0
  rw [hp1, hp2, hmass, ht, hte] at hpr
  have hreg : ∀ h : ℝ, |h| ≤ 1 → StepRegular p s0 (.fin h) := by
    intro h hh
    refine C71_free_fall (m := 1) (ρ := 1) (r := ⟨10, 0, 0⟩) (v := ⟨0, 5, 0⟩) hp hpr.2.2.1 hpr.2.2.2.1
      hpr.2.2.2.2 one_pos ⟨⟨_, hpr.1⟩, ⟨_, hpr.2.1⟩⟩ le_rfl one_pos (by norm_num) ?_
    have e1 : rnorm ⟨10, 0, 0⟩ = 10 := by
      unfold rnorm
      rw [show ((10 : ℝ) ^ 2 + 0 ^ 2 + 0 ^ 2) = 10 ^ 2 by norm_num, Real.sqrt_sq (by norm_num)]
    have e2 : rnorm ⟨0, 5, 0⟩ = 5 := by
      unfold rnorm
      rw [show ((0 : ℝ) ^ 2 + 5 ^ 2 + 0 ^ 2) = 5 ^ 2 by norm_num, Real.sqrt_sq (by norm_num)]
    rw [e1, e2, zero_div, mul_zero, add_zero]
    linarith
  -- the first attempt
  let r0 : Phase XR := { p with state := s0 }
  obtain ⟨s1, hs1⟩ := coasting_step hp.engines hp.unlimited hp.tables s0 (.fin 1)
  have hte1 : s1.timeSinceEvent = .fin 1 := by
    rw [(oneStep_system hs1).2.2, hpr.2.1, XR.fin_add, zero_add]
  have hnm : ¬ Met p.endCriterion s1 := by
    rw [hcr, met_fin (v := .timeSinceEvent) (w := 1) hte1]; norm_num [abs_of_pos]
  have hov : Overshot p.endCriterion s0 s1 := by
    rw [hcr, overshot_fin (v := .timeSinceEvent) (a := 0) (b := 1) hpr.2.1 hte1]; norm_num
  have hgo : r0.timeToGo s0 s1 = .fin (1 / 2) := by
    rw [timeToGo_fin (p := r0) (v := .timeSinceEvent) (T := 1 / 2) (h := 1) (a := 0) (b := 1) hcr hst
      hpr.2.1 hte1 (by norm_num)]
    norm_num
  let r1 : Phase XR := { r0 with stepsize := .fin (1 / 2), endCriterionTries := 1 }
  have hstep1 : r0.step = .ok r1 := by
    rcases step_cases r0 he with ⟨r', hr⟩ | ⟨e, hr, hbad⟩
    · obtain ⟨_, s, hs, hcase⟩ := Phase.step_ok hr
      have : s = s1 := by
        have h : OneStep p (.fin 1) s0 s := by
          have : r0.stepsize = .fin 1 := hst
          rw [this] at hs; exact hs
        exact oneStep_det hs1 h
      subst this
      rcases hcase with ⟨h1, _⟩ | ⟨_, _, _, h4⟩ | ⟨_, h2, _⟩
      · exact absurd h1 hnm
      · have e1 : r0.timeToGo r0.state s = .fin (1 / 2) := hgo
        have e2 : r0.endCriterionTries = 0 := htr
        rw [e1, e2] at h4
        rw [hr, h4]
      · exact absurd hov h2
    · rcases hbad with hbad | hbad
      · have h1 : p.integrator.step p.system s0 (.fin 1) = .error e := by
          have : r0.stepsize = .fin 1 := hst
          rw [this] at hbad; exact hbad
        have h2 : p.integrator.step p.system s0 (.fin 1) = .ok s1 := hs1
        rw [h1] at h2; cases h2
      · have : r0.endCriterionTries = 0 := htr
        omega
  -- the second one
  obtain ⟨s2, hs2⟩ := coasting_step hp.engines hp.unlimited hp.tables s0 (.fin (1 / 2))
  have hte2 : s2.timeSinceEvent = .fin (1 / 2) := by
    rw [(oneStep_system hs2).2.2, hpr.2.1, XR.fin_add, zero_add]
  have ht2 : s2.time = .fin (1 / 2) := by
    rw [(oneStep_system hs2).2.1, hpr.1, XR.fin_add, zero_add]
  have hm : Met p.endCriterion s2 := by
    rw [hcr, met_fin (v := .timeSinceEvent) (w := 1 / 2) hte2]; norm_num
  let r2 : Phase XR := { r1 with ended := true, state := s2 }
  have hstep2 : r1.step = .ok r2 := by
    rcases step_cases r1 he with ⟨r', hr⟩ | ⟨e, hr, hbad⟩
    · obtain ⟨_, s, hs, hcase⟩ := Phase.step_ok hr
      have : s = s2 := oneStep_det hs2 hs
      subst this
      rcases hcase with ⟨_, h1⟩ | ⟨h1, _⟩ | ⟨h1, _⟩
      · rw [hr, h1]
      · exact absurd hm h1
      · exact absurd hm h1
    · rcases hbad with hbad | hbad
      · have h1 : p.integrator.step p.system s0 (.fin (1 / 2)) = .error e := hbad
        have h2 : p.integrator.step p.system s0 (.fin (1 / 2)) = .ok s2 := hs2
        rw [h1] at h2; cases h2
      · have : r1.endCriterionTries = 1 := rfl
        omega
  have hpath : Path r0 [r1, r2] r2 := .cons he hstep1 (.cons he hstep2 (.nil _))
  refine ⟨r2, s0, s2, ?_, hpr.1, ht2, hv, ?_, ?_⟩
  · have := Phase.loop_of_path hpath rfl (fuel := 2) (by simp)
    unfold Phase.run
    rw [hs0]
    exact this
  · refine ⟨10, 10, _, ⟨10, 0, 0⟩, by rw [hp.planet]; rfl, by rw [hp.planet]; rfl, hp1, ?_, hmass, by norm_num⟩
    rw [sub_self, abs_zero]
    unfold rnorm; positivity
  · intro s0' ps q h0 hq hend
    rw [hs0] at h0
    injection h0 with h0
    subst h0
    cases hq with
    | nil =>
      refine ⟨⟨1, hst⟩, ?_⟩
      show StepRegular _ s0 p.stepsize
      rw [hst]
      exact hreg 1 (by norm_num)
    | cons _ h1 hq =>
      have h3 : r0.step = .ok _ := h1
      rw [hstep1] at h3
      injection h3 with h3
      subst h3
      cases hq with
      | nil =>
        refine ⟨⟨1 / 2, rfl⟩, ?_⟩
        exact hreg (1 / 2) (by rw [abs_of_pos] <;> norm_num)
      | cons _ h1 hq =>
        rw [hstep2] at h1
        injection h1 with h1
        subst h1
        cases hq with
        | nil => cases hend
        | cons h => cases h

/-- The hypotheses of `C80_picture` are met: this simulation has a picture, with two points and one
label. -/
example : ∃ (fmt : XR → List Char) (log : List (LogEntry XR)) (s : State XR)
    (pic : Plot.Picture XR), PrintsNearest fmt ∧
    Simulation.Terminates [exampleThrow (.timeSinceEvent, .fin (1 / 2))] ⟨log, .ok s⟩ ∧
    Plot.render (Text.output fmt log) = some pic ∧ pic.points.length = 2 ∧
    pic.labels.map (·.1) = [['1']] := by
  obtain ⟨q, s0, s', hrun, ht0, ht1, hreg⟩ := exampleThrown_run
  obtain ⟨fmt, hf⟩ : ∃ fmt, PrintsNearest fmt := printsNearest_exists
  have hnew := exampleThrown_new (.timeSinceEvent, .fin (1 / 2))
  have ht : Simulation.Terminates [exampleThrow (.timeSinceEvent, .fin (1 / 2))]
      ⟨LogEntry.startingPhase 1 :: [.row s0.row, .row s'.row] ++ [], .ok q.state⟩ :=
    C53_terminates_ok_iff.2 ⟨some q, .cons ⟨_, hnew, 2, hrun⟩ (.nil _ _), rfl⟩
  obtain ⟨hrows, -⟩ := C71_simulation (by simpa using exampleThrow_real _) (fun done c rest p e hr => by
    cases done with
    | nil =>
      rw [List.nil_append, List.cons.injEq] at e
      rw [← e.1] at hr
      obtain ⟨last, prev, p', hseq, hn, rfl⟩ := hr
      cases hseq
      rw [hnew] at hn
      injection hn with hn
      subst hn
      exact hreg
    | cons a l => simp at e) ht
  have hfin : ∀ r, LogEntry.row r ∈ LogEntry.startingPhase 1 :: [.row s0.row, .row s'.row] ++ [] →
      FiniteRow r := by
    intro r hr
    obtain ⟨-, ⟨p1, p2, p3⟩, ⟨v1, v2, v3⟩, h4, h5⟩ := hrows r hr
    refine ⟨?_, p1, p2, p3, v1, v2, v3, h4, h5⟩
    simp only [List.append_nil, List.mem_cons, List.not_mem_nil, or_false, reduceCtorEq, false_or,
      LogEntry.row.injEq] at hr
    rcases hr with rfl | rfl
    · exact ⟨0, ht0, le_rfl⟩
    · exact ⟨1 / 2, ht1, by norm_num⟩
  obtain ⟨phases, pic, h1, h2, h3, h4, -, ⟨labels, h6, h7⟩, -⟩ := C80_picture hf ht hfin rfl
  refine ⟨fmt, _, _, pic, hf, ht, h3, h4.length_eq.symm, ?_⟩
  have hl : labels.map (·.1) = [['1']] := by
    have : labels.map (·.1) = (phases.map (·.1)).map (Nat.toDigits 10) := by
      clear * - h6
      induction h6 with
      | nil => rfl
      | cons h _ ih => rw [List.map_cons, List.map_cons, List.map_cons, h.1, ih]
    rw [this, h1]
    rfl
  have := h7.map (·.1)
  rw [hl] at this
  exact List.perm_singleton.1 this

/-- the labels in the picture of the output of a run, in metres -/
def Toy.labels (cs : List (PhaseConfig Fix)) : List (List Char × Int × Int × Int) :=
  match Simulation.run 10 cs with
  | some o => match Plot.render (F := Fix) (Text.output Toy.fmt o.log) with
    | some pic => pic.labels.map fun l => (l.1, l.2.x.milli, l.2.y.milli, l.2.z.milli)
    | none => []
  | none => []

/-- Two phases: the label of each is at the first row printed in it (see the example for C63). -/
example : Toy.labels [Toy.config1, Toy.config2] = [(['1'], 100, 0, 0), (['2'], 99, 0, 0)] := by
  decide +kernel

end Post
