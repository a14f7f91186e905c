import Verif.Spec.Rewrite
import Verif.Props.Plan
import Verif.Props.Table
import Verif.Props.Ascent
/-! # C82: how a configuration is written down does not matter -/

set_option linter.unusedSectionVars false

namespace Post
open Spec Flt

section
variable {F : Type} [Flt F]

theorem inForce_rel {β : Type} {f : PhaseConfig F → Option β} {R : β → β → Prop} {d d' : β}
    {cs cs' : List (PhaseConfig F)} (hd : R d d')
    (h : List.Forall₂ (fun c c' => Option.Rel R (f c) (f c')) cs cs') :
    R (inForce f d cs) (inForce f d' cs') := by
  induction h generalizing d d' with
  | nil => exact hd
  | cons h _ ih =>
    refine ih ?_
    revert h
    generalize f _ = a
    generalize f _ = b
    rintro (h | h)
    · exact h
    · exact hd

theorem inForce_map_eq {β γ : Type} {f : PhaseConfig F → Option β} {g : β → γ} {d : β}
    {cs cs' : List (PhaseConfig F)}
    (h : List.Forall₂ (fun c c' => (f c).map g = (f c').map g) cs cs') :
    g (inForce f d cs) = g (inForce f d cs') := by
  refine inForce_rel (R := fun a b => g a = g b) rfl (h.imp fun a b h => ?_)
  cases ha : f a <;> cases hb : f b <;> rw [ha, hb] at h
  · exact .none
  · cases h
  · cases h
  · injection h with h
    exact .some h

theorem inForce_eq {β : Type} {f : PhaseConfig F → Option β} {d : β}
    {cs cs' : List (PhaseConfig F)} (h : List.Forall₂ (fun c c' => f c = f c') cs cs') :
    inForce f d cs = inForce f d cs' :=
  inForce_map_eq (g := id) (h.imp fun _ _ h => by rw [h])

/-- C82.  Replacing each configuration of a file by one that gives the same parameters, each with
the same meaning, does not change the output or the outcome, in any arithmetic. -/
theorem C82_rewritten {cs cs' : List (PhaseConfig F)} (h : List.Forall₂ Rewritten cs cs')
    (o : SimOut F) : Simulation.Terminates cs o ↔ Simulation.Terminates cs' o := by
  have hmap : ∀ {β : Type} (f : PhaseConfig F → β), (∀ c c', Rewritten c c' → f c = f c') →
      cs.map f = cs'.map f := by
    intro β f hf
    induction h with
    | nil => rfl
    | cons h1 _ ih => rw [List.map_cons, List.map_cons, hf _ _ h1, ih]
  refine C81_same_plan ⟨h.length_eq, ?_, fun n => ?_, hmap _ fun _ _ h => h.propellantMass⟩
    (hmap _ fun _ _ h => by rw [h.structureMass]) o
  · cases h with
    | nil => rfl
    | cons h1 _ => exact h1.init
  · have hn := List.forall₂_take n h
    exact ⟨inForce_map_eq (hn.imp fun _ _ h => h.planet), inForce_eq (hn.imp fun _ _ h => h.atmosphere),
      inForce_eq (hn.imp fun _ _ h => h.wind), inForce_eq (hn.imp fun _ _ h => h.structureMass),
      inForce_eq (hn.imp fun _ _ h => h.referenceArea),
      inForce_rel (fun _ => rfl) (hn.imp fun _ _ h => h.drag),
      inForce_rel (fun _ => rfl) (hn.imp fun _ _ h => h.lift),
      inForce_rel (fun _ => rfl) (hn.imp fun _ _ h => h.sideForce),
      inForce_rel ⟨fun _ => rfl, rfl⟩ (hn.imp fun _ _ h => h.engines),
      inForce_eq (hn.imp fun _ _ h => h.maxAcceleration), inForce_eq (hn.imp fun _ _ h => h.roll),
      inForce_eq (hn.imp fun _ _ h => h.yaw), inForce_eq (hn.imp fun _ _ h => h.pitch),
      inForce_eq (hn.imp fun _ _ h => h.endCriterion)⟩

theorem rel_refl {β : Type} {R : β → β → Prop} (h : ∀ b, R b b) (x : Option β) : Option.Rel R x x := by
  cases x with
  | none => exact .none
  | some b => exact .some (h b)

theorem rewritten_withEngines {f : List (Engine F) → List (Engine F)} {c : PhaseConfig F}
    (h : ∀ es, vehicleParam (·.engines) c = some es → SameEngines es (f es)) :
    Rewritten c (withEngines f c) := by
  obtain ⟨i, v, s, pl, a, m, st, e⟩ := c
  cases v with
  | none =>
    exact ⟨rfl, rfl, rfl, rfl, rfl, rfl, rfl, .none, .none, .none, .none, rfl, rfl, rfl, rfl, rfl⟩
  | some v =>
    refine ⟨rfl, rfl, rfl, rfl, rfl, rfl, rfl, rel_refl (fun _ _ => rfl) _,
      rel_refl (fun _ _ => rfl) _, rel_refl (fun _ _ => rfl) _, ?_, rfl, rfl, rfl, rfl, rfl⟩
    show Option.Rel _ v.engines (v.engines.map f)
    cases he : v.engines with
    | none => exact .none
    | some es => exact .some (h es he)

theorem rewritten_withTables {f : Table F → Table F} {c : PhaseConfig F}
    (h : ∀ t ∈ tablesOf c, SameTable t (f t)) : Rewritten c (withTables f c) := by
  obtain ⟨i, v, s, pl, a, m, st, e⟩ := c
  cases v with
  | none =>
    exact ⟨rfl, rfl, rfl, rfl, rfl, rfl, rfl, .none, .none, .none, .none, rfl, rfl, rfl, rfl, rfl⟩
  | some v =>
    have key : ∀ x : Option (Table F), (∀ t, x = some t → SameTable t (f t)) →
        Option.Rel SameTable x (x.map f) := by
      intro x hx
      cases x with
      | none => exact .none
      | some t => exact .some (hx t rfl)
    refine ⟨rfl, rfl, rfl, rfl, rfl, rfl, rfl, key v.dragCoeff ?_, key v.liftCoeff ?_,
      key v.sideForceCoeff ?_, rel_refl (fun _ => ⟨fun _ => rfl, rfl⟩) _, rfl, rfl, rfl, rfl, rfl⟩
    all_goals
      intro t ht
      refine h t ?_
      simp [tablesOf, ht]

theorem forall₂_map {cs : List (PhaseConfig F)} {f : PhaseConfig F → PhaseConfig F}
    (h : ∀ c ∈ cs, Rewritten c (f c)) : List.Forall₂ Rewritten cs (cs.map f) := by
  induction cs with
  | nil => exact .nil
  | cons c cs ih => exact .cons (h c (by simp)) (ih fun c hc => h c (by simp [hc]))

/-- C82 (engines).  Replacing the engines of some phases by others with the same total thrust at
each pressure and the same mass flow changes nothing, in any arithmetic. -/
theorem C82_engines {cs : List (PhaseConfig F)} {f : List (Engine F) → List (Engine F)}
    (h : ∀ c ∈ cs, ∀ es, vehicleParam (·.engines) c = some es → SameEngines es (f es))
    (o : SimOut F) : Simulation.Terminates (cs.map (withEngines f)) o ↔ Simulation.Terminates cs o :=
  (C82_rewritten (forall₂_map fun c hc => rewritten_withEngines (h c hc)) o).symm

/-- C82 (tables).  Replacing the tables by others with the same values changes nothing, in any
arithmetic. -/
theorem C82_tables {cs : List (PhaseConfig F)} {f : Table F → Table F}
    (h : ∀ c ∈ cs, ∀ t ∈ tablesOf c, SameTable t (f t)) (o : SimOut F) :
    Simulation.Terminates (cs.map (withTables f)) o ↔ Simulation.Terminates cs o :=
  (C82_rewritten (forall₂_map fun c hc => rewritten_withTables (h c hc)) o).symm

/-- C82 (one row).  A table with a single row is the table of that row; its outer variable is never
used, in any arithmetic. -/
theorem C82_one_row (v w : StateVariable) (x : List F) (y row : List F) :
    SameTable (.d2 ⟨(v, x), (w, y), [row], .linear⟩) (.d1 ⟨(w, y), row, .linear⟩) := fun _ => rfl

/-- C82 (one plane). -/
theorem C82_one_plane (u v w : StateVariable) (x y z : List F) (plane : List (List F)) :
    SameTable (.d3 ⟨(u, x), (v, y), (w, z), [plane], .linear⟩)
      (.d2 ⟨(v, y), (w, z), plane, .linear⟩) := fun _ => rfl

/-- C82 (one point).  The variable and the argument of a table with a single value are never
used, in any arithmetic. -/
theorem C82_one_point (v w : StateVariable) (x x' y : F) :
    SameTable (.d1 ⟨(v, [x]), [y], .linear⟩) (.d1 ⟨(w, [x']), [y], .linear⟩) := fun _ => rfl

end

/-! ## Engines in exact arithmetic -/

namespace XR

theorem add_comm (a b : XR) : a + b = b + a := by
  cases a <;> cases b <;> first | rfl | (rw [fin_add, fin_add, _root_.add_comm])

theorem add_assoc (a b c : XR) : a + b + c = a + (b + c) := by
  cases a <;> cases b <;> cases c <;> first | rfl | (simp only [fin_add, _root_.add_assoc])

theorem zero_add (a : XR) : 0 + a = a := by
  rw [XR.fin_zero]
  cases a <;> first | rfl | (rw [fin_add, _root_.zero_add])

theorem add_zero (a : XR) : a + 0 = a := by rw [add_comm, zero_add]

theorem foldl_add (l : List XR) (a : XR) : l.foldl (· + ·) a = a + Flt.sum l := by
  unfold Flt.sum
  induction l generalizing a with
  | nil => exact (add_zero a).symm
  | cons b l ih =>
    rw [List.foldl_cons, List.foldl_cons, ih, ih (0 + b), zero_add, add_assoc]

theorem sum_cons (a : XR) (l : List XR) : Flt.sum (a :: l) = a + Flt.sum l := by
  show List.foldl _ (0 + a) l = _
  rw [foldl_add, zero_add]

theorem sum_append (l l' : List XR) : Flt.sum (l ++ l') = Flt.sum l + Flt.sum l' := by
  unfold Flt.sum
  rw [List.foldl_append, foldl_add]
  rfl

theorem sum_perm {l l' : List XR} (h : l.Perm l') : Flt.sum l = Flt.sum l' := by
  induction h with
  | nil => rfl
  | cons a _ ih => rw [sum_cons, sum_cons, ih]
  | swap a b l => rw [sum_cons, sum_cons, sum_cons, sum_cons, ← add_assoc, ← add_assoc, add_comm a]
  | trans _ _ ih1 ih2 => rw [ih1, ih2]

end XR

theorem V3.sum_eq {F : Type} [Flt F] (l : List (V3 F)) :
    V3.sum l = ⟨Flt.sum (l.map (·.x)), Flt.sum (l.map (·.y)), Flt.sum (l.map (·.z))⟩ := by
  have : ∀ (a : V3 F), l.foldl (· + ·) a = ⟨(l.map (·.x)).foldl (· + ·) a.x,
      (l.map (·.y)).foldl (· + ·) a.y, (l.map (·.z)).foldl (· + ·) a.z⟩ := by
    induction l with
    | nil => exact fun _ => rfl
    | cons b l ih => exact fun a => ih (a + b)
  exact this V3.zero

theorem sameEngines_perm {es es' : List (Engine XR)} (h : es.Perm es') : SameEngines es es' := by
  refine ⟨fun p => ?_, XR.sum_perm (h.map _)⟩
  unfold totalThrust
  rw [V3.sum_eq, V3.sum_eq]
  simp only [XR.sum_perm (((h.map (·.thrust p))).map _)]

/-- C82 (order of the engines, exact arithmetic).  The order in which engines are listed does not
matter. -/
theorem C82_engine_order {cs : List (PhaseConfig XR)} {f : List (Engine XR) → List (Engine XR)}
    (h : ∀ es, (f es).Perm es) (o : SimOut XR) :
    Simulation.Terminates (cs.map (withEngines f)) o ↔ Simulation.Terminates cs o :=
  C82_engines (fun _ _ es _ => sameEngines_perm (h es).symm) o

/-- `q` is the `n`-th part of `a`, or they are the same special value -/
def NthPart (n : ℕ) (q a : XR) : Prop :=
  (∃ r : ℝ, a = .fin r ∧ q = .fin (r / n)) ∨ (q = a ∧ ∀ r, q ≠ .fin r)

theorem nthPart_sum {n : ℕ} (hn : 0 < n) {q a : XR} (h : NthPart n q a) :
    Flt.sum (List.replicate n q) = a := by
  rcases h with ⟨r, rfl, rfl⟩ | ⟨rfl, h⟩
  · have : ∀ k : ℕ, Flt.sum (List.replicate k (XR.fin (r / n))) = .fin (k * (r / n)) := by
      intro k
      induction k with
      | zero => rw [Nat.cast_zero, zero_mul]; exact XR.fin_zero
      | succ k ih =>
        rw [List.replicate_succ, XR.sum_cons, ih, XR.fin_add]
        congr 1; push_cast; ring
    rw [this]
    have : (n : ℝ) ≠ 0 := by positivity
    congr 1; field_simp
  · have hqq : q + q = q := by
      cases q with
      | fin r => exact absurd rfl (h r)
      | _ => rfl
    obtain ⟨k, rfl⟩ : ∃ k, n = k + 1 := ⟨n - 1, by omega⟩
    induction k with
    | zero => rw [List.replicate_one, XR.sum_cons]; exact XR.add_zero _
    | succ k ih => rw [List.replicate_succ, XR.sum_cons, ih (by omega), hqq]

theorem NthPart.smul {n : ℕ} (c : ℝ) {q a : XR} (h : NthPart n q a) :
    NthPart n (.fin c * q) (.fin c * a) := by
  rcases h with ⟨r, rfl, rfl⟩ | ⟨rfl, h⟩
  · exact .inl ⟨c * r, XR.fin_mul _ _, by rw [XR.fin_mul]; congr 1; ring⟩
  · refine .inr ⟨rfl, ?_⟩
    cases q with
    | fin r => exact absurd rfl (h r)
    | nan => intro r hr; cases hr
    | pinf =>
      intro r (hr : XR.infMul c = _)
      unfold XR.infMul at hr
      split at hr
      · cases hr
      · split at hr <;> cases hr
    | ninf =>
      intro r (hr : XR.infMul (-c) = _)
      unfold XR.infMul at hr
      split at hr
      · cases hr
      · split at hr <;> cases hr

theorem infMul_share {n : ℕ} (hn : 0 < n) (r : ℝ) : XR.infMul (r / n) = XR.infMul r := by
  have h : (0 : ℝ) < n := by positivity
  unfold XR.infMul
  have h2 : r / n < 0 ↔ r < 0 := by rw [div_lt_iff₀ h, zero_mul]
  rw [if_congr (div_pos_iff_of_pos_right h) rfl rfl, if_congr h2 rfl rfl]

theorem infMul_cases (r : ℝ) : XR.infMul r = .pinf ∨ XR.infMul r = .ninf ∨ XR.infMul r = .nan := by
  unfold XR.infMul
  split
  · exact .inl rfl
  · split
    · exact .inr (.inl rfl)
    · exact .inr (.inr rfl)

theorem share_pressure {n : ℕ} (hn : 0 < n) (T A : ℝ) (p : XR) :
    NthPart n (.fin (T / n) - .fin (A / n) * p) (.fin T - .fin A * p) := by
  have key : ∀ w : XR, w = .pinf ∨ w = .ninf ∨ w = .nan →
      NthPart n (.fin (T / n) - w) (.fin T - w) := by
    rintro w (rfl | rfl | rfl)
    · exact .inr ⟨rfl, fun _ h => by cases h⟩
    · exact .inr ⟨rfl, fun _ h => by cases h⟩
    · exact .inr ⟨rfl, fun _ h => by cases h⟩
  cases p with
  | fin p =>
    refine .inl ⟨T - A * p, by rw [XR.fin_mul, XR.fin_sub], ?_⟩
    rw [XR.fin_mul, XR.fin_sub]
    congr 1; ring
  | nan => exact key .nan (.inr (.inr rfl))
  | pinf =>
    show NthPart n (_ - XR.infMul (A / n)) (_ - XR.infMul A)
    rw [infMul_share hn]
    exact key _ (infMul_cases _)
  | ninf =>
    show NthPart n (_ - XR.infMul (-(A / n))) (_ - XR.infMul (-A))
    rw [← neg_div, infMul_share hn]
    exact key _ (infMul_cases _)

/-- one of `n` equal engines that replace the engine -/
noncomputable def RealEngine.share (n : ℕ) (e : RealEngine) : RealEngine :=
  ⟨e.thrust / n, e.isp, e.area / n, e.yaw, e.pitch⟩

theorem share_flow {n : ℕ} (hn : 0 < n) (e : RealEngine) :
    NthPart n (RealEngine.share n e).toEngine.massflow e.toEngine.massflow := by
  show NthPart n (-XR.fin (e.thrust / n) / .fin e.isp / .fin 9.80665)
    (-XR.fin e.thrust / .fin e.isp / .fin 9.80665)
  rw [XR.fin_neg, XR.fin_neg]
  by_cases hi : e.isp = 0
  · rw [hi, XR.fin_div_zero, XR.fin_div_zero, ← neg_div, infMul_share hn]
    refine .inr ⟨rfl, ?_⟩
    rcases infMul_cases (-e.thrust) with h | h | h <;> rw [h] <;> intro r hr
    · change (if (9.80665 : ℝ) < 0 then XR.ninf else .pinf) = _ at hr
      split at hr <;> cases hr
    · change (if (9.80665 : ℝ) < 0 then XR.pinf else .ninf) = _ at hr
      split at hr <;> cases hr
    · cases hr
  · rw [XR.fin_div _ _ hi, XR.fin_div _ _ hi, XR.fin_div _ _ (by norm_num),
      XR.fin_div _ _ (by norm_num)]
    exact .inl ⟨_, rfl, by congr 1; ring⟩

theorem sameEngines_cluster {n : ℕ} (hn : 0 < n) (es : List RealEngine) :
    SameEngines (es.map (·.toEngine)) (clusters n (es.map (·.toEngine))) := by
  have h1 : (n : ℝ) ≠ 0 := by positivity
  have hcl : clusters n (es.map (·.toEngine)) =
      es.flatMap fun e => List.replicate n (RealEngine.share n e).toEngine := by
    unfold clusters
    rw [List.flatMap_map]
    congr 1
    funext e
    show List.replicate n (Engine.mk _ _ (XR.fin e.thrust / .fin n) _ (XR.fin e.area / .fin n)) = _
    rw [XR.fin_div _ _ h1, XR.fin_div _ _ h1]
    rfl
  have key : ∀ g : Engine XR → XR,
      (∀ e, NthPart n (g (RealEngine.share n e).toEngine) (g e.toEngine)) →
      Flt.sum ((es.map (·.toEngine)).map g) =
        Flt.sum ((es.flatMap fun e => List.replicate n (RealEngine.share n e).toEngine).map g) := by
    intro g hg
    induction es with
    | nil => rfl
    | cons e es ih =>
      rw [List.map_cons, List.map_cons, XR.sum_cons, List.flatMap_cons, List.map_append,
        XR.sum_append, List.map_replicate, nthPart_sum hn (hg e), ih]
      unfold clusters
      rw [List.flatMap_map]
      congr 1
      funext e
      show List.replicate n (Engine.mk _ _ (XR.fin e.thrust / .fin n) _ (XR.fin e.area / .fin n)) = _
      rw [XR.fin_div _ _ h1, XR.fin_div _ _ h1]
      rfl
  rw [hcl]
  refine ⟨fun p => ?_, key _ (share_flow hn)⟩
  unfold totalThrust
  rw [V3.sum_eq, V3.sum_eq, List.map_map (g := fun x : V3 XR => x.x),
    List.map_map (g := fun x : V3 XR => x.y), List.map_map (g := fun x : V3 XR => x.z),
    List.map_map (g := fun x : V3 XR => x.x), List.map_map (g := fun x : V3 XR => x.y),
    List.map_map (g := fun x : V3 XR => x.z)]
  have hp := fun e : RealEngine => share_pressure hn e.thrust e.area p
  rw [key ((fun v : V3 XR => v.x) ∘ fun e => e.thrust p) fun e =>
      (hp e).smul (Real.cos e.yaw * Real.cos e.pitch),
    key ((fun v : V3 XR => v.y) ∘ fun e => e.thrust p) fun e => (hp e).smul (Real.sin e.yaw),
    key ((fun v : V3 XR => v.z) ∘ fun e => e.thrust p) fun e =>
      (hp e).smul (Real.cos e.yaw * Real.sin e.pitch)]

/-- C82 (clusters, exact arithmetic).  An engine is as good as `n` equal ones, each with the `n`-th
part of its thrust and of its exit area. -/
theorem C82_clusters {n : ℕ} (hn : 0 < n) {cs : List (PhaseConfig XR)}
    (h : ∀ c ∈ cs, ∀ es, vehicleParam (·.engines) c = some es →
      ∃ rs : List RealEngine, es = rs.map (·.toEngine)) (o : SimOut XR) :
    Simulation.Terminates (cs.map (withEngines (clusters n))) o ↔ Simulation.Terminates cs o := by
  refine C82_engines (fun c hc es he => ?_) o
  obtain ⟨rs, rfl⟩ := h c hc es he
  exact sameEngines_cluster hn rs

/-! ## Tables in exact arithmetic -/

theorem partitionPoint_true {α : Type} {pred : α → Bool} {l : List α} (h : ∀ a ∈ l, pred a = true) :
    partitionPoint pred l = l.length := by
  have key : ∀ left right, left ≤ right → right ≤ l.length → binSearch pred l left right = right := by
    intro left right h1 h2
    fun_induction binSearch pred l left right with
    | case1 left right hlt mid hp ih => exact ih (by omega) h2
    | case2 left right hlt mid hp ih =>
      have hml : mid < l.length := by omega
      rw [List.getElem?_eq_getElem hml] at hp
      exact absurd (h _ (List.getElem_mem hml)) hp
    | case3 left right hlt => omega
  exact key 0 _ (by omega) le_rfl

theorem partitionPoint_false {α : Type} {pred : α → Bool} {l : List α}
    (h : ∀ a ∈ l, pred a = false) : partitionPoint pred l = 0 := by
  have key : ∀ left right, left ≤ right → right ≤ l.length → binSearch pred l left right = left := by
    intro left right h1 h2
    fun_induction binSearch pred l left right with
    | case1 left right hlt mid hp ih =>
      have hml : mid < l.length := by omega
      rw [List.getElem?_eq_getElem hml] at hp
      have := h _ (List.getElem_mem hml)
      simp [this] at hp
    | case2 left right hlt mid hp ih => exact ih (by omega) (by omega)
    | case3 left right hlt => omega
  exact key 0 _ (by omega) le_rfl

/-- looking up in the segment `i` -/
theorem linearInterpolate_segment {xs ys : List ℝ} {x : XR} {i : ℕ}
    (hlen : ys.length = xs.length) (hi : i + 1 < xs.length)
    (hg : getIdx (xs.map XR.fin) x = .ok (i, i + 1)) :
    linearInterpolate (xs.map XR.fin) x (ys.map XR.fin) =
      .ok (.fin (ys[i]'(by omega)) + (x - .fin xs[i]) * .fin (ys[i + 1]'(by omega) - ys[i]'(by omega)) /
        .fin (xs[i + 1] - xs[i])) := by
  unfold linearInterpolate
  rw [if_neg (by simp; rintro rfl; simp at hlen; omega), if_neg (by simp; omega), hg]
  simp only [bind, Except.bind]
  rw [idx_lt (by simp; omega), idx_lt (by simp; omega), idx_lt (by simp; omega),
    idx_lt (by simp; omega)]
  simp only [List.getElem_map, XR.fin_sub]

theorem infMul_div (r : ℝ) {d : ℝ} (hd : 0 < d) : XR.infMul r / .fin d = XR.infMul r := by
  rcases infMul_cases r with h | h | h <;> rw [h]
  · show (if d < 0 then XR.ninf else .pinf) = _
    rw [if_neg (by linarith)]
  · show (if d < 0 then XR.pinf else .ninf) = _
    rw [if_neg (by linarith)]
  · rfl

theorem fin_add_infMul (a r : ℝ) : XR.fin a + XR.infMul r = XR.infMul r := by
  rcases infMul_cases r with h | h | h <;> rw [h] <;> rfl

/-- At infinity a table has the sign of the slope of its last line. -/
theorem lookup_pinf {xs ys : List ℝ} (h : Asc xs) (hlen : ys.length = xs.length)
    (hl : 2 ≤ xs.length) {x : ℝ} (hx : ∀ a ∈ xs, a ≤ x) :
    linearInterpolate (xs.map XR.fin) .pinf (ys.map XR.fin) =
      .ok (XR.infMul (piecewise xs ys (x + 1) - piecewise xs ys x)) := by
  obtain ⟨n, hn⟩ : ∃ n, xs.length = n + 2 := ⟨xs.length - 2, by omega⟩
  have hg : getIdx (xs.map XR.fin) .pinf = .ok (n, n + 1) := by
    unfold getIdx
    rw [partitionPoint_true (by intro a ha; obtain ⟨b, _, rfl⟩ := List.mem_map.1 ha; rfl)]
    simp [hn, bind, Except.bind]
  have hd := asc_lt h (i := n) (j := n + 1) (by omega) (by omega) (by omega)
  have hgov : ∀ x', x ≤ x' → Governs xs n x' := fun x' hx' =>
    ⟨by omega, .inr ((hx _ (List.getElem_mem _)).trans hx'), .inl hn.symm⟩
  rw [linearInterpolate_segment hlen (by omega) hg, piecewise_governs h hlen (hgov x le_rfl),
    piecewise_governs h hlen (hgov (x + 1) (by linarith))]
  generalize hy0 : ys[n]'(by omega) = y0
  generalize hy1 : ys[n + 1]'(by omega) = y1
  generalize hx0 : xs[n]'(by omega) = x0 at *
  generalize hx1 : xs[n + 1]'(by omega) = x1 at *
  have e : line x0 x1 y0 y1 (x + 1) - line x0 x1 y0 y1 x = (y1 - y0) / (x1 - x0) := by
    unfold line; ring
  have e2 : XR.infMul ((y1 - y0) / (x1 - x0)) = XR.infMul (y1 - y0) := by
    have hp : 0 < x1 - x0 := by linarith
    have h2 : (y1 - y0) / (x1 - x0) < 0 ↔ y1 - y0 < 0 := by rw [div_lt_iff₀ hp, zero_mul]
    unfold XR.infMul
    rw [if_congr (div_pos_iff_of_pos_right hp) rfl rfl, if_congr h2 rfl rfl]
  rw [e, e2]
  show Except.ok (XR.fin y0 + XR.infMul (y1 - y0) / .fin (x1 - x0)) = _
  rw [infMul_div _ (by linarith), fin_add_infMul]

/-- And at minus infinity the opposite sign of the slope of its first line. -/
theorem lookup_ninf {xs ys : List ℝ} (h : Asc xs) (hlen : ys.length = xs.length)
    (hl : 2 ≤ xs.length) {x : ℝ} (hx : ∀ a ∈ xs, x + 1 ≤ a) :
    linearInterpolate (xs.map XR.fin) .ninf (ys.map XR.fin) =
      .ok (XR.infMul (-(piecewise xs ys (x + 1) - piecewise xs ys x))) := by
  have hg : getIdx (xs.map XR.fin) .ninf = .ok (0, 1) := by
    unfold getIdx
    rw [partitionPoint_false (by intro a ha; obtain ⟨b, _, rfl⟩ := List.mem_map.1 ha; rfl)]
    rw [if_neg (by rw [List.length_map]; omega)]
    rfl
  have hd := asc_lt h (i := 0) (j := 1) (by omega) (by omega) (by omega)
  have hgov : ∀ x', x' ≤ x + 1 → Governs xs 0 x' := fun x' hx' =>
    ⟨by omega, .inl rfl, .inr (hx'.trans (hx _ (List.getElem_mem _)))⟩
  rw [linearInterpolate_segment hlen (by omega) hg, piecewise_governs h hlen (hgov x (by linarith)),
    piecewise_governs h hlen (hgov (x + 1) le_rfl)]
  generalize hy0 : ys[0]'(by omega) = y0
  generalize hy1 : ys[0 + 1]'(by omega) = y1
  generalize hx0 : xs[0]'(by omega) = x0 at *
  generalize hx1 : xs[0 + 1]'(by omega) = x1 at *
  have e : -(line x0 x1 y0 y1 (x + 1) - line x0 x1 y0 y1 x) = (-(y1 - y0)) / (x1 - x0) := by
    unfold line; ring
  have hp : 0 < x1 - x0 := sub_pos.2 hd
  have e2 : XR.infMul ((-(y1 - y0)) / (x1 - x0)) = XR.infMul (-(y1 - y0)) := by
    have h2 : (-(y1 - y0)) / (x1 - x0) < 0 ↔ -(y1 - y0) < 0 := by rw [div_lt_iff₀ hp, zero_mul]
    unfold XR.infMul
    rw [if_congr (div_pos_iff_of_pos_right hp) rfl rfl, if_congr h2 rfl rfl]
  rw [e, e2]
  show Except.ok (XR.fin y0 + XR.infMul (-(y1 - y0)) / .fin (x1 - x0)) = _
  rw [infMul_div _ hp, fin_add_infMul]

theorem lookup_nan {xs ys : List ℝ} (hlen : ys.length = xs.length) (hl : 2 ≤ xs.length) :
    linearInterpolate (xs.map XR.fin) .nan (ys.map XR.fin) = .ok .nan := by
  have hg : getIdx (xs.map XR.fin) .nan = .ok (0, 1) := by
    unfold getIdx
    rw [partitionPoint_false (by intro a ha; obtain ⟨b, _, rfl⟩ := List.mem_map.1 ha; rfl)]
    rw [if_neg (by rw [List.length_map]; omega)]
    rfl
  rw [linearInterpolate_segment hlen (by omega) hg]
  rfl

theorem exists_upper (l : List ℝ) : ∃ x, ∀ a ∈ l, a ≤ x := by
  induction l with
  | nil => exact ⟨0, by simp⟩
  | cons b l ih =>
    obtain ⟨x, hx⟩ := ih
    refine ⟨max b x, ?_⟩
    intro a ha
    rcases List.mem_cons.1 ha with rfl | h
    · exact le_max_left _ _
    · exact (hx a h).trans (le_max_right _ _)

theorem exists_lower (l : List ℝ) : ∃ x, ∀ a ∈ l, x ≤ a := by
  induction l with
  | nil => exact ⟨0, by simp⟩
  | cons b l ih =>
    obtain ⟨x, hx⟩ := ih
    refine ⟨min b x, ?_⟩
    intro a ha
    rcases List.mem_cons.1 ha with rfl | h
    · exact min_le_left _ _
    · exact (min_le_right _ _).trans (hx a h)

/-- C82 (functions, exact arithmetic).  Two tables of the same variable that define the same
function of real numbers have the same value in every state, also where the variable is NaN or
infinite. -/
theorem C82_same_function {t t' : Table XR} (h : SameFunction t t') : SameTable t t' := by
  obtain ⟨v, xs, ys, xs', ys', rfl, rfl, h1, h1', h2, h2', h3, h3', hf⟩ := h
  intro s
  show linearInterpolate (xs.map .fin) (v.getValue s) (ys.map .fin) =
    linearInterpolate (xs'.map .fin) (v.getValue s) (ys'.map .fin)
  cases v.getValue s with
  | fin x =>
    rw [linearInterpolate_fin h1 (by rintro rfl; simp at h2; omega) h2,
      linearInterpolate_fin h1' (by rintro rfl; simp at h2'; omega) h2', hf]
  | nan => rw [lookup_nan h2 h3, lookup_nan h2' h3']
  | pinf =>
    obtain ⟨x, hx⟩ := exists_upper (xs ++ xs')
    rw [lookup_pinf h1 h2 h3 fun a ha => hx a (by simp [ha]),
      lookup_pinf h1' h2' h3' fun a ha => hx a (by simp [ha]), hf, hf]
  | ninf =>
    obtain ⟨x, hx⟩ := exists_lower (xs ++ xs')
    rw [lookup_ninf (x := x - 1) h1 h2 h3 fun a ha => by have := hx a (by simp [ha]); linarith,
      lookup_ninf (x := x - 1) h1' h2' h3' fun a ha => by have := hx a (by simp [ha]); linarith, hf, hf]

/-! ### A point on the line -/

theorem line_before {x x0 x1 : ℝ} (h0 : x < x0) (h1 : x0 < x1) (y0 y1 z : ℝ) :
    line x x0 (line x0 x1 y0 y1 x) y0 z = line x0 x1 y0 y1 z := by
  have : x0 - x ≠ 0 := by linarith
  have : x1 - x0 ≠ 0 := by linarith
  unfold line; field_simp; ring

theorem line_first {x x0 x1 : ℝ} (h0 : x0 < x) (h1 : x0 < x1) (y0 y1 z : ℝ) :
    line x0 x y0 (line x0 x1 y0 y1 x) z = line x0 x1 y0 y1 z := by
  have : x - x0 ≠ 0 := by linarith
  have : x1 - x0 ≠ 0 := by linarith
  unfold line; field_simp; ring

theorem line_second {x x0 x1 : ℝ} (h0 : x0 < x1) (h1 : x < x1) (y0 y1 z : ℝ) :
    line x x1 (line x0 x1 y0 y1 x) y1 z = line x0 x1 y0 y1 z := by
  have : x1 - x ≠ 0 := by linarith
  have : x1 - x0 ≠ 0 := by linarith
  unfold line; field_simp; ring

theorem line_after {x x0 x1 : ℝ} (h0 : x0 < x1) (h1 : x1 < x) (y0 y1 z : ℝ) :
    line x1 x y1 (line x0 x1 y0 y1 x) z = line x0 x1 y0 y1 z := by
  have : x - x1 ≠ 0 := by linarith
  have : x1 - x0 ≠ 0 := by linarith
  unfold line; field_simp; ring

/-- up to the second point the first line is used -/
theorem piecewise_first {x0 x1 : ℝ} {xs : List ℝ} {y0 y1 : ℝ} {ys : List ℝ} {z : ℝ} (hz : z ≤ x1) :
    piecewise (x0 :: x1 :: xs) (y0 :: y1 :: ys) z = line x0 x1 y0 y1 z := by
  cases xs with
  | nil => rfl
  | cons x2 xs => rw [piecewise, if_pos hz]

/-- from the second point on the rest is used -/
theorem piecewise_rest {x0 x1 x2 : ℝ} {xs : List ℝ} {y0 y1 : ℝ} {ys : List ℝ} {z : ℝ} (hz : x1 < z) :
    piecewise (x0 :: x1 :: x2 :: xs) (y0 :: y1 :: ys) z = piecewise (x1 :: x2 :: xs) (y1 :: ys) z := by
  rw [piecewise, if_neg (not_le.2 hz)]

theorem piecewise_insert {xs xs' ys ys' : List ℝ} {x : ℝ} (h : Asc (xs ++ x :: xs'))
    (h1 : ys.length = xs.length) (h2 : ys'.length = xs'.length) (h3 : 2 ≤ (xs ++ xs').length) (z : ℝ) :
    piecewise (xs ++ x :: xs') (ys ++ piecewise (xs ++ xs') (ys ++ ys') x :: ys') z =
      piecewise (xs ++ xs') (ys ++ ys') z := by
  induction xs generalizing ys with
  | nil =>
    obtain rfl : ys = [] := by simpa using h1
    match xs', ys', h2, h3 with
    | x0 :: x1 :: xs', y0 :: y1 :: ys', h2, h3 =>
      simp only [List.nil_append] at h ⊢
      have a0 : x < x0 := (List.isChain_cons_cons.1 h).1
      have a1 : x0 < x1 := (List.isChain_cons_cons.1 (List.isChain_cons_cons.1 h).2).1
      rw [piecewise_first (z := x) (by linarith)]
      by_cases hz : z ≤ x0
      · rw [piecewise_first hz, piecewise_first (by linarith), line_before a0 a1]
      · rw [piecewise_rest (by linarith)]
  | cons x0 xs ih =>
    match ys, h1 with
    | y0 :: ys, h1 =>
    have h1 : ys.length = xs.length := by simpa using h1
    have hrest : Asc (xs ++ x :: xs') := (List.isChain_cons.1 h).2
    cases xs with
    | nil =>
      obtain rfl : ys = [] := by simpa using h1
      match xs', ys', h2, h3 with
      | x1 :: xs', y1 :: ys', h2, h3 =>
        simp only [List.cons_append, List.nil_append] at h ⊢
        have a0 : x0 < x := (List.isChain_cons_cons.1 h).1
        have a1 : x < x1 := (List.isChain_cons_cons.1 (List.isChain_cons_cons.1 h).2).1
        rw [piecewise_first (z := x) (by linarith)]
        by_cases hz : z ≤ x
        · rw [piecewise_first hz, piecewise_first (by linarith), line_first a0 (by linarith)]
        · rw [piecewise_rest (by linarith)]
          by_cases hz1 : z ≤ x1
          · rw [piecewise_first hz1, piecewise_first hz1, line_second (by linarith) a1]
          · match xs', ys', h2 with
            | [], [], _ =>
              show line _ _ _ _ _ = line _ _ _ _ _
              rw [line_second (by linarith) a1]
            | x2 :: xs', y2 :: ys', _ =>
              rw [piecewise_rest (by linarith), piecewise_rest (by linarith)]
    | cons x1 xs =>
      match ys, h1 with
      | y1 :: ys, h1 =>
      have h1 : ys.length = xs.length := by simpa using h1
      have a0 : x0 < x1 := (List.isChain_cons_cons.1 h).1
      have a1 : x1 < x := by
        have := List.isChain_iff_pairwise.1 hrest
        rw [List.cons_append, List.pairwise_cons] at this
        exact this.1 x (by simp)
      by_cases hl : 2 ≤ (x1 :: xs ++ xs').length
      · have hi := ih (ys := y1 :: ys) hrest (by simpa using h1) hl
        -- the rest of the old table is not empty
        obtain ⟨x2, r, hr⟩ : ∃ x2 r, xs ++ xs' = x2 :: r := by
          cases hx : xs ++ xs' with
          | nil => rw [List.cons_append, hx] at hl; simp at hl
          | cons x2 r => exact ⟨x2, r, rfl⟩
        obtain ⟨x2', r', hr'⟩ : ∃ x2 r, xs ++ x :: xs' = x2 :: r := by
          cases xs with
          | nil => exact ⟨_, _, rfl⟩
          | cons a b => exact ⟨_, _, rfl⟩
        simp only [List.cons_append] at hi ⊢
        rw [hr] at hi ⊢
        rw [hr'] at hi ⊢
        rw [piecewise_rest (z := x) a1]
        by_cases hz : z ≤ x1
        · rw [piecewise_first hz, piecewise_first hz]
        · rw [piecewise_rest (by linarith), piecewise_rest (by linarith)]
          exact hi
      · have hx : xs = [] ∧ xs' = [] := by
          rw [List.cons_append, List.length_cons, List.length_append] at hl
          exact ⟨List.length_eq_zero_iff.1 (by omega), List.length_eq_zero_iff.1 (by omega)⟩
        obtain ⟨rfl, rfl⟩ := hx
        obtain rfl : ys = [] := by simpa using h1
        obtain rfl : ys' = [] := by simpa using h2
        simp only [List.cons_append, List.nil_append]
        show piecewise [x0, x1, x] [y0, y1, line x0 x1 y0 y1 x] z = line x0 x1 y0 y1 z
        by_cases hz : z ≤ x1
        · rw [piecewise_first hz]
        · rw [piecewise_rest (by linarith)]
          exact line_after a0 a1 _ _ _

/-- C82 (points on the line, exact arithmetic).  A point that lies on the table's line anyway can be
added or left out. -/
theorem C82_extra_point {t t' : Table XR} (h : ExtraPoint t t') : SameTable t t' := by
  obtain ⟨v, xs, xs', ys, ys', x, rfl, rfl, h1, h2, h3, h4⟩ := h
  refine C82_same_function ⟨v, _, _, _, _, rfl, rfl, ?_, h1, ?_, ?_, h4, ?_, fun z => ?_⟩
  · exact List.IsChain.sublist h1 (List.Sublist.append_left (List.sublist_cons_self _ _) _)
  · simp [h2, h3]
  · simp [h2, h3]
  · simp at h4 ⊢; omega
  · exact (piecewise_insert h1 h2 h3 h4 z).symm

/-! ## Examples -/

/-- The hypotheses of `C82_clusters` are met: three engines of a third of the thrust. -/
example (o : SimOut XR) : Simulation.Terminates [withEngines (clusters 3) exampleBurn] o ↔
    Simulation.Terminates [exampleBurn] o :=
  C82_clusters (cs := [exampleBurn]) (by norm_num) (by
    intro c hc es he
    obtain rfl := List.mem_singleton.1 hc
    have he : some [exampleEngine.toEngine] = some es := he
    exact ⟨[exampleEngine], (Option.some.inj he).symm⟩) o

/-- And those of `C82_engine_order`, with the engines listed backwards. -/
example (cs : List (PhaseConfig XR)) (o : SimOut XR) :
    Simulation.Terminates (cs.map (withEngines List.reverse)) o ↔ Simulation.Terminates cs o :=
  C82_engine_order List.reverse_perm o

/-- A point is added between 1 and 3 to the table with the values 5, 7, 6 at 0, 1, 3. -/
example : ExtraPoint (real1 .machNumber [0, 1, 3] [5, 7, 6])
    (real1 .machNumber [0, 1, 2, 3] [5, 7, 6.5, 6]) := by
  refine ⟨.machNumber, [0, 1], [3], [5, 7], [6], 2, rfl, ?_, by simp [List.isChain_cons_cons]; norm_num, rfl, rfl, by simp⟩
  have : piecewise ([0, 1] ++ [3]) ([5, 7] ++ [6]) 2 = 6.5 := by
    show piecewise [0, 1, 3] [5, 7, 6] 2 = 6.5
    rw [piecewise_rest (by norm_num), piecewise_first (by norm_num)]
    unfold line; norm_num
  rw [this]
  rfl

/-- The Earth of the preset, written out. -/
example : Rewritten { (PhaseConfig.empty : PhaseConfig Fix) with planetModel := some .spherical }
    { (PhaseConfig.empty : PhaseConfig Fix) with
      planetModel := some (.custom (Planet.ofConfig .spherical).equatorialRadius
        (Planet.ofConfig .spherical).polarRadius (Planet.ofConfig .spherical).grav
        (Planet.ofConfig .spherical).rotationRate) } :=
  ⟨rfl, rfl, rfl, rfl, rfl, rfl, rfl, .none, .none, .none, .none, rfl, rfl, rfl, rfl, rfl⟩

end Post
