import Verif.Lemmas.Interp
import Verif.Props.Json
/-! # Properties of table evaluation (C19-C21) -/

set_option linter.unusedSectionVars false

namespace Post
open Spec

/-! ## C19: evaluation never goes out of bounds -/

/-- C19.  Evaluating any table of any accepted file at any state, in any arithmetic (so also if
the state or the table holds NaN or infinities), returns a number and never panics. -/
theorem C19_lookup_never_panics {F : Type} [Flt F] {file : File F} {cs : List (PhaseConfig F)}
    (h : Simulation.fromFile file = some cs) {c : PhaseConfig F} (hc : c ∈ cs) {t : Table F}
    (ht : t ∈ tablesOf c) (s : State F) : ∃ v, t.atState s = .ok v :=
  Table.atState_ok (C01_accepted_tables_wellFormed h hc ht) s

/-- C19 for the default tables and in general: being well formed is enough. -/
theorem C19_wellFormed_never_panics {F : Type} [Flt F] {t : Table F} (h : WellFormed t)
    (s : State F) : ∃ v, t.atState s = .ok v := Table.atState_ok h s

/-- Without the length check a lookup does panic: the hypothesis is needed. -/
example (s : State Fix) : (Table.d1 ⟨(.time, []), [1, 2], .linear⟩ : Table Fix).atState s =
    .error .underflow := by
  show linearInterpolate [] _ [1, 2] = _
  simp [linearInterpolate, getIdx, partitionPoint, binSearch, bind, Except.bind]

/-! ## C20: 1D tables interpolate linearly -/

theorem ascending_fin {xs : List ℝ} : Ascending (xs.map XR.fin) ↔ Asc xs := by
  unfold Ascending Asc
  rw [List.isChain_iff_getElem]
  simp [XR.fin_lt]

/-- The 1D table with the given variable, arguments and data. -/
def Spec.real1 (v : StateVariable) (xs ys : List ℝ) : Table XR :=
  .d1 ⟨(v, xs.map .fin), ys.map .fin, .linear⟩

section one
variable {v : StateVariable} {xs ys : List ℝ} {s : State XR} {x : ℝ}

/-- C20 (value).  A well-formed non-empty 1D table evaluates to the piecewise linear
interpolation of its data. -/
theorem C20_value (h : WellFormed (real1 v xs ys)) (hne : ys ≠ [])
    (hx : v.getValue s = .fin x) :
    (real1 v xs ys).atState s = .ok (.fin (piecewise xs ys x)) := by
  show linearInterpolate _ _ _ = _
  obtain ⟨h1, h2⟩ := h
  simp only [hx]
  exact linearInterpolate_fin (ascending_fin.1 h1) hne (by simpa using h2) x

/-- C20 (points).  At each argument the table has the given data value. -/
theorem C20_at_points (h : WellFormed (real1 v xs ys)) {i : Nat} (hi : i < xs.length)
    (hx : v.getValue s = .fin xs[i]) :
    ∃ hi' : i < ys.length, (real1 v xs ys).atState s = .ok (.fin ys[i]) := by
  have hlen : ys.length = xs.length := by simpa using h.2
  refine ⟨by omega, ?_⟩
  rw [C20_value h (by rintro rfl; simp at hlen; omega) hx,
    piecewise_at (ascending_fin.1 h.1) hlen hi]

theorem C20_governs (h : WellFormed (real1 v xs ys)) {i : Nat} (hg : Governs xs i x)
    (hx : v.getValue s = .fin x) (hi' : i + 1 < ys.length) :
    (real1 v xs ys).atState s =
      .ok (.fin (line (xs[i]'(by have := hg.1; omega)) (xs[i + 1]'hg.1) ys[i] ys[i + 1] x)) := by
  have hlen : ys.length = xs.length := by simpa using h.2
  rw [C20_value h (by rintro rfl; simp at hi') hx,
    piecewise_governs (ascending_fin.1 h.1) hlen hg]

/-- C20 (between).  Between two neighbouring arguments the table is the straight line. -/
theorem C20_between (h : WellFormed (real1 v xs ys)) {i : Nat} (hi : i + 1 < xs.length)
    (hi' : i + 1 < ys.length) (h0 : xs[i] ≤ x) (h1 : x ≤ xs[i + 1])
    (hx : v.getValue s = .fin x) :
    (real1 v xs ys).atState s = .ok (.fin (line xs[i] xs[i + 1] ys[i] ys[i + 1] x)) :=
  C20_governs h ⟨hi, .inr h0, .inr h1⟩ hx hi'

/-- C20 (below).  Below the first argument the first line is continued. -/
theorem C20_below (h : WellFormed (real1 v xs ys)) (hl : 1 < xs.length) (hl' : 1 < ys.length)
    (h0 : x ≤ xs[0]) (hx : v.getValue s = .fin x) :
    (real1 v xs ys).atState s = .ok (.fin (line xs[0] xs[1] ys[0] ys[1] x)) :=
  C20_governs h (i := 0) ⟨hl, .inl rfl,
    .inr (h0.trans (asc_lt (ascending_fin.1 h.1) (by omega) hl (by omega)).le)⟩ hx hl'

/-- C20 (above).  Above the last argument the last line is continued. -/
theorem C20_above (h : WellFormed (real1 v xs ys)) {n : Nat} (hn : xs.length = n + 2)
    (hn' : ys.length = n + 2) (h0 : xs[n + 1] ≤ x) (hx : v.getValue s = .fin x) :
    (real1 v xs ys).atState s = .ok (.fin (line xs[n] xs[n + 1] ys[n] ys[n + 1] x)) :=
  C20_governs h (i := n) ⟨by omega,
    .inr ((asc_lt (ascending_fin.1 h.1) (by omega) (by omega) (by omega)).le.trans h0),
    .inl hn.symm⟩ hx (by omega)

/-- C20 (range).  Inside the range of the arguments the value lies between the smallest and the
largest data value. -/
theorem C20_range (h : WellFormed (real1 v xs ys)) (hne : ys ≠ []) {lo hi : ℝ}
    (hy : ∀ y ∈ ys, lo ≤ y ∧ y ≤ hi) (h0 : ∀ a, xs.head? = some a → a ≤ x)
    (h1 : ∀ a, xs.getLast? = some a → x ≤ a) (hx : v.getValue s = .fin x) :
    ∃ r : ℝ, (real1 v xs ys).atState s = .ok (.fin r) ∧ lo ≤ r ∧ r ≤ hi := by
  have hlen : ys.length = xs.length := by simpa using h.2
  refine ⟨_, C20_value h hne hx, piecewise_between (ascending_fin.1 h.1) hlen ?_ h0 h1 hy⟩
  rintro rfl; simp at hlen; exact hne hlen

/-- C20 (segment range).  Between two neighbouring arguments the value lies between their data
values. -/
theorem C20_segment_range (h : WellFormed (real1 v xs ys)) {i : Nat} (hi : i + 1 < xs.length)
    (hi' : i + 1 < ys.length) (h0 : xs[i] ≤ x) (h1 : x ≤ xs[i + 1])
    (hx : v.getValue s = .fin x) :
    ∃ r : ℝ, (real1 v xs ys).atState s = .ok (.fin r) ∧
      min ys[i] ys[i + 1] ≤ r ∧ r ≤ max ys[i] ys[i + 1] :=
  ⟨_, C20_between h hi hi' h0 h1 hx,
    line_between (asc_lt (ascending_fin.1 h.1) (by omega) hi (by omega)) h0 h1
      ⟨min_le_left _ _, le_max_left _ _⟩ ⟨min_le_right _ _, le_max_right _ _⟩⟩

end one

/-- C20 (continuity).  The value of a non-empty 1D table is a continuous function of its
variable on the whole real line. -/
theorem C20_continuous {v : StateVariable} {xs ys : List ℝ} (h : WellFormed (real1 v xs ys))
    (hne : ys ≠ []) : ∃ f : ℝ → ℝ, Continuous f ∧ ∀ (s : State XR) (x : ℝ),
      v.getValue s = .fin x → (real1 v xs ys).atState s = .ok (.fin (f x)) := by
  refine ⟨piecewise xs ys, ?_, fun s x hx => C20_value h hne hx⟩
  have := piecewise_continuous (T := Unit) (ascending_fin.1 h.1) (ys.map fun y _ => y)
    (by intro g hg; obtain ⟨y, _, rfl⟩ := List.mem_map.1 hg; exact continuous_const)
  simp only [List.map_map, Function.comp_def, List.map_id'] at this
  exact this.comp (f := fun x : ℝ => (x, ())) (by fun_prop)

/-- C20 (single entry).  A table with a single entry is constant, even where its variable is
NaN, in any arithmetic. -/
theorem C20_single {F : Type} [Flt F] (v : StateVariable) (x0 y0 : F) (s : State F) :
    (Table.d1 ⟨(v, [x0]), [y0], .linear⟩ : Table F).atState s = .ok y0 := rfl

/-- C20 (no entry).  A table without entries is NaN everywhere, in any arithmetic. -/
theorem C20_empty {F : Type} [Flt F] (v : StateVariable) (s : State F) :
    (Table.d1 ⟨(v, []), [], .linear⟩ : Table F).atState s = .ok Flt.nan := rfl

/-- A well-formed table with three entries, as used in the theorems above. -/
theorem Spec.table1_example : WellFormed (real1 .machNumber [0, 1, 3] [5, 7, 6]) :=
  ⟨ascending_fin.2 (by simp [Asc]), rfl⟩

example (s : State XR) (hs : s.machNumber = .fin 2) :
    (real1 .machNumber [0, 1, 3] [5, 7, 6]).atState s = .ok (.fin 6.5) := by
  rw [C20_between (x := 2) table1_example (i := 1) (by simp) (by simp) (by simp) (by norm_num) hs]
  norm_num [line]

/-! ## C21: 2D and 3D tables interpolate multilinearly -/

/-- The 2D table with the given variables, arguments and data. -/
def Spec.real2 (v w : StateVariable) (xs ys : List ℝ) (data : List (List ℝ)) : Table XR :=
  .d2 ⟨(v, xs.map .fin), (w, ys.map .fin), data.map (·.map .fin), .linear⟩

/-- The 3D table with the given variables, arguments and data. -/
def Spec.real3 (u v w : StateVariable) (xs ys zs : List ℝ) (data : List (List (List ℝ))) :
    Table XR :=
  .d3 ⟨(u, xs.map .fin), (v, ys.map .fin), (w, zs.map .fin),
    data.map (·.map (·.map .fin)), .linear⟩

theorem real2_wf {v w : StateVariable} {xs ys : List ℝ} {data : List (List ℝ)}
    (h : WellFormed (real2 v w xs ys data)) :
    Asc xs ∧ data.length = xs.length ∧ ∀ r ∈ data, Asc ys ∧ r.length = ys.length := by
  obtain ⟨⟨h1, h2⟩, h3⟩ := h
  refine ⟨ascending_fin.1 h1, by simpa using h2, fun r hr => ?_⟩
  have := h3 _ (List.mem_map.2 ⟨r, hr, rfl⟩)
  exact ⟨ascending_fin.1 this.1, by simpa using this.2⟩

theorem real3_wf {u v w : StateVariable} {xs ys zs : List ℝ} {data : List (List (List ℝ))}
    (h : WellFormed (real3 u v w xs ys zs data)) :
    Asc xs ∧ data.length = xs.length ∧ ∀ p ∈ data, (Asc ys ∧ p.length = ys.length) ∧
      ∀ r ∈ p, Asc zs ∧ r.length = zs.length := by
  obtain ⟨⟨h1, h2⟩, h3⟩ := h
  refine ⟨ascending_fin.1 h1, by simpa using h2, fun p hp => ?_⟩
  obtain ⟨⟨h4, h5⟩, h6⟩ := h3 _ (List.mem_map.2 ⟨p, hp, rfl⟩)
  refine ⟨⟨ascending_fin.1 h4, by simpa using h5⟩, fun r hr => ?_⟩
  have := h6 _ (List.mem_map.2 ⟨r, hr, rfl⟩)
  exact ⟨ascending_fin.1 this.1, by simpa using this.2⟩

theorem asc_of_mem {α : Type} {data : List α} {ys : List ℝ} {P : α → Prop} (hne : data ≠ [])
    (h : ∀ r ∈ data, Asc ys ∧ P r) : Asc ys := by
  cases data with
  | nil => exact absurd rfl hne
  | cons r _ => exact (h r (by simp)).1

section two
variable {v w : StateVariable} {xs ys : List ℝ} {data : List (List ℝ)} {s : State XR} {x y : ℝ}

/-- C21 (2D value).  A well-formed 2D table without empty rows evaluates to the interpolation in
`y` within each row, then in `x`. -/
theorem C21_value2 (h : WellFormed (real2 v w xs ys data)) (hne : data ≠ [])
    (hrow : ∀ r ∈ data, r ≠ []) (hx : v.getValue s = .fin x) (hy : w.getValue s = .fin y) :
    (real2 v w xs ys data).atState s = .ok (.fin (grid2 xs ys data x y)) := by
  obtain ⟨h1, h2, h3⟩ := real2_wf h
  show bilinearInterpolate _ _ _ _ _ = _
  simp only [hx, hy]
  exact bilinearInterpolate_fin h1 (asc_of_mem hne h3) hne h2
    (fun r hr => ⟨hrow r hr, (h3 r hr).2⟩) x y

/-- C21 (2D cell).  In the cell between two neighbouring arguments in each direction the table
is the bilinear interpolant of the four corner values. -/
theorem C21_cell2 (h : WellFormed (real2 v w xs ys data)) {i j : Nat}
    (hi : i + 1 < xs.length) (hj : j + 1 < ys.length) (hx0 : xs[i] ≤ x) (hx1 : x ≤ xs[i + 1])
    (hy0 : ys[j] ≤ y) (hy1 : y ≤ ys[j + 1]) {d00 d01 d10 d11 : ℝ} {r0 r1 : List ℝ}
    (hr0 : data[i]? = some r0) (hr1 : data[i + 1]? = some r1)
    (h00 : r0[j]? = some d00) (h01 : r0[j + 1]? = some d01)
    (h10 : r1[j]? = some d10) (h11 : r1[j + 1]? = some d11)
    (hx : v.getValue s = .fin x) (hy : w.getValue s = .fin y) :
    (real2 v w xs ys data).atState s = .ok (.fin
      ((d00 * (xs[i + 1] - x) * (ys[j + 1] - y) + d10 * (x - xs[i]) * (ys[j + 1] - y)
        + d01 * (xs[i + 1] - x) * (y - ys[j]) + d11 * (x - xs[i]) * (y - ys[j]))
        / ((xs[i + 1] - xs[i]) * (ys[j + 1] - ys[j])))) := by
  obtain ⟨h1, h2, h3⟩ := real2_wf h
  obtain ⟨hi0, rfl⟩ := List.getElem?_eq_some_iff.1 hr0
  obtain ⟨hi1, rfl⟩ := List.getElem?_eq_some_iff.1 hr1
  obtain ⟨_, rfl⟩ := List.getElem?_eq_some_iff.1 h00
  obtain ⟨_, rfl⟩ := List.getElem?_eq_some_iff.1 h01
  obtain ⟨_, rfl⟩ := List.getElem?_eq_some_iff.1 h10
  obtain ⟨_, rfl⟩ := List.getElem?_eq_some_iff.1 h11
  have hne : data ≠ [] := by rintro rfl; simp at hi0
  have hys := asc_of_mem hne h3
  rw [C21_value2 h hne (fun r hr => by
    intro h0; have := (h3 r hr).2; rw [h0] at this; simp at this; omega) hx hy]
  unfold grid2
  rw [piecewise_governs h1 (by simpa using h2) (i := i) ⟨hi, .inr hx0, .inr hx1⟩]
  simp only [List.getElem_map]
  rw [piecewise_governs hys (h3 _ (List.getElem_mem _)).2 (i := j) ⟨hj, .inr hy0, .inr hy1⟩,
    piecewise_governs hys (h3 _ (List.getElem_mem _)).2 (i := j) ⟨hj, .inr hy0, .inr hy1⟩]
  have hdx : xs[i + 1] - xs[i] ≠ 0 := by
    have := asc_lt h1 (i := i) (j := i + 1) (by omega) (by omega) (by omega); linarith
  have hdy : ys[j + 1] - ys[j] ≠ 0 := by
    have := asc_lt hys (i := j) (j := j + 1) (by omega) (by omega) (by omega); linarith
  simp only [line, Except.ok.injEq, XR.fin_inj]
  field_simp
  ring

/-- C21 (2D points).  At each grid point the table has the given data value. -/
theorem C21_at_points2 (h : WellFormed (real2 v w xs ys data)) {i j : Nat}
    (hi : i < xs.length) (hj : j < ys.length) {r : List ℝ} {d : ℝ} (hr : data[i]? = some r)
    (hd : r[j]? = some d) (hx : v.getValue s = .fin xs[i]) (hy : w.getValue s = .fin ys[j]) :
    (real2 v w xs ys data).atState s = .ok (.fin d) := by
  obtain ⟨h1, h2, h3⟩ := real2_wf h
  obtain ⟨hi0, rfl⟩ := List.getElem?_eq_some_iff.1 hr
  obtain ⟨_, rfl⟩ := List.getElem?_eq_some_iff.1 hd
  have hne : data ≠ [] := by rintro rfl; simp at hi0
  rw [C21_value2 h hne (fun r hr => by
    intro h0; have := (h3 r hr).2; rw [h0] at this; simp at this; omega) hx hy]
  unfold grid2
  rw [piecewise_at h1 (by simpa using h2) hi]
  simp only [List.getElem_map]
  rw [piecewise_at (asc_of_mem hne h3) (h3 _ (List.getElem_mem _)).2 hj]

theorem grid2_between (h1 : Asc xs) (h2 : data.length = xs.length) (hne : data ≠ [])
    (hys : Asc ys) (h3 : ∀ r ∈ data, r ≠ [] ∧ r.length = ys.length) {lo hi : ℝ}
    (hd : ∀ r ∈ data, ∀ d ∈ r, lo ≤ d ∧ d ≤ hi)
    (hx0 : ∀ a, xs.head? = some a → a ≤ x) (hx1 : ∀ a, xs.getLast? = some a → x ≤ a)
    (hy0 : ∀ a, ys.head? = some a → a ≤ y) (hy1 : ∀ a, ys.getLast? = some a → y ≤ a) :
    lo ≤ grid2 xs ys data x y ∧ grid2 xs ys data x y ≤ hi := by
  refine piecewise_between h1 (by simpa using h2) ?_ hx0 hx1 ?_
  · rintro rfl; simp at h2; exact hne h2
  · intro d hd'
    obtain ⟨r, hr, rfl⟩ := List.mem_map.1 hd'
    refine piecewise_between hys (h3 r hr).2 ?_ hy0 hy1 (hd r hr)
    rintro rfl
    exact (h3 r hr).1 (by simpa using (h3 r hr).2)

/-- C21 (2D range).  Inside the grid the value lies between bounds of the data. -/
theorem C21_range2 (h : WellFormed (real2 v w xs ys data)) (hne : data ≠ [])
    (hrow : ∀ r ∈ data, r ≠ []) {lo hi : ℝ} (hd : ∀ r ∈ data, ∀ d ∈ r, lo ≤ d ∧ d ≤ hi)
    (hx0 : ∀ a, xs.head? = some a → a ≤ x) (hx1 : ∀ a, xs.getLast? = some a → x ≤ a)
    (hy0 : ∀ a, ys.head? = some a → a ≤ y) (hy1 : ∀ a, ys.getLast? = some a → y ≤ a)
    (hx : v.getValue s = .fin x) (hy : w.getValue s = .fin y) :
    ∃ r : ℝ, (real2 v w xs ys data).atState s = .ok (.fin r) ∧ lo ≤ r ∧ r ≤ hi := by
  obtain ⟨h1, h2, h3⟩ := real2_wf h
  exact ⟨_, C21_value2 h hne hrow hx hy, grid2_between h1 h2 hne (asc_of_mem hne h3)
    (fun r hr => ⟨hrow r hr, (h3 r hr).2⟩) hd hx0 hx1 hy0 hy1⟩

end two

theorem grid2_continuous {xs ys : List ℝ} {data : List (List ℝ)} (h1 : Asc xs) (h2 : Asc ys) :
    Continuous fun p : ℝ × ℝ => grid2 xs ys data p.1 p.2 := by
  have := piecewise_continuous (T := ℝ) h1 (data.map fun r y => piecewise ys r y) (by
    intro g hg
    obtain ⟨r, _, rfl⟩ := List.mem_map.1 hg
    have := piecewise_continuous (T := Unit) h2 (r.map fun y _ => y)
      (by intro g hg; obtain ⟨y, _, rfl⟩ := List.mem_map.1 hg; exact continuous_const)
    simp only [List.map_map, Function.comp_def, List.map_id'] at this
    exact this.comp (f := fun x : ℝ => (x, ())) (by fun_prop))
  simpa only [List.map_map, Function.comp_def, grid2] using this

/-- C21 (2D continuity).  The value of a 2D table without empty rows is a continuous function of
its two variables on the whole plane. -/
theorem C21_continuous2 {v w : StateVariable} {xs ys : List ℝ} {data : List (List ℝ)}
    (h : WellFormed (real2 v w xs ys data)) (hne : data ≠ []) (hrow : ∀ r ∈ data, r ≠ []) :
    ∃ f : ℝ × ℝ → ℝ, Continuous f ∧ ∀ (s : State XR) (x y : ℝ), v.getValue s = .fin x →
      w.getValue s = .fin y → (real2 v w xs ys data).atState s = .ok (.fin (f (x, y))) := by
  obtain ⟨h1, h2, h3⟩ := real2_wf h
  exact ⟨fun p => grid2 xs ys data p.1 p.2, grid2_continuous h1 (asc_of_mem hne h3),
    fun s x y hx hy => C21_value2 h hne hrow hx hy⟩

section three
variable {u v w : StateVariable} {xs ys zs : List ℝ} {data : List (List (List ℝ))}
  {s : State XR} {x y z : ℝ}

/-- C21 (3D value).  A well-formed 3D table without empty planes or rows evaluates to the
interpolation in `z`, then in `y`, then in `x`. -/
theorem C21_value3 (h : WellFormed (real3 u v w xs ys zs data)) (hne : data ≠ [])
    (hrow : ∀ p ∈ data, p ≠ [] ∧ ∀ r ∈ p, r ≠ []) (hx : u.getValue s = .fin x)
    (hy : v.getValue s = .fin y) (hz : w.getValue s = .fin z) :
    (real3 u v w xs ys zs data).atState s = .ok (.fin (grid3 xs ys zs data x y z)) := by
  obtain ⟨h1, h2, h3⟩ := real3_wf h
  show trilinearInterpolate _ _ _ _ _ _ _ = _
  simp only [hx, hy, hz]
  have hys : Asc ys := by
    cases data with
    | nil => exact absurd rfl hne
    | cons p _ => exact (h3 p (by simp)).1.1
  have hzs : Asc zs := by
    cases data with
    | nil => exact absurd rfl hne
    | cons p _ => exact asc_of_mem (hrow p (by simp)).1 (h3 p (by simp)).2
  exact trilinearInterpolate_fin h1 hys hzs hne h2
    (fun p hp => ⟨(hrow p hp).1, (h3 p hp).1.2, fun r hr => ⟨(hrow p hp).2 r hr,
      ((h3 p hp).2 r hr).2⟩⟩) x y z

/-- C21 (3D points).  At each grid point the table has the given data value. -/
theorem C21_at_points3 (h : WellFormed (real3 u v w xs ys zs data))
    (hrow : ∀ p ∈ data, p ≠ [] ∧ ∀ r ∈ p, r ≠ []) {i j k : Nat}
    (hi : i < xs.length) (hj : j < ys.length) (hk : k < zs.length) {p : List (List ℝ)}
    {r : List ℝ} {d : ℝ} (hp : data[i]? = some p) (hr : p[j]? = some r) (hd : r[k]? = some d)
    (hx : u.getValue s = .fin xs[i]) (hy : v.getValue s = .fin ys[j])
    (hz : w.getValue s = .fin zs[k]) :
    (real3 u v w xs ys zs data).atState s = .ok (.fin d) := by
  obtain ⟨h1, h2, h3⟩ := real3_wf h
  obtain ⟨hi0, rfl⟩ := List.getElem?_eq_some_iff.1 hp
  obtain ⟨hj0, rfl⟩ := List.getElem?_eq_some_iff.1 hr
  obtain ⟨_, rfl⟩ := List.getElem?_eq_some_iff.1 hd
  have hne : data ≠ [] := by rintro rfl; simp at hi0
  rw [C21_value3 h hne hrow hx hy hz]
  have hpm : data[i] ∈ data := List.getElem_mem _
  have h4 := h3 _ hpm
  unfold grid3
  rw [piecewise_at h1 (by simpa using h2) hi]
  simp only [List.getElem_map]
  unfold grid2
  rw [piecewise_at h4.1.1 (by simpa using h4.1.2) hj]
  simp only [List.getElem_map]
  rw [piecewise_at (asc_of_mem (hrow _ hpm).1 h4.2) (h4.2 _ (List.getElem_mem _)).2 hk]

/-- C21 (3D cell).  In the cell between two neighbouring arguments in each direction the table
is the trilinear interpolant of the eight corner values. -/
theorem C21_cell3 (h : WellFormed (real3 u v w xs ys zs data))
    (hrow : ∀ p ∈ data, p ≠ [] ∧ ∀ r ∈ p, r ≠ []) {i j k : Nat}
    (hi : i + 1 < xs.length) (hj : j + 1 < ys.length) (hk : k + 1 < zs.length)
    (hx0 : xs[i] ≤ x) (hx1 : x ≤ xs[i + 1]) (hy0 : ys[j] ≤ y) (hy1 : y ≤ ys[j + 1])
    (hz0 : zs[k] ≤ z) (hz1 : z ≤ zs[k + 1]) (d : Bool → Bool → Bool → ℝ)
    (hd : ∀ a b c : Bool, ∃ p r, data[i + a.toNat]? = some p ∧ p[j + b.toNat]? = some r ∧
      r[k + c.toNat]? = some (d a b c))
    (hx : u.getValue s = .fin x) (hy : v.getValue s = .fin y) (hz : w.getValue s = .fin z) :
    (real3 u v w xs ys zs data).atState s = .ok (.fin
      (line xs[i] xs[i + 1]
        (line ys[j] ys[j + 1]
          (line zs[k] zs[k + 1] (d false false false) (d false false true) z)
          (line zs[k] zs[k + 1] (d false true false) (d false true true) z) y)
        (line ys[j] ys[j + 1]
          (line zs[k] zs[k + 1] (d true false false) (d true false true) z)
          (line zs[k] zs[k + 1] (d true true false) (d true true true) z) y) x)) := by
  obtain ⟨h1, h2, h3⟩ := real3_wf h
  have hd' : ∀ a b c : Bool, ∃ (h1 : i + a.toNat < data.length)
      (h2 : j + b.toNat < data[i + a.toNat].length)
      (h3 : k + c.toNat < data[i + a.toNat][j + b.toNat].length),
      data[i + a.toNat][j + b.toNat][k + c.toNat] = d a b c := by
    intro a b c
    obtain ⟨p, r, hp, hr, hc⟩ := hd a b c
    obtain ⟨e1, rfl⟩ := List.getElem?_eq_some_iff.1 hp
    obtain ⟨e2, rfl⟩ := List.getElem?_eq_some_iff.1 hr
    obtain ⟨e3, e4⟩ := List.getElem?_eq_some_iff.1 hc
    exact ⟨e1, e2, e3, e4⟩
  have hne : data ≠ [] := by
    obtain ⟨e, _⟩ := hd' false false false
    rintro rfl; simp at e
  rw [C21_value3 h hne hrow hx hy hz]
  unfold grid3
  rw [piecewise_governs h1 (by simpa using h2) (i := i) ⟨hi, .inr hx0, .inr hx1⟩]
  simp only [List.getElem_map]
  have hplane : ∀ a : Bool, ∀ e : i + a.toNat < data.length,
      grid2 ys zs data[i + a.toNat] y z =
      line ys[j] ys[j + 1]
          (line zs[k] zs[k + 1] (d a false false) (d a false true) z)
          (line zs[k] zs[k + 1] (d a true false) (d a true true) z) y := by
    intro a e
    have hpm : data[i + a.toNat] ∈ data := List.getElem_mem _
    have h4 := h3 _ hpm
    unfold grid2
    rw [piecewise_governs h4.1.1 (by simpa using h4.1.2) (i := j) ⟨hj, .inr hy0, .inr hy1⟩]
    simp only [List.getElem_map]
    have hzs := asc_of_mem (hrow _ hpm).1 h4.2
    rw [piecewise_governs hzs (h4.2 _ (List.getElem_mem _)).2 (i := k)
      ⟨hk, .inr hz0, .inr hz1⟩,
      piecewise_governs hzs (h4.2 _ (List.getElem_mem _)).2 (i := k)
      ⟨hk, .inr hz0, .inr hz1⟩]
    obtain ⟨_, _, _, e00⟩ := hd' a false false
    obtain ⟨_, _, _, e01⟩ := hd' a false true
    obtain ⟨_, _, _, e10⟩ := hd' a true false
    obtain ⟨_, _, _, e11⟩ := hd' a true true
    simp only [Bool.toNat_false, Bool.toNat_true, Nat.add_zero] at e00 e01 e10 e11
    rw [← e00, ← e01, ← e10, ← e11]
  obtain ⟨e0, _⟩ := hd' false false false
  obtain ⟨e1, _⟩ := hd' true false false
  have p0 := hplane false e0
  have p1 := hplane true e1
  simp only [Bool.toNat_false, Bool.toNat_true, Nat.add_zero] at p0 p1
  rw [p0, p1]

/-- C21 (3D range).  Inside the grid the value lies between bounds of the data. -/
theorem C21_range3 (h : WellFormed (real3 u v w xs ys zs data)) (hne : data ≠ [])
    (hrow : ∀ p ∈ data, p ≠ [] ∧ ∀ r ∈ p, r ≠ []) {lo hi : ℝ}
    (hd : ∀ p ∈ data, ∀ r ∈ p, ∀ d ∈ r, lo ≤ d ∧ d ≤ hi)
    (hx0 : ∀ a, xs.head? = some a → a ≤ x) (hx1 : ∀ a, xs.getLast? = some a → x ≤ a)
    (hy0 : ∀ a, ys.head? = some a → a ≤ y) (hy1 : ∀ a, ys.getLast? = some a → y ≤ a)
    (hz0 : ∀ a, zs.head? = some a → a ≤ z) (hz1 : ∀ a, zs.getLast? = some a → z ≤ a)
    (hx : u.getValue s = .fin x) (hy : v.getValue s = .fin y) (hz : w.getValue s = .fin z) :
    ∃ r : ℝ, (real3 u v w xs ys zs data).atState s = .ok (.fin r) ∧ lo ≤ r ∧ r ≤ hi := by
  obtain ⟨h1, h2, h3⟩ := real3_wf h
  refine ⟨_, C21_value3 h hne hrow hx hy hz, ?_⟩
  refine piecewise_between h1 (by simpa using h2) ?_ hx0 hx1 ?_
  · rintro rfl; simp at h2; exact hne h2
  · intro d hd'
    obtain ⟨p, hp, rfl⟩ := List.mem_map.1 hd'
    have h4 := h3 p hp
    exact grid2_between h4.1.1 h4.1.2 (hrow p hp).1 (asc_of_mem (hrow p hp).1 h4.2)
      (fun r hr => ⟨(hrow p hp).2 r hr, (h4.2 r hr).2⟩) (hd p hp) hy0 hy1 hz0 hz1

end three

/-- C21 (3D continuity).  The value of a 3D table without empty planes or rows is a continuous
function of its three variables on the whole space. -/
theorem C21_continuous3 {u v w : StateVariable} {xs ys zs : List ℝ}
    {data : List (List (List ℝ))} (h : WellFormed (real3 u v w xs ys zs data)) (hne : data ≠ [])
    (hrow : ∀ p ∈ data, p ≠ [] ∧ ∀ r ∈ p, r ≠ []) :
    ∃ f : ℝ × ℝ × ℝ → ℝ, Continuous f ∧ ∀ (s : State XR) (x y z : ℝ), u.getValue s = .fin x →
      v.getValue s = .fin y → w.getValue s = .fin z →
      (real3 u v w xs ys zs data).atState s = .ok (.fin (f (x, y, z))) := by
  obtain ⟨h1, h2, h3⟩ := real3_wf h
  refine ⟨fun p => grid3 xs ys zs data p.1 p.2.1 p.2.2, ?_,
    fun s x y z hx hy hz => C21_value3 h hne hrow hx hy hz⟩
  have hys : Asc ys := by
    cases data with
    | nil => exact absurd rfl hne
    | cons p _ => exact (h3 p (by simp)).1.1
  have hzs : Asc zs := by
    cases data with
    | nil => exact absurd rfl hne
    | cons p _ => exact asc_of_mem (hrow p (by simp)).1 (h3 p (by simp)).2
  have := piecewise_continuous (T := ℝ × ℝ) h1
    (data.map fun p (q : ℝ × ℝ) => grid2 ys zs p q.1 q.2) (by
      intro g hg
      obtain ⟨p, _, rfl⟩ := List.mem_map.1 hg
      exact grid2_continuous hys hzs)
  simpa only [List.map_map, Function.comp_def, grid3] using this

/-- A well-formed 2D and a well-formed 3D table. -/
example : WellFormed (real2 .alpha .machNumber [0, 1] [0, 2, 3] [[1, 2, 3], [4, 5, 6]]) := by
  refine ⟨⟨ascending_fin.2 (by simp [Asc]), rfl⟩, fun r hr => ?_⟩
  simp at hr
  rcases hr with rfl | rfl <;> exact ⟨ascending_fin.2 (by norm_num [Asc]), rfl⟩

example : WellFormed (real3 .time .alpha .machNumber [0] [0, 1] [0, 2, 3]
    [[[1, 2, 3], [4, 5, 6]]]) := by
  refine ⟨⟨ascending_fin.2 (by simp [Asc]), rfl⟩, fun p hp => ?_⟩
  simp at hp
  subst hp
  refine ⟨⟨ascending_fin.2 (by simp [Asc]), rfl⟩, fun r hr => ?_⟩
  simp at hr
  rcases hr with rfl | rfl <;> exact ⟨ascending_fin.2 (by norm_num [Asc]), rfl⟩

end Post
