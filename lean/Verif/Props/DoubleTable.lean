import Verif.Lemmas.F64Table
import Verif.Props.Table
/-! # C74: table look-ups in double precision -/

namespace Post
open Spec Flt F64

section
variable {L : Libm}

theorem numbers_double {M : ℝ} {l : List (F64 L)} (h : Entries M l) (t : F64 L) (ht : t ∈ l) :
    ∃ r R, (Except.ok t : Except Panic (F64 L)) = .ok r ∧ IsR r R ∧ |real t| ≤ M ∧
      |R - real t| ≤ 0 := by
  refine ⟨t, real t, rfl, isR_of_isNumber (h t ht).1, (h t ht).2, ?_⟩
  simp

theorem linear_double {M : ℝ} (hM : 1e-30 ≤ M) (hM' : M ≤ 1e20) {l : List (F64 L)} {x : F64 L}
    {row : List (F64 L)} (hl : GoodAxis l) (hx : Within l x) (hne : row ≠ [])
    (hlen : row.length = l.length) (hd : Entries M row) :
    ∃ r R, linearInterpolate l x row = .ok r ∧ IsR r R ∧
      |piecewise (l.map real) (row.map real) (real x)| ≤ M ∧
      |R - piecewise (l.map real) (row.map real) (real x)| ≤ 2.1e-15 * M := by
  obtain ⟨r, R, h1, h2, h3, h4⟩ := interp_double (e := 0) hM (by norm_num at *; linarith) le_rfl hl
    hx hne hlen (numbers_double hd)
  rw [linearInterpolate_eq]
  exact ⟨r, R, h1, h2, h3, by norm_num at *; linarith⟩

theorem bilinear_double {M : ℝ} (hM : 1e-30 ≤ M) (hM' : M ≤ 1e20) {l m : List (F64 L)}
    {x y : F64 L} {data : List (List (F64 L))} (hl : GoodAxis l) (hx : Within l x)
    (hm : GoodAxis m) (hy : Within m y) (hne : data ≠ []) (hlen : data.length = l.length)
    (hd : ∀ r ∈ data, r ≠ [] ∧ r.length = m.length ∧ Entries M r) :
    ∃ r R, bilinearInterpolate l x m y data = .ok r ∧ IsR r R ∧
      |grid2 (l.map real) (m.map real) (data.map (·.map real)) (real x) (real y)| ≤ M ∧
      |R - grid2 (l.map real) (m.map real) (data.map (·.map real)) (real x) (real y)| ≤
        4.3e-15 * M := by
  have hM0 : 0 < M := lt_of_lt_of_le (by norm_num) hM
  obtain ⟨r, R, h1, h2, h3, h4⟩ := interp_double (e := 2.1e-15 * M) (inner := linearInterpolate m y)
    (val := fun row => piecewise (m.map real) (row.map real) (real y)) hM
    (by norm_num at *; linarith) (by positivity) hl hx hne hlen
    (fun t ht => linear_double hM hM' hm hy (hd t ht).1 (hd t ht).2.1 (hd t ht).2.2)
  rw [bilinearInterpolate_eq]
  unfold grid2
  rw [List.map_map]
  exact ⟨r, R, h1, h2, h3, h4.trans (by norm_num at *; linarith)⟩

theorem trilinear_double {M : ℝ} (hM : 1e-30 ≤ M) (hM' : M ≤ 1e20) {l m n : List (F64 L)}
    {x y z : F64 L} {data : List (List (List (F64 L)))} (hl : GoodAxis l) (hx : Within l x)
    (hm : GoodAxis m) (hy : Within m y) (hn : GoodAxis n) (hz : Within n z) (hne : data ≠ [])
    (hlen : data.length = l.length)
    (hd : ∀ p ∈ data, p ≠ [] ∧ p.length = m.length ∧
      ∀ r ∈ p, r ≠ [] ∧ r.length = n.length ∧ Entries M r) :
    ∃ r R, trilinearInterpolate l x m y n z data = .ok r ∧ IsR r R ∧
      |R - grid3 (l.map real) (m.map real) (n.map real) (data.map (·.map (·.map real))) (real x)
        (real y) (real z)| ≤ 7e-15 * M := by
  have hM0 : 0 < M := lt_of_lt_of_le (by norm_num) hM
  obtain ⟨r, R, h1, h2, h3, h4⟩ := interp_double (e := 4.3e-15 * M)
    (inner := bilinearInterpolate m y n z)
    (val := fun p => grid2 (m.map real) (n.map real) (p.map (·.map real)) (real y) (real z)) hM
    (by norm_num at *; linarith) (by positivity) hl hx hne hlen
    (fun t ht => bilinear_double hM hM' hm hy hn hz (hd t ht).1 (hd t ht).2.1 (hd t ht).2.2)
  rw [trilinearInterpolate_eq]
  unfold grid3
  rw [List.map_map]
  exact ⟨r, R, h1, h2, h4.trans (by norm_num at *; linarith)⟩

/-- **C74** Table look-ups in double precision.  Within the range of its arguments a well-formed
table of one, two or three dimensions with entries of size at most `M` yields a number that differs
from the exact multilinear interpolation by at most `1e-14 * M`. -/
theorem C74_accuracy {t : Table (F64 L)} {s : State (F64 L)} {M : ℝ} (hM : 1e-30 ≤ M)
    (hM' : M ≤ 1e20) (hw : WellFormed t) (hc : Covers M s t) :
    ∃ r, t.atState s = .ok r ∧ IsNumber r ∧ |real r - exactValue s t| ≤ 1e-14 * M := by
  have hM0 : 0 < M := lt_of_lt_of_le (by norm_num) hM
  obtain ⟨hf, hd, ha⟩ := hc
  cases t with
  | d1 t =>
    have h1 := ha t.x (by simp [axes])
    obtain ⟨r, R, a1, a2, -, a3⟩ := linear_double hM hM' h1.1 h1.2 hf hw.2 hd
    refine ⟨r, a1, a2.isNumber, ?_⟩
    rw [a2.real]
    exact a3.trans (by norm_num at *; linarith)
  | d2 t =>
    have h1 := ha t.x (by simp [axes])
    have h2 := ha t.y (by simp [axes])
    obtain ⟨r, R, a1, a2, -, a3⟩ := bilinear_double hM hM' h1.1 h1.2 h2.1 h2.2 hf.1 hw.1.2
      fun r hr => ⟨hf.2 r hr, (hw.2 r hr).2, fun y hy => hd y (List.mem_flatten.2 ⟨r, hr, hy⟩)⟩
    refine ⟨r, a1, a2.isNumber, ?_⟩
    rw [a2.real]
    exact a3.trans (by norm_num at *; linarith)
  | d3 t =>
    have h1 := ha t.x (by simp [axes])
    have h2 := ha t.y (by simp [axes])
    have h3 := ha t.z (by simp [axes])
    obtain ⟨r, R, a1, a2, a3⟩ := trilinear_double hM hM' h1.1 h1.2 h2.1 h2.2 h3.1 h3.2 hf.1 hw.1.2
      fun p hp => ⟨(hf.2 p hp).1, (hw.2 p hp).1.2, fun r hr =>
        ⟨(hf.2 p hp).2 r hr, ((hw.2 p hp).2 r hr).2, fun y hy => hd y
          (List.mem_flatten.2 ⟨r, List.mem_flatten.2 ⟨p, hp, hr⟩, hy⟩)⟩⟩
    refine ⟨r, a1, a2.isNumber, ?_⟩
    rw [a2.real]
    exact a3.trans (by norm_num at *; linarith)

/-- **C74** The exact value, from which look-ups deviate by at most `1e-14 * M`, lies between any
bounds of the entries. -/
theorem C74_range {t : Table (F64 L)} {s : State (F64 L)} {M lo hi : ℝ} (hM : 1e-30 ≤ M)
    (hM' : M ≤ 1e20) (hw : WellFormed t) (hc : Covers M s t)
    (hb : ∀ y ∈ entries t, lo ≤ real y ∧ real y ≤ hi) :
    ∃ r, t.atState s = .ok r ∧ IsNumber r ∧ lo - 1e-14 * M ≤ real r ∧ real r ≤ hi + 1e-14 * M := by
  obtain ⟨r, h1, h2, h3⟩ := C74_accuracy hM hM' hw hc
  refine ⟨r, h1, h2, ?_⟩
  have key : lo ≤ exactValue s t ∧ exactValue s t ≤ hi := by
    obtain ⟨hf, -, ha⟩ := hc
    have hin : ∀ a ∈ axes t, (∀ c, (a.2.map real).head? = some c → c ≤ real (a.1.getValue s)) ∧
        (∀ c, (a.2.map real).getLast? = some c → real (a.1.getValue s) ≤ c) := by
      intro a h
      constructor
      · intro c hc
        rw [List.head?_map, Option.map_eq_some_iff] at hc
        obtain ⟨b, hb, rfl⟩ := hc
        exact (ha a h).2.low b hb
      · intro c hc
        rw [List.getLast?_map, Option.map_eq_some_iff] at hc
        obtain ⟨b, hb, rfl⟩ := hc
        exact (ha a h).2.high b hb
    have hne : ∀ {T : Type} {d : List T} {l : List (F64 L)}, d ≠ [] → d.length = l.length →
        l.map real ≠ [] := by
      intro T d l h1 h2 h3
      rw [List.map_eq_nil_iff] at h3
      rw [h3] at h2
      exact h1 (List.length_eq_zero_iff.1 h2)
    cases t with
    | d1 t =>
      have i1 := hin t.x (by simp [axes])
      refine piecewise_between (ha t.x (by simp [axes])).1.asc (by simpa using hw.2) (hne hf hw.2)
        i1.1 i1.2 ?_
      intro y hy
      obtain ⟨z, hz, rfl⟩ := List.mem_map.1 hy
      exact hb z hz
    | d2 t =>
      have i1 := hin t.x (by simp [axes])
      have i2 := hin t.y (by simp [axes])
      refine grid2_between (ha t.x (by simp [axes])).1.asc (by simpa using hw.1.2)
        (by simpa using hf.1) (ha t.y (by simp [axes])).1.asc ?_ ?_ i1.1 i1.2 i2.1 i2.2
      · intro r hr
        obtain ⟨z, hz, rfl⟩ := List.mem_map.1 hr
        exact ⟨by simpa using hf.2 z hz, by simpa using (hw.2 z hz).2⟩
      · intro r hr y hy
        obtain ⟨z, hz, rfl⟩ := List.mem_map.1 hr
        obtain ⟨w, hw', rfl⟩ := List.mem_map.1 hy
        exact hb w (List.mem_flatten.2 ⟨z, hz, hw'⟩)
    | d3 t =>
      have i1 := hin t.x (by simp [axes])
      have i2 := hin t.y (by simp [axes])
      have i3 := hin t.z (by simp [axes])
      refine piecewise_between (ha t.x (by simp [axes])).1.asc (by simpa using hw.1.2)
        (hne hf.1 hw.1.2) i1.1 i1.2 ?_
      intro v hv
      rw [List.map_map] at hv
      obtain ⟨p, hp, rfl⟩ := List.mem_map.1 hv
      refine grid2_between (ha t.y (by simp [axes])).1.asc (by simpa using (hw.2 p hp).1.2)
        (by simpa using (hf.2 p hp).1) (ha t.z (by simp [axes])).1.asc ?_ ?_ i2.1 i2.2 i3.1 i3.2
      · intro r hr
        obtain ⟨z, hz, rfl⟩ := List.mem_map.1 hr
        exact ⟨by simpa using (hf.2 p hp).2 z hz, by simpa using ((hw.2 p hp).2 z hz).2⟩
      · intro r hr y hy
        obtain ⟨z, hz, rfl⟩ := List.mem_map.1 hr
        obtain ⟨w, hw', rfl⟩ := List.mem_map.1 hy
        exact hb w (List.mem_flatten.2 ⟨z, List.mem_flatten.2 ⟨p, hp, hz⟩, hw'⟩)
  have := abs_le.1 h3
  constructor <;> linarith

theorem isNumber_of_is {x : F64 L} {q : ℚ} (h : Is x q) : IsNumber x := by
  obtain ⟨s, a, h1, -, h2⟩ := h
  exact ⟨s, a, h1, h2⟩

/-- **C74** A table all of whose entries are the same number yields exactly that number, within its
range and far beyond. -/
theorem C74_constant {t : Table (F64 L)} {s : State (F64 L)} {y : F64 L} (hy : IsNumber y)
    (hyd : y.dbl.IsDouble) (hw : WellFormed t) (hf : Filled t) (he : ∀ z ∈ entries t, z = y)
    (ha : ∀ a ∈ axes t, GoodAxis a.2 ∧ IsNumber (a.1.getValue s) ∧ |real (a.1.getValue s)| ≤ 1e40) :
    ∃ r, t.atState s = .ok r ∧ IsNumber r ∧ real r = real y := by
  obtain ⟨q, hq, -⟩ := isNumber_is hy
  have hrow : ∀ {l : List (F64 L)} {x : F64 L} {row : List (F64 L)}, GoodAxis l → IsNumber x →
      |real x| ≤ 1e40 → row ≠ [] → row.length = l.length → (∀ z ∈ row, z = y) →
      ∃ r, linearInterpolate l x row = .ok r ∧ Is r q ∧ r.dbl.IsDouble := by
    intro l x row h1 h2 h3 h4 h5 h6
    rw [linearInterpolate_eq]
    exact interp_constant h1 h2 h3 h4 h5 fun t ht => ⟨y, by rw [h6 t ht], hq, hyd⟩
  have hgrid : ∀ {l m : List (F64 L)} {x x' : F64 L} {d : List (List (F64 L))}, GoodAxis l →
      IsNumber x → |real x| ≤ 1e40 → GoodAxis m → IsNumber x' → |real x'| ≤ 1e40 → d ≠ [] →
      d.length = l.length → (∀ r ∈ d, r ≠ [] ∧ r.length = m.length ∧ ∀ z ∈ r, z = y) →
      ∃ r, bilinearInterpolate l x m x' d = .ok r ∧ Is r q ∧ r.dbl.IsDouble := by
    intro l m x x' d h1 h2 h3 h4 h5 h6 h7 h8 h9
    rw [bilinearInterpolate_eq]
    exact interp_constant h1 h2 h3 h7 h8 fun t ht =>
      hrow h4 h5 h6 (h9 t ht).1 (h9 t ht).2.1 (h9 t ht).2.2
  have fin : (∃ r, t.atState s = .ok r ∧ Is r q ∧ r.dbl.IsDouble) →
      ∃ r, t.atState s = .ok r ∧ IsNumber r ∧ real r = real y := by
    rintro ⟨r, h1, h2, -⟩
    exact ⟨r, h1, isNumber_of_is h2, by rw [real_of_is h2, real_of_is hq]⟩
  apply fin
  cases t with
  | d1 t =>
    have h1 := ha t.x (by simp [axes])
    exact hrow h1.1 h1.2.1 h1.2.2 hf hw.2 he
  | d2 t =>
    have h1 := ha t.x (by simp [axes])
    have h2 := ha t.y (by simp [axes])
    exact hgrid h1.1 h1.2.1 h1.2.2 h2.1 h2.2.1 h2.2.2 hf.1 hw.1.2 fun r hr =>
      ⟨hf.2 r hr, (hw.2 r hr).2, fun z hz => he z (List.mem_flatten.2 ⟨r, hr, hz⟩)⟩
  | d3 t =>
    have h1 := ha t.x (by simp [axes])
    have h2 := ha t.y (by simp [axes])
    have h3 := ha t.z (by simp [axes])
    exact interp_constant h1.1 h1.2.1 h1.2.2 hf.1 hw.1.2 fun p hp =>
      hgrid h2.1 h2.2.1 h2.2.2 h3.1 h3.2.1 h3.2.2 (hf.2 p hp).1 (hw.2 p hp).1.2 fun r hr =>
        ⟨(hf.2 p hp).2 r hr, ((hw.2 p hp).2 r hr).2, fun z hz => he z
          (List.mem_flatten.2 ⟨r, List.mem_flatten.2 ⟨p, hp, hr⟩, hz⟩)⟩

/-- **C74** At the first argument a one-dimensional table yields exactly its first entry. -/
theorem C74_first_argument {t : Table1D (F64 L)} {s : State (F64 L)} {y : F64 L} {M : ℝ}
    (hM : M ≤ 1e50) (hw : WellFormed (.d1 t)) (hd : Entries M t.data) (hy : t.data.head? = some y)
    (hyd : y.dbl.IsDouble) (ha : GoodAxis t.x.2) (hx : IsNumber (t.x.1.getValue s))
    (hx0 : ∀ a, t.x.2.head? = some a → real (t.x.1.getValue s) = real a) :
    ∃ r, t.atState s = .ok r ∧ IsNumber r ∧ real r = real y := by
  have hmem : y ∈ t.data := List.mem_of_head? hy
  obtain ⟨q, hq, -⟩ := isNumber_is (hd y hmem).1
  obtain ⟨r, h1, h2, -⟩ := interp_first (inner := .ok) ha hx hx0 hw.2
    (fun z hz => by
      obtain ⟨p, hp, hp'⟩ := isNumber_is (hd z hz).1
      refine ⟨z, p, rfl, hp, ?_⟩
      have h3 := (hd z hz).2
      rw [← hp'] at h3
      have h4 : ((|p| : ℚ) : ℝ) ≤ ((2 ^ 190 : ℚ) : ℝ) := by
        push_cast
        refine (h3.trans hM).trans ?_
        norm_num
      exact_mod_cast h4)
    ⟨y, hy, y, rfl, hq, hyd⟩
  refine ⟨r, ?_, isNumber_of_is h2, by rw [real_of_is h2, real_of_is hq]⟩
  show linearInterpolate _ _ _ = _
  rw [linearInterpolate_eq]
  exact h1

/-- **C74** At later arguments the result need not be the entry: with entries 1 and 1e-20 at 0 and 1,
the value at 1 is 0. -/
theorem C74_later_arguments :
    linearInterpolate ([0, 1] : List (F64 L)) 1 [1, 1e-20] = .ok 0 ∧ (1e-20 : F64 L) ≠ 0 := by
  have l01 : Flt.lt (0 : F64 L) 1 = true := by
    rw [is_lt is_zero is_one]; norm_num
  have l11 : Flt.lt (1 : F64 L) 1 = false := by
    rw [is_lt is_one is_one]; norm_num
  have hi : getIdx ([0, 1] : List (F64 L)) 1 = .ok (0, 1) := by
    simp [getIdx, partitionPoint, binSearch, l01, l11]
    rfl
  have e0 : (0 : F64 L) = ⟨.round false ((0 : ℕ) * 10 ^ 0)⟩ := rfl
  have e1 : (1 : F64 L) = ⟨.round false ((1 : ℕ) * 10 ^ 0)⟩ := rfl
  have e2 : (1e-20 : F64 L) = ⟨.round false ((1 : ℕ) / 10 ^ 20)⟩ := rfl
  constructor
  · unfold linearInterpolate
    rw [hi]
    show Except.ok ((1 : F64 L) + (1 - 0) * (1e-20 - 1) / (1 - 0)) = .ok 0
    rw [e0, e1, e2]
    refine congrArg Except.ok ?_
    have h : Dbl.add (.round false ((1 : ℕ) * 10 ^ 0)) (.div (.mul (.add (.round false
        ((1 : ℕ) * 10 ^ 0)) (.neg (.round false ((0 : ℕ) * 10 ^ 0)))) (.add (.round false
        ((1 : ℕ) / 10 ^ 20)) (.neg (.round false ((1 : ℕ) * 10 ^ 0))))) (.add (.round false
        ((1 : ℕ) * 10 ^ 0)) (.neg (.round false ((0 : ℕ) * 10 ^ 0))))) =
        .round false ((0 : ℕ) * 10 ^ 0) := by decide +kernel
    exact congrArg (F64.mk (L := L)) h
  · rw [e0, e2]
    intro h
    have h' : Dbl.round false ((1 : ℕ) / 10 ^ 20) = .round false ((0 : ℕ) * 10 ^ 0) :=
      congrArg F64.dbl h
    exact absurd h' (by decide +kernel)

/-! ## A table that meets the hypotheses -/

theorem isNumber_nat (n : ℕ) (h : n < 2 ^ 53) : IsNumber (OfNat.ofNat n : F64 L) :=
  isNumber_of_is (is_nat n h)

theorem real_nat (n : ℕ) (h : n < 2 ^ 53) : real (OfNat.ofNat n : F64 L) = n := by
  rw [real_of_is (is_nat n h)]
  simp

/-- thrust by time and altitude: three times, two altitudes -/
def exampleTable : Table (F64 L) :=
  .d2 ⟨(.time, [0, 30, 60]), (.altitude, [0, 100000]), [[10, 20], [30, 40], [50, 70]], .linear⟩

/-- a moment within the range of the table -/
def exampleMoment (s : State (F64 L)) : State (F64 L) := { s with time := 45, altitude := 7000 }

example (s : State (F64 L)) : WellFormed (exampleTable (L := L)) ∧
    Covers 100 (exampleMoment s) (exampleTable (L := L)) := by
  have n : ∀ n : ℕ, n < 2 ^ 53 → IsNumber (OfNat.ofNat n : F64 L) := isNumber_nat
  have r : ∀ n : ℕ, n < 2 ^ 53 → real (OfNat.ofNat n : F64 L) = n := real_nat
  have lt : ∀ m n : ℕ, m < n → n < 2 ^ 53 →
      Flt.lt (OfNat.ofNat m : F64 L) (OfNat.ofNat n) = true := by
    intro m n h1 h2
    rw [is_lt (is_nat m (by omega)) (is_nat n h2)]
    simpa using h1
  have e0 := r 0 (by norm_num)
  have e7 := r 7000 (by norm_num)
  have e10 := r 10 (by norm_num)
  have e20 := r 20 (by norm_num)
  have e30 := r 30 (by norm_num)
  have e40 := r 40 (by norm_num)
  have e45 := r 45 (by norm_num)
  have e50 := r 50 (by norm_num)
  have e60 := r 60 (by norm_num)
  have e70 := r 70 (by norm_num)
  have e1 := r 100000 (by norm_num)
  have asc3 : Ascending ([0, 30, 60] : List (F64 L)) := by
    intro i hi
    have : i = 0 ∨ i = 1 := by simp at hi; omega
    rcases this with rfl | rfl
    · exact lt 0 30 (by norm_num) (by norm_num)
    · exact lt 30 60 (by norm_num) (by norm_num)
  have asc2 : Ascending ([0, 100000] : List (F64 L)) := by
    intro i hi
    have : i = 0 := by simp at hi; omega
    subst this
    exact lt 0 100000 (by norm_num) (by norm_num)
  refine ⟨⟨⟨asc3, rfl⟩, ?_⟩, ?_, ?_, ?_⟩
  · intro row hr
    simp only [List.mem_cons, List.not_mem_nil, or_false] at hr
    rcases hr with rfl | rfl | rfl <;> exact ⟨asc2, rfl⟩
  · simp [exampleTable, Filled]
  · intro y hy
    simp only [exampleTable, Spec.entries, List.flatten_cons, List.flatten_nil, List.cons_append,
      List.nil_append, List.mem_cons, List.not_mem_nil, or_false] at hy
    rcases hy with rfl | rfl | rfl | rfl | rfl | rfl
    · exact ⟨n 10 (by norm_num), by rw [e10]; norm_num⟩
    · exact ⟨n 20 (by norm_num), by rw [e20]; norm_num⟩
    · exact ⟨n 30 (by norm_num), by rw [e30]; norm_num⟩
    · exact ⟨n 40 (by norm_num), by rw [e40]; norm_num⟩
    · exact ⟨n 50 (by norm_num), by rw [e50]; norm_num⟩
    · exact ⟨n 70 (by norm_num), by rw [e70]; norm_num⟩
  · intro a ha
    simp only [exampleTable, axes, List.mem_cons, List.not_mem_nil, or_false] at ha
    rcases ha with rfl | rfl
    · refine ⟨⟨?_, ?_⟩, ⟨n 45 (by norm_num), ?_, ?_⟩⟩
      · intro x hx
        simp only [List.mem_cons, List.not_mem_nil, or_false] at hx
        rcases hx with rfl | rfl | rfl
        · exact ⟨n 0 (by norm_num), by rw [e0]; norm_num⟩
        · exact ⟨n 30 (by norm_num), by rw [e30]; norm_num⟩
        · exact ⟨n 60 (by norm_num), by rw [e60]; norm_num⟩
      · intro i hi
        have : i = 0 ∨ i = 1 := by simp at hi; omega
        rcases this with rfl | rfl
        · show (1e-20 : ℝ) ≤ real (30 : F64 L) - real (0 : F64 L)
          rw [e0, e30]; norm_num
        · show (1e-20 : ℝ) ≤ real (60 : F64 L) - real (30 : F64 L)
          rw [e60, e30]; norm_num
      · rintro a ⟨⟩
        show real (0 : F64 L) ≤ real (45 : F64 L)
        rw [e0, e45]; norm_num
      · rintro a ⟨⟩
        show real (45 : F64 L) ≤ real (60 : F64 L)
        rw [e60, e45]; norm_num
    · refine ⟨⟨?_, ?_⟩, ⟨n 7000 (by norm_num), ?_, ?_⟩⟩
      · intro x hx
        simp only [List.mem_cons, List.not_mem_nil, or_false] at hx
        rcases hx with rfl | rfl
        · exact ⟨n 0 (by norm_num), by rw [e0]; norm_num⟩
        · exact ⟨n 100000 (by norm_num), by rw [e1]; norm_num⟩
      · intro i hi
        have : i = 0 := by simp at hi; omega
        subst this
        show (1e-20 : ℝ) ≤ real (100000 : F64 L) - real (0 : F64 L)
        rw [e0, e1]; norm_num
      · rintro a ⟨⟩
        show real (0 : F64 L) ≤ real (7000 : F64 L)
        rw [e0, e7]; norm_num
      · rintro a ⟨⟩
        show real (7000 : F64 L) ≤ real (100000 : F64 L)
        rw [e7, e1]; norm_num

/-- A constant table, at an argument beyond its range. -/
example (s : State (F64 L)) : ∃ r, (Table.d1 ⟨(.time, [0, 30]), [7, 7], .linear⟩ :
    Table (F64 L)).atState { s with time := 1000000 } = .ok r ∧ IsNumber r ∧
    real r = real (7 : F64 L) := by
  have e0 := real_nat (L := L) 0 (by norm_num)
  have e30 := real_nat (L := L) 30 (by norm_num)
  have e6 := real_nat (L := L) 1000000 (by norm_num)
  refine C74_constant (isNumber_nat 7 (by norm_num)) ?_ ⟨?_, rfl⟩ (by simp [Filled])
    (by simp [Spec.entries]) ?_
  · exact Dbl.round_isDouble _ _
  · intro i hi
    have : i = 0 := by simp at hi; omega
    subst this
    show Flt.lt (0 : F64 L) 30 = true
    rw [is_lt (is_nat 0 (by norm_num)) (is_nat 30 (by norm_num))]
    norm_num
  · intro a ha
    simp only [axes, List.mem_cons, List.not_mem_nil, or_false] at ha
    subst ha
    refine ⟨⟨?_, ?_⟩, isNumber_nat 1000000 (by norm_num), ?_⟩
    · intro x hx
      simp only [List.mem_cons, List.not_mem_nil, or_false] at hx
      rcases hx with rfl | rfl
      · exact ⟨isNumber_nat 0 (by norm_num), by rw [e0]; norm_num⟩
      · exact ⟨isNumber_nat 30 (by norm_num), by rw [e30]; norm_num⟩
    · intro i hi
      have : i = 0 := by simp at hi; omega
      subst this
      show (1e-20 : ℝ) ≤ real (30 : F64 L) - real (0 : F64 L)
      rw [e0, e30]; norm_num
    · show |real (1000000 : F64 L)| ≤ 1e40
      rw [e6]; norm_num

end
end Post
