import Verif.Spec.Interp
import Verif.Lemmas.Table
import Verif.Ext
import Mathlib.Topology.Order.OrderClosed
import Mathlib.Topology.Instances.Real.Lemmas
/-! # Lemmas about interpolation in exact arithmetic -/

namespace Post
open Spec

/-- Each element is smaller than the next one. -/
def Asc (l : List ℝ) : Prop := l.IsChain (· < ·)

/-! ## The search for the segment -/

theorem binSearch_spec {α : Type} (pred : α → Bool) (l : List α) (left right : Nat)
    (hlr : left ≤ right) (hr : right ≤ l.length)
    (hmono : ∀ i j (hi : i < l.length) (hj : j < l.length), i ≤ j → pred l[j] = true →
      pred l[i] = true)
    (hleft : ∀ i (hi : i < l.length), i < left → pred l[i] = true)
    (hright : ∀ i (hi : i < l.length), right ≤ i → pred l[i] = false) :
    (∀ i (hi : i < l.length), i < binSearch pred l left right → pred l[i] = true) ∧
    (∀ i (hi : i < l.length), binSearch pred l left right ≤ i → pred l[i] = false) := by
  fun_induction binSearch pred l left right with
  | case1 left right hlt mid hp ih =>
    have hmid : mid < right := by omega
    have hml : mid < l.length := by omega
    rw [List.getElem?_eq_getElem hml] at hp
    simp at hp
    exact ih (by omega) hr (fun i hi h => hmono i mid hi hml (by omega) hp) hright
  | case2 left right hlt mid hp ih =>
    have hmid : mid < right := by omega
    have hml : mid < l.length := by omega
    rw [List.getElem?_eq_getElem hml] at hp
    simp at hp
    refine ih (by omega) (by omega) hleft (fun i hi h => ?_)
    by_contra hc
    have := hmono mid i hml hi h (by simpa using hc)
    rw [hp] at this; cases this
  | case3 left right hlt =>
    have : left = right := by omega
    subst this
    exact ⟨hleft, hright⟩

theorem asc_lt {l : List ℝ} (h : Asc l) {i j : Nat} (hi : i < l.length) (hj : j < l.length)
    (hij : i < j) : l[i] < l[j] :=
  List.pairwise_iff_getElem.1 (List.isChain_iff_pairwise.1 h) i j hi hj hij

/-- Segment `i` is the one to use at `x`. -/
def Governs (xs : List ℝ) (i : Nat) (x : ℝ) : Prop :=
  ∃ h : i + 1 < xs.length, (i = 0 ∨ xs[i] ≤ x) ∧ (i + 2 = xs.length ∨ x ≤ xs[i + 1])

theorem getIdx_governs {xs : List ℝ} (h : Asc xs) (hl : 2 ≤ xs.length) (x : ℝ) :
    ∃ i, getIdx (xs.map XR.fin) (.fin x) = .ok (i, i + 1) ∧ Governs xs i x := by
  set l := xs.map XR.fin with hl'
  have hlen : l.length = xs.length := by simp [hl']
  have hpred : ∀ i (hi : i < l.length), Flt.lt l[i] (XR.fin x) =
      decide (xs[i]'(by omega) < x) := by
    intro i hi; simp [hl', XR.fin_lt]
  have hspec := binSearch_spec (fun i => Flt.lt i (XR.fin x)) l 0 l.length (by omega) le_rfl
    (by
      intro i j hi hj hij hp
      simp only [hpred, decide_eq_true_eq] at hp ⊢
      rcases Nat.lt_or_eq_of_le hij with h' | h'
      · exact lt_trans (asc_lt h _ _ h') hp
      · subst h'; exact hp)
    (by intro i _ h; omega) (by intro i hi h; omega)
  have hp := partitionPoint_le (fun i => Flt.lt i (XR.fin x)) l
  change (∀ i (hi : i < l.length), i < partitionPoint (fun i => Flt.lt i (XR.fin x)) l → _) ∧
    (∀ i (hi : i < l.length), partitionPoint (fun i => Flt.lt i (XR.fin x)) l ≤ i → _) at hspec
  unfold getIdx
  generalize partitionPoint (fun i => Flt.lt i (XR.fin x)) l = p at hp hspec
  simp only [hpred, decide_eq_true_eq, decide_eq_false_iff_not, not_lt] at hspec
  simp only [bind, Except.bind]
  by_cases h1 : p = l.length
  · refine ⟨p - 2, ?_, by omega, .inr ?_, .inl (by omega)⟩
    · rw [if_pos h1, if_neg (by omega), if_neg (by omega)]
      simp; omega
    · exact (hspec.1 (p - 2) (by omega) (by omega)).le
  · by_cases h2 : p = 0
    · subst h2
      refine ⟨0, ?_, by omega, .inl rfl, .inr (hspec.2 1 (by omega) (by omega))⟩
      rw [if_neg h1]; simp
    · refine ⟨p - 1, ?_, by omega, .inr (hspec.1 (p - 1) (by omega) (by omega)).le, .inr ?_⟩
      · simp [h1, h2, show p - 1 + 1 = p by omega]
      · have := hspec.2 p (by omega) le_rfl
        have hpp : p - 1 + 1 = p := by omega
        simpa [hpp] using this

/-! ## The piecewise linear function -/

theorem line_left (x0 x1 y0 y1 : ℝ) : line x0 x1 y0 y1 x0 = y0 := by simp [line]

theorem line_right {x0 x1 : ℝ} (h : x0 < x1) (y0 y1 : ℝ) : line x0 x1 y0 y1 x1 = y1 := by
  have : x1 - x0 ≠ 0 := by linarith
  unfold line; field_simp; ring

theorem piecewise_head (xs ys : List ℝ) (x0 y0 : ℝ) (h : Asc (x0 :: xs)) :
    piecewise (x0 :: xs) (y0 :: ys) x0 = y0 := by
  cases xs with
  | nil => simp [piecewise]
  | cons x1 xs =>
    have h1 : x0 < x1 := (List.isChain_cons_cons.1 h).1
    cases ys with
    | nil => cases xs <;> simp [piecewise]
    | cons y1 ys =>
      cases xs with
      | nil => simp [piecewise, line_left]
      | cons x2 xs => simp [piecewise, h1.le, line_left]

/-- On the segment to use the function is the line of that segment. -/
theorem piecewise_governs {xs ys : List ℝ} (h : Asc xs) (hlen : ys.length = xs.length) {i : Nat}
    {x : ℝ} (hg : Governs xs i x) :
    piecewise xs ys x = line (xs[i]'(by have := hg.1; omega)) (xs[i + 1]'hg.1)
      (ys[i]'(by have := hg.1; omega)) (ys[i + 1]'(by have := hg.1; omega)) x := by
  induction xs generalizing ys i with
  | nil => exact absurd hg.1 (by simp)
  | cons x0 xs ih =>
    cases xs with
    | nil => exact absurd hg.1 (by simp)
    | cons x1 xs =>
      match ys, hlen with
      | y0 :: y1 :: ys, hlen =>
      have h01 : x0 < x1 := (List.isChain_cons_cons.1 h).1
      have hrest : Asc (x1 :: xs) := (List.isChain_cons_cons.1 h).2
      obtain ⟨hi, hg1, hg2⟩ := hg
      cases xs with
      | nil =>
        have : i = 0 := by simp at hi; omega
        subst this; simp [piecewise]
      | cons x2 xs =>
        cases i with
        | zero =>
          have : x ≤ x1 := by
            rcases hg2 with h | h
            · simp at h
            · exact h
          simp [piecewise, this]
        | succ i =>
          have hx : (x1 :: x2 :: xs)[i]'(by simpa using hi |> Nat.lt_of_succ_lt) ≤ x := by
            rcases hg1 with h | h
            · omega
            · simpa using h
          by_cases hc : x ≤ x1
          · -- then `i = 0` and `x = x1`
            have hi0 : i = 0 := by
              by_contra hne
              have := asc_lt hrest (i := 0) (j := i) (by simp) (by simp at hi ⊢; omega) (by omega)
              simp only [List.getElem_cons_zero] at this
              linarith
            subst hi0
            have hxe : x = x1 := le_antisymm hc (by simpa using hx)
            subst hxe
            simp [piecewise, line_left, line_right h01]
          · rw [piecewise, if_neg hc]
            have := ih (ys := y1 :: ys) (i := i) hrest (by simpa using hlen)
              ⟨by simpa using hi, by
                by_cases h0 : i = 0
                · exact .inl h0
                · exact .inr hx, by
                rcases hg2 with h | h
                · left; simp at h ⊢; omega
                · right; simpa using h⟩
            rw [this]
            simp

theorem piecewise_const {xs : List ℝ} {y0 : ℝ} (x : ℝ) : piecewise xs [y0] x = y0 := by
  match xs with
  | [] => rfl
  | [_] => rfl
  | [_, _] => rfl
  | _ :: _ :: _ :: _ => rfl

/-- At the points the function has the given values. -/
theorem piecewise_at {xs ys : List ℝ} (h : Asc xs) (hlen : ys.length = xs.length) {i : Nat}
    (hi : i < xs.length) : piecewise xs ys xs[i] = ys[i]'(by omega) := by
  by_cases h1 : ys.length = 1
  · obtain ⟨y0, rfl⟩ := List.length_eq_one_iff.1 h1
    rw [piecewise_const]
    have : i = 0 := by simp at hlen; omega
    subst this; rfl
  · by_cases h2 : i + 1 < xs.length
    · rw [piecewise_governs h hlen (i := i)
        ⟨h2, .inr le_rfl, .inr (asc_lt h _ _ (by omega)).le⟩, line_left]
    · have : i = (i - 1) + 1 := by omega
      have hg : Governs xs (i - 1) xs[i] := by
        refine ⟨by omega, .inr (asc_lt h _ _ (by omega)).le, .inl (by omega)⟩
      rw [piecewise_governs h hlen hg]
      have e1 : xs[i - 1 + 1]'hg.1 = xs[i] := by congr 1; omega
      have e2 : ys[i - 1 + 1]'(by omega) = ys[i]'(by omega) := by congr 1; omega
      rw [e1, e2, line_right (asc_lt h _ _ (by omega))]

theorem line_between {x0 x1 x : ℝ} (h : x0 < x1) (h0 : x0 ≤ x) (h1 : x ≤ x1) {y0 y1 lo hi : ℝ}
    (hy0 : lo ≤ y0 ∧ y0 ≤ hi) (hy1 : lo ≤ y1 ∧ y1 ≤ hi) :
    lo ≤ line x0 x1 y0 y1 x ∧ line x0 x1 y0 y1 x ≤ hi := by
  have hd : 0 < x1 - x0 := by linarith
  have e : line x0 x1 y0 y1 x = ((x1 - x) * y0 + (x - x0) * y1) / (x1 - x0) := by
    unfold line; field_simp; ring
  rw [e, le_div_iff₀ hd, div_le_iff₀ hd]
  constructor
  · nlinarith [mul_nonneg (sub_nonneg.2 h1) (sub_nonneg.2 hy0.1),
      mul_nonneg (sub_nonneg.2 h0) (sub_nonneg.2 hy1.1)]
  · nlinarith [mul_nonneg (sub_nonneg.2 h1) (sub_nonneg.2 hy0.2),
      mul_nonneg (sub_nonneg.2 h0) (sub_nonneg.2 hy1.2)]

theorem exists_governs {xs : List ℝ} (h : Asc xs) (hl : 2 ≤ xs.length) (x : ℝ) :
    ∃ i, Governs xs i x := (getIdx_governs h hl x).imp fun _ h => h.2

/-- Inside the range the function stays within bounds of the values. -/
theorem piecewise_between {xs ys : List ℝ} (h : Asc xs) (hlen : ys.length = xs.length)
    (hne : xs ≠ []) {x lo hi : ℝ} (h0 : ∀ a, xs.head? = some a → a ≤ x)
    (h1 : ∀ a, xs.getLast? = some a → x ≤ a) (hy : ∀ y ∈ ys, lo ≤ y ∧ y ≤ hi) :
    lo ≤ piecewise xs ys x ∧ piecewise xs ys x ≤ hi := by
  by_cases hl : ys.length = 1
  · obtain ⟨y0, rfl⟩ := List.length_eq_one_iff.1 hl
    rw [piecewise_const]; exact hy _ (by simp)
  · have hpos := List.length_pos_iff.2 hne
    obtain ⟨i, hg⟩ := exists_governs h (by omega) x
    rw [piecewise_governs h hlen hg]
    obtain ⟨hi', hg1, hg2⟩ := hg
    refine line_between (asc_lt h _ _ (by omega)) ?_ ?_ (hy _ (List.getElem_mem _))
      (hy _ (List.getElem_mem _))
    · rcases hg1 with h' | h'
      · subst h'
        apply h0
        rw [List.head?_eq_getElem?, List.getElem?_eq_getElem]
      · exact h'
    · rcases hg2 with h' | h'
      · apply h1
        rw [List.getLast?_eq_getElem?, List.getElem?_eq_getElem (by omega)]
        congr 2; omega
      · exact h'

/-- The function is continuous, jointly in the argument and in anything the values depend on
continuously. -/
theorem piecewise_continuous {T : Type} [TopologicalSpace T] {xs : List ℝ} (h : Asc xs)
    (gs : List (T → ℝ)) (hg : ∀ g ∈ gs, Continuous g) :
    Continuous fun p : ℝ × T => piecewise xs (gs.map fun g => g p.2) p.1 := by
  have hline : ∀ (x0 x1 : ℝ) (g0 g1 : T → ℝ), Continuous g0 → Continuous g1 →
      Continuous fun p : ℝ × T => line x0 x1 (g0 p.2) (g1 p.2) p.1 := by
    intro x0 x1 g0 g1 h0 h1
    unfold line
    fun_prop
  induction xs generalizing gs with
  | nil =>
    cases gs with
    | nil => simp only [List.map_nil, piecewise]; exact continuous_const
    | cons g gs =>
      simp only [List.map_cons, piecewise]
      exact (hg g (by simp)).comp continuous_snd
  | cons x0 xs ih =>
    cases gs with
    | nil => simp only [List.map_nil, piecewise]; exact continuous_const
    | cons g gs =>
      cases gs with
      | nil =>
        simp only [List.map_cons, List.map_nil, piecewise_const]
        exact (hg g (by simp)).comp continuous_snd
      | cons g1 gs =>
        have hg0 := hg g (by simp)
        have hg1 := hg g1 (by simp)
        match xs, h with
        | [], h =>
          simp only [List.map_cons, piecewise]
          exact hg0.comp continuous_snd
        | [x1], h =>
          simp only [List.map_cons, piecewise]
          exact hline _ _ _ _ hg0 hg1
        | x1 :: x2 :: xs, h =>
          have h01 : x0 < x1 := (List.isChain_cons_cons.1 h).1
          have hrest : Asc (x1 :: x2 :: xs) := (List.isChain_cons_cons.1 h).2
          have := ih hrest (g1 :: gs) fun g hg' => hg g (List.mem_cons_of_mem _ hg')
          simp only [List.map_cons, piecewise] at this ⊢
          refine Continuous.if_le (hline _ _ _ _ hg0 hg1) this continuous_fst continuous_const ?_
          rintro ⟨x, t⟩ hx
          simp only at hx
          subst hx
          rw [line_right h01, piecewise_head _ _ _ _ hrest]

/-! ## The model computes the piecewise linear function -/

/-- The common interpolation scheme, in exact arithmetic. -/
theorem interp_fin {T : Type} {inner : T → Except Panic XR} {xs : List ℝ} (h : Asc xs)
    {data : List T} (hne : data ≠ []) (hlen : data.length = xs.length) (x : ℝ) (val : T → ℝ)
    (hval : ∀ t ∈ data, inner t = .ok (.fin (val t))) :
    interp inner (xs.map XR.fin) (.fin x) data =
      .ok (.fin (piecewise xs (data.map val) x)) := by
  have hpos := List.length_pos_iff.2 hne
  unfold interp
  rw [if_neg (by simpa using hne)]
  by_cases h1 : data.length = 1
  · rw [if_pos h1]
    obtain ⟨t, rfl⟩ := List.length_eq_one_iff.1 h1
    simp [idx, bind, Except.bind, hval t (by simp), piecewise_const]
  · rw [if_neg h1]
    obtain ⟨i, hgi, hg⟩ := getIdx_governs h (by omega) x
    have hi := hg.1
    rw [piecewise_governs h (by simpa using hlen) hg]
    have e0 : idx (xs.map XR.fin) i = .ok (.fin xs[i]) := by
      rw [idx_lt (by simp; omega)]; simp
    have e1 : idx (xs.map XR.fin) (i + 1) = .ok (.fin xs[i + 1]) := by
      rw [idx_lt (by simp; omega)]; simp
    have hd : xs[i + 1] - xs[i] ≠ 0 := by
      have := asc_lt h (i := i) (j := i + 1) (by omega) (by omega) (by omega)
      linarith
    have d0 := hval data[i] (List.getElem_mem (by omega))
    have d1 := hval data[i + 1] (List.getElem_mem (by omega))
    simp only [hgi, bind, Except.bind, e0, e1, idx_lt (l := data) (i := i) (by omega),
      idx_lt (l := data) (i := i + 1) (by omega), d0, d1, XR.fin_sub, XR.fin_mul,
      XR.fin_div _ _ hd, XR.fin_add]
    simp [line]

theorem linearInterpolate_fin {xs : List ℝ} (h : Asc xs) {ys : List ℝ} (hne : ys ≠ [])
    (hlen : ys.length = xs.length) (x : ℝ) :
    linearInterpolate (xs.map XR.fin) (.fin x) (ys.map XR.fin) =
      .ok (.fin (piecewise xs ys x)) := by
  rw [linearInterpolate_eq]
  have hkey : ∀ t : XR, ∃ r : ℝ, (∃ y, t = .fin y) → t = .fin r := by
    intro t; cases t with
    | fin r => exact ⟨r, fun _ => rfl⟩
    | _ => exact ⟨0, fun ⟨_, h⟩ => by cases h⟩
  choose val hv using hkey
  rw [interp_fin h (by simpa using hne) (by simpa using hlen) x val]
  · rw [List.map_map]
    have : (val ∘ XR.fin) = id := by
      funext y
      have := hv (.fin y) ⟨y, rfl⟩
      injection this with this
      exact this.symm
    rw [this, List.map_id]
  · intro t ht
    obtain ⟨y, _, rfl⟩ := List.mem_map.1 ht
    rw [← hv (.fin y) ⟨y, rfl⟩]

theorem bilinearInterpolate_fin {xs ys : List ℝ} (hx : Asc xs) (hy : Asc ys)
    {data : List (List ℝ)} (hne : data ≠ []) (hlen : data.length = xs.length)
    (hrow : ∀ r ∈ data, r ≠ [] ∧ r.length = ys.length) (x y : ℝ) :
    bilinearInterpolate (xs.map XR.fin) (.fin x) (ys.map XR.fin) (.fin y)
      (data.map (·.map XR.fin)) = .ok (.fin (grid2 xs ys data x y)) := by
  rw [bilinearInterpolate_eq]
  -- interpolate over the real rows
  have hm : ∀ (inner : List XR → Except Panic XR),
      interp inner (xs.map XR.fin) (.fin x) (data.map (·.map XR.fin)) =
        interp (fun r : List ℝ => inner (r.map XR.fin)) (xs.map XR.fin) (.fin x) data := by
    intro inner
    unfold interp idx
    simp only [List.isEmpty_map, List.length_map, List.getElem?_map]
    congr 1
    congr 1
    · cases data[0]? <;> rfl
    · congr 1
      funext ⟨i0, i1⟩
      simp only
      cases data[i0]? <;> cases data[i1]? <;> rfl
  rw [hm, interp_fin hx hne hlen x (fun r => piecewise ys r y)]
  · rfl
  · intro r hr
    exact linearInterpolate_fin hy (hrow r hr).1 (hrow r hr).2 y

theorem trilinearInterpolate_fin {xs ys zs : List ℝ} (hx : Asc xs) (hy : Asc ys) (hz : Asc zs)
    {data : List (List (List ℝ))} (hne : data ≠ []) (hlen : data.length = xs.length)
    (hplane : ∀ p ∈ data, p ≠ [] ∧ p.length = ys.length ∧
      ∀ r ∈ p, r ≠ [] ∧ r.length = zs.length) (x y z : ℝ) :
    trilinearInterpolate (xs.map XR.fin) (.fin x) (ys.map XR.fin) (.fin y) (zs.map XR.fin)
      (.fin z) (data.map (·.map (·.map XR.fin))) = .ok (.fin (grid3 xs ys zs data x y z)) := by
  rw [trilinearInterpolate_eq]
  have hm : ∀ (inner : List (List XR) → Except Panic XR),
      interp inner (xs.map XR.fin) (.fin x) (data.map (·.map (·.map XR.fin))) =
        interp (fun p : List (List ℝ) => inner (p.map (·.map XR.fin))) (xs.map XR.fin) (.fin x)
          data := by
    intro inner
    unfold interp idx
    simp only [List.isEmpty_map, List.length_map, List.getElem?_map]
    congr 1
    congr 1
    · cases data[0]? <;> rfl
    · congr 1
      funext ⟨i0, i1⟩
      simp only
      cases data[i0]? <;> cases data[i1]? <;> rfl
  rw [hm, interp_fin hx hne hlen x (fun p => grid2 ys zs p y z)]
  · rfl
  · intro p hp
    exact bilinearInterpolate_fin hy hz (hplane p hp).1 (hplane p hp).2.1 (hplane p hp).2.2 y z

end Post
