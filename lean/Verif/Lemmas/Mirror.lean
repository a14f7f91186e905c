import Verif.Spec.Mirror
import Verif.Lemmas.Scale
import Verif.Lemmas.Launch
import Verif.Props.Orbit
/-! # Changing signs of extended reals, mirroring vectors -/

namespace Post
open Spec Flt

namespace XR

theorem neg_neg' (x : XR) : - -x = x := by
  cases x <;> first | rfl | (rw [fin_neg, fin_neg, neg_neg])

theorem neg_zero' : (-(0 : XR)) = 0 := by rw [fin_zero, fin_neg, neg_zero]

theorem neg_infMul (r : ℝ) : (-infMul r : XR) = infMul (-r) := by
  unfold infMul
  rcases lt_trichotomy r 0 with h | h | h
  · have h1 : ¬ 0 < r := not_lt.2 h.le
    have h2 : 0 < -r := by linarith
    rw [if_neg h1, if_pos h, if_pos h2]; rfl
  · subst h; simp; rfl
  · have h1 : ¬ 0 < -r := by linarith
    have h2 : -r < 0 := by linarith
    rw [if_pos h, if_neg h1, if_pos h2]; rfl

theorem neg_add' (x y : XR) : -(x + y) = -x + -y := by
  cases x <;> cases y <;> first | rfl | (rw [fin_neg, fin_neg, fin_add, fin_add, fin_neg, neg_add])

theorem neg_sub' (x y : XR) : -(x - y) = -x - -y := by rw [sub_eq, sub_eq, neg_add']

theorem neg_mul' (x y : XR) : -x * y = -(x * y) := by
  have pf : ∀ a : ℝ, (XR.pinf * .fin a : XR) = infMul a := fun _ => rfl
  have nf : ∀ a : ℝ, (XR.ninf * .fin a : XR) = infMul (-a) := fun _ => rfl
  have fp : ∀ a : ℝ, (XR.fin a * .pinf : XR) = infMul a := fun _ => rfl
  have fn : ∀ a : ℝ, (XR.fin a * .ninf : XR) = infMul (-a) := fun _ => rfl
  have np : (-XR.pinf : XR) = .ninf := rfl
  have nn : (-XR.ninf : XR) = .pinf := rfl
  cases x <;> cases y <;> first
    | rfl
    | (rw [fin_neg, fin_mul, fin_mul, fin_neg, neg_mul])
    | (rw [np, nf, pf, neg_infMul])
    | (rw [nn, nf, pf, neg_infMul, neg_neg])
    | (rw [fin_neg, fp, fp, neg_infMul])
    | (rw [fin_neg, fn, fn, neg_infMul])

theorem mul_neg' (x y : XR) : x * -y = -(x * y) := by rw [mul_comm', neg_mul', mul_comm']

theorem neg_mul_neg' (x y : XR) : -x * -y = x * y := by rw [neg_mul', mul_neg', neg_neg']

theorem neg_div' (x y : XR) : -x / y = -(x / y) := by
  have pf : ∀ a : ℝ, (XR.pinf / .fin a : XR) = if a < 0 then .ninf else .pinf := fun _ => rfl
  have nf : ∀ a : ℝ, (XR.ninf / .fin a : XR) = if a < 0 then .pinf else .ninf := fun _ => rfl
  have np : (-XR.pinf : XR) = .ninf := rfl
  have nn : (-XR.ninf : XR) = .pinf := rfl
  cases x <;> cases y <;> first
    | rfl
    | (rw [np, nf, pf]; split <;> rfl)
    | (rw [nn, nf, pf]; split <;> rfl)
    | (show (-XR.fin _ / _ : XR) = -(XR.fin _ / _)
       rw [fin_neg]; show XR.fin 0 = -XR.fin 0; rw [fin_neg, neg_zero])
    | skip
  rename_i a b
  by_cases hb : b = 0
  · subst hb; rw [fin_neg, fin_div_zero, fin_div_zero, neg_infMul]
  · rw [fin_neg, fin_div _ _ hb, fin_div _ _ hb, fin_neg, neg_div]

theorem eq_neg_zero (x : XR) : Flt.eq (-x) 0 = Flt.eq x 0 := by
  rw [fin_zero]
  cases x with
  | fin a =>
    rw [fin_neg, fin_eq, fin_eq]
    congr 1
    exact propext neg_eq_zero
  | _ => rfl

theorem isNan_neg (x : XR) : Flt.isNan (-x) = Flt.isNan x := by
  cases x with
  | fin a => rw [fin_neg, isNan_fin, isNan_fin]
  | _ => rfl

end XR

theorem nanToZero_neg (x : XR) : nanToZero (-x) = -nanToZero x := by
  unfold nanToZero
  rw [XR.isNan_neg]
  split
  · rw [XR.neg_zero']
  · rfl

/-! ## Vectors -/

theorem mirrorVec_norm (v : V3 XR) : (mirrorVec v).norm = v.norm := by
  unfold V3.norm V3.dot mirrorVec
  simp only [XR.neg_mul_neg']
theorem mirrorBody_norm (v : V3 XR) : (mirrorBody v).norm = v.norm := by
  unfold V3.norm V3.dot mirrorBody
  simp only [XR.neg_mul_neg']
theorem mirrorBody_dot (v w : V3 XR) : V3.dot (mirrorBody v) (mirrorBody w) = V3.dot v w := by
  unfold V3.dot mirrorBody
  simp only [XR.neg_mul_neg']
theorem mirrorBody_angle (v w : V3 XR) : V3.angle (mirrorBody v) (mirrorBody w) = V3.angle v w := by
  unfold V3.angle
  rw [mirrorBody_norm, mirrorBody_norm, mirrorBody_dot]
theorem mirrorBody_beq (v : V3 XR) : V3.beq (mirrorBody v) .zero = V3.beq v .zero := by
  unfold V3.beq mirrorBody V3.zero
  simp only [XR.eq_neg_zero]
theorem mirrorVec_zero : mirrorVec V3.zero = V3.zero := by
  unfold mirrorVec V3.zero
  simp only [XR.neg_zero']
theorem mirrorBody_zero : mirrorBody V3.zero = V3.zero := by
  unfold mirrorBody V3.zero
  simp only [XR.neg_zero']
theorem mirrorVec_add (v w : V3 XR) : mirrorVec (v + w) = mirrorVec v + mirrorVec w := by
  show V3.mk _ _ (-(v.z + w.z)) = V3.mk _ _ (-v.z + -w.z)
  rw [XR.neg_add']; rfl
theorem mirrorVec_sub (v w : V3 XR) : mirrorVec (v - w) = mirrorVec v - mirrorVec w := by
  show V3.mk _ _ (-(v.z - w.z)) = V3.mk _ _ (-v.z - -w.z)
  rw [XR.neg_sub']; rfl
theorem mirrorBody_add (v w : V3 XR) : mirrorBody (v + w) = mirrorBody v + mirrorBody w := by
  show V3.mk _ (-(v.y + w.y)) _ = V3.mk _ (-v.y + -w.y) _
  rw [XR.neg_add']; rfl
theorem mirrorVec_smul (k : XR) (v : V3 XR) : mirrorVec (V3.smul k v) = V3.smul k (mirrorVec v) := by
  unfold V3.smul mirrorVec
  simp only [XR.mul_neg']
theorem mirrorBody_smul (k : XR) (v : V3 XR) :
    mirrorBody (V3.smul k v) = V3.smul k (mirrorBody v) := by
  unfold V3.smul mirrorBody
  simp only [XR.mul_neg']
theorem mirrorBody_divS (k : XR) (v : V3 XR) :
    mirrorBody (V3.divS v k) = V3.divS (mirrorBody v) k := by
  unfold V3.divS mirrorBody
  simp only [XR.neg_div']
theorem mirrorBody_sum (l : List (V3 XR)) : mirrorBody (V3.sum l) = V3.sum (l.map mirrorBody) := by
  have : ∀ (l : List (V3 XR)) z, mirrorBody (l.foldl (· + ·) z) =
      (l.map mirrorBody).foldl (· + ·) (mirrorBody z) := by
    intro l
    induction l with
    | nil => intro z; rfl
    | cons a l ih => intro z; simp only [List.foldl_cons, List.map_cons, ih, mirrorBody_add]
  have h := this l .zero
  rwa [mirrorBody_zero] at h
theorem mirrorVec_mirrorVec (v : V3 XR) : mirrorVec (mirrorVec v) = v := by
  unfold mirrorVec; simp only [XR.neg_neg']
theorem mirrorBody_mirrorBody (v : V3 XR) : mirrorBody (mirrorBody v) = v := by
  unfold mirrorBody; simp only [XR.neg_neg']

/-! ## Tables -/

theorem idx_map {α β : Type} (f : α → β) (l : List α) (i : ℕ) :
    idx (l.map f) i = (idx l i).map f := by
  unfold idx
  rw [List.getElem?_map]
  cases l[i]? <;> rfl

/-- one level of interpolation, with the values of the next level changed -/
theorem linearInterpolate_neg (axis : List XR) (x : XR) (data : List XR) :
    linearInterpolate axis x (data.map (-·)) = (linearInterpolate axis x data).map (-·) := by
  unfold linearInterpolate
  simp only [List.isEmpty_map, List.length_map, idx_map]
  split
  · rfl
  · split
    · rfl
    · cases getIdx axis x with
      | error e => rfl
      | ok ij =>
        obtain ⟨i, j⟩ := ij
        simp only [bind, Except.bind]
        cases idx axis i with
        | error e => rfl
        | ok x0 =>
          simp only
          cases idx axis j with
          | error e => rfl
          | ok x1 =>
            simp only
            cases idx data i with
            | error e => rfl
            | ok y0 =>
              simp only [Except.map]
              cases idx data j with
              | error e => rfl
              | ok y1 =>
                simp only
                rw [← XR.neg_sub', XR.mul_neg', XR.neg_div', XR.neg_add']

theorem bilinearInterpolate_neg (xs : List XR) (x : XR) (ys : List XR) (y : XR)
    (data : List (List XR)) : bilinearInterpolate xs x ys y (data.map (·.map (-·))) =
      (bilinearInterpolate xs x ys y data).map (-·) := by
  unfold bilinearInterpolate
  simp only [List.isEmpty_map, List.length_map, idx_map]
  split
  · rfl
  · split
    · cases idx data 0 with
      | error e => rfl
      | ok d => exact linearInterpolate_neg _ _ _
    · cases getIdx xs x with
      | error e => rfl
      | ok ij =>
        obtain ⟨i, j⟩ := ij
        simp only [bind, Except.bind]
        cases idx xs i with
        | error e => rfl
        | ok x0 =>
          simp only
          cases idx xs j with
          | error e => rfl
          | ok x1 =>
            simp only
            cases idx data i with
            | error e => rfl
            | ok d0 =>
              simp only [Except.map, linearInterpolate_neg]
              cases linearInterpolate ys y d0 with
              | error e => rfl
              | ok y0 =>
                simp only
                cases idx data j with
                | error e => rfl
                | ok d1 =>
                  simp only [Except.map, linearInterpolate_neg]
                  cases linearInterpolate ys y d1 with
                  | error e => rfl
                  | ok y1 =>
                    simp only
                    rw [← XR.neg_sub', XR.mul_neg', XR.neg_div', XR.neg_add']

theorem trilinearInterpolate_neg (xs : List XR) (x : XR) (ys : List XR) (y : XR) (zs : List XR) (z : XR)
    (data : List (List (List XR))) :
    trilinearInterpolate xs x ys y zs z (data.map (·.map (·.map (-·)))) =
      (trilinearInterpolate xs x ys y zs z data).map (-·) := by
  unfold trilinearInterpolate
  simp only [List.isEmpty_map, List.length_map, idx_map]
  split
  · rfl
  · split
    · cases idx data 0 with
      | error e => rfl
      | ok d => exact bilinearInterpolate_neg _ _ _ _ _
    · cases getIdx xs x with
      | error e => rfl
      | ok ij =>
        obtain ⟨i, j⟩ := ij
        simp only [bind, Except.bind]
        cases idx xs i with
        | error e => rfl
        | ok x0 =>
          simp only
          cases idx xs j with
          | error e => rfl
          | ok x1 =>
            simp only
            cases idx data i with
            | error e => rfl
            | ok d0 =>
              simp only [Except.map, bilinearInterpolate_neg]
              cases bilinearInterpolate ys y zs z d0 with
              | error e => rfl
              | ok y0 =>
                simp only
                cases idx data j with
                | error e => rfl
                | ok d1 =>
                  simp only [Except.map, bilinearInterpolate_neg]
                  cases bilinearInterpolate ys y zs z d1 with
                  | error e => rfl
                  | ok y1 =>
                    simp only
                    rw [← XR.neg_sub', XR.mul_neg', XR.neg_div', XR.neg_add']

theorem negTable_atState (t : Table XR) (s : State XR) :
    (negTable t).atState s = (t.atState s).map (-·) := by
  cases t with
  | d1 t => exact linearInterpolate_neg _ _ _
  | d2 t => exact bilinearInterpolate_neg _ _ _ _ _
  | d3 t => exact trilinearInterpolate_neg _ _ _ _ _ _ _

theorem negTable_variables (t : Table XR) : tableVariables (negTable t) = tableVariables t := by
  cases t <;> rfl

end Post
