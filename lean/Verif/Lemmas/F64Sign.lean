import Verif.Lemmas.F64Round
/-! # Signs and order in binary64 -/

namespace Post

/-- `x` is NaN or at most `y`. -/
def Spec.AtMost {F : Type} [Flt F] (x y : F) : Prop :=
  Flt.isNan x = true ∨ Flt.lt x y = true ∨ Flt.eq x y = true

namespace Dbl

/-- NaN or not negative -/
def NotNeg : Dbl → Prop
  | nan => True
  | inf s => s = false
  | fin s a => 0 ≤ val s a

/-- NaN or not positive -/
def NotPos : Dbl → Prop
  | nan => True
  | inf s => s = true
  | fin s a => val s a ≤ 0

/-- NaN or at most -/
def AtMost : Dbl → Dbl → Prop
  | nan, _ => True
  | _, nan => False
  | inf s, inf t => t = true → s = true
  | inf s, fin _ _ => s = true
  | fin _ _, inf t => t = false
  | fin s a, fin t b => val s a ≤ val t b

theorem AtMost.refl (x : Dbl) : AtMost x x := by cases x <;> simp [AtMost]

theorem AtMost.trans {x y z : Dbl} (h1 : AtMost x y) (h2 : AtMost y z) : AtMost x z := by
  rcases x with _ | s | ⟨s, a⟩ <;> rcases y with _ | t | ⟨t, b⟩ <;> rcases z with _ | u | ⟨u, c⟩ <;>
    simp_all [AtMost]
  exact le_trans h1 h2

theorem val_round (s : Bool) (q : ℚ) :
    (q = 0 ∧ round s q = .fin s 0) ∨
    (0 < q ∧ round s q = if 2 ^ 1024 ≤ roundMag q then .inf false else .fin false (roundMag q)) ∨
    (q < 0 ∧ round s q = if 2 ^ 1024 ≤ roundMag (-q) then .inf true else .fin true (roundMag (-q))) := by
  rcases lt_trichotomy q 0 with h | h | h
  · right; right
    refine ⟨h, ?_⟩
    unfold round
    rw [if_neg h.ne, abs_of_neg h]
    simp [h]
  · left
    refine ⟨h, ?_⟩
    unfold round; rw [if_pos h]
  · right; left
    refine ⟨h, ?_⟩
    unfold round
    rw [if_neg h.ne', abs_of_pos h, decide_eq_false (not_lt.2 h.le)]

theorem val_zero (s : Bool) : val s 0 = 0 := by cases s <;> simp [val]

theorem round_notNeg {s : Bool} {q : ℚ} (h : 0 ≤ q) : NotNeg (round s q) := by
  rcases val_round s q with ⟨_, h1⟩ | ⟨hq, h1⟩ | ⟨hq, h1⟩
  · rw [h1]; simp [NotNeg, val_zero]
  · rw [h1]
    split
    · rfl
    · exact roundMag_nonneg hq.le
  · linarith

theorem round_notPos {s : Bool} {q : ℚ} (h : q ≤ 0) : NotPos (round s q) := by
  rcases val_round s q with ⟨_, h1⟩ | ⟨hq, h1⟩ | ⟨hq, h1⟩
  · rw [h1]; simp [NotPos, val_zero]
  · linarith
  · rw [h1]
    split
    · rfl
    · have := roundMag_nonneg (show 0 ≤ -q by linarith)
      show -roundMag (-q) ≤ 0
      linarith

/-- Rounding a number that is not above a double gives a number that is not above it. -/
theorem round_atMost {s t : Bool} {q b : ℚ} (hb : IsMag b) (h : q ≤ val t b) :
    AtMost (round s q) (.fin t b) := by
  have hb0 := hb.nonneg
  rcases val_round s q with ⟨hq, h1⟩ | ⟨hq, h1⟩ | ⟨hq, h1⟩
  · rw [h1]; simpa [AtMost, val_zero, hq] using h
  · rw [h1]
    have ht : t = false := by
      cases t
      · rfl
      · exact absurd h (not_le.2 (lt_of_le_of_lt (by simpa [val] using hb0) hq))
    subst ht
    have h2 : roundMag q ≤ b := roundMag_le hq.le hb.onGrid h
    rw [if_neg (not_le.2 (lt_of_le_of_lt h2 hb.lt))]
    exact h2
  · rw [h1]
    split
    · rfl
    · show -roundMag (-q) ≤ val t b
      cases t
      · have := roundMag_nonneg (show 0 ≤ -q by linarith)
        show -roundMag (-q) ≤ b
        linarith
      · have h2 : b ≤ roundMag (-q) := le_roundMag hb.onGrid (by
          have : q ≤ -b := h
          linarith)
        show -roundMag (-q) ≤ -b
        linarith

/-- Rounding a number that is not below a double gives a number that is not below it. -/
theorem atMost_round {s t : Bool} {q b : ℚ} (hb : IsMag b) (h : val t b ≤ q) :
    AtMost (.fin t b) (round s q) := by
  have hb0 := hb.nonneg
  rcases val_round s q with ⟨hq, h1⟩ | ⟨hq, h1⟩ | ⟨hq, h1⟩
  · rw [h1]; simpa [AtMost, val_zero, hq] using h
  · rw [h1]
    split
    · rfl
    · show val t b ≤ roundMag q
      cases t
      · exact le_roundMag hb.onGrid h
      · have := roundMag_nonneg hq.le
        show -b ≤ roundMag q
        linarith
  · rw [h1]
    have ht : t = true := by
      cases t
      · exact absurd h (not_le.2 (lt_of_lt_of_le hq hb0))
      · rfl
    subst ht
    have h2 : roundMag (-q) ≤ b := roundMag_le (by linarith) hb.onGrid (by
      have : -b ≤ q := h
      linarith)
    rw [if_neg (not_le.2 (lt_of_le_of_lt h2 hb.lt))]
    show -b ≤ -roundMag (-q)
    linarith

theorem add_isDouble (x y : Dbl) : IsDouble (x.add y) := by
  rcases x with _ | s | ⟨s, a⟩ <;> rcases y with _ | t | ⟨t, b⟩ <;>
    first | trivial | exact round_isDouble _ _ | (simp only [add]; split <;> trivial)

theorem NotPos.add {x y : Dbl} (hx : NotPos x) (hy : NotPos y) : NotPos (x.add y) := by
  rcases x with _ | s | ⟨s, a⟩ <;> rcases y with _ | t | ⟨t, b⟩ <;> simp only [NotPos] at hx hy <;>
    first
    | trivial
    | (subst hx hy; simp [Dbl.add, NotPos])
    | exact round_notPos (by linarith)

theorem NotNeg.add {x y : Dbl} (hx : NotNeg x) (hy : NotNeg y) : NotNeg (x.add y) := by
  rcases x with _ | s | ⟨s, a⟩ <;> rcases y with _ | t | ⟨t, b⟩ <;> simp only [NotNeg] at hx hy <;>
    first
    | trivial
    | (subst hx hy; simp [Dbl.add, NotNeg])
    | exact round_notNeg (by linarith)

theorem val_nonneg_sign {s : Bool} {a : ℚ} (ha : 0 ≤ a) (h : 0 ≤ val s a) : a = 0 ∨ s = false := by
  cases s
  · exact .inr rfl
  · left
    have : 0 ≤ -a := h
    linarith

theorem val_nonpos_sign {s : Bool} {a : ℚ} (ha : 0 ≤ a) (h : val s a ≤ 0) : a = 0 ∨ s = true := by
  cases s
  · left
    have : a ≤ 0 := h
    linarith
  · exact .inr rfl

/-- the magnitude is not negative -/
def MagOk : Dbl → Prop
  | .fin _ a => 0 ≤ a
  | _ => True

theorem round_magOk (s : Bool) (q : ℚ) : MagOk (round s q) := by
  unfold round
  split_ifs
  · exact le_refl _
  · trivial
  · exact roundMag_nonneg (abs_nonneg q)

theorem IsDouble.magOk {x : Dbl} (h : IsDouble x) : MagOk x := by
  rcases x with _ | s | ⟨s, a⟩
  · trivial
  · trivial
  · exact IsMag.nonneg h

theorem mul_isDouble (x y : Dbl) : IsDouble (x.mul y) := by
  rcases x with _ | s | ⟨s, a⟩ <;> rcases y with _ | t | ⟨t, b⟩ <;>
    first | trivial | exact round_isDouble _ _ | (simp only [mul]; split <;> trivial)

theorem div_isDouble (x y : Dbl) : IsDouble (x.div y) := by
  rcases x with _ | s | ⟨s, a⟩ <;> rcases y with _ | t | ⟨t, b⟩ <;>
    first | trivial | exact isMag_zero | skip
  simp only [div]
  split_ifs <;> first | trivial | exact round_isDouble _ _

theorem neg_isDouble {x : Dbl} (h : IsDouble x) : IsDouble x.neg := by
  rcases x with _ | s | ⟨s, a⟩ <;> exact h

theorem NotNeg.mul_notPos {x y : Dbl} (mx : MagOk x) (my : MagOk y) (hx : NotNeg x)
    (hy : NotPos y) : NotPos (x.mul y) := by
  rcases x with _ | s | ⟨s, a⟩ <;> rcases y with _ | t | ⟨t, b⟩ <;> simp only [NotNeg, NotPos] at hx hy
  case fin.fin => exact round_notPos (mul_nonpos_of_nonneg_of_nonpos hx hy)
  case inf.inf => subst hx hy; rfl
  case inf.fin =>
    subst hx
    rcases val_nonpos_sign my hy with rfl | rfl
    · simp [Dbl.mul, NotPos]
    · simp only [Dbl.mul]; split <;> simp [NotPos]
  case fin.inf =>
    subst hy
    rcases val_nonneg_sign mx hx with rfl | rfl
    · simp [Dbl.mul, NotPos]
    · simp only [Dbl.mul]; split <;> simp [NotPos]
  all_goals trivial

theorem NotNeg.mul {x y : Dbl} (mx : MagOk x) (my : MagOk y) (hx : NotNeg x)
    (hy : NotNeg y) : NotNeg (x.mul y) := by
  rcases x with _ | s | ⟨s, a⟩ <;> rcases y with _ | t | ⟨t, b⟩ <;> simp only [NotNeg] at hx hy
  case fin.fin => exact round_notNeg (mul_nonneg hx hy)
  case inf.inf => subst hx hy; rfl
  case inf.fin =>
    subst hx
    rcases val_nonneg_sign my hy with rfl | rfl
    · simp [Dbl.mul, NotNeg]
    · simp only [Dbl.mul]; split <;> simp [NotNeg]
  case fin.inf =>
    subst hy
    rcases val_nonneg_sign mx hx with rfl | rfl
    · simp [Dbl.mul, NotNeg]
    · simp only [Dbl.mul]; split <;> simp [NotNeg]
  all_goals trivial

/-- NaN, or the sign bit is not set -/
def Plus : Dbl → Prop
  | nan => True
  | inf s => s = false
  | fin s _ => s = false

theorem NotNeg.div {x y : Dbl} (mx : MagOk x) (my : MagOk y) (hx : NotNeg x) (hy : Plus y) :
    NotNeg (x.div y) := by
  rcases x with _ | s | ⟨s, a⟩ <;> rcases y with _ | t | ⟨t, b⟩ <;> simp only [NotNeg, Plus] at hx hy
  case fin.fin =>
    subst hy
    simp only [Dbl.div]
    split_ifs with h1 h2
    · trivial
    · rcases val_nonneg_sign mx hx with h | rfl
      · exact absurd h h2
      · rfl
    · exact round_notNeg (div_nonneg hx my)
  case inf.inf => trivial
  case inf.fin => subst hx hy; rfl
  case fin.inf => simp [Dbl.div, NotNeg, val_zero]
  all_goals trivial

theorem NotPos.div {x y : Dbl} (mx : MagOk x) (my : MagOk y) (hx : NotPos x) (hy : Plus y) :
    NotPos (x.div y) := by
  rcases x with _ | s | ⟨s, a⟩ <;> rcases y with _ | t | ⟨t, b⟩ <;> simp only [NotPos, Plus] at hx hy
  case fin.fin =>
    subst hy
    simp only [Dbl.div]
    split_ifs with h1 h2
    · trivial
    · rcases val_nonpos_sign mx hx with h | rfl
      · exact absurd h h2
      · rfl
    · exact round_notPos (div_nonpos_of_nonpos_of_nonneg hx my)
  case inf.inf => trivial
  case inf.fin => subst hx hy; rfl
  case fin.inf => simp [Dbl.div, NotPos, val_zero]
  all_goals trivial

/-- Adding something that is not positive to a double gives at most this double. -/
theorem add_atMost {x y : Dbl} (hx : IsDouble x) (hy : NotPos y) : AtMost (x.add y) x := by
  rcases x with _ | s | ⟨s, a⟩ <;> rcases y with _ | t | ⟨t, b⟩ <;> simp only [NotPos] at hy
  case fin.fin => exact round_atMost hx (by linarith)
  case inf.inf => subst hy; cases s <;> simp [Dbl.add, AtMost]
  case fin.inf => subst hy; rfl
  case inf.fin => exact AtMost.refl _
  all_goals trivial

theorem atMost_add {x y : Dbl} (hx : IsDouble x) (hn : x.add y ≠ nan) (hy : NotNeg y) :
    AtMost x (x.add y) := by
  rcases x with _ | s | ⟨s, a⟩ <;> rcases y with _ | t | ⟨t, b⟩ <;> simp only [NotNeg] at hy
  case fin.fin => exact atMost_round hx (by linarith)
  case inf.inf => subst hy; cases s <;> simp_all [Dbl.add, AtMost]
  case fin.inf => subst hy; rfl
  case inf.fin => exact AtMost.refl _
  all_goals trivial

/-- Rounding is monotone. -/
theorem round_mono {s t : Bool} {q r : ℚ} (h : q ≤ r) : AtMost (round s q) (round t r) := by
  rcases val_round s q with ⟨hq, h1⟩ | ⟨hq, h1⟩ | ⟨hq, h1⟩ <;>
    rcases val_round t r with ⟨hr, h2⟩ | ⟨hr, h2⟩ | ⟨hr, h2⟩ <;> rw [h1, h2] <;> try linarith
  · simp [AtMost, val_zero]
  · split
    · rfl
    · simpa [AtMost, val] using roundMag_nonneg hr.le
  · have hm := roundMag_mono hq.le h
    split
    · next h3 => rw [if_pos (h3.trans hm)]; simp [AtMost]
    · split
      · rfl
      · exact hm
  · have := roundMag_nonneg (show 0 ≤ -q by linarith)
    split
    · rfl
    · simpa [AtMost, val] using this
  · have h3 := roundMag_nonneg (show 0 ≤ -q by linarith)
    have h4 := roundMag_nonneg hr.le
    split <;> split <;> simp [AtMost, val]
    linarith
  · have hm := roundMag_mono (show 0 ≤ -r by linarith) (show -r ≤ -q by linarith)
    split
    · split <;> simp [AtMost]
    · next h3 =>
      rw [if_neg fun h4 => h3 (h4.trans hm)]
      simpa [AtMost, val] using hm

/-- Adding the same finite number keeps the order. -/
theorem AtMost.add_right {x y : Dbl} (h : AtMost x y) (u : Bool) (c : ℚ) :
    AtMost (x.add (fin u c)) (y.add (fin u c)) := by
  rcases x with _ | s | ⟨s, a⟩ <;> rcases y with _ | t | ⟨t, b⟩ <;> simp only [AtMost] at h
  case fin.fin => exact round_mono (by linarith)
  case inf.inf => exact h
  case inf.fin =>
    subst h
    rcases val_round (t && u) (val t b + val u c) with ⟨_, h1⟩ | ⟨_, h1⟩ | ⟨_, h1⟩ <;>
      simp only [Dbl.add, h1] <;> (try split) <;> simp [AtMost]
  case fin.inf =>
    subst h
    rcases val_round (s && u) (val s a + val u c) with ⟨_, h1⟩ | ⟨_, h1⟩ | ⟨_, h1⟩ <;>
      simp only [Dbl.add, h1] <;> (try split) <;> simp [AtMost]
  all_goals trivial

/-- Adding zero changes nothing but possibly the sign of zero. -/
theorem round_isMag {s t : Bool} {a : ℚ} (ha : IsMag a) :
    ∃ u, round s (val t a) = .fin u a ∧ val u a = val t a := by
  rcases val_round s (val t a) with ⟨hq, h1⟩ | ⟨hq, h1⟩ | ⟨hq, h1⟩
  · have h0 : a = 0 := by
      cases t
      · exact hq
      · have : -a = 0 := hq
        linarith
    subst h0
    exact ⟨s, h1, by rw [val_zero, val_zero]⟩
  · have ht : t = false := by
      cases t
      · rfl
      · have : 0 < -a := hq
        exact absurd ha.nonneg (by linarith)
    subst ht
    refine ⟨false, ?_, rfl⟩
    rw [h1]
    show (if 2 ^ 1024 ≤ roundMag a then _ else fin false (roundMag a)) = _
    rw [roundMag_isMag_self ha, if_neg (not_le.2 ha.lt)]
  · have ht : t = true := by
      cases t
      · exact absurd ha.nonneg (not_le.2 hq)
      · rfl
    subst ht
    refine ⟨true, ?_, rfl⟩
    rw [h1]
    show (if 2 ^ 1024 ≤ roundMag (- -a) then _ else fin true (roundMag (- -a))) = _
    rw [neg_neg, roundMag_isMag_self ha, if_neg (not_le.2 ha.lt)]

end Dbl

namespace F64
variable {L : Libm}
open Spec

theorem atMost_iff {x y : F64 L} : AtMost x y ↔ x.dbl.AtMost y.dbl := by
  rcases x with ⟨_ | s | ⟨s, a⟩⟩ <;> rcases y with ⟨_ | t | ⟨t, b⟩⟩ <;>
    simp only [AtMost, Flt.isNan, Flt.lt, Flt.eq, Dbl.lt, Dbl.eq, Dbl.AtMost]
  case fin.fin => simp [le_iff_lt_or_eq]
  case inf.inf => cases s <;> cases t <;> simp
  all_goals (try cases s) <;> (try cases t) <;> simp

end F64
end Post
