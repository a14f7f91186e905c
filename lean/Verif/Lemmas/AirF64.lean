import Verif.Spec.DoubleAir
import Verif.Lemmas.Rel
import Verif.Lemmas.ThrottleF64
import Verif.Props.Atmosphere
/-! # The standard atmosphere in double precision -/

namespace Post
open Spec Flt F64
variable {L : Libm}

/-! ## facts about the layers -/

theorem layers_facts : ∀ l ∈ layers, (0 ≤ l.alt ∧ l.alt ≤ 631000) ∧ (1e-7 ≤ l.pres ∧ l.pres ≤ 1.1e5) ∧
    (170 ≤ l.temp ∧ l.temp ≤ 2800) ∧ |l.grad| ≤ 0.03 ∧ (l.grad = 0 ∨ 9e-4 ≤ |l.grad|) ∧ |l.grad| * l.alt ≤ 3500 := by
  unfold layers layer
  norm_num [abs_of_pos, abs_of_neg]

theorem layers_steps : layers.IsChain (fun l n => (170 ≤ l.temperature n.alt ∧ l.temperature n.alt ≤ 2900) ∧
    l.alt ≤ n.alt) := by
  unfold layers layer Layer.temperature
  norm_num

/-- What is known about an altitude near a layer. -/
theorem layerNear_facts {h : ℝ} {l : Layer} (hl : LayerNear h l) (h1 : -1e5 ≤ h) (h2 : h ≤ 7e6) :
    l ∈ layers ∧ |h - l.alt| ≤ 7e6 ∧ |l.grad * (h - l.alt)| ≤ 3000 ∧ 160 ≤ l.temperature h ∧ l.temperature h ≤ 3000 := by
  obtain ⟨below, above, e, hb, ha⟩ := hl
  have hmem : l ∈ layers := by rw [e]; simp
  obtain ⟨⟨a1, a2⟩, _, ⟨t1, t2⟩, g1, _, _⟩ := layers_facts l hmem
  have hu : |h - l.alt| ≤ 7e6 := by
    rw [abs_le]
    norm_num at *
    constructor <;> linarith
  have key : (160 ≤ l.temperature h ∧ l.temperature h ≤ 3000) → l ∈ layers ∧ |h - l.alt| ≤ 7e6 ∧
      |l.grad * (h - l.alt)| ≤ 3000 ∧ 160 ≤ l.temperature h ∧ l.temperature h ≤ 3000 := by
    rintro ⟨k1, k2⟩
    refine ⟨hmem, hu, ?_, k1, k2⟩
    unfold Layer.temperature at k1 k2
    rw [abs_le]
    constructor <;> linarith
  apply key
  unfold Layer.temperature
  cases above with
  | nil =>
    -- the highest layer
    obtain ⟨rest, hr⟩ := layers_ends.2
    rw [hr] at e
    have := (List.append_inj' e rfl).2
    injection this with this _
    have hg : l.grad = 0 := by
      rw [← this]
      norm_num [layer]
    rw [hg]
    constructor <;> linarith
  | cons n above =>
    have hn := ha n rfl
    obtain ⟨⟨c1, c2⟩, c3⟩ : (170 ≤ l.temperature n.alt ∧ l.temperature n.alt ≤ 2900) ∧ l.alt ≤ n.alt := by
      have hc := layers_steps
      rw [e, List.isChain_append_cons_cons] at hc
      exact hc.2.1
    unfold Layer.temperature at c1 c2
    have hlow : below = [] → l.grad = -0.35661600e-2 * (1 / 1.8) / 0.3048 ∧ l.alt = 0 ∧ l.temp ≤ 300 := by
      rintro rfl
      obtain ⟨rest, hr⟩ := layers_ends.1
      rw [hr, List.nil_append] at e
      injection e with e _
      rw [← e]
      refine ⟨?_, ?_, ?_⟩ <;> norm_num [layer]
    rw [abs_le] at g1
    rcases le_total 0 l.grad with g | g
    · have hb' : l.alt - 1e-9 ≤ h := by
        rcases hb with hb | hb
        · obtain ⟨e1, _⟩ := hlow hb
          rw [e1] at g
          norm_num at g
        · exact hb
      have m1 : l.grad * (-1e-9) ≤ l.grad * (h - l.alt) := mul_le_mul_of_nonneg_left (by linarith) g
      have m2 : l.grad * (h - l.alt) ≤ l.grad * (n.alt - l.alt + 1e-9) := mul_le_mul_of_nonneg_left (by linarith) g
      rw [mul_add] at m2
      norm_num at *
      constructor <;> linarith
    · have m2 : l.grad * (n.alt - l.alt + 1e-9) ≤ l.grad * (h - l.alt) := mul_le_mul_of_nonpos_left (by linarith) g
      rw [mul_add] at m2
      refine ⟨by norm_num at *; linarith, ?_⟩
      rcases hb with hb | hb
      · obtain ⟨e1, e2, e3⟩ := hlow hb
        rw [e2] at *
        have m1 : l.grad * (h - 0) ≤ l.grad * (-1e5) := mul_le_mul_of_nonpos_left (by linarith) g
        norm_num at *
        linarith
      · have m1 : l.grad * (h - l.alt) ≤ l.grad * (-1e-9) := mul_le_mul_of_nonpos_left (by linarith) g
        norm_num at *
        linarith

/-! ## the table -/

/-- A row of the table in double precision. -/
structure RowDouble (r : AtmosRow (F64 L)) (l : Layer) : Prop where
  alt : Rel r.alt l.alt 5e-16
  pres : Rel r.pres l.pres 2e-15
  temp : Rel r.temp l.temp 1e-15
  grad : Rel r.grad l.grad 1e-15

theorem rel_sci (m : ℕ) (s : Bool) (k : ℕ) {v : ℝ} (hv : (if s then (m : ℝ) / 10 ^ k else m * 10 ^ k) = v)
    (hlo : 1e-200 ≤ v) (hv' : v ≤ 1e50) : Rel (OfScientific.ofScientific m s k : F64 L) v 1.2e-16 := by
  have h0 : 0 ≤ v := le_trans (by norm_num) hlo
  exact Rel.lit m s k hv (by rwa [abs_of_nonneg h0]) (by rw [abs_of_nonneg h0]; exact hv'.trans (by norm_num))

theorem meter_rel : Rel (METER_PER_FOOT : F64 L) 0.3048 1.2e-16 := by
  unfold METER_PER_FOOT
  exact rel_sci _ _ _ (by norm_num) (by norm_num) (by norm_num)

theorem kelvin_rel : Rel (KELVIN_PER_RANKIN : F64 L) (1 / 1.8) 3e-16 := by
  unfold KELVIN_PER_RANKIN
  refine Rel.one.div (rel_sci _ _ _ (by norm_num) (by norm_num) (by norm_num)) (a := 0) (b := 1.2e-16) le_rfl ?_ ?_ ?_ ?_ ?_ ?_ ?_ <;>
    norm_num [abs_of_pos]

theorem pascal_rel : Rel (PASCAL_PER_PSF : F64 L) (0.4535924 * 9.80665 / (0.3048 * 0.3048)) 1e-15 := by
  unfold PASCAL_PER_PSF SQUARE_METER_PER_SQUARE_FOOT KILOGRAM_PER_POUND STD_GRAVITY
  have h1 : Rel (4.535924e-1 * 9.80665 : F64 L) (0.4535924 * 9.80665) 3.7e-16 := by
    refine Rel.mul (a := 1.2e-16) (b := 1.2e-16) (rel_sci _ _ _ (by norm_num) (by norm_num) (by norm_num))
      (rel_sci _ _ _ (by norm_num) (by norm_num) (by norm_num)) ?_ ?_ ?_ ?_ ?_ ?_ ?_ <;> norm_num [abs_of_pos]
  have h2 : Rel (METER_PER_FOOT * METER_PER_FOOT : F64 L) (0.3048 * 0.3048) 3.7e-16 := by
    refine Rel.mul (a := 1.2e-16) (b := 1.2e-16) meter_rel meter_rel ?_ ?_ ?_ ?_ ?_ ?_ ?_ <;> norm_num [abs_of_pos]
  refine Rel.div (a := 3.7e-16) (b := 3.7e-16) h1 h2 ?_ ?_ ?_ ?_ ?_ ?_ ?_ ?_ <;> norm_num [abs_of_pos]

theorem gas_rel : Rel (AIR_GAS_CONSTANT : F64 L) airGasConstant 4e-16 := by
  unfold AIR_GAS_CONSTANT GAS_CONSTANT AIR_MOLECULAR_WEIGHT airGasConstant
  refine Rel.div (a := 1.2e-16) (b := 1.2e-16) (rel_sci _ _ _ (by norm_num) (by norm_num) (by norm_num))
    (rel_sci _ _ _ (by norm_num) (by norm_num) (by norm_num)) ?_ ?_ ?_ ?_ ?_ ?_ ?_ ?_ <;> norm_num [abs_of_pos]

theorem gravity_rel : Rel (STD_GRAVITY / AIR_GAS_CONSTANT : F64 L) gravityPerGas 7e-16 := by
  unfold gravityPerGas STD_GRAVITY
  refine Rel.div (a := 1.2e-16) (b := 4e-16) (rel_sci _ _ _ (by norm_num) (by norm_num) (by norm_num)) gas_rel
    ?_ ?_ ?_ ?_ ?_ ?_ ?_ ?_ <;> norm_num [abs_of_pos, airGasConstant]

/-- A literal of the table. -/
def Entry (a : F64 L) (A : ℝ) : Prop := (IsZero a ∧ A = 0) ∨ (Rel a A 1.2e-16 ∧ 1e-10 ≤ |A| ∧ |A| ≤ 1e10)

theorem rel_zero {x : F64 L} {e : ℝ} (h : IsZero x) : Rel x 0 e := by
  refine ⟨0, h.is, ?_⟩
  simp

theorem Rel.is {x : F64 L} {ξ e : ℝ} (h : Rel x ξ e) : ∃ q, x.Is q := by
  obtain ⟨q, h1, _⟩ := h
  exact ⟨q, h1⟩

theorem entry_mul {a b : F64 L} {A B e e' : ℝ} (ha : Entry a A) (hb : Rel b B e) (he0 : 0 ≤ e) (he1 : e ≤ 1e-14)
    (hB1 : 1e-10 ≤ |B|) (hB2 : |B| ≤ 1e10) (he' : 1.2e-16 + e + 1.3e-16 ≤ e') : Rel (a * b) (A * B) e' := by
  rcases ha with ⟨ha, rfl⟩ | ⟨ha, ha1, ha2⟩
  · rw [zero_mul]
    obtain ⟨q, hq⟩ := hb.is
    exact rel_zero (ha.mul_right hq)
  · refine ha.mul hb (by norm_num) (by norm_num) he0 (he1.trans (by norm_num)) ?_ ?_ ?_
    · rw [abs_mul]
      calc (1e-200 : ℝ) ≤ 1e-10 * 1e-10 := by norm_num
        _ ≤ |A| * |B| := mul_le_mul ha1 hB1 (by norm_num) (abs_nonneg _)
    · rw [abs_mul]
      calc |A| * |B| ≤ 1e10 * 1e10 := mul_le_mul ha2 hB2 (abs_nonneg _) (by norm_num)
        _ ≤ 1e58 := by norm_num
    · norm_num at he0 he1 he' ⊢
      linarith

theorem row_double {a b c d : F64 L} {A B C D : ℝ} (ha : Entry a A) (hb : Entry b B) (hc : Entry c C) (hd : Entry d D) :
    RowDouble ⟨a * METER_PER_FOOT, b * PASCAL_PER_PSF, c * KELVIN_PER_RANKIN, d * KELVIN_PER_RANKIN / METER_PER_FOOT⟩
      (layer A B C D) where
  alt := by
    refine entry_mul ha meter_rel ?_ ?_ ?_ ?_ ?_ <;> norm_num [abs_of_pos]
  pres := by
    refine entry_mul hb pascal_rel ?_ ?_ ?_ ?_ ?_ <;> norm_num [abs_of_pos]
  temp := by
    refine entry_mul hc kelvin_rel ?_ ?_ ?_ ?_ ?_ <;> norm_num [abs_of_pos]
  grad := by
    have h1 : Rel (d * KELVIN_PER_RANKIN) (D * (1 / 1.8)) 5.5e-16 := by
      refine entry_mul hd kelvin_rel ?_ ?_ ?_ ?_ ?_ <;> norm_num [abs_of_pos]
    rcases hd with ⟨hd, rfl⟩ | ⟨hd, hd1, hd2⟩
    · obtain ⟨q, hq⟩ := (kelvin_rel (L := L)).is
      obtain ⟨q', hq', hq2⟩ := (meter_rel (L := L))
      have hq0 : q' ≠ 0 := by
        rintro rfl
        norm_num [abs_of_neg] at hq2
      have := rel_zero (e := 1e-15) ((hd.mul_right hq).div hq' hq0)
      refine this.congr ?_
      norm_num [layer]
    · refine (h1.div meter_rel (a := 5.5e-16) (b := 1.2e-16) (e := 1e-15) ?_ ?_ ?_ ?_ ?_ ?_ ?_ ?_).congr rfl
      · norm_num
      · norm_num
      · norm_num
      · norm_num
      · norm_num
      · rw [abs_div, abs_mul, le_div_iff₀ (by norm_num)]
        norm_num [abs_of_pos] at hd1 ⊢
        linarith
      · rw [abs_div, abs_mul, div_le_iff₀ (by norm_num)]
        norm_num [abs_of_pos] at hd2 ⊢
        linarith
      · norm_num

theorem entry_pos (m : ℕ) (s : Bool) (k : ℕ) {v : ℝ} (hv : (if s then (m : ℝ) / 10 ^ k else m * 10 ^ k) = v)
    (hlo : 1e-10 ≤ v) (hv' : v ≤ 1e10) : Entry (OfScientific.ofScientific m s k : F64 L) v := by
  have h0 : 0 ≤ v := le_trans (by norm_num) hlo
  exact .inr ⟨rel_sci m s k hv (le_trans (by norm_num) hlo) (hv'.trans (by norm_num)), by rwa [abs_of_nonneg h0],
    by rwa [abs_of_nonneg h0]⟩

theorem entry_neg {a : F64 L} {A : ℝ} (h : Entry a A) (hA : A ≠ 0) : Entry (-a) (-A) := by
  rcases h with ⟨_, h⟩ | ⟨h, h1, h2⟩
  · exact absurd h hA
  · exact .inr ⟨h.neg, by rwa [abs_neg], by rwa [abs_neg]⟩

theorem entry_zero : Entry (0.0 : F64 L) 0.0 := by
  refine .inl ⟨⟨false, ?_⟩, by norm_num⟩
  show Dbl.round false _ = _
  decide +kernel

theorem table_double : List.Forall₂ RowDouble (stdAtmosTable : List (AtmosRow (F64 L))) layers := by
  unfold stdAtmosTable layers
  repeat'
    first
    | exact List.Forall₂.nil
    | refine List.Forall₂.cons (row_double ?_ ?_ ?_ ?_) ?_
    | exact entry_zero
    | exact entry_pos _ _ _ (by norm_num) (by norm_num) (by norm_num)
    | exact entry_neg (entry_pos _ _ _ (by norm_num) (by norm_num) (by norm_num)) (by norm_num)

/-! ## selecting the row -/

theorem rowFrom_double {x : F64 L} {h : ℝ} (hx : Reads x h) : ∀ {rest : List (AtmosRow (F64 L))} {ls : List Layer}
    (_ : List.Forall₂ RowDouble rest ls) (_ : ∀ l ∈ ls, 0 ≤ l.alt ∧ l.alt ≤ 631000) {prev : AtmosRow (F64 L)} {l0 : Layer}
    (_ : RowDouble prev l0),
    ∃ below l above, l0 :: ls = below ++ l :: above ∧ (below = [] ∨ l.alt - 1e-9 ≤ h) ∧
      (∀ n ∈ above.head?, h ≤ n.alt + 1e-9) ∧ RowDouble (rowFrom x prev rest) l := by
  intro rest ls hrl
  induction hrl with
  | nil =>
    intro _ prev l0 hp
    exact ⟨[], l0, [], rfl, .inl rfl, by simp, hp⟩
  | @cons r n rest ls hr hrs ih =>
    intro hall prev l0 hp
    obtain ⟨qx, hqx, hqx'⟩ := hx
    obtain ⟨qr, hqr, hqr'⟩ := hr.alt
    obtain ⟨b1, b2⟩ := hall n (by simp)
    have hclose : |(qr : ℝ) - n.alt| ≤ 1e-9 := by
      refine hqr'.trans ?_
      rw [abs_of_nonneg b1]
      norm_num
      linarith
    rw [abs_le] at hclose
    unfold rowFrom
    have hgt : Flt.gt r.alt x = decide (qx < qr) := is_lt hqx hqr
    rw [hgt]
    by_cases hlt : qx < qr
    · rw [decide_eq_true hlt]
      refine ⟨[], l0, n :: ls, rfl, .inl rfl, ?_, hp⟩
      intro n' hn'
      simp only [List.head?_cons, Option.mem_def, Option.some.injEq] at hn'
      subst hn'
      have : (qx : ℝ) < qr := by exact_mod_cast hlt
      linarith
    · rw [decide_eq_false hlt]
      obtain ⟨below, l, above, h1, h2, h3, h4⟩ := ih (fun l hl => hall l (by simp [hl])) hr
      refine ⟨l0 :: below, l, above, by rw [h1]; rfl, .inr ?_, h3, h4⟩
      rcases h2 with rfl | h2
      · simp only [List.nil_append, List.cons.injEq] at h1
        rw [← h1.1]
        have : (qr : ℝ) ≤ qx := by exact_mod_cast not_lt.1 hlt
        linarith
      · exact h2

theorem getTableRow_double {x : F64 L} {h : ℝ} (hx : Reads x h) :
    ∃ l, LayerNear h l ∧ RowDouble (getTableRow x) l := by
  have ht := table_double (L := L)
  have hf : ∀ l ∈ layers, 0 ≤ l.alt ∧ l.alt ≤ 631000 := fun l hl => (layers_facts l hl).1
  unfold getTableRow LayerNear
  generalize (stdAtmosTable : List (AtmosRow (F64 L))) = t at ht
  have hne : layers ≠ [] := by
    unfold layers
    simp
  generalize layers = ls at ht hf hne
  cases ht with
  | nil =>
    exact absurd rfl hne
  | cons h1 h2 =>
    obtain ⟨below, l, above, k1, k2, k3, k4⟩ := rowFrom_double hx h2 (fun l hl => hf l (by simp [hl])) h1
    exact ⟨l, ⟨below, above, k1, k2, k3⟩, k4⟩

/-! ## temperature and pressure -/

theorem temperature_double {x : F64 L} {h : ℝ} (hx : Reads x h) (h1 : -1e5 ≤ h) (h2 : h ≤ 7e6) {l : Layer}
    (hl : LayerNear h l) (hr : RowDouble (getTableRow x) l) :
    Near (x - (getTableRow x).alt) (h - l.alt) 1.5e-9 ∧
    Rel (stdTemperature x) (l.temperature h) 1e-13 := by
  obtain ⟨hmem, hu, hgu, hT1, hT2⟩ := layerNear_facts hl h1 h2
  obtain ⟨⟨a1, a2⟩, _, ⟨t1, t2⟩, g1, g2, g3⟩ := layers_facts l hmem
  set r := getTableRow x with hrd
  have halt : Near r.alt l.alt (5e-16 * l.alt) := by
    refine Near.mono hr.alt ?_
    rw [abs_of_nonneg a1]
  have hu0 := abs_nonneg (h - l.alt)
  have hdiff : Near (x - r.alt) (h - l.alt) (5.1e-16 * l.alt + 1.3e-16 * |h - l.alt| + 1e-39) := by
    refine (reads_near.1 hx).sub halt (M := |h - l.alt|) le_rfl ?_ ?_
    · norm_num
      linarith
    · norm_num at hu ⊢
      linarith
  refine ⟨hdiff.mono (by norm_num at hu ⊢; linarith), ?_⟩
  have hg0 := abs_nonneg l.grad
  rw [abs_mul] at hgu
  have hgrad : Near r.grad l.grad (1e-15 * |l.grad|) := hr.grad
  have hprod : Near (r.grad * (x - r.alt)) (l.grad * (h - l.alt)) 6e-12 := by
    refine hgrad.mul hdiff (A := |l.grad|) (B := |h - l.alt|) (M := 3000) le_rfl le_rfl (by rw [abs_mul]; exact hgu) ?_ ?_
    · have e1 : |l.grad| * (5.1e-16 * l.alt + 1.3e-16 * |h - l.alt| + 1e-39) =
        5.1e-16 * (|l.grad| * l.alt) + 1.3e-16 * (|l.grad| * |h - l.alt|) + 1e-39 * |l.grad| := by ring
      have e2 : 1e-15 * |l.grad| * (5.1e-16 * l.alt + 1.3e-16 * |h - l.alt| + 1e-39) =
        1e-15 * (5.1e-16 * (|l.grad| * l.alt) + 1.3e-16 * (|l.grad| * |h - l.alt|) + 1e-39 * |l.grad|) := by ring
      have e3 : |h - l.alt| * (1e-15 * |l.grad|) = 1e-15 * (|l.grad| * |h - l.alt|) := by ring
      rw [e1, e2, e3]
      norm_num at g1 g3 hgu ⊢
      linarith
    · have e1 : |l.grad| * (5.1e-16 * l.alt + 1.3e-16 * |h - l.alt| + 1e-39) =
        5.1e-16 * (|l.grad| * l.alt) + 1.3e-16 * (|l.grad| * |h - l.alt|) + 1e-39 * |l.grad| := by ring
      have e2 : 1e-15 * |l.grad| * (5.1e-16 * l.alt + 1.3e-16 * |h - l.alt| + 1e-39) =
        1e-15 * (5.1e-16 * (|l.grad| * l.alt) + 1.3e-16 * (|l.grad| * |h - l.alt|) + 1e-39 * |l.grad|) := by ring
      have e3 : |h - l.alt| * (1e-15 * |l.grad|) = 1e-15 * (|l.grad| * |h - l.alt|) := by ring
      rw [e1, e2, e3]
      norm_num at g1 g3 hgu ⊢
      linarith
  have htemp : Near r.temp l.temp 3e-12 := by
    refine Near.mono hr.temp ?_
    rw [abs_of_nonneg (by linarith)]
    norm_num
    linarith
  have hT : Near (stdTemperature x) (l.temperature h) 1e-11 := by
    refine htemp.add hprod (M := 3000) ?_ ?_ ?_
    · have : l.temp + l.grad * (h - l.alt) = l.temperature h := rfl
      rw [this, abs_of_nonneg (by linarith)]
      exact hT2
    · norm_num
    · norm_num
  refine Rel.of_near hT ?_
  rw [abs_of_nonneg (by linarith)]
  norm_num
  linarith

theorem exp_upper : Real.exp 115 ≤ (1e50 : ℝ) := by
  have h1 := Real.exp_one_lt_d9
  have h2 : Real.exp 115 = Real.exp 1 ^ 115 := by rw [← Real.exp_nat_mul]; norm_num
  have h3 : Real.exp 1 ^ 115 ≤ 2.7182818286 ^ 115 := pow_le_pow_left₀ (Real.exp_pos _).le h1.le 115
  rw [h2]
  refine h3.trans ?_
  norm_num

theorem exp_bounds {z : ℝ} (hz : |z| ≤ 115) : 1e-50 ≤ Real.exp z ∧ Real.exp z ≤ 1e50 := by
  have h := exp_upper
  obtain ⟨h1, h2⟩ := abs_le.1 hz
  refine ⟨?_, (Real.exp_le_exp.2 h2).trans h⟩
  refine le_trans ?_ (Real.exp_le_exp.2 h1)
  rw [Real.exp_neg]
  refine le_trans ?_ (inv_anti₀ (Real.exp_pos _) h)
  norm_num

theorem layers_flat : layers.IsChain (fun l n => l.grad = 0 → n.alt - l.alt ≤ 2e4) := by
  unfold layers layer
  norm_num

/-- In a layer of constant temperature the altitude above its base is limited. -/
theorem layerNear_flat {h : ℝ} {l : Layer} (hl : LayerNear h l) (h1 : -1e5 ≤ h) (h2 : h ≤ 7e6) (hg : l.grad = 0) :
    |h - l.alt| ≤ 2600 * l.temp := by
  have hu := (layerNear_facts hl h1 h2).2.1
  obtain ⟨below, above, e, hb, ha⟩ := hl
  have hmem : l ∈ layers := by rw [e]; simp
  obtain ⟨_, _, ⟨t1, t2⟩, _⟩ := layers_facts l hmem
  cases above with
  | nil =>
    obtain ⟨rest, hr⟩ := layers_ends.2
    rw [hr] at e
    have := (List.append_inj' e rfl).2
    injection this with this _
    have ht : 2700 ≤ l.temp := by
      rw [← this]
      norm_num [layer]
    norm_num at *
    linarith
  | cons n above =>
    have hn := ha n rfl
    have hc := layers_flat
    rw [e, List.isChain_append_cons_cons] at hc
    have c1 := hc.2.1 hg
    have hb' : l.alt - 1e-9 ≤ h := by
      rcases hb with rfl | hb
      · obtain ⟨rest, hr⟩ := layers_ends.1
        rw [hr, List.nil_append] at e
        injection e with e _
        rw [← e] at hg
        norm_num [layer] at hg
      · exact hb
    rw [abs_le]
    norm_num at *
    constructor <;> linarith

theorem pressure_double (hL : AirLibrary L) {x : F64 L} {h : ℝ} (hx : Reads x h) (h1 : -1e5 ≤ h) (h2 : h ≤ 7e6)
    {l : Layer} (hl : LayerNear h l) (hr : RowDouble (getTableRow x) l) :
    Rel (stdPressure x) (l.pressure h) 2e-11 ∧ 1e-60 ≤ l.pressure h ∧ l.pressure h ≤ 1e57 := by
  obtain ⟨hmem, hu, hgu, hT1, hT2⟩ := layerNear_facts hl h1 h2
  have hflat := layerNear_flat hl h1 h2
  obtain ⟨⟨a1, a2⟩, ⟨p1, p2⟩, ⟨t1, t2⟩, g1, g2, g3⟩ := layers_facts l hmem
  obtain ⟨hdiff, hT⟩ := temperature_double hx h1 h2 hl hr
  set r := getTableRow x with hrd
  have hp0 : 0 < l.pres := by norm_num at p1; linarith
  have htp : 0 < l.temp := by linarith
  have hTp : 0 < l.temperature h := by linarith
  obtain ⟨qg, hqg, hqg'⟩ := hr.grad
  have hG := gravity_rel (L := L)
  have hGv : 0.034 ≤ gravityPerGas ∧ gravityPerGas ≤ 0.0342 := by
    unfold gravityPerGas airGasConstant
    constructor <;> norm_num
  have hGp : 0 < gravityPerGas := gravityPerGas_pos
  have hGn : Near (STD_GRAVITY / AIR_GAS_CONSTANT : F64 L) gravityPerGas 3e-17 := by
    refine Near.mono hG ?_
    rw [abs_of_pos hGp]
    have := hGv.2
    norm_num at this ⊢
    linarith
  unfold stdPressure Layer.pressure
  simp only [← hrd]
  have fin : ∀ {y : F64 L} {E : ℝ}, Rel y E 1.9e-11 → 1e-50 ≤ E → E ≤ 1e50 →
      Rel (r.pres * y) (l.pres * E) 2e-11 ∧ 1e-60 ≤ l.pres * E ∧ l.pres * E ≤ 1e57 := by
    intro y E hy hE1 hE2
    have hE0 : 0 < E := lt_of_lt_of_le (by norm_num) hE1
    have l1 : 1e-60 ≤ l.pres * E := by
      calc (1e-60 : ℝ) ≤ 1e-7 * 1e-50 := by norm_num
        _ ≤ l.pres * E := mul_le_mul p1 hE1 (by norm_num) hp0.le
    have l2 : l.pres * E ≤ 1e57 := by
      calc l.pres * E ≤ 1.1e5 * 1e50 := mul_le_mul p2 hE2 hE0.le (by norm_num)
        _ ≤ 1e57 := by norm_num
    refine ⟨?_, l1, l2⟩
    have hpe : 0 < l.pres * E := mul_pos hp0 hE0
    refine hr.pres.mul hy (by norm_num) (by norm_num) (by norm_num) (by norm_num) ?_ ?_ (by norm_num)
    · rw [abs_of_pos hpe]
      exact le_trans (by norm_num) l1
    · rw [abs_of_pos hpe]
      exact l2.trans (by norm_num)
  by_cases hg : l.grad = 0
  · have hq0 : qg = 0 := by
      rw [hg] at hqg'
      simpa using hqg'
    subst hq0
    have hu' := hflat hg
    rw [is_eq hqg is_zero, if_pos hg]
    simp only [decide_true, Bool.not_true, Bool.false_eq_true, if_false]
    set z : ℝ := -(gravityPerGas * (h - l.alt) / l.temp) with hz
    have hGu : |-gravityPerGas * (h - l.alt)| ≤ 2.5e5 := by
      rw [abs_mul, abs_neg, abs_of_pos hGp]
      calc gravityPerGas * |h - l.alt| ≤ 0.0342 * 7e6 := mul_le_mul hGv.2 hu (abs_nonneg _) (by norm_num)
        _ ≤ 2.5e5 := by norm_num
    have hzb : |z| ≤ 90 := by
      rw [hz, abs_neg, abs_div, abs_mul, abs_of_pos hGp, abs_of_pos htp, div_le_iff₀ htp]
      calc gravityPerGas * |h - l.alt| ≤ 0.0342 * (2600 * l.temp) :=
            mul_le_mul hGv.2 hu' (abs_nonneg _) (by norm_num)
        _ ≤ 90 * l.temp := by norm_num; linarith
    have hprod : Near (-(STD_GRAVITY / AIR_GAS_CONSTANT) * (x - r.alt)) (-gravityPerGas * (h - l.alt)) 4e-10 := by
      refine hGn.neg.mul hdiff (A := 0.0342) (B := 7e6) (M := 2.5e5) (by rw [abs_neg, abs_of_pos hGp]; exact hGv.2)
        hu hGu ?_ ?_ <;> norm_num
    have htemp : Near r.temp l.temp 3e-12 := by
      refine Near.mono hr.temp ?_
      rw [abs_of_nonneg (by linarith)]
      norm_num
      linarith
    have hzn : Near (-(STD_GRAVITY / AIR_GAS_CONSTANT) * (x - r.alt) / r.temp) z 9e-12 := by
      refine (hprod.div htemp (b := 170) (M := 90) (e := 9e-12) (by norm_num)
        (by rw [abs_of_pos htp]; exact t1) (by norm_num) ?_ ?_ ?_).congr ?_
      · rw [show -gravityPerGas * (h - l.alt) / l.temp = z by rw [hz]; ring]
        exact hzb
      · norm_num
      · norm_num
      · rw [hz]
        ring
    obtain ⟨qz, hqz, hqz'⟩ := hzn
    have hqzb : |qz| ≤ 100 := by
      have h5 : |(qz : ℝ)| ≤ 100 := by
        have := Near.big hqz' hzb
        refine this.trans (by norm_num)
      exact_mod_cast h5
    obtain ⟨re, hre, hre'⟩ := hL.exp _ qz hqz hqzb
    obtain ⟨b1, b2⟩ := exp_bounds (z := z) (hzb.trans (by norm_num))
    refine fin ?_ b1 b2
    refine ⟨re, hre, ?_⟩
    have hpert := exp_perturb hqz' (by norm_num)
    have hez := Real.exp_pos z
    rw [abs_of_pos hez]
    have h6 : Real.exp qz ≤ 2 * Real.exp z := by
      have := (abs_le.1 hpert).2
      norm_num at this
      linarith
    have h7 := abs_add_le ((re : ℝ) - Real.exp qz) (Real.exp qz - Real.exp z)
    rw [sub_add_sub_cancel] at h7
    norm_num at hre' hpert h7 ⊢
    linarith
  · have hg0 : 0 < |l.grad| := abs_pos.2 hg
    have g2' : 9e-4 ≤ |l.grad| := g2.resolve_left hg
    have hq0 : qg ≠ 0 := by
      rintro rfl
      rw [Rat.cast_zero, zero_sub, abs_neg] at hqg'
      norm_num at hqg'
      linarith
    rw [is_eq hqg is_zero, if_neg hg]
    simp only [hq0, decide_false, Bool.not_false, if_true]
    set X : ℝ := l.temp / l.temperature h with hX
    set Y : ℝ := gravityPerGas / l.grad with hY
    have hX1 : 0.05 ≤ X := by
      rw [hX, le_div_iff₀ hTp]
      norm_num
      linarith
    have hX2 : X ≤ 20 := by
      rw [hX, div_le_iff₀ hTp]
      linarith
    have hXp : 0 < X := by norm_num at hX1; linarith
    have hYb : |Y| ≤ 38 := by
      rw [hY, abs_div, abs_of_pos hGp, div_le_iff₀ hg0]
      have := hGv.2
      norm_num at this g2' ⊢
      linarith
    have hYl : 1 ≤ |Y| := by
      rw [hY, abs_div, abs_of_pos hGp, le_div_iff₀ hg0]
      have := hGv.1
      norm_num at this g1 ⊢
      linarith
    have hXn : Rel (r.temp / stdTemperature x) X 1.03e-13 := by
      refine hr.temp.div hT (by norm_num) (by norm_num) (by norm_num) (by norm_num) hTp.ne' ?_ ?_ (by norm_num)
      · rw [← hX, abs_of_pos hXp]
        exact le_trans (by norm_num) hX1
      · rw [← hX, abs_of_pos hXp]
        exact hX2.trans (by norm_num)
    have hYn : Rel ((STD_GRAVITY / AIR_GAS_CONSTANT) / r.grad) Y 2e-15 := by
      refine hG.div hr.grad (by norm_num) (by norm_num) (by norm_num) (by norm_num) hg ?_ ?_ (by norm_num)
      · rw [← hY]
        exact le_trans (by norm_num) hYl
      · rw [← hY]
        exact hYb.trans (by norm_num)
    obtain ⟨px, hpx, hpx'⟩ := hXn
    obtain ⟨qy, hqy, hqy'⟩ := hYn
    rw [abs_of_pos hXp] at hpx'
    have hqy'' : |(qy : ℝ) - Y| ≤ 1e-13 := by
      refine hqy'.trans ?_
      norm_num
      linarith
    have hpx1 : 1 / 25 ≤ px ∧ px ≤ 25 := by
      obtain ⟨k1, k2⟩ := abs_le.1 hpx'
      have e1 : ((1 / 25 : ℚ) : ℝ) ≤ px := by
        norm_num at k1 k2 hX1 ⊢
        linarith
      have e2 : (px : ℝ) ≤ ((25 : ℚ) : ℝ) := by
        norm_num at k1 k2 hX1 ⊢
        linarith
      exact ⟨by exact_mod_cast e1, by exact_mod_cast e2⟩
    have hqyb : |qy| ≤ 41 := by
      have h5 : |(qy : ℝ)| ≤ 41 := (Near.big hqy'' hYb).trans (by norm_num)
      exact_mod_cast h5
    obtain ⟨re, hre, hre'⟩ := hL.powf _ _ px qy hpx hqy hpx1.1 hpx1.2 hqyb
    have hpert := rpow_perturb hX1 hX2 hpx' (by norm_num) hqy'' (hYb.trans (by norm_num)) (by norm_num) (by norm_num)
    have hb : 1e-50 ≤ X ^ Y ∧ X ^ Y ≤ 1e50 := by
      rw [Real.rpow_def_of_pos hXp]
      refine exp_bounds ?_
      rw [abs_mul]
      calc |Real.log X| * |Y| ≤ 3 * 38 := mul_le_mul (abs_log_three hX1 hX2) hYb (abs_nonneg _) (by norm_num)
        _ ≤ 115 := by norm_num
    refine fin ?_ hb.1 hb.2
    refine ⟨re, hre, ?_⟩
    have hez : 0 < X ^ Y := Real.rpow_pos_of_pos hXp _
    rw [abs_of_pos hez]
    have h6 : (px : ℝ) ^ (qy : ℝ) ≤ 2 * X ^ Y := by
      have := (abs_le.1 hpert).2
      norm_num at this
      linarith
    have h7 := abs_add_le ((re : ℝ) - (px : ℝ) ^ (qy : ℝ)) ((px : ℝ) ^ (qy : ℝ) - X ^ Y)
    rw [sub_add_sub_cancel] at h7
    norm_num at hre' hpert h7 ⊢
    linarith

theorem layerNear_above {h : ℝ} {l : Layer} (hl : LayerNear h l) (h1 : -1e5 ≤ h) : -1e5 ≤ h - l.alt := by
  obtain ⟨below, above, e, hb, ha⟩ := hl
  rcases hb with rfl | hb
  · obtain ⟨rest, hr⟩ := layers_ends.1
    rw [hr, List.nil_append] at e
    injection e with e _
    have : l.alt = 0 := by
      rw [← e]
      norm_num [layer]
    rw [this]
    linarith
  · norm_num at hb ⊢
    linarith

/-- The pressure is limited. -/
theorem layer_pressure_le {h : ℝ} {l : Layer} (hl : LayerNear h l) (h1 : -1e5 ≤ h) (h2 : h ≤ 7e6) :
    l.pressure h ≤ 1e16 := by
  obtain ⟨hmem, _, _, hT1, hT2⟩ := layerNear_facts hl h1 h2
  obtain ⟨_, ⟨p1, p2⟩, ⟨t1, t2⟩, _⟩ := layers_facts l hmem
  have hu := layerNear_above hl h1
  have htp : 0 < l.temp := by linarith
  have hTp : 0 < l.temperature h := by linarith
  have hGp : 0 < gravityPerGas := gravityPerGas_pos
  have hGv : gravityPerGas ≤ 0.0342 := by
    unfold gravityPerGas airGasConstant
    norm_num
  have quot : ∀ {t : ℝ}, 160 ≤ t → -(gravityPerGas * (h - l.alt) / t) ≤ 22 := by
    intro t ht
    have ht0 : 0 < t := by linarith
    rw [← neg_div, div_le_iff₀ ht0]
    have : gravityPerGas * -(h - l.alt) ≤ gravityPerGas * 1e5 := mul_le_mul_of_nonneg_left (by linarith) hGp.le
    norm_num at this hGv ⊢
    linarith
  have key : ∀ {z : ℝ}, z ≤ 22 → l.pres * Real.exp z ≤ 1e16 := by
    intro z hz
    have e1 := Real.exp_one_lt_d9
    have e2 : Real.exp 22 = Real.exp 1 ^ 22 := by rw [← Real.exp_nat_mul]; norm_num
    have e3 : Real.exp 1 ^ 22 ≤ 3 ^ 22 := pow_le_pow_left₀ (Real.exp_pos _).le (by norm_num at e1 ⊢; linarith) 22
    have e4 : Real.exp z ≤ 3 ^ 22 := (Real.exp_le_exp.2 hz).trans (e2 ▸ e3)
    calc l.pres * Real.exp z ≤ 1.1e5 * 3 ^ 22 := mul_le_mul p2 e4 (Real.exp_pos _).le (by norm_num)
      _ ≤ 1e16 := by norm_num
  unfold Layer.pressure
  split_ifs with hg
  · exact key (quot (by linarith))
  · have hXp : 0 < l.temp / l.temperature h := div_pos htp hTp
    rw [Real.rpow_def_of_pos hXp]
    refine key ?_
    rcases lt_or_gt_of_ne hg with g | g
    · -- colder above: log X ≥ 1 - T/t
      have hlog := Real.one_sub_inv_le_log_of_pos hXp
      rw [inv_div] at hlog
      have hY : gravityPerGas / l.grad ≤ 0 := div_nonpos_of_nonneg_of_nonpos hGp.le g.le
      have := mul_le_mul_of_nonpos_right hlog hY
      refine this.trans (le_trans (le_of_eq ?_) (quot (t := l.temp) (by linarith)))
      unfold Layer.temperature
      field_simp
      ring
    · have hlog := Real.log_le_sub_one_of_pos hXp
      have hY : 0 ≤ gravityPerGas / l.grad := div_nonneg hGp.le g.le
      have := mul_le_mul_of_nonneg_right hlog hY
      refine this.trans (le_trans (le_of_eq ?_) (quot (t := l.temperature h) hT1))
      have e5 : l.temp / l.temperature h - 1 = -(l.grad * (h - l.alt) / l.temperature h) := by
        rw [div_sub_one hTp.ne', ← neg_div]
        congr 1
        unfold Layer.temperature
        ring
      rw [e5]
      field_simp

end Post
