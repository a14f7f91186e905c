import Verif.Spec.Atmosphere
import Verif.Model.Atmosphere
import Verif.Ext
import Verif.Lemmas.Throttle
/-! # Lemmas about the standard atmosphere in exact arithmetic -/

namespace Post
open Spec Flt

/-- The layer in the arithmetic of the program. -/
def Spec.Layer.fin (l : Layer) : AtmosRow XR := ⟨.fin l.alt, .fin l.pres, .fin l.temp, .fin l.grad⟩

theorem row_fin (a b c d : ℝ) :
    (⟨.fin a * METER_PER_FOOT, .fin b * PASCAL_PER_PSF, .fin c * KELVIN_PER_RANKIN,
      .fin d * KELVIN_PER_RANKIN / METER_PER_FOOT⟩ : AtmosRow XR) = (layer a b c d).fin := by
  unfold METER_PER_FOOT PASCAL_PER_PSF KELVIN_PER_RANKIN KILOGRAM_PER_POUND
    SQUARE_METER_PER_SQUARE_FOOT STD_GRAVITY METER_PER_FOOT Layer.fin layer
  simp only [XR.fin_sci, XR.fin_one, XR.fin_mul]
  rw [XR.fin_div _ _ (by norm_num), XR.fin_div _ _ (by norm_num)]
  simp only [XR.fin_mul]
  rw [XR.fin_div _ _ (by norm_num)]

theorem stdAtmosTable_fin : (stdAtmosTable : List (AtmosRow XR)) = layers.map Layer.fin := by
  unfold stdAtmosTable layers
  simp only [List.map_cons, List.map_nil, XR.fin_sci, XR.fin_neg, row_fin]

/-- The layers are sorted by altitude. -/
theorem layers_sorted : layers.IsChain (fun l n => l.alt < n.alt) := by
  unfold layers layer
  norm_num

theorem layers_pairwise : layers.Pairwise (fun l n => l.alt < n.alt) := by
  refine List.isChain_iff_pairwise.1 layers_sorted

/-- Facts about single layers. -/
theorem layers_pos : ∀ l ∈ layers, 0 < l.temp ∧ 0 < l.pres := by
  unfold layers layer
  norm_num

/-- The temperature stays positive up to the top of each layer. -/
theorem layers_top : layers.IsChain (fun l n => 0 < l.temperature n.alt) := by
  unfold layers layer Layer.temperature
  norm_num

theorem layers_ends : (∃ rest, layers = layer 0.0 0.21162166e4 518.67 (-0.35661600e-2) :: rest) ∧
    ∃ rest, layers = rest ++ [layer 2068776.5 0.24958752e-8 4861.17 0.0] := by
  constructor
  · exact ⟨_, rfl⟩
  · refine ⟨layers.take 21, ?_⟩
    unfold layers
    rfl

theorem rowFrom_fin (h : ℝ) (prev : Layer) (rest : List Layer) :
    ∃ below l above, prev :: rest = below ++ l :: above ∧ (below = [] ∨ l.alt ≤ h) ∧
      (∀ n ∈ above.head?, h < n.alt) ∧ rowFrom (.fin h) prev.fin (rest.map Layer.fin) = l.fin := by
  induction rest generalizing prev with
  | nil => exact ⟨[], prev, [], rfl, .inl rfl, by simp, rfl⟩
  | cons r rest ih =>
    unfold rowFrom
    simp only [List.map_cons]
    by_cases hr : h < r.alt
    · refine ⟨[], prev, r :: rest, rfl, .inl rfl, by simpa using hr, ?_⟩
      exact if_pos ((gt_fin r.alt h).2 hr)
    · have hn : ¬ Flt.gt r.fin.alt (.fin h) = true := fun hc => hr ((gt_fin r.alt h).1 hc)
      rw [if_neg hn]
      obtain ⟨below, l, above, h1, h2, h3, h4⟩ := ih r
      refine ⟨prev :: below, l, above, by rw [h1]; rfl, .inr ?_, h3, h4⟩
      rcases h2 with rfl | h2
      · simp only [List.nil_append, List.cons.injEq] at h1
        rw [← h1.1]; exact not_lt.1 hr
      · exact h2

theorem getTableRow_fin (h : ℝ) : ∃ l, LayerAt h l ∧ getTableRow (.fin h) = l.fin := by
  obtain ⟨rest, hrest⟩ := layers_ends.1
  obtain ⟨below, l, above, h1, h2, h3, h4⟩ :=
    rowFrom_fin h (layer 0.0 0.21162166e4 518.67 (-0.35661600e-2)) rest
  refine ⟨l, ⟨below, above, by rw [hrest, h1], h2, h3⟩, ?_⟩
  unfold getTableRow
  rw [stdAtmosTable_fin, hrest]
  exact h4

/-- An altitude lies in one layer only. -/
theorem layerAt_unique {h : ℝ} {l l' : Layer} (h1 : LayerAt h l) (h2 : LayerAt h l') : l' = l := by
  obtain ⟨b, a, e, hb, ha⟩ := h1
  obtain ⟨b', a', e', hb', ha'⟩ := h2
  have hp := layers_pairwise
  have key : ∀ {b a b' a' : List Layer} {l l' : Layer}, b ++ l :: a = b' ++ l' :: a' →
      (b ++ l :: a).Pairwise (fun l n => l.alt < n.alt) →
      (∀ n ∈ a.head?, h < n.alt) → (b' = [] ∨ l'.alt ≤ h) → b'.length ≤ b.length := by
    intro b a b' a' l l' e hp ha hb'
    by_contra hlen
    push Not at hlen
    rcases hb' with rfl | hb'
    · simp at hlen
    · obtain ⟨c, hc⟩ : ∃ c, b' = b ++ l :: c := by
        have : (b ++ [l]) <+: b' := by
          apply List.prefix_of_prefix_length_le (l₃ := b ++ l :: a)
          · exact ⟨a, by simp⟩
          · rw [e]; exact ⟨l' :: a', rfl⟩
          · simp; omega
        obtain ⟨c, hc⟩ := this
        exact ⟨c, by rw [← hc]; simp⟩
      subst hc
      rw [List.append_assoc, List.append_cancel_left_eq, List.cons_append, List.cons.injEq] at e
      rw [e.2] at ha hp
      cases c with
      | nil =>
        have := ha l' (by simp)
        linarith
      | cons n c =>
        have h1 := ha n (by simp)
        have h2 : n.alt < l'.alt := by
          rw [List.pairwise_append] at hp
          have := hp.2.1
          rw [List.pairwise_cons] at this
          have := this.2
          rw [List.cons_append, List.pairwise_cons] at this
          exact this.1 l' (by simp)
        linarith
  have l1 := key (e.symm.trans e') (by rw [← e]; exact hp) ha hb'
  have l2 := key (e'.symm.trans e) (by rw [← e']; exact hp) ha' hb
  have hl : b.length = b'.length := le_antisymm l2 l1
  have := List.append_inj (e.symm.trans e') hl
  injection this.2 with h1 h2
  exact h1.symm

theorem layerAt_mem {h : ℝ} {l : Layer} (hl : LayerAt h l) : l ∈ layers := by
  obtain ⟨b, a, e, _⟩ := hl
  rw [e]; simp

/-- The temperature is positive throughout a layer. -/
theorem layerAt_temperature_pos {h : ℝ} {l : Layer} (hl : LayerAt h l) : 0 < l.temperature h := by
  have hpos := (layers_pos l (layerAt_mem hl)).1
  obtain ⟨b, a, e, hb, ha⟩ := hl
  obtain ⟨⟨r1, e1⟩, ⟨r2, e2⟩⟩ := layers_ends
  -- at the top
  have top : l.alt ≤ h → 0 < l.temperature h := by
    intro hle
    cases a with
    | nil =>
      rw [e2] at e
      have := List.append_inj' e rfl
      injection this.2 with h1
      rw [← h1]
      unfold Layer.temperature layer
      norm_num
    | cons n a =>
      have hlt : h < n.alt := ha n (by simp)
      have ht : 0 < l.temperature n.alt := by
        have := layers_top
        rw [e, List.isChain_append] at this
        exact (List.isChain_cons_cons.1 this.2.1).1
      unfold Layer.temperature at ht ⊢
      rcases le_or_gt 0 l.grad with hg | hg
      · have : 0 ≤ l.grad * (h - l.alt) := mul_nonneg hg (by linarith)
        linarith
      · nlinarith
  by_cases hle : l.alt ≤ h
  · exact top hle
  · rcases hb with rfl | hb
    · rw [e1, List.nil_append, List.cons.injEq] at e
      rw [← e.1] at hle ⊢
      unfold Layer.temperature layer at *
      norm_num at hle ⊢
      linarith
    · exact absurd hb hle

end Post
