import Verif.Props.JsonText
import Verif.Props.Load
import Verif.Spec.ConfigNumbers
/-! # The numbers of a configuration come from the file (C102) -/

namespace Post
open Spec Txt

section
variable {F : Type} {P : F → Prop}

theorem numbers_mem {l : List (Json F)} (h : AllNumbersList P l) : ∀ j ∈ l, AllNumbers P j := by
  induction l with
  | nil => simp
  | cons j l ih =>
    intro k hk
    rcases List.mem_cons.1 hk with rfl | hk
    · exact h.1
    · exact ih h.2 k hk

theorem numbers_member {m : List (String × Json F)} (h : AllNumbersMembers P m) : ∀ e ∈ m, AllNumbers P e.2 := by
  induction m with
  | nil => simp
  | cons j l ih =>
    obtain ⟨s, j⟩ := j
    intro k hk
    rcases List.mem_cons.1 hk with rfl | hk
    · exact h.1
    · exact ih h.2 k hk

theorem numbers_section {keys : List String} {n : Nat} {j : Json F} {m : List (String × Json F)} (h : SectionWith keys n j m)
    (hj : AllNumbers P j) : ∀ {k : String} {v : Json F}, (k, v) ∈ m → AllNumbers P v := by
  intro k v hv
  rcases h with ⟨rfl, -, -⟩ | ⟨l, rfl, -, -, rfl⟩
  · exact numbers_member hj _ hv
  · exact numbers_mem hj _ (List.of_mem_zip hv).2

theorem numbers_list {α : Type} {R : Json F → α → Prop} {Q : α → Prop} (hR : ∀ {j a}, AllNumbers P j → R j a → Q a)
    {j : Json F} {as : List α} (hj : AllNumbers P j) (h : SaysList R j as) : ∀ a ∈ as, Q a := by
  obtain ⟨l, rfl, h⟩ := h
  have hl : ∀ k ∈ l, AllNumbers P k := numbers_mem hj
  clear hj
  induction h with
  | nil => simp
  | cons h1 _ ih =>
    intro a ha
    rcases List.mem_cons.1 ha with rfl | ha
    · exact hR (hl _ (by simp)) h1
    · exact ih (fun k hk => hl k (by simp [hk])) a ha

theorem numbers_number {j : Json F} {a : F} (hj : AllNumbers P j) (h : SaysNumber j a) : P a := by
  subst h
  exact hj

theorem numbers_numbers {j : Json F} {as : List F} (hj : AllNumbers P j) (h : SaysList SaysNumber j as) : ∀ a ∈ as, P a :=
  numbers_list (R := SaysNumber) (Q := P) numbers_number hj h

theorem numbers_axis {j : Json F} {a : StateVariable × List F} (hj : AllNumbers P j) (h : SaysAxis j a) : ∀ x ∈ a.2, P x := by
  obtain ⟨u, v, rfl, -, h⟩ := h
  exact numbers_numbers hj.2.1 h

theorem numbers_gives {α : Type} {R : Json F → α → Prop} {Q : α → Prop} {m : List (String × Json F)}
    (hm : ∀ {k : String} {v : Json F}, (k, v) ∈ m → AllNumbers P v) (hR : ∀ {j a}, AllNumbers P j → R j a → Q a)
    {k : String} {a : α} (h : Gives m k R a) : Q a := by
  obtain ⟨v, hv, h⟩ := h
  exact hR (hm hv) h

theorem numbers_optional {α : Type} {R : Json F → α → Prop} {Q : α → Prop} {m : List (String × Json F)}
    (hm : ∀ {k : String} {v : Json F}, (k, v) ∈ m → AllNumbers P v) (hR : ∀ {j a}, AllNumbers P j → R j a → Q a)
    {k : String} {o : Option α} (h : GivesOptional m k R o) : ∀ a, o = some a → Q a := by
  rintro a rfl
  obtain ⟨v, hv, -, h⟩ := h
  exact hR (hm hv) h

variable [Flt F]

theorem numbers_table {j : Json F} {t : Table F} (hj : AllNumbers P j) (h : SaysTable j t) : TableNumbers P t := by
  obtain ⟨-, h⟩ := h
  rcases t with t | t | t
  · obtain ⟨m, hs, -, h1, h2⟩ := h
    have hm := fun {k v} => numbers_section hs hj (k := k) (v := v)
    exact ⟨numbers_gives (Q := fun a : StateVariable × List F => ∀ x ∈ a.2, P x) hm numbers_axis h1,
      numbers_gives (Q := fun a => ∀ x ∈ a, P x) hm numbers_numbers h2⟩
  · obtain ⟨m, hs, -, h1, h2, h3⟩ := h
    have hm := fun {k v} => numbers_section hs hj (k := k) (v := v)
    exact ⟨numbers_gives (Q := fun a : StateVariable × List F => ∀ x ∈ a.2, P x) hm numbers_axis h1,
      numbers_gives (Q := fun a : StateVariable × List F => ∀ x ∈ a.2, P x) hm numbers_axis h2,
      numbers_gives (Q := fun a => ∀ r ∈ a, ∀ x ∈ r, P x) hm
        (numbers_list (Q := fun r => ∀ x ∈ r, P x) numbers_numbers) h3⟩
  · obtain ⟨m, hs, -, h1, h2, h3, h4⟩ := h
    have hm := fun {k v} => numbers_section hs hj (k := k) (v := v)
    exact ⟨numbers_gives (Q := fun a : StateVariable × List F => ∀ x ∈ a.2, P x) hm numbers_axis h1,
      numbers_gives (Q := fun a : StateVariable × List F => ∀ x ∈ a.2, P x) hm numbers_axis h2,
      numbers_gives (Q := fun a : StateVariable × List F => ∀ x ∈ a.2, P x) hm numbers_axis h3,
      numbers_gives (Q := fun a => ∀ p ∈ a, ∀ r ∈ p, ∀ x ∈ r, P x) hm
        (numbers_list (Q := fun p => ∀ r ∈ p, ∀ x ∈ r, P x)
          (numbers_list (Q := fun r => ∀ x ∈ r, P x) numbers_numbers)) h4⟩

omit [Flt F] in
theorem numbers_engine {j : Json F} {e : Engine F} (hj : AllNumbers P j) (h : SaysEngine j e) :
    P e.incidencePitch ∧ P e.incidenceYaw ∧ P e.thrustVac ∧ P e.ispVac ∧ P e.exitArea := by
  obtain ⟨m, hs, h1, h2, h3, h4⟩ := h
  have hm := fun {k v} => numbers_section hs hj (k := k) (v := v)
  obtain ⟨a1, a2, -⟩ := hm h1
  exact ⟨a1, a2, numbers_gives (R := SaysNumber) (Q := P) hm numbers_number h2, numbers_gives (R := SaysNumber) (Q := P) hm numbers_number h3, numbers_gives (R := SaysNumber) (Q := P) hm numbers_number h4⟩

theorem numbers_vehicle {j : Json F} {c : VehicleConfig F} (hj : AllNumbers P j) (h : SaysVehicle j c) : VehicleNumbers P c := by
  obtain ⟨m, hs, h1, h2, h3, h4, h5, h6, h7⟩ := h
  have hm := fun {k v} => numbers_section hs hj (k := k) (v := v)
  exact ⟨numbers_optional (R := SaysNumber) (Q := P) hm numbers_number h1, numbers_optional (R := SaysNumber) (Q := P) hm numbers_number h2, numbers_optional (R := SaysNumber) (Q := P) hm numbers_number h3,
    numbers_optional (R := SaysTable) (Q := TableNumbers P) hm numbers_table h4, numbers_optional (R := SaysTable) (Q := TableNumbers P) hm numbers_table h5, numbers_optional (R := SaysTable) (Q := TableNumbers P) hm numbers_table h6,
    numbers_optional (Q := fun es => ∀ e ∈ es, P e.incidencePitch ∧ P e.incidenceYaw ∧ P e.thrustVac ∧ P e.ispVac ∧ P e.exitArea)
      hm
      (numbers_list (R := SaysEngine) (Q := fun e => P e.incidencePitch ∧ P e.incidenceYaw ∧ P e.thrustVac ∧ P e.ispVac ∧ P e.exitArea)
        numbers_engine) h7⟩

omit [Flt F] in
theorem numbers_init {j : Json F} {i : InitConfig F} (hj : AllNumbers P j) (h : SaysInit j i) :
    P i.latitude ∧ P i.longitude ∧ P i.azimuth ∧ P i.altitude := by
  obtain ⟨m, hs, h1, h2, h3, h4⟩ := h
  have hm := fun {k v} => numbers_section hs hj (k := k) (v := v)
  exact ⟨numbers_gives (R := SaysNumber) (Q := P) hm numbers_number h1, numbers_gives (R := SaysNumber) (Q := P) hm numbers_number h2, numbers_gives (R := SaysNumber) (Q := P) hm numbers_number h3,
    numbers_gives (R := SaysNumber) (Q := P) hm numbers_number h4⟩

omit [Flt F] in
theorem numbers_steeringAxis {j : Json F} {a : AxisConfig F} (hj : AllNumbers P j) (h : SaysSteeringAxis j a) :
    P a.c1 ∧ P a.c2 ∧ P a.c3 := by
  obtain ⟨v, -, rfl⟩ := h
  obtain ⟨-, ⟨a1, a2, a3, -⟩, -⟩ := hj
  exact ⟨a1, a2, a3⟩

omit [Flt F] in
theorem numbers_steering {j : Json F} {c : SteeringConfig F} (hj : AllNumbers P j) (h : SaysSteering j c) :
    ∀ a, c.roll = some a ∨ c.yaw = some a ∨ c.pitch = some a → P a.c1 ∧ P a.c2 ∧ P a.c3 := by
  obtain ⟨m, hs, h1, h2, h3⟩ := h
  have hm := fun {k v} => numbers_section hs hj (k := k) (v := v)
  rintro a (h | h | h)
  · exact numbers_optional (Q := fun a => P a.c1 ∧ P a.c2 ∧ P a.c3) hm numbers_steeringAxis h1 a h
  · exact numbers_optional (Q := fun a => P a.c1 ∧ P a.c2 ∧ P a.c3) hm numbers_steeringAxis h2 a h
  · exact numbers_optional (Q := fun a => P a.c1 ∧ P a.c2 ∧ P a.c3) hm numbers_steeringAxis h3 a h

omit [Flt F] in
theorem numbers_planet {j : Json F} {p : PlanetConfig F} (hj : AllNumbers P j) (h : SaysPlanet j p) : PlanetNumbers P p := by
  cases p with
  | custom a b g w =>
    obtain ⟨s, m, rfl, hs, h1, h2, h3, h4⟩ := h
    have hm := fun {k v} => numbers_section hs hj.1 (k := k) (v := v)
    obtain ⟨a1, a2, a3, a4, -⟩ := hm h3
    exact ⟨numbers_gives (R := SaysNumber) (Q := P) hm numbers_number h1, numbers_gives (R := SaysNumber) (Q := P) hm numbers_number h2, ⟨a1, a2, a3, a4⟩,
      numbers_gives (R := SaysNumber) (Q := P) hm numbers_number h4⟩
  | _ => trivial

omit [Flt F] in
theorem numbers_atmosphere {j : Json F} {c : AtmosphereConfig F} (hj : AllNumbers P j) (h : SaysAtmosphere j c) :
    ∀ w, c.wind = some w → P w.x ∧ P w.y ∧ P w.z := by
  obtain ⟨m, hs, -, h1⟩ := h
  have hm := fun {k v} => numbers_section hs hj (k := k) (v := v)
  refine numbers_optional (Q := fun w : V3 F => P w.x ∧ P w.y ∧ P w.z) hm ?_ h1
  rintro j w hj rfl
  exact ⟨hj.1, hj.2.1, hj.2.2.1⟩

theorem numbers_phase {j : Json F} {c : PhaseConfig F} (hj : AllNumbers P j) (h : SaysPhase j c) : ConfigNumbers P c := by
  obtain ⟨m, hs, h1, h2, h3, h4, h5, h6, h7, h8⟩ := h
  have hm := fun {k v} => numbers_section hs hj (k := k) (v := v)
  refine ⟨numbers_optional (R := SaysInit) (Q := fun i => P i.latitude ∧ P i.longitude ∧ P i.azimuth ∧ P i.altitude) hm numbers_init h1, numbers_optional (R := SaysVehicle) (Q := VehicleNumbers P) hm numbers_vehicle h2, ?_,
    numbers_optional (R := SaysPlanet) (Q := PlanetNumbers P) hm numbers_planet h4, ?_, numbers_optional (R := SaysNumber) (Q := P) hm numbers_number h6, numbers_optional (R := SaysNumber) (Q := P) hm numbers_number h7, ?_⟩
  · exact numbers_optional (Q := fun s : SteeringConfig F =>
      ∀ a, s.roll = some a ∨ s.yaw = some a ∨ s.pitch = some a → P a.c1 ∧ P a.c2 ∧ P a.c3) hm numbers_steering h3
  · exact numbers_optional (Q := fun a : AtmosphereConfig F => ∀ w, a.wind = some w → P w.x ∧ P w.y ∧ P w.z)
      hm numbers_atmosphere h5
  · intro v a e
    refine numbers_optional (Q := fun e : StateVariable × F => P e.2) hm ?_ h8 _ e
    rintro j e hj ⟨u, v, rfl, -, h⟩
    exact numbers_number hj.2.1 h

/-- C102 (from the file).  A configuration contains no other numbers than its file: what all numbers of the file have in common,
all numbers of the configuration have. -/
theorem C102_from_file {j : Json F} {cs : List (PhaseConfig F)} (hj : AllNumbers P j)
    (h : Simulation.fromFile (.json j) = some cs) : ∀ c ∈ cs, ConfigNumbers P c := by
  rw [C60_keys_set_parameters] at h
  exact numbers_list (R := SaysPhase) (Q := ConfigNumbers P) numbers_phase hj h

end

variable {L : Libm}

/-- C102 (loaded).  Every number of a configuration that is loaded from a text is a double which is neither NaN nor infinite. -/
theorem C102_loaded {t : List Char} {cs : List (PhaseConfig (F64 L))} (h : Simulation.fromFile (File.ofText t) = some cs) :
    ∀ c ∈ cs, ConfigNumbers (fun x : F64 L => ∃ s a, x.dbl = .fin s a ∧ Dbl.IsMag a) c := by
  rcases hf : (File.ofText t : File (F64 L)) with _ | _ | j
  · rw [hf] at h
    cases h
  · rw [hf] at h
    cases h
  · rw [hf] at h
    exact C102_from_file (C102_finite hf) h

/-- The shipped example is such a configuration; it has eleven phases. -/
example : ∃ cs : List (PhaseConfig (F64 L)), Simulation.fromFile (File.ofText Shipped.text) = some cs ∧ cs.length = 11 := by
  rw [Shipped.ofText_text]
  exact ⟨_, Shipped.loads, rfl⟩

end Post
