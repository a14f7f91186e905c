import Verif.Model.Plot
/-! # Lemmas about the regular expressions of the plotting tool -/

namespace Post

/-- One or more decimal digits. -/
def Spec.Natural (s : List Char) : Prop := s ≠ [] ∧ ∀ c ∈ s, c.isDigit = true

/-- A decimal integer: digits, possibly after a minus sign. -/
def Spec.Decimal (s : List Char) : Prop := Natural s ∨ ∃ t, Natural t ∧ s = '-' :: t

open Spec

namespace Re

theorem strip_append (l s : List Char) : strip l (l ++ s) = some s := by
  induction l with
  | nil => cases s <;> rfl
  | cons c l ih => simp [strip, ih]

theorem greedy_ok {α : Type} {p : Char → Bool} {k : List Char → Option α} {a : α}
    {ws s : List Char} (hw : ∀ c ∈ ws, p c = true) (hs : ∀ c, s.head? = some c → p c = false)
    (hk : k s = some a) (ok : Bool) (h : ok = true ∨ ws ≠ []) :
    greedy p k ok (ws ++ s) = some a := by
  induction ws generalizing ok with
  | nil =>
    have : ok = true := by simpa using h
    subst this
    cases s with
    | nil => simpa [greedy] using hk
    | cons c s => simp [greedy, hs c rfl, hk]
  | cons c ws ih =>
    have hc : p c = true := hw c (by simp)
    simp [greedy, hc, ih (fun c h => hw c (by simp [h])) true (.inl rfl)]

theorem lazy_skip {α : Type} {k : List Char → Option α} {pre s : List Char}
    (h : ∀ t c t', pre = t ++ c :: t' → k (c :: (t' ++ s)) = none) :
    lazy k (pre ++ s) = lazy k s := by
  induction pre with
  | nil => rfl
  | cons c pre ih =>
    rw [List.cons_append, lazy, h [] c pre rfl]
    exact ih fun t c' t' ht => h (c :: t) c' t' (by simp [ht])

theorem lazy_ok {α : Type} {k : List Char → Option α} {s : List Char} {a : α}
    (h : k s = some a) : lazy k s = some a := by
  cases s with
  | nil => exact h
  | cons c s => simp [lazy, h]

end Re

namespace Plot
open Re

theorem natural_digit {s : List Char} (h : Natural s) {c : Char} (hc : s.head? = some c) :
    c.isDigit = true := by
  cases s with
  | nil => cases hc
  | cons d s => injection hc with hc; subst hc; exact h.2 d (by simp)

theorem isDigit_ne {c d : Char} (h : c.isDigit = true) (hd : d.isDigit = false) : c ≠ d := by
  rintro rfl; rw [h] at hd; cases hd

/-- Digits followed by something else. -/
theorem run_digit {α : Type} {k : List Char → List (List Char) → Option α} {n rest : List Char}
    (hn : Natural n) (hr : ∀ c, rest.head? = some c → c.isDigit = false) {g : List (List Char)}
    {a : α} (hk : k rest g = some a) : run digit k (n ++ rest) g = some a :=
  greedy_ok hn.2 hr hk false (.inr hn.1)

theorem take_prefix (a b : List Char) : (a ++ b).take ((a ++ b).length - b.length) = a := by
  simp

theorem run_group_digit {α : Type} {k : List Char → List (List Char) → Option α}
    {n rest : List Char} (hn : Natural n)
    (hr : ∀ c, rest.head? = some c → c.isDigit = false) {g : List (List Char)}
    {a : α} (hk : k rest (g ++ [n]) = some a) :
    run (.group digit) k (n ++ rest) g = some a := by
  unfold run
  exact run_digit hn hr (by simpa using hk)

theorem run_number {α : Type} {k : List Char → List (List Char) → Option α}
    {n rest : List Char} (hn : Decimal n)
    (hr : ∀ c, rest.head? = some c → c.isDigit = false) {g : List (List Char)}
    {a : α} (hk : k rest (g ++ [n]) = some a) :
    run number k (n ++ rest) g = some a := by
  unfold number
  rw [run]
  rcases hn with hn | ⟨t, ht, rfl⟩
  · obtain ⟨c, n', rfl⟩ : ∃ c n', n = c :: n' := by
      cases n with
      | nil => exact absurd rfl hn.1
      | cons c n' => exact ⟨c, n', rfl⟩
    have hc : c.isDigit = true := hn.2 c (by simp)
    have hne : '-' ≠ c := (isDigit_ne hc (by decide)).symm
    rw [run, run]
    have : strip ['-'] (c :: n' ++ rest) = none := by simp [strip, hne]
    rw [this]
    exact run_digit hn hr (by rw [take_prefix]; exact hk)
  · rw [run, run]
    have : strip ['-'] ('-' :: t ++ rest) = some (t ++ rest) := by simp [strip]
    rw [this, Option.bind_some]
    rw [run_digit (a := a) ht hr (by rw [take_prefix]; exact hk)]

/-- No number starts with this character. -/
theorem run_number_none {α : Type} {k : List Char → List (List Char) → Option α} {c : Char}
    {s : List Char} (h1 : c.isDigit = false) (h2 : c ≠ '-') (g : List (List Char)) :
    run number k (c :: s) g = none := by
  simp [number, run, strip, Ne.symm h2, digit, greedy, h1]

/-- A bar, white space and a number. -/
def body : Re := .seq (.lit ['│']) (.seq space number)

theorem body_ne {α : Type} {k : List Char → List (List Char) → Option α} {c : Char}
    {s : List Char} (h : c ≠ '│') (g : List (List Char)) : run body k (c :: s) g = none := by
  simp [body, run, strip, Ne.symm h]

theorem body_bar {α : Type} {k : List Char → List (List Char) → Option α} {s : List Char}
    (g : List (List Char)) : run body k ('│' :: '\n' :: ' ' :: ' ' :: '│' :: s) g = none := by
  have h1 := fun s => run_number_none (k := k) (c := ' ') (s := s) (by decide) (by decide) g
  have h2 := fun s => run_number_none (k := k) (c := '│') (s := s) (by decide) (by decide) g
  simp only [body, run, strip, if_true, Option.bind_some, space, greedy]
  simp [h1, h2]

theorem body_ok {α : Type} {k : List Char → List (List Char) → Option α} {num rest : List Char}
    {w : Nat} (hn : Decimal num) (hr : ∀ c, rest.head? = some c → c.isDigit = false)
    {g : List (List Char)} {a : α} (hk : k rest (g ++ [num]) = some a) :
    run body k ('│' :: ' ' :: (Text.pad w ++ (num ++ rest))) g = some a := by
  have hnum := run_number (k := k) hn hr hk
  unfold body
  rw [run, run]
  have : strip ['│'] ('│' :: ' ' :: (Text.pad w ++ (num ++ rest))) =
      some ((' ' :: Text.pad w) ++ (num ++ rest)) := by simp [strip]
  rw [this, Option.bind_some, run]
  unfold space
  rw [run]
  refine greedy_ok ?_ ?_ hnum false (.inr (by simp))
  · intro c hc
    have : c = ' ' := by
      rcases List.mem_cons.1 hc with rfl | hc
      · rfl
      · exact List.eq_of_mem_replicate hc
    subst this; decide
  · intro c hc
    have hd : c.isDigit = true ∨ c = '-' := by
      rcases hn with hn | ⟨t, _, rfl⟩
      · left
        refine natural_digit hn (c := c) ?_
        cases num with
        | nil => exact absurd rfl hn.1
        | cons d num => simpa using hc
      · right; simp at hc; exact hc.symm
    rcases hd with hd | rfl
    · have h1 := isDigit_ne hd (d := ' ') (by decide)
      have h2 := isDigit_ne hd (d := '\n') (by decide)
      simp [h1, h2]
    · decide

/-! ## Finding -/

end Plot

namespace Re

theorem find_skip {r : Re} {pre s : List Char}
    (h : ∀ t c t', pre = t ++ c :: t' → r.matchAt (c :: (t' ++ s)) = none) :
    r.find (pre ++ s) = (r.find s).map fun m => (pre ++ m.1, m.2) := by
  induction pre with
  | nil => simp
  | cons c pre ih =>
    rw [List.cons_append, find, h [] c pre rfl,
      ih fun t c' t' ht => h (c :: t) c' t' (by simp [ht])]
    cases r.find s <;> rfl

theorem find_ok {r : Re} {s : List Char} {m : List (List Char) × List Char}
    (h : r.matchAt s = some m) : r.find s = some ([], m) := by
  cases s with
  | nil => simp [find, h]
  | cons c s => simp [find, h]

/-- Skipping a prefix in which no match starts. -/
theorem findAll_skip {r : Re} {pre s : List Char}
    (h : ∀ t c t', pre = t ++ c :: t' → r.matchAt (c :: (t' ++ s)) = none)
    (hlen : ∀ m, r.find s = some m → m.2.2.length < s.length) :
    r.findAll (pre ++ s) = r.findAll s := by
  rw [findAll, find_skip h]
  conv => rhs; rw [findAll]
  cases hf : r.find s with
  | none => rfl
  | some m =>
    obtain ⟨b, g, s'⟩ := m
    have := hlen _ hf
    simp only at this
    simp only [Option.map_some]
    rw [if_pos this, if_pos (by simp; omega)]

/-- The next match starts right here. -/
theorem findAll_ok {r : Re} {s s' : List Char} {g : List (List Char)}
    (h : r.matchAt s = some (g, s')) (hlen : s'.length < s.length) :
    r.findAll s = g :: r.findAll s' := by
  rw [findAll, find_ok h]
  simp [hlen]

theorem findAll_nil {r : Re} (h : r.matchAt [] = none) : r.findAll [] = [] := by
  rw [findAll]; simp [find, h]

/-- An expression that begins with a literal text. -/
theorem matchAt_lit_ne {l : List Char} {b : Re} {d c : Char} {s : List Char} (h : c ≠ d) :
    matchAt (.seq (.lit (d :: l)) b) (c :: s) = none := by
  simp [matchAt, run, strip, Ne.symm h]

theorem matchAt_lit_nil {l : List Char} {b : Re} {d : Char} :
    matchAt (.seq (.lit (d :: l)) b) [] = none := by
  simp [matchAt, run, strip]

theorem strip_length {l s s' : List Char} (h : strip l s = some s') :
    s'.length + l.length = s.length := by
  induction l generalizing s with
  | nil => cases s <;> (simp [strip] at h; subst h; rfl)
  | cons c l ih =>
    cases s with
    | nil => cases h
    | cons d s =>
      simp only [strip] at h
      split at h
      · have := ih h; simp; omega
      · cases h

theorem greedy_length {α : Type} {p : Char → Bool} {k : List Char → Option α} {ok : Bool}
    {s : List Char} {a : α} (h : greedy p k ok s = some a) :
    ∃ s', k s' = some a ∧ s'.length ≤ s.length := by
  induction s generalizing ok with
  | nil =>
    simp only [greedy] at h
    split at h
    · exact ⟨_, h, Nat.le_refl _⟩
    · cases h
  | cons c s ih =>
    simp only [greedy] at h
    split at h
    · next b hb =>
      split at hb
      · injection h with h; subst h
        obtain ⟨s', h1, h2⟩ := ih hb
        exact ⟨s', h1, by simp; omega⟩
      · cases hb
    · split at h
      · exact ⟨_, h, Nat.le_refl _⟩
      · cases h

theorem lazy_length {α : Type} {k : List Char → Option α} {s : List Char} {a : α}
    (h : lazy k s = some a) : ∃ s', k s' = some a ∧ s'.length ≤ s.length := by
  induction s with
  | nil => exact ⟨_, h, Nat.le_refl _⟩
  | cons c s ih =>
    simp only [lazy] at h
    split at h
    · next b hb => injection h with h; subst h; exact ⟨_, hb, Nat.le_refl _⟩
    · obtain ⟨s', h1, h2⟩ := ih h
      exact ⟨s', h1, by simp; omega⟩

theorem run_length {α : Type} {r : Re} {k : List Char → List (List Char) → Option α}
    {s : List Char} {g : List (List Char)} {a : α} (h : run r k s g = some a) :
    ∃ s' g', k s' g' = some a ∧ s'.length ≤ s.length := by
  induction r generalizing k s g with
  | lit l =>
    simp only [run, Option.bind_eq_some_iff] at h
    obtain ⟨s', h1, h2⟩ := h
    exact ⟨s', g, h2, by have := strip_length h1; omega⟩
  | plus p =>
    obtain ⟨s', h1, h2⟩ := greedy_length h
    exact ⟨s', g, h1, h2⟩
  | opt c =>
    simp only [run] at h
    split at h
    · next b hb =>
      injection h with h; subst h
      simp only [Option.bind_eq_some_iff] at hb
      obtain ⟨s', h1, h2⟩ := hb
      exact ⟨s', g, h2, by have := strip_length h1; omega⟩
    · exact ⟨s, g, h, Nat.le_refl _⟩
  | any =>
    obtain ⟨s', h1, h2⟩ := lazy_length h
    exact ⟨s', g, h1, h2⟩
  | group r ih =>
    obtain ⟨s', g', h1, h2⟩ := ih h
    exact ⟨s', _, h1, h2⟩
  | seq a b iha ihb =>
    obtain ⟨s1, g1, h1, h2⟩ := iha h
    obtain ⟨s2, g2, h3, h4⟩ := ihb h1
    exact ⟨s2, g2, h3, by omega⟩

/-- An expression that begins with a literal text consumes something. -/
theorem matchAt_lit_length {l : List Char} {b : Re} {d : Char} {s : List Char}
    {m : List (List Char) × List Char} (h : matchAt (.seq (.lit (d :: l)) b) s = some m) :
    m.2.length < s.length := by
  unfold matchAt at h
  simp only [run, Option.bind_eq_some_iff] at h
  obtain ⟨s1, h1, h2⟩ := h
  obtain ⟨s2, g2, h3, h4⟩ := run_length h2
  injection h3 with h3; subst h3
  have := strip_length h1
  simp at this ⊢
  omega

theorem find_lit_length {l : List Char} {b : Re} {d : Char} {s : List Char}
    {m : List Char × List (List Char) × List Char}
    (h : find (.seq (.lit (d :: l)) b) s = some m) : m.2.2.length < s.length := by
  induction s generalizing m with
  | nil => simp [find, matchAt_lit_nil] at h
  | cons c s ih =>
    simp only [find] at h
    split at h
    · next m' hm => injection h with h; subst h; exact matchAt_lit_length hm
    · simp only [Option.map_eq_some_iff] at h
      obtain ⟨m', h1, rfl⟩ := h
      have := ih h1
      simp only [List.length_cons]; omega

/-- Skipping characters that are not the first one of the literal text. -/
theorem findAll_lit_skip {l : List Char} {b : Re} {d : Char} {pre s : List Char}
    (h : ∀ c ∈ pre, c ≠ d) :
    findAll (.seq (.lit (d :: l)) b) (pre ++ s) = findAll (.seq (.lit (d :: l)) b) s :=
  findAll_skip (fun t c t' ht => matchAt_lit_ne (h c (by simp [ht])))
    fun _ hm => find_lit_length hm


/-- Skipping one character. -/
theorem findAll_lit_cons {l : List Char} {b : Re} {d c : Char} {s : List Char}
    (h : matchAt (.seq (.lit (d :: l)) b) (c :: s) = none) :
    findAll (.seq (.lit (d :: l)) b) (c :: s) = findAll (.seq (.lit (d :: l)) b) s :=
  findAll_skip (pre := [c]) (fun t c' t' ht => by
    cases t with
    | nil => simp at ht; obtain ⟨rfl, rfl⟩ := ht; exact h
    | cons e t => simp at ht) fun _ hm => find_lit_length hm

end Re

namespace Plot
open Re

/-! ## Reading a vector -/

theorem run_cell {α : Type} (k : List Char → List (List Char) → Option α) (s : List Char)
    (g : List (List Char)) : run cell k s g = lazy (fun s' => run body k s' g) s := rfl

/-- The next cell, after characters that are no bar. -/
theorem cell_first {α : Type} {k : List Char → List (List Char) → Option α}
    {pre num rest : List Char} {w : Nat} (hp : ∀ c ∈ pre, c ≠ '│') (hn : Decimal num)
    (hr : ∀ c, rest.head? = some c → c.isDigit = false)
    {g : List (List Char)} {a : α} (hk : k rest (g ++ [num]) = some a) :
    run cell k (pre ++ ('│' :: ' ' :: (Text.pad w ++ (num ++ rest)))) g = some a := by
  rw [run_cell, lazy_skip]
  · exact lazy_ok (body_ok hn hr hk)
  · intro t c t' ht
    exact body_ne (hp c (by simp [ht])) g

/-- The next cell, after the end of a line. -/
theorem cell_next {α : Type} {k : List Char → List (List Char) → Option α}
    {num rest : List Char} {w : Nat} (hn : Decimal num)
    (hr : ∀ c, rest.head? = some c → c.isDigit = false)
    {g : List (List Char)} {a : α} (hk : k rest (g ++ [num]) = some a) :
    run cell k (' ' :: '│' :: '\n' :: ' ' :: ' ' :: '│' :: ' ' ::
      (Text.pad w ++ (num ++ rest))) g = some a := by
  rw [run_cell]
  simp only [lazy, body_ne (c := ' ') (by decide), body_bar, body_ne (c := '\n') (by decide)]
  rw [body_ok hn hr hk]

/-- What follows the last number of a displayed vector. -/
def vecTail (w : Nat) : List Char :=
  [' ', '│', '\n', ' ', ' ', '└', ' '] ++ (Text.pad w ++ [' ', '┘', '\n', '\n'])

theorem mem_pad {w : Nat} {c : Char} (h : c ∈ Text.pad w) : c = ' ' := List.eq_of_mem_replicate h

/-- The three cells of a displayed vector. -/
theorem cells_vec {a b c rest : List Char} (ha : Decimal a) (hb : Decimal b) (hc : Decimal c) :
    run (.seq cell (.seq cell cell)) (fun s' g => some (g, s'))
      (' ' :: (Text.vec a b c ++ rest)) [] =
    some ([a, b, c], vecTail (max (max a.length b.length) c.length) ++ rest) := by
  generalize hw : max (max a.length b.length) c.length = w
  have e : ' ' :: (Text.vec a b c ++ rest) =
      ([' ', '\n', ' ', ' ', '┌', ' '] ++ (Text.pad w ++ [' ', '┐', '\n', ' ', ' '])) ++
      ('│' :: ' ' :: (Text.pad (w - a.length) ++ (a ++
      (' ' :: '│' :: '\n' :: ' ' :: ' ' :: '│' :: ' ' :: (Text.pad (w - b.length) ++ (b ++
      (' ' :: '│' :: '\n' :: ' ' :: ' ' :: '│' :: ' ' :: (Text.pad (w - c.length) ++ (c ++
      (vecTail w ++ rest)))))))))) := by
    simp [Text.vec, Text.line, vecTail, hw]
  rw [e, run]
  have hsp : ∀ (s : List Char) (d : Char), (' ' :: s).head? = some d → d.isDigit = false := by
    intro s d h; injection h with h; subst h; decide
  refine cell_first ?_ ha (hsp _) ?_
  · intro d hd
    simp only [List.mem_append, List.mem_cons, List.not_mem_nil, or_false] at hd
    rcases hd with h | h | h
    · rcases h with rfl | rfl | rfl | rfl | rfl | rfl <;> decide
    · rw [mem_pad h]; decide
    · rcases h with rfl | rfl | rfl | rfl | rfl <;> decide
  · rw [run]
    refine cell_next hb (hsp _) (cell_next hc (hsp _) rfl)

theorem matchAt_position {a b c rest : List Char} (ha : Decimal a) (hb : Decimal b)
    (hc : Decimal c) :
    positionPattern.matchAt (['P', 'o', 's', 'i', 't', 'i', 'o', 'n', ':', ' '] ++
      (Text.vec a b c ++ rest)) =
    some ([a, b, c], vecTail (max (max a.length b.length) c.length) ++ rest) := by
  rw [← cells_vec ha hb hc]; rfl

theorem matchAt_velocity {a b c rest : List Char} (ha : Decimal a) (hb : Decimal b)
    (hc : Decimal c) :
    velocityPattern.matchAt (['V', 'e', 'l', 'o', 'c', 'i', 't', 'y', ':', ' '] ++
      (Text.vec a b c ++ rest)) =
    some ([a, b, c], vecTail (max (max a.length b.length) c.length) ++ rest) := by
  rw [← cells_vec ha hb hc]; rfl

theorem matchAt_time {n rest : List Char} (hn : Natural n)
    (hr : ∀ c, rest.head? = some c → c.isDigit = false) :
    timePattern.matchAt (['T', 'i', 'm', 'e', ':', ' '] ++ (n ++ rest)) = some ([n], rest) :=
  run_group_digit (k := fun s' g => some (g, s')) (g := []) (a := ([n], rest)) hn hr rfl

theorem matchAt_phase {n rest : List Char} (hn : Natural n)
    (hr : ∀ c, rest.head? = some c → c.isDigit = false) :
    phasePattern.matchAt
      (['S', 't', 'a', 'r', 't', 'i', 'n', 'g', ' ', 'P', 'h', 'a', 's', 'e', ' '] ++
        (n ++ rest)) = some ([n], rest) :=
  run_group_digit (k := fun s' g => some (g, s')) (g := []) (a := ([n], rest)) hn hr rfl

/-! ## Quiet texts -/

/-- A character that is no capital letter. -/
def quiet (c : Char) : Bool := !c.isUpper

/-- No capital letter occurs in the text. -/
def Quiet (s : List Char) : Prop := ∀ c ∈ s, quiet c = true

theorem Quiet.append {s t : List Char} (hs : Quiet s) (ht : Quiet t) : Quiet (s ++ t) := by
  intro c hc
  rcases List.mem_append.1 hc with h | h
  · exact hs c h
  · exact ht c h

theorem quiet_pad (w : Nat) : Quiet (Text.pad w) := by
  intro c hc; rw [mem_pad hc]; decide

theorem quiet_natural {s : List Char} (h : Natural s) : Quiet s := by
  intro c hc
  have := h.2 c hc
  simp only [Char.isDigit, quiet, Char.isUpper, Bool.and_eq_true, decide_eq_true_eq, ge_iff_le,
    Bool.not_eq_true', decide_eq_false_iff_not] at this ⊢
  intro h
  have := UInt32.le_trans h.1 this.2
  revert this; decide

theorem quiet_decimal {s : List Char} (h : Decimal s) : Quiet s := by
  rcases h with h | ⟨t, h, rfl⟩
  · exact quiet_natural h
  · intro c hc
    rcases List.mem_cons.1 hc with rfl | hc
    · decide
    · exact quiet_natural h c hc

theorem quiet_of_all {s : List Char} (h : s.all quiet = true) : Quiet s := by
  simpa [Quiet] using h

theorem quiet_vecTail (w : Nat) : Quiet (vecTail w) :=
  (quiet_of_all (by decide)).append ((quiet_pad w).append (quiet_of_all (by decide)))

theorem quiet_line {w : Nat} {s : List Char} (h : Quiet s) : Quiet (Text.line w s) :=
  (quiet_of_all (by decide)).append ((quiet_pad _).append (h.append (quiet_of_all (by decide))))

theorem quiet_vec {a b c : List Char} (ha : Decimal a) (hb : Decimal b) (hc : Decimal c) :
    Quiet (Text.vec a b c) :=
  (quiet_of_all (by decide)).append ((quiet_pad _).append ((quiet_of_all (by decide)).append
    ((quiet_line (quiet_decimal ha)).append ((quiet_line (quiet_decimal hb)).append
      ((quiet_line (quiet_decimal hc)).append ((quiet_of_all (by decide)).append
        ((quiet_pad _).append (quiet_of_all (by decide)))))))))

theorem Quiet.ne {s : List Char} (h : Quiet s) {d : Char} (hd : quiet d = false) :
    ∀ c ∈ s, c ≠ d := by
  rintro c hc rfl
  rw [h c hc] at hd; cases hd


/-! ## Reading rows -/

section
variable {F : Type} {fmt : F → List Char}

/-- All numbers of the row are printed as decimal integers, the time without a minus sign. -/
structure Readable (fmt : F → List Char) (r : Row F) : Prop where
  time : Natural (fmt r.time)
  px : Decimal (fmt r.positionPlanet.x)
  py : Decimal (fmt r.positionPlanet.y)
  pz : Decimal (fmt r.positionPlanet.z)
  vx : Decimal (fmt r.velocity.x)
  vy : Decimal (fmt r.velocity.y)
  vz : Decimal (fmt r.velocity.z)
  altitude : Decimal (fmt r.altitude)
  propellant : Decimal (fmt r.propellantMass)

variable {r : Row F}

theorem Readable.position (h : Readable fmt r) : Quiet (Text.vec3 fmt r.positionPlanet) :=
  quiet_vec h.px h.py h.pz

theorem Readable.velocity (h : Readable fmt r) : Quiet (Text.vec3 fmt r.velocity) :=
  quiet_vec h.vx h.vy h.vz

/-- the text of a row after the velocity -/
def rowTail (fmt : F → List Char) (r : Row F) : List Char :=
  ['\n', 'A', 'l', 't', 'i', 't', 'u', 'd', 'e', ':', ' '] ++ (fmt r.altitude ++
  (['\n', 'P', 'r', 'o', 'p', ' ', 'm', 'a', 's', 's', ':', ' '] ++ (fmt r.propellantMass ++
  ['\n', '\n'])))

theorem row_eq (fmt : F → List Char) (r : Row F) : Text.row fmt r =
    ['T', 'i', 'm', 'e', ':', ' '] ++ (fmt r.time ++ (['\n'] ++
    (['P', 'o', 's', 'i', 't', 'i', 'o', 'n', ':', ' '] ++ (Text.vec3 fmt r.positionPlanet ++
    (['\n'] ++ (['V', 'e', 'l', 'o', 'c', 'i', 't', 'y', ':', ' '] ++
    (Text.vec3 fmt r.velocity ++ rowTail fmt r))))))) := by
  simp [Text.row, rowTail]

/-- Capital letters of the end of a row. -/
theorem rowTail_ne (h : Readable fmt r) {d : Char} (hd : quiet d = false) (h1 : d ≠ 'A')
    (h2 : d ≠ 'P') : ∀ c ∈ rowTail fmt r, c ≠ d := by
  intro c hc
  have key : ∀ l : List Char, c ∈ l → l.all (fun c => quiet c || c = 'A' || c = 'P') = true →
      c ≠ d := by
    rintro l hl ha rfl
    have := List.all_eq_true.1 ha c hl
    simp [hd, h1, h2] at this
  simp only [rowTail, List.mem_append] at hc
  rcases hc with hc | hc | hc | hc | hc
  · exact key _ hc (by decide)
  · exact (quiet_decimal h.altitude).ne hd c hc
  · exact key _ hc (by decide)
  · exact (quiet_decimal h.propellant).ne hd c hc
  · exact key _ hc (by decide)

theorem skipP {pre s : List Char} (h : ∀ c ∈ pre, c ≠ 'P') :
    positionPattern.findAll (pre ++ s) = positionPattern.findAll s := findAll_lit_skip h

theorem skipV {pre s : List Char} (h : ∀ c ∈ pre, c ≠ 'V') :
    velocityPattern.findAll (pre ++ s) = velocityPattern.findAll s := findAll_lit_skip h

theorem skipP1 {c : Char} {s : List Char} (h : positionPattern.matchAt (c :: s) = none) :
    positionPattern.findAll (c :: s) = positionPattern.findAll s := findAll_lit_cons h

theorem skipS {pre s : List Char} (h : ∀ c ∈ pre, c ≠ 'S') :
    phasePattern.find (pre ++ s) = (phasePattern.find s).map fun m => (pre ++ m.1, m.2) :=
  find_skip fun t c t' ht => matchAt_lit_ne (h c (by simp [ht]))

theorem times_row (h : Readable fmt r) (rest : List Char) :
    timePattern.findAll (Text.row fmt r ++ rest) = [fmt r.time] :: timePattern.findAll rest := by
  rw [row_eq]
  simp only [List.append_assoc]
  rw [findAll_ok (matchAt_time h.time (by simp)) (by simp; try omega)]
  congr 1
  have e : ∀ p v t : List Char, ['\n'] ++ (['P', 'o', 's', 'i', 't', 'i', 'o', 'n', ':', ' '] ++
      (p ++ (['\n'] ++ (['V', 'e', 'l', 'o', 'c', 'i', 't', 'y', ':', ' '] ++ (v ++
      (t ++ rest)))))) =
      (['\n', 'P', 'o', 's', 'i', 't', 'i', 'o', 'n', ':', ' '] ++ (p ++
        (['\n', 'V', 'e', 'l', 'o', 'c', 'i', 't', 'y', ':', ' '] ++ (v ++ t)))) ++ rest := by
    intros; simp
  rw [e]
  refine findAll_lit_skip ?_
  intro c hc
  simp only [List.mem_append] at hc
  rcases hc with hc | hc | hc | hc | hc
  · revert c; decide
  · exact h.position.ne (by decide) c hc
  · revert c; decide
  · exact h.velocity.ne (by decide) c hc
  · exact rowTail_ne h (by decide) (by decide) (by decide) c hc

theorem positions_row (h : Readable fmt r) (rest : List Char) :
    positionPattern.findAll (Text.row fmt r ++ rest) =
      [fmt r.positionPlanet.x, fmt r.positionPlanet.y, fmt r.positionPlanet.z] ::
        positionPattern.findAll rest := by
  rw [row_eq]
  have e : ∀ t p v l : List Char, (['T', 'i', 'm', 'e', ':', ' '] ++ (t ++ (['\n'] ++
      (['P', 'o', 's', 'i', 't', 'i', 'o', 'n', ':', ' '] ++ (p ++
      (['\n'] ++ (['V', 'e', 'l', 'o', 'c', 'i', 't', 'y', ':', ' '] ++
      (v ++ l)))))))) ++ rest =
      (['T', 'i', 'm', 'e', ':', ' '] ++ (t ++ ['\n'])) ++
      (['P', 'o', 's', 'i', 't', 'i', 'o', 'n', ':', ' '] ++ (p ++
      ((['\n', 'V', 'e', 'l', 'o', 'c', 'i', 't', 'y', ':', ' '] ++ v) ++ (l ++ rest)))) := by
    intros; simp
  rw [e]
  rw [skipP]
  · rw [Text.vec3, findAll_ok (matchAt_position h.px h.py h.pz)
      (by simp [vecTail, Text.vec]; try omega)]
    congr 1
    rw [← List.append_assoc, skipP]
    · have e2 : rowTail fmt r ++ rest =
        (['\n', 'A', 'l', 't', 'i', 't', 'u', 'd', 'e', ':', ' '] ++ (fmt r.altitude ++ ['\n'])) ++
        ('P' :: (['r', 'o', 'p', ' ', 'm', 'a', 's', 's', ':', ' '] ++ (fmt r.propellantMass ++
          ['\n', '\n']) ++ rest)) := by simp [rowTail]
      rw [e2, skipP, skipP1, skipP]
      · intro c hc
        simp only [List.mem_append] at hc
        rcases hc with hc | hc | hc
        · revert c; decide
        · exact (quiet_decimal h.propellant).ne (by decide) c hc
        · revert c; decide
      · simp [positionPattern, matchAt, run, strip]
      · intro c hc
        simp only [List.mem_append] at hc
        rcases hc with hc | hc | hc
        · revert c; decide
        · exact (quiet_decimal h.altitude).ne (by decide) c hc
        · revert c; decide
    · intro c hc
      simp only [List.mem_append] at hc
      rcases hc with hc | hc | hc
      · exact (quiet_vecTail _).ne (by decide) c hc
      · revert c; decide
      · exact h.velocity.ne (by decide) c hc
  · intro c hc
    simp only [List.mem_append] at hc
    rcases hc with hc | hc | hc
    · revert c; decide
    · exact (quiet_natural h.time).ne (by decide) c hc
    · revert c; decide

theorem velocities_row (h : Readable fmt r) (rest : List Char) :
    velocityPattern.findAll (Text.row fmt r ++ rest) =
      [fmt r.velocity.x, fmt r.velocity.y, fmt r.velocity.z] ::
        velocityPattern.findAll rest := by
  rw [row_eq]
  have e : ∀ t p v l : List Char, (['T', 'i', 'm', 'e', ':', ' '] ++ (t ++ (['\n'] ++
      (['P', 'o', 's', 'i', 't', 'i', 'o', 'n', ':', ' '] ++ (p ++
      (['\n'] ++ (['V', 'e', 'l', 'o', 'c', 'i', 't', 'y', ':', ' '] ++
      (v ++ l)))))))) ++ rest =
      (['T', 'i', 'm', 'e', ':', ' '] ++ (t ++
      (['\n', 'P', 'o', 's', 'i', 't', 'i', 'o', 'n', ':', ' '] ++ (p ++ ['\n'])))) ++
      (['V', 'e', 'l', 'o', 'c', 'i', 't', 'y', ':', ' '] ++ (v ++ (l ++ rest))) := by
    intros; simp
  rw [e]
  rw [skipV]
  · rw [Text.vec3, findAll_ok (matchAt_velocity h.vx h.vy h.vz)
      (by simp [vecTail, Text.vec]; try omega)]
    congr 1
    rw [← List.append_assoc, skipV]
    intro c hc
    simp only [List.mem_append] at hc
    rcases hc with hc | hc
    · exact (quiet_vecTail _).ne (by decide) c hc
    · exact rowTail_ne h (by decide) (by decide) (by decide) c hc
  · intro c hc
    simp only [List.mem_append] at hc
    rcases hc with hc | hc | hc | hc | hc
    · revert c; decide
    · exact (quiet_natural h.time).ne (by decide) c hc
    · revert c; decide
    · exact h.position.ne (by decide) c hc
    · revert c; decide

/-- No `S` is printed in a row. -/
theorem row_noS (h : Readable fmt r) : ∀ c ∈ Text.row fmt r, c ≠ 'S' := by
  intro c hc
  rw [row_eq] at hc
  simp only [List.mem_append] at hc
  rcases hc with hc | hc | hc | hc | hc | hc | hc | hc | hc
  · revert c; decide
  · exact (quiet_natural h.time).ne (by decide) c hc
  · revert c; decide
  · revert c; decide
  · exact h.position.ne (by decide) c hc
  · revert c; decide
  · revert c; decide
  · exact h.velocity.ne (by decide) c hc
  · exact rowTail_ne h (by decide) (by decide) (by decide) c hc

/-- The rows of one phase, after the end of the line with its number. -/
def rowsText (fmt : F → List Char) (rows : List (Row F)) : List Char :=
  rows.flatMap (Text.row fmt)

theorem times_rows {rows : List (Row F)} (h : ∀ r ∈ rows, Readable fmt r) :
    timePattern.findAll (rowsText fmt rows) = rows.map fun r => [fmt r.time] := by
  induction rows with
  | nil => exact findAll_nil matchAt_lit_nil
  | cons r rows ih =>
    rw [rowsText, List.flatMap_cons, times_row (h r (by simp))]
    rw [rowsText] at ih
    rw [ih fun r hr => h r (by simp [hr])]
    rfl

theorem positions_rows {rows : List (Row F)} (h : ∀ r ∈ rows, Readable fmt r) :
    positionPattern.findAll (rowsText fmt rows) = rows.map fun r =>
      [fmt r.positionPlanet.x, fmt r.positionPlanet.y, fmt r.positionPlanet.z] := by
  induction rows with
  | nil => exact findAll_nil matchAt_lit_nil
  | cons r rows ih =>
    rw [rowsText, List.flatMap_cons, positions_row (h r (by simp))]
    rw [rowsText] at ih
    rw [ih fun r hr => h r (by simp [hr])]
    rfl

theorem velocities_rows {rows : List (Row F)} (h : ∀ r ∈ rows, Readable fmt r) :
    velocityPattern.findAll (rowsText fmt rows) = rows.map fun r =>
      [fmt r.velocity.x, fmt r.velocity.y, fmt r.velocity.z] := by
  induction rows with
  | nil => exact findAll_nil matchAt_lit_nil
  | cons r rows ih =>
    rw [rowsText, List.flatMap_cons, velocities_row (h r (by simp))]
    rw [rowsText] at ih
    rw [ih fun r hr => h r (by simp [hr])]
    rfl

/-- The line of the table for a printed row. -/
def lineOf (fmt : F → List Char) (r : Row F) : Line :=
  ⟨fmt r.time,
   (value (fmt r.positionPlanet.x), value (fmt r.positionPlanet.y),
    value (fmt r.positionPlanet.z)),
   (value (fmt r.velocity.x), value (fmt r.velocity.y), value (fmt r.velocity.z))⟩

theorem table_rows {rows : List (Row F)} (h : ∀ r ∈ rows, Readable fmt r) (hne : rows ≠ []) :
    table ('\n' :: rowsText fmt rows) = some (rows.map (lineOf fmt)) := by
  have ht : timePattern.findAll ('\n' :: rowsText fmt rows) =
      timePattern.findAll (rowsText fmt rows) := findAll_lit_cons (matchAt_lit_ne (by decide))
  have hp : positionPattern.findAll ('\n' :: rowsText fmt rows) =
      positionPattern.findAll (rowsText fmt rows) :=
    findAll_lit_cons (matchAt_lit_ne (by decide))
  have hv : velocityPattern.findAll ('\n' :: rowsText fmt rows) =
      velocityPattern.findAll (rowsText fmt rows) :=
    findAll_lit_cons (matchAt_lit_ne (by decide))
  unfold table
  rw [ht, hp, hv, times_rows h, positions_rows h, velocities_rows h]
  simp only [List.length_map, true_and]
  rw [if_pos (by simpa using hne)]
  congr 1
  clear h hne ht hp hv
  induction rows with
  | nil => rfl
  | cons r rows ih =>
    simp only [List.map_cons, List.zip_cons_cons, List.cons.injEq]
    exact ⟨by simp [lineOf, triple], ih⟩

/-! ## Splitting into phases -/

theorem natural_toDigits (i : Nat) : Natural (Nat.toDigits 10 i) := by
  refine ⟨?_, fun c hc => Nat.isDigit_of_mem_toDigits (by decide) (by decide) hc⟩
  exact Nat.toDigits_ne_nil

/-- The entries of a phase. -/
def block (b : Nat × List (Row F)) : List (LogEntry F) :=
  .startingPhase b.1 :: b.2.map .row

theorem output_block (b : Nat × List (Row F)) : Text.output fmt (block b) =
    ['S', 't', 'a', 'r', 't', 'i', 'n', 'g', ' ', 'P', 'h', 'a', 's', 'e', ' '] ++
      (Nat.toDigits 10 b.1 ++ ('\n' :: rowsText fmt b.2)) := by
  simp [Text.output, block, Text.entry, rowsText, List.flatMap_map]

theorem rowsText_noS {rows : List (Row F)} (h : ∀ r ∈ rows, Readable fmt r) :
    ∀ c ∈ rowsText fmt rows, c ≠ 'S' := by
  intro c hc
  obtain ⟨r, hr, hc⟩ := List.mem_flatMap.1 hc
  exact row_noS (h r hr) c hc

theorem split_blocks {bs : List (Nat × List (Row F))}
    (h : ∀ b ∈ bs, ∀ r ∈ b.2, Readable fmt r) {pre : List Char} (hp : ∀ c ∈ pre, c ≠ 'S') :
    phasePattern.split (pre ++ Text.output fmt (bs.flatMap block)) =
      (pre, bs.map fun b => ([Nat.toDigits 10 b.1], '\n' :: rowsText fmt b.2)) := by
  induction bs generalizing pre with
  | nil =>
    rw [Re.split]
    have hf : phasePattern.find (pre ++ Text.output fmt ([].flatMap block)) = none := by
      rw [skipS hp]
      simp [Text.output, find, phasePattern, matchAt_lit_nil]
    rw [hf]
    simp [Text.output]
  | cons b bs ih =>
    have eo : Text.output fmt ((b :: bs).flatMap block) =
        ['S', 't', 'a', 'r', 't', 'i', 'n', 'g', ' ', 'P', 'h', 'a', 's', 'e', ' '] ++
        (Nat.toDigits 10 b.1 ++ (('\n' :: rowsText fmt b.2) ++
          Text.output fmt (bs.flatMap block))) := by
      have := output_block (fmt := fmt) b
      simp only [Text.output, List.flatMap_cons, List.flatMap_append] at this ⊢
      rw [this]; simp
    rw [eo, Re.split]
    rw [skipS hp]
    rw [find_ok (matchAt_phase (natural_toDigits b.1) (by simp))]
    simp only [Option.map_some, List.append_nil]
    rw [if_pos (by simp; omega)]
    rw [ih (fun b hb => h b (by simp [hb]))
      (by
        intro c hc
        rcases List.mem_cons.1 hc with rfl | hc
        · decide
        · exact rowsText_noS (h b (by simp)) c hc)]
    rfl

/-- The plotting tool reads back what was printed. -/
theorem parse_blocks {bs : List (Nat × List (Row F))} (hne : bs ≠ [])
    (h : ∀ b ∈ bs, b.2 ≠ [] ∧ ∀ r ∈ b.2, Readable fmt r) :
    parse (Text.output fmt (bs.flatMap block)) =
      some (bs.map fun b => (Nat.toDigits 10 b.1, b.2.map (lineOf fmt))) := by
  have hs := split_blocks (fmt := fmt) (bs := bs) (fun b hb => (h b hb).2) (pre := [])
    (by simp)
  rw [List.nil_append] at hs
  unfold parse
  rw [hs]
  have key : (bs.map fun b => ([Nat.toDigits 10 b.1], '\n' :: rowsText fmt b.2)).mapM
      (fun (g, text) => (table text).map fun t => (g.flatten, t)) =
      some (bs.map fun b => (Nat.toDigits 10 b.1, b.2.map (lineOf fmt))) := by
    clear hs hne
    induction bs with
    | nil => rfl
    | cons b bs ih =>
      have ht := table_rows (h b (by simp)).2 (h b (by simp)).1
      rw [List.map_cons, List.mapM_cons, ih fun b hb => h b (by simp [hb])]
      simp [ht]
  cases bs with
  | nil => exact absurd rfl hne
  | cons b bs => exact key

end

end Plot
end Post
