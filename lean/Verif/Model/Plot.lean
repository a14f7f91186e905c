import Verif.Model.Sim
import Mathlib.Data.List.Sort
/-! # Model of the text output and of the plotting tool that reads it

The text printed by `Phase::run` (phase.rs:203-210) and `Simulation::run` (lib.rs:54), and the
parser of that text and the picture drawn from it in `utils/plot/plot.py:44-154`.  Texts are lists
of characters.  How a number is printed by `{:.0}` is a parameter `fmt`. -/

namespace Post

/-! ## Printing -/

namespace Text
variable {F : Type} (fmt : F → List Char)

/-- `n` spaces -/
def pad (n : Nat) : List Char := List.replicate n ' '

/-- One line of a displayed vector, padded to the width `w`. -/
def line (w : Nat) (s : List Char) : List Char :=
  [' ', ' ', '│', ' '] ++ (pad (w - s.length) ++ (s ++ [' ', '│', '\n']))

/-- `Display` of a nalgebra 0.32 column vector of three numbers with the given texts (external
library; the layout is the one shown in project.tex:330-356). -/
def vec (a b c : List Char) : List Char :=
  let w := max (max a.length b.length) c.length
  ['\n', ' ', ' ', '┌', ' '] ++ (pad w ++ ([' ', '┐', '\n'] ++ (line w a ++ (line w b ++
    (line w c ++ ([' ', ' ', '└', ' '] ++ (pad w ++ [' ', '┘', '\n', '\n'])))))))

/-- a vector printed with `{:.0}` -/
def vec3 (v : V3 F) : List Char := vec (fmt v.x) (fmt v.y) (fmt v.z)

/-- phase.rs:203-210: the text of one row (with the newline of `println!`) -/
def row (r : Row F) : List Char :=
  ['T', 'i', 'm', 'e', ':', ' '] ++ (fmt r.time ++
  (['\n', 'P', 'o', 's', 'i', 't', 'i', 'o', 'n', ':', ' '] ++ (vec3 fmt r.positionPlanet ++
  (['\n', 'V', 'e', 'l', 'o', 'c', 'i', 't', 'y', ':', ' '] ++ (vec3 fmt r.velocity ++
  (['\n', 'A', 'l', 't', 'i', 't', 'u', 'd', 'e', ':', ' '] ++ (fmt r.altitude ++
  (['\n', 'P', 'r', 'o', 'p', ' ', 'm', 'a', 's', 's', ':', ' '] ++ (fmt r.propellantMass ++
  ['\n', '\n'])))))))))

/-- phase.rs:203-210 and lib.rs:54: the text of one entry -/
def entry : LogEntry F → List Char
  | .startingPhase i =>
    ['S', 't', 'a', 'r', 't', 'i', 'n', 'g', ' ', 'P', 'h', 'a', 's', 'e', ' '] ++
      (Nat.toDigits 10 i ++ ['\n'])
  | .row r => row fmt r

/-- Everything the program prints to standard output. -/
def output (log : List (LogEntry F)) : List Char := log.flatMap (entry fmt)

end Text

/-! ## Regular expressions of Python's `re`, as far as used in `plot.py` -/

/-- Regular expressions. -/
inductive Re
  /-- the given characters -/
  | lit (l : List Char)
  /-- one or more characters of a class, greedy (`\d+`, `\s+`) -/
  | plus (p : Char → Bool)
  /-- an optional character, greedy (`-?`) -/
  | opt (c : Char)
  /-- any characters, lazy (`[\S\s]*?`) -/
  | any
  /-- a capturing group -/
  | group (r : Re)
  /-- one after the other -/
  | seq (a b : Re)

namespace Re

/-- The text after the prefix `l`. -/
def strip : List Char → List Char → Option (List Char)
  | [], s => some s
  | _ :: _, [] => none
  | c :: l, d :: s => if c = d then strip l s else none

/-- Greedy repetition: after the characters already taken, take more as long as the class
allows, and continue with `k` from the longest possible end backwards; at least one character
must have been taken (`ok`). -/
def greedy {α : Type} (p : Char → Bool) (k : List Char → Option α) : Bool → List Char → Option α
  | ok, [] => if ok then k [] else none
  | ok, c :: s =>
    match (if p c then greedy p k true s else none) with
    | some a => some a
    | none => if ok then k (c :: s) else none

/-- Lazy repetition: continue with `k` as early as possible. -/
def lazy {α : Type} (k : List Char → Option α) : List Char → Option α
  | [] => k []
  | c :: s =>
    match k (c :: s) with
    | some a => some a
    | none => lazy k s

/-- Backtracking matcher: match the expression at the start of the text, then continue with the
rest of the text and the groups captured so far; the first alternative that succeeds counts. -/
def run {α : Type} : Re → (List Char → List (List Char) → Option α) → List Char →
    List (List Char) → Option α
  | lit l, k, s, g => (strip l s).bind fun s' => k s' g
  | plus p, k, s, g => greedy p (fun s' => k s' g) false s
  | opt c, k, s, g =>
    match (strip [c] s).bind fun s' => k s' g with
    | some a => some a
    | none => k s g
  | any, k, s, g => lazy (fun s' => k s' g) s
  | group r, k, s, g =>
    run r (fun s' g' => k s' (g' ++ [s.take (s.length - s'.length)])) s g
  | seq a b, k, s, g => run a (fun s' g' => run b k s' g') s g

/-- A match at the start of the text: the groups and the text after the match. -/
def matchAt (r : Re) (s : List Char) : Option (List (List Char) × List Char) :=
  run r (fun s' g => some (g, s')) s []

/-- The first match in the text (`re.search`): the text before it, the groups, the text after
it. -/
def find (r : Re) : List Char → Option (List Char × List (List Char) × List Char)
  | [] => (r.matchAt []).map fun m => ([], m)
  | c :: s =>
    match r.matchAt (c :: s) with
    | some m => some ([], m)
    | none => (find r s).map fun m => (c :: m.1, m.2)

/-- `pattern.findall`: the groups of all matches, one after the other.  (All patterns used here
match at least one character.) -/
def findAll (r : Re) (s : List Char) : List (List (List Char)) :=
  match r.find s with
  | none => []
  | some (_, g, s') => if s'.length < s.length then g :: findAll r s' else [g]
termination_by s.length

/-- `pattern.split`: the text before the first match, and for every match its groups and the
text up to the next match. -/
def split (r : Re) (s : List Char) : List Char × List (List (List Char) × List Char) :=
  match r.find s with
  | none => (s, [])
  | some (before, g, s') =>
    if s'.length < s.length then
      let rest := split r s'
      (before, (g, rest.1) :: rest.2)
    else (before, [(g, s')])
termination_by s.length

end Re

namespace Plot

/-- `\d`; Python's class also contains the digits of other scripts, which are never printed. -/
def digit : Re := .plus Char.isDigit
/-- `\s+`, for the whitespace that is printed -/
def space : Re := .plus fun c => c = ' ' || c = '\n'
/-- `(-?\d+)` -/
def number : Re := .group (.seq (.opt '-') digit)
/-- `[\S\s]*?\│\s+(-?\d+)` -/
def cell : Re := .seq .any (.seq (.lit ['│']) (.seq space number))

/-- plot.py:56 `Starting Phase (\d+)` -/
def phasePattern : Re :=
  .seq (.lit ['S', 't', 'a', 'r', 't', 'i', 'n', 'g', ' ', 'P', 'h', 'a', 's', 'e', ' '])
    (.group digit)
/-- plot.py:57 `Time: (\d+)` -/
def timePattern : Re := .seq (.lit ['T', 'i', 'm', 'e', ':', ' ']) (.group digit)
/-- plot.py:58-60 -/
def positionPattern : Re :=
  .seq (.lit ['P', 'o', 's', 'i', 't', 'i', 'o', 'n', ':']) (.seq cell (.seq cell cell))
/-- plot.py:61-63 -/
def velocityPattern : Re :=
  .seq (.lit ['V', 'e', 'l', 'o', 'c', 'i', 't', 'y', ':']) (.seq cell (.seq cell cell))

/-- The integer written in decimal notation (`astype(float)` in plot.py:79-80; exact for the
integers in question). -/
def value (s : List Char) : Int :=
  match s with
  | '-' :: s => -(Nat.ofDigitChars 10 s 0 : Int)
  | s => (Nat.ofDigitChars 10 s 0 : Int)

/-- One line of the table that is plotted: the index entry `Time` (a text), and position and
velocity as written (before the conversion to km). -/
structure Line where
  time : List Char
  position : Int × Int × Int
  velocity : Int × Int × Int
deriving DecidableEq

/-- The three numbers of a match. -/
def triple : List (List Char) → Int × Int × Int
  | [a, b, c] => (value a, value b, value c)
  | _ => (0, 0, 0)

/-- plot.py:72-85: the table of one phase.  `none`: the three lists do not have the same
length, in which case pandas raises an error or misaligns the data, or are empty. -/
def table (text : List Char) : Option (List Line) :=
  let times := timePattern.findAll text
  let positions := positionPattern.findAll text
  let velocities := velocityPattern.findAll text
  if times.length = positions.length ∧ times.length = velocities.length ∧ times ≠ [] then
    some ((times.zip (positions.zip velocities)).map fun (t, p, v) =>
      ⟨t.flatten, triple p, triple v⟩)
  else none

/-- plot.py:44-88 `parse_test_output`: the phases, each with its number (a text) and its
table; `none`: an error (`pd.concat` refuses an empty list). -/
def parse (content : List Char) : Option (List (List Char × List Line)) :=
  match (phasePattern.split content).2 with
  | [] => none
  | phases => phases.mapM fun (g, text) => (table text).map fun t => (g.flatten, t)

/-! ## The picture -/

section Picture
variable {F : Type} [Flt F]

/-- plot.py:79-80 `astype(float)`: an integer as a number -/
def float (n : Int) : F :=
  if n < 0 then -Flt.ofSci n.natAbs false 0 else Flt.ofSci n.natAbs false 0

/-- plot.py:151-152: three numbers converted from m to km -/
def km (v : Int × Int × Int) : V3 F :=
  ⟨float v.1 / 1e3, float v.2.1 / 1e3, float v.2.2 / 1e3⟩

/-- What is drawn, apart from the background and the earth (plot.py:96-108), which do not depend on
the data, and the light (plot.py:138-141). -/
structure Picture (F : Type) where
  /-- the corners of the trajectory, a polygonal line -/
  points : List (V3 F)
  /-- a number for each corner, shown as its colour -/
  colours : List F
  /-- the labels, and where they are attached -/
  labels : List (List Char × V3 F)
  /-- where the camera is, and the point it looks at -/
  camera : V3 F × V3 F

/-- plot.py:87 `pd.concat`: the lines of all phases, each with the number of its phase -/
def frame (data : List (List Char × List Line)) : List (List Char × Line) :=
  data.flatMap fun d => d.2.map fun l => (d.1, l)

/-- plot.py:124 `groupby("Phase")["Position"].first()`: for each phase number that occurs, sorted as
texts, the position in the first line with that number -/
def firsts (rows : List (List Char × Line)) : List (List Char × V3 F) :=
  ((rows.map (·.1)).dedup.insertionSort fun a b => a ≤ b).filterMap fun i =>
    (rows.find? fun r => decide (r.1 = i)).map fun r => (i, km r.2.position)

/-- plot.py:110-136.  `none`: `pv.MultipleLines` refuses less than two points. -/
def picture (data : List (List Char × List Line)) : Option (Picture F) :=
  let rows := frame data
  match rows with
  | r1 :: _ :: _ =>
    let start : V3 F := km r1.2.position
    some {
      points := rows.map fun r => km r.2.position
      colours := rows.map fun r =>
        let v : V3 F := km r.2.velocity
        Flt.sqrt (v.x * v.x + v.y * v.y + v.z * v.z)
      labels := firsts rows
      camera := (V3.smul 2 start, start) }
  | _ => none

/-- plot.py:146-154: from the text to the picture -/
def render (content : List Char) : Option (Picture F) := (parse content).bind picture

end Picture

end Plot
end Post
