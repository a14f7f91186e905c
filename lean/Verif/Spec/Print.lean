import Verif.Model.Print
import Verif.Spec.Timetable
import Verif.Spec.Stages
import Verif.Lemmas.Plot
/-! # Specification vocabulary: the text that is printed in double precision -/

namespace Post.Spec
variable {L : Libm}

/-- The text is a decimal notation of the integer `n`. -/
def ShownAs (s : List Char) (n : ℤ) : Prop :=
  ∃ m : ℕ, (s = Nat.toDigits 10 m ∧ n = m) ∨ (s = '-' :: Nat.toDigits 10 m ∧ n = -m)

/-- What is asked of the format `{:.0}`: a number is printed as a nearest integer, with the sign of the number, and what
is not a number is not printed as one.  (`a` is the absolute value of the number, so `0 ≤ a` for all doubles.) -/
structure PrintsDouble (fmt : F64 L → List Char) : Prop where
  number : ∀ (x : F64 L) (s : Bool) (a : ℚ), x.dbl = .fin s a →
    ∃ n : ℕ, (0 ≤ a → |(n : ℚ) - a| ≤ 1 / 2) ∧ fmt x = (if s then ['-'] else []) ++ Nat.toDigits 10 n
  nan : ∀ x : F64 L, x.dbl = .nan → fmt x = ['N', 'a', 'N']
  inf : ∀ (x : F64 L) (s : Bool), x.dbl = .inf s → fmt x = (if s then ['-'] else []) ++ ['i', 'n', 'f']

/-- The text of a row with the texts of the time, the altitude and the propellant mass. -/
def RowText (text time altitude propellant : List Char) : Prop :=
  ∃ a b c d e f : List Char,
    (∀ w ∈ [a, b, c, d, e, f], '\n' ∉ w) ∧ '\n' ∉ altitude ∧ '\n' ∉ propellant ∧
    text = "Time: ".toList ++ time ++ "\nPosition: ".toList ++ Text.vec a b c ++
      "\nVelocity: ".toList ++ Text.vec d e f ++ "\nAltitude: ".toList ++ altitude ++
      "\nProp mass: ".toList ++ propellant ++ "\n\n".toList

/-- The text announces phase `i`. -/
def StartText (text : List Char) (i : ℕ) : Prop :=
  text = "Starting Phase ".toList ++ Nat.toDigits 10 i ++ "\n".toList

/-- The text is that of the line of a timetable. -/
def ShowsText (text : List Char) : Line → Prop
  | .starting i => StartText text i
  | .second t => ∃ altitude propellant, RowText text (Nat.toDigits 10 t) altitude propellant

/-- The text is that of the line of a flight log: the propellant printed is an integer that is at least that of the log,
up to the error `e` and one half; if the engines always run at full thrust it is that of the log, up to this error. -/
def ShowsFlightText (full : Prop) (e : ℝ) (text : List Char) : FlightLine → Prop
  | .starting i => StartText text i
  | .second t w => ∃ altitude propellant, ∃ n : ℤ, RowText text (Nat.toDigits 10 t) altitude propellant ∧
      ShownAs propellant n ∧ w - e - 1 / 2 ≤ n ∧ (full → (n : ℝ) ≤ w + e + 1 / 2)

/-- All numbers of a row are numbers. -/
structure FiniteRowDouble (r : Row (F64 L)) : Prop where
  px : FiniteDouble r.positionPlanet.x
  py : FiniteDouble r.positionPlanet.y
  pz : FiniteDouble r.positionPlanet.z
  vx : FiniteDouble r.velocity.x
  vy : FiniteDouble r.velocity.y
  vz : FiniteDouble r.velocity.z
  altitude : FiniteDouble r.altitude
  propellant : FiniteDouble r.propellantMass

/-- The integer is a nearest one to the double. -/
def NearestTo (n : ℤ) (x : F64 L) : Prop := ∃ ξ : ℝ, Reads x ξ ∧ |(n : ℝ) - ξ| ≤ 1 / 2

/-- The numbers plotted are nearest integers to those of the row. -/
structure PlotNearest (r : Row (F64 L)) (l : Plot.Line) : Prop where
  px : NearestTo l.position.1 r.positionPlanet.x
  py : NearestTo l.position.2.1 r.positionPlanet.y
  pz : NearestTo l.position.2.2 r.positionPlanet.z
  vx : NearestTo l.velocity.1 r.velocity.x
  vy : NearestTo l.velocity.2.1 r.velocity.y
  vz : NearestTo l.velocity.2.2 r.velocity.z

/-- The phase number and the second of each row of phases number `i + 1`, `i + 2`, … that start at second `start` and
end at the seconds `ts`. -/
def stamps : (i start : ℕ) → List ℕ → List (ℕ × ℕ)
  | _, _, [] => []
  | i, start, t :: ts => (List.range' (start + 1) (t - start)).map (fun k => (i + 1, k)) ++ stamps (i + 1) t ts

example : stamps 0 0 [2, 5] = [(1, 1), (1, 2), (2, 3), (2, 4), (2, 5)] := rfl

end Post.Spec
