import Verif.Model.Json
import Lean.Data.Json
open Post
instance : Flt Float where
  ofSci := fun m s e => OfScientific.ofScientific m s e
  inf := 1.0/0.0
  nan := 0.0/0.0
  pi := 3.14159265358979323846
  lt := fun a b => decide (a < b)
  eq := fun a b => a == b
  abs := Float.abs
  sqrt := Float.sqrt
  sin := Float.sin
  cos := Float.cos
  tan := Float.tan
  asin := Float.asin
  acos := Float.acos
  atan := Float.atan
  exp := Float.exp
  signum := fun a => if a < 0 then -1 else 1
  powi := fun a n => (List.replicate n a).foldl (·*·) 1.0
  powf := Float.pow
  rotFromMatrix := id
instance : Inhabited (Post.Json Float) := ⟨.null⟩
partial def conv : Lean.Json → Post.Json Float
  | .null => .null
  | .bool b => .bool b
  | .num n => .num n.toFloat
  | .str s => .str s
  | .arr a => .arr (a.toList.map conv)
  | .obj m => .obj (m.toList.map fun (k,v) => (k, conv v))
def main : IO Unit := do
  let txt ← IO.FS.readFile "/repo/utils/example.json"
  match Lean.Json.parse txt with
  | .error e => IO.println e
  | .ok j =>
    match Simulation.fromFile (.json (conv j)) with
    | none => IO.println "load error"
    | some cfg =>
      IO.println s!"{cfg.length} phases"
      match Simulation.run 5000 cfg with
      | none => IO.println "no termination"
      | some o => match o.result with
        | .error e => IO.println s!"{repr e}"
        | .ok s => IO.println s!"alt {s.altitude} vel {s.velocity.norm} time {s.time} log {o.log.length}"
