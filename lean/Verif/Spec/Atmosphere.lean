import Mathlib.Analysis.SpecialFunctions.Pow.Real
import Mathlib.Analysis.SpecialFunctions.Exp
/-! # Specification vocabulary: the layers of the 1962 U.S. standard atmosphere -/

namespace Post.Spec
noncomputable section

/-- A layer of the atmosphere: geopotential altitude (m), pressure (Pa) and temperature (K) at its
base, and its temperature gradient (K/m). -/
@[ext] structure Layer where
  alt : ℝ
  pres : ℝ
  temp : ℝ
  grad : ℝ

/-- The specific gas constant of air: the universal one divided by the molecular weight. -/
def airGasConstant : ℝ := 8.31432e3 / 28.9644

/-- Standard gravity, divided by the gas constant of air: the temperature gradient of an
atmosphere of constant density, in K/m. -/
def gravityPerGas : ℝ := 9.80665 / airGasConstant

/-- A layer given in feet, pounds per square foot, degrees Rankine, and degrees Rankine per
foot. -/
def layer (feet psf rankine rankinePerFoot : ℝ) : Layer where
  alt := feet * 0.3048
  pres := psf * (0.4535924 * 9.80665 / (0.3048 * 0.3048))
  temp := rankine * (1 / 1.8)
  grad := rankinePerFoot * (1 / 1.8) / 0.3048

/-- The layers, lowest first. -/
def layers : List Layer := [
  layer 0.0 0.21162166e4 518.67 (-0.35661600e-2),
  layer 36089.239 0.47268050e3 389.97 0.0,
  layer 65616.797 0.11434543e3 389.97 0.54863995e-3,
  layer 104986.87 0.18128948e2 411.57 0.15361920e-2,
  layer 154199.48 0.23163263e1 487.17 0.0,
  layer 170603.68 0.12322603e1 487.17 (-0.10972801e-2),
  layer 200131.23 0.38032532e0 454.77 (-0.21945600e-2),
  layer 259186.35 0.21673064e-1 325.17 0.0,
  layer 291151.57 0.34333824e-2 325.17 0.16953850e-2,
  layer 323002.74 0.62814785e-3 379.17 0.28345707e-2,
  layer 354753.59 0.15361733e-3 469.17 0.56867005e-2,
  layer 396406.39 0.52676024e-4 649.17 0.11443751e-1,
  layer 480781.04 0.10566108e-4 1729.17 0.86358208e-2,
  layer 512046.16 0.77263469e-5 1999.17 0.57749093e-2,
  layer 543215.48 0.58405376e-5 2179.17 0.40610461e-2,
  layer 605268.45 0.35246030e-5 2431.17 0.29274135e-2,
  layer 728243.91 0.14559124e-5 2791.17 0.23812804e-2,
  layer 939894.74 0.39418091e-6 3295.17 0.20152600e-2,
  layer 1234645.7 0.84380249e-7 3889.17 0.16354849e-2,
  layer 1520799.4 0.22945543e-7 4357.17 0.11010085e-2,
  layer 1798726.4 0.72259271e-8 4663.17 0.73319725e-3,
  layer 2068776.5 0.24958752e-8 4861.17 0.0]

/-- The temperature law of a layer. -/
def Layer.temperature (l : Layer) (h : ℝ) : ℝ := l.temp + l.grad * (h - l.alt)

/-- The pressure law of a layer. -/
def Layer.pressure (l : Layer) (h : ℝ) : ℝ :=
  if l.grad = 0 then l.pres * Real.exp (-(gravityPerGas * (h - l.alt) / l.temp))
  else l.pres * (l.temp / l.temperature h) ^ (gravityPerGas / l.grad)

/-- The layer `l` contains the altitude `h`: its base is not above `h`, or it is the lowest one,
and the base of the next one, if there is one, is above `h`. -/
def LayerAt (h : ℝ) (l : Layer) : Prop :=
  ∃ below above, layers = below ++ l :: above ∧ (below = [] ∨ l.alt ≤ h) ∧
    ∀ n ∈ above.head?, h < n.alt

/-- The layer `n` follows the layer `l`. -/
def NextLayer (l n : Layer) : Prop := ∃ below above, layers = below ++ l :: n :: above

end
end Post.Spec
