import Verif.Spec.DoubleTrack
import Verif.Spec.Steering
/-! # Specification vocabulary: attitude in double precision -/

namespace Post.Spec
noncomputable section

/-- The axes of the launch frame at the given geocentric latitude, longitude and azimuth: up, to the right of the azimuth,
and along the azimuth. -/
def launchAxes (lat long az : ℝ) : M3 ℝ := rmul (turnX (-az)) ⟨up lat long, east long, north lat long⟩

/-- The change from the inertial frame to the frame of the vehicle: to the launch frame, then a turn by roll about the
first axis, by yaw about the new third axis, and by pitch about the new second axis. -/
def bodyFrame (lat long az roll yaw pitch : ℝ) : M3 ℝ :=
  rmul (rmul (turnY pitch) (rmul (turnZ yaw) (turnX roll))) (launchAxes lat long az)

/-- The angles of the launch frame of the phase, in radians. -/
def LaunchAngles {L : Libm} (p : Phase (F64 L)) (lat long az : ℝ) : Prop :=
  (Reads p.launch.lat lat ∧ Reads p.launch.long long ∧ Reads p.launch.az az) ∧
    |lat| ≤ 1000 ∧ |long| ≤ 1000 ∧ |az| ≤ 1000

/-- The Euler angles reported in the state, in radians. -/
def AttitudeAngles {L : Libm} (s : State (F64 L)) (roll yaw pitch : ℝ) : Prop :=
  (Reads s.eulerAngles.roll roll ∧ Reads s.eulerAngles.yaw yaw ∧ Reads s.eulerAngles.pitch pitch) ∧
    |roll| ≤ 1000 ∧ |yaw| ≤ 1000 ∧ |pitch| ≤ 1000

/-- inverse of a change of frame: the transposed matrix times a vector -/
def rmulVecT (m : M3 ℝ) (v : V3 ℝ) : V3 ℝ := rmulVec m.transpose v

end
end Post.Spec
