import Verif.Elastic.Model
/-! # The integration by the method of Runge and Kutta of the robot on elastic contacts -/

namespace StateObs.Elastic
open StateObs Matrix Rot Kine

variable {G : Type}

/-- `iterateDynamicsRK4`, imu-elastic-local-frame-dynamical-system.cpp 682-813: position, orientation vector, linear and angular velocity after `dt`, and the
forces and moments of the contacts. The orientation vectors of the intermediate stages (lines 753-754, 770-771, 786-787) are not used by `computeAccelerations` and are left
out. `fc` and `tc` are arguments; the model puts them in the members `fc_` and `tc_`, which are not used otherwise. The velocities of the contacts are those of the
last call that has stored them (`op_.contactVelArray`): in the model they are part of the input. Of the system itself, only the stored rotations and intermediate
results change, which is left out. At the third stage the code gives `tc` for the forces and `fc` for the moments (line 777). -/
noncomputable def Sys.iterateRK4 (s : Sys G) (i : Input) (fc tc : Fin 2 → V3) (p θ v ω fm tm : V3) (dt : ℝ) :
    Res ((V3 × V3 × V3 × V3) × (Fin 2 → V3) × (Fin 2 → V3)) := do
  let s := { s with fc := fc, tc := tc }
  let (R, s) := s.rotation θ 0
  let (a1, α1) ← s.accel i R p ω fm tm
  let p2 := integratePos p v (dt / 2)
  let R2 := integrateMat R ω (dt / 2)
  let v2 := v + (dt / 2) • a1
  let ω2 := ω + (dt / 2) • α1
  let (a2, α2) ← s.accel i R2 p2 ω2 fm tm
  let p3 := integratePos p v2 (dt / 2)
  let R3 := integrateMat R ω2 (dt / 2)
  let v3 := v + (dt / 2) • a2
  let ω3 := ω + (dt / 2) • α2
  let (a3, α3) ← Sys.accel { s with fc := s.tc, tc := s.fc } i R3 p3 ω3 fm tm
  let p4 := integratePos p v3 dt
  let R4 := integrateMat R ω3 dt
  let v4 := v + dt • a3
  let ω4 := ω + dt • α3
  let (a4, α4) ← s.accel i R4 p4 ω4 fm tm
  let p := integratePos p v (dt / 6)
  let R := integrateMat R ω (dt / 6)
  let p := integratePos p v2 (dt / 3)
  let R := integrateMat R ω2 (dt / 3)
  let p := integratePos p v3 (dt / 3)
  let R := integrateMat R ω3 (dt / 3)
  let p := integratePos p v4 (dt / 6)
  let R := integrateMat R ω4 (dt / 6)
  let v := v + (dt / 6) • (a1 + (2 : ℝ) • a2 + (2 : ℝ) • a3 + a4)
  let ω := ω + (dt / 6) • (α1 + (2 : ℝ) • α2 + (2 : ℝ) • α3 + α4)
  let aa := AngleAxis.ofMat R
  let θ := aa.angle • aa.axis
  let (R, s) := s.rotation θ 0
  let s ← s.forces i.contacts p v θ R ω
  .ok ((p, θ, v, ω), s.fc, s.tc)

end StateObs.Elastic
