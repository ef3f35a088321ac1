import Verif.KO.Dyn
/-!
# `KineticsObserver`: the functions that only derived classes can call

`computeContactForces_`, src/kinetics-observer.cpp 1379-1400, and `Sensor::extractFromVector`, include/state-observation/dynamics-estimators/kinetics-observer.hpp 850-853. The class itself
calls neither of them.
-/

namespace StateObs.KO
open StateObs Matrix Rot Kine KF

/-- `Sensor::extractFromVector`, hpp 850-853: `v.segment(size, measIndex)`, whose first argument is the start and whose second one is the length. A sensor that has not
been used has no defined `measIndex`. -/
def extractFromVector (size : ℕ) (measIndex : Option ℕ) (v : DVec) : Res DVec := do
  let i ← rd measIndex
  if h : size + i ≤ v.size then .ok ⟨i, fun j => v.val ⟨size + j, by omega⟩⟩ else .assertFail

/-- `IMU::extractFromVector`: `size` is `sizeIMUSignal`, hpp 860. -/
def IMU.extract (m : IMU) (v : DVec) : Res DVec := extractFromVector 6 m.measIndex v

/-- `Contact::extractFromVector`: `size` is `sizeWrench`, hpp 875. -/
def Contact.extract (c : Contact) (v : DVec) : Res DVec := extractFromVector 6 c.measIndex v

/-- The variables that the caller gives to `computeContactForces_`. -/
structure WrenchVars where
  force : V3
  torque : V3

/-- `computeContactForces_`, cpp 1379-1400: the variables of the caller after the call, and its state kinematics and contact pose, in which matrices and quaternions may have been computed. The force is
taken by reference, the torque by value. -/
noncomputable def computeContactForces (c : Contact) (k pose : Kin) (a : WrenchVars) : Res (WrenchVars × Kin × Kin) := do
  let v ← rd c.visco
  let g ← Kin.product k c.localKine
  let R ← g.1.ori.toMatrix3
  let r ← pose.pos.read dbg
  let p ← g.1.pos.read dbg
  let pd ← g.1.linVel.read dbg
  let force := R.1ᵀ *ᵥ (v.linStiff *ᵥ (r - p) - v.linDamp *ᵥ pd)
  let q ← R.2.toQuaternion
  let s ← pose.ori.toQuaternion
  let w ← g.1.angVel.read dbg
  let _torque := R.1ᵀ *ᵥ (-((0.5 : ℝ) • (v.angStiff *ᵥ Observer.vectorComponent (q.1 * s.1.inverse))) - v.angDamp *ᵥ w)
  .ok ({ a with force := force }, g.2.1, { pose with ori := s.2 })

end StateObs.KO
