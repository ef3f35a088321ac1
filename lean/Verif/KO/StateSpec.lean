import Verif.KO.LayoutProps
import Verif.Kin.Spec
/-!
# What the components of the estimate are (C103, C104)
-/

namespace StateObs.KO
open StateObs Matrix Rot Kine KF

/-- The component `c` exists, and its segment of the vector of `getCurrentStateVector()` is `v`. -/
def Comp.Is (o : Observer) (c : Comp) (v : List ℝ) : Prop :=
  ∃ i s, c.start o = .ok i ∧ o.getCurrentStateVector.seg c.size i = .ok s ∧ v = List.ofFn s

/-- The component `c` is the same in both observers. -/
def Comp.Kept (o o' : Observer) (c : Comp) : Prop := ∀ v, c.Is o v ↔ c.Is o' v

/-- The coefficients of a quaternion in a state vector. -/
def coeffs (q : Quat) : List ℝ := [q.x, q.y, q.z, q.w]

/-- The coordinates of a vector. -/
def coords (v : V3) : List ℝ := [v 0, v 1, v 2]

/-- What the functions of the kinematics that `getKinematics()` returns give, is what the state vector contains: position, orientation (as quaternion and as
matrix), linear velocity, angular velocity. -/
structure KineShown (o : Observer) : Prop where
  pos : ∃ p, o.getKinematics.pos.read dbg = .ok p ∧ Comp.position.Is o (coords p)
  ori : ∃ q k k', o.getKinematics.ori.toQuaternion = .ok (q, k) ∧ o.getKinematics.ori.toMatrix3 = .ok (q.toMat, k') ∧ Comp.orientation.Is o (coeffs q)
  linVel : ∃ v, o.getKinematics.linVel.read dbg = .ok v ∧ Comp.linVel.Is o (coords v)
  angVel : ∃ w, o.getKinematics.angVel.read dbg = .ok w ∧ Comp.angVel.Is o (coords w)

/-- The kinematics given to `setStateKinematics` are coherent: every field is set to a value or not set, and the representations of the orientation are those
of one rotation (all the objects made by calls of the library, see C46). -/
def Op.Coherent : Op → Prop
  | .setStateKinematics k _ _ => ∃ a, k.Has a
  | _ => True

/-- The calls that are made to change the estimate. -/
def Op.setsState : Op → Bool
  | .update | .setStateKinematics .. | .setGyroBias .. | .setStateUnmodeledWrench .. | .setStateVector .. | .addContact .. => true
  | _ => false

end StateObs.KO
