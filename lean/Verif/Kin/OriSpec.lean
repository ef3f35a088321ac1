import Verif.Kin.Orientation
import Verif.Rot.Spec
import Mathlib.Analysis.Normed.Algebra.MatrixExponential
/-!
# Specification of the calls on `Orientation` variables

Each variable holds a rotation, or nothing. This file does not mention the quaternion/matrix pair of the objects.
-/

namespace StateObs.Kine
open StateObs Matrix Rot

/-- The rotation of a rotation vector; vectors shorter than 1e-16 are neglected. -/
noncomputable def vecRot (v : V3) : M3 := if nrm v ≤ 1e-16 then 1 else NormedSpace.exp (hat v)

/-- The rotation held by each variable. -/
abbrev RotStore := ℕ → Option M3

def RotStore.put (t : RotStore) (d : ℕ) (R : Option M3) : RotStore := fun i => if i = d then R else t i

/-- The arguments given by the user are rotations (unit quaternions, rotation matrices, unit axes, equal rotations where two are given), and the
result of `setToProductNoAlias` is neither operand. -/
def OriOp.Valid : OriOp → Prop
  | constructQuat _ q | assignQuat _ q => q.normSq = 1
  | constructMat _ m | assignMat _ m => IsRot m
  | constructAngleAxis _ a | assignAngleAxis _ a => a.axis ⬝ᵥ a.axis = 1
  | constructBoth _ q m | setValue _ q m => q.normSq = 1 ∧ m = q.toMat
  | fromVector4 _ v => v 0 ^ 2 + v 1 ^ 2 + v 2 ^ 2 + v 3 ^ 2 = 1
  | productNoAlias d a b => d ≠ a ∧ d ≠ b
  | _ => True

/-- The effect of a call on the rotations; `none`: a variable without value is read. -/
noncomputable def OriOp.effect (t : RotStore) : OriOp → Option RotStore
  | newVar d | reset d => some (t.put d none)
  | constructVector d v | assignVector d v => some (t.put d (some (vecRot v)))
  | constructQuat d q | assignQuat d q => some (t.put d (some q.toMat))
  | constructMat d m | assignMat d m => some (t.put d (some m))
  | constructAngleAxis d a | assignAngleAxis d a => some (t.put d (some (NormedSpace.exp (hat (a.angle • a.axis)))))
  | constructRPY d r p y => some (t.put d (some (rotZ y * rotY p * rotX r)))
  | constructBoth d _ m | setValue d _ m => some (t.put d (some m))
  | fromVector4 d v => some (t.put d (some (Quat.toMat ⟨v 3, v 0, v 1, v 2⟩)))
  | constructCopy d a | copy d a => some (t.put d (t a))
  | zeroRotation d | setZeroQuat d | setZeroMat d => some (t.put d (some 1))
  | constructProduct d a b | productNoAlias d a b => do
    let A ← t a
    let B ← t b
    some (t.put d (some (A * B)))
  | inverse d a => do
    let A ← t a
    some (t.put d (some A⁻¹))
  | integrate d v => do
    let A ← t d
    some (t.put d (some (vecRot v * A)))
  | synchronize d | toMatrix3 d | toQuaternion d | toVector4 d | toRotationVector d | toRollPitchYaw d | toAngleAxis d | rotate d _ => do
    let _ ← t d
    some t
  | differentiate d a => do
    let _ ← t d
    let _ ← t a
    some t

/-- What a call must return, given the rotations. -/
def OriOp.Returns (t : RotStore) : OriOp → OriOut → Prop
  | toMatrix3 d, .mat m => t d = some m
  | toQuaternion d, .quat q => q.normSq = 1 ∧ t d = some q.toMat
  | toVector4 d, .vec4 v => v 0 ^ 2 + v 1 ^ 2 + v 2 ^ 2 + v 3 ^ 2 = 1 ∧ t d = some (Quat.toMat ⟨v 3, v 0, v 1, v 2⟩)
  | toRotationVector d, .rotVec v => t d = some (NormedSpace.exp (hat v)) ∧ nrm v ≤ Real.pi
  | toRollPitchYaw d, .rpy v => ∃ R, t d = some R ∧ (|R 2 0| < 1 → R = rotZ (v 2) * rotY (v 1) * rotX (v 0))
  | toAngleAxis d, .angleAxis a =>
      t d = some (NormedSpace.exp (hat (a.angle • a.axis))) ∧ a.axis ⬝ᵥ a.axis = 1 ∧ 0 ≤ a.angle ∧ a.angle ≤ Real.pi
  | rotate d v, .rotated w => ∃ R, t d = some R ∧ w = R *ᵥ v
  | differentiate d a, .diff v => ∃ R S, t d = some R ∧ t a = some S ∧ NormedSpace.exp (hat v) * R = S ∧ nrm v ≤ Real.pi
  | toMatrix3 _, _ | toQuaternion _, _ | toVector4 _, _ | toRotationVector _, _ | toRollPitchYaw _, _ | toAngleAxis _, _ | rotate _ _, _
  | differentiate _ _, _ => False
  | _, out => out = .none

/-- The effect of a sequence of calls. -/
noncomputable def OriOp.effects (t : RotStore) : List OriOp → Option RotStore
  | [] => some t
  | op :: ops => do
    let t ← op.effect t
    effects t ops

/-- What the calls of a sequence must return. -/
def OriOp.ReturnsAll (t : RotStore) : List OriOp → List OriOut → Prop
  | [], outs => outs = []
  | op :: ops, outs => ∃ o os t', outs = o :: os ∧ op.Returns t o ∧ op.effect t = some t' ∧ ReturnsAll t' ops os

end StateObs.Kine
