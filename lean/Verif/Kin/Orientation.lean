import Verif.CheckedItem.Model
import Verif.Rot.Model
/-!
# The class `Orientation`

include/state-observation/tools/rigid-body-kinematics.hpp 354-465, rigid-body-kinematics.hxx 687-1028. The members `q_` and `m_` are `CheckedItem`s
(definitions.hpp 338, 343) in a debug build: a read of an unset item is an assertion failure, a read of an item marked as set and never written is
`ub`. They are `mutable`: the functions declared `const` that fill them return the modified object with their result. Functions that return `*this`
are modelled by the new object. `setRandom`/`randomRotation` are the assignment of an arbitrary quaternion. Not modelled: the streams,
`setMatrix(bool)`, `setQuaternion(bool)` and the references returned by `get*RefUnsafe` (no check by design).
-/

namespace StateObs.Kine
open StateObs Matrix Rot

/-- `CheckedMatrix3`, `CheckedQuaternion`, `CheckedVector3`: `CheckedItem<T, false, false, true, true>` (definitions.hpp 338-343), debug build. -/
def dbg : CheckCfg := ⟨false, false, true, true⟩

/-- Members `q_`, `m_`, rigid-body-kinematics.hpp 463-464. -/
structure Ori where
  q : CItem Quat
  m : CItem M3

namespace Ori

/-- `Orientation(bool initialize)`, rigid-body-kinematics.hxx 687. -/
def new (init : Bool) : Ori := ⟨CItem.new init, CItem.new init⟩

/-- `Orientation(const Vector3 &)`, hxx 689. -/
noncomputable def ofVector (v : V3) : Ori := ⟨CItem.ofValue (rotationVectorToQuaternion v), CItem.new true⟩
/-- `Orientation(const Quaternion &)`, hxx 691. -/
def ofQuat (q : Quat) : Ori := ⟨CItem.ofValue q, CItem.new true⟩
/-- `Orientation(const Matrix3 &)`, hxx 693. -/
def ofMat (m : M3) : Ori := ⟨CItem.new true, CItem.ofValue m⟩
/-- `Orientation(const AngleAxis &)`, hxx 695. -/
noncomputable def ofAngleAxis (a : AngleAxis) : Ori := ⟨CItem.ofValue (Quat.ofAngleAxis a), CItem.new true⟩
/-- `Orientation(roll, pitch, yaw)`, hxx 697-700. -/
noncomputable def ofRPY (r p y : ℝ) : Ori := ⟨CItem.ofValue (rollPitchYawToQuaternion r p y), CItem.new true⟩
/-- `Orientation(const Quaternion &, const Matrix3 &)`, hxx 702. -/
def ofBoth (q : Quat) (m : M3) : Ori := ⟨CItem.ofValue q, CItem.ofValue m⟩
/-- `zeroRotation`, hxx 1018-1021. -/
def zeroRotation : Ori := ofBoth 1 1

/-- Copy constructor and copy assignment (implicit): those of the members. -/
def copyFrom (o c : Ori) : Ori := ⟨o.q.copyFrom dbg c.q, o.m.copyFrom dbg c.m⟩

/-- `operator=(const Vector3 &)`, hxx 709-714. -/
noncomputable def assignVector (o : Ori) (v : V3) : Ori := ⟨o.q.assign (rotationVectorToQuaternion v), o.m.reset⟩
/-- `operator=(const Quaternion &)`, hxx 716-721. -/
def assignQuat (o : Ori) (q : Quat) : Ori := ⟨o.q.assign q, o.m.reset⟩
/-- `operator=(const Matrix3 &)`, hxx 723-728. -/
def assignMat (o : Ori) (m : M3) : Ori := ⟨o.q.reset, o.m.assign m⟩
/-- `operator=(const AngleAxis &)`, hxx 730-735. -/
noncomputable def assignAngleAxis (o : Ori) (a : AngleAxis) : Ori := ⟨o.q.assign (Quat.ofAngleAxis a), o.m.reset⟩
/-- `setValue`, hxx 737-742. -/
def setValue (o : Ori) (q : Quat) (m : M3) : Ori := ⟨o.q.assign q, o.m.assign m⟩
/-- `fromVector4`, hxx 744-747 (coefficients in the order x, y, z, w). -/
def fromVector4 (o : Ori) (v : Fin 4 → ℝ) : Ori := o.assignQuat ⟨v 3, v 0, v 1, v 2⟩
/-- `setZeroRotation<Quaternion>` and `setZeroRotation()`, hxx 754-769. -/
def setZeroQuat (o : Ori) : Ori := o.assignQuat 1
/-- `setZeroRotation<Matrix3>`, hxx 760-764. -/
def setZeroMat (o : Ori) : Ori := o.assignMat 1
/-- `reset`, hxx 957-961. -/
def reset (o : Ori) : Ori := ⟨o.q.reset, o.m.reset⟩

/-- `isMatrixSet`, hxx 963-966. -/
def isMatrixSet (o : Ori) : Bool := o.m.isSet dbg
/-- `isQuaternionSet`, hxx 968-971. -/
def isQuaternionSet (o : Ori) : Bool := o.q.isSet dbg
/-- `isSet`, hxx 933-936. -/
def isSet (o : Ori) : Bool := o.isMatrixSet || o.isQuaternionSet

/-- `check_`, hxx 1003-1006. -/
def check (o : Ori) : Res Unit := Res.assert (o.isQuaternionSet || o.isMatrixSet)

/-- `quaternionToMatrix_`, hxx 1008-1011. -/
def quaternionToMatrix (o : Ori) : Res (M3 × Ori) := do
  let q ← o.q.read dbg
  .ok (q.toMat, { o with m := o.m.assign q.toMat })

/-- `matrixToQuaternion_`, hxx 1013-1016. -/
noncomputable def matrixToQuaternion (o : Ori) : Res (Quat × Ori) := do
  let m ← o.m.read dbg
  .ok (Quat.ofMat m, { o with q := o.q.assign (Quat.ofMat m) })

/-- The statement `if(!isMatrixSet()) quaternionToMatrix_();` of `toRollPitchYaw`, `toMatrix3` and `operator*(Vector3)`. -/
def fillMatrix (o : Ori) : Res Ori :=
  if o.isMatrixSet then .ok o
  else do
    let r ← o.quaternionToMatrix
    .ok r.2

/-- The statement `if(!isQuaternionSet()) matrixToQuaternion_();` of `toQuaternion`. -/
noncomputable def fillQuaternion (o : Ori) : Res Ori :=
  if o.isQuaternionSet then .ok o
  else do
    let r ← o.matrixToQuaternion
    .ok r.2

/-- `toMatrix3` and `operator const Matrix3 &`, hxx 812-820, 832-835. -/
def toMatrix3 (o : Ori) : Res (M3 × Ori) := do
  o.check
  let o ← o.fillMatrix
  let m ← o.m.read dbg
  .ok (m, o)

/-- `toQuaternion` and `operator const Quaternion &`, hxx 822-830, 837-840. -/
noncomputable def toQuaternion (o : Ori) : Res (Quat × Ori) := do
  o.check
  let o ← o.fillQuaternion
  let q ← o.q.read dbg
  .ok (q, o)

/-- `toVector4`, hxx 771-774. -/
noncomputable def toVector4 (o : Ori) : Res ((Fin 4 → ℝ) × Ori) := do
  let r ← o.toQuaternion
  .ok (![r.1.x, r.1.y, r.1.z, r.1.w], r.2)

/-- `toRotationVector`, hxx 776-787. -/
noncomputable def toRotationVector (o : Ori) : Res V3 := do
  o.check
  if o.isQuaternionSet then do
    let q ← o.q.read dbg
    .ok (quaternionToRotationVector q)
  else do
    let m ← o.m.read dbg
    .ok (rotationMatrixToRotationVector m)

/-- `toRollPitchYaw`, hxx 789-797. -/
noncomputable def toRollPitchYaw (o : Ori) : Res (V3 × Ori) := do
  o.check
  let o ← o.fillMatrix
  let m ← o.m.read dbg
  .ok (rotationMatrixToRollPitchYaw m, o)

/-- `toAngleAxis`, hxx 799-810. -/
noncomputable def toAngleAxis (o : Ori) : Res AngleAxis := do
  o.check
  if o.isMatrixSet then do
    let m ← o.m.read dbg
    .ok (AngleAxis.ofMat m)
  else do
    let q ← o.q.read dbg
    .ok (AngleAxis.ofQuat q)

/-- The matrix written when both quaternions are set, hxx 848-855 (`o` is `*this`). -/
def productMatrix (o R1 R2 : Ori) : Res (CItem M3) :=
  if R1.isMatrixSet && R2.isMatrixSet then do
    let a ← R1.m.read dbg
    let b ← R2.m.read dbg
    .ok (o.m.assign (a * b))
  else .ok o.m.reset

/-- `setToProductNoAlias`, hxx 842-877: the new `*this`, and both operands, in which a matrix may have been computed. `*this` is neither operand. If both
operands are the same object no matrix is computed, so that the two returned operands are equal. -/
def setToProductNoAlias (o R1 R2 : Ori) : Res (Ori × Ori × Ori) := do
  R1.check
  R2.check
  if R1.isQuaternionSet && R2.isQuaternionSet then do
    let m ← productMatrix o R1 R2
    let a ← R1.q.read dbg
    let b ← R2.q.read dbg
    .ok (⟨o.q.assign (a * b), m⟩, R1, R2)
  else if !R1.isMatrixSet then do
    let r ← R1.quaternionToMatrix
    let b ← R2.m.read dbg
    .ok (⟨o.q.reset, o.m.assign (r.1 * b)⟩, r.2, R2)
  else if !R2.isMatrixSet then do
    let a ← R1.m.read dbg
    let r ← R2.quaternionToMatrix
    .ok (⟨o.q.reset, o.m.assign (a * r.1)⟩, R1, r.2)
  else do
    let a ← R1.m.read dbg
    let b ← R2.m.read dbg
    .ok (⟨o.q.reset, o.m.assign (a * b)⟩, R1, R2)

/-- `Orientation(multiplier1, multiplier2)` and `operator*(Orientation)`, hxx 704-707, 879-882. -/
def product (R1 R2 : Ori) : Res (Ori × Ori × Ori) := setToProductNoAlias (new false) R1 R2

/-- `inverse`, hxx 884-902. -/
noncomputable def inverse (o : Ori) : Res Ori := do
  o.check
  if o.isQuaternionSet then do
    let q ← o.q.read dbg
    if o.isMatrixSet then do
      let m ← o.m.read dbg
      .ok (ofBoth q.inverse mᵀ)
    else .ok (ofQuat q.inverse)
  else do
    let m ← o.m.read dbg
    .ok (ofMat mᵀ)

/-- `integrate`, hxx 904-925. -/
noncomputable def integrate (o : Ori) (v : V3) : Res Ori := do
  o.check
  if o.isQuaternionSet then do
    let q0 ← o.q.read dbg
    let q := rotationVectorToQuaternion v
    if o.isMatrixSet then do
      let m0 ← o.m.read dbg
      .ok ⟨o.q.assign (q * q0), o.m.assign (q.toMat * m0)⟩
    else .ok ⟨o.q.assign (q * q0), o.m⟩
  else do
    let m0 ← o.m.read dbg
    .ok ⟨o.q, o.m.assign (rotationVectorToRotationMatrix v * m0)⟩

/-- `differentiate`, hxx 927-931; the argument is passed by value. -/
noncomputable def differentiate (o R1 : Ori) : Res V3 := do
  o.check
  let i ← o.inverse
  let p ← product R1 i
  p.1.toRotationVector

/-- `synchronize`, hxx 938-955. -/
noncomputable def synchronize (o : Ori) : Res Ori := do
  o.check
  if o.isMatrixSet then o.fillQuaternion
  else if o.isQuaternionSet then o.fillMatrix
  else .ok o

/-- `operator*(const Vector3 &)`, hxx 983-991. -/
def rotate (o : Ori) (v : V3) : Res (V3 × Ori) := do
  o.check
  let o ← o.fillMatrix
  let m ← o.m.read dbg
  .ok (m *ᵥ v, o)

end Ori

/-- Calls on a set of `Orientation` variables. The constructors are covered by `construct…`: the variable is a new object. -/
inductive OriOp where
  | newVar (d : ℕ)
  | constructVector (d : ℕ) (v : V3)
  | constructQuat (d : ℕ) (q : Quat)
  | constructMat (d : ℕ) (m : M3)
  | constructAngleAxis (d : ℕ) (a : AngleAxis)
  | constructRPY (d : ℕ) (r p y : ℝ)
  | constructBoth (d : ℕ) (q : Quat) (m : M3)
  | constructCopy (d s : ℕ)
  | constructProduct (d a b : ℕ)
  | zeroRotation (d : ℕ)
  | copy (d s : ℕ)
  | assignVector (d : ℕ) (v : V3)
  | assignQuat (d : ℕ) (q : Quat)
  | assignMat (d : ℕ) (m : M3)
  | assignAngleAxis (d : ℕ) (a : AngleAxis)
  | setValue (d : ℕ) (q : Quat) (m : M3)
  | fromVector4 (d : ℕ) (v : Fin 4 → ℝ)
  | setZeroQuat (d : ℕ)
  | setZeroMat (d : ℕ)
  | reset (d : ℕ)
  | productNoAlias (d a b : ℕ)
  | inverse (d a : ℕ)
  | integrate (d : ℕ) (v : V3)
  | synchronize (d : ℕ)
  | toMatrix3 (d : ℕ)
  | toQuaternion (d : ℕ)
  | toVector4 (d : ℕ)
  | toRotationVector (d : ℕ)
  | toRollPitchYaw (d : ℕ)
  | toAngleAxis (d : ℕ)
  | rotate (d : ℕ) (v : V3)
  | differentiate (d a : ℕ)

/-- What a call returns to the caller. -/
inductive OriOut where
  | none
  | mat (m : M3)
  | quat (q : Quat)
  | vec4 (v : Fin 4 → ℝ)
  | rotVec (v : V3)
  | rpy (v : V3)
  | angleAxis (a : AngleAxis)
  | rotated (v : V3)
  | diff (v : V3)

abbrev OriStore := ℕ → Ori

/-- Replacement of one variable. -/
def OriStore.put (s : OriStore) (d : ℕ) (o : Ori) : OriStore := fun i => if i = d then o else s i

/-- The result of a function that only changes the object `d`. -/
def OriStore.const {α : Type} (s : OriStore) (d : ℕ) (r : Res (α × Ori)) (f : α → OriOut) : Res (OriOut × OriStore) := do
  let r ← r
  .ok (f r.1, s.put d r.2)

/-- One call. The precondition of `setToProductNoAlias` (the result is neither operand, hpp 423) is undefined behaviour if it is broken. -/
noncomputable def OriOp.exec (s : OriStore) : OriOp → Res (OriOut × OriStore)
  | newVar d => .ok (.none, s.put d (Ori.new true))
  | constructVector d v => .ok (.none, s.put d (Ori.ofVector v))
  | constructQuat d q => .ok (.none, s.put d (Ori.ofQuat q))
  | constructMat d m => .ok (.none, s.put d (Ori.ofMat m))
  | constructAngleAxis d a => .ok (.none, s.put d (Ori.ofAngleAxis a))
  | constructRPY d r p y => .ok (.none, s.put d (Ori.ofRPY r p y))
  | constructBoth d q m => .ok (.none, s.put d (Ori.ofBoth q m))
  | constructCopy d a => .ok (.none, s.put d ((Ori.new true).copyFrom (s a)))
  | constructProduct d a b => do
    let r ← Ori.product (s a) (s b)
    .ok (.none, ((s.put a r.2.1).put b r.2.2).put d r.1)
  | zeroRotation d => .ok (.none, s.put d Ori.zeroRotation)
  | copy d a => .ok (.none, s.put d ((s d).copyFrom (s a)))
  | assignVector d v => .ok (.none, s.put d ((s d).assignVector v))
  | assignQuat d q => .ok (.none, s.put d ((s d).assignQuat q))
  | assignMat d m => .ok (.none, s.put d ((s d).assignMat m))
  | assignAngleAxis d a => .ok (.none, s.put d ((s d).assignAngleAxis a))
  | setValue d q m => .ok (.none, s.put d ((s d).setValue q m))
  | fromVector4 d v => .ok (.none, s.put d ((s d).fromVector4 v))
  | setZeroQuat d => .ok (.none, s.put d (s d).setZeroQuat)
  | setZeroMat d => .ok (.none, s.put d (s d).setZeroMat)
  | reset d => .ok (.none, s.put d (s d).reset)
  | productNoAlias d a b =>
    if d = a ∨ d = b then .ub
    else do
      let r ← (s d).setToProductNoAlias (s a) (s b)
      .ok (.none, ((s.put a r.2.1).put b r.2.2).put d r.1)
  | inverse d a => do
    let r ← (s a).inverse
    .ok (.none, s.put d r)
  | integrate d v => do
    let r ← (s d).integrate v
    .ok (.none, s.put d r)
  | synchronize d => do
    let r ← (s d).synchronize
    .ok (.none, s.put d r)
  | toMatrix3 d => s.const d (s d).toMatrix3 .mat
  | toQuaternion d => s.const d (s d).toQuaternion .quat
  | toVector4 d => s.const d (s d).toVector4 .vec4
  | toRotationVector d => do
    let v ← (s d).toRotationVector
    .ok (.rotVec v, s)
  | toRollPitchYaw d => s.const d (s d).toRollPitchYaw .rpy
  | toAngleAxis d => do
    let v ← (s d).toAngleAxis
    .ok (.angleAxis v, s)
  | rotate d v => s.const d ((s d).rotate v) .rotated
  | differentiate d a => do
    let v ← (s d).differentiate (s a)
    .ok (.diff v, s)

/-- A sequence of calls, with what each of them returns. -/
noncomputable def OriOp.run (s : OriStore) : List OriOp → Res (List OriOut × OriStore)
  | [] => .ok ([], s)
  | op :: ops => do
    let r ← op.exec s
    let t ← run r.2 ops
    .ok (r.1 :: t.1, t.2)

end StateObs.Kine
