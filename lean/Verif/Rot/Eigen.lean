import Verif.Rot.Basic
import Verif.Outcome
import Mathlib.Analysis.SpecialFunctions.Complex.Arg
import Mathlib.Analysis.SpecialFunctions.Trigonometric.Basic
/-!
# Functions of Eigen's geometry module used by the code

`Eigen::AngleAxisd`, `Eigen::Quaterniond` (version 3.3 and later) and the tests `isApprox`, `isZero`, `isUnitary`. The library
is not part of /repo: these definitions transcribe its headers
(Eigen/src/Geometry/AngleAxis.h, Quaternion.h, Eigen/src/Core/MathFunctions.h, Fuzzy.h, CwiseNullaryOp.h, Dot.h) over the reals.
-/

namespace StateObs.Rot
open Matrix

/-- `std::atan2(y, x)`; the value at the origin is zero (for positive zeros). -/
noncomputable def atan2 (y x : ℝ) : ℝ := Complex.arg ⟨x, y⟩

/-- `Eigen::AngleAxisd`. -/
@[ext] structure AngleAxis where
  angle : ℝ
  axis : V3

/-- `Eigen::Quaterniond`. -/
@[ext] structure Quat where
  w : ℝ
  x : ℝ
  y : ℝ
  z : ℝ

namespace Quat

/-- `Quaterniond::Identity()`. -/
def one : Quat := ⟨1, 0, 0, 0⟩

instance : One Quat := ⟨one⟩

/-- `vec()`. -/
def vec (q : Quat) : V3 := ![q.x, q.y, q.z]

/-- `squaredNorm()`. -/
def normSq (q : Quat) : ℝ := q.x * q.x + q.y * q.y + q.z * q.z + q.w * q.w

/-- `operator*`, `quat_product` of Quaternion.h. -/
def mul (a b : Quat) : Quat where
  w := a.w * b.w - a.x * b.x - a.y * b.y - a.z * b.z
  x := a.w * b.x + a.x * b.w + a.y * b.z - a.z * b.y
  y := a.w * b.y + a.y * b.w + a.z * b.x - a.x * b.z
  z := a.w * b.z + a.z * b.w + a.x * b.y - a.y * b.x

instance : Mul Quat := ⟨mul⟩

/-- Multiplication of all coefficients by a number (`coeffs() * c`). -/
def scale (c : ℝ) (q : Quat) : Quat := ⟨c * q.w, c * q.x, c * q.y, c * q.z⟩

/-- `conjugate()`. -/
def conj (q : Quat) : Quat := ⟨q.w, -q.x, -q.y, -q.z⟩

/-- `inverse()`: the zero quaternion if the norm is zero. -/
noncomputable def inverse (q : Quat) : Quat := if q.normSq > 0 then scale (1 / q.normSq) q.conj else ⟨0, 0, 0, 0⟩

/-- `normalized()`: unchanged if the norm is zero. -/
noncomputable def normalized (q : Quat) : Quat := if q.normSq > 0 then scale (1 / Real.sqrt q.normSq) q else q

/-- `toRotationMatrix()`. -/
def toMat (q : Quat) : M3 :=
  let tx := 2 * q.x
  let ty := 2 * q.y
  let tz := 2 * q.z
  let twx := tx * q.w
  let twy := ty * q.w
  let twz := tz * q.w
  let txx := tx * q.x
  let txy := ty * q.x
  let txz := tz * q.x
  let tyy := ty * q.y
  let tyz := tz * q.y
  let tzz := tz * q.z
  !![1 - (tyy + tzz), txy - twz, txz + twy;
     txy + twz, 1 - (txx + tzz), tyz - twx;
     txz - twy, tyz + twx, 1 - (txx + tyy)]

/-- `Quaterniond(AngleAxis)`. -/
noncomputable def ofAngleAxis (a : AngleAxis) : Quat :=
  let ha := 1 / 2 * a.angle
  ⟨Real.cos ha, Real.sin ha * a.axis 0, Real.sin ha * a.axis 1, Real.sin ha * a.axis 2⟩

/-- `Quaterniond(Matrix3d)`: `quaternionbase_assign_impl<Other,3,3>` of Quaternion.h. -/
noncomputable def ofMat (m : M3) : Quat :=
  let t := m 0 0 + m 1 1 + m 2 2
  if t > 0 then
    let s := Real.sqrt (t + 1)
    let r := 1 / 2 / s
    ⟨1 / 2 * s, (m 2 1 - m 1 2) * r, (m 0 2 - m 2 0) * r, (m 1 0 - m 0 1) * r⟩
  else
    -- `i` is the index of the largest diagonal coefficient
    let i : Fin 3 := if m 1 1 > m 0 0 then 1 else 0
    let i : Fin 3 := if m 2 2 > m i i then 2 else i
    if i = 0 then
      let s := Real.sqrt (m 0 0 - m 1 1 - m 2 2 + 1)
      let r := 1 / 2 / s
      ⟨(m 2 1 - m 1 2) * r, 1 / 2 * s, (m 1 0 + m 0 1) * r, (m 2 0 + m 0 2) * r⟩
    else if i = 1 then
      let s := Real.sqrt (m 1 1 - m 2 2 - m 0 0 + 1)
      let r := 1 / 2 / s
      ⟨(m 0 2 - m 2 0) * r, (m 0 1 + m 1 0) * r, 1 / 2 * s, (m 2 1 + m 1 2) * r⟩
    else
      let s := Real.sqrt (m 2 2 - m 0 0 - m 1 1 + 1)
      let r := 1 / 2 / s
      ⟨(m 1 0 - m 0 1) * r, (m 0 2 + m 2 0) * r, (m 1 2 + m 2 1) * r, 1 / 2 * s⟩

end Quat

namespace AngleAxis

/-- `toRotationMatrix()`. -/
noncomputable def toMat (a : AngleAxis) : M3 :=
  let s := fun i => Real.sin a.angle * a.axis i
  let c := Real.cos a.angle
  let k := fun i => (1 - c) * a.axis i
  !![k 0 * a.axis 0 + c, k 0 * a.axis 1 - s 2, k 0 * a.axis 2 + s 1;
     k 0 * a.axis 1 + s 2, k 1 * a.axis 1 + c, k 1 * a.axis 2 - s 0;
     k 0 * a.axis 2 - s 1, k 1 * a.axis 2 + s 0, k 2 * a.axis 2 + c]

/-- `AngleAxisd(Quaternion)`. -/
noncomputable def ofQuat (q : Quat) : AngleAxis :=
  let n := nrm q.vec
  if n ≠ 0 then
    ⟨2 * atan2 n |q.w|, (1 / (if q.w < 0 then -n else n)) • q.vec⟩
  else ⟨0, ![1, 0, 0]⟩

/-- `AngleAxisd(Matrix3d)`: through the quaternion. -/
noncomputable def ofMat (m : M3) : AngleAxis := ofQuat (Quat.ofMat m)

end AngleAxis

/-- `internal::isApprox(x, y, prec)` for real scalars. -/
def eigenIsApprox (x y prec : ℝ) : Prop := |x - y| ≤ min |x| |y| * prec

/-- `internal::isMuchSmallerThan(x, 1, prec)` for real scalars. -/
def muchSmaller1 (x prec : ℝ) : Prop := |x| ≤ prec

/-- `isUnitary(prec)` of a column vector. -/
def vecIsUnitary (v : V3) (prec : ℝ) : Prop := eigenIsApprox (v ⬝ᵥ v) 1 prec

/-- `isUnitary(prec)` of a matrix: unit columns, orthogonal to each other. -/
def matIsUnitary (M : M3) (prec : ℝ) : Prop :=
  ∀ i : Fin 3, eigenIsApprox (Mᵀ i ⬝ᵥ Mᵀ i) 1 prec ∧ ∀ j, j < i → muchSmaller1 (Mᵀ i ⬝ᵥ Mᵀ j) prec

/-- `NumTraits<double>::dummy_precision()`. -/
noncomputable def dummyPrecision : ℝ := 1e-12

open Classical in
/-- `normalized()` of a vector: unchanged if the norm is zero. -/
noncomputable def vecNormalized (v : V3) : V3 := if v ⬝ᵥ v > 0 then (1 / Real.sqrt (v ⬝ᵥ v)) • v else v

end StateObs.Rot
