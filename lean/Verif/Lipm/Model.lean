import Verif.Kalman.Feed
import Verif.Lipm.Blocks
/-!
# `LipmDcmEstimator` and `UnidimLipmDcmEstimator`

src/lipm-dcm-estimator.cpp, src/unidim-lipm-dcm-estimator.cpp and their headers. The estimators own a `LinearKalmanFilter`, modelled in
`Verif/Kalman/Model.lean`; their fixed-size members (`Matrix4`, `Vector2`, ...) are typed matrices. The conversions of the dynamically sized
vectors and matrices of the filter to fixed-size ones fail (Eigen assertion) when the sizes differ.
The overloads that take a yaw angle or a 3D rotation convert it to a 2D rotation matrix and are not modelled separately.
-/

namespace StateObs.Lipm
open StateObs Matrix KF Blocks

/-- `Vector x = v` for a fixed-size vector. -/
def asVec (n : ℕ) (v : DVec) : Res (Fin n → ℝ) := if h : v.size = n then .ok fun i => v.val (Fin.cast h.symm i) else .assertFail

/-- `Matrix M = m` for a fixed-size matrix. -/
def asMat (r c : ℕ) (M : DMat) : Res (Matrix (Fin r) (Fin c) ℝ) :=
  if h : M.rows = r ∧ M.cols = c then .ok fun i j => M.val (Fin.cast h.1.symm i) (Fin.cast h.2.symm j) else .assertFail

@[simp] theorem asVec_mk {n : ℕ} (v : Fin n → ℝ) : asVec n ⟨n, v⟩ = .ok v := by simp [asVec]
@[simp] theorem asMat_mk {r c : ℕ} (M : Matrix (Fin r) (Fin c) ℝ) : asMat r c ⟨r, c, M⟩ = .ok M := by simp [asMat]

/-- `Vec2ToSqDiag`, lipm-dcm-estimator.hpp 342-345. -/
def vecToSqDiag (v : Fin 2 → ℝ) : Matrix (Fin 2) (Fin 2) ℝ := diagonal fun i => v i * v i
/-- `dblToDiag`, lipm-dcm-estimator.hpp 348-351. -/
def dblToDiag (c : ℝ) : Matrix (Fin 2) (Fin 2) ℝ := diagonal fun _ => c
/-- `dblToSqDiag`, lipm-dcm-estimator.hpp 354-357. -/
def dblToSqDiag (c : ℝ) : Matrix (Fin 2) (Fin 2) ℝ := dblToDiag (c * c)

open Classical in
/-- `clampScalar(x, max, min)`, miscellaneous-algorithms.hpp 98-115. -/
noncomputable def clampScalar3 (x max min : ℝ) : ℝ := if x > max then max else if x < min then min else x
/-- `clampScalar(x, limit)`, miscellaneous-algorithms.hpp 123-127. -/
noncomputable def clampScalar (x limit : ℝ) : ℝ := clampScalar3 x limit (-limit)

/-- Members of `LipmDcmEstimator`, lipm-dcm-estimator.hpp 319-339. -/
structure Est where
  omega0 : ℝ
  dt : ℝ
  biasDriftStd : ℝ
  zmpErrorStd : ℝ
  previousZmp : Fin 2 → ℝ
  biasLimit : Fin 2 → ℝ
  filter : KFilter LKF.Ext
  A : Matrix (Fin (2 + 2)) (Fin (2 + 2)) ℝ
  B : Matrix (Fin (2 + 2)) (Fin 2) ℝ
  C : Matrix (Fin 2) (Fin (2 + 2)) ℝ
  R : Matrix (Fin 2) (Fin 2) ℝ
  Q : Matrix (Fin (2 + 2)) (Fin (2 + 2)) ℝ
  previousOrientation : Matrix (Fin 2) (Fin 2) ℝ

/-- `updateMatricesABQ_`, lipm-dcm-estimator.cpp 238-255. -/
def updateMatricesABQ (s : Est) : Res Est := do
  let s := { s with A := blk (dblToDiag (1 + s.omega0 * s.dt)) (tr s.A) (bl s.A) (br s.A) }
  let s := { s with B := colBlk (dblToDiag (-s.omega0 * s.dt)) 0 }
  let s := { s with Q := blk (dblToSqDiag (s.omega0 * s.dt * s.zmpErrorStd)) 0 0 (dblToSqDiag (s.biasDriftStd * s.dt)) }
  let f ← setA s.filter ⟨4, 4, s.A⟩
  let f ← LKF.setB f ⟨4, 2, s.B⟩
  let f ← setQ f ⟨4, 4, s.Q⟩
  .ok { s with filter := f }

/-- The constructor, lipm-dcm-estimator.cpp 23-51. (`B_`, `C_`, `Q_`, `R_` are written before they are read; the model starts them at
zero.) -/
noncomputable def ctor (dt omega0 biasDriftStd dcmMeasureErrorStd zmpMeasureErrorStd : ℝ) (biasLimit initZMP initDcm initBias
    initDcmUncertainty initBiasUncertainty : Fin 2 → ℝ) : Res Est := do
  let s ← updateMatricesABQ ⟨omega0, dt, biasDriftStd, zmpMeasureErrorStd, initZMP, biasLimit, LKF.mk 4 2 2, 1, 0, 0, 0, 0, 1⟩
  let s := { s with C := rowBlk 1 1, R := dblToSqDiag dcmMeasureErrorStd }
  let f ← setC s.filter ⟨2, 4, s.C⟩
  let f ← setR f ⟨2, 2, s.R⟩
  let f ← Obs.setState (cfg f) f ⟨4, vcat initDcm initBias⟩ 0
  let f ← setStateCovariance f ⟨4, 4, blk (vecToSqDiag initDcmUncertainty) 0 0 (vecToSqDiag initBiasUncertainty)⟩
  .ok { s with filter := f }

/-- `resetWithMeasurements`, lipm-dcm-estimator.cpp 53-98. -/
noncomputable def resetWithMeasurements (s : Est) (measuredDcm measuredZMP : Fin 2 → ℝ) (yaw : Matrix (Fin 2) (Fin 2) ℝ)
    (measurementIsWithBias : Bool) (initBias initBiasuncertainty : Fin 2 → ℝ) : Res Est := do
  let s := { s with filter := reset s.filter, previousZmp := measuredZMP, previousOrientation := yaw }
  let x := if measurementIsWithBias then vcat (measuredDcm - initBias) initBias else vcat measuredDcm initBias
  let f ← Obs.setState (cfg s.filter) s.filter ⟨4, x⟩ 0
  let B := vecToSqDiag initBiasuncertainty
  let P := if measurementIsWithBias then blk (B + s.R) (-B) (-B) B else blk s.R 0 0 B
  let f ← setStateCovariance f ⟨4, 4, P⟩
  .ok { s with filter := f }

/-- `setLipmNaturalFrequency`, lipm-dcm-estimator.cpp 102-106. -/
def setLipmNaturalFrequency (s : Est) (omega : ℝ) : Res Est := updateMatricesABQ { s with omega0 := omega }
/-- `setSamplingTime`, lipm-dcm-estimator.cpp 108-112. -/
def setSamplingTime (s : Est) (dt : ℝ) : Res Est := updateMatricesABQ { s with dt := dt }
/-- `setZmpMeasureErrorStd`, lipm-dcm-estimator.cpp 164-168. -/
def setZmpMeasureErrorStd (s : Est) (std : ℝ) : Res Est := updateMatricesABQ { s with zmpErrorStd := std }
/-- `setDcmMeasureErrorStd`, lipm-dcm-estimator.cpp 170-174: assigns a local variable. -/
def setDcmMeasureErrorStd (s : Est) (_std : ℝ) : Res Est := .ok s
/-- `setBiasLimit`, lipm-dcm-estimator.cpp 140-143. -/
def setBiasLimit (s : Est) (l : Fin 2 → ℝ) : Res Est := .ok { s with biasLimit := l }

/-- `setBiasDriftPerSecond`, lipm-dcm-estimator.cpp 133-138. -/
def setBiasDriftPerSecond (s : Est) (drift : ℝ) : Res Est := do
  let s := { s with Q := blk (tl s.Q) (tr s.Q) (bl s.Q) (dblToSqDiag drift) }
  let f ← setQ s.filter ⟨4, 4, s.Q⟩
  .ok { s with filter := f }

/-- `filter_.getCurrentEstimatedState()` (zero-delay-observer.cpp 165-169) converted to `Vector4`. -/
def curState (s : Est) : Res (Fin (2 + 2) → ℝ) := do
  let v ← val s.filter.x
  asVec 4 v

/-- `getUnbiasedDCM`, lipm-dcm-estimator.cpp 228-231. -/
def getUnbiasedDCM (s : Est) : Res (Fin 2 → ℝ) := do
  let x ← curState s
  .ok (head x)
/-- `getBias`, lipm-dcm-estimator.cpp 233-236. -/
def getBias (s : Est) : Res (Fin 2 → ℝ) := do
  let x ← curState s
  .ok (tail x)
/-- `getLocalBias`, lipm-dcm-estimator.hpp 292-295. -/
def getLocalBias (s : Est) : Res (Fin 2 → ℝ) := do
  let b ← getBias s
  .ok (s.previousOrientationᵀ *ᵥ b)

/-- `setBias(bias)`, lipm-dcm-estimator.cpp 114-120. -/
def setBias (s : Est) (bias : Fin 2 → ℝ) : Res Est := do
  let x ← curState s
  let f ← Obs.setCurrentState (cfg s.filter) s.filter ⟨4, vcat (head x) bias⟩
  .ok { s with filter := f }
/-- `setBias(bias, uncertainty)`, lipm-dcm-estimator.cpp 122-131. -/
def setBias2 (s : Est) (bias uncertainty : Fin 2 → ℝ) : Res Est := do
  let s ← setBias s bias
  let P ← asMat 4 4 s.filter.st.pr
  let f ← setStateCovariance s.filter ⟨4, 4, blk (tl (d := 2) P) 0 0 (vecToSqDiag uncertainty)⟩
  .ok { s with filter := f }
/-- `setUnbiasedDCM(dcm)`, lipm-dcm-estimator.cpp 145-151. -/
def setUnbiasedDCM (s : Est) (dcm : Fin 2 → ℝ) : Res Est := do
  let x ← curState s
  let f ← Obs.setCurrentState (cfg s.filter) s.filter ⟨4, vcat dcm (tail x)⟩
  .ok { s with filter := f }
/-- `setUnbiasedDCM(dcm, uncertainty)`, lipm-dcm-estimator.cpp 153-162. -/
def setUnbiasedDCM2 (s : Est) (dcm uncertainty : Fin 2 → ℝ) : Res Est := do
  let s ← setUnbiasedDCM s dcm
  let P ← asMat 4 4 s.filter.st.pr
  let f ← setStateCovariance s.filter ⟨4, 4, blk (vecToSqDiag uncertainty) 0 0 (br (d := 2) P)⟩
  .ok { s with filter := f }

open Classical in
/-- `update`, lipm-dcm-estimator.cpp 176-195. `clampedLocalBias` is declared without initialiser and each component is written only if the
limit on that axis is positive; the whole vector is used afterwards. -/
noncomputable def update (s : Est) : Res Est := do
  let (f, _) ← Obs.estimateState (cfg s.filter) (oneStep LKF.virt) s.filter
  let s := { s with filter := f }
  if s.biasLimit 0 > 0 ∨ s.biasLimit 1 > 0 then do
    let l ← getLocalBias s
    let c ← (if s.biasLimit 0 > 0 ∧ s.biasLimit 1 > 0 then
        .ok fun i => clampScalar (l i) (s.biasLimit i)
      else .ub)
    let s ← setBias s (s.previousOrientation *ᵥ c)
    let dcm ← getUnbiasedDCM s
    setUnbiasedDCM s (dcm + l - c)
  else .ok s

/-- `setInputs(dcm, zmp, orientation)`, lipm-dcm-estimator.cpp 197-226 (`defaultBiasUncertainty` is 0.01, lipm-dcm-estimator.hpp 86). -/
noncomputable def setInputs (s : Est) (dcm zmp : Fin 2 → ℝ) (orientation : Matrix (Fin 2) (Fin 2) ℝ) : Res Est :=
  match s.filter.x with
  | some _ => do
    let s ← (if s.filter.y.size > 1 then update s else .ok s)
    let u := s.previousZmp
    let s := { s with previousZmp := zmp }
    let f ← (do
      let f ← Obs.pushMeasurement (cfg s.filter) s.filter ⟨2, dcm⟩
      Obs.pushInput (cfg f) f ⟨2, u⟩)
    let s := { s with
      A := blk (tl s.A) (tr s.A) (bl s.A) (orientation * s.previousOrientationᵀ)
      previousOrientation := orientation }
    let f ← setA f ⟨4, 4, s.A⟩
    .ok { s with filter := f }
  | none => resetWithMeasurements s dcm zmp orientation true 0 (fun _ => 0.01)

/-- The public methods. -/
inductive Op where
  | resetWithMeasurements (dcm zmp : Fin 2 → ℝ) (yaw : Matrix (Fin 2) (Fin 2) ℝ) (withBias : Bool) (bias biasUnc : Fin 2 → ℝ)
  | setLipmNaturalFrequency (omega : ℝ)
  | setSamplingTime (dt : ℝ)
  | setZmpMeasureErrorStd (std : ℝ)
  | setDcmMeasureErrorStd (std : ℝ)
  | setBiasDriftPerSecond (drift : ℝ)
  | setBiasLimit (l : Fin 2 → ℝ)
  | setBias (b : Fin 2 → ℝ)
  | setBias2 (b unc : Fin 2 → ℝ)
  | setUnbiasedDCM (dcm : Fin 2 → ℝ)
  | setUnbiasedDCM2 (dcm unc : Fin 2 → ℝ)
  | update
  | setInputs (dcm zmp : Fin 2 → ℝ) (orientation : Matrix (Fin 2) (Fin 2) ℝ)

/-- The effect of a method call. -/
noncomputable def exec (s : Est) : Op → Res Est
  | .resetWithMeasurements dcm zmp yaw w b bu => resetWithMeasurements s dcm zmp yaw w b bu
  | .setLipmNaturalFrequency w => setLipmNaturalFrequency s w
  | .setSamplingTime dt => setSamplingTime s dt
  | .setZmpMeasureErrorStd a => setZmpMeasureErrorStd s a
  | .setDcmMeasureErrorStd a => setDcmMeasureErrorStd s a
  | .setBiasDriftPerSecond a => setBiasDriftPerSecond s a
  | .setBiasLimit l => setBiasLimit s l
  | .setBias b => setBias s b
  | .setBias2 b u => setBias2 s b u
  | .setUnbiasedDCM b => setUnbiasedDCM s b
  | .setUnbiasedDCM2 b u => setUnbiasedDCM2 s b u
  | .update => update s
  | .setInputs dcm zmp R => setInputs s dcm zmp R

end StateObs.Lipm
