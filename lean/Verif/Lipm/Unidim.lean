import Verif.Kalman.Feed
import Verif.Lipm.Model
/-!
# `UnidimLipmDcmEstimator`

src/unidim-lipm-dcm-estimator.cpp and its header. The members `A_`, `B_`, `C_`, `Q_`, `R_` only hold the last matrices handed to the
filter and are never read back; the model has no separate copy of them.
-/

namespace StateObs.Unidim
open StateObs Matrix KF Lipm

/-- Members of `UnidimLipmDcmEstimator`, unidim-lipm-dcm-estimator.hpp 188-206. -/
structure Est where
  omega0 : ℝ
  dt : ℝ
  biasDriftStd : ℝ
  zmpErrorStd : ℝ
  previousZmp : ℝ
  filter : KFilter LKF.Ext

/-- `tools::square`, miscellaneous-algorithms.hpp 26-29. -/
def square (x : ℝ) : ℝ := x * x

/-- `updateMatricesABQ_`, unidim-lipm-dcm-estimator.cpp 194-211. -/
def updateMatricesABQ (s : Est) : Res Est := do
  let f ← setA s.filter ⟨2, 2, !![1 + s.omega0 * s.dt, 0; 0, 1]⟩
  let f ← LKF.setB f ⟨2, 1, !![-s.omega0 * s.dt; 0]⟩
  let f ← setQ f ⟨2, 2, !![square (s.omega0 * s.dt * s.zmpErrorStd), 0; 0, square (s.biasDriftStd * s.dt)]⟩
  .ok { s with filter := f }

/-- The constructor, unidim-lipm-dcm-estimator.cpp 21-49. -/
noncomputable def ctor (dt omega0 biasDriftStd initDcm initZMP initBias dcmMeasureErrorStd zmpMeasureErrorStd initDcmUncertainty
    initBiasUncertainty : ℝ) : Res Est := do
  let s ← updateMatricesABQ ⟨omega0, dt, biasDriftStd, zmpMeasureErrorStd, initZMP, LKF.mk 2 1 1⟩
  let f ← setC s.filter ⟨1, 2, !![1, 1]⟩
  let f ← setR f ⟨1, 1, !![square dcmMeasureErrorStd]⟩
  let f ← Obs.setState (cfg f) f ⟨2, ![initDcm, initBias]⟩ 0
  let f ← setStateCovariance f ⟨2, 2, !![square initDcmUncertainty, 0; 0, square initBiasUncertainty]⟩
  .ok { s with filter := f }

/-- `resetWithInputs`, unidim-lipm-dcm-estimator.cpp 51-99. -/
noncomputable def resetWithInputs (s : Est) (measuredDcm measuredZMP : ℝ) (measurementIsWithBias : Bool) (biasDriftStd dcmMeasureErrorStd
    zmpMeasureErrorStd initBias initBiasuncertainty : ℝ) : Res Est := do
  let s := { s with
    filter := reset s.filter
    biasDriftStd := biasDriftStd
    zmpErrorStd := zmpMeasureErrorStd
    previousZmp := measuredZMP }
  let s ← updateMatricesABQ s
  let f ← setR s.filter ⟨1, 1, !![square dcmMeasureErrorStd]⟩
  let x := if measurementIsWithBias then ![measuredDcm - initBias, initBias] else ![measuredDcm, initBias]
  let f ← Obs.setState (cfg f) f ⟨2, x⟩ 0
  let P := if measurementIsWithBias then
      !![square dcmMeasureErrorStd + square initBiasuncertainty, -square initBiasuncertainty;
        -square initBiasuncertainty, square initBiasuncertainty]
    else !![square dcmMeasureErrorStd, 0; 0, square initBiasuncertainty]
  let f ← setStateCovariance f ⟨2, 2, P⟩
  .ok { s with filter := f }

/-- `setLipmNaturalFrequency`, unidim-lipm-dcm-estimator.cpp 101-105. -/
def setLipmNaturalFrequency (s : Est) (omega : ℝ) : Res Est := updateMatricesABQ { s with omega0 := omega }
/-- `setSamplingTime`, unidim-lipm-dcm-estimator.cpp 107-111. -/
def setSamplingTime (s : Est) (dt : ℝ) : Res Est := updateMatricesABQ { s with dt := dt }
/-- `setZmpMeasureErrorStd`, unidim-lipm-dcm-estimator.cpp 157-161. -/
def setZmpMeasureErrorStd (s : Est) (std : ℝ) : Res Est := updateMatricesABQ { s with zmpErrorStd := std }
/-- `setDcmMeasureErrorStd`, unidim-lipm-dcm-estimator.cpp 163-167: assigns a local variable. -/
def setDcmMeasureErrorStd (s : Est) (_std : ℝ) : Res Est := .ok s

/-- `filter_.getCurrentEstimatedState()` converted to `Vector2`. -/
def curState (s : Est) : Res (Fin 2 → ℝ) := do
  let v ← val s.filter.x
  asVec 2 v
/-- `getUnbiasedDCM`, unidim-lipm-dcm-estimator.cpp 184-187. -/
def getUnbiasedDCM (s : Est) : Res ℝ := do
  let x ← curState s
  .ok (x 0)
/-- `getBias`, unidim-lipm-dcm-estimator.cpp 189-192. -/
def getBias (s : Est) : Res ℝ := do
  let x ← curState s
  .ok (x 1)

/-- `setBias(bias)`, unidim-lipm-dcm-estimator.cpp 113-119. -/
def setBias (s : Est) (bias : ℝ) : Res Est := do
  let x ← curState s
  let f ← Obs.setCurrentState (cfg s.filter) s.filter ⟨2, ![x 0, bias]⟩
  .ok { s with filter := f }
/-- `setBias(bias, uncertainty)`, unidim-lipm-dcm-estimator.cpp 121-129. -/
def setBias2 (s : Est) (bias uncertainty : ℝ) : Res Est := do
  let s ← setBias s bias
  let P ← asMat 2 2 s.filter.st.pr
  let f ← setStateCovariance s.filter ⟨2, 2, !![P 0 0, 0; 0, square uncertainty]⟩
  .ok { s with filter := f }
/-- `setBiasDriftPerSecond`, unidim-lipm-dcm-estimator.cpp 131-137. -/
def setBiasDriftPerSecond (s : Est) (drift : ℝ) : Res Est := do
  let Q ← asMat 2 2 s.filter.st.q
  let f ← setQ s.filter ⟨2, 2, !![Q 0 0, Q 0 1; Q 1 0, square drift]⟩
  .ok { s with filter := f }
/-- `setUnbiasedDCM(dcm)`, unidim-lipm-dcm-estimator.cpp 139-145. -/
def setUnbiasedDCM (s : Est) (dcm : ℝ) : Res Est := do
  let x ← curState s
  let f ← Obs.setCurrentState (cfg s.filter) s.filter ⟨2, ![dcm, x 1]⟩
  .ok { s with filter := f }
/-- `setUnbiasedDCM(dcm, uncertainty)`, unidim-lipm-dcm-estimator.cpp 147-155. -/
def setUnbiasedDCM2 (s : Est) (dcm uncertainty : ℝ) : Res Est := do
  let s ← setUnbiasedDCM s dcm
  let P ← asMat 2 2 s.filter.st.pr
  let f ← setStateCovariance s.filter ⟨2, 2, !![square uncertainty, 0; 0, P 1 1]⟩
  .ok { s with filter := f }

/-- `setInputs`, unidim-lipm-dcm-estimator.cpp 169-182. -/
def setInputs (s : Est) (dcm zmp : ℝ) : Res Est := do
  let f ← (do
    let f ← Obs.pushMeasurement (cfg s.filter) s.filter ⟨1, ![dcm]⟩
    Obs.pushInput (cfg f) f ⟨1, ![s.previousZmp]⟩)
  .ok { s with previousZmp := zmp, filter := f }

/-- `update`, unidim-lipm-dcm-estimator.hpp 153-156 (the vector returned is the state of the new filter). -/
noncomputable def update (s : Est) : Res Est := do
  let f ← (do
    let K ← s.filter.getMeasurementTime
    LKF.getEstimatedState s.filter K)
  .ok { s with filter := f }

/-- The public methods. -/
inductive Op where
  | resetWithInputs (dcm zmp : ℝ) (withBias : Bool) (drift dcmStd zmpStd bias biasUnc : ℝ)
  | setLipmNaturalFrequency (omega : ℝ)
  | setSamplingTime (dt : ℝ)
  | setZmpMeasureErrorStd (std : ℝ)
  | setDcmMeasureErrorStd (std : ℝ)
  | setBiasDriftPerSecond (drift : ℝ)
  | setBias (b : ℝ)
  | setBias2 (b unc : ℝ)
  | setUnbiasedDCM (dcm : ℝ)
  | setUnbiasedDCM2 (dcm unc : ℝ)
  | update
  | setInputs (dcm zmp : ℝ)

/-- The effect of a method call. -/
noncomputable def exec (s : Est) : Op → Res Est
  | .resetWithInputs dcm zmp w d r z b bu => resetWithInputs s dcm zmp w d r z b bu
  | .setLipmNaturalFrequency w => setLipmNaturalFrequency s w
  | .setSamplingTime dt => setSamplingTime s dt
  | .setZmpMeasureErrorStd a => setZmpMeasureErrorStd s a
  | .setDcmMeasureErrorStd a => setDcmMeasureErrorStd s a
  | .setBiasDriftPerSecond a => setBiasDriftPerSecond s a
  | .setBias b => setBias s b
  | .setBias2 b u => setBias2 s b u
  | .setUnbiasedDCM b => setUnbiasedDCM s b
  | .setUnbiasedDCM2 b u => setUnbiasedDCM2 s b u
  | .update => update s
  | .setInputs dcm zmp => setInputs s dcm zmp

end StateObs.Unidim
