import Verif.Kalman.Model
/-!
# The other outputs of the Kalman filters
-/

namespace StateObs.KF
open StateObs
variable {E : Type}

/-- `getLastPrediction`, kalman-filter-base.cpp 391-394. -/
def getLastPrediction (s : KFilter E) : Res DVec := val s.st.xbar
/-- `getLastPredictedMeasurement`, kalman-filter-base.cpp 396-399. -/
def getLastPredictedMeasurement (s : KFilter E) : Res DVec := val s.st.ybar
/-- `getLastGain`, kalman-filter-base.cpp 401-404. -/
def getLastGain (s : KFilter E) : DMat := s.st.kGain
/-- `getInnovation`, kalman-filter-base.cpp 386-389. -/
def getInnovation (s : KFilter E) : DVec := s.st.innovation
/-- `getStateCovariance`, kalman-filter-base.cpp 173-176. -/
def getStateCovariance (s : KFilter E) : DMat := s.st.pr

end StateObs.KF

namespace StateObs.LKF
open StateObs KF

/-- `getSimulatedMeasurement`, kalman-filter-base.cpp 381-384, with `simulateSensor_` of the linear filter, linear-kalman-filter.cpp 52-71, that stores its
result in `ybar_`. -/
noncomputable def getSimulatedMeasurement (s : KFilter Ext) (k : Int) : Res (KFilter Ext × DVec) := do
  let s ← getEstimatedState s k
  let x ← val s.x
  let y ← simulateSensor s x k
  .ok ({ s with st := { s.st with ybar := some (y, k) } }, y)

end StateObs.LKF
