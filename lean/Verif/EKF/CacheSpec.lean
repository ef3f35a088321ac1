import Verif.EKF.Model
import Verif.Kalman.Props
import Verif.IndexedArray.Spec
/-!
# Specification for C22 and C23: calls of an extended filter and the predictions a step should use
-/

namespace StateObs.EKF
open StateObs KF IArrSpec

/-- The calls of the public interface of `ExtendedKalmanFilter`: those of the base class (whose `setExt` is replaced by the actual
setters) and its own. -/
inductive EOp where
  | base (op : KOp Ext)
  | setFunctor (f : Functor) | clearFunctor
  | setDirectInputOutputFeedthrough (b : Bool) | setDirectInputStateFeedthrough (b : Bool)
  | getAMatrixFD (dx : DVec) | getCMatrixFD (dx : DVec)

/-- Perform a call. -/
noncomputable def eexec (s : KFilter Ext) : EOp → Res (KFilter Ext)
  | .base (.setExt _) => .ok s
  | .base .reset => .ok (reset s)
  | .base op => kexec virt s op
  | .setFunctor f => .ok (setFunctor s f)
  | .clearFunctor => .ok (clearFunctor s)
  | .setDirectInputOutputFeedthrough b => .ok (setDirectInputOutputFeedthrough s b)
  | .setDirectInputStateFeedthrough b => .ok (setDirectInputStateFeedthrough s b)
  | .getAMatrixFD dx => do let (_, s) ← getAMatrixFD s dx; .ok s
  | .getCMatrixFD dx => do let (_, s) ← getCMatrixFD s dx; .ok s

/-- The input stored for time `k`, the zero input if there is none. -/
def inputAt (s : KFilter Ext) (k : Int) : DVec := ((absMap s.u).m k).getD (DVec.zero s.st.p)

/-- The input the prediction of the state is documented to use: the stored one if the filter has inputs acting on the state. -/
def stateInput (s : KFilter Ext) (k : Int) : DVec :=
  if s.st.p > 0 ∧ s.st.ext.dirState = true then inputAt s k else DVec.zero s.st.p

/-- The input the prediction of the measurement is documented to use. -/
def measInput (s : KFilter Ext) (k : Int) : DVec :=
  if s.st.p > 0 then inputAt s k else DVec.zero s.st.p

/-- The step from `s`, whose state is `x` at time `k`, to `s'` used the predictions (readable in `s'` by `getLastPrediction` and
`getLastPredictedMeasurement`) that the functor, the state and the inputs stored in `s` give. -/
def FreshStep (s s' : KFilter Ext) (x : DVec) (k : Int) : Prop :=
  ∃ f xb yb, s.st.ext.f = some f ∧
    f.stateDynamics x (stateInput s k) k = .ok xb ∧ f.measureDynamics xb (measInput s (k + 1)) (k + 1) = .ok yb ∧
    s'.st.xbar = some (xb, k + 1) ∧ s'.st.ybar = some (yb, k + 1)

/-- A prediction for the time after the current one is already stored. -/
def Pending (s : KFilter Ext) : Prop :=
  ∃ x k v, s.x = some (x, k) ∧ (s.st.xbar = some (v, k + 1) ∨ s.st.ybar = some (v, k + 1))

/-- No measurement prediction for the time after the current one is stored. -/
def MeasPending (s : KFilter Ext) : Prop := ∃ x k v, s.x = some (x, k) ∧ s.st.ybar = some (v, k + 1)

end StateObs.EKF
