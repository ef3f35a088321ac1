import Verif.Offline.ModelModel
import Verif.Offline.FlexSpec
/-! # Specification of the offline estimation of a flexibility with elastic contacts: the calls that a client of the online estimator makes -/

namespace StateObs.Offline
open StateObs KF Matrix
open StateObs.ModelFlex (Op)

/-- What is given for one time: number of contacts, measurement, input, and the covariances if they change with time. -/
structure Datum where
  n : ℕ
  y : DVec
  u : DVec
  Q : Option DMat
  R : Option DMat

/-- The whole number nearest to `r` is `n`, halves are rounded upwards. -/
def Nearest (r : ℝ) (n : ℕ) : Prop := |r - n| < 1 / 2 ∨ (r = n - 1 / 2 ∧ 0 < n)

/-- The size of a measurement with `n` contacts: an IMU, and with force measurements a wrench for each contact. -/
def sizeWith (force : Bool) (n : ℕ) : ℕ := if force then 6 + 6 * n else 6

/-- `w` is the beginning of `v`. -/
def Begins (w v : DVec) : Prop := ∃ h : w.size ≤ v.size, ∀ j : Fin w.size, w.val j = v.val (Fin.castLE h j)

/-- A covariance given for time `i`: the element of the array at this time if the array has several elements. -/
def Given (M : IArr DMat) (i : Int) (o : Option DMat) : Prop := (1 < M.size ∧ ∃ V, M.get i = .ok V ∧ o = some V) ∨ (M.size ≤ 1 ∧ o = none)

/-- The arguments of the function give `d` for time `i`. -/
structure Of (a : ModelArgs) (i : Int) (d : Datum) : Prop where
  contacts : ∃ v : DVec, a.contacts.get i = .ok v ∧ ∃ h : 0 < v.size, Nearest (v.val ⟨0, h⟩) d.n
  small : d.n < 2 ^ 32
  y : ∃ v : DVec, a.y.get i = .ok v ∧ d.y.size = sizeWith a.withForce d.n ∧ Begins d.y v
  u : a.u.get i = .ok d.u
  Q : Given a.Q i d.Q
  R : Given a.R i d.R

/-- The calls for one time up to the estimation. -/
def ask (d : Datum) : List Op :=
  [.setContactsNumber d.n, .setMeasurement d.y, .setMeasurementInput d.u] ++ (d.Q.map Op.setProcessNoiseCovariance).toList ++
    (d.R.map Op.setMeasurementNoiseCovariance).toList ++ [.getFlexibilityVector]

/-- All calls for one time. -/
def moment (simulated : Bool) (d : Datum) : List Op := ask d ++ if simulated then [.getSimulatedMeasurement] else []

/-- The element of an array of one element. -/
def constant (M : IArr DMat) : Option DMat :=
  match M.v with
  | [V] => some V
  | _ => none

open Classical in
/-- The calls that set the gains, if the first of them is not null. -/
noncomputable def gains (a : ModelArgs) : List Op :=
  if a.kfe = 0 then [] else [.param (.setKfe a.kfe), .param (.setKfv a.kfv), .param (.setKte a.kte), .param (.setKtv a.ktv)]

/-- The calls before the first time. -/
noncomputable def before (a : ModelArgs) : List Op :=
  [.param (.setContactModel 1), .param (.setSamplingPeriod a.dt), .param (.setRobotMass a.mass)] ++ ((constant a.Q).map Op.setProcessNoiseCovariance).toList ++
    ((constant a.R).map Op.setMeasurementNoiseCovariance).toList ++
    [.setFlexibilityGuess a.xh0, .setWithUnmodeledForces true, .setWithForcesMeasurements a.withForce] ++ gains a

/-- The optional arrays that are wanted. -/
structure Wanted where
  prediction : Bool
  ino : Bool
  premea : Bool
  simumea : Bool

/-- What is said about one time. -/
structure Told where
  estimate : DVec
  prediction : DVec
  innovation : DVec
  predicted : DVec
  simulated : DVec

/-- What an online estimator in the state `s` answers: the estimate that it returned, its last prediction, innovation and predicted measurement, and, if they are wanted,
the measurement that it simulates. -/
structure Answers (w : Wanted) (s : ModelFlex.Est) (r : Told) : Prop where
  estimate : s.lastX = r.estimate
  prediction : w.prediction = true → val s.ekf.st.xbar = .ok r.prediction
  innovation : s.ekf.st.innovation = r.innovation
  predicted : w.premea = true → val s.ekf.st.ybar = .ok r.predicted
  simulated : w.simumea = true → ∃ t, s.getSimulatedMeasurement = .ok (r.simulated, t)

/-- A new online estimator, after the calls of the beginning and those for the times of `past`, answers `r` to those for `d`. -/
def Online (mem : ℕ → ℕ → ℕ → ℝ) (a : ModelArgs) (w : Wanted) (past : List Datum) (d : Datum) (r : Told) : Prop :=
  ∃ s, ModelFlex.run mem 0.005 (before a ++ past.flatMap (moment w.simumea) ++ ask d) = .ok s ∧ Answers w s r

/-- The data given for the times of the measurements. -/
structure Data (a : ModelArgs) (k : Int) (l : List Datum) : Prop where
  first : a.y.getFirstIndex = k
  size : a.y.size = l.length
  each : ∀ j (h : j < l.length), Of a (k + j) l[j]

/-- What `offlineModelBaseFlexEstimation` returns: `r` are the answers. The estimates are returned in order, after the guess if the first time is positive; the other answers are stored at
their times in the arrays that are given. -/
structure Returned (a : ModelArgs) (k : Int) (p i m s : Option (IArr DVec)) (r : List Told) (o : ModelOut) : Prop where
  guess : 0 < k → ∃ v, a.xh0 = ModelFlex.column v ∧ o.xh = ⟨k - 1, v :: r.map Told.estimate⟩
  noGuess : k ≤ 0 → o.xh = ⟨0, r.map Told.estimate⟩
  prediction : ∀ b, p = some b → ∃ c, o.prediction = some c ∧ Holds c k (r.map Told.prediction)
  ino : ∀ b, i = some b → ∃ c, o.ino = some c ∧ Holds c k (r.map Told.innovation)
  premea : ∀ b, m = some b → ∃ c, o.premea = some c ∧ Holds c k (r.map Told.predicted)
  simumea : ∀ b, s = some b → ∃ c, o.simumea = some c ∧ Holds c k (r.map Told.simulated)

end StateObs.Offline
