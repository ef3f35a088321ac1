import Verif.Offline.ModelSpec
import Verif.ModelFlex.StepProps
/-! # Specification of the offline estimation with elastic contacts: a run of the extended Kalman filter -/

namespace StateObs.Offline
open StateObs KF KFSpec Matrix Imu Rot Kine
open StateObs.ModelFlex (StateJacobian MeasureJacobian weights)

open Classical in
/-- `f` is the model of the robot with the parameters of the arguments and `n` contacts: elastic contacts, unmodelled forces, no bias, no absolute pose, no noise. The gains are those
given, or, when the first is null, 40000, 600, 600 and 60. -/
structure Robot (a : ModelArgs) (n : ℕ) (f : Elastic.Sys Unit) : Prop where
  reach : ModelFlex.Reach f
  dt : f.dt = a.dt
  mass : f.mass = a.mass
  nb : f.nb = n
  model : f.model = 1
  force : f.withForce = a.withForce
  abs : f.withAbs = false
  bias : f.withBias = false
  unmodeled : f.withUnmodeled = true
  noise : f.noise = none
  snoise : f.sensor.noise = none
  kfe : f.Kfe = if a.kfe = 0 then (40000 : ℝ) • (1 : M3) else a.kfe
  kfv : f.Kfv = if a.kfe = 0 then (600 : ℝ) • (1 : M3) else a.kfv
  kte : f.Kte = if a.kfe = 0 then (600 : ℝ) • (1 : M3) else a.kte
  ktv : f.Ktv = if a.kfe = 0 then (60 : ℝ) • (1 : M3) else a.ktv

/-- The covariance of the process noise, and of the initial state, when none is given: 1e-8 for the motion, 1e-4 for the contact forces, none for the unmodelled forces and the rest. -/
noncomputable def defaultCov : Matrix (Fin 35) (Fin 35) ℝ := Matrix.diagonal fun i => if i.val < 12 then 1e-8 else if i.val < 24 then 1e-4 else 0

/-- The covariance of the process noise for one time. -/
noncomputable def processCov (a : ModelArgs) (d : Datum) : DMat := d.Q.getD ((constant a.Q).getD ⟨35, 35, defaultCov⟩)

/-- The covariance of the measurement noise for one time: the one given for this time, or the constant one if forces are not measured. -/
def measuredCov (a : ModelArgs) (d : Datum) : Option DMat :=
  match d.R with
  | some V => some V
  | none => if a.withForce then none else constant a.R

/-- The state that a guess means: all components, or those of the pose and zero for the others. -/
def Starts (g : DMat) (x : DVec) : Prop :=
  (∃ v : Fin 35 → ℝ, g = ModelFlex.column ⟨35, v⟩ ∧ x = ⟨35, v⟩) ∨
    ∃ v : Fin 6 → ℝ, g = ModelFlex.column ⟨6, v⟩ ∧ x = ⟨35, fun i => if h : i.val < 6 then v ⟨i.val, h⟩ else 0⟩

/-- The input of the prediction: the one of the time before, but the one of the current time at the first time and when the number of contacts changes. -/
def predictionInput (prev : Option Datum) (d : Datum) : DVec :=
  match prev with
  | some p => if p.n = d.n then p.u else d.u
  | none => d.u

/-- `max (min z l) (-l)`. -/
noncomputable def clip (z l : ℝ) : ℝ := max (min z l) (-l)

/-- The state `z` with the orientation `o` and with limited forces. -/
noncomputable def limited (z : Fin 35 → ℝ) (o : V3) (i : Fin 35) : ℝ :=
  if h : 3 ≤ i.val ∧ i.val < 6 then o ⟨i.val - 3, by omega⟩
  else if h : 12 ≤ i.val ∧ i.val < 15 then clip (z i) (weights ![100, 100, 1000] ⟨i.val - 12, by omega⟩)
  else if h : 18 ≤ i.val ∧ i.val < 21 then clip (z i) (weights ![10, 10, 100] ⟨i.val - 18, by omega⟩)
  else z i

/-- `ModelRun a w k x P prev l r`: from the state `x` of time `k` with covariance `P`, after the data `prev`, the extended Kalman filter on the model of the robot given the data `l` says `r`.
Jacobians are finite differences. After each correction the orientation is brought back to a small angle with the same rotation and the forces are limited. -/
inductive ModelRun (a : ModelArgs) (w : Wanted) : Int → DVec → Matrix (Fin 35) (Fin 35) ℝ → Option Datum → List Datum → List Told → Prop
  | done (k x P prev) : ModelRun a w k x P prev [] []
  | step (k x P prev) (d : Datum) (l : List Datum) (q : Told) (r : List Told) (m : ℕ) (y : Fin m → ℝ) (Q : Matrix (Fin 35) (Fin 35) ℝ) (R : Matrix (Fin m) (Fin m) ℝ)
      (f f1 f2 : Elastic.Sys Unit) (xb : Fin 35 → ℝ) (yb : Fin m → ℝ) (A C) (z : Fin 35 → ℝ) (o : V3)
      (hy : d.y = ⟨m, y⟩) (hQ : processCov a d = ⟨35, 35, Q⟩) (hR : measuredCov a d = some ⟨m, m, R⟩) (hf : Robot a d.n f)
      (h1 : f.stateDynamics x (predictionInput prev d) () = .ok (⟨35, xb⟩, f1, ())) (h2 : f1.measureDynamics ⟨35, xb⟩ d.u (k + 1) () = .ok (⟨m, yb⟩, f2, ()))
      (hA : StateJacobian f x (predictionInput prev d) xb A) (hC : MeasureJacobian f1 ⟨35, xb⟩ d.u (k + 1) yb C)
      (hz : z = xb + gain C R (predCov A Q P) *ᵥ (y - yb))
      (ho : NormedSpace.exp (hat o) = NormedSpace.exp (hat (seg 3 z 3))) (hn : nrm o ≤ 3 / 2 * Real.pi)
      (e1 : q.estimate = ⟨35, limited z o⟩) (e2 : w.prediction = true → q.prediction = ⟨35, xb⟩) (e3 : q.innovation = ⟨35, gain C R (predCov A Q P) *ᵥ (y - yb)⟩)
      (e4 : w.premea = true → q.predicted = ⟨m, yb⟩)
      (e5 : w.simumea = true → ∃ f3 f4, Robot a d.n f3 ∧ f3.measureDynamics q.estimate d.u (k + 1) () = .ok (q.simulated, f4, ()))
      (h : ModelRun a w (k + 1) q.estimate (posterior C R (predCov A Q P)) (some d) l r) : ModelRun a w k x P prev (d :: l) (q :: r)

end StateObs.Offline
