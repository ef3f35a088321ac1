import Verif.Imu.Vec
import Verif.Sensor.Model
import Verif.Kalman.LLT
import Verif.Rot.Model
/-!
# The dynamical system of a robot on elastic contacts

src/imu-elastic-local-frame-dynamical-system.cpp. A frame attached to the robot moves a little because of the flexibility of the contacts (or of
the ropes the robot hangs on); the state is the motion of this frame, the wrenches at two contacts, the forces that are not modelled, the bias of the
centre of mass and the drift of the position.

The members of `op_` that are always written before they are read are local variables here. `setInputSize` (lines 1276-1279), which nothing calls, is
not modelled: `inputSize_` is `48 + 12 * nbContacts_`. The vectors `fc_` and `tc_` of size six are pairs of vectors; reading or writing a third one
fails the assertion of `segment`.
-/

namespace StateObs.Elastic
open StateObs Matrix Rot Kine Imu Sensor

/-- `struct state`, imu-elastic-local-frame-dynamical-system.hpp 58-70. -/
abbrev iPos := 0
abbrev iOri := 3
abbrev iLinVel := 6
abbrev iAngVel := 9
abbrev iFc := 12
abbrev iUnmodeled := 24
abbrev iBias := 30
abbrev iDrift := 32

/-- `hrp2::m`, hrp2.hpp 36. -/
noncomputable def hrp2m : ℝ := 56.8

/-- The input about one contact, imu-elastic-local-frame-dynamical-system.cpp 844-849. -/
structure ContactIn where
  pos : V3
  ori : V3
  vel : V3
  angVel : V3

/-- The input vector, `struct input`, imu-elastic-local-frame-dynamical-system.hpp 37-56. -/
structure Input where
  com : V3
  comd : V3
  comdd : V3
  inertia : M3
  sigma : V3
  inertiad : M3
  sigmad : V3
  posIMU : V3
  oriIMU : V3
  velIMU : V3
  angVelIMU : V3
  accIMU : V3
  addForce : V3
  addMoment : V3
  contacts : List ContactIn

/-- `buildInertiaTensor`, imu-elastic-local-frame-dynamical-system.cpp 15-28. -/
def buildInertiaTensor (v : Fin 6 → ℝ) : M3 := !![v 0, v 3, v 4; v 3, v 1, v 5; v 4, v 5, v 2]

/-- Reading the input vector of a system with `n` contacts, imu-elastic-local-frame-dynamical-system.cpp 836-866 and 950-990. -/
def readInput (n : ℕ) (u : Fin (48 + 12 * n) → ℝ) : Input where
  com := seg 3 u 0
  comd := seg 3 u 3
  comdd := seg 3 u 6
  inertia := buildInertiaTensor (seg 6 u 9)
  sigma := seg 3 u 15
  inertiad := buildInertiaTensor (seg 6 u 18)
  sigmad := seg 3 u 24
  posIMU := seg 3 u 27
  oriIMU := seg 3 u 30
  velIMU := seg 3 u 33
  angVelIMU := seg 3 u 36
  accIMU := seg 3 u 39
  addForce := seg 3 u 42
  addMoment := seg 3 u 45
  contacts := (List.range n).map fun i => ⟨seg 3 u (48 + 12 * i), seg 3 u (48 + 12 * i + 3), seg 3 u (48 + 12 * i + 6), seg 3 u (48 + 12 * i + 9)⟩

/-- A process noise (any `NoiseBase`). -/
abbrev DNoise (G : Type) := G → DVec → Res (DVec × G)

/-- The members. `rot` are the four rotations with their vectors that `computeRotation_` stores, `efforts` says whether `op_.efforts` has been
filled, `opXk1` is `op_.xk1`. `opK` is `op_.k_fory`, uninitialised (here zero) until `xkY` is set, and not used before. -/
structure Sys (G : Type) where
  dt : ℝ
  mass : ℝ
  massInv : ℝ
  nb : ℕ
  model : ℕ
  Kfe : M3
  Kte : M3
  Kfv : M3
  Ktv : M3
  KfeRopes : M3
  KteRopes : M3
  KfvRopes : M3
  KtvRopes : M3
  pe : V3
  measSize : ℕ
  withForce : Bool
  withBias : Bool
  withAbs : Bool
  withUnmodeled : Bool
  noise : Option (DNoise G)
  sensor : Sensor Bool G
  dx : DVec
  fc : Fin 2 → V3
  tc : Fin 2 → V3
  xk : DVec
  uk : DVec
  xk1 : DVec
  xkY : DVec
  ukY : DVec
  yk : DVec
  opK : Int
  opXk1 : DVec
  efforts : Bool
  rot : Fin 4 → V3 × M3

/-- The default-constructed vector. -/
def noVec : DVec := ⟨0, 0⟩

/-- The constructor, imu-elastic-local-frame-dynamical-system.cpp 76-111, and the one of `Optimization`, hpp 517-522. -/
noncomputable def ctor {G : Type} (dt : ℝ) : Sys G where
  dt := dt
  mass := hrp2m
  massInv := 1 / hrp2m
  nb := 0
  model := 0
  Kfe := (40000 : ℝ) • (1 : M3)
  Kte := (600 : ℝ) • (1 : M3)
  Kfv := (600 : ℝ) • (1 : M3)
  Ktv := (60 : ℝ) • (1 : M3)
  KfeRopes := (40000 : ℝ) • (1 : M3)
  KteRopes := (600 : ℝ) • (1 : M3)
  KfvRopes := (600 : ℝ) • (1 : M3)
  KtvRopes := (60 : ℝ) • (1 : M3)
  pe := 0
  measSize := 6
  withForce := false
  withBias := false
  withAbs := false
  withUnmodeled := false
  noise := none
  sensor := Sensor.setMatrixMode (Sensor.ctor false) true
  dx := noVec
  fc := 0
  tc := 0
  xk := noVec
  uk := noVec
  xk1 := noVec
  xkY := noVec
  ukY := noVec
  yk := noVec
  opK := 0
  opXk1 := noVec
  efforts := false
  rot := fun _ => (0, 1)

variable {G : Type}

open Classical in
/-- `computeRotation_`, imu-elastic-local-frame-dynamical-system.cpp 915-926, with the slots of hpp 524-540. -/
noncomputable def Sys.rotation (s : Sys G) (x : V3) (i : ℕ) : M3 × Sys G :=
  let j : Fin 4 := if i = 0 then 0 else if i = 1 then 1 else if i = 2 then 2 else 3
  if (s.rot j).1 ≠ x then
    let R := (rotationVectorToAngleAxis x).toMat
    (R, { s with rot := Function.update s.rot j (x, R) })
  else ((s.rot j).2, s)

/-! ## Contact forces -/

/-- One contact of `computeElastContactForcesAndMoments`, imu-elastic-local-frame-dynamical-system.cpp 300-330. -/
def Sys.contactForce (s : Sys G) (c : ContactIn) (Rci : M3) (p v θ : V3) (R : M3) (ω : V3) : V3 × V3 :=
  let Rpc := R *ᵥ c.pos
  let f := -(s.Kfe *ᵥ (Rciᵀ *ᵥ (Rᵀ *ᵥ (p + Rpc - c.pos))))
  let f := f + -(s.Kfv *ᵥ (Rciᵀ *ᵥ (Rᵀ *ᵥ (skewSymmetric ω *ᵥ Rpc + v + R *ᵥ c.vel))))
  let t := -(s.Kte *ᵥ (Rciᵀ *ᵥ (Rᵀ *ᵥ θ)))
  let t := t + -(s.Ktv *ᵥ (Rciᵀ *ᵥ (Rᵀ *ᵥ ω)))
  (f, t)

/-- The loop of `computeElastContactForcesAndMoments`, imu-elastic-local-frame-dynamical-system.cpp 298-331, from contact `i` on. -/
noncomputable def elasticLoop (p v θ : V3) (R : M3) (ω : V3) : List ContactIn → ℕ → Sys G → Res (Sys G)
  | [], _, s => .ok s
  | c :: cs, i, s =>
    let (Rci, s) := s.rotation c.ori (i + 2)
    let (f, t) := s.contactForce c Rci p v θ R ω
    if h : i < 2 then elasticLoop p v θ R ω cs (i + 1) { s with fc := Function.update s.fc ⟨i, h⟩ f, tc := Function.update s.tc ⟨i, h⟩ t }
    else .assertFail

/-- One rope of `computeElastPendulumForcesAndMoments`, imu-elastic-local-frame-dynamical-system.cpp 358-366. Dividing by a null length gives
numbers without meaning. The moment of the force (line 368) is not used. -/
noncomputable def Sys.ropeForce (s : Sys G) (c : ContactIn) (p : V3) (R : M3) : Res V3 :=
  let q := p + R *ᵥ c.pos
  let rope := nrm (c.pos - s.pe)
  let modified := nrm (q - s.pe)
  if modified = 0 then .ub else
    let unit := (1 / modified) • (q - s.pe)
    .ok (-((modified - rope) • (s.KfeRopes *ᵥ unit)))

/-- The loop of `computeElastPendulumForcesAndMoments`, imu-elastic-local-frame-dynamical-system.cpp 356-380: the sum of the forces. -/
noncomputable def Sys.ropeForces (s : Sys G) (p : V3) (R : M3) : List ContactIn → V3 → Res V3
  | [], f => .ok f
  | c :: cs, f => do
    let fi ← s.ropeForce c p R
    s.ropeForces p R cs (f + fi)

/-- `computeElastPendulumForcesAndMoments`, imu-elastic-local-frame-dynamical-system.cpp 334-385. -/
noncomputable def Sys.pendulum (s : Sys G) (cs : List ContactIn) (p v θ : V3) (R : M3) (ω : V3) : Res (Sys G) := do
  let f ← s.ropeForces p R cs 0
  let t : V3 := ![0, 0, -(s.KteRopes 2 2 * θ 2)] + -(s.KtvRopes *ᵥ ω)
  .ok { s with fc := ![f + -(s.KfvRopes *ᵥ v), 0], tc := ![t, 0] }

/-- `computeForcesAndMoments`, imu-elastic-local-frame-dynamical-system.cpp 387-413, writing `fc_` and `tc_`. -/
noncomputable def Sys.forces (s : Sys G) (cs : List ContactIn) (p v θ : V3) (R : M3) (ω : V3) : Res (Sys G) :=
  if s.model = 1 then elasticLoop p v θ R ω cs 0 { s with fc := 0, tc := 0 }
  else if s.model = 2 then s.pendulum cs p v θ R ω
  else .exn

/-- The loop of `computeContactWrench`, imu-elastic-local-frame-dynamical-system.cpp 462-469, from contact `i` on. -/
noncomputable def wrenchLoop (R : M3) (p : V3) (fc tc : Fin 2 → V3) : List ContactIn → ℕ → V3 → V3 → Res (V3 × V3)
  | [], _, f, t => .ok (f, t)
  | c :: cs, i, f, t =>
    let Rci := (rotationVectorToAngleAxis c.ori).toMat
    let q := R *ᵥ c.pos + p
    if h : i < 2 then
      let fi := R *ᵥ (Rci *ᵥ fc ⟨i, h⟩)
      wrenchLoop R p fc tc cs (i + 1) (f + fi) (t + (R *ᵥ (Rci *ᵥ tc ⟨i, h⟩) + q ⨯₃ fi))
    else .assertFail

/-- `computeContactWrench`, imu-elastic-local-frame-dynamical-system.cpp 442-476. -/
noncomputable def contactWrench (model : ℕ) (R : M3) (p : V3) (cs : List ContactIn) (fc tc : Fin 2 → V3) (fm tm addForce addMoment : V3) : Res (V3 × V3) :=
  let f := R *ᵥ addForce
  let t := R *ᵥ addMoment + p ⨯₃ f
  let f := f + fm
  let t := t + tm
  if model = 1 then wrenchLoop R p fc tc cs 0 f t
  else .ok (f + fc 0, t + tc 0)

/-! ## Accelerations -/

/-- Solving with the Cholesky factor of a matrix, then with its transpose: imu-elastic-local-frame-dynamical-system.cpp 596-601. When the factorisation
fails, which the code does not check, the result is made of meaningless numbers. -/
noncomputable def lltSolve (S : M3) (v : V3) : Res V3 :=
  match chol 3 S with
  | none => .ub
  | some L => .ok (Lᵀ⁻¹ *ᵥ (L⁻¹ *ᵥ v))

/-- The matrix `orinertia`, imu-elastic-local-frame-dynamical-system.cpp 595. -/
noncomputable def comInertia (mass : ℝ) (i : Input) (R : M3) : M3 := R * i.inertia * Rᵀ + mass • skewSymmetric2 (R *ᵥ i.com)

/-- `computeAccelerations` once the wrench `f`, `t` is known, imu-elastic-local-frame-dynamical-system.cpp 565-607. The inverse of a null mass has no meaning. -/
noncomputable def accelerations (mass massInv : ℝ) (i : Input) (R : M3) (p ω f t : V3) : Res (V3 × V3) :=
  if mass = 0 then .ub else do
    let wx2Rc := skewSymmetric2 ω *ᵥ (R *ᵥ i.com)
    let _2wxRv := (2 : ℝ) • (skewSymmetric ω *ᵥ (R *ᵥ i.comd))
    let Ra := R *ᵥ i.comdd
    let Rc := R *ᵥ i.com
    let Rcp := Rc + p
    let RIRT := R * i.inertia * Rᵀ
    let vf := massInv • f - Ra - _2wxRv - wx2Rc - gravity
    let vt := t - skewSymmetric ω *ᵥ (RIRT *ᵥ ω)
    let vt := vt - R *ᵥ (i.inertiad *ᵥ (Rᵀ *ᵥ ω) + i.sigmad)
    let vt := vt - skewSymmetric ω *ᵥ (R *ᵥ i.sigma)
    let vt := vt - mass • (skewSymmetric p *ᵥ (wx2Rc + _2wxRv + Ra))
    let vt := vt - mass • (skewSymmetric Rcp *ᵥ gravity)
    let α ← lltSolve (comInertia mass i R) (vt - mass • (Rcp ⨯₃ vf))
    .ok (vf + skewSymmetric Rc *ᵥ α, α)

/-- `computeAccelerations`, imu-elastic-local-frame-dynamical-system.cpp 538-608, with the contact forces `fc_`, `tc_`. -/
noncomputable def Sys.accel (s : Sys G) (i : Input) (R : M3) (p ω fm tm : V3) : Res (V3 × V3) := do
  let (f, t) ← contactWrench s.model R p i.contacts s.fc s.tc fm tm i.addForce i.addMoment
  accelerations s.mass s.massInv i R p ω f t

/-- `op_.positionCom -= op_.positionComBias` if there is a bias, imu-elastic-local-frame-dynamical-system.cpp 831-832 and 853. -/
def Sys.biased (s : Sys G) (x : Fin 35 → ℝ) (i : Input) : Input :=
  if s.withBias then { i with com := i.com - ![x 30, x 31, 0] } else i

/-- Reading the wrenches of the state, imu-elastic-local-frame-dynamical-system.cpp 829 and 859-863. -/
def Sys.readEfforts (s : Sys G) (x : Fin 35 → ℝ) : Sys G :=
  { s with fc := fun i => seg 3 x (iFc + 6 * i.val), tc := fun i => seg 3 x (iFc + 6 * i.val + 3), efforts := true }

/-- `computeAccelerations(x, u)`, imu-elastic-local-frame-dynamical-system.cpp 478-536. -/
noncomputable def Sys.computeAccelerations (s : Sys G) (x u : DVec) : Res ((V3 × V3) × Sys G) :=
  if hx : x.size = 35 then
    if hu : u.size = 48 + 12 * s.nb then do
      let x : Fin 35 → ℝ := x.val ∘ Fin.cast hx.symm
      let i := s.biased x (readInput s.nb (u.val ∘ Fin.cast hu.symm))
      let (R, s) := s.rotation (seg 3 x iOri) 0
      let s := s.readEfforts x
      let a ← s.accel i R (seg 3 x iPos) (seg 3 x iAngVel) (seg 3 x iUnmodeled) (seg 3 x (iUnmodeled + 3))
      .ok (a, s)
    else .assertFail
  else .assertFail

/-! ## State dynamics -/

/-- The factor of the forces that are not modelled, imu-elastic-local-frame-dynamical-system.cpp 79. -/
noncomputable def stabilityFactor : ℝ := 0.9999

/-- `iterateDynamicsEuler`, imu-elastic-local-frame-dynamical-system.cpp 610-680: position, orientation vector, linear and angular velocity after `dt`. -/
noncomputable def Sys.iterateEuler (s : Sys G) (i : Input) (p θ v ω fm tm : V3) (dt : ℝ) : Res ((V3 × V3 × V3 × V3) × Sys G) := do
  let (R, s) := s.rotation θ 0
  let (a, α) ← s.accel i R p ω fm tm
  let (p, v) := integratePosVel p v a dt
  let (R, ω) := integrateMatVel R ω α dt
  let aa := AngleAxis.ofMat R
  let θ := aa.angle • aa.axis
  let s ← s.forces i.contacts p v θ R ω
  .ok ((p, θ, v, ω), s)

/-- The new state vector, imu-elastic-local-frame-dynamical-system.cpp 878-907. -/
noncomputable def nextVector (withUnmodeled : Bool) (x : Fin 35 → ℝ) (p θ v ω : V3) (fc tc : Fin 2 → V3) : Fin 35 → ℝ :=
  let x1 := setSeg (setSeg (setSeg (setSeg x iPos p) iOri θ) iLinVel v) iAngVel ω
  let x1 := setSeg (setSeg (setSeg (setSeg x1 iFc (fc 0)) (iFc + 3) (tc 0)) (iFc + 6) (fc 1)) (iFc + 9) (tc 1)
  if withUnmodeled then
    setSeg (setSeg x1 iUnmodeled (stabilityFactor • seg 3 x iUnmodeled)) (iUnmodeled + 3) (stabilityFactor • seg 3 x (iUnmodeled + 3))
  else setSeg x1 iUnmodeled (0 : Fin 6 → ℝ)

/-- `stateDynamics`, imu-elastic-local-frame-dynamical-system.cpp 815-913. -/
noncomputable def Sys.stateDynamics (s : Sys G) (x u : DVec) (g : G) : Res (DVec × Sys G × G) :=
  if hx : x.size = 35 then
    if hu : u.size = 48 + 12 * s.nb then do
      let s := { s with xk := x, uk := u }
      let x : Fin 35 → ℝ := x.val ∘ Fin.cast hx.symm
      let i := s.biased x (readInput s.nb (u.val ∘ Fin.cast hu.symm))
      let s := s.readEfforts x
      let ((p, θ, v, ω), s) ← s.iterateEuler i (seg 3 x iPos) (seg 3 x iOri) (seg 3 x iLinVel) (seg 3 x iAngVel) (seg 3 x iUnmodeled)
        (seg 3 x (iUnmodeled + 3)) s.dt
      let s := { s with xk1 := ⟨35, nextVector s.withUnmodeled x p θ v ω s.fc s.tc⟩ }
      match s.noise with
      | some n => do
        let (y, g) ← n g s.opXk1
        .ok (y, s, g)
      | none => .ok (s.xk1, s, g)
    else .assertFail
  else .assertFail

/-! ## Measurements -/

/-- The acceleration of the sensor, imu-elastic-local-frame-dynamical-system.cpp 1000-1004. -/
def imuAcceleration (R : M3) (ω a α : V3) (i : Input) : V3 :=
  (2 : ℝ) • (skewSymmetric ω *ᵥ (R *ᵥ i.velIMU)) + (a + R *ᵥ i.accIMU) + (skewSymmetric α + skewSymmetric ω * skewSymmetric ω) *ᵥ (R *ᵥ i.posIMU)

/-- The coefficients of a matrix, by columns. -/
def coeffs (R : M3) : List ℝ := [R 0 0, R 1 0, R 2 0, R 0 1, R 1 1, R 2 1, R 0 2, R 1 2, R 2 2]

/-- The wrenches copied into the sensor's state, imu-elastic-local-frame-dynamical-system.cpp 1018-1029, from contact `i` on, `n` of them. -/
def effortList (x : Fin 35 → ℝ) : ℕ → ℕ → Res (List ℝ)
  | _, 0 => .ok []
  | i, n + 1 =>
    if iFc + 6 * i + 6 ≤ 35 then do
      let l ← effortList x (i + 1) n
      .ok (toL (seg 3 x (iFc + 6 * i)) ++ toL (seg 3 x (iFc + 6 * i + 3)) ++ l)
    else .assertFail

/-- `op_.rdrift`, imu-elastic-local-frame-dynamical-system.cpp 1033-1035. -/
noncomputable def driftRotation (a : ℝ) : M3 := !![Real.cos a, -Real.sin a, 0; Real.sin a, Real.cos a, 0; 0, 0, 1]

/-- The position and orientation with drift, imu-elastic-local-frame-dynamical-system.cpp 1031-1046. -/
noncomputable def absolutePose (x : Fin 35 → ℝ) (R : M3) : List ℝ :=
  let d : V3 := seg 3 x iDrift
  let Rd := driftRotation (d 2)
  let aa := AngleAxis.ofMat (Rd * R)
  toL (![d 0, d 1, 0] + Rd *ᵥ seg 3 x iPos) ++ toL (aa.angle • aa.axis)

/-- A list as a vector. -/
def ofList (l : List ℝ) : DVec := ⟨l.length, fun i => l.get i⟩

/-- The vector given to the sensor, imu-elastic-local-frame-dynamical-system.cpp 1011-1046. Writing after its end fails an assertion; a part that is
not written is uninitialised. -/
noncomputable def Sys.sensorState (s : Sys G) (x : Fin 35 → ℝ) (R rimu : M3) (acc omega : V3) : Res (List ℝ) := do
  let e ← if s.withForce then effortList x 0 s.nb else .ok []
  let l := coeffs rimu ++ toL acc ++ toL omega ++ e ++ (if s.withAbs then absolutePose x R else [])
  Res.assert (decide (l.length ≤ Sensor.getStateSize accGyro s.sensor))
  if l.length = Sensor.getStateSize accGyro s.sensor then .ok l else .ub

/-- `measureDynamics`, imu-elastic-local-frame-dynamical-system.cpp 928-1054. `op_.efforts[i] = …` (line 942) fails an assertion when nothing has
filled that array. -/
noncomputable def Sys.measureDynamics (s : Sys G) (x u : DVec) (k : Int) (g : G) : Res (DVec × Sys G × G) :=
  if hx : x.size = 35 then
    if hu : u.size = 48 + 12 * s.nb then do
      let s := { s with xkY := x, ukY := u, opK := k }
      let x : Fin 35 → ℝ := x.val ∘ Fin.cast hx.symm
      Res.assert s.efforts
      let i := s.biased x (readInput s.nb (u.val ∘ Fin.cast hu.symm))
      let (R, s) := s.rotation (seg 3 x iOri) 0
      let (Rc, s) := s.rotation i.oriIMU 1
      let s := s.readEfforts x
      let (a, α) ← s.accel i R (seg 3 x iPos) (seg 3 x iAngVel) (seg 3 x iUnmodeled) (seg 3 x (iUnmodeled + 3))
      let l ← s.sensorState x R (R * Rc) (imuAcceleration R (seg 3 x iAngVel) a α i) (seg 3 x iAngVel + R *ᵥ i.angVelIMU)
      let sensor ← Sensor.setState accGyro s.sensor l k
      let (y, sensor, g) ← Sensor.getMeasurements accGyro sensor g true
      let s := { s with sensor := sensor, yk := ofList y }
      .ok (s.yk, s, g)
    else .assertFail
  else .assertFail

/-! ## Rates of the momenta -/

/-- `getMomentaDotFromForces`, imu-elastic-local-frame-dynamical-system.cpp 134-181. -/
noncomputable def Sys.momentaDotFromForces (s : Sys G) (x u : DVec) : Res ((V3 × V3) × Sys G) :=
  if hx : x.size = 35 then
    if hu : u.size = 48 + 12 * s.nb then do
      let x : Fin 35 → ℝ := x.val ∘ Fin.cast hx.symm
      let i := s.biased x (readInput s.nb (u.val ∘ Fin.cast hu.symm))
      let (R, s) := s.rotation (seg 3 x iOri) 0
      let s := s.readEfforts x
      let (f, t) ← contactWrench s.model R (seg 3 x iPos) i.contacts s.fc s.tc (seg 3 x iUnmodeled) (seg 3 x (iUnmodeled + 3)) i.addForce i.addMoment
      .ok ((f - hrp2m • gravity, t - skewSymmetric (R *ᵥ i.com + seg 3 x iPos) *ᵥ (hrp2m • gravity)), s)
    else .assertFail
  else .assertFail

/-- The sums of `getMomentaDotFromKinematics`, imu-elastic-local-frame-dynamical-system.cpp 240-251, with the accelerations `a`, `α`. -/
noncomputable def momentaDot (i : Input) (R : M3) (p ω a α : V3) : V3 × V3 :=
  let l := hrp2m • (skewSymmetric α *ᵥ (R *ᵥ i.com) + skewSymmetric2 ω *ᵥ (R *ᵥ i.com) + (2 : ℝ) • (skewSymmetric ω *ᵥ (R *ᵥ i.comd)) + R *ᵥ i.comdd + a)
  (l, skewSymmetric ω *ᵥ (R *ᵥ (i.inertia *ᵥ (Rᵀ *ᵥ ω))) + R *ᵥ (i.inertiad *ᵥ (Rᵀ *ᵥ ω)) + R *ᵥ (i.inertia *ᵥ (Rᵀ *ᵥ α)) +
    skewSymmetric ω *ᵥ (R *ᵥ i.sigma) + R *ᵥ i.sigmad + skewSymmetric p *ᵥ l + hrp2m • (skewSymmetric (R *ᵥ i.com) *ᵥ a))

/-- `getMomentaDotFromKinematics`, imu-elastic-local-frame-dynamical-system.cpp 183-254. The accelerations are computed with the linear velocity in the place of
the angular one (line 237). -/
noncomputable def Sys.momentaDotFromKinematics (s : Sys G) (x u : DVec) : Res ((V3 × V3) × Sys G) :=
  if hx : x.size = 35 then
    if hu : u.size = 48 + 12 * s.nb then do
      let x : Fin 35 → ℝ := x.val ∘ Fin.cast hx.symm
      let i := s.biased x (readInput s.nb (u.val ∘ Fin.cast hu.symm))
      let (R, s) := s.rotation (seg 3 x iOri) 0
      let s := s.readEfforts x
      let (a, α) ← s.accel i R (seg 3 x iPos) (seg 3 x iLinVel) (seg 3 x iUnmodeled) (seg 3 x (iUnmodeled + 3))
      .ok (momentaDot i R (seg 3 x iPos) (seg 3 x iAngVel) a α, s)
    else .assertFail
  else .assertFail

/-! ## Forces -/

/-- `getForcesAndMoments()`, imu-elastic-local-frame-dynamical-system.cpp 256-269. -/
def Sys.getForces (s : Sys G) : Res (List (V3 × V3)) :=
  if s.nb ≤ 2 then .ok ((List.range s.nb).map fun i => if h : i < 2 then (s.fc ⟨i, h⟩, s.tc ⟨i, h⟩) else 0) else .assertFail

/-- `getForcesAndMoments(x, u)` and `computeForcesAndMoments(x, u)`, imu-elastic-local-frame-dynamical-system.cpp 271-275 and 415-440. The code does not check the sizes: with
smaller vectors `segment` fails an assertion; larger ones, which it accepts, are not modelled. -/
noncomputable def Sys.forcesAndMoments (s : Sys G) (x u : DVec) : Res (List (V3 × V3) × Sys G) :=
  if hx : x.size = 35 then
    if hu : u.size = 48 + 12 * s.nb then do
      let x : Fin 35 → ℝ := x.val ∘ Fin.cast hx.symm
      let cs := (readInput s.nb (u.val ∘ Fin.cast hu.symm)).contacts
      let (R, s) := s.rotation (seg 3 x iOri) 0
      let s ← s.forces cs (seg 3 x iPos) (seg 3 x iLinVel) (seg 3 x iOri) R (seg 3 x iAngVel)
      let l ← s.getForces
      .ok (l, s)
    else .assertFail
  else .assertFail

/-! ## Jacobians -/

/-- Whether a column of the Jacobians is computed by finite differences, imu-elastic-local-frame-dynamical-system.cpp 1067-1134 and 1158-1229. -/
def Sys.active (s : Sys G) (i : ℕ) : Bool :=
  if i < 24 then true else if i < 30 then s.withUnmodeled else if i < 32 then s.withBias else s.withAbs

/-- One column of `stateDynamicsJacobian`, imu-elastic-local-frame-dynamical-system.cpp 1160-1167, for the state `x` with image `y`. -/
noncomputable def Sys.fdState (s : Sys G) (x : Fin 35 → ℝ) (y : DVec) (i : Fin 35) (g : G) : Res ((Fin 35 → ℝ) × Sys G × G) :=
  if h : i.val < s.dx.size then do
    let d := s.dx.val ⟨i, h⟩
    let (z, s, g) ← s.stateDynamics ⟨35, Function.update x i (x i + d)⟩ s.uk g
    if hz : z.size = 35 ∧ y.size = 35 then
      if d = 0 then .ub
      else .ok (fun j => (z.val (Fin.cast hz.1.symm j) - y.val (Fin.cast hz.2.symm j)) / d, s, g)
    else .assertFail
  else .assertFail

/-- One column of `stateDynamicsJacobian`: a finite difference, or the column of the identity matrix. -/
noncomputable def Sys.stateColumn (s : Sys G) (x : Fin 35 → ℝ) (y : DVec) (i : Fin 35) (g : G) : Res ((Fin 35 → ℝ) × Sys G × G) :=
  if s.active i then s.fdState x y i g else .ok (Pi.single i 1, s, g)

/-- The columns `l` of `stateDynamicsJacobian`. -/
noncomputable def Sys.stateColumns (x : Fin 35 → ℝ) (y : DVec) : (l : List (Fin 35)) → Sys G → G → Res (List (Fin 35 → ℝ) × Sys G × G)
  | [], s, g => .ok ([], s, g)
  | i :: l, s, g => do
    let (c, s, g) ← s.stateColumn x y i g
    let (cs, s, g) ← Sys.stateColumns x y l s g
    .ok (c :: cs, s, g)

/-- `stateDynamicsJacobian`, imu-elastic-local-frame-dynamical-system.cpp 1146-1239. -/
noncomputable def Sys.stateDynamicsJacobian (s : Sys G) (g : G) : Res (List (Fin 35 → ℝ) × Sys G × G) :=
  if h : s.xk.size = 35 then do
    let xk := s.xk
    let s := { s with opXk1 := s.xk1 }
    let (J, s, g) ← Sys.stateColumns (xk.val ∘ Fin.cast h.symm) s.opXk1 (List.finRange 35) s g
    .ok (J, { s with xk := xk, xk1 := s.opXk1 }, g)
  else .assertFail

/-- One column of `measureDynamicsJacobian`, imu-elastic-local-frame-dynamical-system.cpp 1069-1076, for the state `x` with measurement `y`. The
column has the size `getMeasurementSize()`. -/
noncomputable def Sys.fdMeasure (s : Sys G) (x : Fin 35 → ℝ) (y : DVec) (i : Fin 35) (g : G) : Res ((Fin s.measSize → ℝ) × Sys G × G) :=
  if h : i.val < s.dx.size then do
    let d := s.dx.val ⟨i, h⟩
    let (z, s', g) ← s.measureDynamics ⟨35, Function.update x i (x i + d)⟩ s.ukY s.opK g
    if hz : z.size = s.measSize ∧ y.size = s.measSize then
      if d = 0 then .ub
      else .ok (fun j => (z.val (Fin.cast hz.1.symm j) - y.val (Fin.cast hz.2.symm j)) / d, s', g)
    else .assertFail
  else .assertFail

/-- The columns of `measureDynamicsJacobian`, as vectors of any size. -/
noncomputable def Sys.measureColumns (x : Fin 35 → ℝ) (y : DVec) : (l : List (Fin 35)) → Sys G → G → Res (List DVec × Sys G × G)
  | [], s, g => .ok ([], s, g)
  | i :: l, s, g =>
    if s.active i then do
      let (c, s', g) ← s.fdMeasure x y i g
      let (cs, s', g) ← Sys.measureColumns x y l s' g
      .ok (⟨s.measSize, c⟩ :: cs, s', g)
    else do
      let (cs, s', g) ← Sys.measureColumns x y l s g
      .ok (⟨s.measSize, 0⟩ :: cs, s', g)

/-- `measureDynamicsJacobian`, imu-elastic-local-frame-dynamical-system.cpp 1056-1144. -/
noncomputable def Sys.measureDynamicsJacobian (s : Sys G) (g : G) : Res (List DVec × Sys G × G) :=
  if h : s.xkY.size = 35 then do
    let xk := s.xkY
    let yk := s.yk
    let (J, s, g) ← Sys.measureColumns (xk.val ∘ Fin.cast h.symm) yk (List.finRange 35) s g
    .ok (J, { s with xkY := xk, yk := yk }, g)
  else .assertFail

/-! ## Parameters -/

/-- `updateMeasurementSize_`, imu-elastic-local-frame-dynamical-system.cpp 1304-1319. -/
noncomputable def Sys.updateMeasurementSize (s : Sys G) : Sys G :=
  let n := 6 + (if s.withForce then s.nb * 6 else 0) + (if s.withAbs then 6 else 0)
  { s with measSize := n, sensor := Sensor.concatenateWithInput accGyro s.sensor (n - 6) }

/-- The public methods. -/
inductive Op (G : Type) where
  | stateDynamics (x u : DVec)
  | measureDynamics (x u : DVec) (k : Int)
  | stateDynamicsJacobian
  | measureDynamicsJacobian
  | computeAccelerations (x u : DVec)
  | momentaDotFromForces (x u : DVec)
  | momentaDotFromKinematics (x u : DVec)
  | forcesAndMoments (x u : DVec)
  | setFDstep (dx : DVec)
  | setProcessNoise (n : Option (DNoise G))
  | setMeasurementNoise (n : Option (Noise G))
  | setSamplingPeriod (dt : ℝ)
  | setContactsNumber (n : ℕ)
  | setContactModel (n : ℕ)
  | setWithForceMeasurements (b : Bool)
  | setWithComBias (b : Bool)
  | setWithAbsolutePosition (b : Bool)
  | setWithUnmodeledForces (b : Bool)
  | setRobotMass (m : ℝ)
  | setPe (p : V3)
  | setKfe (K : M3)
  | setKfv (K : M3)
  | setKte (K : M3)
  | setKtv (K : M3)
  | setKfeRopes (K : M3)
  | setKfvRopes (K : M3)
  | setKteRopes (K : M3)
  | setKtvRopes (K : M3)

/-- The effect of a call. Setters: imu-elastic-local-frame-dynamical-system.cpp 118-132, 1241-1264, 1296-1302, 1321-1341, 1358-1396, 1418-1421. -/
noncomputable def exec (s : Sys G) (g : G) : Op G → Res (Sys G × G)
  | .stateDynamics x u => do
    let (_, s, g) ← s.stateDynamics x u g
    .ok (s, g)
  | .measureDynamics x u k => do
    let (_, s, g) ← s.measureDynamics x u k g
    .ok (s, g)
  | .stateDynamicsJacobian => do
    let (_, s, g) ← s.stateDynamicsJacobian g
    .ok (s, g)
  | .measureDynamicsJacobian => do
    let (_, s, g) ← s.measureDynamicsJacobian g
    .ok (s, g)
  | .computeAccelerations x u => do
    let (_, s) ← s.computeAccelerations x u
    .ok (s, g)
  | .momentaDotFromForces x u => do
    let (_, s) ← s.momentaDotFromForces x u
    .ok (s, g)
  | .momentaDotFromKinematics x u => do
    let (_, s) ← s.momentaDotFromKinematics x u
    .ok (s, g)
  | .forcesAndMoments x u => do
    let (_, s) ← s.forcesAndMoments x u
    .ok (s, g)
  | .setFDstep dx => .ok ({ s with dx := dx }, g)
  | .setProcessNoise n => .ok ({ s with noise := n }, g)
  | .setMeasurementNoise n => .ok ({ s with sensor := Sensor.setNoise s.sensor n }, g)
  | .setSamplingPeriod dt => .ok ({ s with dt := dt }, g)
  | .setContactsNumber n => .ok ({ s with nb := n }.updateMeasurementSize, g)
  | .setContactModel n => .ok ({ s with model := n }, g)
  | .setWithForceMeasurements b => .ok ({ s with withForce := b }.updateMeasurementSize, g)
  | .setWithComBias b => .ok ({ s with withBias := b }, g)
  | .setWithAbsolutePosition b => .ok ({ s with withAbs := b }.updateMeasurementSize, g)
  | .setWithUnmodeledForces b => .ok ({ s with withUnmodeled := b }, g)
  | .setRobotMass m => .ok ({ s with mass := m, massInv := 1 / m }, g)
  | .setPe p => .ok ({ s with pe := p }, g)
  | .setKfe K => .ok ({ s with Kfe := K }, g)
  | .setKfv K => .ok ({ s with Kfv := K }, g)
  | .setKte K => .ok ({ s with Kte := K }, g)
  | .setKtv K => .ok ({ s with Ktv := K }, g)
  | .setKfeRopes K => .ok ({ s with KfeRopes := K }, g)
  | .setKfvRopes K => .ok ({ s with KfvRopes := K }, g)
  | .setKteRopes K => .ok ({ s with KteRopes := K }, g)
  | .setKtvRopes K => .ok ({ s with KtvRopes := K }, g)

/-- Calls on a new system. -/
noncomputable def run (dt : ℝ) (g : G) (ops : List (Op G)) : Res (Sys G × G) := ops.foldlM (fun p op => exec p.1 p.2 op) (ctor dt, g)

end StateObs.Elastic
