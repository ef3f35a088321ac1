import Verif.Elastic.Model
import Verif.OutcomeLaws
/-! # The robot on elastic contacts without its caches -/

namespace StateObs.Elastic
open StateObs Matrix Rot Kine Imu Sensor

variable {G : Type}

/-- The stored rotations are those of the stored vectors. -/
def RotOK (rt : Fin 4 → V3 × M3) : Prop := ∀ j, (rt j).2 = rotationVectorToRotationMatrix (rt j).1

theorem rv_zero : rotationVectorToRotationMatrix 0 = 1 := by
  unfold rotationVectorToRotationMatrix rotationVectorToAngleAxis
  rw [if_neg (by simp [epsilonAngle]; positivity)]
  ext i j
  fin_cases i <;> fin_cases j <;> simp [AngleAxis.toMat, ez]

theorem rotation_eq {s : Sys G} (h : RotOK s.rot) (x : V3) (i : ℕ) :
    ∃ rt, s.rotation x i = (rotationVectorToRotationMatrix x, { s with rot := rt }) ∧ RotOK rt := by
  unfold Sys.rotation
  simp only
  generalize (if i = 0 then (0 : Fin 4) else if i = 1 then 1 else if i = 2 then 2 else 3) = j
  split_ifs with hx
  · refine ⟨_, rfl, fun k => ?_⟩
    rw [Function.update_apply]
    split_ifs
    · rfl
    · exact h k
  · rw [not_not] at hx
    exact ⟨s.rot, by rw [h j, hx], h⟩

/-! ## Forces -/

/-- The forces without the caches. -/
noncomputable def elasticPure (s : Sys G) (p v θ : V3) (R : M3) (ω : V3) : List ContactIn → ℕ → (Fin 2 → V3) → (Fin 2 → V3) → Res ((Fin 2 → V3) × (Fin 2 → V3))
  | [], _, fc, tc => .ok (fc, tc)
  | c :: cs, i, fc, tc =>
    let w := s.contactForce c (rotationVectorToRotationMatrix c.ori) p v θ R ω
    if h : i < 2 then elasticPure s p v θ R ω cs (i + 1) (Function.update fc ⟨i, h⟩ w.1) (Function.update tc ⟨i, h⟩ w.2)
    else .assertFail

theorem elasticLoop_eq (p v θ : V3) (R : M3) (ω : V3) : ∀ (cs : List ContactIn) (i : ℕ) (s s0 : Sys G), RotOK s.rot →
    (∀ c Rci, s.contactForce c Rci p v θ R ω = s0.contactForce c Rci p v θ R ω) →
    ∃ rt, RotOK rt ∧ elasticLoop p v θ R ω cs i s = (elasticPure s0 p v θ R ω cs i s.fc s.tc).bind fun w => .ok { s with fc := w.1, tc := w.2, rot := rt }
  | [], _, s, _, h, _ => ⟨s.rot, h, rfl⟩
  | c :: cs, i, s, s0, h, hK => by
    obtain ⟨rt, e, hr⟩ := rotation_eq h c.ori (i + 2)
    unfold elasticLoop elasticPure
    simp only [e]
    by_cases hi : i < 2
    · simp only [dif_pos hi]
      have hc : (Sys.contactForce { s with rot := rt } c (rotationVectorToRotationMatrix c.ori) p v θ R ω) = s0.contactForce c (rotationVectorToRotationMatrix c.ori) p v θ R ω := hK _ _
      rw [hc]
      obtain ⟨rt', hr', e'⟩ := elasticLoop_eq p v θ R ω cs (i + 1) { s with
        rot := rt
        fc := Function.update s.fc ⟨i, hi⟩ (s0.contactForce c (rotationVectorToRotationMatrix c.ori) p v θ R ω).1
        tc := Function.update s.tc ⟨i, hi⟩ (s0.contactForce c (rotationVectorToRotationMatrix c.ori) p v θ R ω).2 } s0 hr hK
      exact ⟨rt', hr', e'⟩
    · simp only [dif_neg hi]
      exact ⟨rt, hr, rfl⟩

/-- `computeForcesAndMoments` without the caches. -/
noncomputable def Sys.forcesPure (s : Sys G) (cs : List ContactIn) (p v θ : V3) (R : M3) (ω : V3) : Res ((Fin 2 → V3) × (Fin 2 → V3)) :=
  if s.model = 1 then elasticPure s p v θ R ω cs 0 0 0
  else if s.model = 2 then do
    let f ← s.ropeForces p R cs 0
    .ok (![f + -(s.KfvRopes *ᵥ v), 0], ![![0, 0, -(s.KteRopes 2 2 * θ 2)] + -(s.KtvRopes *ᵥ ω), 0])
  else .exn

/-- Two systems with the same parameters. -/
structure Same (s s0 : Sys G) : Prop where
  dt : s.dt = s0.dt
  mass : s.mass = s0.mass
  massInv : s.massInv = s0.massInv
  nb : s.nb = s0.nb
  model : s.model = s0.model
  Kfe : s.Kfe = s0.Kfe
  Kte : s.Kte = s0.Kte
  Kfv : s.Kfv = s0.Kfv
  Ktv : s.Ktv = s0.Ktv
  KfeRopes : s.KfeRopes = s0.KfeRopes
  KteRopes : s.KteRopes = s0.KteRopes
  KfvRopes : s.KfvRopes = s0.KfvRopes
  KtvRopes : s.KtvRopes = s0.KtvRopes
  pe : s.pe = s0.pe
  measSize : s.measSize = s0.measSize
  withForce : s.withForce = s0.withForce
  withBias : s.withBias = s0.withBias
  withAbs : s.withAbs = s0.withAbs
  withUnmodeled : s.withUnmodeled = s0.withUnmodeled
  noise : s.noise = s0.noise
  snoise : s.sensor.noise = s0.sensor.noise
  mode : s.sensor.mode = s0.sensor.mode
  concat : s.sensor.concat = s0.sensor.concat
  dx : s.dx = s0.dx

theorem Same.refl (s : Sys G) : Same s s := by constructor <;> rfl

theorem elasticPure_congr {s s0 : Sys G} (h : Same s s0) (p v θ : V3) (R : M3) (ω : V3) : ∀ (cs : List ContactIn) (i : ℕ) (fc tc : Fin 2 → V3),
    elasticPure s p v θ R ω cs i fc tc = elasticPure s0 p v θ R ω cs i fc tc
  | [], _, _, _ => rfl
  | c :: cs, i, fc, tc => by
    unfold elasticPure
    have : ∀ Rci, s.contactForce c Rci p v θ R ω = s0.contactForce c Rci p v θ R ω := fun Rci => by
      simp only [Sys.contactForce, h.Kfe, h.Kte, h.Kfv, h.Ktv]
    simp only [this]
    split_ifs
    · exact elasticPure_congr h p v θ R ω cs _ _ _
    · rfl

theorem ropeForces_congr {s s0 : Sys G} (h : Same s s0) (p : V3) (R : M3) : ∀ (cs : List ContactIn) (f : V3), s.ropeForces p R cs f = s0.ropeForces p R cs f
  | [], _ => rfl
  | c :: cs, f => by
    unfold Sys.ropeForces
    have : s.ropeForce c p R = s0.ropeForce c p R := by simp only [Sys.ropeForce, h.pe, h.KfeRopes]
    rw [this]
    simp only [ropeForces_congr h p R cs]

theorem forcesPure_congr {s s0 : Sys G} (h : Same s s0) (cs : List ContactIn) (p v θ : V3) (R : M3) (ω : V3) :
    s.forcesPure cs p v θ R ω = s0.forcesPure cs p v θ R ω := by
  unfold Sys.forcesPure
  rw [h.model, elasticPure_congr h, ropeForces_congr h, h.KfvRopes, h.KteRopes, h.KtvRopes]

theorem forces_eq {s : Sys G} (h : RotOK s.rot) (cs : List ContactIn) (p v θ : V3) (R : M3) (ω : V3) :
    ∃ rt, RotOK rt ∧ s.forces cs p v θ R ω = (s.forcesPure cs p v θ R ω).bind fun w => .ok { s with fc := w.1, tc := w.2, rot := rt } := by
  unfold Sys.forces Sys.forcesPure
  split_ifs
  · exact elasticLoop_eq p v θ R ω cs 0 { s with fc := 0, tc := 0 } s h fun _ _ => rfl
  · refine ⟨s.rot, h, ?_⟩
    unfold Sys.pendulum
    cases s.ropeForces p R cs 0 <;> rfl
  · exact ⟨s.rot, h, rfl⟩

/-! ## Dynamics -/

/-- One step of Euler without the caches. -/
noncomputable def Sys.eulerPure (s : Sys G) (i : Input) (p θ v ω fm tm : V3) (dt : ℝ) : Res ((V3 × V3 × V3 × V3) × (Fin 2 → V3) × (Fin 2 → V3)) := do
  let R := rotationVectorToRotationMatrix θ
  let a ← s.accel i R p ω fm tm
  let p' := (integratePosVel p v a.1 dt).1
  let v' := (integratePosVel p v a.1 dt).2
  let R' := (integrateMatVel R ω a.2 dt).1
  let ω' := (integrateMatVel R ω a.2 dt).2
  let θ' := (AngleAxis.ofMat R').angle • (AngleAxis.ofMat R').axis
  let w ← s.forcesPure i.contacts p' v' θ' R' ω'
  .ok ((p', θ', v', ω'), w.1, w.2)

theorem accel_congr {s s0 : Sys G} (h : Same s s0) (hf : s.fc = s0.fc) (ht : s.tc = s0.tc) (i : Input) (R : M3) (p ω fm tm : V3) :
    s.accel i R p ω fm tm = s0.accel i R p ω fm tm := by
  unfold Sys.accel
  rw [h.model, h.mass, h.massInv, hf, ht]

theorem eulerPure_congr {s s0 : Sys G} (h : Same s s0) (hf : s.fc = s0.fc) (ht : s.tc = s0.tc) (i : Input) (p θ v ω fm tm : V3) (dt : ℝ) :
    s.eulerPure i p θ v ω fm tm dt = s0.eulerPure i p θ v ω fm tm dt := by
  unfold Sys.eulerPure
  simp only [accel_congr h hf ht, forcesPure_congr h]

theorem iterateEuler_eq {s : Sys G} (h : RotOK s.rot) (i : Input) (p θ v ω fm tm : V3) (dt : ℝ) :
    ∃ rt, RotOK rt ∧ s.iterateEuler i p θ v ω fm tm dt = (s.eulerPure i p θ v ω fm tm dt).bind fun w => .ok (w.1, { s with fc := w.2.1, tc := w.2.2, rot := rt }) := by
  obtain ⟨rt, e, hr⟩ := rotation_eq h θ 0
  unfold Sys.iterateEuler Sys.eulerPure
  rw [e]
  have ea : Sys.accel { s with rot := rt } i (rotationVectorToRotationMatrix θ) p ω fm tm = s.accel i (rotationVectorToRotationMatrix θ) p ω fm tm := rfl
  simp only [ea]
  cases s.accel i (rotationVectorToRotationMatrix θ) p ω fm tm with
  | ok a =>
    obtain ⟨a, α⟩ := a
    simp only [Res.ok_bind]
    obtain ⟨rt', hr', ef⟩ := forces_eq (s := { s with rot := rt }) hr i.contacts (integratePosVel p v a dt).1 (integratePosVel p v a dt).2
      ((AngleAxis.ofMat (integrateMatVel (rotationVectorToRotationMatrix θ) ω α dt).1).angle •
        (AngleAxis.ofMat (integrateMatVel (rotationVectorToRotationMatrix θ) ω α dt).1).axis)
      (integrateMatVel (rotationVectorToRotationMatrix θ) ω α dt).1 (integrateMatVel (rotationVectorToRotationMatrix θ) ω α dt).2
    refine ⟨rt', hr', ?_⟩
    have eg : ∀ cs p v θ R ω, Sys.forcesPure { s with rot := rt } cs p v θ R ω = s.forcesPure cs p v θ R ω := 
      fun _ _ _ _ _ _ => forcesPure_congr (by constructor <;> rfl) _ _ _ _ _ _
    rw [eg] at ef
    show (Sys.forces _ _ _ _ _ _ _).bind _ = _
    refine (congrArg (fun r => Res.bind r _) ef).trans ?_
    show _ = ((s.forcesPure _ _ _ _ _ _).bind _).bind _
    cases s.forcesPure _ _ _ _ _ _ <;> rfl
  | exn => exact ⟨rt, hr, rfl⟩
  | assertFail => exact ⟨rt, hr, rfl⟩
  | ub => exact ⟨rt, hr, rfl⟩

/-- A vector of known size. -/
def cast (x : DVec) (n : ℕ) (h : x.size = n) : Fin n → ℝ := x.val ∘ Fin.cast h.symm

/-- One step without the caches: the new state vector and the forces. -/
noncomputable def Sys.stepPure (s : Sys G) (x : Fin 35 → ℝ) (i : Input) : Res ((Fin 35 → ℝ) × (Fin 2 → V3) × (Fin 2 → V3)) := do
  let w ← (s.readEfforts x).eulerPure i (seg 3 x iPos) (seg 3 x iOri) (seg 3 x iLinVel) (seg 3 x iAngVel) (seg 3 x iUnmodeled) (seg 3 x (iUnmodeled + 3)) s.dt
  .ok (nextVector s.withUnmodeled x w.1.1 w.1.2.1 w.1.2.2.1 w.1.2.2.2 w.2.1 w.2.2, w.2.1, w.2.2)

theorem stepPure_congr {s s0 : Sys G} (h : Same s s0) (x : Fin 35 → ℝ) (i : Input) : s.stepPure x i = s0.stepPure x i := by
  unfold Sys.stepPure
  rw [h.dt, h.withUnmodeled, eulerPure_congr (s := s.readEfforts x) (s0 := s0.readEfforts x) (by cases h; constructor <;> assumption) rfl rfl]

/-- What `stateDynamics` returns and stores. -/
noncomputable def Sys.finish (s : Sys G) (g : G) : Res (DVec × Sys G × G) :=
  match s.noise with
  | some n => do
    let (y, g) ← n g s.opXk1
    .ok (y, s, g)
  | none => .ok (s.xk1, s, g)

theorem stateDynamics_eq {s : Sys G} (h : RotOK s.rot) (x u : DVec) (g : G) (hx : x.size = 35) (hu : u.size = 48 + 12 * s.nb) :
    ∃ rt, RotOK rt ∧ s.stateDynamics x u g = (s.stepPure (cast x 35 hx) (s.biased (cast x 35 hx) (readInput s.nb (cast u _ hu)))).bind fun w =>
      Sys.finish { s with xk := x, uk := u, fc := w.2.1, tc := w.2.2, efforts := true, rot := rt, xk1 := ⟨35, w.1⟩ } g := by
  unfold Sys.stateDynamics
  rw [dif_pos hx, dif_pos hu]
  obtain ⟨rt, hr, e⟩ := iterateEuler_eq (s := Sys.readEfforts { s with xk := x, uk := u } (cast x 35 hx)) h (s.biased (cast x 35 hx) (readInput s.nb (cast u _ hu)))
    (seg 3 (cast x 35 hx) iPos) (seg 3 (cast x 35 hx) iOri) (seg 3 (cast x 35 hx) iLinVel) (seg 3 (cast x 35 hx) iAngVel) (seg 3 (cast x 35 hx) iUnmodeled)
    (seg 3 (cast x 35 hx) (iUnmodeled + 3)) s.dt
  refine ⟨rt, hr, ?_⟩
  refine (congrArg (fun r => Res.bind r _) e).trans ?_
  unfold Sys.stepPure
  have eg : ∀ a b c d e f g h k, Sys.eulerPure (Sys.readEfforts { s with xk := x, uk := u } a) b c d e f g h k = Sys.eulerPure (s.readEfforts a) b c d e f g h k :=
    by intros; apply eulerPure_congr <;> first | rfl | (constructor <;> rfl)
  rw [eg]
  cases Sys.eulerPure _ _ _ _ _ _ _ _ _ <;> rfl

/-! ## Measurements and accelerations -/

/-- The accelerations of a state, without the caches, for the angular velocity `ω`. -/
noncomputable def Sys.accelPure (s : Sys G) (x : Fin 35 → ℝ) (i : Input) (ω : V3) : Res (V3 × V3) :=
  (s.readEfforts x).accel i (rotationVectorToRotationMatrix (seg 3 x iOri)) (seg 3 x iPos) ω (seg 3 x iUnmodeled) (seg 3 x (iUnmodeled + 3))

theorem accelPure_congr {s s0 : Sys G} (h : Same s s0) (x : Fin 35 → ℝ) (i : Input) (ω : V3) : s.accelPure x i ω = s0.accelPure x i ω := by
  unfold Sys.accelPure
  exact accel_congr (s := s.readEfforts x) (s0 := s0.readEfforts x) (by cases h; constructor <;> assumption) rfl rfl _ _ _ _ _ _

/-- The state of the sensor, without the caches. -/
noncomputable def Sys.measurePure (s : Sys G) (x : Fin 35 → ℝ) (i : Input) : Res (List ℝ) := do
  let R := rotationVectorToRotationMatrix (seg 3 x iOri)
  let a ← s.accelPure x i (seg 3 x iAngVel)
  s.sensorState x R (R * rotationVectorToRotationMatrix i.oriIMU) (imuAcceleration R (seg 3 x iAngVel) a.1 a.2 i) (seg 3 x iAngVel + R *ᵥ i.angVelIMU)

theorem sensorState_congr {s s0 : Sys G} (h : Same s s0) (x : Fin 35 → ℝ) (R Q : M3) (a b : V3) : s.sensorState x R Q a b = s0.sensorState x R Q a b := by
  unfold Sys.sensorState Sensor.getStateSize
  rw [h.withForce, h.nb, h.withAbs, h.mode, h.concat]

theorem measurePure_congr {s s0 : Sys G} (h : Same s s0) (x : Fin 35 → ℝ) (i : Input) : s.measurePure x i = s0.measurePure x i := by
  unfold Sys.measurePure
  simp only [accelPure_congr h, sensorState_congr h]

/-- Reading the sensor. -/
noncomputable def Sys.readSensor (s : Sys G) (l : List ℝ) (k : Int) (g : G) : Res (DVec × Sys G × G) := do
  let sensor ← Sensor.setState accGyro s.sensor l k
  let (y, sensor, g) ← Sensor.getMeasurements accGyro sensor g true
  .ok (ofList y, { s with sensor := sensor, yk := ofList y }, g)

theorem measureDynamics_eq {s : Sys G} (h : RotOK s.rot) (x u : DVec) (k : Int) (g : G) (hx : x.size = 35) (hu : u.size = 48 + 12 * s.nb) (he : s.efforts = true) :
    ∃ rt, RotOK rt ∧ s.measureDynamics x u k g = (s.measurePure (cast x 35 hx) (s.biased (cast x 35 hx) (readInput s.nb (cast u _ hu)))).bind fun l =>
      Sys.readSensor (Sys.readEfforts { s with xkY := x, ukY := u, opK := k, rot := rt } (cast x 35 hx)) l k g := by
  unfold Sys.measureDynamics
  rw [dif_pos hx, dif_pos hu]
  obtain ⟨rt, e, hr⟩ := rotation_eq (s := { s with xkY := x, ukY := u, opK := k }) h (seg 3 (cast x 35 hx) iOri) 0
  obtain ⟨rt', e', hr'⟩ := rotation_eq (s := { s with xkY := x, ukY := u, opK := k, rot := rt }) hr (s.biased (cast x 35 hx) (readInput s.nb (cast u _ hu))).oriIMU 1
  refine ⟨rt', hr', ?_⟩
  have hs : Res.assert s.efforts = .ok () := by rw [he]; rfl
  unfold cast at e e'
  simp only [hs, Res.ok_bind, e]
  have eb : ∀ a b, Sys.biased { s with xkY := x, ukY := u, opK := k } a b = s.biased a b := fun _ _ => rfl
  simp only [eb, e']
  unfold Sys.measurePure
  have ea : s.accelPure (cast x 35 hx) (s.biased (cast x 35 hx) (readInput s.nb (cast u _ hu))) (seg 3 (cast x 35 hx) iAngVel) =
      Sys.accelPure { s with xkY := x, ukY := u, opK := k, rot := rt' } (cast x 35 hx) (s.biased (cast x 35 hx) (readInput s.nb (cast u _ hu))) (seg 3 (cast x 35 hx) iAngVel) :=
    accelPure_congr (by constructor <;> rfl) _ _ _
  unfold Sys.accelPure cast at ea
  unfold Sys.accelPure cast
  simp only
  rw [ea]
  cases Sys.accel _ _ _ _ _ _ _ with
  | ok a =>
    simp only [Res.ok_bind]
    have es : ∀ R Q a b, s.sensorState (x.val ∘ Fin.cast hx.symm) R Q a b =
        Sys.sensorState (Sys.readEfforts { s with xkY := x, ukY := u, opK := k, rot := rt' } (x.val ∘ Fin.cast hx.symm)) (x.val ∘ Fin.cast hx.symm) R Q a b :=
      fun _ _ _ _ => rfl
    rw [es]
    rfl
  | exn => rfl
  | assertFail => rfl
  | ub => rfl

end StateObs.Elastic
