import Verif.Imu.Model
import Verif.Sensor.Props
import Verif.Rot.Motion
/-!
# Properties C72, C73: the conversion caches, the contact constraints
-/

namespace StateObs.Imu
open StateObs Matrix Rot Kine Sensor

variable {R : Type}

/-- What the caller sees of a call: the returned value, and the random generator. -/
def seen {α : Type} (x : Res (α × Sys R × R)) : Res (α × R) := x >>= fun (a, _, r) => .ok (a, r)

/-- Two systems with the same parameters. -/
structure SameParams (s t : Sys R) : Prop where
  noise : s.noise = t.noise
  sensorNoise : s.sensor.noise = t.sensor.noise
  dt : s.dt = t.dt
  contacts : s.contacts = t.contacts

/-- The invariant of reachable systems. -/
structure Good (s : Sys R) : Prop where
  cache : s.cacheQuat = rotationVectorToQuaternion s.cacheVec
  concat : s.sensor.concat = 0
  mode : s.sensor.mode = magMode

theorem rvq_zero : rotationVectorToQuaternion 0 = 1 := by
  rw [rotationVectorToQuaternion, aa_below (by rw [nrm_zero]; exact epsilonAngle_pos.le)]
  show Quat.ofAngleAxis ⟨0, ez⟩ = Quat.one
  simp [Quat.ofAngleAxis, Quat.one]

theorem good_ctor (dt : ℝ) : Good (ctor dt : Sys R) := ⟨rvq_zero.symm, rfl, rfl⟩

theorem cq_val {s : Sys R} (h : Good s) (x : V3) : (computeQuaternion s x).1 = rotationVectorToQuaternion x := by
  by_cases hx : s.cacheVec = x
  · rw [computeQuaternion, if_neg (not_not.2 hx), ← hx]; exact h.cache
  · rw [computeQuaternion, if_pos hx]; rfl

theorem cq_good {s : Sys R} (h : Good s) (x : V3) : Good (computeQuaternion s x).2 := by
  by_cases hx : s.cacheVec = x
  · rw [computeQuaternion, if_neg (not_not.2 hx)]; exact h
  · rw [computeQuaternion, if_pos hx]; exact ⟨rfl, h.concat, h.mode⟩

theorem cq_fields (s : Sys R) (x : V3) : (computeQuaternion s x).2.noise = s.noise ∧ (computeQuaternion s x).2.sensor = s.sensor ∧
    (computeQuaternion s x).2.dt = s.dt ∧ (computeQuaternion s x).2.contacts = s.contacts := by
  by_cases hx : s.cacheVec = x
  · rw [computeQuaternion, if_neg (not_not.2 hx)]; exact ⟨rfl, rfl, rfl, rfl⟩
  · rw [computeQuaternion, if_pos hx]; exact ⟨rfl, rfl, rfl, rfl⟩

theorem stateDynamics_eq (v : Variant) {s : Sys R} (h : Good s) (x : Fin 18 → ℝ) (u : Fin (inputSize v) → ℝ) (r : R) :
    stateDynamics v s x u r = (addNoise s.noise r (nextState v s.dt (rotationVectorToQuaternion (seg 3 x iOri)) x u) >>= fun (x', r) =>
      .ok (x', (computeQuaternion s (seg 3 x iOri)).2, r)) := by
  obtain ⟨h1, h2, h3, h4⟩ := cq_fields s (seg 3 x iOri)
  rw [← cq_val h, ← h1, ← h3]
  rfl

/-- The value returned by the sensor for a state, when nothing is appended. -/
noncomputable def sensed (v : Variant) (n : Option (Noise R)) (l : List ℝ) (r : R) : Res (List ℝ × R) := do
  let y ← (kind v).compute magMode l
  match n with
  | some n => n r y
  | none => .ok (y, r)

theorem kind_size (v : Variant) : (kind v).stateSize magMode = 10 := by cases v <;> rfl

theorem useSensor_eq (v : Variant) {s : Sys R} (h : Good s) (l : List ℝ) (hl : l.length = 10) (k : Int) (r : R) :
    ∃ t : List ℝ → List ℝ → Sensor (Bool × V3) R, (∀ y z, (t y z).concat = 0 ∧ (t y z).mode = magMode ∧ (t y z).noise = s.sensor.noise) ∧
      useSensor v s l k r = ((kind v).compute magMode l >>= fun y =>
        (match s.sensor.noise with | some n => n r y | none => .ok (y, r)) >>= fun (z, r) => .ok (z, { s with sensor := t y z }, r)) := by
  have hs : Sensor.setState (kind v) s.sensor l k = .ok (afterSet (kind v) s.sensor l k) := by
    rw [Sensor.setState, tail, h.concat, if_pos (by omega), Res.ok_bind, head, h.mode, kind_size, if_pos (by omega), Res.ok_bind]
    simp only [afterSet, h.concat, h.mode, kind_size]
  have ht : l.take 10 = l := List.take_of_length_le (by omega)
  have hc : (afterSet (kind v) s.sensor l k).concat = 0 := h.concat
  have hm : (afterSet (kind v) s.sensor l k).mode = magMode := h.mode
  have hst : (afterSet (kind v) s.sensor l k).state = l := by
    show l.take _ = l
    rw [h.mode, kind_size, ht]
  have hn : (afterSet (kind v) s.sensor l k).noise = s.sensor.noise := rfl
  have hcc : computeClean (kind v) (afterSet (kind v) s.sensor l k) = ((kind v).compute magMode l >>= fun y =>
      .ok { afterSet (kind v) s.sensor l k with clean := y, storedClean := true }) := by
    have e : (kind v).compute (afterSet (kind v) s.sensor l k).mode (afterSet (kind v) s.sensor l k).state = (kind v).compute magMode l := by
      rw [hm, hst]
    rw [computeClean, e]
    congr 1
    funext y
    rw [if_neg (by rw [hc]; omega)]
  have hsc : (afterSet (kind v) s.sensor l k).storedClean = false := rfl
  have hsn : (afterSet (kind v) s.sensor l k).storedNoisy = false := rfl
  generalize afterSet (kind v) s.sensor l k = A at *
  cases hno : s.sensor.noise with
  | none =>
    rw [hno] at hn
    refine ⟨fun y _ => { A with clean := y, storedClean := true }, fun _ _ => ⟨hc, hm, hn⟩, ?_⟩
    rw [useSensor, hs, Res.ok_bind]
    have he : ensureClean (kind v) A = computeClean (kind v) A := by rw [ensureClean, hsc]; rfl
    simp only [Sensor.getMeasurements, hn, he, hcc, bind_assoc, Res.ok_bind]
  | some n =>
    rw [hno] at hn
    refine ⟨fun y z => { A with clean := y, storedClean := true, noisy := z, storedNoisy := true }, fun _ _ => ⟨hc, hm, hn⟩, ?_⟩
    rw [useSensor, hs, Res.ok_bind]
    have hlen : A.state.length = getStateSize (kind v) A := by
      rw [hst, hl, getStateSize, hm, hc, kind_size]
    have he : ensureCleanChecked (kind v) A = computeClean (kind v) A := by
      rw [ensureCleanChecked, hsc, if_neg (by simp), if_pos hlen]
    simp only [Sensor.getMeasurements, hn, computeNoisy, he, hcc, hsn, Bool.false_eq_true, if_false, bind_assoc, Res.ok_bind]

theorem useSensor_seen (v : Variant) {s : Sys R} (h : Good s) (l : List ℝ) (hl : l.length = 10) (k : Int) (r : R) :
    seen (useSensor v s l k r) = sensed v s.sensor.noise l r := by
  obtain ⟨t, _, e⟩ := useSensor_eq v h l hl k r
  rw [e, seen, sensed]
  simp only [bind_assoc]
  congr 1
  funext y
  cases s.sensor.noise with
  | none => rfl
  | some n => cases hn : n r y <;> simp [hn]

theorem useSensor_good (v : Variant) {s s' : Sys R} (h : Good s) (l : List ℝ) (hl : l.length = 10) (k : Int) (r r' : R) (y : List ℝ)
    (hu : useSensor v s l k r = .ok (y, s', r')) : Good s' ∧ SameParams s s' := by
  obtain ⟨t, ht, e⟩ := useSensor_eq v h l hl k r
  rw [e, Res.bind_eq_ok] at hu
  obtain ⟨y1, _, hu⟩ := hu
  rw [Res.bind_eq_ok] at hu
  obtain ⟨⟨z, r1⟩, _, hu⟩ := hu
  cases hu
  obtain ⟨h1, h2, h3⟩ := ht y1 y
  exact ⟨⟨h.cache, h1, h2⟩, ⟨rfl, h3.symm, rfl, rfl⟩⟩

theorem cq_same (s : Sys R) (x : V3) : SameParams s (computeQuaternion s x).2 := by
  obtain ⟨h1, h2, h3, h4⟩ := cq_fields s x
  exact ⟨h1.symm, by rw [h2], h3.symm, h4.symm⟩

theorem SameParams.trans {a b c : Sys R} (h : SameParams a b) (h' : SameParams b c) : SameParams a c :=
  ⟨h.1.trans h'.1, h.2.trans h'.2, h.3.trans h'.3, h.4.trans h'.4⟩

/-- The measurement as a function of the arguments, the noise and the contacts: no cache. -/
noncomputable def measured (v : Variant) (n : Option (Noise R)) (contacts : List V3) (x : Fin 18 → ℝ) (u : Fin (inputSize v) → ℝ) (r : R) :
    Res (List ℝ × R) :=
  let q := rotationVectorToQuaternion (seg 3 x iOri)
  let fixed (u : Fin 15 → ℝ) : Res (List ℝ × R) := do
    let (y, r) ← sensed v n (sensorState (q * rotationVectorToQuaternion (seg 3 u iOri)) (fixedAcceleration q.toMat x u)
      (seg 3 x iAngVel + q.toMat *ᵥ seg 3 u iAngVel)) r
    Res.assert (decide (y.length = 6))
    .ok (y ++ contactMeasurements q.toMat (seg 3 x iPos) contacts, r)
  let imu := sensed v n (sensorState q (seg 3 x iLinAcc) (seg 3 x iAngVel)) r
  match v, u with
  | .imu, _ => imu
  | .mag, _ => imu
  | .fixed, u => fixed u
  | .stable, u => fixed u

theorem measureImu_seen (v : Variant) {s : Sys R} (h : Good s) (x : Fin 18 → ℝ) (k : Int) (r : R) :
    seen (measureImu v s x k r) = sensed v s.sensor.noise (sensorState (rotationVectorToQuaternion (seg 3 x iOri))
      (seg 3 x iLinAcc) (seg 3 x iAngVel)) r := by
  rw [(cq_same s (seg 3 x iOri)).sensorNoise, ← cq_val h, ← useSensor_seen v (cq_good h (seg 3 x iOri)) _ rfl k r]
  rfl

theorem measureImu_good (v : Variant) {s s' : Sys R} (h : Good s) (x : Fin 18 → ℝ) (k : Int) (r r' : R) (y : List ℝ)
    (hm : measureImu v s x k r = .ok (y, s', r')) : Good s' ∧ SameParams s s' := by
  have := useSensor_good v (cq_good h (seg 3 x iOri)) _ rfl k r r' y hm
  exact ⟨this.1, (cq_same s _).trans this.2⟩

theorem measureFixed_seen (v : Variant) {s : Sys R} (h : Good s) (x : Fin 18 → ℝ) (u : Fin 15 → ℝ) (k : Int) (r : R) :
    seen (measureFixed v s x u k r) = (sensed v s.sensor.noise (sensorState
        (rotationVectorToQuaternion (seg 3 x iOri) * rotationVectorToQuaternion (seg 3 u iOri))
        (fixedAcceleration (rotationVectorToQuaternion (seg 3 x iOri)).toMat x u)
        (seg 3 x iAngVel + (rotationVectorToQuaternion (seg 3 x iOri)).toMat *ᵥ seg 3 u iAngVel)) r >>= fun (y, r) =>
      Res.assert (decide (y.length = 6)) >>= fun _ =>
      .ok (y ++ contactMeasurements (rotationVectorToQuaternion (seg 3 x iOri)).toMat (seg 3 x iPos) s.contacts, r)) := by
  have g1 := cq_good h (seg 3 x iOri)
  have g2 := cq_good g1 (seg 3 u iOri)
  have p := (cq_same s (seg 3 x iOri)).trans (cq_same (computeQuaternion s (seg 3 x iOri)).2 (seg 3 u iOri))
  rw [p.sensorNoise, ← useSensor_seen v g2 _ rfl k r, ← cq_val h, ← cq_val g1]
  have hc : ∀ y s' r', useSensor v (computeQuaternion (computeQuaternion s (seg 3 x iOri)).2 (seg 3 u iOri)).2 (sensorState
        ((computeQuaternion s (seg 3 x iOri)).1 * (computeQuaternion (computeQuaternion s (seg 3 x iOri)).2 (seg 3 u iOri)).1)
        (fixedAcceleration (computeQuaternion s (seg 3 x iOri)).1.toMat x u)
        (seg 3 x iAngVel + (computeQuaternion s (seg 3 x iOri)).1.toMat *ᵥ seg 3 u iAngVel)) k r = .ok (y, s', r') → s'.contacts = s.contacts := by
    intro y s' r' hu
    have := (useSensor_good v g2 _ rfl k r r' y hu).2.contacts
    rw [← this, ← p.contacts]
  simp only [measureFixed, seen]
  cases hu : useSensor v (computeQuaternion (computeQuaternion s (seg 3 x iOri)).2 (seg 3 u iOri)).2 (sensorState
        ((computeQuaternion s (seg 3 x iOri)).1 * (computeQuaternion (computeQuaternion s (seg 3 x iOri)).2 (seg 3 u iOri)).1)
        (fixedAcceleration (computeQuaternion s (seg 3 x iOri)).1.toMat x u)
        (seg 3 x iAngVel + (computeQuaternion s (seg 3 x iOri)).1.toMat *ᵥ seg 3 u iAngVel)) k r with
  | ok a =>
    obtain ⟨y, s', r'⟩ := a
    simp only [Res.ok_bind, bind_assoc, hc y s' r' hu]
  | assertFail => rfl
  | ub => rfl
  | exn => rfl

theorem measureFixed_good (v : Variant) {s s' : Sys R} (h : Good s) (x : Fin 18 → ℝ) (u : Fin 15 → ℝ) (k : Int) (r r' : R) (y : List ℝ)
    (hm : measureFixed v s x u k r = .ok (y, s', r')) : Good s' ∧ SameParams s s' := by
  have g1 := cq_good h (seg 3 x iOri)
  have g2 := cq_good g1 (seg 3 u iOri)
  have p := (cq_same s (seg 3 x iOri)).trans (cq_same (computeQuaternion s (seg 3 x iOri)).2 (seg 3 u iOri))
  simp only [measureFixed, Res.bind_eq_ok] at hm
  obtain ⟨⟨y1, s1, r1⟩, hu, _, _, hm⟩ := hm
  cases hm
  have := useSensor_good v g2 _ rfl k r _ _ hu
  exact ⟨this.1, p.trans this.2⟩

theorem measure_seen (v : Variant) {s : Sys R} (h : Good s) (x : Fin 18 → ℝ) (u : Fin (inputSize v) → ℝ) (k : Int) (r : R) :
    seen (measureDynamics v s x u k r) = measured v s.sensor.noise s.contacts x u r := by
  cases v
  · exact measureImu_seen .imu h x k r
  · exact measureImu_seen .mag h x k r
  · exact measureFixed_seen .fixed h x u k r
  · exact measureFixed_seen .stable h x u k r

theorem measure_good (v : Variant) {s s' : Sys R} (h : Good s) (x : Fin 18 → ℝ) (u : Fin (inputSize v) → ℝ) (k : Int) (r r' : R) (y : List ℝ)
    (hm : measureDynamics v s x u k r = .ok (y, s', r')) : Good s' ∧ SameParams s s' := by
  cases v
  · exact measureImu_good .imu h x k r r' y hm
  · exact measureImu_good .mag h x k r r' y hm
  · exact measureFixed_good .fixed h x u k r r' y hm
  · exact measureFixed_good .stable h x u k r r' y hm

theorem state_good (v : Variant) {s s' : Sys R} (h : Good s) (x : Fin 18 → ℝ) (u : Fin (inputSize v) → ℝ) (r r' : R) (y : Fin 18 → ℝ)
    (hm : stateDynamics v s x u r = .ok (y, s', r')) : Good s' ∧ SameParams s s' := by
  rw [stateDynamics_eq v h, Res.bind_eq_ok] at hm
  obtain ⟨⟨y1, r1⟩, _, hm⟩ := hm
  cases hm
  exact ⟨cq_good h _, cq_same s _⟩

theorem exec_good (v : Variant) {s s' : Sys R} (h : Good s) (r r' : R) (op : Op R v) (he : exec v s r op = .ok (s', r')) : Good s' := by
  cases op with
  | stateDynamics x u k =>
    simp only [exec, Res.bind_eq_ok] at he
    obtain ⟨⟨y, s1, r1⟩, h1, he⟩ := he
    cases he
    exact (state_good v h x u r _ y h1).1
  | measureDynamics x u k =>
    simp only [exec, Res.bind_eq_ok] at he
    obtain ⟨⟨y, s1, r1⟩, h1, he⟩ := he
    cases he
    exact (measure_good v h x u k r _ y h1).1
  | setProcessNoise n => cases he; exact ⟨h.cache, h.concat, h.mode⟩
  | setMeasurementNoise n => cases he; exact ⟨h.cache, h.concat, h.mode⟩
  | setSamplingPeriod dt => cases he; exact ⟨h.cache, h.concat, h.mode⟩
  | setContactsNumber n => cases he; exact ⟨h.cache, h.concat, h.mode⟩
  | setContactPosition i p =>
    rw [exec] at he
    split at he
    · cases he; exact ⟨h.cache, h.concat, h.mode⟩
    · cases he

theorem run_good (v : Variant) {s s' : Sys R} (h : Good s) (r r' : R) (ops : List (Op R v)) (he : run v s r ops = .ok (s', r')) : Good s' := by
  induction ops generalizing s r with
  | nil => cases he; exact h
  | cons op ops ih =>
    simp only [run, Res.bind_eq_ok] at he
    obtain ⟨⟨s1, r1⟩, h1, he⟩ := he
    exact ih (exec_good v h r r1 op h1) r1 he

/-- **C72** Whatever was called before on two systems, if their parameters are the same then `stateDynamics` and `measureDynamics`
return the same for the same arguments (with the same random numbers). -/
theorem C72_transparent (v : Variant) (dt1 dt2 : ℝ) (past1 past2 : List (Op R v)) (r1 r1' r2 r2' : R) (s1 s2 : Sys R)
    (h1 : run v (ctor dt1) r1 past1 = .ok (s1, r1')) (h2 : run v (ctor dt2) r2 past2 = .ok (s2, r2')) (hp : SameParams s1 s2)
    (x : Fin 18 → ℝ) (u : Fin (inputSize v) → ℝ) (k : Int) (r : R) :
    seen (stateDynamics v s1 x u r) = seen (stateDynamics v s2 x u r) ∧
    seen (measureDynamics v s1 x u k r) = seen (measureDynamics v s2 x u k r) := by
  have g1 := run_good v (good_ctor dt1) r1 r1' past1 h1
  have g2 := run_good v (good_ctor dt2) r2 r2' past2 h2
  constructor
  · rw [stateDynamics_eq v g1, stateDynamics_eq v g2, hp.noise, hp.dt]
    simp only [seen, bind_assoc, Res.ok_bind]
  · rw [measure_seen v g1, measure_seen v g2, hp.sensorNoise, hp.contacts]

/-- **C72** The conversion, after any calls, is the conversion itself. -/
theorem C72_conversion (v : Variant) (dt : ℝ) (past : List (Op R v)) (r r' : R) (s : Sys R) (h : run v (ctor dt) r past = .ok (s, r')) (x : V3) :
    (computeQuaternion s x).1 = rotationVectorToQuaternion x ∧
      (computeQuaternion s x).1.toMat = rotationVectorToRotationMatrix x := by
  have e := cq_val (run_good v (good_ctor dt) r r' past h) x
  exact ⟨e, by rw [e, rvq_toMat]⟩

/-- **C73** The virtual measurements of the contacts: after the six inertial measurements there are three coefficients for each contact,
and they are all zero exactly when the flexibility (the rotation of its rotation vector, then its translation) leaves the contact points in place. -/
theorem C73_contacts (v : Variant) (hv : v = .fixed ∨ v = .stable) (dt : ℝ) (past : List (Op R v)) (r0 r r' r'' : R) (s s' : Sys R)
    (h : run v (ctor dt) r0 past = .ok (s, r)) (x : Fin 18 → ℝ) (u : Fin (inputSize v) → ℝ) (k : Int) (y : List ℝ)
    (hm : measureDynamics v s x u k r' = .ok (y, s', r'')) :
    y.length = 6 + 3 * s.contacts.length ∧
    (∀ i (hi : i < s.contacts.length) (j : Fin 3), y.getD (6 + 3 * i + j) 0 =
      (rotationVectorToRotationMatrix (seg 3 x iOri) *ᵥ s.contacts[i] + seg 3 x iPos - s.contacts[i]) j) ∧
    ((∀ z ∈ y.drop 6, z = 0) ↔ ∀ c ∈ s.contacts, rotationVectorToRotationMatrix (seg 3 x iOri) *ᵥ c + seg 3 x iPos = c) := by
  have g := run_good v (good_ctor dt) r0 r past h
  have key : ∃ y0 : List ℝ, y0.length = 6 ∧ y = y0 ++ contactMeasurements (rotationVectorToRotationMatrix (seg 3 x iOri)) (seg 3 x iPos) s.contacts := by
    have e := measure_seen v g x u k r'
    rw [hm] at e
    rcases hv with rfl | rfl <;>
    · simp only [seen, Res.ok_bind, measured] at e
      have e := e.symm
      simp only [Res.bind_eq_ok] at e
      obtain ⟨⟨y0, r1⟩, _, a, ha, e⟩ := e
      have hl : y0.length = 6 := by
        by_contra hl
        simp [Res.assert, hl] at ha
      rw [rvq_toMat] at e
      cases e
      exact ⟨y0, hl, rfl⟩
  obtain ⟨y0, hl, rfl⟩ := key
  generalize s.contacts = cs
  generalize rotationVectorToRotationMatrix (seg 3 x iOri) = Q
  generalize seg 3 x iPos = p
  refine ⟨?_, ?_, ?_⟩
  · rw [List.length_append, hl, contactMeasurements, List.length_flatMap]
    simp [toL]
    omega
  · intro i hi j
    have hge : y0.length ≤ 6 + 3 * i + j := by omega
    rw [List.getD_eq_getElem?_getD, List.getElem?_append_right hge, hl, ← List.getD_eq_getElem?_getD]
    have : 6 + 3 * i + (j : ℕ) - 6 = 3 * i + j := by omega
    rw [this]
    clear hge this
    induction cs generalizing i with
    | nil => exact absurd hi (by simp)
    | cons c cs ih =>
      cases i with
      | zero =>
        fin_cases j <;> simp [contactMeasurements, toL]
      | succ i =>
        have hj := j.isLt
        rw [contactMeasurements, List.flatMap_cons, List.getD_eq_getElem?_getD, List.getElem?_append_right (by simp [toL]; omega), ← List.getD_eq_getElem?_getD]
        have e : 3 * (i + 1) + (j : ℕ) - (toL (Q *ᵥ c + p - c)).length = 3 * i + j := by simp [toL]; omega
        rw [e]
        exact ih i (by simpa using hi)
  · rw [List.drop_append_of_le_length (by omega), List.drop_of_length_le (by omega), List.nil_append]
    simp only [contactMeasurements, List.mem_flatMap, toL]
    constructor
    · intro hz c hc
      have hz' : ∀ j : Fin 3, (Q *ᵥ c + p - c) j = 0 := by
        intro j
        exact hz _ ⟨c, hc, by fin_cases j <;> simp⟩
      have : Q *ᵥ c + p - c = 0 := by funext j; exact hz' j
      exact sub_eq_zero.1 this
    · rintro hc z ⟨c, hcm, hz⟩
      rw [hc c hcm, sub_self] at hz
      simpa using hz

/-- **C73** The translation computed by `fixedPointRotationToTranslation` for a contact has a zero virtual measurement there, for every rotation. -/
theorem C73_rotation_about_contact (Q : M3) (ω ω' c : V3) :
    contactMeasurements Q (fixedPointRotationToTranslation Q ω ω' c).1 [c] = [0, 0, 0] := by
  simp [contactMeasurements, fixedPointRotationToTranslation, toL]

/-- C73 is not vacuous: without noise the measurement is returned, for any contact and any arguments. -/
example (c : V3) (x : Fin 18 → ℝ) (u : Fin 15 → ℝ) (k : Int) : ∃ s : Sys Unit, s.contacts = [c] ∧
    run .fixed (ctor 1) () [.setContactsNumber 1, .setContactPosition 0 c] = .ok (s, ()) ∧
    ∃ y s' r', measureDynamics .fixed s x u k () = .ok (y, s', r') := by
  refine ⟨{ (ctor 1 : Sys Unit) with contacts := [c] }, rfl, rfl, ?_⟩
  have g : Good { (ctor 1 : Sys Unit) with contacts := [c] } := ⟨rvq_zero.symm, rfl, rfl⟩
  have e := measure_seen .fixed g x u k ()
  cases hm : measureDynamics .fixed { (ctor 1 : Sys Unit) with contacts := [c] } x u k () with
  | ok a => exact ⟨a.1, a.2.1, a.2.2, rfl⟩
  | assertFail => rw [hm] at e; cases e
  | ub => rw [hm] at e; cases e
  | exn => rw [hm] at e; cases e

end StateObs.Imu
