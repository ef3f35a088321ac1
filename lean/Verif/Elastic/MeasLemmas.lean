import Verif.Elastic.StepProps
import Verif.Sensor.Props
import Verif.Imu.MltpLemmas
/-! # Lemmas about the measurements of the robot on elastic contacts -/

namespace StateObs.Elastic
open StateObs Matrix Rot Kine Imu Sensor
open StateObs.KO (Robot)

variable {G : Type}

/-! ## Lists as vectors -/

theorem ofList_size (l : List ℝ) : (ofList l).size = l.length := rfl

theorem at3_ofList (l l' : List ℝ) (v : V3) (i : ℕ) (hi : i = l.length) : KO.at3 (ofList (l ++ (toL v ++ l'))) i = v := by
  subst hi
  funext j
  have hj := j.isLt
  have hl : l.length + j.val < (l ++ (toL v ++ l')).length := by simp [toL]; omega
  have h1 : KO.at3 (ofList (l ++ (toL v ++ l'))) l.length j = (l ++ (toL v ++ l'))[l.length + j.val] := by
    unfold KO.at3
    rw [dif_pos (by exact hl)]
    rfl
  rw [h1, List.getElem_append_right (by omega)]
  fin_cases j <;> simp [toL]

/-- The wrenches of the contacts from `k` on, `n` of them, as the state has them. -/
def wrenches (x : DVec) (k n : ℕ) : List ℝ := (List.range' k n).flatMap fun i => toL (KO.at3 x (12 + 6 * i)) ++ toL (KO.at3 x (12 + 6 * i + 3))

theorem wrenches_length (x : DVec) (k n : ℕ) : (wrenches x k n).length = 6 * n := by
  induction n generalizing k with
  | zero => rfl
  | succ n ih =>
    have := ih (k + 1)
    unfold wrenches at this ⊢
    rw [List.range'_succ, List.flatMap_cons, List.length_append, this]
    simp [toL]
    omega

theorem wrenches_split (x : DVec) (k m n : ℕ) : wrenches x k (m + n) = wrenches x k m ++ wrenches x (k + m) n := by
  unfold wrenches
  rw [← List.range'_append_1, List.flatMap_append]

theorem effortList_iff (x : DVec) (hx : x.size = 35) : ∀ (n k : ℕ) (e : List ℝ), effortList (cast x 35 hx) k n = .ok e ↔ (n ≠ 0 → k + n ≤ 3) ∧ e = wrenches x k n
  | 0, k, e => by
    unfold effortList
    constructor
    · intro h; cases h; exact ⟨fun h => absurd rfl h, rfl⟩
    · rintro ⟨-, rfl⟩; rfl
  | n + 1, k, e => by
    unfold effortList
    have hw : wrenches x k (n + 1) = toL (KO.at3 x (12 + 6 * k)) ++ toL (KO.at3 x (12 + 6 * k + 3)) ++ wrenches x (k + 1) n := by
      unfold wrenches
      rw [List.range'_succ, List.flatMap_cons]
    rw [hw]
    split_ifs with h
    · rw [Res.bind_eq_ok]
      simp only [seg3_cast]
      constructor
      · rintro ⟨l, hl, h'⟩
        cases h'
        obtain ⟨h1, rfl⟩ := (effortList_iff x hx n (k + 1) l).1 hl
        refine ⟨fun _ => ?_, rfl⟩
        have : iFc = 12 := rfl
        by_cases h0 : n = 0
        · omega
        · have := h1 h0; omega
      · rintro ⟨h1, rfl⟩
        exact ⟨_, (effortList_iff x hx n (k + 1) _).2 ⟨fun _ => by have := h1 (by omega); omega, rfl⟩, rfl⟩
    · constructor
      · intro h'; cases h'
      · rintro ⟨h1, -⟩
        have := h1 (by omega)
        have : iFc = 12 := rfl
        omega

/-! ## The sensor -/

theorem coeffs_stateM (R : M3) (a w : V3) : Elastic.coeffs R ++ toL a ++ toL w = stateM R a w := rfl

theorem stateM_length (R : M3) (a w : V3) : (stateM R a w).length = 15 := rfl

/-- The vector that the sensor without noise gives. -/
noncomputable def clean (R : M3) (a w : V3) (rest : List ℝ) : List ℝ := toL (Rᵀ *ᵥ (a + KO.g)) ++ toL (Rᵀ *ᵥ w) ++ rest

theorem compute_stateM (R : M3) (a w : V3) : accGyro.compute true (stateM R a w) = .ok (toL (Rᵀ *ᵥ (a + KO.g)) ++ toL (Rᵀ *ᵥ w)) := by
  simp only [accGyro, read_stateM, Res.ok_bind]
  rfl

theorem computeClean_stateM {s : Sensor Bool G} (hm : s.mode = true) {R : M3} {a w : V3} {rest : List ℝ} (hs : s.state = stateM R a w) (hd : s.direct = rest)
    (hc : s.concat = rest.length) (hl : 0 < s.concat → s.clean.length = 6 + s.concat) :
    computeClean accGyro s = .ok { s with clean := clean R a w rest, storedClean := true } := by
  unfold computeClean
  rw [hm, hs, compute_stateM, Res.ok_bind]
  split_ifs with h0
  · have : s.clean.length = (toL (Rᵀ *ᵥ (a + KO.g)) ++ toL (Rᵀ *ᵥ w)).length + s.direct.length := by
      rw [hl h0, hd, hc]; simp [toL]
    rw [decide_eq_true this, hd]
    rfl
  · have : rest = [] := List.length_eq_zero_iff.1 (by omega)
    subst this
    unfold clean
    rw [List.append_nil]

theorem setState_stateM {s : Sensor Bool G} (hm : s.mode = true) {R : M3} {a w : V3} {rest : List ℝ} (hc : s.concat = rest.length) (k : Int) :
    Sensor.setState accGyro s (stateM R a w ++ rest) k = .ok { s with
      direct := rest
      state := stateM R a w
      storedNoisy := false
      storedClean := false
      time := k } := by
  have hK : accGyro.stateSize s.mode = (stateM R a w).length := by rw [hm]; rfl
  unfold Sensor.setState Sensor.tail Sensor.head
  rw [if_pos (by simp [hc]), if_pos (by rw [hK]; simp), hK, List.take_left]
  have : (stateM R a w ++ rest).length - s.concat = (stateM R a w).length := by rw [List.length_append, hc]; omega
  rw [this, List.drop_left]
  rfl

/-- Reading the sensor without noise. -/
theorem readSensor_clean {s : Sys G} (hm : s.sensor.mode = true) (hn : s.sensor.noise = none) {R : M3} {a w : V3} {rest : List ℝ} (hc : s.sensor.concat = rest.length)
    (hl : 0 < s.sensor.concat → s.sensor.clean.length = 6 + s.sensor.concat) (k : Int) (g : G) :
    ∃ t, s.readSensor (stateM R a w ++ rest) k g = .ok (ofList (clean R a w rest), { s with sensor := t, yk := ofList (clean R a w rest) }, g) := by
  unfold Sys.readSensor
  rw [setState_stateM hm hc, Res.ok_bind]
  unfold Sensor.getMeasurements
  simp only [hn]
  unfold Sensor.ensureClean
  rw [if_neg (by simp), computeClean_stateM (by exact hm) (R := R) (a := a) (w := w) (rest := rest) rfl rfl (by exact hc) (by exact hl)]
  exact ⟨_, rfl⟩

/-- Reading the sensor with noise: only if it has no other measurements to add. -/
theorem readSensor_noisy {s : Sys G} (hm : s.sensor.mode = true) {n : Noise G} (hn : s.sensor.noise = some n) {R : M3} {a w : V3} {rest : List ℝ}
    (hc : s.sensor.concat = rest.length) (hl : 0 < s.sensor.concat → s.sensor.clean.length = 6 + s.sensor.concat) (k : Int) (g : G) :
    s.readSensor (stateM R a w ++ rest) k g = if rest = [] then (n g (clean R a w [])).bind fun p => .ok (ofList p.1, { s with
        sensor := { s.sensor with
          direct := []
          state := stateM R a w
          storedNoisy := true
          noisy := p.1
          storedClean := true
          clean := clean R a w []
          time := k }
        yk := ofList p.1 }, p.2) else .assertFail := by
  unfold Sys.readSensor
  rw [setState_stateM hm hc, Res.ok_bind]
  unfold Sensor.getMeasurements
  simp only [hn]
  rw [if_neg (by simp)]
  unfold Sensor.computeNoisy Sensor.ensureCleanChecked
  rw [if_neg (by simp)]
  by_cases h0 : rest = []
  · subst h0
    rw [if_pos rfl, if_pos (by simp only [Sensor.getStateSize, hm, hc]; rfl),
      computeClean_stateM (by exact hm) (R := R) (a := a) (w := w) (rest := []) rfl rfl (by exact hc) (by exact hl), Res.ok_bind]
    cases n g (clean R a w []) <;> rfl
  · rw [if_neg h0, if_neg]
    · rfl
    · simp only [Sensor.getStateSize, hm, hc, stateM_length]
      have : 0 < rest.length := List.length_pos_of_ne_nil h0
      have : accGyro.stateSize true = 15 := rfl
      omega

/-! ## The measurement -/

/-- The measurements that follow those of the inertial sensor. -/
noncomputable def others (s : Sys G) (x : DVec) (hx : x.size = 35) (R : M3) : List ℝ :=
  (if s.withForce then wrenches x 0 s.nb else []) ++ (if s.withAbs then absolutePose (cast x 35 hx) R else [])

theorem absolutePose_length (x : Fin 35 → ℝ) (R : M3) : (absolutePose x R).length = 6 := rfl

theorem others_length (s : Sys G) (hi : Inv s) (x : DVec) (hx : x.size = 35) (R : M3) : (others s x hx R).length = s.sensor.concat := by
  rw [hi.concat, hi.meas]
  unfold others
  rw [List.length_append]
  split_ifs <;> simp [wrenches_length, absolutePose_length] <;> omega

theorem sensorState_ok {s : Sys G} (hi : Inv s) (x : DVec) (hx : x.size = 35) (R Q : M3) (a w : V3) :
    s.sensorState (cast x 35 hx) R Q a w = if s.withForce = true ∧ 3 < s.nb then .assertFail else .ok (stateM Q a w ++ others s x hx R) := by
  have hl := others_length s hi x hx R
  have hsz : Sensor.getStateSize accGyro s.sensor = 15 + s.sensor.concat := by
    unfold Sensor.getStateSize
    rw [hi.mode]
    rfl
  have fin : ∀ e, stateM Q a w ++ e ++ (if s.withAbs then absolutePose (cast x 35 hx) R else []) = stateM Q a w ++ others s x hx R →
      (do
        let l := Elastic.coeffs Q ++ toL a ++ toL w ++ e ++ (if s.withAbs then absolutePose (cast x 35 hx) R else [])
        Res.assert (decide (l.length ≤ Sensor.getStateSize accGyro s.sensor))
        if l.length = Sensor.getStateSize accGyro s.sensor then Res.ok l else Res.ub) = .ok (stateM Q a w ++ others s x hx R) := by
    intro e he
    have : (stateM Q a w ++ others s x hx R).length = Sensor.getStateSize accGyro s.sensor := by
      rw [List.length_append, hl, hsz, stateM_length]
    simp only [coeffs_stateM, he]
    rw [decide_eq_true this.le, if_pos this]
    rfl
  unfold Sys.sensorState
  cases hf : s.withForce with
  | false =>
    simp only [Bool.false_eq_true, if_false, Res.ok_bind, false_and]
    refine fin [] ?_
    unfold others
    rw [hf]
    simp
  | true =>
    simp only [if_true, true_and]
    by_cases h3 : 3 < s.nb
    · rw [if_pos h3]
      cases he : effortList (cast x 35 hx) 0 s.nb with
      | ok e =>
        have := ((effortList_iff x hx s.nb 0 e).1 he).1 (by omega)
        omega
      | assertFail => rfl
      | exn =>
        exfalso
        revert he
        generalize s.nb = n
        generalize (0 : ℕ) = k
        induction n generalizing k with
        | zero => intro h; cases h
        | succ n ih =>
          intro h
          unfold effortList at h
          split_ifs at h
          cases he : effortList (cast x 35 hx) (k + 1) n with
          | exn => exact ih _ he
          | _ => rw [he] at h; cases h
      | ub =>
        exfalso
        revert he
        generalize s.nb = n
        generalize (0 : ℕ) = k
        induction n generalizing k with
        | zero => intro h; cases h
        | succ n ih =>
          intro h
          unfold effortList at h
          split_ifs at h
          cases he : effortList (cast x 35 hx) (k + 1) n with
          | ub => exact ih _ he
          | _ => rw [he] at h; cases h
    · rw [if_neg h3, (effortList_iff x hx s.nb 0 _).2 ⟨fun _ => by omega, rfl⟩, Res.ok_bind]
      refine fin _ ?_
      unfold others
      rw [hf, List.append_assoc]
      rfl

/-- The acceleration and the angular velocity of the sensor. -/
noncomputable def sensorAcc (x u : DVec) (a α : V3) : V3 :=
  let R := rotationVectorToRotationMatrix (KO.at3 x 3)
  let ω := KO.at3 x 9
  (2 : ℝ) • (ω ⨯₃ (R *ᵥ KO.at3 u 33)) + (a + R *ᵥ KO.at3 u 39) + (α ⨯₃ (R *ᵥ KO.at3 u 27) + ω ⨯₃ (ω ⨯₃ (R *ᵥ KO.at3 u 27)))

noncomputable def sensorVel (x u : DVec) : V3 := KO.at3 x 9 + rotationVectorToRotationMatrix (KO.at3 x 3) *ᵥ KO.at3 u 36

noncomputable def sensorRot (x u : DVec) : M3 := rotationVectorToRotationMatrix (KO.at3 x 3) * rotationVectorToRotationMatrix (KO.at3 u 30)

/-- What `measureDynamics` gives to the sensor. -/
theorem measurePure_eq {s : Sys G} (hi : Inv s) (x u : DVec) (hx : x.size = 35) (hu : u.size = 48 + 12 * s.nb) :
    s.measurePure (cast x 35 hx) (s.biased (cast x 35 hx) (readInput s.nb (cast u _ hu))) = (s.computeAccelerations x u).bind fun p =>
      if s.withForce = true ∧ 3 < s.nb then .assertFail
      else .ok (stateM (sensorRot x u) (sensorAcc x u p.1.1 p.1.2) (sensorVel x u) ++ others s x hx (rotationVectorToRotationMatrix (KO.at3 x 3))) := by
  obtain ⟨rt, -, e⟩ := computeAccelerations_eq hi.rot x u hx hu
  rw [e]
  unfold Sys.measurePure
  cases s.accelPure (cast x 35 hx) (s.biased (cast x 35 hx) (readInput s.nb (cast u _ hu))) (seg 3 (cast x 35 hx) iAngVel) with
  | ok w =>
    simp only [Res.bind, Res.ok_bind, sensorState_ok hi]
    rw [biased_eq]
    simp only [imuAcceleration, seg3_cast, (C37_skew _ _).1, add_mulVec, ← mulVec_mulVec]
    rfl
  | _ => rfl

/-- A call of `measureDynamics`. -/
theorem measure_eq {s : Sys G} (hi : Inv s) (x u : DVec) (k : Int) (g : G) (hx : x.size = 35) (hu : u.size = 48 + 12 * s.nb) (he : s.efforts = true) :
    ∃ rt, RotOK rt ∧ s.measureDynamics x u k g = (s.computeAccelerations x u).bind fun p => if s.withForce = true ∧ 3 < s.nb then .assertFail
      else Sys.readSensor (Sys.readEfforts { s with xkY := x, ukY := u, opK := k, rot := rt } (cast x 35 hx))
        (stateM (sensorRot x u) (sensorAcc x u p.1.1 p.1.2) (sensorVel x u) ++ others s x hx (rotationVectorToRotationMatrix (KO.at3 x 3))) k g := by
  obtain ⟨rt, hr, e⟩ := measureDynamics_eq hi.rot x u k g hx hu he
  refine ⟨rt, hr, ?_⟩
  rw [e, measurePure_eq hi]
  cases s.computeAccelerations x u with
  | ok p =>
    simp only [Res.bind]
    split_ifs <;> rfl
  | _ => rfl

end StateObs.Elastic
