import Verif.ModelFlex.OnProps
/-!
# C98: guesses of the state, forces and moments

`s.ekf.x` is the state of the filter with its time; `t.lastX` after a call of `getFlexibilityVector()` is the vector it returned. The components of the state are: 0 to 2 position,
3 to 5 orientation, 12 to 23 forces and torques of two contacts, 24 to 29 unmodelled forces, 30 and 31 bias of the centre of mass.
-/

namespace StateObs.ModelFlex
open StateObs KF Imu Rot Kine Matrix Obs
open StateObs.Elastic (at1)

/-! ## The state is only used by the prediction -/

def Filter.withX (f : Filter) (X : Option (DVec × Int)) : Filter := { f with x := X }

theorem simulate_x (f : Filter) (X : Option (DVec × Int)) (x : DVec) (k : Int) :
    simulateSensor (f.withX X) x k = simulateSensor f x k >>= fun p => .ok (p.1, p.2.withX X) := by
  unfold simulateSensor
  simp only [Filter.withX, Res.bind_assoc]
  rfl

theorem predictSensor_x (f : Filter) (X : Option (DVec × Int)) (k : Int) : predictSensor (f.withX X) k = predictSensor f k >>= fun g => .ok (g.withX X) := by
  unfold predictSensor
  have e : (f.withX X).st = f.st := rfl
  rw [e]
  split_ifs
  · simp only [simulate_x, Res.bind_assoc]
    rfl
  · rfl

theorem prediction_cached {f : Filter} {k : Int} (h : EKF.notCached f.st.xbar k = false) : prediction f k = .ok f := by
  unfold prediction
  rw [h]
  rfl

theorem predictSensor_xbar {f g : Filter} {k : Int} (h : predictSensor f k = .ok g) : g.st.xbar = f.st.xbar ∧ g.x = f.x := by
  unfold predictSensor at h
  split_ifs at h
  · simp only [simulateSensor, Res.bind_eq_ok] at h
    obtain ⟨xb, -, ⟨y, f'⟩, ⟨_, -, u, -, ⟨y', sys, _⟩, -, h1⟩, h2⟩ := h
    cases h1; cases h2
    exact ⟨rfl, rfl⟩
  · cases h; exact ⟨rfl, rfl⟩

/-- With a prediction computed before, the state is only used for its time. -/
theorem oneStep_x {f : Filter} {x w : DVec} {k : Int} (hx : f.x = some (x, k)) (hc : EKF.notCached f.st.xbar (k + 1) = false) : oneStep virt (f.withX (some (w, k))) = oneStep virt f := by
  have hc' : EKF.notCached (f.withX (some (w, k))).st.xbar (k + 1) = false := hc
  unfold oneStep
  simp only [hx, show (f.withX (some (w, k))).x = some (w, k) from rfl, virt, prediction_cached hc, prediction_cached hc', predictSensor_x, Res.ok_bind, Res.bind_assoc]
  rfl

theorem jacobians_x {f : Filter} {x w : DVec} {k : Int} (hx : f.x = some (x, k)) (hc : EKF.notCached f.st.xbar (k + 1) = false) (fd : Bool) :
    jacobians fd (f.withX (some (w, k))) = jacobians fd f >>= fun g => .ok (g.withX (some (w, k))) := by
  have hc' : EKF.notCached (f.withX (some (w, k))).st.xbar (k + 1) = false := hc
  unfold jacobians
  split_ifs
  · simp only [updateStateAndMeasurementPrediction, updateStatePrediction, getCurrentTime, hx, show (f.withX (some (w, k))).x = some (w, k) from rfl, Res.ok_bind,
      prediction_cached hc, prediction_cached hc', predictSensor_x, setA, setC, Res.bind_assoc]
    rfl
  · rfl

theorem jacobians_xbar {f g : Filter} {x : DVec} {k : Int} (hr : Reach f.st.ext.sys) (hx : f.x = some (x, k)) (hc : EKF.notCached f.st.xbar (k + 1) = false) {fd : Bool} (h : jacobians fd f = .ok g) :
    EKF.notCached g.st.xbar (k + 1) = false ∧ g.x = some (x, k) := by
  unfold jacobians at h
  split_ifs at h
  · simp only [updateStateAndMeasurementPrediction, updateStatePrediction, getCurrentTime, hx, Res.ok_bind, prediction_cached hc, setA, setC, Res.bind_eq_ok] at h
    obtain ⟨f1, h1, ⟨A, sys, _⟩, -, f2, ⟨_, -, h2⟩, ⟨C, sys', _⟩, -, ⟨_, -, h3⟩⟩ := h
    obtain ⟨e1, e2⟩ := predictSensor_xbar h1
    cases h2; cases h3
    exact ⟨by show EKF.notCached f1.st.xbar (k + 1) = false; rw [e1]; exact hc, e2.trans hx⟩
  · cases h; exact ⟨hc, hx⟩

theorem getEst_x {f : Filter} {x w : DVec} {k : Int} (hx : f.x = some (x, k)) (hc : EKF.notCached f.st.xbar (k + 1) = false) :
    KF.getEstimatedState virt (f.withX (some (w, k))) (k + 1) = KF.getEstimatedState virt f (k + 1) := by
  simp only [KF.getEstimatedState, Obs.getEstimatedState, getCurrentTime, hx, show (f.withX (some (w, k))).x = some (w, k) from rfl, Res.ok_bind, show (k + 1 - k).toNat = 1 by omega, loop,
    loopBody, oneStep_x hx hc]
  rfl

/-- The estimation, when the prediction has been computed before. -/
theorem getVector_x {s : Est} (hi : Inv s) (hw : s.ekf.y.v ≠ []) (hon : s.on = true) (hc : EKF.notCached s.ekf.st.xbar (s.k + 1) = false) (w : DVec) :
    ({ s with ekf := s.ekf.withX (some (w, s.k)) } : Est).getFlexibilityVector = s.getFlexibilityVector := by
  obtain ⟨x, hx⟩ := hi.f.x
  rcases hi.f.y with hy0 | ⟨y, hy1⟩
  · exact absurd hy0 hw
  have hsz : s.ekf.y.size > 0 := by rw [hy1]; simp [IArr.size]
  have hsz' : (s.ekf.withX (some (w, s.k))).y.size > 0 := hsz
  have hk : getMeasurementTime s.ekf = .ok (s.k + 1) := by rw [getMeasurementTime, hy1]; simp [IArr.size, IArr.getLastIndex]
  have hk' : getMeasurementTime (s.ekf.withX (some (w, s.k))) = .ok (s.k + 1) := hk
  unfold Est.getFlexibilityVector
  rw [if_pos hon, if_pos hon, if_pos hsz, if_pos hsz']
  simp only [hk, hk', getCurrentTime, hx, show (s.ekf.withX (some (w, s.k))).x = some (w, s.k) from rfl, Res.ok_bind, show (s.k + 1 - s.k).toNat = 1 by omega, estimate, jacobians_x hx hc, Res.bind_assoc]
  cases hj : jacobians s.fd s.ekf with
  | ok f1 =>
    obtain ⟨hc1, hx1⟩ := jacobians_xbar hi.f.reach hx hc hj
    simp only [Res.ok_bind, getEst_x hx1 hc1]
    rfl
  | _ => rfl

theorem prediction_sets {f g : Filter} {k : Int} (h : prediction f k = .ok g) : EKF.notCached g.st.xbar k = false := by
  unfold prediction at h
  split_ifs at h with hc
  · simp only [Res.bind_eq_ok] at h
    obtain ⟨_, -, u, -, h⟩ := h
    cases hx : f.x with
    | none => simp [hx] at h
    | some p =>
      simp only [hx, Res.bind_eq_ok] at h
      obtain ⟨⟨v, sys, _⟩, -, h⟩ := h
      cases h
      simp [EKF.notCached]
  · cases h
    simpa using hc

/-! ## The properties -/

/-- A guess of the whole state is accepted and becomes the state of the filter at the current time; everything else is left, the waiting measurement and the inputs included. -/
theorem C98_guess {mem : ℕ → ℕ → ℕ → ℝ} {dt : ℝ} {ops : List Op} {s : Est} (h : run mem dt ops = .ok s) (x : Fin 35 → ℝ) :
    ∃ t, exec s (.setFlexibilityGuess (column ⟨35, x⟩)) = .ok t ∧ t = { s with ekf := { s.ekf with x := some (⟨35, x⟩, s.k) } } :=
  ⟨_, setGuess_live (inv_run h) x, rfl⟩

/-- A guess of the pose alone gives this pose, and *zero* for all the rest: velocities, forces, unmodelled forces, bias and drift. -/
theorem C98_pose {mem : ℕ → ℕ → ℕ → ℝ} {dt : ℝ} {ops : List Op} {s : Est} (h : run mem dt ops = .ok s) (x : Fin 6 → ℝ) :
    ∃ t z, exec s (.setFlexibilityGuess (column ⟨6, x⟩)) = .ok t ∧ t = { s with ekf := { s.ekf with x := some (z, s.k) } } ∧ z.size = 35 ∧
      (∀ i : Fin 6, at1 z i = x i) ∧ ∀ i, 6 ≤ i → at1 z i = 0 := by
  refine ⟨_, _, setGuess6_live (inv_run h) x, rfl, rfl, fun i => ?_, fun i h6 => ?_⟩
  · rw [Elastic.at1_mk _ _ (show i.val < 35 by omega)]
    fin_cases i <;> simp [setSeg, seg, Elastic.iOri, Elastic.iPos, Elastic.iBias]
  · by_cases hi : i < 35
    · rw [Elastic.at1_mk _ _ hi]
      simp only [setSeg, Elastic.iOri, Elastic.iPos, Elastic.iBias]
      rw [dif_neg (by omega), dif_neg (by omega)]
      rfl
    · exact dif_neg hi

/-- A guess given as a homogeneous matrix always fails an assertion. -/
theorem C98_matrix_false {mem : ℕ → ℕ → ℕ → ℝ} {dt : ℝ} {ops : List Op} {s : Est} (_h : run mem dt ops = .ok s) (M : Matrix (Fin 4) (Fin 4) ℝ) :
    exec s (.setFlexibilityGuess ⟨4, 4, M⟩) = .assertFail := by
  simp [exec, Est.setFlexibilityGuess, DMat.hasSize]

/-- A guess is not what the estimator returns: until a measurement is processed it returns the vector from before. -/
theorem C98_return_false {mem : ℕ → ℕ → ℕ → ℝ} {dt : ℝ} {ops : List Op} {s : Est} (h : run mem dt ops = .ok s) (hon : (Config.of ops).on = true) (hw : ¬ Waits s) (x : Fin 35 → ℝ) :
    ∃ t, exec s (.setFlexibilityGuess (column ⟨35, x⟩)) = .ok t ∧ exec t .getFlexibilityVector = .ok t ∧ t.lastX = s.lastX :=
  ⟨_, setGuess_live (inv_run h) x, getVector_idle (s := { s with ekf := { s.ekf with x := some (⟨35, x⟩, s.k) } }) (by show s.on = true; rw [(has_run h).on, hon]) (not_not.1 hw), rfl⟩

/-- A guess of the bias replaces the two components of the bias in the vector *returned last*, and makes the result the state of the filter: a guess of the state given before is lost. -/
theorem C98_bias_false {mem : ℕ → ℕ → ℕ → ℝ} {dt : ℝ} {ops : List Op} {s : Est} (h : run mem dt ops = .ok s) (x : Fin 35 → ℝ) (b : Fin 2 → ℝ) :
    ∃ s1 t, exec s (.setFlexibilityGuess (column ⟨35, x⟩)) = .ok s1 ∧ exec s1 (.setComBiasGuess ⟨2, b⟩) = .ok t ∧ exec s (.setComBiasGuess ⟨2, b⟩) = .ok t ∧
      t.ekf.x = some (t.lastX, s.k) ∧ at1 t.lastX 30 = b 0 ∧ at1 t.lastX 31 = b 1 ∧ ∀ i, i ≠ 30 → i ≠ 31 → at1 t.lastX i = at1 s.lastX i := by
  have hi := inv_run h
  obtain ⟨l, hl⟩ := hi.lastX
  have e1 := setGuess_live hi x
  have e2 := setBias_live (inv_exec hi _ e1) (l := l) hl b le_rfl
  have e3 := setBias_live hi hl b le_rfl
  refine ⟨_, _, e1, e2, e3, rfl, ?_, ?_, fun i h1 h2 => ?_⟩
  · rw [Elastic.at1_mk _ _ (by omega : 30 < 35)]; simp [setSeg, seg, Elastic.iOri, Elastic.iPos, Elastic.iBias]
  · rw [Elastic.at1_mk _ _ (by omega : 31 < 35)]; simp [setSeg, seg, Elastic.iOri, Elastic.iPos, Elastic.iBias]
  · rw [hl]
    by_cases h3 : i < 35
    · rw [Elastic.at1_mk _ _ h3, Elastic.at1_mk _ _ h3]
      simp only [setSeg, Elastic.iOri, Elastic.iPos, Elastic.iBias]
      rw [dif_neg (by omega)]
    · rw [show at1 ⟨35, l⟩ i = 0 from dif_neg h3]
      exact dif_neg h3

/-- When the prediction has been asked before, a guess has no effect at all on the next estimation, whatever the guess is. -/
theorem C98_stale_false {mem : ℕ → ℕ → ℕ → ℝ} {dt : ℝ} {ops : List Op} {s s1 : Est} (h : run mem dt ops = .ok s) (hon : (Config.of ops).on = true) (hw : Waits s)
    (hp : exec s .getPrediction = .ok s1) (x : Fin 35 → ℝ) :
    ∃ s2, exec s1 (.setFlexibilityGuess (column ⟨35, x⟩)) = .ok s2 ∧ exec s2 .getFlexibilityVector = exec s1 .getFlexibilityVector := by
  have hi := inv_run h
  have i1 := inv_exec hi _ hp
  refine ⟨_, setGuess_live i1 x, ?_⟩
  have hc := (has_run h).on
  simp only [exec, Res.bind_eq_ok] at hp
  obtain ⟨f, hf, e⟩ := hp
  cases e
  obtain ⟨x0, hx⟩ := hi.f.x
  have hf' := hf
  simp only [updateStatePrediction, getCurrentTime, hx, Res.ok_bind] at hf
  have hy : f.y = s.ekf.y := (updateState_upd hi.f.reach hf').y
  exact getVector_x i1 (by show f.y.v ≠ []; rw [hy]; exact hw) (by show s.on = true; rw [hc, hon]) (prediction_sets hf) _

theorem forces_eq {mem : ℕ → ℕ → ℕ → ℝ} {dt : ℝ} {ops : List Op} {s t : Est} (h : run mem dt ops = .ok s) (ht : exec s .getFlexibilityVector = .ok t) :
    s.getForcesAndMoments = (if 12 + (Config.of ops).nb * 6 ≤ 35 then .ok (⟨(Config.of ops).nb * 6, seg _ t.lastX.val 12⟩, t) else .assertFail) := by
  have hc := has_exec (inv_run h) (has_run h) _ ht
  obtain ⟨l, hl⟩ := (inv_exec (inv_run h) _ ht).lastX
  have ht' : s.getFlexibilityVector = .ok t := ht
  have hnb : t.sys.nb = (Config.of ops).nb := hc.nb
  have hs : t.lastX.size = 35 := by rw [hl]
  simp only [Est.getForcesAndMoments, ht', Res.ok_bind]
  split_ifs with h1 h2 h2
  · rw [hnb]
  · omega
  · omega
  · rfl

/-- The forces and moments are the components of the contacts for one and two contacts. -/
theorem C98_forces_partial {mem : ℕ → ℕ → ℕ → ℝ} {dt : ℝ} {ops : List Op} {s t : Est} (h : run mem dt ops = .ok s) (ht : exec s .getFlexibilityVector = .ok t) (hn : (Config.of ops).nb ≤ 2) :
    ∃ v, s.getForcesAndMoments = .ok (v, t) ∧ v.size = 6 * (Config.of ops).nb ∧ ∀ i, i < v.size → at1 v i = at1 t.lastX (12 + i) := by
  obtain ⟨l, hl⟩ := (inv_exec (inv_run h) _ ht).lastX
  refine ⟨_, (forces_eq h ht).trans (if_pos (by omega)), by simp [mul_comm], fun i hi => ?_⟩
  have hi : i < (Config.of ops).nb * 6 := hi
  rw [Elastic.at1_mk _ _ hi]
  rfl

/-- For three contacts the unmodelled forces are returned as the forces of the third one, and for four contacts or more the call fails an assertion. -/
theorem C98_forces_false {mem : ℕ → ℕ → ℕ → ℝ} {dt : ℝ} {ops : List Op} {s t : Est} (h : run mem dt ops = .ok s) (ht : exec s .getFlexibilityVector = .ok t) :
    ((Config.of ops).nb = 3 → ∃ v, s.getForcesAndMoments = .ok (v, t) ∧ v.size = 18 ∧ ∀ i < 6, at1 v (12 + i) = at1 t.lastX (24 + i)) ∧
      (4 ≤ (Config.of ops).nb → s.getForcesAndMoments = .assertFail) := by
  constructor
  · intro h3
    refine ⟨_, (forces_eq h ht).trans (if_pos (by omega)), by simp [h3], fun i hi => ?_⟩
    rw [Elastic.at1_mk _ _ (show 12 + i < (Config.of ops).nb * 6 by omega)]
    simp only [seg, Elastic.at1, show 12 + (12 + i) = 24 + i by omega]
  · intro h4
    exact (forces_eq h ht).trans (if_neg (by omega))

end StateObs.ModelFlex
