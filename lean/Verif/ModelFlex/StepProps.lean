import Verif.ModelFlex.StepLemmas
import Verif.ModelFlex.GuessProps
/-!
# C96: one estimation is one step of the extended Kalman filter on the model of the robot

`s.ekf.x` is the state of the filter with its time, `s.ekf.y` the measurements that wait, `s.ekf.u` the inputs that are stored, `s.ekf.st.pr` what `getFlexibilityCovariance()` returns,
`s.Q` and `s.R` what `getProcessNoiseCovariance()` and `getMeasurementNoiseCovariance()` return, `s.sys` the model of the robot (Verif/Elastic) and `t.lastX` after a call of
`getFlexibilityVector()` the vector it returned. `predCov`, `gain`, `innovCov` and `posterior` are the formulas of textbooks (Verif/Kalman/Spec.lean).
-/

namespace StateObs.ModelFlex
open StateObs KF KFSpec Imu Rot Kine Matrix Obs
open StateObs.Elastic (at1 bump Estimated)
open StateObs.KO (at3)

/-- The steps of the finite differences: 1e-4 for orientation and angular velocity, 1e-8 for the other components. -/
noncomputable def fdStep (j : Fin 35) : ℝ := if (3 ≤ j.val ∧ j.val < 6) ∨ (9 ≤ j.val ∧ j.val < 12) then 1e-4 else 1e-8

/-- `A` is the Jacobian by finite differences of the dynamics of the robot `f` about `x`, whose next state is `xb`; the columns of the parts that are not estimated are those of the
identity matrix. -/
def StateJacobian (f : Elastic.Sys Unit) (x a : DVec) (xb : Fin 35 → ℝ) (A : Matrix (Fin 35) (Fin 35) ℝ) : Prop := ∀ j : Fin 35,
  (Estimated f j → ∃ (z : Fin 35 → ℝ) (f' : Elastic.Sys Unit), f.stateDynamics (bump x j (fdStep j)) a () = .ok (⟨35, z⟩, f', ()) ∧ ∀ i, A i j = (z i - xb i) / fdStep j) ∧
  (¬ Estimated f j → ∀ i, A i j = if i = j then 1 else 0)

/-- `C` is the Jacobian by finite differences of the measurement of the robot `f` about `xb`, whose measurement is `yb`; the columns of the parts that are not estimated are null. -/
def MeasureJacobian {m : ℕ} (f : Elastic.Sys Unit) (xb u : DVec) (k : Int) (yb : Fin m → ℝ) (C : Matrix (Fin m) (Fin 35) ℝ) : Prop := ∀ j : Fin 35,
  (Estimated f j → ∃ (z : Fin m → ℝ) (f' : Elastic.Sys Unit), f.measureDynamics (bump xb j (fdStep j)) u k () = .ok (⟨m, z⟩, f', ()) ∧ ∀ i, C i j = (z i - yb i) / fdStep j) ∧
  (¬ Estimated f j → ∀ i, C i j = 0)

/-- The state with orientation `o` and, with limits, the forces of the contacts limited (C95: the second triple is the force of the second contact). -/
noncomputable def finalState (s : Est) (z : Fin 35 → ℝ) (o : V3) (i : Fin 35) : ℝ :=
  if h : 3 ≤ i.val ∧ i.val < 6 then o ⟨i.val - 3, by omega⟩
  else if h : 12 ≤ i.val ∧ i.val < 15 ∧ s.limOn = true then max (min (z i) (s.limF ⟨i.val - 12, by omega⟩)) (- s.limF ⟨i.val - 12, by omega⟩)
  else if h : 18 ≤ i.val ∧ i.val < 21 ∧ s.limOn = true then max (min (z i) (s.limT ⟨i.val - 18, by omega⟩)) (- s.limT ⟨i.val - 18, by omega⟩)
  else z i

theorem final_eq (s : Est) (z : Fin 35 → ℝ) (o : V3) : s.saturate (setSeg z Elastic.iOri o) = finalState s z o := by
  funext i
  rw [saturate_at]
  unfold finalState
  by_cases h3 : 3 ≤ i.val ∧ i.val < 6
  · have e : setSeg z Elastic.iOri o i = o ⟨i.val - 3, by omega⟩ := dif_pos (by simp only [Elastic.iOri]; omega)
    rw [dif_pos h3, dif_neg (by omega), dif_neg (by omega), ite_self, e]
  · have e : setSeg z Elastic.iOri o i = z i := dif_neg (by simp only [Elastic.iOri]; omega)
    rw [dif_neg h3, e]
    unfold clamp
    split_ifs with a b c d e f g h <;> first | rfl | omega | (simp_all)

theorem dx_at {k : Int} {f : Filter} (hf : FInv k f) (j : Fin 35) : at1 f.st.ext.sys.dx j = fdStep j := by
  rw [hf.dx, Elastic.at1_mk _ _ j.2]
  unfold defaultDx fdStep setSeg
  simp only [Elastic.iOri, Elastic.iAngVel, Fin.eta]
  have := j.2
  by_cases h1 : 3 ≤ j.val ∧ j.val < 6
  · rw [if_pos (Or.inl h1), dif_neg (by omega), dif_pos (by omega)]
  · by_cases h2 : 9 ≤ j.val ∧ j.val < 12
    · rw [if_pos (Or.inr h2), dif_pos (by omega)]
    · rw [if_neg (by omega), dif_neg (by omega), dif_neg (by omega)]

theorem stateJacobian_iff {f : Elastic.Sys Unit} {x a : DVec} {xb : Fin 35 → ℝ} {JA : List (Fin 35 → ℝ)} (hr : Reach f) (hn : f.noise = none) (hd : ∀ j : Fin 35, at1 f.dx j = fdStep j)
    (h : List.Forall₂ (Elastic.StateColumn f x a ⟨35, xb⟩ ()) (List.finRange 35) JA) : StateJacobian f x a xb (fun i j => JA.getD j 0 i) := by
  obtain ⟨dt, ops, e⟩ := hr
  obtain ⟨-, hc⟩ := Elastic.forall₂_finRange h
  intro j
  obtain ⟨c, ec, hc⟩ := hc j
  have e0 : ∀ i, (JA.getD j 0 : Fin 35 → ℝ) i = c i := fun i => by rw [List.getD_eq_getElem?_getD, ec]; rfl
  unfold Elastic.StateColumn at hc
  refine ⟨fun hE => ?_, fun hE i => ?_⟩
  · rw [if_pos ((Elastic.active_iff f j).2 hE)] at hc
    obtain ⟨-, -, -, ⟨n, z⟩, f', ez, hz, hc⟩ := hc
    simp only at hz
    subst hz
    rw [hd] at ez hc
    refine ⟨z, f', ez, fun i => ?_⟩
    refine (e0 i).trans ?_
    rw [hc, Elastic.at1_mk _ _ i.2, Elastic.at1_mk _ _ i.2]
  · rw [if_neg (fun h => hE ((Elastic.active_iff f j).1 h))] at hc
    refine (e0 i).trans ?_
    rw [hc, Pi.single_apply]

theorem measureJacobian_iff {m : ℕ} {f : Elastic.Sys Unit} {xb u : DVec} {k : Int} {yb : Fin m → ℝ} {JC : List DVec} (hm : f.measSize = m) (hd : ∀ j : Fin 35, at1 f.dx j = fdStep j)
    (h : List.Forall₂ (Elastic.MeasColumn f xb u ⟨m, yb⟩ k ()) (List.finRange 35) JC) : MeasureJacobian f xb u k yb (fun i j => dcoeff (JC.getD j ⟨0, 0⟩) i) := by
  subst hm
  obtain ⟨-, hc⟩ := Elastic.forall₂_finRange h
  intro j
  obtain ⟨c, ec, hs, hc⟩ := hc j
  have e0 : ∀ i, dcoeff (JC.getD j ⟨0, 0⟩) i = at1 c i := fun i => by rw [List.getD_eq_getElem?_getD, ec]; rfl
  refine ⟨fun hE => ?_, fun hE i => ?_⟩
  · rw [if_pos ((Elastic.active_iff f j).2 hE)] at hc
    obtain ⟨-, -, -, ⟨n, z⟩, f', ez, hz, hc⟩ := hc
    simp only at hz
    subst hz
    rw [hd] at ez hc
    refine ⟨z, f', ez, fun i => ?_⟩
    refine (e0 i).trans ?_
    rw [hc i i.2, Elastic.at1_mk _ _ i.2, Elastic.at1_mk _ _ i.2]
  · rw [if_neg (fun h => hE ((Elastic.active_iff f j).1 h))] at hc
    exact (e0 i).trans (hc i)

/-- **C96**: in a state reached without asking for predictions, with Jacobians by finite differences and a measurement `w` that waits, an estimation that returns is one step of the
extended Kalman filter. The input `a` of the current time gives the predicted state, the input `u` of the next time the predicted measurement; the Jacobians are taken about the current
state and about the predicted one. The state is corrected by the Kalman gain, its orientation is brought back to a small angle, and the forces are limited.
The last three equations are what `getLastPrediction()`, `getLastPredictedMeasurement()` and `getInnovation()` return afterwards. -/
theorem C96_step {mem : ℕ → ℕ → ℕ → ℝ} {dt : ℝ} {ops : List Op} {s t : Est} (h : run mem dt ops = .ok s) (hp : ∀ op ∈ ops, op.predicts = false) (hon : s.on = true) (hfd : s.fd = true)
    {x : DVec} (hx : s.ekf.x = some (x, s.k)) {w : Fin s.sys.measSize → ℝ} (hy : s.ekf.y = ⟨s.k + 1, [⟨_, w⟩]⟩)
    {P Q : Matrix (Fin 35) (Fin 35) ℝ} {R : Matrix (Fin s.sys.measSize) (Fin s.sys.measSize) ℝ} (eP : s.ekf.st.pr = ⟨35, 35, P⟩) (eQ : s.Q = ⟨35, 35, Q⟩) (eR : s.R = ⟨_, _, R⟩)
    (hP : P.PosSemidef) (hQ : Q.PosSemidef) (hR : R.PosSemidef) (ht : exec s .getFlexibilityVector = .ok t) :
    ∃ a u, s.ekf.u = ⟨s.k, [a, u]⟩ ∧ ∃ xb yb s1 s2 A C, s.sys.stateDynamics x a () = .ok (⟨35, xb⟩, s1, ()) ∧ s1.measureDynamics ⟨35, xb⟩ u (s.k + 1) () = .ok (⟨s.sys.measSize, yb⟩, s2, ()) ∧
      StateJacobian s.sys x a xb A ∧ MeasureJacobian s1 ⟨35, xb⟩ u (s.k + 1) yb C ∧ (innovCov C R (predCov A Q P)).PosDef ∧
      t.ekf.st.pr = ⟨35, 35, posterior C R (predCov A Q P)⟩ ∧ t.ekf.st.a = ⟨35, 35, A⟩ ∧ t.ekf.st.c = ⟨_, _, C⟩ ∧
      ∃ o, regulateOrientationVector (seg 3 (xb + gain C R (predCov A Q P) *ᵥ (w - yb)) 3) = .ok o ∧
        t.lastX = ⟨35, finalState s (xb + gain C R (predCov A Q P) *ᵥ (w - yb)) o⟩ ∧
        t.k = s.k + 1 ∧ t.ekf.x = some (t.lastX, s.k + 1) ∧ t.ekf.y.v = [] ∧ t.ekf.u = ⟨s.k + 1, [u]⟩ ∧
        val t.ekf.st.xbar = .ok ⟨35, xb⟩ ∧ val t.ekf.st.ybar = .ok ⟨_, yb⟩ ∧ t.ekf.st.innovation = ⟨35, gain C R (predCov A Q P) *ᵥ (w - yb)⟩ := by
  have hi := inv_run h
  have hpast : Past s.k s.ekf := fresh_run h hp
  obtain ⟨f1, f, z, o, hj, hs, hz, ho, rfl⟩ := getVector_ok hi hon (by rw [hy]; simp) ht
  rw [hfd] at hj
  obtain ⟨a, u, xb, yb, s1, s2, s3, s4, JA, JC, hU, h1, h2, h3, h4, rfl⟩ := jac_ok hi.f hx hpast hj
  have r0 := hi.f.reach
  have n0 := hi.f.noise
  have sn0 := hi.f.snoise
  have r1 : Reach s1 := r0.exec (.stateDynamics x a) (by simp only [Elastic.exec, h1, Res.ok_bind])
  have e1 := Elastic.stateDynamics_eff r0.inv h1
  obtain ⟨c1, c2⟩ := four_ok r0.inv n0 sn0 h1 h2 h3 h4
  obtain ⟨e2, -⟩ := Elastic.measureDynamics_eff r1.inv h2
  have e3 := Elastic.stateDynamicsJacobian_eff (e2.inv r1.inv) h3
  have e4 := Elastic.measureDynamicsJacobian_eff (e3.inv (e2.inv r1.inv)) h4
  have hm1 : s1.measSize = s.sys.measSize := e1.same.measSize
  have hm4 : s4.measSize = s.sys.measSize := (e4.same.trans (e3.same.trans (e2.same.trans e1.same))).measSize
  have hxs : xb.size = 35 := by
    obtain ⟨dt', ops', e⟩ := r0
    obtain ⟨-, -, -, -, hs, -⟩ := Elastic.C90_motion dt' () () () ops' _ _ _ _ _ e n0 h1
    exact hs
  have hys : yb.size = s.sys.measSize := by
    obtain ⟨dt', ops', e⟩ := r1
    exact ((Elastic.C91_size dt' () () () ops' _ _ _ _ _ _ e (e1.same.snoise.trans sn0) h2).2).trans hm1
  obtain ⟨nx, xb⟩ := xb
  obtain ⟨ny, yb⟩ := yb
  simp only at hxs hys
  subst hxs hys
  have hd1 : ∀ j : Fin 35, at1 s1.dx j = fdStep j := fun j => by rw [e1.same.dx]; exact dx_at hi.f j
  have jA := stateJacobian_iff r0 n0 (dx_at hi.f) c1
  have jC := measureJacobian_iff hm1 hd1 c2
  have hm : HasMats (jacFilter s.ekf s.k ⟨35, xb⟩ ⟨_, yb⟩ u JA JC s4).st 35 s.sys.measSize (fun i j => JA.getD j 0 i) Q P (fun i j => dcoeff (JC.getD j ⟨0, 0⟩) i) R :=
    ⟨hi.f.nt, hi.f.mt, rfl, hi.q.trans eQ, eP, by show ofDCols s4.measSize JC = _; rw [hm4]; rfl, hi.r.trans eR⟩
  obtain ⟨pd, hg⟩ := (oneStep_of (f := jacFilter s.ekf s.k ⟨35, xb⟩ ⟨_, yb⟩ u JA JC s4) (x := x) (w := w) hx hm hi.f.arith rfl rfl hy hQ hP).1 f hR hs
  subst hg
  refine ⟨a, u, hU, xb, yb, s1, s2, _, _, h1, h2, jA, jC, pd, rfl, rfl, by show ofDCols s4.measSize JC = _; rw [hm4]; rfl, o, ?_, ?_, rfl, rfl, rfl, ?_, rfl, rfl, rfl⟩
  · simp only [Option.some.injEq, Prod.mk.injEq, DVec.mk_eq, and_true] at hz
    rw [hz]
    exact ho
  · simp only [Option.some.injEq, Prod.mk.injEq, DVec.mk_eq, and_true] at hz
    rw [hz, ← final_eq]
  · show from_ (s.k + 1) s.ekf.u = _
    rw [hU]
    simp [from_, dropUpTo]

/-! ## Return -/

theorem at1_bump (x : DVec) (j i : ℕ) (d : ℝ) (h : i < x.size) : at1 (bump x j d) i = if i = j then at1 x i + d else at1 x i := by
  have h' : i < (bump x j d).size := h
  unfold at1
  rw [dif_pos h, dif_pos h']
  rfl

/-- Two states with almost the same bias. -/
def NearBias (z x : DVec) : Prop := |at1 z 30 - at1 x 30| ≤ 1e-8 ∧ |at1 z 31 - at1 x 31| ≤ 1e-8

theorem NearBias.refl (x : DVec) : NearBias x x := by unfold NearBias; norm_num

theorem bias_bump (x : DVec) (hx : x.size = 35) (j : Fin 35) : NearBias (bump x j (fdStep j)) x := by
  unfold NearBias
  rw [at1_bump _ _ _ _ (by omega), at1_bump _ _ _ _ (by omega)]
  have hd : 30 = j.val ∨ 31 = j.val → fdStep j = 1e-8 := fun h => by unfold fdStep; rw [if_neg (by omega)]
  constructor
  · split_ifs with h
    · rw [hd (Or.inl h), add_sub_cancel_left, abs_of_pos (by norm_num)]
    · norm_num
  · split_ifs with h
    · rw [hd (Or.inr h), add_sub_cancel_left, abs_of_pos (by norm_num)]
    · norm_num

theorem fdStep_pos (j : Fin 35) : 0 < fdStep j := by
  unfold fdStep
  split_ifs <;> norm_num

/-- The inertia about the centre of mass is positive definite, for the biases that the finite differences try. -/
def GoodInertia (f : Elastic.Sys Unit) (x v : DVec) : Prop :=
  ∀ z : DVec, NearBias z x → (Elastic.sym v 9 + f.mass • skewSymmetric2 (at3 v 0 - Elastic.bias f z)).PosDef

theorem meas_of_good {s : Elastic.Sys Unit} (hr : Reach s) (hn : s.sensor.noise = none) (he : s.efforts = true) {x u : DVec} (hx : x.size = 35) (hu : u.size = 48 + 12 * s.nb) (k : Int)
    (hm : s.mass ≠ 0) (hb : s.nb ≤ 2) (hI : (Elastic.sym u 9 + s.mass • skewSymmetric2 (at3 u 0 - Elastic.bias s x)).PosDef) : ∃ z s', s.measureDynamics x u k () = .ok (z, s', ()) := by
  have hi := hr.inv
  obtain ⟨dt, ops, hr⟩ := hr
  obtain ⟨a, α, s', h⟩ := Elastic.C87_return dt () () ops s x u hr hx hu hm (fun _ => hb) hI
  obtain ⟨rt, -, e⟩ := Elastic.computeAccelerations_eq hi.rot x u hx hu
  rw [e] at h
  obtain ⟨w, hw, -⟩ := Res.bind_eq_ok.1 h
  exact Elastic.measure_live hi hn hx hu he hw fun _ => by omega

theorem model_live {f : Elastic.Sys Unit} {x a u : DVec} {k : Int} (r0 : Reach f) (n0 : f.noise = none) (sn0 : f.sensor.noise = none) (hd0 : ∀ j : Fin 35, at1 f.dx j = fdStep j) (hds : f.dx.size = 35)
    (hxs : x.size = 35) (hsa : a.size = 48 + 12 * f.nb) (hsu : u.size = 48 + 12 * f.nb) (hm : f.mass ≠ 0) (hc : f.model = 1) (hb : f.nb ≤ 2) (ha : GoodInertia f x a) (hu' : GoodInertia f x u) :
    ∃ xb yb s1 s2 JA JC, f.stateDynamics x a () = .ok (xb, s1, ()) ∧ s1.measureDynamics xb u k () = .ok (yb, s2, ()) ∧ xb.size = 35 ∧ yb.size = f.measSize ∧ Reach s1 ∧
      s1.measSize = f.measSize ∧ (∀ j : Fin 35, at1 s1.dx j = fdStep j) ∧
      List.Forall₂ (Elastic.StateColumn f x a xb ()) (List.finRange 35) JA ∧ List.Forall₂ (Elastic.MeasColumn s1 xb u yb k ()) (List.finRange 35) JC := by
  -- the step
  have step : ∀ z : DVec, z.size = 35 → NearBias z x → ∃ y s', f.stateDynamics z a () = .ok (y, s', ()) := fun z hz hs => by
    obtain ⟨dt', ops', e⟩ := r0
    exact Elastic.C90_return dt' () () ops' _ z a e n0 hz hsa hm hc hb (ha _ hs)
  obtain ⟨xb, s1, h1⟩ := step x hxs (.refl x)
  have size1 : ∀ {z y : DVec} {s'}, f.stateDynamics z a () = .ok (y, s', ()) → y.size = 35 := by
    intro z y s' e'
    obtain ⟨dt', ops', e⟩ := r0
    obtain ⟨-, -, -, -, hs, -⟩ := Elastic.C90_motion dt' () () () ops' _ _ _ _ _ e n0 e'
    exact hs
  have hxb := size1 h1
  have r1 : Reach s1 := r0.exec (.stateDynamics x a) (by simp only [Elastic.exec, h1, Res.ok_bind])
  have e1 := Elastic.stateDynamics_eff r0.inv h1
  have he := (step_keepY r0.inv n0 h1).2
  have sn1 : s1.sensor.noise = none := e1.same.snoise.trans sn0
  have hbias : at1 xb 30 = at1 x 30 ∧ at1 xb 31 = at1 x 31 := by
    obtain ⟨dt', ops', e⟩ := r0
    obtain ⟨-, hk⟩ := Elastic.C90_rest dt' () () () ops' _ _ _ _ _ e n0 h1
    exact ⟨hk 30 le_rfl (by norm_num), hk 31 (by norm_num) (by norm_num)⟩
  have hbs : ∀ z, Elastic.bias s1 z = Elastic.bias f z := fun z => by unfold Elastic.bias; rw [e1.same.withBias]
  -- the measurement
  have meas : ∀ z : DVec, z.size = 35 → NearBias z xb → ∃ y s', s1.measureDynamics z u k () = .ok (y, s', ()) := fun z hz hs =>
    meas_of_good r1 sn1 he hz (by rw [e1.same.nb]; exact hsu) _ (by rw [e1.same.mass]; exact hm) (by rw [e1.same.nb]; exact hb)
      (by rw [e1.same.mass, hbs]; exact hu' _ (by unfold NearBias at hs ⊢; rwa [hbias.1, hbias.2] at hs))
  have hm1 : s1.measSize = f.measSize := e1.same.measSize
  obtain ⟨yb, s2, h2⟩ := meas xb hxb (.refl xb)
  have size2 : ∀ {z y : DVec} {s'}, s1.measureDynamics z u k () = .ok (y, s', ()) → y.size = s1.measSize := by
    intro z y s' e'
    obtain ⟨dt', ops', e⟩ := r1
    exact (Elastic.C91_size dt' () () () ops' _ _ _ _ _ _ e sn1 e').2
  have hd1 : ∀ j : Fin 35, at1 s1.dx j = fdStep j := fun j => by rw [e1.same.dx]; exact hd0 j
  have colA : ∀ j : Fin 35, ∃ c, Elastic.StateColumn f x a xb () j c := by
    intro j
    unfold Elastic.StateColumn
    by_cases hact : f.active j = true
    · obtain ⟨z, s', e⟩ := step (bump x j (fdStep j)) hxs (bias_bump _ hxs j)
      simp only [if_pos hact, hd0]
      exact ⟨fun i => (at1 z i - at1 xb i) / fdStep j, by rw [hds]; exact j.2, (fdStep_pos j).ne', hxb, z, s', e, size1 e, fun _ => rfl⟩
    · simp only [if_neg hact]
      exact ⟨_, rfl⟩
  have colC : ∀ j : Fin 35, ∃ c, Elastic.MeasColumn s1 xb u yb k () j c := by
    intro j
    unfold Elastic.MeasColumn
    by_cases hact : s1.active j = true
    · obtain ⟨z, s', e⟩ := meas (bump xb j (fdStep j)) hxb (bias_bump _ hxb j)
      simp only [if_pos hact, hd1]
      exact ⟨⟨s1.measSize, fun i => (at1 z i - at1 yb i) / fdStep j⟩, rfl, by rw [e1.same.dx, hds]; exact j.2, (fdStep_pos j).ne', size2 h2, z, s', e, size2 e,
        fun i hi => Elastic.at1_mk _ _ hi⟩
    · simp only [if_neg hact]
      exact ⟨⟨s1.measSize, 0⟩, rfl, fun i => Elastic.at1_zero _ _⟩
  choose cA hcA using colA
  choose cC hcC using colC
  have fA : List.Forall₂ (Elastic.StateColumn f x a xb ()) (List.finRange 35) ((List.finRange 35).map cA) := by
    rw [List.forall₂_map_right_iff]
    exact List.forall₂_same.2 fun i _ => hcA i
  have fC : List.Forall₂ (Elastic.MeasColumn s1 xb u yb k ()) (List.finRange 35) ((List.finRange 35).map cC) := by
    rw [List.forall₂_map_right_iff]
    exact List.forall₂_same.2 fun i _ => hcC i
  exact ⟨xb, yb, s1, s2, _, _, h1, h2, hxb, (size2 h2).trans hm1, r1, hm1, hd1, fA, fC⟩

/-- **C96**, return: with a mass, elastic contacts, at most two of them, inertias that are positive definite about the centres of mass and a noise of the measurements that is positive
definite, the estimation returns, except when the corrected orientation is so large that bringing it back to a small angle is undefined (C42). -/
theorem C96_return {mem : ℕ → ℕ → ℕ → ℝ} {dt : ℝ} {ops : List Op} {s : Est} (h : run mem dt ops = .ok s) (hp : ∀ op ∈ ops, op.predicts = false) (hon : s.on = true) (hfd : s.fd = true)
    {x : DVec} (hx : s.ekf.x = some (x, s.k)) {w : Fin s.sys.measSize → ℝ} (hy : s.ekf.y = ⟨s.k + 1, [⟨_, w⟩]⟩) {a u : DVec} (hu : s.ekf.u = ⟨s.k, [a, u]⟩)
    {P Q : Matrix (Fin 35) (Fin 35) ℝ} {R : Matrix (Fin s.sys.measSize) (Fin s.sys.measSize) ℝ} (eP : s.ekf.st.pr = ⟨35, 35, P⟩) (eQ : s.Q = ⟨35, 35, Q⟩) (eR : s.R = ⟨_, _, R⟩)
    (hP : P.PosSemidef) (hQ : Q.PosSemidef) (hR : R.PosDef) (hm : s.sys.mass ≠ 0) (hc : s.sys.model = 1) (hb : s.sys.nb ≤ 2) (ha : GoodInertia s.sys x a) (hu' : GoodInertia s.sys x u) :
    (∃ t, exec s .getFlexibilityVector = .ok t) ∨
      exec s .getFlexibilityVector = .ub ∧ ∃ xb yb s1 s2 A C, s.sys.stateDynamics x a () = .ok (⟨35, xb⟩, s1, ()) ∧ s1.measureDynamics ⟨35, xb⟩ u (s.k + 1) () = .ok (⟨s.sys.measSize, yb⟩, s2, ()) ∧
        StateJacobian s.sys x a xb A ∧ MeasureJacobian s1 ⟨35, xb⟩ u (s.k + 1) yb C ∧
        regulateOrientationVector (seg 3 (xb + gain C R (predCov A Q P) *ᵥ (w - yb)) 3) = .ub := by
  have hi := inv_run h
  have hpast : Past s.k s.ekf := fresh_run h hp
  have r0 : Reach s.sys := hi.f.reach
  have n0 : s.sys.noise = none := hi.f.noise
  have sn0 : s.sys.sensor.noise = none := hi.f.snoise
  have hxs : x.size = 35 := by
    obtain ⟨x', e⟩ := hi.f.x
    rw [hx] at e
    cases e
    rfl
  obtain ⟨hsa, hsu⟩ : a.size = 48 + 12 * s.sys.nb ∧ u.size = 48 + 12 * s.sys.nb := by
    rcases hi.f.u with e | ⟨a', e⟩ | ⟨a', b', e⟩
    · rw [hu] at e; cases e
    · rw [hu] at e; cases e
    · rw [hu] at e
      cases e
      exact ⟨rfl, rfl⟩
  have hds : s.sys.dx.size = 35 := by
    have : s.sys.dx = ⟨35, defaultDx⟩ := hi.f.dx
    rw [this]
  obtain ⟨xb, yb, s1, s2, JA, JC, h1, h2, hxb, hys, r1, hm1, hd1, fA, fC⟩ := model_live (k := s.k + 1) r0 n0 sn0 (dx_at hi.f) hds hxs hsa hsu hm hc hb ha hu'
  obtain ⟨s3, s4, h3, h4⟩ := four_live r0.inv n0 sn0 h1 h2 fA fC
  have e1 := Elastic.stateDynamics_eff r0.inv h1
  obtain ⟨e2, -⟩ := Elastic.measureDynamics_eff r1.inv h2
  have e3 := Elastic.stateDynamicsJacobian_eff (e2.inv r1.inv) h3
  have e4 := Elastic.measureDynamicsJacobian_eff (e3.inv (e2.inv r1.inv)) h4
  have hm4 : s4.measSize = s.sys.measSize := (e4.same.trans (e3.same.trans (e2.same.trans e1.same))).measSize
  have hj := jac_live hi.f hx hpast hu h1 h2 h3 h4 hm4
  obtain ⟨nx, xb⟩ := xb
  obtain ⟨ny, yb⟩ := yb
  simp only at hxb hys
  subst hxb hys
  have jA := stateJacobian_iff r0 n0 (dx_at hi.f) fA
  have jC := measureJacobian_iff hm1 hd1 fC
  have hM : HasMats (jacFilter s.ekf s.k ⟨35, xb⟩ ⟨_, yb⟩ u JA JC s4).st 35 s.sys.measSize (fun i j => JA.getD j 0 i) Q P (fun i j => dcoeff (JC.getD j ⟨0, 0⟩) i) R :=
    ⟨hi.f.nt, hi.f.mt, rfl, hi.q.trans eQ, eP, by show ofDCols s4.measSize JC = _; rw [hm4]; rfl, hi.r.trans eR⟩
  obtain ⟨k1, k2⟩ := oneStep_of (f := jacFilter s.ekf s.k ⟨35, xb⟩ ⟨_, yb⟩ u JA JC s4) (x := x) (w := w) hx hM hi.f.arith rfl rfl hy hQ hP
  obtain ⟨g, hg⟩ := k2 hR
  obtain ⟨-, eg⟩ := k1 g hR.posSemidef hg
  have key := getVector_of hi hon (by rw [hy]; simp) (by rw [hfd]; exact hj) hg (z := xb + gain (fun i j => dcoeff (JC.getD j ⟨0, 0⟩) i) R (predCov (fun i j => JA.getD j 0 i) Q P) *ᵥ (w - yb)) (by rw [eg]) (by rw [hu]; simp)
  rcases key with ⟨t, ht⟩ | ⟨ht, hub⟩
  · exact Or.inl ⟨t, ht⟩
  · exact Or.inr ⟨ht, xb, yb, s1, s2, _, _, h1, h2, jA, jC, hub⟩

end StateObs.ModelFlex
