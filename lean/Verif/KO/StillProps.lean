import Verif.KO.MovedProps
import Verif.KO.NewtonFalse
import Verif.KO.PredictFalse
import Verif.KO.ImuProps
import Verif.KO.AgreeProps
import Verif.Imu.CacheProps
/-!
# Property C148: a robot that stands still
-/

namespace StateObs.KO
open StateObs Matrix Rot Kine KF
open Observer

variable {nc ni : ℕ} {o o' oy : Observer} {c c' : Client} {x x' : DVec}

/-! ## Specification -/

/-- The robot of the state vector has no velocity, and no acceleration according to `estimateAccelerations()`. -/
def Resting (o : Observer) (x : DVec) : Prop := RobotIn o x ⟨statePos x, (stateOri x).toMat, 0, 0, 0, 0⟩

/-- The IMUs of the iteration do not move in the robot; their accelerometers measure the gravity in their frames, their gyrometers zero. -/
def ReadsGravity (o : Observer) (x : DVec) : Prop := ∀ (i : ℕ) (m : IMU), o.imus[i]? = some m → m.time = o.kData →
  ∃ l : Mounted, m.MountedAt l ∧ l.v = 0 ∧ l.w = 0 ∧ l.a = 0 ∧ m.signal = some (signal6 (((stateOri x).toMat * l.R)ᵀ *ᵥ ![0, 0, 9.8]) 0)

/-- A client that may call `update()`, and the filter has the state vector that the observer shows. -/
structure MayUpdate (nc ni : ℕ) (c : Client) (o : Observer) : Prop where
  predicts : Predicts nc ni c o
  pending : c.pending = true
  state : c.state = true
  moved : c.contacts ⊆ c.moved
  synced : ∃ t, o.ekf.x = some (o.getCurrentStateVector, t)
  unit : Client.StateVector nc ni o.getCurrentStateVector

/-- What is expected: when the estimate is a robot that stands still on its contacts, each of them with the wrench of its spring, and the signals are those of such a robot, an
estimation does not move it. -/
def C148_statement : Prop := ∀ (nc ni : ℕ) (c : Client) (o o' : Observer), MayUpdate nc ni c o → Resting o o.getCurrentStateVector → ReadsGravity o o.getCurrentStateVector →
  (∀ n vi l, ContactIs o n vi l → l.v = 0 ∧ l.w = 0 ∧ SpringForce vi ((robotOf o.getCurrentStateVector).comp l) (contactPos ni n o.getCurrentStateVector) (contactForce ni n o.getCurrentStateVector) ∧
    SpringTorque vi ((robotOf o.getCurrentStateVector).comp l) (contactOri ni n o.getCurrentStateVector).toMat (contactTorque ni n o.getCurrentStateVector)) →
  o.update = .ok o' →
    statePos o'.getCurrentStateVector = statePos o.getCurrentStateVector ∧ (stateOri o'.getCurrentStateVector).toMat = (stateOri o.getCurrentStateVector).toMat ∧
    ∀ n ∈ c.contacts, contactForce ni n o'.getCurrentStateVector = contactForce ni n o.getCurrentStateVector

/-! ## Lemmas -/

theorem keeps_goodCov {op : Op} (h : Client.Keeps nc ni c op) : op.GoodCov := by
  cases h with
  | imuDefault a g ha hg => exact ⟨ha.posSemidef, hg.posSemidef⟩
  | stateCov P h => exact isPSD_mk.2 h
  | processCov P h => exact isPSD_mk.2 h
  | kineCov B h => exact isPSD_mk.2 h
  | kineInit B h => exact isPSD_mk.2 h
  | _ => first | exact trivial | assumption

theorem step_goodCov {op : Op} (h : Client.Step nc ni c op c') : op.GoodCov := by
  cases h with
  | keeps hk => exact keeps_goodCov hk
  | imu a g cov k n b hn h1 hk hp ho hv hcov => exact fun p hp => ⟨(hcov p hp).1.posSemidef, (hcov p hp).2.posSemidef⟩
  | addContact k cov n v b hn h1 hk hp ho hcov => exact hcov
  | _ => exact trivial

theorem run_goodCov {l : List Op} (h : Client.Run nc ni c l c') : ∀ op ∈ l, op.GoodCov := by
  induction h with
  | nil => simp
  | cons hs _ ih =>
    intro op hop
    rcases List.mem_cons.1 hop with rfl | hop
    · exact step_goodCov hs
    · exact ih op hop

theorem vec_of_one {q : Quat} (h : q.toMat = 1) : vectorComponent q = 0 := by
  have a := congrFun (congrFun h 0) 0
  have b := congrFun (congrFun h 1) 1
  have d := congrFun (congrFun h 2) 2
  simp [Quat.toMat] at a b d
  have hx : q.x = 0 := by nlinarith [sq_nonneg q.x, sq_nonneg q.y, sq_nonneg q.z]
  have hy : q.y = 0 := by nlinarith [sq_nonneg q.x, sq_nonneg q.y, sq_nonneg q.z]
  have hz : q.z = 0 := by nlinarith [sq_nonneg q.x, sq_nonneg q.y, sq_nonneg q.z]
  apply ext3 <;> simp [vectorComponent, hx, hy, hz]

theorem imuReadings_signals (read : ℕ → List ℝ) (k : Int) (L : List IMU) : ∀ n, (∀ i m, L[i]? = some m → m.time = k → (m.signal.map List.ofFn).getD [] = read (n + i)) →
    (L.flatMap fun m => if m.time = k then (m.signal.map List.ofFn).getD [] else []) = imuReadings read k n L := by
  induction L with
  | nil => exact fun _ _ => rfl
  | cons m L ih =>
    intro n h
    rw [List.flatMap_cons, imuReadings, ih (n + 1) fun i m' hm ht => by rw [h (i + 1) m' (by simpa using hm) ht]; congr 1; omega]
    congr 1
    split_ifs with ht
    · exact h 0 m rfl ht
    · rfl

theorem contactReadings_none (read : ℕ → List ℝ) (L : List Contact) (h : ∀ c ∈ L, c.withRealSensor = false) : ∀ n, contactReadings read n L = [] := by
  induction L with
  | nil => exact fun _ => rfl
  | cons c L ih =>
    intro n
    rw [contactReadings, ih (fun k hk => h k (List.mem_cons_of_mem _ hk)), h c List.mem_cons_self]
    rfl

theorem ContactIs.get {n : ℕ} {k : Contact} (hr : Ready nc ni o) (hk : o.contacts[n]? = some k) (hs : k.isSet = true) : ∃ vi l, ContactIs o n vi l := by
  have h := hr.con k (List.mem_of_getElem? hk) hs
  obtain ⟨vi, hv⟩ := h.visco
  obtain ⟨p, R, v, w, a, b, hh⟩ := h.kin
  exact ⟨vi, ⟨p, R, v, w⟩, k, a, b, hk, hs, hv, hh⟩

/-- The prediction from a robot that rests: the robot does not move, the contacts get the forces of springs to the origin of the world. -/
theorem predicted_rest (hi : Inv nc ni oy) (hr : Ready nc ni oy) (hro : Ready nc ni o) (hw : ∀ w, oy.addUnmodeledAndContactWrench x w = o.addUnmodeledAndContactWrench x w)
    (hf : oy.addForce = o.addForce) (ht : oy.addTorque = o.addTorque) (hbo : oy.body = o.body) (hmo : oy.mass = o.mass)
    (hx : Client.StateVector nc ni x) (h0 : Resting o x) :
    ∃ x', oy.stateDynamics x = .ok x' ∧ x'.size = x.size ∧ at3 x 7 = 0 ∧ at3 x 10 = 0 ∧ at3 x' 0 = at3 x 0 ∧ at3 x' 7 = 0 ∧ at3 x' 10 = 0 ∧ stateOri x' = stateOri x ∧
      (∀ j, 13 ≤ j → (∀ n, IsSet oy n → j < 19 + 3 * ni + 13 * n + 7 ∨ 19 + 3 * ni + 13 * n + 13 ≤ j) → at1 x' j = at1 x j) ∧
      (∀ n vi l, ContactIs oy n vi l → contactForce ni n x' = -(((stateOri x).toMat * l.R)ᵀ *ᵥ (vi.linStiff *ᵥ statePos x)) ∧
        ∃ q : Quat, q.normSq = 1 ∧ q.toMat = (stateOri x).toMat ∧ contactTorque ni n x' = -(((stateOri x).toMat * l.R)ᵀ *ᵥ ((0.5 : ℝ) • (vi.angStiff *ᵥ vectorComponent q)))) := by
  have hg := stateVector_good hx
  obtain ⟨W, b, ew, eb, -, -, e3, e4, e5, e6⟩ := robotIn_value hro hx h0
  rw [← hw, ← hf, ← ht] at ew
  rw [← hbo] at eb
  rw [← hmo] at e5 e6
  obtain ⟨W', a, α, k', x', ew', ec, e, hsz, -, f1, f2, f3, f4, kp, wr, fq⟩ := stateDynamics_value hi hr hg
  obtain rfl := Res.ok.inj (ew'.symm.trans ew)
  obtain ⟨b', hb, -, -, d1, d2⟩ := computeAccelerations_ok (loaded_has Kin.new (x := x) hg.quat rfl rfl) ec
  obtain rfl := Res.ok.inj (hb.symm.trans eb)
  have v0 : at3 x 7 = 0 := e3.symm
  have w0 : at3 x 10 = 0 := e4.symm
  have hα : α = 0 := d1.trans e5.symm
  subst hα
  have ha : a = 0 := d2.trans e6.symm
  subst ha
  rw [v0] at f1 f2
  rw [w0] at f3 f4 fq
  simp only [smul_zero, add_zero] at f1 f2 f3 f4 fq
  rw [Imu.rvq_zero, Quat.one_mul] at fq
  refine ⟨x', e, hsz, v0, w0, f1, f2, f4, fq, kp, fun n vi l hl => ?_⟩
  obtain ⟨k2, y, z, l1, l2, l3, l4⟩ := hl
  obtain ⟨w1, q, w0, w2, -, -, w3⟩ := wr n k2 l1 l2 vi _ _ _ _ y z l3 l4
  rw [fq] at w1 w2 w3
  rw [f2, f1, mulVec_zero, add_zero] at w1
  rw [f4, mulVec_zero, add_zero] at w3
  exact ⟨w1, q, w0, w2, w3⟩

theorem predicted_still (hi : Inv nc ni oy) (hr : Ready nc ni oy) (hro : Ready nc ni o) (hw : ∀ w, oy.addUnmodeledAndContactWrench x w = o.addUnmodeledAndContactWrench x w)
    (hf : oy.addForce = o.addForce) (ht : oy.addTorque = o.addTorque) (hbo : oy.body = o.body) (hmo : oy.mass = o.mass)
    (hx : Client.StateVector nc ni x) (h0 : Resting o x) (hu : (stateOri x).normSq = 1)
    (hc : ∀ n vi l, ContactIs oy n vi l → contactForce ni n x = -(((stateOri x).toMat * l.R)ᵀ *ᵥ (vi.linStiff *ᵥ statePos x)) ∧
      vi.angStiff *ᵥ vectorComponent (stateOri x) = 0 ∧ contactTorque ni n x = 0) : oy.stateDynamics x = .ok x := by
  obtain ⟨x', e, hsz, v0, w0, f1, f2, f4, fq, kp, wr⟩ := predicted_rest hi hr hro hw hf ht hbo hmo hx h0
  rw [e]
  congr 1
  have low3 : ∀ i, at3 x' i = at3 x i → ∀ j, i ≤ j → j < i + 3 → at1 x' j = at1 x j := by
    intro i hh j h1 h2
    rw [at3_eq, at3_eq] at hh
    have c0 := congrFun hh 0; have c1 := congrFun hh 1; have c2 := congrFun hh 2
    simp at c0 c1 c2
    obtain rfl | rfl | rfl : j = i ∨ j = i + 1 ∨ j = i + 2 := by omega
    all_goals assumption
  refine dvec_ext hsz fun j => ?_
  by_cases j13 : 13 ≤ j
  · by_cases hj : ∀ n, IsSet oy n → j < 19 + 3 * ni + 13 * n + 7 ∨ 19 + 3 * ni + 13 * n + 13 ≤ j
    · exact kp j j13 hj
    · push Not at hj
      obtain ⟨n, ⟨k, hk, hs⟩, h1, h2⟩ := hj
      obtain ⟨vi, l, hl⟩ := ContactIs.get hr hk hs
      obtain ⟨g1, g3, g2⟩ := hc n vi l hl
      obtain ⟨w1, q, wn, w2, w3⟩ := wr n vi l hl
      have hz : vi.angStiff *ᵥ vectorComponent q = 0 := by
        rcases Quat.toMat_inj wn hu w2 with rfl | rfl
        · exact g3
        · have : vectorComponent (Quat.scale (-1) (stateOri x)) = -vectorComponent (stateOri x) := by
            ext i; fin_cases i <;> simp [vectorComponent, Quat.scale]
          rw [this, mulVec_neg, g3, neg_zero]
      rw [hz] at w3
      simp only [mulVec_zero, smul_zero, neg_zero] at w3
      by_cases h3 : j < 19 + 3 * ni + 13 * n + 7 + 3
      · exact low3 _ (w1.trans g1.symm) j h1 h3
      · exact low3 _ (w3.trans g2.symm) j (by omega) (by omega)
  · by_cases j3 : j < 3
    · exact low3 0 f1 j (by omega) (by omega)
    · by_cases j7 : 7 ≤ j
      · by_cases j10 : 10 ≤ j
        · exact low3 10 (f4.trans w0.symm) j j10 (by omega)
        · exact low3 7 (f2.trans v0.symm) j j7 (by omega)
      · have q1 := congrArg Quat.w fq; have q2 := congrArg Quat.x fq; have q3 := congrArg Quat.y fq; have q4 := congrArg Quat.z fq
        obtain rfl | rfl | rfl | rfl : j = 3 ∨ j = 4 ∨ j = 5 ∨ j = 6 := by omega
        · exact q2
        · exact q3
        · exact q4
        · exact q1

/-- The contacts of the observer that packs the measurements. -/
theorem ContactIs.built {y : DVec} {cov : DMat} (hb : o.buildMeasurement = .ok (oy, y, cov)) {n : ℕ} {vi : Visco} {l : Placed} (hl : ContactIs oy n vi l) : ContactIs o n vi l := by
  obtain ⟨imus, contacts, abs, a, b, hoy, f1, f2, f3⟩ := buildMeasurement_ok hb
  obtain ⟨k, y, v, l1, l2, l3, l4⟩ := hl
  rw [hoy] at l1
  obtain ⟨m0, h3, j, rfl⟩ := forall₂_get f2 n k l1
  exact ⟨m0, y, v, h3, l2, l3, l4⟩

/-! ## Properties -/

/-- **C148** An estimation does not move a robot that stands still, as long as the contacts have the forces of springs between the robot and the origin of the world (what the code computes, C106) and
no torques, their angular springs being zero or not stretched by the orientation of the robot. Missing: the springs between the contacts and their rest poses, see `C148_false`, and the angular
springs. -/
theorem C148_partial (h : MayUpdate nc ni c o) (h0 : Resting o o.getCurrentStateVector) (hg : ReadsGravity o o.getCurrentStateVector)
    (hc : ∀ n vi l, ContactIs o n vi l → contactForce ni n o.getCurrentStateVector = -(((stateOri o.getCurrentStateVector).toMat * l.R)ᵀ *ᵥ (vi.linStiff *ᵥ statePos o.getCurrentStateVector)) ∧
      (vi.angStiff = 0 ∨ (stateOri o.getCurrentStateVector).toMat = 1) ∧ contactTorque ni n o.getCurrentStateVector = 0) :
    ∃ o', o.update = .ok o' ∧ o'.getCurrentStateVector = o.getCurrentStateVector ∧ o'.getStateVectorTimeIndex = .ok (c.steps + 1) := by
  obtain ⟨hi, hr, hsim⟩ := h.predicts.ready
  obtain ⟨o0, ops, g1, grun, g2⟩ := h.predicts.run
  have hre : Reachable nc ni ops o := ⟨o0, g1, g2⟩
  obtain ⟨o', eu, -⟩ := hsim.step (.update h.pending h.state h.predicts.dyn h.moved)
  refine ⟨o', eu, ?_⟩
  obtain ⟨oy, x0, xb, yb, ⟨z, cov, hb⟩, hx0, hF, hH, hag⟩ := C19_kinetics (run_goodCov grun) hre (hsim.pending.1 h.pending) eu
  obtain ⟨t, ht⟩ := h.synced
  rw [ht] at hx0
  obtain ⟨rfl, -⟩ := Prod.mk.inj (Option.some.inj hx0)
  obtain ⟨oy', z', cov', yb', hb', em, -, habs, -, -⟩ := C108_returns h.predicts h.pending h.state h.moved h.unit
  obtain ⟨rfl, rfl, rfl⟩ : oy = oy' ∧ z = z' ∧ cov = cov' := by
    have := Res.ok.inj (hb.symm.trans hb')
    simpa using this
  have hall : ∀ k ∈ o.contacts, k.isSet = true → k.time = o.kData := by
    intro k hk hks
    obtain ⟨i, hi⟩ := List.mem_iff_getElem?.1 hk
    exact hsim.moved h.pending i k hi (h.moved ((hsim.contacts i k hi).1 hks))
  have hcu := hsim.fed.canUpdate hr.body (hsim.state h.state).1 (hsim.pending.1 h.pending) hall
  obtain ⟨hry, -⟩ := built_packed hi hcu hb
  obtain ⟨w1, w2, w3, w4, w5, -, -⟩ := built_congr (x := o.getCurrentStateVector) hb
  have hF' : oy.stateDynamics o.getCurrentStateVector = .ok o.getCurrentStateVector := by
    exact predicted_still (inv_buildMeasurement hi hb).1 hry hr w1 w2 w3 w4 w5 h.unit h0 (unit_of h.unit) fun n vi l hl => by
      obtain ⟨b1, b2, b3⟩ := hc n vi l (hl.built hb)
      refine ⟨b1, ?_, b3⟩
      rcases b2 with b2 | b2
      · rw [b2, zero_mulVec]
      · rw [vec_of_one b2, mulVec_zero]
  obtain rfl := Res.ok.inj (hF.symm.trans hF')
  obtain rfl := Res.ok.inj (hH.symm.trans em)

  obtain ⟨l, hl⟩ : ∃ l : ℕ → Mounted, ∀ (i : ℕ) (m : IMU), o.imus[i]? = some m → m.time = o.kData → m.MountedAt (l i) ∧ (l i).v = 0 ∧ (l i).w = 0 ∧ (l i).a = 0 ∧
      m.signal = some (signal6 (((stateOri o.getCurrentStateVector).toMat * (l i).R)ᵀ *ᵥ ![0, 0, 9.8]) 0) := by
    have : ∀ i : ℕ, ∃ l : Mounted, ∀ (m : IMU), o.imus[i]? = some m → m.time = o.kData → m.MountedAt l ∧ l.v = 0 ∧ l.w = 0 ∧ l.a = 0 ∧
        m.signal = some (signal6 (((stateOri o.getCurrentStateVector).toMat * l.R)ᵀ *ᵥ ![0, 0, 9.8]) 0) := by
      intro i
      by_cases hm : ∃ m, o.imus[i]? = some m ∧ m.time = o.kData
      · obtain ⟨m, hm, ht⟩ := hm
        obtain ⟨l, hl⟩ := hg i m hm ht
        refine ⟨l, fun m' hm' _ => ?_⟩
        obtain rfl := Option.some.inj (hm.symm.trans hm')
        exact hl
      · exact ⟨⟨0, 0, 0, 0, 0⟩, fun m h1 h2 => (hm ⟨m, h1, h2⟩).elim⟩
    choose l hl using this
    exact ⟨l, hl⟩
  have hread := C108_computed_partial hre habs hb em (unit_of h.unit) h0 fun i m hm ht => (hl i m hm ht).1
  have hsig : List.ofFn yb.val = signals o := by
    rw [Readings] at hread
    rw [hread, signals]
    congr 1
    · refine (imuReadings_signals _ _ _ 0 fun i m hm ht => ?_).symm
      obtain ⟨-, v0, v1, v2, hs⟩ := hl i m hm ht
      rw [hs, zero_add]
      simp only [accelerometer, gyrometer, originAcc, v0, v1, v2]
      simp [signal6, List.ofFn_succ]
    · rw [contactReadings_none _ _ (fun k hk => (hsim.fed.con k hk).1), eq_comm, List.flatMap_eq_nil_iff]
      intro k hk
      rw [(hsim.fed.con k hk).1]
      rfl
  obtain ⟨e1, e2⟩ := hag hsig
  exact ⟨e1, by rw [e2, hsim.steps]⟩

/-! ## A robot that stands still -/

/-- The robot at the origin, with the wrench `F`, `T` that is not modeled, a contact with the rest position `e` and the force `f`, both along the first axis. -/
noncomputable def stillEntry (F T : V3) (e f : ℝ) (i : ℕ) : ℝ :=
  if i = 6 ∨ i = 28 then 1 else if i = 16 then F 0 else if i = 17 then F 1 else if i = 18 then F 2 else if i = 19 then T 0 else if i = 20 then T 1 else if i = 21 then T 2
  else if i = 22 then e else if i = 29 then f else 0

noncomputable def stillState (F T : V3) (e f : ℝ) : DVec := ⟨19 + 1 * 3 + 1 * 13, fun i => stillEntry F T e f i⟩

theorem still_at3 (F T : V3) (e f : ℝ) : at3 (stillState F T e f) 0 = 0 ∧ at3 (stillState F T e f) 7 = 0 ∧ at3 (stillState F T e f) 10 = 0 ∧ at3 (stillState F T e f) 16 = F ∧
    at3 (stillState F T e f) 19 = T ∧ at3 (stillState F T e f) 22 = ![e, 0, 0] ∧ at3 (stillState F T e f) 29 = ![f, 0, 0] ∧ at3 (stillState F T e f) 32 = 0 := by
  refine ⟨?_, ?_, ?_, ?_, ?_, ?_, ?_, ?_⟩ <;> ext i <;> fin_cases i <;> simp [at3, at1, stillState, stillEntry]

theorem still_ori (F T : V3) (e f : ℝ) : stateOri (stillState F T e f) = ⟨1, 0, 0, 0⟩ ∧ contactOri 1 0 (stillState F T e f) = ⟨1, 0, 0, 0⟩ := by
  constructor <;> simp [stateOri, contactOri, entry, at1, stillState, stillEntry]

theorem toMat_id : Quat.toMat ⟨1, 0, 0, 0⟩ = 1 := by
  ext i j
  fin_cases i <;> fin_cases j <;> simp [Quat.toMat]

/-- From any client with a contact, a state at rest. -/
theorem still_from (e f : ℝ) (hp : Predicts 1 1 c o) (hc : ContactIs o 0 ⟨1, 1, 1, 1⟩ ⟨0, 1, 0, 0⟩) (hpe : c.pending = true) (hmv : c.contacts ⊆ c.moved) :
    ∃ (c' : Client) (o5 : Observer) (F T : V3), MayUpdate 1 1 c' o5 ∧ o5.getCurrentStateVector = stillState F T e f ∧ Resting o5 o5.getCurrentStateVector ∧
      o5.imus = o.imus ∧ o5.kData = o.kData ∧ ContactIs o5 0 ⟨1, 1, 1, 1⟩ ⟨0, 1, 0, 0⟩ ∧ ∀ n vi l, ContactIs o5 n vi l → n = 0 ∧ vi = ⟨1, 1, 1, 1⟩ ∧ l = ⟨0, 1, 0, 0⟩ := by
  obtain ⟨hi, hr, hsim⟩ := hp.ready
  obtain ⟨b, hb, hm, hd⟩ := hr.body
  set F : V3 := o.mass • (gravity + b.comdd) - o.addForce - ![f, 0, 0] with hF
  set T : V3 := b.sigmad + b.com ⨯₃ (o.mass • gravity) - o.addTorque with hT
  obtain ⟨a1, a2, a3, a4, a5, a6, a7, a8⟩ := still_at3 F T e f
  obtain ⟨q1, q2⟩ := still_ori F T e f
  have hv : Client.StateVector 1 1 (stillState F T e f) := ⟨stillEntry F T e f, rfl, by simp [stillEntry]⟩
  obtain ⟨ek, ee⟩ := setStateVector_eq hi (v := stillState F T e f) rfl
  set o5 : Observer := { o with x := stillState F T e f, ekf := ek, stateKin := loaded o.stateKin (stillState F T e f) } with ho5
  have hsync : o5.ekf.x = some (stillState F T e f, o.kEst) := by
    have e4 := ee
    simp only [setStateVector, Res.bind_eq_ok] at e4
    obtain ⟨a, ha, b', hb', e4⟩ := e4
    rw [if_neg (by simp)] at e4
    rw [← Res.ok.inj e4, updateKine_shows hb']
    exact (pushState_x ha).2.1
  have hp5 : Predicts 1 1 { c with state := true } o5 := by
    obtain ⟨⟨o0, ops, g1, g2, g3⟩, g4, g5⟩ := hp
    exact ⟨⟨o0, _, g1, g2.append (.cons (.stateVector _ false hv) (.nil _)), run_append.2 ⟨o, g3, run_cons.2 ⟨o5, ee, rfl⟩⟩⟩, g4, g5⟩
  have hx5 : o5.getCurrentStateVector = stillState F T e f := rfl
  obtain ⟨hi5, hr5, hsim5⟩ := hp5.ready
  obtain ⟨oy, y, cov, yb, -, -, -, -, ⟨r, hrr⟩, -⟩ := C108_returns hp5 hpe rfl hmv hv
  have huniq : ∀ n vi l, ContactIs o5 n vi l → n = 0 ∧ vi = ⟨1, 1, 1, 1⟩ ∧ l = ⟨0, 1, 0, 0⟩ := by
    rintro n vi l ⟨k, x, y, h1, h2, h3, h4⟩
    obtain ⟨k', x', y', h1', h2', h3', h4'⟩ := hc
    have hn : n < o.contacts.length := (List.getElem?_eq_some_iff.1 h1).1
    rw [hsim.len] at hn
    obtain rfl : n = 0 := by omega
    obtain rfl := Option.some.inj (h1.symm.trans h1')
    refine ⟨rfl, Option.some.inj (h3.symm.trans h3'), ?_⟩
    have := h4.inj h4'
    simp only [Value.mk.injEq, Option.some.injEq] at this
    cases l
    simpa using ⟨this.1, this.2.1, this.2.2.1, this.2.2.2.1⟩
  refine ⟨_, o5, F, T, ⟨hp5, hpe, rfl, hmv, ⟨_, hsync⟩, hv⟩, hx5, ?_, rfl, rfl, hc, huniq⟩
  · rw [hx5]
    obtain ⟨W, b', ew, eb, r1, r2, r3, r4, r5, r6⟩ := robotIn_value hr5 hv hrr
    obtain rfl : b' = b := Res.ok.inj (eb.symm.trans hb)
    have hW : W = (o.mass • (gravity + b'.comdd), b'.sigmad + b'.com ⨯₃ (o.mass • gravity)) := by
      refine wrench_eq (o := o5) ⟨[(![f, 0, 0], 0)], ?_, ?_, ?_⟩ ew
      · obtain ⟨k, x, y, h1, h2, h3, h4⟩ := hc
        have hl : o5.contacts = [k] := by
          have := hsim.len
          obtain ⟨k2, hk2⟩ := List.length_eq_one_iff.1 this
          rw [hk2] at h1
          simp at h1
          rw [← h1]
          exact hk2
        rw [hl]
        refine .cons ?_ .nil
        have hidx := (hi5.2.conIdx 0 k (by rw [hl]; rfl) h2).1
        rw [Contact.Applies, if_pos h2]
        refine ⟨_, _, _, _, _, _, h4, ?_⟩
        have e7 : k.stateIndex.toNat + 7 = 29 := by rw [hidx]; rfl
        have e10 : k.stateIndex.toNat + 10 = 32 := by rw [hidx]; rfl
        show _ = (_ *ᵥ at3 (stillState F T e f) _, _)
        rw [e7, e10]
        show _ = (_, _ *ᵥ at3 (stillState F T e f) _ + _ ⨯₃ (_ *ᵥ at3 (stillState F T e f) _))
        rw [a7, a8]
        simp
      · have : o5.maxIMU = 1 := hi5.1.2
        rw [this]
        show _ = o.addForce + at3 (stillState F T e f) 16 + _
        rw [a4, hF]
        simp only [List.map_cons, List.map_nil, List.sum_cons, List.sum_nil]
        abel
      · have : o5.maxIMU = 1 := hi5.1.2
        rw [this]
        show _ = o.addTorque + at3 (stillState F T e f) 19 + _
        rw [a5, hT]
        simp only [List.map_cons, List.map_nil, List.sum_cons, List.sum_nil]
        abel
    have m5 : o5.mass = o.mass := rfl
    have hw0 : stateAngVel (stillState F T e f) = 0 := a3
    have hv0 : stateLinVel (stillState F T e f) = 0 := a2
    rw [hW, hw0, mulVec_zero, m5] at r5 r6
    have hco : corioCentri b' 0 = 0 := by simp [corioCentri]
    have hα : localAngAcc b' o.mass 0 (o.mass • (gravity + b'.comdd)) (b'.sigmad + b'.com ⨯₃ (o.mass • gravity)) = 0 := by
      rw [localAngAcc, hco, mulVec_zero, add_zero, ← smul_sub, add_sub_cancel_right]
      simp
    rw [hα, mulVec_zero] at r5
    rw [r5, hco, mulVec_zero, map_zero, q1, toMat_id, one_mulVec, smul_smul, one_div, inv_mul_cancel₀ hm, one_smul] at r6
    have r6' : r.a = 0 := by rw [r6]; abel
    rw [Resting]
    rw [hv0] at r3
    rw [hw0] at r4
    obtain ⟨_, _, _, _, _, _⟩ := r
    dsimp only at r1 r2 r3 r4 r5 r6'
    subst r1 r2 r3 r4 r5 r6'
    exact hrr

theorem still_exists (e f : ℝ) : ∃ (c : Client) (o : Observer) (F T : V3), MayUpdate 1 1 c o ∧ o.getCurrentStateVector = stillState F T e f ∧ Resting o o.getCurrentStateVector ∧
    (∀ m ∈ o.imus, m.time ≠ o.kData) ∧ ContactIs o 0 ⟨1, 1, 1, 1⟩ ⟨0, 1, 0, 0⟩ ∧ ∀ n vi l, ContactIs o n vi l → n = 0 ∧ vi = ⟨1, 1, 1, 1⟩ ∧ l = ⟨0, 1, 0, 0⟩ := by
  obtain ⟨c, o, l, hp, hs, -, -, hc, l1, l2, l3, l4, -, hpe, hmv, hgi⟩ := predict_full 0
  obtain ⟨lp, lR, lv, lw⟩ := l
  dsimp only at l1 l2 l3 l4
  subst l1 l2 l3 l4
  obtain ⟨hi, hr, hsim⟩ := hp.ready
  obtain ⟨c', o5, F, T, h1, h2, h3, h4, h5, h6, h7⟩ := still_from e f hp hc hpe hmv
  refine ⟨c', o5, F, T, h1, h2, h3, fun m hm ht => ?_, h6, h7⟩
  rw [h4] at hm
  rw [h5] at ht
  obtain ⟨i, hi⟩ := List.mem_iff_getElem?.1 hm
  have := (hsim.given hpe i m hi).1 ht
  rw [hgi] at this
  simp at this

theorem atRest_one : atRest.Has ⟨some 0, some 1, some 0, some 0, some 0, some 0⟩ := by
  rw [← toMat_id]
  exact atRest_has

/-- **C148** The hypotheses of `C148_partial` are met by a robot on a contact that is not loaded, with an IMU that measures the gravity. -/
theorem still_example : ∃ (c : Client) (o : Observer), MayUpdate 1 1 c o ∧ Resting o o.getCurrentStateVector ∧ ReadsGravity o o.getCurrentStateVector ∧
    (∀ n vi l, ContactIs o n vi l → contactForce 1 n o.getCurrentStateVector = -(((stateOri o.getCurrentStateVector).toMat * l.R)ᵀ *ᵥ (vi.linStiff *ᵥ statePos o.getCurrentStateVector)) ∧
      (vi.angStiff = 0 ∨ (stateOri o.getCurrentStateVector).toMat = 1) ∧ contactTorque 1 n o.getCurrentStateVector = 0) ∧
    ContactIs o 0 ⟨1, 1, 1, 1⟩ ⟨0, 1, 0, 0⟩ ∧ ∃ m, o.imus[0]? = some m ∧ m.time = o.kData := by
  obtain ⟨c0, oi, l, hp, hs, -, -, hc, l1, l2, l3, l4, -, hpe, hmv, hgi⟩ := predict_full 0
  obtain ⟨lp, lR, lv, lw⟩ := l
  dsimp only at l1 l2 l3 l4
  subst l1 l2 l3 l4
  obtain ⟨hi, hr, hsim⟩ := hp.ready
  have hfeed : c0.feed = c0 := by rw [Client.feed, if_pos hpe]
  have hlen : 0 < oi.imus.length := by rw [hi.2.imuLen]; exact one_pos
  obtain ⟨m0, hm0⟩ : ∃ m0, oi.imus[0]? = some m0 := ⟨_, List.getElem?_eq_getElem hlen⟩
  have hnot : m0.time ≠ oi.kData := fun ht => by
    have := (hsim.given hpe 0 m0 hm0).1 ht
    rw [hgi] at this
    simp at this
  obtain ⟨⟨ob, ops, g1, g2, g3⟩, g4, g5⟩ := hp
  obtain ⟨o1, e1, m1, q1, q2, q3, y, q4⟩ := C76_complete_partial (a := ![0, 0, 9.8]) (g := 0) (cov := none) ⟨ob, g1, g3⟩ hm0
    (.inr (by have := hi.2.imuTime m0 (List.mem_of_getElem? hm0); omega)) atRest_one
  have step : Client.Step 1 1 c0 (.setIMU ![0, 0, 9.8] 0 none atRest (0 : ℕ)) { c0.feed with given := insert 0 c0.feed.given, seen := insert 0 c0.seen } :=
    .imu _ _ none _ 0 _ one_pos (by rw [hfeed, hgi]; simp) atRest_one (by simp) (by simp) (by simp) (by simp)
  have hstart : oi.startNewIteration = oi := by rw [startNewIteration, if_neg (hsim.pending.1 hpe)]
  have hcon : o1.contacts = oi.contacts := by
    obtain ⟨m, kin, c1, c2, -, -, -, -, rfl⟩ := setIMU_eq e1
    rw [hstart]
  have hone : o1.imus.length = 1 := by
    obtain ⟨m, kin, c1, c2, -, -, -, -, rfl⟩ := setIMU_eq e1
    rw [hstart]
    simp [hi.2.imuLen]
  have hp1 : Predicts 1 1 { c0.feed with given := insert 0 c0.feed.given, seen := insert 0 c0.seen } o1 := by
    refine ⟨⟨ob, _, g1, g2.append (.cons step (.nil _)), run_append.2 ⟨oi, g3, run_cons.2 ⟨o1, ?_, rfl⟩⟩⟩, ?_, ?_⟩
    · show Op.exec oi (.setIMU ![0, 0, 9.8] 0 none atRest (0 : ℕ)) = .ok o1
      rw [Op.exec, e1]
      rfl
    · rw [hfeed]; exact g4
    · rw [hfeed]; exact g5
  have hc1 : ContactIs o1 0 ⟨1, 1, 1, 1⟩ ⟨0, 1, 0, 0⟩ := by
    obtain ⟨k, x, y, h1, h2⟩ := hc
    exact ⟨k, x, y, by rw [hcon]; exact h1, h2⟩
  obtain ⟨c, o, F, T, h1, h2, h3, h4, h4', h5, h6⟩ := still_from 0 0 hp1 hc1 (by rw [hfeed]; exact hpe) (by rw [hfeed]; exact hmv)
  obtain ⟨a1, a2, a3, a4, a5, a6, a7, a8⟩ := still_at3 F T 0 0
  refine ⟨c, o, h1, h3, fun i m hm ht => ?_, fun n vi l hl => ?_, h5, m1, by rw [h4]; exact q1, by rw [h4']; exact q2⟩
  · rw [h4] at hm
    have hi1 : i < o1.imus.length := (List.getElem?_eq_some_iff.1 hm).1
    obtain rfl : i = 0 := by omega
    obtain rfl := Option.some.inj (hm.symm.trans q1)
    refine ⟨⟨0, 1, 0, 0, 0⟩, ⟨y, q4⟩, rfl, rfl, rfl, ?_⟩
    rw [q3, h2, (still_ori F T 0 0).1, toMat_id]
    simp [signal6]
  · obtain ⟨rfl, rfl, rfl⟩ := h6 n vi l hl
    rw [h2]
    have e1 : contactForce 1 0 (stillState F T 0 0) = _ := a7
    have e2 : contactTorque 1 0 (stillState F T 0 0) = _ := a8
    have e3 : statePos (stillState F T 0 0) = _ := a1
    rw [e1, e2, e3, (still_ori F T 0 0).1, toMat_id]
    simp

/-- **C148** A robot that stands still does not stay: it stands on a contact away from its rest position, with the force of the spring; the estimation takes this force away. -/
theorem C148_false : ¬ C148_statement := by
  intro hall
  obtain ⟨c, o, F, T, h, h2, h0, h4, h5, h6⟩ := still_exists 1 1
  obtain ⟨a1, a2, a3, a4, a5, a6, a7, a8⟩ := still_at3 F T 1 1
  obtain ⟨q1, q2⟩ := still_ori F T 1 1
  obtain ⟨hi, hr, hsim⟩ := h.predicts.ready
  obtain ⟨o0, ops, g1, grun, g2⟩ := h.predicts.run
  have hre : Reachable 1 1 ops o := ⟨o0, g1, g2⟩
  obtain ⟨o', eu, -⟩ := hsim.step (.update h.pending h.state h.predicts.dyn h.moved)
  obtain ⟨oy, x0, xb, ⟨z, cov, hb⟩, hx0, hF, hag, -⟩ := C19_kinetics_alone (run_goodCov grun) hre (hsim.pending.1 h.pending) eu h4 fun k hk => (hsim.fed.con k hk).1
  obtain ⟨t, ht⟩ := h.synced
  rw [ht] at hx0
  obtain ⟨rfl, -⟩ := Prod.mk.inj (Option.some.inj hx0)
  have hcon : ∀ k ∈ o.contacts, k.isSet = true → k.time = o.kData := by
    intro k hk hks
    obtain ⟨i, hi⟩ := List.mem_iff_getElem?.1 hk
    exact hsim.moved h.pending i k hi (h.moved ((hsim.contacts i k hi).1 hks))
  have hcu := hsim.fed.canUpdate hr.body (hsim.state h.state).1 (hsim.pending.1 h.pending) hcon
  obtain ⟨hry, -⟩ := built_packed hi hcu hb
  obtain ⟨w1, w2, w3, w4, w5, -, -⟩ := built_congr (x := o.getCurrentStateVector) hb
  obtain ⟨x', e, -, -, -, -, -, -, -, -, wr⟩ := predicted_rest (inv_buildMeasurement hi hb).1 hry hr w1 w2 w3 w4 w5 h.unit h0
  obtain rfl := Res.ok.inj (hF.symm.trans e)
  have p0 : statePos o.getCurrentStateVector = 0 := by rw [h2]; exact a1
  have f0 : contactForce 1 0 o.getCurrentStateVector = ![1, 0, 0] := by rw [h2]; exact a7
  have mem : 0 ∈ c.contacts := by
    obtain ⟨k, _, _, k1, k2, -⟩ := h5
    exact (hsim.contacts 0 k k1).1 k2
  obtain ⟨-, -, hF0⟩ := hall 1 1 c o o' h h0 (fun i m hm ht => (h4 m (List.mem_of_getElem? hm) ht).elim) (fun n vi l hl => by
    obtain ⟨rfl, rfl, rfl⟩ := h6 n vi l hl
    rw [h2]
    have e1 : contactForce 1 0 (stillState F T 1 1) = _ := a7
    have e2 : contactTorque 1 0 (stillState F T 1 1) = _ := a8
    have e3 : contactPos 1 0 (stillState F T 1 1) = _ := a6
    have e4 : statePos (stillState F T 1 1) = _ := a1
    have e5 : stateLinVel (stillState F T 1 1) = _ := a2
    have e6 : stateAngVel (stillState F T 1 1) = _ := a3
    refine ⟨rfl, rfl, ?_, ⟨1, 0, 0, 0⟩, by simp [Quat.normSq], ?_, ?_⟩
    · rw [SpringForce, e1, e3]
      simp [robotOf, Placed.comp, e4, e5, e6, q1, toMat_id]
    · simp [robotOf, Placed.comp, q1, q2, toMat_id]
    · rw [e2]
      have hz : (![0, 0, 0] : V3) = 0 := by ext i; fin_cases i <;> rfl
      rw [hz]
      simp [robotOf, Placed.comp, e6, q1, toMat_id]) eu
  have hfz := hF0 0 mem
  have hl : ContactIs oy 0 ⟨1, 1, 1, 1⟩ ⟨0, 1, 0, 0⟩ := by
    obtain ⟨k, _, _, k1, k2, -⟩ := h5
    obtain ⟨imus, contacts, abs, a, b, hoy, f1, f2, f3⟩ := buildMeasurement_ok hb
    have hlen : 0 < oy.contacts.length := by rw [hoy]; show 0 < contacts.length; rw [← f2.length_eq, hsim.len]; exact one_pos
    obtain ⟨k', hk⟩ : ∃ k', oy.contacts[0]? = some k' := ⟨_, List.getElem?_eq_getElem hlen⟩
    have hs : k'.isSet = true := by
      rw [hoy] at hk
      obtain ⟨m0, h3, j, hj⟩ := forall₂_get f2 0 _ hk
      obtain rfl := Option.some.inj (k1.symm.trans h3)
      rw [hj]
      exact k2
    obtain ⟨vi, l, hl⟩ := ContactIs.get hry hk hs
    obtain ⟨-, rfl, rfl⟩ := h6 0 vi l (hl.built hb)
    exact hl
  have hz := (wr 0 _ _ hl).1
  rw [p0, mulVec_zero, mulVec_zero, neg_zero, ← hag, hfz, f0] at hz
  have := congrFun hz 0
  simp at this

end StateObs.KO
