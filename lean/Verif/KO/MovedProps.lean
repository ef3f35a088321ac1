import Verif.KO.PredictFalse
import Verif.KO.SensorProps
/-!
# Property C125: the origin and the heading of the world
-/

namespace StateObs.KO
open StateObs Matrix Rot Kine KF
open Observer

variable {nc ni : ℕ} {o : Observer} {c : Client} {x y x' y' : DVec} {U : M3} {t : V3}

/-- The state vector `y` describes the same situation as `x`, in a world frame moved by the rotation `U` and the translation `t`. Biases and wrenches are in the frames
of the robot and of the contacts: they do not change. -/
structure Moved (nc ni : ℕ) (U : M3) (t : V3) (x y : DVec) : Prop where
  pos : statePos y = U *ᵥ statePos x + t
  ori : (stateOri y).toMat = U * (stateOri x).toMat
  linVel : stateLinVel y = U *ᵥ stateLinVel x
  angVel : stateAngVel y = U *ᵥ stateAngVel x
  bias : ∀ i < ni, stateBias i y = stateBias i x
  force : stateForce ni y = stateForce ni x
  torque : stateTorque ni y = stateTorque ni x
  restPos : ∀ n < nc, contactPos ni n y = U *ᵥ contactPos ni n x + t
  restOri : ∀ n < nc, (contactOri ni n y).toMat = U * (contactOri ni n x).toMat

/-- The forces and the torques of the contacts are the same. -/
def SameWrench (nc ni : ℕ) (x y : DVec) : Prop := ∀ n < nc, contactForce ni n y = contactForce ni n x ∧ contactTorque ni n y = contactTorque ni n x

/-- A rotation about the vertical. -/
def Heading (U : M3) : Prop := IsRot U ∧ U *ᵥ ![0, 0, 1] = ![0, 0, 1]

/-- The full claim on the prediction. -/
def C125_statement : Prop := ∀ (nc ni : ℕ) (c : Client) (o : Observer) (x y x' y' : DVec) (U : M3) (t : V3), Predicts nc ni c o → Heading U →
  Client.StateVector nc ni x → Client.StateVector nc ni y → Moved nc ni U t x y → SameWrench nc ni x y →
  o.stateDynamics x = .ok x' → o.stateDynamics y = .ok y' → Moved nc ni U t x' y' ∧ SameWrench nc ni x' y'

/-! ## Lemmas -/

theorem wrench_congr {L : List Contact} (h : ∀ c ∈ L, ∀ w, addContactWrench x w c = addContactWrench y w c) (w : V3 × V3) :
    L.foldlM (addContactWrench x) w = L.foldlM (addContactWrench y) w := by
  induction L generalizing w with
  | nil => rfl
  | cons c L ih =>
    simp only [List.foldlM_cons]
    rw [h c List.mem_cons_self]
    congr 1
    funext w'
    exact ih (fun c hc => h c (List.mem_cons_of_mem _ hc)) w'

theorem contact_place (hi : Inv nc ni o) (n : ℕ) (k : Contact) (hk : o.contacts[n]? = some k) (hs : k.isSet = true) :
    n < nc ∧ k.index = .ok (19 + 3 * ni + 13 * n) := by
  have hlt : n < nc := isSet_lt hi ⟨k, hk, hs⟩
  obtain ⟨g1, -, g3⟩ := hi.2.conIdx n k hk hs
  refine ⟨hlt, ?_⟩
  have : decide (k.stateIndex > 0) = true := by rw [g1]; simp; omega
  rw [Contact.index, this, g1]
  simp
  omega

theorem wrench_moved (hi : Inv nc ni o) (hr : Ready nc ni o) (hx : x.size = 19 + ni * 3 + nc * 13) (hy : y.size = 19 + ni * 3 + nc * 13)
    (h1 : stateForce ni y = stateForce ni x) (h2 : stateTorque ni y = stateTorque ni x) (h3 : SameWrench nc ni x y) (w : V3 × V3) :
    o.addUnmodeledAndContactWrench y w = o.addUnmodeledAndContactWrench x w := by
  have e3 : ∀ w, o.contacts.foldlM (addContactWrench y) w = o.contacts.foldlM (addContactWrench x) w := by
    refine wrench_congr fun k hk w => ?_
    unfold addContactWrench
    split_ifs with hs
    · obtain ⟨n, hn⟩ := List.mem_iff_getElem?.1 hk
      obtain ⟨hlt, e⟩ := contact_place hi n k hn hs
      rw [e, Res.ok_bind, Res.ok_bind, seg3_at3 (v := y) (by omega), seg3_at3 (v := x) (by omega), seg3_at3 (v := y) (by omega), seg3_at3 (v := x) (by omega)]
      have f1 : at3 y (19 + 3 * ni + 13 * n + 7) = at3 x (19 + 3 * ni + 13 * n + 7) := (h3 n hlt).1
      have f2 : at3 y (19 + 3 * ni + 13 * n + 7 + 3) = at3 x (19 + 3 * ni + 13 * n + 7 + 3) := (h3 n hlt).2
      rw [f1, f2]
    · rfl
  have f1 : at3 y (13 + 3 * ni) = at3 x (13 + 3 * ni) := h1
  have f2 : at3 y (13 + 3 * ni + 3) = at3 x (13 + 3 * ni + 3) := by
    have : at3 y (16 + 3 * ni) = at3 x (16 + 3 * ni) := h2
    rwa [show 13 + 3 * ni + 3 = 16 + 3 * ni by omega]
  simp only [addUnmodeledAndContactWrench, unmodeledTorqueIndex, hr.unmodeled, Res.ok_bind]
  rw [seg3_at3 (v := y) (by omega), seg3_at3 (v := x) (by omega)]
  simp only [Res.ok_bind]
  rw [seg3_at3 (v := y) (by omega), seg3_at3 (v := x) (by omega), f1, f2]
  simp only [Res.ok_bind, e3]

theorem Heading.gravity (h : Heading U) : U *ᵥ gravity = gravity := by
  have : Observer.gravity = (9.8 : ℝ) • (![0, 0, 1] : V3) := by
    ext i; fin_cases i <;> simp [Observer.gravity]
  rw [this, mulVec_smul, h.2]

/-- The accelerations computed in the moved world are the moved accelerations. -/
theorem acc_moved {b : Body} {m : ℝ} {R : M3} {ω F M a α a' α' : V3} (h : Heading U)
    (h1 : α = R *ᵥ localAngAcc b m (Rᵀ *ᵥ ω) F M) (h2 : a = R *ᵥ ((1 / m) • F - b.comdd - corioCentri b (Rᵀ *ᵥ ω) + b.com ⨯₃ (Rᵀ *ᵥ α)) - gravity)
    (h3 : α' = (U * R) *ᵥ localAngAcc b m ((U * R)ᵀ *ᵥ (U *ᵥ ω)) F M)
    (h4 : a' = (U * R) *ᵥ ((1 / m) • F - b.comdd - corioCentri b ((U * R)ᵀ *ᵥ (U *ᵥ ω)) + b.com ⨯₃ ((U * R)ᵀ *ᵥ α')) - gravity) :
    α' = U *ᵥ α ∧ a' = U *ᵥ a := by
  have key : ∀ v, (U * R)ᵀ *ᵥ (U *ᵥ v) = Rᵀ *ᵥ v := fun v => by
    rw [transpose_mul, ← mulVec_mulVec, h.1.cancel]
  have e1 : α' = U *ᵥ α := by rw [h3, h1, key, mulVec_mulVec]
  refine ⟨e1, ?_⟩
  rw [h4, h2, e1, key, key, mulVec_sub, mulVec_mulVec, h.gravity]

theorem vecRot_moved (h : IsRot U) (v : V3) : vecRot (U *ᵥ v) = U * vecRot v * Uᵀ := by
  have h1 : U * Uᵀ = 1 := mul_eq_one_comm.1 h.orth
  unfold vecRot
  rw [h.nrm]
  split_ifs with hv
  · rw [Matrix.mul_one, h1]
  · rw [h.hat]
    have hu : IsUnit U := IsUnit.of_mul_eq_one Uᵀ h1
    have hinv : U⁻¹ = Uᵀ := Matrix.inv_eq_right_inv h1
    rw [← hinv, Matrix.exp_conj U _ hu]

theorem unit_of (hx : Client.StateVector nc ni x) : (stateOri x).normSq = 1 := by
  have := (stateVector_good hx).quat
  simp only [UnitAt] at this
  show Quat.normSq ⟨at1 x 6, at1 x 3, at1 x 4, at1 x 5⟩ = 1
  simp only [Quat.normSq]
  linarith

/-! ## Properties -/

/-- Moving the world frame, by a translation and a rotation about the vertical, moves the predicted state, except for the wrenches of the contacts. Missing: these
wrenches, see `C125_force_partial` and `C125_false`. -/
theorem C125_partial (hp : Predicts nc ni c o) (hU : Heading U) (hx : Client.StateVector nc ni x) (hy : Client.StateVector nc ni y) (hm : Moved nc ni U t x y)
    (hw : SameWrench nc ni x y) (ex : o.stateDynamics x = .ok x') (ey : o.stateDynamics y = .ok y') : Moved nc ni U t x' y' := by
  obtain ⟨hi, hr, -⟩ := hp.ready
  have gx := stateVector_good hx
  have gy := stateVector_good hy
  obtain ⟨k1, k2, k3, k4⟩ := C106_kept hp hx ex
  obtain ⟨l1, l2, l3, l4⟩ := C106_kept hp hy ey
  obtain ⟨W, a, α, k, x2, ew, ec, e2, -, -, f1, f2, f3, f4, -⟩ := stateDynamics_value hi hr gx
  obtain rfl := Res.ok.inj (e2.symm.trans ex)
  obtain ⟨W', a', α', k', y2, ew', ec', e2', -, -, g1, g2, g3, g4, -⟩ := stateDynamics_value hi hr gy
  obtain rfl := Res.ok.inj (e2'.symm.trans ey)
  rw [wrench_moved hi hr gx.size gy.size hm.force hm.torque hw] at ew'
  obtain rfl := Res.ok.inj (ew'.symm.trans ew)
  obtain ⟨b, hb, -, -, d1, d2⟩ := computeAccelerations_ok (loaded_has Kin.new (x := x) gx.quat rfl rfl) ec
  obtain ⟨b', hb', -, -, d3, d4⟩ := computeAccelerations_ok (loaded_has Kin.new (x := y) gy.quat rfl rfl) ec'
  obtain rfl := Res.ok.inj (hb'.symm.trans hb)
  have a0 : at3 y 10 = U *ᵥ at3 x 10 := hm.angVel
  have v0 : at3 y 7 = U *ᵥ at3 x 7 := hm.linVel
  have p0 : at3 y 0 = U *ᵥ at3 x 0 + t := hm.pos
  have d1' : α = (stateOri x).toMat *ᵥ _ := d1
  have d3' : α' = (stateOri y).toMat *ᵥ localAngAcc b' o.mass ((stateOri y).toMatᵀ *ᵥ at3 y 10) W'.1 W'.2 := d3
  have d4' : a' = (stateOri y).toMat *ᵥ ((1 / o.mass) • W'.1 - b'.comdd - corioCentri b' ((stateOri y).toMatᵀ *ᵥ at3 y 10) +
    b'.com ⨯₃ ((stateOri y).toMatᵀ *ᵥ α')) - gravity := d4
  rw [hm.ori, a0] at d3' d4'
  obtain ⟨eα, ea⟩ := acc_moved hU (R := (stateOri x).toMat) (ω := at3 x 10) (α := α) (a := a) d1 d2 d3' d4'
  constructor
  · show at3 y2 0 = U *ᵥ at3 x2 0 + t
    rw [g1, f1, p0, v0, ea]
    simp only [mulVec_add, mulVec_smul]
    abel
  · rw [g3, f3, a0, eα, ← mulVec_smul, ← mulVec_smul, ← mulVec_add, vecRot_moved hU.1, hm.ori]
    have : Uᵀ * (U * (stateOri x).toMat) = (stateOri x).toMat := by rw [← Matrix.mul_assoc, hU.1.orth, Matrix.one_mul]
    rw [Matrix.mul_assoc, this, Matrix.mul_assoc]
  · show at3 y2 7 = U *ᵥ at3 x2 7
    rw [g2, f2, v0, ea, mulVec_add, mulVec_smul]
  · show at3 y2 10 = U *ᵥ at3 x2 10
    rw [g4, f4, a0, eα, mulVec_add, mulVec_smul]
  · exact fun i hi => by rw [l1 i hi, k1 i hi, hm.bias i hi]
  · rw [l2, k2, hm.force]
  · rw [l3, k3, hm.torque]
  · exact fun n hn => by rw [(l4 n).1, (k4 n).1, hm.restPos n hn]
  · exact fun n hn => by rw [(l4 n).2, (k4 n).2, hm.restOri n hn]

/-- The kinematics of the robot that `estimateAccelerations()` gives. -/
theorem robotIn_value (hr : Ready nc ni o) (hx : Client.StateVector nc ni x) {r : Moving6} (h : RobotIn o x r) :
    ∃ W b, o.addUnmodeledAndContactWrench x (o.addForce, o.addTorque) = .ok W ∧ o.body = .ok b ∧ r.p = statePos x ∧ r.R = (stateOri x).toMat ∧ r.v = stateLinVel x ∧
      r.w = stateAngVel x ∧ r.α = (stateOri x).toMat *ᵥ localAngAcc b o.mass ((stateOri x).toMatᵀ *ᵥ stateAngVel x) W.1 W.2 ∧
      r.a = (stateOri x).toMat *ᵥ ((1 / o.mass) • W.1 - b.comdd - corioCentri b ((stateOri x).toMatᵀ *ᵥ stateAngVel x) + b.com ⨯₃ ((stateOri x).toMatᵀ *ᵥ r.α)) - gravity := by
  have gx := stateVector_good hx
  obtain ⟨W, ew⟩ := addWrench_live hr gx.size (o.addForce, o.addTorque)
  obtain ⟨s, es⟩ := seg_live (n := 13) (i := kineIndex) (v := x) (by simp [kineIndex, gx.size]; omega)
  obtain ⟨b, hb, hm, hd⟩ := hr.body
  have hk0 := loaded_has Kin.new (x := x) gx.quat rfl rfl
  obtain ⟨a, α, k', ec, hk'⟩ := computeAccelerations_live (F := W.1) (M := W.2) hk0 hb hm hd
  obtain ⟨b', hb', -, -, d1, d2⟩ := computeAccelerations_ok hk0 ec
  obtain rfl := Res.ok.inj (hb'.symm.trans hb)
  set k : Kin := { k' with linAcc := k'.linAcc.assign a, angAcc := k'.angAcc.assign α } with hkd
  have ek : o.stateKine x = .ok k := by
    rw [stateKine, ew, Res.ok_bind, es, Res.ok_bind, fromVector_loaded _ es, Res.ok_bind, ec]
    rfl
  have hk : k.Has ⟨some (at3 x 0), some (stateOri x).toMat, some (at3 x 7), some (at3 x 10), some a, some α⟩ := ⟨hk'.pos, hk'.ori, hk'.linVel, hk'.angVel, rfl, rfl⟩
  have hv := stateKine_value (oy := o) (unit_of hx) h (fun _ => rfl) rfl rfl rfl rfl ek
  have e := hv.inj hk
  simp only [Moving6.value, Value.mk.injEq, Option.some.injEq] at e
  obtain ⟨e1, e2, e3, e4, e5, e6⟩ := e
  refine ⟨W, b', ew, hb, e1, e2, e3, e4, e6.trans d1, ?_⟩
  rw [e5, e6]
  exact d2

theorem sensors_moved (hU : Heading U) {r r' : Moving6} (e2 : r'.R = U * r.R) (e4 : r'.w = U *ᵥ r.w) (e5 : r'.a = U *ᵥ r.a) (e6 : r'.α = U *ᵥ r.α) (l : Mounted) :
    accelerometer r' l = accelerometer r l ∧ gyrometer r' l = gyrometer r l := by
  have key : ∀ v, (U * r.R * l.R)ᵀ *ᵥ (U *ᵥ v) = (r.R * l.R)ᵀ *ᵥ v := fun v => by
    rw [Matrix.mul_assoc, transpose_mul, ← mulVec_mulVec, hU.1.cancel]
  have hg : (![0, 0, 9.8] : V3) = U *ᵥ ![0, 0, 9.8] := hU.gravity.symm
  constructor
  · rw [accelerometer, accelerometer, originAcc, originAcc, e2, e4, e5, e6, ← key]
    simp only [← mulVec_mulVec, ← hU.1.cross, ← mulVec_smul]
    conv_lhs => rw [hg]
    simp only [mulVec_add]
  · rw [gyrometer, gyrometer, e2, e4, ← mulVec_mulVec, ← mulVec_add, key]

theorem imuReadings_fun {f g : ℕ → List ℝ} (h : ∀ n, f n = g n) (k : Int) (n : ℕ) (L : List IMU) : imuReadings f k n L = imuReadings g k n L := by
  rw [funext h]

theorem contactReadings_fun {f g : ℕ → List ℝ} (L : List Contact) (n : ℕ) (h : ∀ i, n ≤ i → i < n + L.length → f i = g i) :
    contactReadings f n L = contactReadings g n L := by
  induction L generalizing n with
  | nil => rfl
  | cons c L ih =>
    simp only [List.length_cons] at h
    rw [contactReadings, contactReadings, h n le_rfl (by omega), ih _ fun i h1 h2 => h i (by omega) (by omega)]

/-- The measurements predicted for the accelerometers, the gyrometers and the force sensors do not depend on the origin and the heading of the world. (No absolute
pose sensor: its measurement is a pose in the world.) -/
theorem C125_measurement (hp : Predicts nc ni c o) (h1 : c.pending = true) (h2 : c.state = true) (h3 : c.contacts ⊆ c.moved) (hU : Heading U)
    (hx : Client.StateVector nc ni x) (hy : Client.StateVector nc ni y) (hm : Moved nc ni U t x y) (hw : SameWrench nc ni x y) :
    ∃ oy z cov yb, o.buildMeasurement = .ok (oy, z, cov) ∧ yb.size = z.size ∧ oy.measureDynamics x o.kData = .ok yb ∧ oy.measureDynamics y o.kData = .ok yb := by
  obtain ⟨hi, hr, hsim⟩ := hp.ready
  obtain ⟨oy, z, cov, yb, hb, ex, sz, ha, ⟨r, rx⟩, l, hl⟩ := C108_returns hp h1 h2 h3 hx
  obtain ⟨oy', z', cov', yb', hb', ey, -, -, ⟨r', ry⟩, -⟩ := C108_returns hp h1 h2 h3 hy
  have e := Res.ok.inj (hb'.symm.trans hb)
  cases e
  obtain ⟨o0, ops, g1, -, g2⟩ := hp.run
  have c1 := C108_computed_partial ⟨o0, g1, g2⟩ ha hb ex (unit_of hx) rx hl
  have c2 := C108_computed_partial ⟨o0, g1, g2⟩ ha hb ey (unit_of hy) ry hl
  obtain ⟨W, b, ew, eb, -, p2, -, p4, p5, p6⟩ := robotIn_value hr hx rx
  obtain ⟨W', b', ew', eb', -, q2, -, q4, q5, q6⟩ := robotIn_value hr hy ry
  rw [wrench_moved hi hr (stateVector_good hx).size (stateVector_good hy).size hm.force hm.torque hw] at ew'
  obtain rfl := Res.ok.inj (ew'.symm.trans ew)
  obtain rfl := Res.ok.inj (eb'.symm.trans eb)
  rw [hm.ori, hm.angVel] at q5 q6
  obtain ⟨s1, s2⟩ := acc_moved hU p5 p6 q5 q6
  have hs := sensors_moved hU (r := r) (r' := r') (by rw [q2, p2, hm.ori]) (by rw [q4, p4, hm.angVel]) s2 s1
  have : List.ofFn yb'.val = List.ofFn yb.val := by
    rw [Readings] at c1 c2
    rw [c1, c2]
    congr 1
    · exact imuReadings_fun (fun n => by rw [(hs _).1, (hs _).2]) _ _ _
    · refine contactReadings_fun _ _ fun n _ hn => ?_
      rw [zero_add, hsim.len] at hn
      rw [(hw n hn).1, (hw n hn).2]
  refine ⟨oy, z, cov, yb, hb, sz, ex, ?_⟩
  rw [ey]
  congr 1
  have hl := congrArg List.length this
  simp only [List.length_ofFn] at hl
  obtain ⟨s', v'⟩ := yb'
  obtain ⟨s, v⟩ := yb
  obtain rfl : s' = s := hl
  exact congrArg _ (List.ofFn_injective this)

/-- The predicted forces of the contacts do not depend on the heading of the world if the stiffness and the damping do not depend on the direction, in the horizontal plane of the
world; they depend on its origin. -/
theorem C125_force_partial (hp : Predicts nc ni c o) (hU : Heading U) (hx : Client.StateVector nc ni x) (hy : Client.StateVector nc ni y) (hm : Moved nc ni U t x y)
    (hw : SameWrench nc ni x y) (ex : o.stateDynamics x = .ok x') (ey : o.stateDynamics y = .ok y') {n : ℕ} {vi : Visco} {l : Placed} (hc : ContactIs o n vi l)
    (hk : vi.linStiff * U = U * vi.linStiff) (hd : vi.linDamp * U = U * vi.linDamp) :
    contactForce ni n y' = contactForce ni n x' - ((stateOri y').toMat * l.R)ᵀ *ᵥ (vi.linStiff *ᵥ t) := by
  have hm' := C125_partial hp hU hx hy hm hw ex ey
  have e1 := (C106_computed_partial hp hx ex hc).1
  have e2 := (C106_computed_partial hp hy ey hc).1
  simp only [SpringForce, _root_.sub_zero] at e1 e2
  have key : ∀ v, (U * (stateOri x').toMat * l.R)ᵀ *ᵥ (U *ᵥ v) = ((stateOri x').toMat * l.R)ᵀ *ᵥ v := fun v => by
    rw [Matrix.mul_assoc, transpose_mul, ← mulVec_mulVec, hU.1.cancel]
  rw [e1, e2, hm'.ori, hm'.pos, hm'.linVel, ← key]
  simp only [mulVec_add, mulVec_mulVec, hk, hd]
  rw [← mulVec_mulVec, ← mulVec_mulVec]
  abel

/-- The state of the counterexample, in a world moved by one metre. -/
noncomputable def shiftedState : DVec := ⟨19 + 1 * 3 + 1 * 13, fun i => if i.val = 6 ∨ i.val = 28 then 1 else if i.val = 0 ∨ i.val = 22 then 1 else 0⟩

theorem shifted_moved : Moved 1 1 1 ![1, 0, 0] (awayState 0) shiftedState ∧ SameWrench 1 1 (awayState 0) shiftedState := by
  refine ⟨⟨?_, ?_, ?_, ?_, fun i hi => ?_, ?_, ?_, fun n hn => ?_, fun n hn => ?_⟩, fun n hn => ?_⟩
  all_goals try obtain rfl : n = 0 := by omega
  all_goals try obtain rfl : i = 0 := by omega
  · ext i; fin_cases i <;> simp [statePos, at3, shiftedState, awayState]
  · rw [Matrix.one_mul]; congr 1
  · ext i; fin_cases i <;> simp [stateLinVel, at3, shiftedState, awayState]
  · ext i; fin_cases i <;> simp [stateAngVel, at3, shiftedState, awayState]
  · ext i; fin_cases i <;> simp [stateBias, at3, shiftedState, awayState]
  · ext i; fin_cases i <;> simp [stateForce, at3, shiftedState, awayState]
  · ext i; fin_cases i <;> simp [stateTorque, at3, shiftedState, awayState]
  · ext i; fin_cases i <;> simp [contactPos, at3, shiftedState, awayState]
  · rw [Matrix.one_mul]; congr 1
  · constructor
    · ext i; fin_cases i <;> simp [contactForce, at3, shiftedState, awayState]
    · ext i; fin_cases i <;> simp [contactTorque, at3, shiftedState, awayState]

theorem heading_one : Heading 1 := ⟨IsRot.one, by rw [one_mulVec]⟩

/-- The full claim is false: in a world whose origin is one metre away, the predicted force of a contact at rest is not the same. -/
theorem C125_false : ¬ C125_statement := by
  intro h
  obtain ⟨c, o, l, hp, -, -, hx, hc, -, l2, -, -⟩ := predict_example 0
  have hy : Client.StateVector 1 1 shiftedState := ⟨fun i => if i = 6 ∨ i = 28 then 1 else if i = 0 ∨ i = 22 then 1 else 0, rfl, by norm_num⟩
  obtain ⟨x', ex, -⟩ := C106_returns hp hx
  obtain ⟨y', ey, -, hn⟩ := C106_returns hp hy
  obtain ⟨hm, hw⟩ := shifted_moved
  have e1 := (h 1 1 c o _ _ x' y' 1 _ hp heading_one hx hy hm hw ex ey).2 0 one_pos
  have e2 := C125_force_partial hp heading_one hx hy hm hw ex ey hc (by simp) (by simp)
  rw [e1.1, eq_comm, sub_eq_self, l2, Matrix.mul_one, one_mulVec] at e2
  have hR := Quat.toMat_isRot hn
  have e3 := congrArg (fun v => (stateOri y').toMat *ᵥ v) e2
  simp only [hR.cancel', mulVec_zero] at e3
  have := congrFun e3 0
  simp at this

/-- A case of the hypotheses: a client with a contact at rest, seen in two worlds. -/
example : ∃ (c : Client) (o : Observer) (x' y' : DVec), Predicts 1 1 c o ∧ Heading 1 ∧ Client.StateVector 1 1 (awayState 0) ∧ Client.StateVector 1 1 shiftedState ∧
    Moved 1 1 1 ![1, 0, 0] (awayState 0) shiftedState ∧ SameWrench 1 1 (awayState 0) shiftedState ∧ o.stateDynamics (awayState 0) = .ok x' ∧ o.stateDynamics shiftedState = .ok y' := by
  obtain ⟨c, o, l, hp, -, -, hx, -⟩ := predict_example 0
  have hy : Client.StateVector 1 1 shiftedState := ⟨fun i => if i = 6 ∨ i = 28 then 1 else if i = 0 ∨ i = 22 then 1 else 0, rfl, by norm_num⟩
  obtain ⟨x', ex, -⟩ := C106_returns hp hx
  obtain ⟨y', ey, -⟩ := C106_returns hp hy
  exact ⟨c, o, x', y', hp, heading_one, hx, hy, shifted_moved.1, shifted_moved.2, ex, ey⟩

/-- A quarter of a turn, and a client that can ask for an estimation. -/
example : Heading !![0, -1, 0; 1, 0, 0; 0, 0, 1] ∧ ∃ (c : Client) (o : Observer), Predicts 1 1 c o ∧ c.pending = true ∧ c.state = true ∧ c.contacts ⊆ c.moved := by
  refine ⟨⟨⟨?_, ?_⟩, ?_⟩, ?_⟩
  · ext i j; fin_cases i <;> fin_cases j <;> simp [Matrix.mul_apply, Fin.sum_univ_three]
  · simp [det_fin_three]
  · ext i; fin_cases i <;> simp [mulVec, dotProduct, Fin.sum_univ_three]
  · obtain ⟨c, o, m, hp, h1, h2, h3, -⟩ := C108_example (nc := 1) (ni := 1) one_pos one_pos 0 0
    exact ⟨c, o, hp, h1, h2, h3⟩

end StateObs.KO
