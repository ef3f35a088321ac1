import Verif.Lipm.UnidimLemmas
/-!
# C27-C30 for the one-dimensional estimator
-/

namespace StateObs.Unidim
open StateObs Matrix KF KFSpec

/-- The parameters and the last ZMP supplied, as a function of the calls. -/
structure Conf where
  dt : ℝ
  omega0 : ℝ
  driftStd : ℝ
  dcmStd : ℝ
  zmpStd : ℝ
  zmp : ℝ

/-- What a call changes. -/
def Conf.after (c : Conf) : Op → Conf
  | .resetWithInputs _ zmp _ drift dcmStd zmpStd _ _ => { c with zmp := zmp, driftStd := drift, dcmStd := dcmStd, zmpStd := zmpStd }
  | .setLipmNaturalFrequency w => { c with omega0 := w }
  | .setSamplingTime dt => { c with dt := dt }
  | .setZmpMeasureErrorStd a => { c with zmpStd := a }
  | .setDcmMeasureErrorStd a => { c with dcmStd := a }
  | .setBiasDriftPerSecond a => { c with driftStd := a }
  | .setInputs _ zmp => { c with zmp := zmp }
  | _ => c

/-- After a list of calls. -/
def Conf.afterAll (c : Conf) (ops : List Op) : Conf := ops.foldl Conf.after c

/-- A new estimator followed by a list of calls. -/
noncomputable def createRun (c : Conf) (dcm bias dcmUnc biasUnc : ℝ) (ops : List Op) : Res Est := do
  let s ← ctor c.dt c.omega0 c.driftStd dcm c.zmp bias c.dcmStd c.zmpStd dcmUnc biasUnc
  ops.foldlM exec s

/-- The estimates: DCM and bias. -/
noncomputable def estimates (s : Est) : Res (ℝ × ℝ) := do
  let dcm ← getUnbiasedDCM s
  let b ← getBias s
  .ok (dcm, b)

/-- The call is not one of the two setters that do not work. -/
def Op.Sound : Op → Prop
  | .setDcmMeasureErrorStd _ => False
  | .setBiasDriftPerSecond _ => False
  | _ => True

/-- The members that follow the configuration whatever is called. -/
structure Shape (v : View) (c : Conf) : Prop where
  omega0 : v.omega0 = c.omega0
  dt : v.dt = c.dt
  zmpStd : v.zmpErrorStd = c.zmpStd
  zmp : v.previousZmp = c.zmp
  A : v.d.A = !![1 + c.omega0 * c.dt, 0; 0, 1]
  B : v.d.B = !![-c.omega0 * c.dt; 0]
  C : v.d.C = !![1, 1]
  D : v.d.D = 0

theorem Shape.updateMatrices {v : View} {c : Conf} (h1 : v.omega0 = c.omega0) (h2 : v.dt = c.dt) (h3 : v.zmpErrorStd = c.zmpStd)
    (h4 : v.previousZmp = c.zmp) (h5 : v.d.C = !![1, 1]) (h6 : v.d.D = 0) : Shape v.updateMatrices c := by
  refine ⟨h1, h2, h3, h4, ?_, ?_, h5, h6⟩
  · show !![1 + v.omega0 * v.dt, 0; 0, 1] = _
    rw [h1, h2]
  · show !![-v.omega0 * v.dt; 0] = _
    rw [h1, h2]

theorem Shape.exec {v v' : View} {c : Conf} (h : Shape v c) (o : Op) (he : v.exec o = .ok v') : Shape v' (c.after o) := by
  cases o
  case resetWithInputs dcm zmp w d r z b bu =>
    cases he
    have := Shape.updateMatrices (v := { v with biasDriftStd := d, zmpErrorStd := z, previousZmp := zmp })
      (c := c.after (.resetWithInputs dcm zmp w d r z b bu)) h.1 h.2 rfl rfl h.7 h.8
    exact ⟨this.1, this.2, this.3, this.4, this.5, this.6, this.7, this.8⟩
  case setLipmNaturalFrequency w => cases he; exact Shape.updateMatrices rfl h.2 h.3 h.4 h.7 h.8
  case setSamplingTime w => cases he; exact Shape.updateMatrices h.1 rfl h.3 h.4 h.7 h.8
  case setZmpMeasureErrorStd w => cases he; exact Shape.updateMatrices h.1 h.2 rfl h.4 h.7 h.8
  case update =>
    simp only [View.exec, View.update] at he
    split_ifs at he
    cases he
    exact ⟨h.1, h.2, h.3, h.4, h.5, h.6, h.7, h.8⟩
  case setInputs dcm zmp => cases he; exact ⟨h.1, h.2, h.3, rfl, h.5, h.6, h.7, h.8⟩
  all_goals cases he; exact ⟨h.1, h.2, h.3, h.4, h.5, h.6, h.7, h.8⟩

theorem Shape.run {v v' : View} {c : Conf} (h : Shape v c) (ops : List Op) (he : ops.foldlM View.exec v = .ok v') :
    Shape v' (c.afterAll ops) := by
  induction ops generalizing v c with
  | nil => cases he; exact h
  | cons o os ih =>
    rw [List.foldlM_cons] at he
    obtain ⟨v1, h1, h2⟩ := Res.bind_eq_ok.1 he
    exact ih (h.exec o h1) h2

/-- A new view. -/
noncomputable abbrev view0 (c : Conf) (dcm bias dcmUnc biasUnc : ℝ) : View :=
  viewNew c.dt c.omega0 c.driftStd dcm c.zmp bias c.dcmStd c.zmpStd dcmUnc biasUnc

theorem shape_new (c : Conf) (dcm bias dcmUnc biasUnc : ℝ) : Shape (view0 c dcm bias dcmUnc biasUnc) c :=
  ⟨rfl, rfl, rfl, rfl, rfl, rfl, rfl, rfl⟩

/-- What is known of a state reached by a history. -/
theorem reach {c : Conf} (hstd : c.dcmStd ≠ 0) {dcm bias dcmUnc biasUnc : ℝ} {ops : List Op} (ho : ∀ o ∈ ops, o.Regular) {s : Est}
    (h : createRun c dcm bias dcmUnc biasUnc ops = .ok s) : ∃ v : View, Rep s v ∧ v.Good ∧ Shape v (c.afterAll ops) ∧
      ops.foldlM View.exec (view0 c dcm bias dcmUnc biasUnc) = .ok v := by
  obtain ⟨s0, h1, h2⟩ := rep_new c.dt c.omega0 c.driftStd dcm c.zmp bias c.dcmStd c.zmpStd dcmUnc biasUnc
  simp only [createRun, h1, Res.ok_bind] at h
  rcases h2.run (good_new _ _ _ _ _ _ _ _ _ _ hstd) ops ho with ⟨s', v', h3, h4, h5, h6⟩ | ⟨h3, h4⟩
  · rw [h3] at h
    cases h
    exact ⟨v', h5, h6, (shape_new c dcm bias dcmUnc biasUnc).run ops h4, h4⟩
  · rw [h3] at h; cases h

theorem Rep.estimates {s : Est} {v : View} (h : Rep s v) : estimates s = .ok (v.x 0, v.x 1) := by
  rw [Unidim.estimates, h.getUnbiasedDCM, h.getBias]; rfl

/-- `update` succeeds exactly if a measurement is stored. -/
theorem C28_unidim_update_defined (c : Conf) (hstd : c.dcmStd ≠ 0) (dcm bias dcmUnc biasUnc : ℝ) (ops : List Op) (ho : ∀ o ∈ ops, o.Regular)
    (s : Est) (h : createRun c dcm bias dcmUnc biasUnc ops = .ok s) : (∃ s', update s = .ok s') ↔ 0 < s.filter.y.size := by
  obtain ⟨v, hr, hg, hs, -⟩ := reach hstd ho h
  have hsz := hr.fed.size
  rcases hr.update hg with ⟨s', v', h1, h2, h3⟩ | ⟨h1, h2⟩
  · refine ⟨fun _ => ?_, fun _ => ⟨s', h1⟩⟩
    unfold View.update at h2
    split_ifs at h2
    omega
  · refine ⟨fun ⟨s', h'⟩ => (by rw [h1] at h'; cases h'), fun hy => ?_⟩
    unfold View.update at h2
    split_ifs at h2
    omega

/-! ## C27 -/

/-- The noise covariances follow the parameters. -/
structure Noise (v : View) (c : Conf) : Prop where
  drift : v.biasDriftStd = c.driftStd
  R : v.d.R = !![square c.dcmStd]
  Q : v.d.Q = !![square (c.omega0 * c.dt * c.zmpStd), 0; 0, square (c.driftStd * c.dt)]

theorem Noise.exec {v v' : View} {c : Conf} (h : Noise v c) (hs : Shape v c) {o : Op} (ho : o.Sound) (he : v.exec o = .ok v') :
    Noise v' (c.after o) := by
  cases o
  case resetWithInputs dcm zmp w d r z b bu =>
    cases he
    refine ⟨rfl, rfl, ?_⟩
    show !![square (v.omega0 * v.dt * z), 0; 0, square (d * v.dt)] = _
    rw [hs.omega0, hs.dt]; rfl
  case setLipmNaturalFrequency w =>
    cases he
    refine ⟨h.1, h.2, ?_⟩
    show !![square (w * v.dt * v.zmpErrorStd), 0; 0, square (v.biasDriftStd * v.dt)] = _
    rw [hs.dt, hs.zmpStd, h.1]; rfl
  case setSamplingTime w =>
    cases he
    refine ⟨h.1, h.2, ?_⟩
    show !![square (v.omega0 * w * v.zmpErrorStd), 0; 0, square (v.biasDriftStd * w)] = _
    rw [hs.omega0, hs.zmpStd, h.1]; rfl
  case setZmpMeasureErrorStd w =>
    cases he
    refine ⟨h.1, h.2, ?_⟩
    show !![square (v.omega0 * v.dt * w), 0; 0, square (v.biasDriftStd * v.dt)] = _
    rw [hs.omega0, hs.dt, h.1]; rfl
  case setDcmMeasureErrorStd w => exact ho.elim
  case setBiasDriftPerSecond a => exact ho.elim
  case update =>
    simp only [View.exec, View.update] at he
    split_ifs at he
    cases he
    exact ⟨h.1, h.2, h.3⟩
  all_goals cases he; exact ⟨h.1, h.2, h.3⟩

theorem Noise.run {v v' : View} {c : Conf} (h : Noise v c) (hs : Shape v c) (ops : List Op) (ho : ∀ o ∈ ops, o.Sound)
    (he : ops.foldlM View.exec v = .ok v') : Noise v' (c.afterAll ops) := by
  induction ops generalizing v c with
  | nil => cases he; exact h
  | cons o os ih =>
    rw [List.foldlM_cons] at he
    obtain ⟨v1, h1, h2⟩ := Res.bind_eq_ok.1 he
    exact ih (h.exec hs (ho o (by simp)) h1) (hs.exec o h1) (fun o' h' => ho o' (by simp [h'])) h2

/-- Without the two setters that do not work, the filter has at all times the model (all five matrices) of a new estimator with the current
parameters. Missing from the full claim: `setDcmMeasureErrorStd`, `setBiasDriftPerSecond`. -/
theorem C27_unidim_partial (c : Conf) (hstd : c.dcmStd ≠ 0) (dcm bias dcmUnc biasUnc : ℝ) (ops : List Op) (ho : ∀ o ∈ ops, o.Regular)
    (ho' : ∀ o ∈ ops, o.Sound) (s s' : Est) (h : createRun c dcm bias dcmUnc biasUnc ops = .ok s)
    (h' : createRun (c.afterAll ops) dcm bias dcmUnc biasUnc [] = .ok s') :
    s.filter.st.a = s'.filter.st.a ∧ s.filter.st.ext.b = s'.filter.st.ext.b ∧ s.filter.st.c = s'.filter.st.c ∧
      s.filter.st.q = s'.filter.st.q ∧ s.filter.st.r = s'.filter.st.r := by
  obtain ⟨v, hr, hg, hs, he⟩ := reach hstd ho h
  have hn : Noise v (c.afterAll ops) := Noise.run ⟨rfl, rfl, rfl⟩ (shape_new c dcm bias dcmUnc biasUnc) ops ho' he
  obtain ⟨s0, h1, h2⟩ := rep_new (c.afterAll ops).dt (c.afterAll ops).omega0 (c.afterAll ops).driftStd dcm (c.afterAll ops).zmp bias
    (c.afterAll ops).dcmStd (c.afterAll ops).zmpStd dcmUnc biasUnc
  obtain rfl : s0 = s' := by
    simp only [createRun, h1, Res.ok_bind, List.foldlM_nil] at h'
    cases h'; rfl
  have m := hr.fed.model
  have m' := h2.fed.model
  refine ⟨?_, ?_, ?_, ?_, ?_⟩
  · rw [m.mats.a, m'.mats.a, hs.A]; rfl
  · rw [m.b, m'.b, hs.B]; rfl
  · rw [m.mats.c, m'.mats.c, hs.C]; rfl
  · rw [m.mats.q, m'.mats.q, hn.Q]; rfl
  · rw [m.mats.r, m'.mats.r, hn.R]; rfl

/-- `setDcmMeasureErrorStd` with another value than the current one (up to sign) leaves the filter without the covariance the constructor
would set. -/
theorem C27_unidim_false (c : Conf) (hstd : c.dcmStd ≠ 0) (dcm bias dcmUnc biasUnc a : ℝ) (ha : a ^ 2 ≠ c.dcmStd ^ 2) (s s' : Est)
    (h : createRun c dcm bias dcmUnc biasUnc [.setDcmMeasureErrorStd a] = .ok s)
    (h' : createRun (c.afterAll [.setDcmMeasureErrorStd a]) dcm bias dcmUnc biasUnc [] = .ok s') :
    s.filter.st.r ≠ s'.filter.st.r := by
  obtain ⟨v, hr, hg, hs, he⟩ := reach hstd (by simp [Op.Regular]) h
  obtain ⟨s0, h1, h2⟩ := rep_new c.dt c.omega0 c.driftStd dcm c.zmp bias a c.zmpStd dcmUnc biasUnc
  obtain rfl : s0 = s' := by
    have h1' : createRun (c.afterAll [.setDcmMeasureErrorStd a]) dcm bias dcmUnc biasUnc [] = .ok s0 := by
      show (ctor c.dt c.omega0 c.driftStd dcm c.zmp bias a c.zmpStd dcmUnc biasUnc >>= fun s => List.foldlM exec s []) = _
      rw [h1]; rfl
    rw [h1'] at h'
    cases h'; rfl
  cases he
  have e1 : s.filter.st.r = _ := hr.fed.model.mats.r
  have e2 : s0.filter.st.r = _ := h2.fed.model.mats.r
  rw [e1, e2]
  intro hq
  simp only [viewNew, DMat.mk.injEq, heq_eq_eq, true_and] at hq
  have := congrFun (congrFun hq 0) 0
  simp [square] at this
  apply ha
  linarith

/-! ## C28 -/

/-- The pendulum over one sampling period from `ξ`, the ZMP being `z`. -/
def pendulum (c : Conf) (ξ z : ℝ) : ℝ := ξ + c.omega0 * c.dt * (ξ - z)

theorem pred_eq {v : View} {c : Conf} (hs : Shape v c) (u : Fin 1 → ℝ) (x : Fin 2 → ℝ) :
    predState v.d u x = ![pendulum c (x 0) (u 0), x 1] := by
  unfold predState pendulum
  rw [hs.A, hs.B]
  ext i
  fin_cases i
  · simp [mulVec, dotProduct, Fin.sum_univ_two]; ring
  · simp [mulVec, dotProduct, Fin.sum_univ_two]

theorem meas_eq {v : View} {c : Conf} (hs : Shape v c) (x : Fin 2 → ℝ) : predMeas v.d 0 x = ![x 0 + x 1] := by
  unfold predMeas
  rw [hs.C, hs.D]
  ext i
  fin_cases i
  simp [mulVec, dotProduct, Fin.sum_univ_two]

/-- One cycle of use from a state in which the data supplied before have been processed: the new estimates are the Kalman correction, with
the measured DCM `y`, of the pendulum driven by the ZMP supplied before, with constant bias. -/
theorem C28_unidim (c : Conf) (hstd : c.dcmStd ≠ 0) (dcm bias dcmUnc biasUnc : ℝ) (ops : List Op) (ho : ∀ o ∈ ops, o.Regular)
    (s s0 : Est) (h : createRun c dcm bias dcmUnc biasUnc ops = .ok s) (h0 : update s = .ok s0) (y z : ℝ) :
    ∃ s1 s2 ξ b ξ' b' P Q R, estimates s0 = .ok (ξ, b) ∧ setInputs s0 y z = .ok s1 ∧ update s1 = .ok s2 ∧ estimates s2 = .ok (ξ', b') ∧
      s0.filter.st.pr = ⟨2, 2, P⟩ ∧ s0.filter.st.q = ⟨2, 2, Q⟩ ∧ s0.filter.st.r = ⟨1, 1, R⟩ ∧
      let C := c.afterAll ops
      let ξp := pendulum C ξ C.zmp
      let M := predCov !![1 + C.omega0 * C.dt, 0; 0, 1] Q P
      ![ξ', b'] = ![ξp, b] + gain !![1, 1] R M *ᵥ ![y - (ξp + b)] := by
  have hr : createRun c dcm bias dcmUnc biasUnc (ops ++ [.update]) = .ok s0 := by
    obtain ⟨t, h1, h2⟩ := Res.bind_eq_ok.1 h
    simp only [createRun, h1, Res.ok_bind, List.foldlM_append, h2]
    simp only [List.foldlM_cons, exec, h0]
    rfl
  have ho' : ∀ o ∈ ops ++ [Op.update], o.Regular := by
    intro o hm
    rcases List.mem_append.1 hm with h | h
    · exact ho o h
    · simp only [List.mem_singleton] at h; subst h; trivial
  have hcc : c.afterAll (ops ++ [.update]) = c.afterAll ops := by simp [Conf.afterAll, Conf.after]
  obtain ⟨v, rv, gv, sv, ev⟩ := reach hstd ho' hr
  rw [hcc] at sv
  have hpend : v.pend = [] := by
    rw [List.foldlM_append] at ev
    obtain ⟨v1, h1, h2⟩ := Res.bind_eq_ok.1 ev
    rw [List.foldlM_cons] at h2
    obtain ⟨v2, h3, h4⟩ := Res.bind_eq_ok.1 h2
    cases h4
    simp only [View.exec, View.update] at h3
    split_ifs at h3
    cases h3
    rfl
  rcases rv.exec gv (.setInputs y z) with ⟨s1, v1, h1, h2, h3⟩ | ⟨h1, h2⟩
  swap
  · cases h2
  cases h2
  have g1 : (v.push y z).Good := gv.exec (o := .setInputs y z) trivial rfl
  have s1s := sv.exec (.setInputs y z) rfl
  rcases h3.update g1 with ⟨s2, v2, h4, h5, h6⟩ | ⟨h4, h5⟩
  swap
  · simp [View.update, View.push] at h5
  have hv2 : v2 = (v.push y z).estimate := by
    rw [View.update, if_neg (by simp [View.push])] at h5
    cases h5; rfl
  subst hv2
  refine ⟨s1, s2, _, _, _, _, v.P, v.d.Q, v.d.R, rv.estimates, h1, h4, h6.estimates, rv.fed.model.mats.pr, rv.fed.model.mats.q,
    rv.fed.model.mats.r, ?_⟩
  simp only
  have hx : (v.push y z).estimate.x = (linStep v.d ⟨![v.previousZmp], 0, ![y]⟩ (v.x, v.P)).1 := by
    show (LKF.consume _ (v.x, v.P) (v.pend ++ [(![v.previousZmp], ![y])])).1 = _
    rw [hpend]; rfl
  have he : ![(v.push y z).estimate.x 0, (v.push y z).estimate.x 1] = (v.push y z).estimate.x := by
    ext i; fin_cases i <;> rfl
  rw [he, hx]
  unfold linStep
  simp only
  rw [pred_eq sv, meas_eq sv, sv.A, sv.C, sv.zmp]
  congr 2
  ext i
  fin_cases i
  simp

/-- If the measured DCM is the predicted one plus the bias, the estimates are the prediction. -/
theorem C28_unidim_predict (c : Conf) (hstd : c.dcmStd ≠ 0) (dcm bias dcmUnc biasUnc : ℝ) (ops : List Op) (ho : ∀ o ∈ ops, o.Regular)
    (s s0 : Est) (h : createRun c dcm bias dcmUnc biasUnc ops = .ok s) (h0 : update s = .ok s0) (z ξ b : ℝ)
    (he : estimates s0 = .ok (ξ, b)) :
    ∃ s1 s2, setInputs s0 (pendulum (c.afterAll ops) ξ (c.afterAll ops).zmp + b) z = .ok s1 ∧ update s1 = .ok s2 ∧
      estimates s2 = .ok (pendulum (c.afterAll ops) ξ (c.afterAll ops).zmp, b) := by
  obtain ⟨s1, s2, ξ0, b0, ξ', b', P, Q, R, h1, h2, h3, h4, -, -, -, h7⟩ :=
    C28_unidim c hstd dcm bias dcmUnc biasUnc ops ho s s0 h h0 (pendulum (c.afterAll ops) ξ (c.afterAll ops).zmp + b) z
  rw [h1] at he
  cases he
  refine ⟨s1, s2, h2, h3, ?_⟩
  simp only [sub_self] at h7
  have h8 : (![0] : Fin 1 → ℝ) = 0 := by ext i; fin_cases i; rfl
  rw [h8, mulVec_zero, add_zero] at h7
  rw [h4, show ξ' = _ from congrFun h7 0, show b' = _ from congrFun h7 1]
  rfl

/-- The records stored for a sequence of measurements. -/
def records (z0 : ℝ) : List (ℝ × ℝ) → List ((Fin 1 → ℝ) × (Fin 1 → ℝ))
  | [] => []
  | q :: qs => (![z0], ![q.1]) :: records q.2 qs

theorem push_all : ∀ (data : List (ℝ × ℝ)) (w : View), ∃ w', (data.map fun q => Op.setInputs q.1 q.2).foldlM View.exec w = .ok w' ∧
    w'.d = w.d ∧ w'.x = w.x ∧ w'.P = w.P ∧ w'.pend = w.pend ++ records w.previousZmp data
  | [], w => ⟨w, rfl, rfl, rfl, rfl, by simp [records]⟩
  | q :: qs, w => by
    obtain ⟨w', h1, h2, h3, h4, h5⟩ := push_all qs (w.push q.1 q.2)
    refine ⟨w', h1, h2, h3, h4, ?_⟩
    rw [h5]
    simp [View.push, records]

theorem consume_append {n m p : ℕ} (d : LinModel n m p) (z l l') : LKF.consume d z (l ++ l') = LKF.consume d (LKF.consume d z l) l' := by
  simp [LKF.consume]

theorem step_all : ∀ (data : List (ℝ × ℝ)) (w : View), data ≠ [] →
    ∃ w', (data.flatMap fun q => [Op.setInputs q.1 q.2, Op.update]).foldlM View.exec w = .ok w' ∧
    (w'.x, w'.P) = LKF.consume w.d (w.x, w.P) (w.pend ++ records w.previousZmp data)
  | [], w => fun h => absurd rfl h
  | q :: qs, w => by
    intro _
    have h0 : (w.push q.1 q.2).update = .ok (w.push q.1 q.2).estimate := by
      rw [View.update, if_neg (by simp [View.push])]
    rw [List.flatMap_cons, List.foldlM_append]
    have h1 : [Op.setInputs q.1 q.2, Op.update].foldlM View.exec w = .ok (w.push q.1 q.2).estimate := by
      simp only [List.foldlM_cons, View.exec, Res.ok_bind, h0]; rfl
    rw [h1, Res.ok_bind]
    by_cases hq : qs = []
    · subst hq
      refine ⟨_, rfl, ?_⟩
      rfl
    · obtain ⟨w', h2, h3⟩ := step_all qs (w.push q.1 q.2).estimate hq
      refine ⟨w', h2, ?_⟩
      rw [h3]
      simp only [View.estimate, View.push, List.nil_append, records]
      rw [← consume_append, List.append_assoc, List.singleton_append]

/-- Processing the data one sample at a time or all at once gives the same estimates and the same covariance. -/
theorem C28_unidim_batch (c : Conf) (hstd : c.dcmStd ≠ 0) (dcm bias dcmUnc biasUnc : ℝ) (ops : List Op) (ho : ∀ o ∈ ops, o.Regular)
    (s : Est) (h : createRun c dcm bias dcmUnc biasUnc ops = .ok s) (data : List (ℝ × ℝ)) (hne : data ≠ []) :
    ∃ s1 s2 e, (data.map (fun q => Op.setInputs q.1 q.2) ++ [Op.update]).foldlM exec s = .ok s1 ∧
      (data.flatMap (fun q => [Op.setInputs q.1 q.2, Op.update])).foldlM exec s = .ok s2 ∧
      estimates s1 = .ok e ∧ estimates s2 = .ok e ∧ s1.filter.st.pr = s2.filter.st.pr := by
  obtain ⟨v, rv, gv, sv, -⟩ := reach hstd ho h
  obtain ⟨w1, a1, a2, a3, a4, a5⟩ := push_all data v
  obtain ⟨w2, b1, b2⟩ := step_all data v hne
  have hp : w1.pend ≠ [] := by
    rw [a5]
    cases data with
    | nil => exact absurd rfl hne
    | cons q qs => simp [records]
  have a6 : (data.map (fun q => Op.setInputs q.1 q.2) ++ [Op.update]).foldlM View.exec v = .ok w1.estimate := by
    rw [List.foldlM_append, a1]
    simp only [Res.ok_bind, List.foldlM_cons, View.exec]
    rw [View.update, if_neg (by have := List.length_pos_iff.2 hp; omega)]
    rfl
  rcases rv.run gv (data.map (fun q => Op.setInputs q.1 q.2) ++ [Op.update]) (by
    intro o ho
    simp only [List.mem_append, List.mem_map, List.mem_singleton] at ho
    rcases ho with ⟨q, -, rfl⟩ | rfl <;> trivial) with ⟨s1, v1, h1, h2, h3, h4⟩ | ⟨h1, h2⟩
  swap
  · rw [a6] at h2; cases h2
  rcases rv.run gv (data.flatMap (fun q => [Op.setInputs q.1 q.2, Op.update])) (by
    intro o ho
    simp only [List.mem_flatMap, List.mem_cons, List.not_mem_nil, or_false] at ho
    rcases ho with ⟨q, -, rfl | rfl⟩ <;> trivial) with ⟨s2, v2, h1', h2', h3', h4'⟩ | ⟨h1', h2'⟩
  swap
  · rw [b1] at h2'; cases h2'
  obtain rfl : w1.estimate = v1 := by rw [a6] at h2; cases h2; rfl
  obtain rfl : w2 = v2 := by rw [b1] at h2'; cases h2'; rfl
  have key : (w1.estimate.x, w1.estimate.P) = (w2.x, w2.P) := by
    rw [b2]
    simp only [View.estimate, a2, a3, a4, a5]
  have kx : w1.estimate.x = w2.x := congrArg Prod.fst key
  have kP : w1.estimate.P = w2.P := congrArg Prod.snd key
  refine ⟨s1, s2, _, h1, h1', h3.estimates, ?_, ?_⟩
  · rw [h3'.estimates, kx]
  · rw [h3.fed.model.mats.pr, h3'.fed.model.mats.pr, kP]

/-! ## C29 -/

/-- The estimates and the covariance of a new estimator. -/
theorem C29_unidim_constructor (c : Conf) (dcm bias dcmUnc biasUnc : ℝ) :
    ∃ s P, createRun c dcm bias dcmUnc biasUnc [] = .ok s ∧ estimates s = .ok (dcm, bias) ∧ s.filter.st.pr = ⟨2, 2, P⟩ ∧ P.PosSemidef ∧
      P = !![dcmUnc ^ 2, 0; 0, biasUnc ^ 2] := by
  obtain ⟨s, h1, h2⟩ := rep_new c.dt c.omega0 c.driftStd dcm c.zmp bias c.dcmStd c.zmpStd dcmUnc biasUnc
  refine ⟨s, _, ?_, h2.estimates, h2.fed.model.mats.pr, psd2_diag (square_nonneg _) (square_nonneg _), ?_⟩
  · simp only [createRun, h1, Res.ok_bind]; rfl
  · simp [viewNew, square, pow_two]

/-- A reset after any use: the covariance is positive semidefinite. If the measurement is with bias, the DCM and bias estimates add up to it
and the variance of their sum is exactly the variance of the measurement; otherwise the DCM is the measurement, with its variance. -/
theorem C29_unidim_reset (c : Conf) (hstd : c.dcmStd ≠ 0) (dcm bias dcmUnc biasUnc : ℝ) (ops : List Op) (ho : ∀ o ∈ ops, o.Regular)
    (s : Est) (h : createRun c dcm bias dcmUnc biasUnc ops = .ok s) (y z : ℝ) (w : Bool) (drift std zstd b bu : ℝ) (hs : std ≠ 0) :
    ∃ (s' : Est) (P : Matrix (Fin 2) (Fin 2) ℝ) (ξ : ℝ), resetWithInputs s y z w drift std zstd b bu = .ok s' ∧ estimates s' = .ok (ξ, b) ∧
      s'.filter.st.pr = ⟨2, 2, P⟩ ∧ P.PosSemidef ∧ P 1 1 = bu ^ 2 ∧
      (w = true → ξ + b = y ∧ ![1, 1] ⬝ᵥ (P *ᵥ ![1, 1]) = std ^ 2) ∧
      (w = false → ξ = y ∧ P 0 0 = std ^ 2 ∧ P 0 1 = 0 ∧ P 1 0 = 0) := by
  obtain ⟨v, rv, gv, sv, ev⟩ := reach hstd ho h
  obtain ⟨s', h1, h2⟩ := rv.reset y z w drift std zstd b bu
  have hg := gv.exec (o := .resetWithInputs y z w drift std zstd b bu) hs rfl
  cases w
  · refine ⟨s', _, _, h1, h2.estimates, h2.fed.model.mats.pr, hg.P, ?_, by simp, fun _ => ⟨rfl, ?_, rfl, rfl⟩⟩
    · simp [View.reset, square, pow_two]
    · simp [View.reset, square, pow_two]
  · refine ⟨s', _, _, h1, h2.estimates, h2.fed.model.mats.pr, hg.P, ?_, fun _ => ⟨?_, ?_⟩, by simp⟩
    · simp [View.reset, square, pow_two]
    · simp [View.reset]
    · simp [View.reset, square, dotProduct, mulVec, Fin.sum_univ_two]
      ring

/-! ## C30 -/

/-- The call with all positions moved by `t`. -/
def Op.translate (t : ℝ) : Op → Op
  | .resetWithInputs dcm zmp w d r z b bu => .resetWithInputs (dcm + t) (zmp + t) w d r z b bu
  | .setUnbiasedDCM dcm => .setUnbiasedDCM (dcm + t)
  | .setUnbiasedDCM2 dcm u => .setUnbiasedDCM2 (dcm + t) u
  | .setInputs dcm zmp => .setInputs (dcm + t) (zmp + t)
  | o => o

def View.translate (v : View) (t : ℝ) : View :=
  { v with x := ![v.x 0 + t, v.x 1], previousZmp := v.previousZmp + t, pend := v.pend.map fun q => (![q.1 0 + t], ![q.2 0 + t]) }

theorem vec2_eta (x : Fin 2 → ℝ) : ![x 0, x 1] = x := by ext i; fin_cases i <;> rfl

theorem step_translate {v : View} {c : Conf} (hs : Shape v c) (t : ℝ) (q : (Fin 1 → ℝ) × (Fin 1 → ℝ)) (x : Fin 2 → ℝ) (P) :
    linStep v.d ⟨![q.1 0 + t], 0, ![q.2 0 + t]⟩ (![x 0 + t, x 1], P) =
      (![(linStep v.d ⟨q.1, 0, q.2⟩ (x, P)).1 0 + t, (linStep v.d ⟨q.1, 0, q.2⟩ (x, P)).1 1], (linStep v.d ⟨q.1, 0, q.2⟩ (x, P)).2) := by
  have h1 : predState v.d ![q.1 0 + t] ![x 0 + t, x 1] = predState v.d q.1 x + ![t, 0] := by
    rw [pred_eq hs, pred_eq hs]
    ext i
    fin_cases i
    · simp [pendulum]; ring
    · simp
  have h2 : ![q.2 0 + t] - predMeas v.d 0 (predState v.d q.1 x + ![t, 0]) = q.2 - predMeas v.d 0 (predState v.d q.1 x) := by
    rw [meas_eq hs, meas_eq hs]
    ext i
    fin_cases i
    simp
    ring
  unfold linStep
  simp only
  rw [h1, h2]
  congr 1
  ext i
  fin_cases i
  · simp [vecHead]; ring
  · simp [vecHead, vecTail]

theorem consume_translate {v : View} {c : Conf} (hs : Shape v c) (t : ℝ) : ∀ (pend : List ((Fin 1 → ℝ) × (Fin 1 → ℝ))) (x : Fin 2 → ℝ) (P),
    LKF.consume v.d (![x 0 + t, x 1], P) (pend.map fun q => (![q.1 0 + t], ![q.2 0 + t])) =
      (![(LKF.consume v.d (x, P) pend).1 0 + t, (LKF.consume v.d (x, P) pend).1 1], (LKF.consume v.d (x, P) pend).2)
  | [], x, P => rfl
  | q :: pend, x, P => by
    show LKF.consume v.d (linStep v.d ⟨![q.1 0 + t], 0, ![q.2 0 + t]⟩ (![x 0 + t, x 1], P)) _ = _
    rw [step_translate hs]
    exact consume_translate hs t pend _ _

theorem exec_translate {v : View} {c : Conf} (hs : Shape v c) (t : ℝ) (o : Op) :
    (v.translate t).exec (o.translate t) = (v.exec o >>= fun v' => .ok (v'.translate t)) := by
  cases o
  case resetWithInputs dcm zmp w d r z b bu =>
    simp only [View.exec, Op.translate, Res.ok_bind]
    unfold View.reset View.translate View.updateMatrices
    simp only [List.map_nil]
    congr 2
    cases w
    · simp
    · simp only [if_true]
      ext i
      fin_cases i
      · simp; ring
      · simp
  case update =>
    simp only [View.exec, Op.translate, View.update]
    have hl : (v.translate t).pend.length = v.pend.length := by simp [View.translate]
    rw [hl]
    show (if v.old + _ = 0 then _ else _) = _
    split_ifs
    · rfl
    · simp only [Res.ok_bind]
      unfold View.estimate View.translate
      simp only [consume_translate hs]
      congr 2
      · simp
      · simp
  case setInputs dcm zmp =>
    simp only [View.exec, Op.translate, Res.ok_bind]
    unfold View.push View.translate
    simp
  all_goals rfl

theorem run_translate (t : ℝ) (ops : List Op) : ∀ {v : View} {c : Conf}, Shape v c →
    (ops.map (Op.translate t)).foldlM View.exec (v.translate t) = (ops.foldlM View.exec v >>= fun v' => .ok (v'.translate t)) := by
  induction ops with
  | nil => intro v c _; rfl
  | cons o os ih =>
    intro v c hs
    rw [List.map_cons, List.foldlM_cons, List.foldlM_cons, exec_translate hs]
    cases he : v.exec o with
    | ok v1 =>
      simp only [Res.ok_bind]
      exact ih (hs.exec o he)
    | assertFail => rfl
    | ub => rfl
    | exn => rfl

/-- Moving all positions by `t` moves the DCM estimate by `t` and leaves the bias estimate. -/
theorem C30_unidim (c : Conf) (hstd : c.dcmStd ≠ 0) (dcm bias dcmUnc biasUnc t : ℝ) (ops : List Op) (ho : ∀ o ∈ ops, o.Regular)
    (s : Est) (h : createRun c dcm bias dcmUnc biasUnc ops = .ok s) :
    ∃ s' ξ b, createRun { c with zmp := c.zmp + t } (dcm + t) bias dcmUnc biasUnc (ops.map (Op.translate t)) = .ok s' ∧
      estimates s = .ok (ξ, b) ∧ estimates s' = .ok (ξ + t, b) := by
  obtain ⟨v, rv, gv, sv, ev⟩ := reach hstd ho h
  have ht := run_translate t ops (shape_new c dcm bias dcmUnc biasUnc)
  rw [ev] at ht
  obtain ⟨s0, h1, h2⟩ := rep_new c.dt c.omega0 c.driftStd (dcm + t) (c.zmp + t) bias c.dcmStd c.zmpStd dcmUnc biasUnc
  have h0 : (view0 c dcm bias dcmUnc biasUnc).translate t =
    viewNew c.dt c.omega0 c.driftStd (dcm + t) (c.zmp + t) bias c.dcmStd c.zmpStd dcmUnc biasUnc := rfl
  have ho' : ∀ o ∈ ops.map (Op.translate t), o.Regular := by
    intro o hm
    obtain ⟨o', h', rfl⟩ := List.mem_map.1 hm
    have := ho o' h'
    cases o' <;> exact this
  rcases h2.run (good_new _ _ _ _ _ _ _ _ _ _ hstd) (ops.map (Op.translate t)) ho' with ⟨s', v', h3, h4, h5, h6⟩ | ⟨h3, h4⟩
  · rw [← h0, ht] at h4
    cases h4
    refine ⟨s', v.x 0, v.x 1, ?_, rv.estimates, h5.estimates⟩
    rw [createRun]
    simp only [h1, Res.ok_bind]
    exact h3
  · rw [← h0, ht] at h4
    cases h4

/-- The hypotheses of the theorems of this file: a use with all kinds of calls. -/
example : ∃ s, createRun ⟨1, 2, 3, 4, 5, 6⟩ 1 2 3 4
    [.setInputs 1 2, .update, .setBias 1, .setLipmNaturalFrequency 3, .setInputs 1 3, .update, .resetWithInputs 1 2 true 1 1 1 1 1] = .ok s := by
  obtain ⟨s0, h1, h2⟩ := rep_new 1 2 3 1 6 2 4 5 3 4
  rcases h2.run (good_new _ _ _ _ _ _ _ _ _ _ (by norm_num)) [.setInputs 1 2, .update, .setBias 1, .setLipmNaturalFrequency 3, .setInputs 1 3,
    .update, .resetWithInputs 1 2 true 1 1 1 1 1] (by simp [Op.Regular]) with ⟨s', v', h3, -, -, -⟩ | ⟨h3, h4⟩
  · exact ⟨s', by simp only [createRun, h1, Res.ok_bind]; exact h3⟩
  · simp [View.exec, View.update, View.push, View.estimate, View.updateMatrices] at h4

end StateObs.Unidim
