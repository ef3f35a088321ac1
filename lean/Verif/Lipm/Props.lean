import Verif.OutcomeLaws
import Verif.Lipm.LimitProps
/-!
# C27-C30: parameters, prediction, initial covariance, translations
-/

namespace StateObs.Lipm
open StateObs Matrix KF KFSpec Blocks

/-! ## C27 -/

/-- Two filters have the same model: state, input and measurement matrices and the two noise covariances. -/
structure SameModel (f g : KFilter LKF.Ext) : Prop where
  a : f.st.a = g.st.a
  b : f.st.ext.b = g.st.ext.b
  c : f.st.c = g.st.c
  q : f.st.q = g.st.q
  r : f.st.r = g.st.r

/-- The full claim: after any sequence of the five setters the filter has the model that a new estimator with the final values has. -/
def C27_statement : Prop :=
  ∀ (c : Conf) (dcm bias dcmUnc biasUnc : Fin 2 → ℝ) (ops : List Op), c.ori = 1 → c.dcmStd ≠ 0 → (∀ o ∈ ops, o.Tuning) →
    ∀ s s', createRun c dcm bias dcmUnc biasUnc ops = .ok s → create (c.afterAll ops) dcm bias dcmUnc biasUnc = .ok s' →
      SameModel s.filter s'.filter

/-- The parameters enter the noise covariances as in the constructor. -/
structure Noise (v : View) (c : Conf) : Prop where
  drift : v.biasDriftStd = c.driftStd
  R : v.R = dblToSqDiag c.dcmStd
  Q : v.Q = blk (dblToSqDiag (c.omega0 * c.dt * c.zmpStd)) 0 0 (dblToSqDiag (c.driftStd * c.dt))

theorem Noise.exec {v v' : View} {c : Conf} (h : Noise v c) (hs : Shape v c) {o : Op} (ho : o.Sound) (he : v.exec o = .ok v') :
    Noise v' (c.after o) := by
  have hu : ∀ {v v' : View}, Noise v c → v.update = .ok v' → Noise v' c := by
    intro v v' h hu
    obtain ⟨x, rfl⟩ := View.update_eq hu
    exact ⟨h.1, h.2, h.3⟩
  cases o
  case resetWithMeasurements dcm zmp yaw w b bu => cases he; exact ⟨h.1, h.2, h.3⟩
  case setLipmNaturalFrequency w =>
    cases he
    refine ⟨h.1, h.2, ?_⟩
    show blk (dblToSqDiag (w * v.dt * v.zmpErrorStd)) 0 0 (dblToSqDiag (v.biasDriftStd * v.dt)) = _
    rw [hs.dt, hs.zmpStd, h.1]; rfl
  case setSamplingTime w =>
    cases he
    refine ⟨h.1, h.2, ?_⟩
    show blk (dblToSqDiag (v.omega0 * w * v.zmpErrorStd)) 0 0 (dblToSqDiag (v.biasDriftStd * w)) = _
    rw [hs.omega0, hs.zmpStd, h.1]; rfl
  case setZmpMeasureErrorStd w =>
    cases he
    refine ⟨h.1, h.2, ?_⟩
    show blk (dblToSqDiag (v.omega0 * v.dt * w)) 0 0 (dblToSqDiag (v.biasDriftStd * v.dt)) = _
    rw [hs.omega0, hs.dt, h.1]; rfl
  case setDcmMeasureErrorStd w => exact ho.elim
  case setBiasDriftPerSecond a => exact ho.elim
  case setBiasLimit l => cases he; exact ⟨h.1, h.2, h.3⟩
  case setBias b => cases he; exact ⟨h.1, h.2, h.3⟩
  case setUnbiasedDCM b => cases he; exact ⟨h.1, h.2, h.3⟩
  case setBias2 b u => cases he; exact ⟨h.1, h.2, h.3⟩
  case setUnbiasedDCM2 b u => cases he; exact ⟨h.1, h.2, h.3⟩
  case update => exact hu h he
  case setInputs dcm zmp R =>
    simp only [View.exec, Res.bind_eq_ok] at he
    obtain ⟨v1, h1, h2⟩ := he
    have hs : Noise v1 c := by
      split_ifs at h1
      · exact hu h h1
      · cases h1; exact h
    cases h2
    exact ⟨hs.1, hs.2, hs.3⟩

theorem Noise.run {v v' : View} {c : Conf} (h : Noise v c) (hs : Shape v c) (ops : List Op) (ho : ∀ o ∈ ops, o.Sound)
    (he : ops.foldlM View.exec v = .ok v') : Noise v' (c.afterAll ops) := by
  induction ops generalizing v c with
  | nil => cases he; exact h
  | cons o os ih =>
    rw [List.foldlM_cons] at he
    obtain ⟨v1, h1, h2⟩ := Res.bind_eq_ok.1 he
    exact ih (h.exec hs (ho o (by simp)) h1) (hs.exec o h1) (fun o' h' => ho o' (by simp [h'])) h2

/-- The bias block of the state matrix, the only part of the model that follows the data (the last relative rotation). -/
def sameUpToRotation (A A' : DMat) : Prop := ∃ t ρ ρ' : Matrix (Fin 2) (Fin 2) ℝ, A = ⟨4, 4, blk t 0 0 ρ⟩ ∧ A' = ⟨4, 4, blk t 0 0 ρ'⟩

/-- The setters of sampling time, natural frequency and ZMP error work, in any order and interleaved with any use of the estimator: the
model of the filter is that of a new estimator with the final parameters (except for the rotation of the bias, which comes from the data).
Missing from the full claim: `setDcmMeasureErrorStd` and `setBiasDriftPerSecond`, see `C27_false`. -/
theorem C27_partial (c : Conf) (dcm bias dcmUnc biasUnc : Fin 2 → ℝ) (ops : List Op) (hc : c.ori = 1) (hstd : c.dcmStd ≠ 0)
    (ho : ∀ o ∈ ops, o.Sound) (s s' : Est) (h : createRun c dcm bias dcmUnc biasUnc ops = .ok s)
    (h' : create (c.afterAll ops) dcm bias dcmUnc biasUnc = .ok s') :
    sameUpToRotation s.filter.st.a s'.filter.st.a ∧ s.filter.st.ext.b = s'.filter.st.ext.b ∧ s.filter.st.c = s'.filter.st.c ∧
      s.filter.st.q = s'.filter.st.q ∧ s.filter.st.r = s'.filter.st.r := by
  obtain ⟨v, hr, hg, hs, he⟩ := reach hc hstd h
  have hn : Noise v (c.afterAll ops) := Noise.run ⟨rfl, rfl, rfl⟩ (shape_new c hc dcm bias dcmUnc biasUnc) ops ho he
  obtain ⟨s0, h1, h2⟩ := rep_new (c.afterAll ops).dt (c.afterAll ops).omega0 (c.afterAll ops).driftStd (c.afterAll ops).dcmStd
    (c.afterAll ops).zmpStd (c.afterAll ops).limit (c.afterAll ops).zmp dcm bias dcmUnc biasUnc
  rw [create, h1] at h'
  cases h'
  obtain ⟨ρ, hA⟩ := hs.A
  have m := hr.fed.model
  have m' := h2.fed.model
  refine ⟨⟨_, ρ, 1, m.mats.a.trans (by rw [View.model, hA]), m'.mats.a⟩, ?_, ?_, ?_, ?_⟩
  · refine (m.b.trans ?_).trans m'.b.symm
    rw [View.model, hs.B]; rfl
  · refine (m.mats.c.trans ?_).trans m'.mats.c.symm
    rw [View.model, hs.C]; rfl
  · refine (m.mats.q.trans ?_).trans m'.mats.q.symm
    rw [View.model, hn.Q]; rfl
  · refine (m.mats.r.trans ?_).trans m'.mats.r.symm
    rw [View.model, hn.R]; rfl

/-- With the three setters only, the model is exactly that of the constructor. -/
theorem C27_partial_tuning (c : Conf) (dcm bias dcmUnc biasUnc : Fin 2 → ℝ) (ops : List Op) (hc : c.ori = 1) (hstd : c.dcmStd ≠ 0)
    (ho : ∀ o ∈ ops, o.Tuning ∧ o.Sound) (s s' : Est) (h : createRun c dcm bias dcmUnc biasUnc ops = .ok s)
    (h' : create (c.afterAll ops) dcm bias dcmUnc biasUnc = .ok s') : SameModel s.filter s'.filter := by
  obtain ⟨h1, h2, h3, h4, h5⟩ := C27_partial c dcm bias dcmUnc biasUnc ops hc hstd (fun o h => (ho o h).2) s s' h h'
  refine ⟨?_, h2, h3, h4, h5⟩
  obtain ⟨v, hr, hg, hs, he⟩ := reach hc hstd h
  have key : ∀ (ops : List Op), (∀ o ∈ ops, o.Tuning ∧ o.Sound) → ∀ v v' : View, br v.A = 1 → ops.foldlM View.exec v = .ok v' → br v'.A = 1 := by
    intro ops
    induction ops with
    | nil => intro _ v v' hv he; cases he; exact hv
    | cons o os ih =>
      intro ho v v' hv he
      rw [List.foldlM_cons] at he
      obtain ⟨v1, h1, h2⟩ := Res.bind_eq_ok.1 he
      refine ih (fun o' h' => ho o' (by simp [h'])) v1 v' ?_ h2
      have := ho o (by simp)
      cases o
      case setLipmNaturalFrequency w => cases h1; exact (br_blk _ _ _ _).trans hv
      case setSamplingTime w => cases h1; exact (br_blk _ _ _ _).trans hv
      case setZmpMeasureErrorStd w => cases h1; exact (br_blk _ _ _ _).trans hv
      case setDcmMeasureErrorStd w => exact this.2.elim
      case setBiasDriftPerSecond w => exact this.2.elim
      all_goals exact this.1.elim
  have hbr := key ops ho _ v (br_blk _ _ _ _) he
  obtain ⟨ρ, hA⟩ := hs.A
  rw [hA, br_blk] at hbr
  subst hbr
  obtain ⟨s0, h6, h7⟩ := rep_new (c.afterAll ops).dt (c.afterAll ops).omega0 (c.afterAll ops).driftStd (c.afterAll ops).dcmStd
    (c.afterAll ops).zmpStd (c.afterAll ops).limit (c.afterAll ops).zmp dcm bias dcmUnc biasUnc
  rw [create, h6] at h'
  cases h'
  refine (hr.fed.model.mats.a.trans ?_).trans h7.fed.model.mats.a.symm
  rw [View.model, hA]; rfl

/-- `setDcmMeasureErrorStd` does nothing. -/
theorem C27_dcmStd_ignored (s : Est) (a : ℝ) : exec s (.setDcmMeasureErrorStd a) = .ok s := rfl

theorem updateMatrices_forget (s : Est) (Q : Matrix (Fin (2 + 2)) (Fin (2 + 2)) ℝ) (q : DMat) :
    updateMatricesABQ { s with Q := Q, filter := { s.filter with st := { s.filter.st with q := q } } } = updateMatricesABQ s := by
  simp only [updateMatricesABQ, setA, LKF.setB, setQ, KData.checkA, KData.checkQ, LKF.checkB, DMat.hasSize]
  cases h1 : decide (4 = s.filter.st.nt ∧ 4 = s.filter.st.nt) <;> cases h2 : decide (4 = s.filter.st.n ∧ 2 = s.filter.st.p) <;>
    simp only [h1, h2, Res.assert_true, Res.assert_false, Res.ok_bind, Res.assertFail_bind]

/-- What `setBiasDriftPerSecond` set is forgotten by the next use of another of these setters. -/
theorem C27_drift_forgotten (s s' s'' : Est) (a : ℝ) (o : Op) (ho : o.Tuning ∧ o.Sound) (h1 : exec s (.setBiasDriftPerSecond a) = .ok s')
    (h2 : exec s o = .ok s'') : exec s' o = .ok s'' := by
  have hf : s' = { s with
      Q := blk (tl s.Q) (tr s.Q) (bl s.Q) (dblToSqDiag a)
      filter := { s.filter with st := { s.filter.st with q := ⟨4, 4, blk (tl s.Q) (tr s.Q) (bl s.Q) (dblToSqDiag a)⟩ } } } := by
    simp only [exec, setBiasDriftPerSecond, setQ] at h1
    obtain ⟨f, h3, h4⟩ := Res.bind_eq_ok.1 h1
    obtain ⟨_, h5, h6⟩ := Res.bind_eq_ok.1 h3
    cases h6
    cases h4
    rfl
  subst hf
  rw [← h2]
  cases o
  case setLipmNaturalFrequency w => exact updateMatrices_forget { s with omega0 := w } _ _
  case setSamplingTime w => exact updateMatrices_forget { s with dt := w } _ _
  case setZmpMeasureErrorStd w => exact updateMatrices_forget { s with zmpErrorStd := w } _ _
  case setDcmMeasureErrorStd w => exact ho.2.elim
  case setBiasDriftPerSecond w => exact ho.2.elim
  all_goals exact ho.1.elim

/-- The full claim is false. -/
theorem C27_false : ¬ C27_statement := by
  intro H
  obtain ⟨s, h⟩ := C25_defined conf1 rfl one_ne_zero (Or.inl fun _ => one_pos) 0 0 0 0 [.setDcmMeasureErrorStd 2] (by simp [Op.TwoSided])
  obtain ⟨s', h'⟩ := C25_defined (conf1.afterAll [.setDcmMeasureErrorStd 2]) rfl two_ne_zero (Or.inl fun _ => one_pos) 0 0 0 0 [] (by simp)
  have h'' : create (conf1.afterAll [.setDcmMeasureErrorStd 2]) 0 0 0 0 = .ok s' := by
    obtain ⟨s2, h2, h3⟩ := Res.bind_eq_ok.1 h'
    cases h3
    exact h2
  have hR := (H conf1 0 0 0 0 [.setDcmMeasureErrorStd 2] rfl one_ne_zero (by simp [Op.Tuning]) s s' h h'').r
  obtain ⟨s1, h1, h2⟩ := Res.bind_eq_ok.1 h
  obtain rfl : s1 = s := by cases h2; rfl
  obtain ⟨t1, k1, k2⟩ := rep_new 1 1 1 1 1 (fun _ => 1) 0 0 0 0 0
  obtain ⟨t2, k3, k4⟩ := rep_new 1 1 1 2 1 (fun _ => 1) 0 0 0 0 0
  rw [show create conf1 0 0 0 0 = .ok t1 from k1] at h1
  rw [show create (conf1.afterAll [.setDcmMeasureErrorStd 2]) 0 0 0 0 = .ok t2 from k3] at h''
  obtain rfl : t1 = s1 := by cases h1; rfl
  obtain rfl : t2 = s' := by cases h''; rfl
  have e1 : t1.filter.st.r = ⟨2, 2, dblToSqDiag 1⟩ := k2.fed.model.mats.r
  have e2 : t2.filter.st.r = ⟨2, 2, dblToSqDiag 2⟩ := k4.fed.model.mats.r
  rw [e1, e2] at hR
  simp only [DMat.mk.injEq, heq_eq_eq, true_and] at hR
  have := congrFun (congrFun hR 0) 0
  norm_num [dblToSqDiag, dblToDiag] at this

/-- It is also false for `setBiasDriftPerSecond`: the covariance it sets is not that of the constructor unless the sampling time is one (up
to sign) or the value is zero. -/
theorem C27_false_drift (c : Conf) (hc : c.ori = 1) (hstd : c.dcmStd ≠ 0) (dcm bias dcmUnc biasUnc : Fin 2 → ℝ) (a : ℝ) (ha : a ≠ 0)
    (hdt : c.dt ^ 2 ≠ 1) (s s' : Est) (h : createRun c dcm bias dcmUnc biasUnc [.setBiasDriftPerSecond a] = .ok s)
    (h' : create { c with driftStd := a } dcm bias dcmUnc biasUnc = .ok s') : s.filter.st.q ≠ s'.filter.st.q := by
  obtain ⟨v, hr, hg, hs, he⟩ := reach hc hstd h
  obtain ⟨s0, h1, h2⟩ := rep_new c.dt c.omega0 a c.dcmStd c.zmpStd c.limit c.zmp dcm bias dcmUnc biasUnc
  rw [create, h1] at h'
  obtain rfl : s0 = s' := by cases h'; rfl
  have e1 : s0.filter.st.q = _ := h2.fed.model.mats.q
  have e2 : s.filter.st.q = _ := hr.fed.model.mats.q
  rw [e1, e2]
  intro hq
  have hq' : v.Q = (viewNew c.dt c.omega0 a c.dcmStd c.zmpStd c.limit c.zmp dcm bias dcmUnc biasUnc).Q := by
    simp only [DMat.mk.injEq, heq_eq_eq, true_and] at hq
    exact hq
  cases he
  have := congrArg br hq'
  simp only [viewNew, br_blk] at this
  have := congrFun (congrFun this 0) 0
  simp only [dblToSqDiag, dblToDiag, diagonal_apply_eq] at this
  apply hdt
  have h3 : a * a * (c.dt ^ 2 - 1) = 0 := by linear_combination -this
  rcases mul_eq_zero.1 h3 with h4 | h4
  · exact absurd (mul_self_eq_zero.1 h4) ha
  · linarith

/-- Non-vacuity of `C27_partial_tuning`. -/
example : ∃ s s', createRun conf1 0 0 0 0 [.setSamplingTime 3, .setLipmNaturalFrequency 4, .setZmpMeasureErrorStd 5] = .ok s ∧
    create (conf1.afterAll [.setSamplingTime 3, .setLipmNaturalFrequency 4, .setZmpMeasureErrorStd 5]) 0 0 0 0 = .ok s' := by
  obtain ⟨s, h⟩ := C25_defined conf1 rfl one_ne_zero (Or.inl fun _ => one_pos) 0 0 0 0
    [.setSamplingTime 3, .setLipmNaturalFrequency 4, .setZmpMeasureErrorStd 5] (by simp [Op.TwoSided])
  obtain ⟨t2, k3, -⟩ := rep_new 3 4 1 1 5 (fun _ => 1) 0 0 0 0 0
  exact ⟨s, t2, h, k3⟩

/-! ## C28 -/

theorem dblToDiag_mulVec (a : ℝ) (x : Fin 2 → ℝ) : dblToDiag a *ᵥ x = a • x := by
  ext i; simp [dblToDiag, mulVec_diagonal]

/-- The pendulum over one sampling period from `ξ`, the ZMP being `z`. -/
def pendulum (c : Conf) (ξ z : Fin 2 → ℝ) : Fin 2 → ℝ := ξ + (c.omega0 * c.dt) • (ξ - z)

theorem pred_eq {v : View} {c : Conf} (hs : Shape v c) {ρ : Matrix (Fin 2) (Fin 2) ℝ} (hA : v.A = blk (dblToDiag (1 + c.omega0 * c.dt)) 0 0 ρ)
    (u : Fin 2 → ℝ) (x : Fin (2 + 2) → ℝ) : predState v.model u x = vcat (pendulum c (head x) u) (ρ *ᵥ tail x) := by
  unfold predState View.model
  simp only
  rw [hA, hs.B, ← vcat_eta x, blk_mulVec, colBlk_mulVec, vcat_add, head_vcat, tail_vcat, dblToDiag_mulVec, dblToDiag_mulVec]
  simp only [zero_mulVec, add_zero, zero_add]
  congr 1
  unfold pendulum
  rw [smul_sub, add_smul, one_smul, neg_mul, neg_smul]
  abel

theorem R_const : ∀ (ops : List Op) (v v' : View), ops.foldlM View.exec v = .ok v' → v'.R = v.R := by
  intro ops
  induction ops with
  | nil => intro v v' he; cases he; rfl
  | cons o os ih =>
    intro v v' he
    rw [List.foldlM_cons] at he
    obtain ⟨v1, h1, h2⟩ := Res.bind_eq_ok.1 he
    rw [ih v1 v' h2]
    cases o
    case update => obtain ⟨x, rfl⟩ := View.update_eq h1; rfl
    case setInputs =>
      simp only [View.exec, Res.bind_eq_ok] at h1
      obtain ⟨v2, h3, h4⟩ := h1
      cases h4
      split_ifs at h3
      · obtain ⟨x, rfl⟩ := View.update_eq h3; rfl
      · cases h3; rfl
    all_goals (cases h1; rfl)

/-- One cycle of use, with everything supplied before already processed: from the estimates `(ξ, b)`, new data `(y, z, R)` and an update (no
limit on the bias). The new estimates are the Kalman correction, with the measured DCM `y`, of the prediction: the pendulum driven by the
ZMP supplied before, and the bias turned by the relative rotation since the last orientation.
Missing from the full claim: the second of two `setInputs` that follow the construction or a reset without an update, see `C28_false`. -/
theorem C28_partial (c : Conf) (hc : c.ori = 1) (hstd : c.dcmStd ≠ 0) (dcm bias dcmUnc biasUnc : Fin 2 → ℝ) (ops : List Op)
    (s s0 : Est) (h : createRun c dcm bias dcmUnc biasUnc ops = .ok s) (h0 : update s = .ok s0)
    (hl : ∀ i, (c.afterAll ops).limit i ≤ 0) (y z : Fin 2 → ℝ) (R : Matrix (Fin 2) (Fin 2) ℝ) :
    ∃ s1 s2 ξ b ξ' b' P Q, estimates s0 = .ok (ξ, b) ∧ setInputs s0 y z R = .ok s1 ∧ update s1 = .ok s2 ∧ estimates s2 = .ok (ξ', b') ∧
      s0.filter.st.pr = ⟨4, 4, P⟩ ∧ s0.filter.st.q = ⟨4, 4, Q⟩ ∧
      let C := c.afterAll ops
      let ξp := pendulum C ξ C.zmp
      let bp := (R * C.oriᵀ) *ᵥ b
      let M := predCov (blk (dblToDiag (1 + C.omega0 * C.dt)) 0 0 (R * C.oriᵀ)) Q P
      vcat ξ' b' = vcat ξp bp + gain (rowBlk 1 1) (dblToSqDiag c.dcmStd) M *ᵥ (y - (ξp + bp)) := by
  have hr : createRun c dcm bias dcmUnc biasUnc (ops ++ [.update]) = .ok s0 := by
    obtain ⟨t, h1, h2⟩ := Res.bind_eq_ok.1 h
    simp only [createRun, h1, Res.ok_bind, List.foldlM_append, h2]
    simp only [List.foldlM_cons, exec, h0]
    rfl
  have hcc : c.afterAll (ops ++ [.update]) = c.afterAll ops := by simp [Conf.afterAll, Conf.after]
  obtain ⟨v, rv, gv, sv, ev⟩ := reach hc hstd hr
  rw [hcc] at sv
  have hR0 : v.R = dblToSqDiag c.dcmStd := by
    exact R_const _ _ _ ev
  have hpend : v.pend = [] := by
    rw [List.foldlM_append] at ev
    obtain ⟨v1, h1, h2⟩ := Res.bind_eq_ok.1 ev
    rw [List.foldlM_cons] at h2
    obtain ⟨v2, h3, h4⟩ := Res.bind_eq_ok.1 h2
    cases h4
    obtain ⟨x, rfl⟩ := View.update_eq h3
    rfl
  have hold : v.old ≤ 1 := rv.fed.hold
  have hlim : TwoSided (c.afterAll ops).limit := Or.inr hl
  obtain ⟨s1, v1, h1, h2, h3⟩ := rv.exec_ok gv sv hlim (.setInputs y z R)
  have hv1 : v1 = v.push y z R := by
    rw [View.exec, if_neg (by rw [hpend]; simpa using hold)] at h2
    cases h2
    rfl
  subst hv1
  have g1 := gv.exec _ h2
  have s1s := sv.exec _ h2
  have hl1 : ∀ i, (v.push y z R).biasLimit i ≤ 0 := by
    intro i
    show v.biasLimit i ≤ 0
    rw [sv.limit]; exact hl i
  obtain ⟨s2, h4, h5⟩ := h3.update_free g1 hl1
  refine ⟨s1, s2, head v.x, tail v.x, head (v.push y z R).estimate.x, tail (v.push y z R).estimate.x, v.P, v.Q, ?_, h1, h4, ?_, rv.fed.model.mats.pr,
    rv.fed.model.mats.q, ?_⟩
  · rw [estimates, rv.getUnbiasedDCM, rv.getBias]; rfl
  · rw [estimates, h5.getUnbiasedDCM, h5.getBias]; rfl
  · simp only
    rw [vcat_eta]
    have hA : (v.push y z R).A = blk (dblToDiag (1 + (c.afterAll ops).omega0 * (c.afterAll ops).dt)) 0 0 (R * (c.afterAll ops).oriᵀ) := by
      obtain ⟨ρ, hA⟩ := sv.A
      show blk (tl v.A) (tr v.A) (bl v.A) (R * v.previousOrientationᵀ) = _
      rw [hA, sv.ori]; simp
    have hp := pred_eq s1s hA v.previousZmp v.x
    have hx : (v.push y z R).estimate.x = (linStep (v.push y z R).model ⟨v.previousZmp, 0, y⟩ (v.x, v.P)).1 := by
      show (LKF.consume _ (v.x, v.P) (v.pend ++ [(v.previousZmp, y)])).1 = _
      rw [hpend]; rfl
    rw [hx]
    unfold linStep
    simp only
    rw [hp]
    have hM : predMeas (v.push y z R).model 0 (vcat (pendulum ((c.afterAll ops).after (.setInputs y z R)) (head v.x) v.previousZmp)
        ((R * (c.afterAll ops).oriᵀ) *ᵥ tail v.x)) =
        pendulum (c.afterAll ops) (head v.x) (c.afterAll ops).zmp + (R * (c.afterAll ops).oriᵀ) *ᵥ tail v.x := by
      show v.C *ᵥ _ + 0 *ᵥ 0 = _
      rw [sv.C, rowBlk_mulVec, one_mulVec, one_mulVec, sv.zmp]
      simp [pendulum, Conf.after]
    rw [hM, show (v.push y z R).model.A = _ from hA, show (v.push y z R).model.C = rowBlk 1 1 from sv.C,
      show (v.push y z R).model.R = dblToSqDiag c.dcmStd from hR0, sv.zmp]
    rfl

/-- If the measured DCM is the predicted one plus the bias, the estimates are the prediction; the bias has not moved in the frame of the
robot. -/
theorem C28_local_bias_partial (c : Conf) (hc : c.ori = 1) (hstd : c.dcmStd ≠ 0) (dcm bias dcmUnc biasUnc : Fin 2 → ℝ) (ops : List Op)
    (s s0 : Est) (h : createRun c dcm bias dcmUnc biasUnc ops = .ok s) (h0 : update s = .ok s0)
    (hl : ∀ i, (c.afterAll ops).limit i ≤ 0) (z : Fin 2 → ℝ) (R : Matrix (Fin 2) (Fin 2) ℝ) (hR : Rᵀ * R = 1) (ξ b : Fin 2 → ℝ)
    (he : estimates s0 = .ok (ξ, b)) :
    let C := c.afterAll ops
    let y := pendulum C ξ C.zmp + (R * C.oriᵀ) *ᵥ b
    ∃ s1 s2 l, setInputs s0 y z R = .ok s1 ∧ update s1 = .ok s2 ∧ estimates s2 = .ok (pendulum C ξ C.zmp, (R * C.oriᵀ) *ᵥ b) ∧
      getLocalBias s0 = .ok l ∧ getLocalBias s2 = .ok l := by
  intro C y
  obtain ⟨s1, s2, ξ0, b0, ξ', b', P, Q, h1, h2, h3, h4, h5, h6, h7⟩ :=
    C28_partial c hc hstd dcm bias dcmUnc biasUnc ops s s0 h h0 hl y z R
  rw [h1] at he
  cases he
  simp only [y] at h7
  rw [show (pendulum C ξ C.zmp + (R * C.oriᵀ) *ᵥ b) - (pendulum (c.afterAll ops) ξ (c.afterAll ops).zmp + (R * (c.afterAll ops).oriᵀ) *ᵥ b) = 0
    from sub_self _, mulVec_zero, add_zero] at h7
  obtain ⟨e1, e2⟩ := vcat_inj.1 h7
  have hr : createRun c dcm bias dcmUnc biasUnc (ops ++ [.update]) = .ok s0 := by
    obtain ⟨t, h1, h2⟩ := Res.bind_eq_ok.1 h
    simp only [createRun, h1, Res.ok_bind, List.foldlM_append, h2]
    simp only [List.foldlM_cons, exec, h0]
    rfl
  have hr2 : createRun c dcm bias dcmUnc biasUnc (ops ++ [.update, .setInputs y z R, .update]) = .ok s2 := by
    obtain ⟨t, h8, h9⟩ := Res.bind_eq_ok.1 h
    simp only [createRun, h8, Res.ok_bind, List.foldlM_append, h9]
    simp only [List.foldlM_cons, exec, h0, Res.ok_bind, h2, h3]
    rfl
  obtain ⟨v, rv, gv, sv, -⟩ := reach hc hstd hr
  obtain ⟨v2, rv2, gv2, sv2, -⟩ := reach hc hstd hr2
  have o1 : v.previousOrientation = C.ori := by rw [sv.ori]; simp [Conf.afterAll, Conf.after, C]
  have o2 : v2.previousOrientation = R := by rw [sv2.ori]; simp [Conf.afterAll, Conf.after]
  have b1 : tail v.x = b := by
    rw [estimates, rv.getUnbiasedDCM, rv.getBias] at h1
    cases h1; rfl
  have b2 : tail v2.x = b' := by
    rw [estimates, rv2.getUnbiasedDCM, rv2.getBias] at h4
    cases h4; rfl
  refine ⟨s1, s2, C.oriᵀ *ᵥ b, h2, h3, by rw [h4, e1, e2], ?_, ?_⟩
  · rw [rv.getLocalBias, o1, b1]
  · rw [rv2.getLocalBias, o2, b2, e2, mulVec_mulVec, ← Matrix.mul_assoc, hR, Matrix.one_mul]

/-- Without explicit updates: as soon as more than one measurement is stored, `setInputs` does the update first. -/
theorem C28_auto (s : Est) (hx : s.filter.x.isSome) (hn : 1 < s.filter.y.size) (y z : Fin 2 → ℝ) (R : Matrix (Fin 2) (Fin 2) ℝ) (s' : Est)
    (hu : update s = .ok s') (hx' : s'.filter.x.isSome) (hn' : s'.filter.y.size ≤ 1) : setInputs s y z R = setInputs s' y z R := by
  obtain ⟨a, ha⟩ := Option.isSome_iff_exists.1 hx
  obtain ⟨b, hb⟩ := Option.isSome_iff_exists.1 hx'
  unfold setInputs
  simp only [ha, hb]
  rw [if_pos hn, if_neg (not_lt.2 hn'), hu]

theorem linStep_certain {n m p : ℕ} (d : LinModel n m p) (hQ : d.Q = 0) (i : StepIn m p) (x : Fin n → ℝ) :
    linStep d i (x, 0) = (predState d i.u x, 0) := by
  simp [linStep, predCov, gain, posterior, hQ]

/-- The same data with or without an update between the first two samples: with certain initial values and no noise, the bias `(1, 0)` of
the robot that turns by a quarter and back is unchanged in one case and reversed in the other. -/
theorem C28_false : ∃ (c : Conf) (ops ops' : List Op) (s s' : Est) (ξ ξ' : Fin 2 → ℝ), c.ori = 1 ∧ c.dcmStd ≠ 0 ∧
    ops = [.setInputs 0 0 quarter, .update, .setInputs 0 0 1, .update] ∧ ops' = [.setInputs 0 0 quarter, .setInputs 0 0 1, .update] ∧
    createRun c 0 ![1, 0] 0 0 ops = .ok s ∧ createRun c 0 ![1, 0] 0 0 ops' = .ok s' ∧
    estimates s = .ok (ξ, ![1, 0]) ∧ estimates s' = .ok (ξ', ![-1, 0]) := by
  set c : Conf := ⟨1, 1, 0, 1, 0, 0, 0, 1⟩ with hc
  set ops : List Op := [.setInputs 0 0 quarter, .update, .setInputs 0 0 1, .update] with hops
  set ops' : List Op := [.setInputs 0 0 quarter, .setInputs 0 0 1, .update] with hops'
  have hl : TwoSided c.limit := Or.inr fun _ => le_refl _
  obtain ⟨s, hs⟩ := C25_defined c rfl one_ne_zero hl 0 ![1, 0] 0 0 ops (by simp [hops, Op.TwoSided])
  obtain ⟨s', hs'⟩ := C25_defined c rfl one_ne_zero hl 0 ![1, 0] 0 0 ops' (by simp [hops', Op.TwoSided])
  obtain ⟨v, rv, gv, sv, ev⟩ := reach rfl one_ne_zero hs
  obtain ⟨v', rv', gv', sv', ev'⟩ := reach rfl one_ne_zero hs'
  set v0 := viewNew c.dt c.omega0 c.driftStd c.dcmStd c.zmpStd c.limit c.zmp 0 ![1, 0] 0 0 with hv0
  have hP : v0.P = 0 := by
    rw [hv0]; ext i j
    refine Fin.addCases (fun i => ?_) (fun i => ?_) i <;> refine Fin.addCases (fun j => ?_) (fun j => ?_) j <;>
      simp [-Fin.natAdd_eq_addNat, viewNew, blk, vecToSqDiag, diagonal_apply]
  have hQ : v0.Q = 0 := by
    rw [hv0]; ext i j
    refine Fin.addCases (fun i => ?_) (fun i => ?_) i <;> refine Fin.addCases (fun j => ?_) (fun j => ?_) j <;>
      simp [-Fin.natAdd_eq_addNat, viewNew, blk, dblToSqDiag, dblToDiag, diagonal_apply, hc]
  have hupd : ∀ w : View, w.biasLimit = 0 → w.update = .ok w.estimate := by
    intro w hw
    unfold View.update
    rw [if_neg (by rw [hw]; simp)]
  have s0 : Shape v0 c := shape_new c rfl _ _ _ _
  have s1 : Shape (v0.push 0 0 quarter) (c.after (.setInputs 0 0 quarter)) := s0.exec (.setInputs 0 0 quarter) rfl
  have qq : (1 * quarterᵀ) *ᵥ (quarter *ᵥ ![1, 0]) = (![1, 0] : Fin 2 → ℝ) := by
    rw [Matrix.one_mul, mulVec_mulVec, quarter_rot, one_mulVec]
  have qq' : (1 * quarterᵀ) *ᵥ ((1 * quarterᵀ) *ᵥ ![1, 0]) = (![-1, 0] : Fin 2 → ℝ) := by
    ext i; fin_cases i <;> simp [quarter, mulVec, dotProduct, Fin.sum_univ_two]
  have hA1 : (v0.push 0 0 quarter).A = blk (dblToDiag (1 + 1 * 1)) 0 0 quarter := by
    show blk (tl (blk _ _ _ _)) (tr (blk _ _ _ _)) (bl (blk _ _ _ _)) (quarter * 1ᵀ) = _
    simp [hc]
  -- with the update
  have e1 : (v0.push 0 0 quarter).estimate.x = vcat (pendulum c 0 0) (quarter *ᵥ ![1, 0]) ∧ (v0.push 0 0 quarter).estimate.P = 0 := by
    have : LKF.consume (v0.push 0 0 quarter).model (v0.x, v0.P) [(0, 0)] = (predState (v0.push 0 0 quarter).model 0 v0.x, 0) := by
      show linStep _ _ _ = _
      rw [hP]
      exact linStep_certain _ hQ _ _
    have hx : predState (v0.push 0 0 quarter).model 0 v0.x = vcat (pendulum c 0 0) (quarter *ᵥ ![1, 0]) := by
      rw [pred_eq s1 hA1]
      show vcat (pendulum _ (head (vcat 0 ![1, 0])) 0) (quarter *ᵥ tail (vcat 0 ![1, 0])) = _
      rw [head_vcat, tail_vcat]; rfl
    exact ⟨(congrArg Prod.fst this).trans hx, congrArg Prod.snd this⟩
  set w := (v0.push 0 0 quarter).estimate with hw
  have s2 : Shape w (c.after (.setInputs 0 0 quarter)) := s1.update (hupd _ rfl)
  have s3 : Shape (w.push 0 0 1) ((c.after (.setInputs 0 0 quarter)).after (.setInputs 0 0 1)) := s2.exec (.setInputs 0 0 1) rfl
  have hA2 : (w.push 0 0 1).A = blk (dblToDiag (1 + 1 * 1)) 0 0 (1 * quarterᵀ) := by
    show blk (tl (v0.push 0 0 quarter).A) (tr (v0.push 0 0 quarter).A) (bl (v0.push 0 0 quarter).A) (1 * quarterᵀ) = _
    rw [hA1]; simp
  have e2 : tail (w.push 0 0 1).estimate.x = ![1, 0] := by
    have : LKF.consume (w.push 0 0 1).model (w.x, w.P) [(0, 0)] = (predState (w.push 0 0 1).model 0 w.x, 0) := by
      show linStep _ _ _ = _
      rw [e1.2]
      exact linStep_certain _ hQ _ _
    have h2 : (w.push 0 0 1).estimate.x = predState (w.push 0 0 1).model 0 w.x := congrArg Prod.fst this
    rw [h2, pred_eq s3 hA2, tail_vcat, e1.1, tail_vcat, qq]
  have hv : v = (w.push 0 0 1).estimate := by
    have : ops.foldlM View.exec v0 = .ok (w.push 0 0 1).estimate := by
      show (View.exec v0 (.setInputs 0 0 quarter) >>= fun a => View.exec a .update >>= fun a => View.exec a (.setInputs 0 0 1) >>=
        fun a => View.exec a .update >>= fun a => .ok a) = _
      show ((v0.push 0 0 quarter).update >>= fun a => View.exec a (.setInputs 0 0 1) >>= fun a => View.exec a .update >>= fun a => .ok a) = _
      rw [hupd _ rfl]
      show ((w.push 0 0 1).update >>= fun a => .ok a) = _
      rw [hupd _ rfl]
      rfl
    rw [this] at ev
    cases ev; rfl
  -- without
  set w' := (v0.push 0 0 quarter).push 0 0 1 with hw'
  have s3' : Shape w' ((c.after (.setInputs 0 0 quarter)).after (.setInputs 0 0 1)) := s1.exec (.setInputs 0 0 1) rfl
  have hA2' : w'.A = blk (dblToDiag (1 + 1 * 1)) 0 0 (1 * quarterᵀ) := by
    show blk (tl (v0.push 0 0 quarter).A) (tr (v0.push 0 0 quarter).A) (bl (v0.push 0 0 quarter).A) (1 * quarterᵀ) = _
    rw [hA1]; simp
  have e2' : tail w'.estimate.x = ![-1, 0] := by
    have : LKF.consume w'.model (v0.x, v0.P) [(0, 0), (0, 0)] = (predState w'.model 0 (predState w'.model 0 v0.x), 0) := by
      show linStep _ _ (linStep _ _ _) = _
      rw [hP, linStep_certain _ hQ, linStep_certain _ hQ]
    have h2 : w'.estimate.x = predState w'.model 0 (predState w'.model 0 v0.x) := congrArg Prod.fst this
    rw [h2, pred_eq s3' hA2', tail_vcat, pred_eq s3' hA2', tail_vcat]
    show (1 * quarterᵀ) *ᵥ (1 * quarterᵀ) *ᵥ tail (vcat 0 ![1, 0]) = _
    rw [tail_vcat, qq']
  have hv' : v' = w'.estimate := by
    have : ops'.foldlM View.exec v0 = .ok w'.estimate := by
      show (w'.update >>= fun a => .ok a) = _
      rw [hupd _ rfl]
      rfl
    rw [this] at ev'
    cases ev'; rfl
  refine ⟨c, ops, ops', s, s', head v.x, head v'.x, rfl, one_ne_zero, rfl, rfl, hs, hs', ?_, ?_⟩
  · rw [estimates, rv.getUnbiasedDCM, rv.getBias]
    simp only [Res.ok_bind]
    rw [hv, e2]
  · rw [estimates, rv'.getUnbiasedDCM, rv'.getBias]
    simp only [Res.ok_bind]
    rw [hv', e2']

/-- Non-vacuity of `C28_partial`. -/
example : ∃ s s0, createRun { conf1 with limit := 0 } 0 0 0 0 [.setInputs ![1, 2] ![3, 4] quarter] = .ok s ∧ update s = .ok s0 := by
  obtain ⟨s0, h⟩ := C25_defined { conf1 with limit := 0 } rfl one_ne_zero (Or.inr fun _ => le_refl _) 0 0 0 0
    [.setInputs ![1, 2] ![3, 4] quarter, .update] (by simp [Op.TwoSided])
  obtain ⟨t, h1, h2⟩ := Res.bind_eq_ok.1 h
  rw [List.foldlM_cons] at h2
  obtain ⟨s, h3, h4⟩ := Res.bind_eq_ok.1 h2
  refine ⟨s, s0, ?_, ?_⟩
  · rw [createRun, h1]
    simp [h3]
  · rw [List.foldlM_cons] at h4
    obtain ⟨s1, h5, h6⟩ := Res.bind_eq_ok.1 h4
    cases h6
    exact h5

/-! ## C29 -/

theorem rowBlk_mul_blk {d e : ℕ} (A B : Matrix (Fin e) (Fin d) ℝ) (a b c g : Matrix (Fin d) (Fin d) ℝ) :
    rowBlk A B * blk a b c g = rowBlk (A * a + B * c) (A * b + B * g) := by
  ext i j
  refine Fin.addCases (fun j => ?_) (fun j => ?_) j <;>
    simp [-Fin.natAdd_eq_addNat, rowBlk, blk, Matrix.mul_apply, Fin.sum_univ_add]

theorem rowBlk_mul_transpose {d e : ℕ} (A B A' B' : Matrix (Fin e) (Fin d) ℝ) :
    rowBlk A B * (rowBlk A' B')ᵀ = A * A'ᵀ + B * B'ᵀ := by
  ext i j
  simp [-Fin.natAdd_eq_addNat, rowBlk, Matrix.mul_apply, Fin.sum_univ_add]

/-- The covariance of a new estimator, for all standard deviations: positive semidefinite, and the variances are the squares of the
uncertainties given. -/
theorem C29_constructor (c : Conf) (dcm bias dcmUnc biasUnc : Fin 2 → ℝ) :
    ∃ s P, create c dcm bias dcmUnc biasUnc = .ok s ∧ estimates s = .ok (dcm, bias) ∧ s.filter.st.pr = ⟨4, 4, P⟩ ∧ P.PosSemidef ∧
      P = blk (diagonal fun i => dcmUnc i ^ 2) 0 0 (diagonal fun i => biasUnc i ^ 2) := by
  obtain ⟨s, h1, h2⟩ := rep_new c.dt c.omega0 c.driftStd c.dcmStd c.zmpStd c.limit c.zmp dcm bias dcmUnc biasUnc
  refine ⟨s, _, h1, ?_, h2.fed.model.mats.pr, blk_diag_psd (View.vecToSqDiag_psd _) (View.vecToSqDiag_psd _), ?_⟩
  · rw [estimates, h2.getUnbiasedDCM, h2.getBias]
    show Res.ok (head (vcat dcm bias), tail (vcat dcm bias)) = _
    rw [head_vcat, tail_vcat]
  · simp [viewNew, vecToSqDiag, pow_two]

/-- A reset after any use. The covariance is positive semidefinite. If the measurement is with bias, the DCM and bias estimates add up to it,
and the variance of their sum is exactly the measurement variance; if it is without bias, the DCM estimate is the measurement, with its
variance. In both cases the bias is the one given, with the variance given. -/
theorem C29_reset (c : Conf) (hc : c.ori = 1) (hstd : c.dcmStd ≠ 0) (dcm bias dcmUnc biasUnc : Fin 2 → ℝ) (ops : List Op) (s : Est)
    (h : createRun c dcm bias dcmUnc biasUnc ops = .ok s) (y z : Fin 2 → ℝ) (R : Matrix (Fin 2) (Fin 2) ℝ) (w : Bool) (b bu : Fin 2 → ℝ) :
    ∃ (s' : Est) (P : Matrix (Fin (2 + 2)) (Fin (2 + 2)) ℝ) (ξ : Fin 2 → ℝ), resetWithMeasurements s y z R w b bu = .ok s' ∧ estimates s' = .ok (ξ, b) ∧ s'.filter.st.pr = ⟨4, 4, P⟩ ∧ P.PosSemidef ∧
      br P = diagonal (fun i => bu i ^ 2) ∧
      (w = true → ξ + b = y ∧ rowBlk (1 : Matrix (Fin 2) (Fin 2) ℝ) 1 * P * (rowBlk (1 : Matrix (Fin 2) (Fin 2) ℝ) 1)ᵀ = diagonal fun _ : Fin 2 => c.dcmStd ^ 2) ∧
      (w = false → ξ = y ∧ tl P = diagonal (fun _ => c.dcmStd ^ 2) ∧ tr P = 0 ∧ bl P = 0) := by
  obtain ⟨v, rv, gv, sv, ev⟩ := reach hc hstd h
  have hR : v.R = diagonal fun _ => c.dcmStd ^ 2 := by
    rw [R_const _ _ _ ev]
    simp [viewNew, dblToSqDiag, dblToDiag, pow_two]
  have hu : vecToSqDiag bu = diagonal fun i => bu i ^ 2 := by simp [vecToSqDiag, pow_two]
  obtain ⟨s', h1, h2⟩ := rv.reset y z R w b bu
  have hg := gv.exec (.resetWithMeasurements y z R w b bu) rfl
  refine ⟨s', _, head (v.reset y z R w b bu).x, h1, ?_, h2.fed.model.mats.pr, hg.P, ?_, ?_, ?_⟩
  · rw [estimates, h2.getUnbiasedDCM, h2.getBias]
    have : tail (v.reset y z R w b bu).x = b := by
      cases w
      · exact tail_vcat _ _
      · exact tail_vcat _ _
    rw [this]; rfl
  · rw [← hu]
    cases w
    · exact br_blk _ _ _ _
    · exact br_blk _ _ _ _
  · rintro rfl
    constructor
    · show head (vcat _ _) + b = y
      rw [head_vcat, sub_add_cancel]
    · show rowBlk (1 : Matrix (Fin 2) (Fin 2) ℝ) 1 * blk _ _ _ _ * (rowBlk (1 : Matrix (Fin 2) (Fin 2) ℝ) 1)ᵀ = _
      rw [rowBlk_mul_blk, rowBlk_mul_transpose, hR]
      simp
  · rintro rfl
    refine ⟨head_vcat _ _, ?_, tr_blk _ _ _ _, bl_blk _ _ _ _⟩
    rw [← hR]
    exact tl_blk _ _ _ _

/-! ## C30 -/

namespace View

/-- The estimator with all positions moved. -/
def translate (t : Fin 2 → ℝ) (v : View) : View :=
  { v with
    x := v.x + vcat t 0
    previousZmp := v.previousZmp + t
    pend := v.pend.map fun q => (q.1 + t, q.2 + t) }

end View

theorem linStep_translate {v : View} {c : Conf} (hs : Shape v c) (t u y : Fin 2 → ℝ) (x : Fin (2 + 2) → ℝ) (P) :
    linStep v.model ⟨u + t, 0, y + t⟩ (x + vcat t 0, P) =
      ((linStep v.model ⟨u, 0, y⟩ (x, P)).1 + vcat t 0, (linStep v.model ⟨u, 0, y⟩ (x, P)).2) := by
  obtain ⟨ρ, hA⟩ := hs.A
  have hp : predState v.model (u + t) (x + vcat t 0) = predState v.model u x + vcat t 0 := by
    rw [pred_eq hs hA, pred_eq hs hA, vcat_add, head_add, tail_add, head_vcat, tail_vcat]
    congr 1
    · unfold pendulum
      rw [show head x + t - (u + t) = head x - u by abel]
      abel
    · simp
  have hm : ∀ xb, predMeas v.model 0 (xb + vcat t 0) = predMeas v.model 0 xb + t := by
    intro xb
    show v.C *ᵥ _ + 0 *ᵥ 0 = v.C *ᵥ _ + 0 *ᵥ 0 + t
    rw [mulVec_add, hs.C, rowBlk_mulVec]
    simp
  unfold linStep
  simp only
  rw [hp, hm, show y + t - (predMeas v.model 0 (predState v.model u x) + t) = y - predMeas v.model 0 (predState v.model u x) by abel]
  congr 1
  abel

theorem consume_translate {v : View} {c : Conf} (hs : Shape v c) (t : Fin 2 → ℝ) (pend : List ((Fin 2 → ℝ) × (Fin 2 → ℝ))) :
    ∀ (x : Fin (2 + 2) → ℝ) (P), LKF.consume v.model (x + vcat t 0, P) (pend.map fun q => (q.1 + t, q.2 + t)) =
      ((LKF.consume v.model (x, P) pend).1 + vcat t 0, (LKF.consume v.model (x, P) pend).2) := by
  induction pend with
  | nil => intro x P; rfl
  | cons q qs ih =>
    intro x P
    show LKF.consume v.model (linStep v.model ⟨q.1 + t, 0, q.2 + t⟩ (x + vcat t 0, P)) _ = _
    rw [linStep_translate hs, ih]
    rfl

theorem estimate_translate {v : View} {c : Conf} (hs : Shape v c) (t : Fin 2 → ℝ) : (v.translate t).estimate = v.estimate.translate t := by
  have h := consume_translate hs t v.pend v.x v.P
  have h1 : (LKF.consume (v.translate t).model ((v.translate t).x, (v.translate t).P) (v.translate t).pend) = _ := h
  unfold View.estimate
  rw [h1]
  simp [View.translate]

theorem clamp_translate (v : View) (t : Fin 2 → ℝ) : (v.translate t).clamp = v.clamp.translate t := by
  have e : ∀ x, tail (x + vcat t 0) = tail x := by intro x; rw [tail_add, tail_vcat, add_zero]
  unfold View.clamp View.translate
  simp only [e]
  congr 1
  rw [vcat_add, head_add, head_vcat, add_zero]
  congr 1
  abel

theorem update_translate {v : View} {c : Conf} (hs : Shape v c) (t : Fin 2 → ℝ) :
    (v.translate t).update = (v.update >>= fun v' => .ok (v'.translate t)) := by
  unfold View.update
  rw [estimate_translate hs, clamp_translate]
  have hb : (v.translate t).biasLimit = v.biasLimit := rfl
  rw [hb]
  by_cases h1 : v.biasLimit 0 > 0 ∨ v.biasLimit 1 > 0
  · rw [if_pos h1, if_pos h1]
    by_cases h2 : v.biasLimit 0 > 0 ∧ v.biasLimit 1 > 0
    · rw [if_pos h2, if_pos h2]; rfl
    · rw [if_neg h2, if_neg h2]; rfl
  · rw [if_neg h1, if_neg h1]; rfl

theorem exec_translate {v : View} {c : Conf} (hs : Shape v c) (t : Fin 2 → ℝ) (o : Op) :
    (v.translate t).exec (o.translate t) = (v.exec o >>= fun v' => .ok (v'.translate t)) := by
  have e1 : ∀ x, tail (x + vcat t 0) = tail x := by intro x; rw [tail_add, tail_vcat, add_zero]
  have e2 : ∀ x, head (x + vcat t 0) = head x + t := by intro x; rw [head_add, head_vcat]
  cases o
  case resetWithMeasurements dcm zmp yaw w b bu =>
    simp only [View.exec, Op.translate, Res.ok_bind]
    unfold View.reset View.translate
    simp only [List.map_nil]
    congr 2
    cases w
    · show vcat (dcm + t) b = vcat dcm b + vcat t 0
      rw [vcat_add, add_zero]
    · simp only [if_true]
      rw [vcat_add, add_zero]
      congr 1
      abel
  case setLipmNaturalFrequency w => rfl
  case setSamplingTime w => rfl
  case setZmpMeasureErrorStd w => rfl
  case setDcmMeasureErrorStd w => rfl
  case setBiasDriftPerSecond a => rfl
  case setBiasLimit l => rfl
  case setBias b =>
    simp only [View.exec, Op.translate, Res.ok_bind]
    unfold View.translate
    simp only [e2, vcat_add, add_zero]
  case setBias2 b u =>
    simp only [View.exec, Op.translate, Res.ok_bind]
    unfold View.translate
    simp only [e2, vcat_add, add_zero]
  case setUnbiasedDCM b =>
    simp only [View.exec, Op.translate, Res.ok_bind]
    unfold View.translate
    simp only [e1, vcat_add, add_zero]
  case setUnbiasedDCM2 b u =>
    simp only [View.exec, Op.translate, Res.ok_bind]
    unfold View.translate
    simp only [e1, vcat_add, add_zero]
  case update => exact update_translate hs t
  case setInputs dcm zmp R =>
    simp only [View.exec, Op.translate]
    have hl : (v.translate t).old + (v.translate t).pend.length = v.old + v.pend.length := by simp [View.translate]
    rw [hl]
    have hp : ∀ v : View, (v.translate t).push (dcm + t) (zmp + t) R = (v.push dcm zmp R).translate t := by
      intro v
      unfold View.push View.translate
      simp
    split_ifs with h1
    · rw [update_translate hs]
      cases v.update <;> simp [hp]
    · simp [hp]

theorem run_translate (t : Fin 2 → ℝ) (ops : List Op) : ∀ {v : View} {c : Conf}, Shape v c →
    (ops.map (Op.translate t)).foldlM View.exec (v.translate t) = (ops.foldlM View.exec v >>= fun v' => .ok (v'.translate t)) := by
  induction ops with
  | nil => intro v c _; rfl
  | cons o os ih =>
    intro v c hs
    rw [List.map_cons, List.foldlM_cons, List.foldlM_cons, exec_translate hs]
    cases he : v.exec o with
    | ok v1 =>
      simp only [Res.ok_bind]
      exact ih (hs.exec o he)
    | assertFail => rfl
    | ub => rfl
    | exn => rfl

/-- Two uses of the estimator, the second with all positions (initial DCM and ZMP, DCM and ZMP measurements, DCM values set) moved by `t`: the
first succeeds iff the second does, the DCM estimates differ by `t`, the bias estimates and local biases are the same. -/
theorem C30_translation (c : Conf) (hc : c.ori = 1) (hstd : c.dcmStd ≠ 0) (dcm bias dcmUnc biasUnc t : Fin 2 → ℝ) (ops : List Op) (s : Est)
    (h : createRun c dcm bias dcmUnc biasUnc ops = .ok s) :
    ∃ s' ξ b l, createRun { c with zmp := c.zmp + t } (dcm + t) bias dcmUnc biasUnc (ops.map (Op.translate t)) = .ok s' ∧
      estimates s = .ok (ξ, b) ∧ estimates s' = .ok (ξ + t, b) ∧ getLocalBias s = .ok l ∧ getLocalBias s' = .ok l := by
  obtain ⟨v, rv, gv, sv, ev⟩ := reach hc hstd h
  set v0 := viewNew c.dt c.omega0 c.driftStd c.dcmStd c.zmpStd c.limit c.zmp dcm bias dcmUnc biasUnc with hv0
  have hs0 : Shape v0 c := shape_new c hc _ _ _ _
  have ht := run_translate t ops hs0
  rw [ev] at ht
  have h0 : v0.translate t = viewNew c.dt c.omega0 c.driftStd c.dcmStd c.zmpStd c.limit (c.zmp + t) (dcm + t) bias dcmUnc biasUnc := by
    rw [hv0]
    unfold View.translate viewNew
    simp only [List.map_nil]
    congr 1
    exact (vcat_add _ _ _ _).trans (by rw [add_zero])
  obtain ⟨s0, h1, h2⟩ := rep_new c.dt c.omega0 c.driftStd c.dcmStd c.zmpStd c.limit (c.zmp + t) (dcm + t) bias dcmUnc biasUnc
  rcases h2.run (good_new _ _ _ _ _ _ _ _ _ _ _ hstd) (ops.map (Op.translate t)) with ⟨s', v', h3, h4, h5, h6⟩ | ⟨h3, h4⟩
  · rw [← h0, ht] at h4
    cases h4
    refine ⟨s', head v.x, tail v.x, v.previousOrientationᵀ *ᵥ tail v.x, ?_, ?_, ?_, rv.getLocalBias, ?_⟩
    · rw [createRun, create, h1]
      exact h3
    · rw [estimates, rv.getUnbiasedDCM, rv.getBias]; rfl
    · rw [estimates, h5.getUnbiasedDCM, h5.getBias]
      show Res.ok (head (v.x + vcat t 0), tail (v.x + vcat t 0)) = _
      rw [Blocks.head_add, Blocks.tail_add, head_vcat, tail_vcat, add_zero]
    · rw [h5.getLocalBias]
      show Res.ok (v.previousOrientationᵀ *ᵥ tail (v.x + vcat t 0)) = _
      rw [Blocks.tail_add, tail_vcat, add_zero]
  · rw [← h0, ht] at h4
    cases h4

end StateObs.Lipm
