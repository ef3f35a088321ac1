import Verif.Lipm.UnidimProps
import Verif.Lipm.UnitProps
/-!
# Property C131 for the one-dimensional DCM estimator
-/

namespace StateObs.Unidim
open StateObs Matrix KF KFSpec

/-! ## Specification -/

/-- The same call, the numbers being given in other units: a length is multiplied by `a`, a time by `t`. -/
noncomputable def Op.units (a t : ℝ) : Op → Op
  | .resetWithInputs dcm zmp w drift dcmStd zmpStd b bu =>
    .resetWithInputs (a * dcm) (a * zmp) w (a / t * drift) (a * dcmStd) (a * zmpStd) (a * b) (a * bu)
  | .setLipmNaturalFrequency w => .setLipmNaturalFrequency (w / t)
  | .setSamplingTime dt => .setSamplingTime (t * dt)
  | .setZmpMeasureErrorStd e => .setZmpMeasureErrorStd (a * e)
  | .setDcmMeasureErrorStd e => .setDcmMeasureErrorStd (a * e)
  | .setBiasDriftPerSecond e => .setBiasDriftPerSecond (a / t * e)
  | .setBias b => .setBias (a * b)
  | .setBias2 b u => .setBias2 (a * b) (a * u)
  | .setUnbiasedDCM dcm => .setUnbiasedDCM (a * dcm)
  | .setUnbiasedDCM2 dcm u => .setUnbiasedDCM2 (a * dcm) (a * u)
  | .update => .update
  | .setInputs dcm zmp => .setInputs (a * dcm) (a * zmp)

/-- The same parameters in other units. -/
noncomputable def Conf.units (a t : ℝ) (c : Conf) : Conf :=
  ⟨t * c.dt, c.omega0 / t, a / t * c.driftStd, a * c.dcmStd, a * c.zmpStd, a * c.zmp⟩

/-! ## Lemmas -/

theorem square_smul (a e : ℝ) : square (a * e) = a ^ 2 * square e := by unfold square; ring

namespace View

/-- The estimator in other units. -/
noncomputable def units (a t : ℝ) (v : View) : View :=
  { v with
    omega0 := v.omega0 / t
    dt := t * v.dt
    biasDriftStd := a / t * v.biasDriftStd
    zmpErrorStd := a * v.zmpErrorStd
    previousZmp := a * v.previousZmp
    d := { v.d with Q := a ^ 2 • v.d.Q, R := a ^ 2 • v.d.R }
    x := a • v.x
    P := a ^ 2 • v.P
    pend := v.pend.map fun q => (a • q.1, a • q.2) }

variable {a t : ℝ}

theorem estimate_units (ha : 0 < a) (v : View) : (v.units a t).estimate = v.estimate.units a t := by
  have h : LKF.consume (v.units a t).d ((v.units a t).x, (v.units a t).P) (v.units a t).pend = _ := Lipm.consume_units v.d ha v.pend v.x v.P
  unfold View.estimate
  rw [h]
  simp [View.units]

theorem updateMatrices_units (ht : 0 < t) (v : View) : (v.units a t).updateMatrices = v.updateMatrices.units a t := by
  have h1 : v.omega0 / t * (t * v.dt) = v.omega0 * v.dt := by field_simp
  have h2 : -(v.omega0 / t) * (t * v.dt) = -v.omega0 * v.dt := by rw [neg_mul, h1, neg_mul]
  have h3 : a / t * v.biasDriftStd * (t * v.dt) = a * (v.biasDriftStd * v.dt) := by field_simp
  have h4 : v.omega0 * v.dt * (a * v.zmpErrorStd) = a * (v.omega0 * v.dt * v.zmpErrorStd) := by ring
  simp [View.updateMatrices, View.units, h1, h2, h3, h4, square_smul]

theorem exec_units (ha : 0 < a) (ht : 0 < t) (v : View) (o : Op) (ho : t = 1 ∨ ∀ e, o ≠ .setBiasDriftPerSecond e) :
    (v.units a t).exec (o.units a t) = (v.exec o >>= fun v' => .ok (v'.units a t)) := by
  cases o
  case resetWithInputs dcm zmp w d r z b bu =>
    have h := updateMatrices_units (a := a) ht { v with biasDriftStd := d, zmpErrorStd := z, previousZmp := zmp }
    simp only [View.exec, Op.units, Res.ok_bind]
    unfold View.reset
    simp only
    have h' : ({ v.units a t with biasDriftStd := a / t * d, zmpErrorStd := a * z, previousZmp := a * zmp } : View) =
      ({ v with biasDriftStd := d, zmpErrorStd := z, previousZmp := zmp } : View).units a t := rfl
    rw [h', h]
    cases w <;> simp [View.units, square_smul, mul_sub, mul_add]
  case setLipmNaturalFrequency w => exact congrArg Res.ok (updateMatrices_units ht { v with omega0 := w })
  case setSamplingTime w => exact congrArg Res.ok (updateMatrices_units ht { v with dt := w })
  case setZmpMeasureErrorStd w => exact congrArg Res.ok (updateMatrices_units ht { v with zmpErrorStd := w })
  case setDcmMeasureErrorStd w => rfl
  case setBiasDriftPerSecond e =>
    rcases ho with rfl | ho
    · simp [View.exec, Op.units, View.units, square_smul]
    · exact absurd rfl (ho e)
  case setBias b => simp [View.exec, Op.units, View.units]
  case setBias2 b u => simp [View.exec, Op.units, View.units, square_smul]
  case setUnbiasedDCM b => simp [View.exec, Op.units, View.units]
  case setUnbiasedDCM2 b u => simp [View.exec, Op.units, View.units, square_smul]
  case update =>
    simp only [View.exec, Op.units, View.update]
    have hl : (v.units a t).old + (v.units a t).pend.length = v.old + v.pend.length := by simp [View.units]
    rw [hl, estimate_units ha]
    split_ifs <;> rfl
  case setInputs dcm zmp => simp [View.exec, Op.units, View.push, View.units]

theorem run_units (ha : 0 < a) (ht : 0 < t) (ops : List Op) : ∀ v : View, (∀ o ∈ ops, t = 1 ∨ ∀ e, o ≠ .setBiasDriftPerSecond e) →
    (ops.map (Op.units a t)).foldlM View.exec (v.units a t) = (ops.foldlM View.exec v >>= fun v' => .ok (v'.units a t)) := by
  induction ops with
  | nil => intro v _; rfl
  | cons o os ih =>
    intro v h
    rw [List.map_cons, List.foldlM_cons, List.foldlM_cons, exec_units ha ht v o (h o (by simp))]
    cases v.exec o with
    | ok v1 =>
      simp only [Res.ok_bind]
      exact ih v1 fun o' h' => h o' (by simp [h'])
    | assertFail => rfl
    | ub => rfl
    | exn => rfl

end View

theorem viewNew_units {a t : ℝ} (ht : 0 < t) (c : Conf) (dcm bias dcmUnc biasUnc : ℝ) :
    viewNew (c.units a t).dt (c.units a t).omega0 (c.units a t).driftStd (a * dcm) (c.units a t).zmp (a * bias) (c.units a t).dcmStd
        (c.units a t).zmpStd (a * dcmUnc) (a * biasUnc) =
      (viewNew c.dt c.omega0 c.driftStd dcm c.zmp bias c.dcmStd c.zmpStd dcmUnc biasUnc).units a t := by
  have h1 : c.omega0 / t * (t * c.dt) = c.omega0 * c.dt := by field_simp
  have h2 : -(c.omega0 / t) * (t * c.dt) = -c.omega0 * c.dt := by rw [neg_mul, h1, neg_mul]
  have h3 : a / t * c.driftStd * (t * c.dt) = a * (c.driftStd * c.dt) := by field_simp
  have h4 : c.omega0 * c.dt * (a * c.zmpStd) = a * (c.omega0 * c.dt * c.zmpStd) := by ring
  simp [viewNew, Conf.units, View.units, h1, h2, h3, h4, square_smul]

theorem units_run (c : Conf) (hstd : c.dcmStd ≠ 0) (dcm bias dcmUnc biasUnc : ℝ) (ops : List Op) (hr : ∀ o ∈ ops, o.Regular) (s : Est) (a t : ℝ)
    (ha : 0 < a) (ht : 0 < t) (ho : ∀ o ∈ ops, t = 1 ∨ ∀ e, o ≠ .setBiasDriftPerSecond e) (h : createRun c dcm bias dcmUnc biasUnc ops = .ok s) :
    ∃ s' ξ b, createRun (c.units a t) (a * dcm) (a * bias) (a * dcmUnc) (a * biasUnc) (ops.map (Op.units a t)) = .ok s' ∧
      estimates s = .ok (ξ, b) ∧ estimates s' = .ok (a * ξ, a * b) ∧
      ∃ P, s.filter.st.pr = ⟨2, 2, P⟩ ∧ s'.filter.st.pr = ⟨2, 2, a ^ 2 • P⟩ := by
  obtain ⟨v, rv, gv, sv, ev⟩ := reach hstd hr h
  have hu := View.run_units ha ht ops (view0 c dcm bias dcmUnc biasUnc) ho
  rw [ev, Res.ok_bind] at hu
  have h0 : (view0 c dcm bias dcmUnc biasUnc).units a t = _ := (viewNew_units ht c dcm bias dcmUnc biasUnc).symm
  rw [h0] at hu
  obtain ⟨s0, h1, h2⟩ := rep_new (c.units a t).dt (c.units a t).omega0 (c.units a t).driftStd (a * dcm) (c.units a t).zmp (a * bias)
    (c.units a t).dcmStd (c.units a t).zmpStd (a * dcmUnc) (a * biasUnc)
  have hr' : ∀ o ∈ ops.map (Op.units a t), o.Regular := by
    intro o hm
    obtain ⟨o', h', rfl⟩ := List.mem_map.1 hm
    have := hr o' h'
    cases o'
    case resetWithInputs => exact mul_ne_zero ha.ne' this
    all_goals exact trivial
  have hstd' : (c.units a t).dcmStd ≠ 0 := mul_ne_zero ha.ne' hstd
  rcases h2.run (good_new _ _ _ _ _ _ _ _ _ _ hstd') (ops.map (Op.units a t)) hr' with ⟨s', v', h3, h4, h5, h6⟩ | ⟨h3, h4⟩
  · rw [hu] at h4
    cases h4
    refine ⟨s', v.x 0, v.x 1, ?_, rv.estimates, h5.estimates, v.P, rv.fed.model.mats.pr, h5.fed.model.mats.pr⟩
    rw [createRun]
    simp only [h1, Res.ok_bind]
    exact h3
  · rw [hu] at h4
    cases h4

/-! ## Properties -/

/-- **C131**, one-dimensional estimator, the unit of length: any use. -/
theorem C131_unidim_length (c : Conf) (hstd : c.dcmStd ≠ 0) (dcm bias dcmUnc biasUnc : ℝ) (ops : List Op) (hr : ∀ o ∈ ops, o.Regular) (s : Est) (a : ℝ)
    (ha : 0 < a) (h : createRun c dcm bias dcmUnc biasUnc ops = .ok s) :
    ∃ s' ξ b, createRun (c.units a 1) (a * dcm) (a * bias) (a * dcmUnc) (a * biasUnc) (ops.map (Op.units a 1)) = .ok s' ∧
      estimates s = .ok (ξ, b) ∧ estimates s' = .ok (a * ξ, a * b) ∧
      ∃ P, s.filter.st.pr = ⟨2, 2, P⟩ ∧ s'.filter.st.pr = ⟨2, 2, a ^ 2 • P⟩ :=
  units_run c hstd dcm bias dcmUnc biasUnc ops hr s a 1 ha one_pos (fun _ _ => Or.inl rfl) h

/-- **C131**, one-dimensional estimator, both units, for uses without `setBiasDriftPerSecond`. Missing: uses with this call, which is wrong in the
same way as for the two-dimensional estimator (`C131_false`). -/
theorem C131_unidim_partial (c : Conf) (hstd : c.dcmStd ≠ 0) (dcm bias dcmUnc biasUnc : ℝ) (ops : List Op) (hr : ∀ o ∈ ops, o.Regular) (s : Est) (a t : ℝ)
    (ha : 0 < a) (ht : 0 < t) (ho : ∀ o ∈ ops, ∀ e, o ≠ .setBiasDriftPerSecond e) (h : createRun c dcm bias dcmUnc biasUnc ops = .ok s) :
    ∃ s' ξ b, createRun (c.units a t) (a * dcm) (a * bias) (a * dcmUnc) (a * biasUnc) (ops.map (Op.units a t)) = .ok s' ∧
      estimates s = .ok (ξ, b) ∧ estimates s' = .ok (a * ξ, a * b) ∧
      ∃ P, s.filter.st.pr = ⟨2, 2, P⟩ ∧ s'.filter.st.pr = ⟨2, 2, a ^ 2 • P⟩ :=
  units_run c hstd dcm bias dcmUnc biasUnc ops hr s a t ha ht (fun o h => Or.inr (ho o h)) h

/-- Non-vacuity: a use with many kinds of calls. -/
example : ∃ s, createRun ⟨1, 2, 3, 4, 5, 6⟩ 1 2 3 4
    [.setInputs 1 2, .update, .setBias 1, .setLipmNaturalFrequency 3, .setInputs 1 3, .update, .resetWithInputs 1 2 true 1 1 1 1 1] = .ok s := by
  obtain ⟨s0, h1, h2⟩ := rep_new 1 2 3 1 6 2 4 5 3 4
  rcases h2.run (good_new _ _ _ _ _ _ _ _ _ _ (by norm_num)) [.setInputs 1 2, .update, .setBias 1, .setLipmNaturalFrequency 3, .setInputs 1 3,
    .update, .resetWithInputs 1 2 true 1 1 1 1 1] (by simp [Op.Regular]) with ⟨s', v', h3, -, -, -⟩ | ⟨h3, h4⟩
  · exact ⟨s', by simp only [createRun, h1, Res.ok_bind]; exact h3⟩
  · simp [View.exec, View.update, View.push, View.estimate, View.updateMatrices] at h4

end StateObs.Unidim
