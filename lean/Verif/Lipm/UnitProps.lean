import Verif.Lipm.Props
/-!
# Property C131: the DCM estimators do not depend on the units of length and time
-/

namespace StateObs.Lipm
open StateObs Matrix KF KFSpec Blocks

/-! ## Specification -/

/-- The same call, the numbers being given in other units: a length is multiplied by `a`, a time by `t`. -/
noncomputable def Op.units (a t : ℝ) : Op → Op
  | .resetWithMeasurements dcm zmp yaw w b bu => .resetWithMeasurements (a • dcm) (a • zmp) yaw w (a • b) (a • bu)
  | .setLipmNaturalFrequency w => .setLipmNaturalFrequency (w / t)
  | .setSamplingTime dt => .setSamplingTime (t * dt)
  | .setZmpMeasureErrorStd e => .setZmpMeasureErrorStd (a * e)
  | .setDcmMeasureErrorStd e => .setDcmMeasureErrorStd (a * e)
  | .setBiasDriftPerSecond e => .setBiasDriftPerSecond (a / t * e)
  | .setBiasLimit l => .setBiasLimit (a • l)
  | .setBias b => .setBias (a • b)
  | .setBias2 b u => .setBias2 (a • b) (a • u)
  | .setUnbiasedDCM dcm => .setUnbiasedDCM (a • dcm)
  | .setUnbiasedDCM2 dcm u => .setUnbiasedDCM2 (a • dcm) (a • u)
  | .update => .update
  | .setInputs dcm zmp R => .setInputs (a • dcm) (a • zmp) R

/-- The same parameters in other units. -/
noncomputable def Conf.units (a t : ℝ) (c : Conf) : Conf :=
  ⟨t * c.dt, c.omega0 / t, a / t * c.driftStd, a * c.dcmStd, a * c.zmpStd, a • c.limit, a • c.zmp, c.ori⟩

/-- The full claim: the same use in other units gives the same estimates in these units. -/
def C131_statement : Prop :=
  ∀ (c : Conf) (dcm bias dcmUnc biasUnc : Fin 2 → ℝ) (ops : List Op) (s : Est) (a t : ℝ), c.ori = 1 → c.dcmStd ≠ 0 → 0 < a → 0 < t →
    createRun c dcm bias dcmUnc biasUnc ops = .ok s →
    ∃ s' ξ b, createRun (c.units a t) (a • dcm) (a • bias) (a • dcmUnc) (a • biasUnc) (ops.map (Op.units a t)) = .ok s' ∧
      estimates s = .ok (ξ, b) ∧ estimates s' = .ok (a • ξ, a • b)

/-! ## Lemmas -/

theorem linStep_units {n m p : ℕ} (d : LinModel n m p) {a : ℝ} (ha : 0 < a) (u u' : Fin p → ℝ) (y : Fin m → ℝ) (x : Fin n → ℝ) (P : Matrix (Fin n) (Fin n) ℝ) :
    linStep { d with Q := a ^ 2 • d.Q, R := a ^ 2 • d.R } ⟨a • u, a • u', a • y⟩ (a • x, a ^ 2 • P) =
      (a • (linStep d ⟨u, u', y⟩ (x, P)).1, a ^ 2 • (linStep d ⟨u, u', y⟩ (x, P)).2) := by
  have h2 : 0 < a ^ 2 := by positivity
  simp only [linStep, predCov_smul, gain_smul _ h2, posterior_smul _ h2, predState, predMeas, mulVec_smul, ← smul_add, ← smul_sub]

theorem consume_units {n m p : ℕ} (d : LinModel n m p) {a : ℝ} (ha : 0 < a) (pend : List ((Fin p → ℝ) × (Fin m → ℝ))) :
    ∀ (x : Fin n → ℝ) (P : Matrix (Fin n) (Fin n) ℝ),
      LKF.consume { d with Q := a ^ 2 • d.Q, R := a ^ 2 • d.R } (a • x, a ^ 2 • P) (pend.map fun q => (a • q.1, a • q.2)) =
        (a • (LKF.consume d (x, P) pend).1, a ^ 2 • (LKF.consume d (x, P) pend).2) := by
  induction pend with
  | nil => intro x P; rfl
  | cons q qs ih =>
    intro x P
    have h := linStep_units d ha q.1 0 q.2 x P
    rw [smul_zero] at h
    show LKF.consume _ (linStep _ ⟨a • q.1, 0, a • q.2⟩ (a • x, a ^ 2 • P)) _ = _
    rw [h, ih]
    rfl

theorem clampScalar_units {a : ℝ} (ha : 0 < a) (x l : ℝ) : clampScalar (a * x) (a * l) = a * clampScalar x l := by
  unfold clampScalar clampScalar3
  rw [← mul_neg]
  simp only [gt_iff_lt, mul_lt_mul_iff_right₀ ha]
  split_ifs <;> rfl

theorem vcat_smul (a : ℝ) (u v : Fin 2 → ℝ) : vcat (a • u) (a • v) = a • vcat u v := by
  ext i; refine Fin.addCases (fun i => ?_) (fun i => ?_) i <;> simp [vcat, -Fin.natAdd_eq_addNat]

theorem blk_smul (a : ℝ) (A B C D : Matrix (Fin 2) (Fin 2) ℝ) : blk (a • A) (a • B) (a • C) (a • D) = a • blk A B C D := by
  ext i j
  refine Fin.addCases (fun i => ?_) (fun i => ?_) i <;> refine Fin.addCases (fun j => ?_) (fun j => ?_) j <;> simp [blk, -Fin.natAdd_eq_addNat]

theorem dblSq_smul (a e : ℝ) : dblToSqDiag (a * e) = a ^ 2 • dblToSqDiag e := by
  ext i j; fin_cases i <;> fin_cases j <;> simp [dblToSqDiag, dblToDiag] <;> ring

theorem vecSq_smul (a : ℝ) (u : Fin 2 → ℝ) : vecToSqDiag (a • u) = a ^ 2 • vecToSqDiag u := by
  ext i j; fin_cases i <;> fin_cases j <;> simp [vecToSqDiag] <;> ring

theorem head_smul (a : ℝ) (x : Fin (2 + 2) → ℝ) : head (a • x) = a • head x := rfl
theorem tail_smul (a : ℝ) (x : Fin (2 + 2) → ℝ) : tail (a • x) = a • tail x := rfl
theorem tl_smul (a : ℝ) (M : Matrix (Fin (2 + 2)) (Fin (2 + 2)) ℝ) : tl (a • M) = a • tl M := rfl
theorem tr_smul (a : ℝ) (M : Matrix (Fin (2 + 2)) (Fin (2 + 2)) ℝ) : tr (a • M) = a • tr M := rfl
theorem bl_smul (a : ℝ) (M : Matrix (Fin (2 + 2)) (Fin (2 + 2)) ℝ) : bl (a • M) = a • bl M := rfl
theorem br_smul (a : ℝ) (M : Matrix (Fin (2 + 2)) (Fin (2 + 2)) ℝ) : br (a • M) = a • br M := rfl

namespace View

/-- The estimator in other units. -/
noncomputable def units (a t : ℝ) (v : View) : View :=
  { v with
    omega0 := v.omega0 / t
    dt := t * v.dt
    biasDriftStd := a / t * v.biasDriftStd
    zmpErrorStd := a * v.zmpErrorStd
    previousZmp := a • v.previousZmp
    biasLimit := a • v.biasLimit
    R := a ^ 2 • v.R
    Q := a ^ 2 • v.Q
    x := a • v.x
    P := a ^ 2 • v.P
    pend := v.pend.map fun q => (a • q.1, a • q.2) }

variable {a t : ℝ}

theorem estimate_units (ha : 0 < a) (v : View) : (v.units a t).estimate = v.estimate.units a t := by
  have h : LKF.consume (v.units a t).model ((v.units a t).x, (v.units a t).P) (v.units a t).pend = _ := consume_units v.model ha v.pend v.x v.P
  unfold View.estimate
  rw [h]
  simp [View.units]

theorem clamp_units (ha : 0 < a) (v : View) : (v.units a t).clamp = v.clamp.units a t := by
  unfold View.clamp View.units
  simp only [tail_smul, head_smul, mulVec_smul, Pi.smul_apply, smul_eq_mul, clampScalar_units ha]
  congr 1
  rw [← vcat_smul]
  congr 1
  · ext i; simp; ring
  · rw [← mulVec_smul]; rfl

theorem update_units (ha : 0 < a) (v : View) : (v.units a t).update = (v.update >>= fun v' => .ok (v'.units a t)) := by
  have h : ∀ i, (v.units a t).biasLimit i > 0 ↔ v.biasLimit i > 0 := by
    intro i
    show 0 < a * v.biasLimit i ↔ _
    rw [mul_pos_iff_of_pos_left ha]
  unfold View.update
  simp only [h, estimate_units ha, clamp_units ha]
  split_ifs <;> rfl

theorem updateMatrices_units (ht : 0 < t) (v : View) : (v.units a t).updateMatrices = v.updateMatrices.units a t := by
  have h1 : v.omega0 / t * (t * v.dt) = v.omega0 * v.dt := by field_simp
  have h2 : -(v.omega0 / t) * (t * v.dt) = -v.omega0 * v.dt := by rw [neg_mul, h1, neg_mul]
  have h3 : a / t * v.biasDriftStd * (t * v.dt) = a * (v.biasDriftStd * v.dt) := by field_simp
  have h4 : v.omega0 * v.dt * (a * v.zmpErrorStd) = a * (v.omega0 * v.dt * v.zmpErrorStd) := by ring
  simp only [View.updateMatrices, View.units, h1, h2, h3, h4, dblSq_smul, ← blk_smul, smul_zero]

/-- Not the call that sets the drift, unless the unit of time is the same. -/
theorem exec_units (ha : 0 < a) (ht : 0 < t) (v : View) (o : Op) (ho : t = 1 ∨ ∀ e, o ≠ .setBiasDriftPerSecond e) :
    (v.units a t).exec (o.units a t) = (v.exec o >>= fun v' => .ok (v'.units a t)) := by
  cases o
  case resetWithMeasurements dcm zmp yaw w b bu =>
    simp only [View.exec, Op.units, Res.ok_bind]
    unfold View.reset View.units
    simp only [List.map_nil, vecSq_smul]
    congr 2
    · cases w
      · simp [vcat_smul]
      · simp [vcat_smul, ← smul_sub]
    · cases w <;> simp only [← blk_smul, ← smul_add, ← smul_neg, smul_zero, if_true, Bool.false_eq_true, if_false]
  case setLipmNaturalFrequency w => exact congrArg Res.ok (updateMatrices_units ht { v with omega0 := w })
  case setSamplingTime w => exact congrArg Res.ok (updateMatrices_units ht { v with dt := w })
  case setZmpMeasureErrorStd w => exact congrArg Res.ok (updateMatrices_units ht { v with zmpErrorStd := w })
  case setDcmMeasureErrorStd w => rfl
  case setBiasDriftPerSecond e =>
    rcases ho with rfl | ho
    · simp only [View.exec, Op.units, View.units, Res.ok_bind, tl_smul, tr_smul, bl_smul, div_one, dblSq_smul, blk_smul]
    · exact absurd rfl (ho e)
  case setBiasLimit l => rfl
  case setBias b => simp [View.exec, Op.units, View.units, head_smul, vcat_smul]
  case setBias2 b u => simp [View.exec, Op.units, View.units, head_smul, vcat_smul, tl_smul, vecSq_smul, ← blk_smul]
  case setUnbiasedDCM b => simp [View.exec, Op.units, View.units, tail_smul, vcat_smul]
  case setUnbiasedDCM2 b u => simp [View.exec, Op.units, View.units, tail_smul, vcat_smul, br_smul, vecSq_smul, ← blk_smul]
  case update => exact update_units ha v
  case setInputs dcm zmp R =>
    simp only [View.exec, Op.units]
    have hl : (v.units a t).old + (v.units a t).pend.length = v.old + v.pend.length := by simp [View.units]
    rw [hl]
    have hp : ∀ v : View, (v.units a t).push (a • dcm) (a • zmp) R = (v.push dcm zmp R).units a t := by
      intro v
      simp [View.push, View.units]
    split_ifs with h1
    · rw [update_units ha]
      cases v.update <;> simp [hp]
    · simp [hp]

theorem run_units (ha : 0 < a) (ht : 0 < t) (ops : List Op) : ∀ v : View, (∀ o ∈ ops, t = 1 ∨ ∀ e, o ≠ .setBiasDriftPerSecond e) →
    (ops.map (Op.units a t)).foldlM View.exec (v.units a t) = (ops.foldlM View.exec v >>= fun v' => .ok (v'.units a t)) := by
  induction ops with
  | nil => intro v _; rfl
  | cons o os ih =>
    intro v h
    rw [List.map_cons, List.foldlM_cons, List.foldlM_cons, exec_units ha ht v o (h o (by simp))]
    cases v.exec o with
    | ok v1 =>
      simp only [Res.ok_bind]
      exact ih v1 fun o' h' => h o' (by simp [h'])
    | assertFail => rfl
    | ub => rfl
    | exn => rfl

end View

theorem viewNew_units {a t : ℝ} (ht : 0 < t) (c : Conf) (dcm bias dcmUnc biasUnc : Fin 2 → ℝ) :
    viewNew (c.units a t).dt (c.units a t).omega0 (c.units a t).driftStd (c.units a t).dcmStd (c.units a t).zmpStd (c.units a t).limit (c.units a t).zmp
        (a • dcm) (a • bias) (a • dcmUnc) (a • biasUnc) =
      (viewNew c.dt c.omega0 c.driftStd c.dcmStd c.zmpStd c.limit c.zmp dcm bias dcmUnc biasUnc).units a t := by
  have h1 : c.omega0 / t * (t * c.dt) = c.omega0 * c.dt := by field_simp
  have h2 : -(c.omega0 / t) * (t * c.dt) = -c.omega0 * c.dt := by rw [neg_mul, h1, neg_mul]
  have h3 : a / t * c.driftStd * (t * c.dt) = a * (c.driftStd * c.dt) := by field_simp
  have h4 : c.omega0 * c.dt * (a * c.zmpStd) = a * (c.omega0 * c.dt * c.zmpStd) := by ring
  simp only [viewNew, Conf.units, View.units, h1, h2, h3, h4, dblSq_smul, vecSq_smul, vcat_smul, ← blk_smul, smul_zero, List.map_nil]

theorem units_run (c : Conf) (hc : c.ori = 1) (hstd : c.dcmStd ≠ 0) (dcm bias dcmUnc biasUnc : Fin 2 → ℝ) (ops : List Op) (s : Est) (a t : ℝ) (ha : 0 < a)
    (ht : 0 < t) (ho : ∀ o ∈ ops, t = 1 ∨ ∀ e, o ≠ .setBiasDriftPerSecond e) (h : createRun c dcm bias dcmUnc biasUnc ops = .ok s) :
    ∃ s' ξ b, createRun (c.units a t) (a • dcm) (a • bias) (a • dcmUnc) (a • biasUnc) (ops.map (Op.units a t)) = .ok s' ∧
      estimates s = .ok (ξ, b) ∧ estimates s' = .ok (a • ξ, a • b) ∧
      ∃ P, s.filter.st.pr = ⟨4, 4, P⟩ ∧ s'.filter.st.pr = ⟨4, 4, a ^ 2 • P⟩ := by
  obtain ⟨v, rv, gv, sv, ev⟩ := reach hc hstd h
  have ht' := View.run_units ha ht ops (viewNew c.dt c.omega0 c.driftStd c.dcmStd c.zmpStd c.limit c.zmp dcm bias dcmUnc biasUnc) ho
  rw [ev, Res.ok_bind, ← viewNew_units ht] at ht'
  obtain ⟨s0, h1, h2⟩ := rep_new (c.units a t).dt (c.units a t).omega0 (c.units a t).driftStd (c.units a t).dcmStd (c.units a t).zmpStd (c.units a t).limit
    (c.units a t).zmp (a • dcm) (a • bias) (a • dcmUnc) (a • biasUnc)
  have hstd' : (c.units a t).dcmStd ≠ 0 := mul_ne_zero ha.ne' hstd
  rcases h2.run (good_new _ _ _ _ _ _ _ _ _ _ _ hstd') (ops.map (Op.units a t)) with ⟨s', v', h3, h4, h5, h6⟩ | ⟨h3, h4⟩
  · rw [ht'] at h4
    cases h4
    refine ⟨s', head v.x, tail v.x, ?_, ?_, ?_, v.P, ?_, ?_⟩
    · rw [createRun, create, h1]
      exact h3
    · rw [estimates, rv.getUnbiasedDCM, rv.getBias]; rfl
    · rw [estimates, h5.getUnbiasedDCM, h5.getBias]; rfl
    · exact rv.fed.model.mats.pr
    · exact h5.fed.model.mats.pr
  · rw [ht'] at h4
    cases h4

/-! ## Properties -/

/-- **C131**, the unit of length: any use, with or without limits on the bias. The covariance is in the square of the unit. -/
theorem C131_length (c : Conf) (hc : c.ori = 1) (hstd : c.dcmStd ≠ 0) (dcm bias dcmUnc biasUnc : Fin 2 → ℝ) (ops : List Op) (s : Est) (a : ℝ) (ha : 0 < a)
    (h : createRun c dcm bias dcmUnc biasUnc ops = .ok s) :
    ∃ s' ξ b, createRun (c.units a 1) (a • dcm) (a • bias) (a • dcmUnc) (a • biasUnc) (ops.map (Op.units a 1)) = .ok s' ∧
      estimates s = .ok (ξ, b) ∧ estimates s' = .ok (a • ξ, a • b) ∧
      ∃ P, s.filter.st.pr = ⟨4, 4, P⟩ ∧ s'.filter.st.pr = ⟨4, 4, a ^ 2 • P⟩ :=
  units_run c hc hstd dcm bias dcmUnc biasUnc ops s a 1 ha one_pos (fun _ _ => Or.inl rfl) h

/-- **C131**, both units, for uses without `setBiasDriftPerSecond`. Missing: uses with this call, for which the claim is false. -/
theorem C131_partial (c : Conf) (hc : c.ori = 1) (hstd : c.dcmStd ≠ 0) (dcm bias dcmUnc biasUnc : Fin 2 → ℝ) (ops : List Op) (s : Est) (a t : ℝ) (ha : 0 < a)
    (ht : 0 < t) (ho : ∀ o ∈ ops, ∀ e, o ≠ .setBiasDriftPerSecond e) (h : createRun c dcm bias dcmUnc biasUnc ops = .ok s) :
    ∃ s' ξ b, createRun (c.units a t) (a • dcm) (a • bias) (a • dcmUnc) (a • biasUnc) (ops.map (Op.units a t)) = .ok s' ∧
      estimates s = .ok (ξ, b) ∧ estimates s' = .ok (a • ξ, a • b) ∧
      ∃ P, s.filter.st.pr = ⟨4, 4, P⟩ ∧ s'.filter.st.pr = ⟨4, 4, a ^ 2 • P⟩ :=
  units_run c hc hstd dcm bias dcmUnc biasUnc ops s a t ha ht (fun o h => Or.inr (ho o h)) h

/-- No dynamics, no noise but the drift given later. -/
def driftConf (dt : ℝ) : Conf := ⟨dt, 0, 0, 1, 1, 0, 0, 1⟩

theorem drift_estimate (dt e : ℝ) : ∃ s, createRun (driftConf dt) 0 0 0 0 [.setBiasDriftPerSecond e, .setInputs ![1, 0] 0 1, .update] = .ok s ∧
    estimates s = .ok (0, ![e ^ 2 / (e ^ 2 + 1), 0]) := by
  obtain ⟨s0, h1, h2⟩ := rep_new dt 0 0 1 1 0 0 0 0 0 0
  have hg := good_new dt 0 0 1 1 0 0 0 0 0 0 one_ne_zero
  have hq : (0:ℝ) < e ^ 2 + 1 := by positivity
  rcases h2.run hg [.setBiasDriftPerSecond e, .setInputs ![1, 0] 0 1, .update] with ⟨s, v, h3, h4, h5, h6⟩ | ⟨h3, h4⟩
  · refine ⟨s, by rw [createRun, create]; simp only [driftConf, h1, Res.ok_bind]; exact h3, ?_⟩
    have hx : v.x = vcat 0 ![e ^ 2 / (e ^ 2 + 1), 0] := by
      have h7 : v.x = (linStep (⟨blk (dblToDiag (1 + 0 * dt)) 0 0 (1 * 1ᵀ), colBlk (dblToDiag (-0 * dt)) 0, rowBlk 1 1, 0,
          blk (dblToSqDiag (0 * dt * 1)) 0 0 (dblToSqDiag e), dblToSqDiag 1⟩ : LinModel (2 + 2) 2 2) ⟨0, 0, ![1, 0]⟩
          (vcat 0 0, blk (vecToSqDiag 0) 0 0 (vecToSqDiag 0))).1 := by
        simp [View.exec, viewNew, View.push, View.update, View.estimate, LKF.consume, View.model] at h4
        rw [← h4]
        simp
      have e0 : vcat (0 : Fin 2 → ℝ) 0 = 0 := by
        ext i; refine Fin.addCases (fun i => ?_) (fun i => ?_) i <;> simp [vcat, -Fin.natAdd_eq_addNat]
      have e1 : predCov (blk (dblToDiag (1 + 0 * dt)) 0 0 (1 * 1ᵀ)) (blk (dblToSqDiag (0 * dt * 1)) 0 0 (dblToSqDiag e)) (blk (vecToSqDiag 0) 0 0 (vecToSqDiag 0)) =
          blk 0 0 0 (dblToSqDiag e) := by
        have a1 : vecToSqDiag 0 = 0 := by ext i j; fin_cases i <;> fin_cases j <;> simp [vecToSqDiag]
        have a2 : dblToSqDiag (0 * dt * 1) = 0 := by ext i j; fin_cases i <;> fin_cases j <;> simp [dblToSqDiag, dblToDiag]
        have a3 : blk (0 : Matrix (Fin 2) (Fin 2) ℝ) 0 0 0 = 0 := by
          ext i j
          refine Fin.addCases (fun i => ?_) (fun i => ?_) i <;> refine Fin.addCases (fun j => ?_) (fun j => ?_) j <;> simp [blk, -Fin.natAdd_eq_addNat]
        rw [predCov, a1, a2, a3]; simp
      have e2 : blk 0 0 0 (dblToSqDiag e) * (rowBlk 1 1)ᵀ = colBlk 0 (dblToSqDiag e) := by
        ext i j
        rw [Matrix.mul_apply, Fin.sum_univ_add]
        refine Fin.addCases (fun i => ?_) (fun i => ?_) i <;>
          simp [-Fin.natAdd_eq_addNat, blk, colBlk, rowBlk, Matrix.one_apply]
      have e3 : innovCov (rowBlk 1 1) (dblToSqDiag 1) (blk 0 0 0 (dblToSqDiag e)) = (e ^ 2 + 1) • (1 : Matrix (Fin 2) (Fin 2) ℝ) := by
        rw [innovCov, Matrix.mul_assoc, e2]
        ext i j
        rw [Matrix.add_apply, Matrix.mul_apply, Fin.sum_univ_add]
        simp only [rowBlk, colBlk, Fin.addCases_left, Fin.addCases_right]
        fin_cases i <;> fin_cases j <;> simp [dblToSqDiag, dblToDiag, Matrix.one_apply, pow_two]
      have e4 : ((e ^ 2 + 1) • (1 : Matrix (Fin 2) (Fin 2) ℝ))⁻¹ = (e ^ 2 + 1)⁻¹ • 1 :=
        Matrix.inv_eq_right_inv (by simp [smul_smul, hq.ne'])
      rw [h7]
      simp only [linStep, e0, e1, gain, e2, e3, e4, predState, predMeas, mulVec_zero, add_zero, _root_.sub_zero, zero_add, Matrix.mul_smul, Matrix.mul_one,
        smul_mulVec, colBlk_mulVec]
      rw [← vcat_smul]
      congr 1
      · simp
      · ext i; fin_cases i <;> simp [dblToSqDiag, dblToDiag] <;> ring
    rw [estimates, h5.getUnbiasedDCM, h5.getBias, hx]
    simp
  · simp [View.exec, viewNew, View.push, View.update] at h4

/-- Non-vacuity of `C131_length`: a use whose estimate is not zero. -/
example : ∃ s, createRun (driftConf 1) 0 0 0 0 [.setBiasDriftPerSecond 1, .setInputs ![1, 0] 0 1, .update] = .ok s ∧
    estimates s = .ok (0, ![1 / 2, 0]) := by
  obtain ⟨s, h1, h2⟩ := drift_estimate 1 1
  exact ⟨s, h1, by rw [h2]; norm_num⟩

/-- The full claim is false: a drift of the bias of 1 m/s, given as 0.5 m per half second, gives another estimate. -/
theorem C131_false : ¬ C131_statement := by
  intro hst
  obtain ⟨s, h1, h2⟩ := drift_estimate 1 1
  obtain ⟨s', ξ, b, h3, h4, h5⟩ := hst (driftConf 1) 0 0 0 0 _ s 1 2 rfl one_ne_zero one_pos two_pos h1
  obtain ⟨s2, h6, h7⟩ := drift_estimate 2 (1 / 2)
  have hc : createRun ((driftConf 1).units 1 2) ((1:ℝ) • 0) ((1:ℝ) • 0) ((1:ℝ) • 0) ((1:ℝ) • 0)
      ([Op.setBiasDriftPerSecond 1, .setInputs ![1, 0] 0 1, .update].map (Op.units 1 2)) = .ok s2 := by
    rw [← h6]
    simp [Conf.units, driftConf, Op.units]
  rw [hc] at h3
  cases h3
  rw [h2] at h4
  rw [h7] at h5
  cases h4
  have := congrFun (congrArg Prod.snd (Res.ok.inj h5)) 0
  norm_num at this

end StateObs.Lipm
