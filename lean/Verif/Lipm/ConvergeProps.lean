import Verif.Lipm.ConvergeLemmas
import Verif.Lipm.Props
/-!
# Property C118: the LIPM estimator finds the DCM and the bias of the measurements
-/

namespace StateObs.Lipm
open StateObs Matrix KF KFSpec Blocks

/-- The true DCM at the sampling times, the ZMP at time `k` being `z k`. -/
def trueDcm (c : Conf) (z : ℕ → Fin 2 → ℝ) (ξ0 : Fin 2 → ℝ) : ℕ → Fin 2 → ℝ
  | 0 => ξ0
  | k + 1 => pendulum c (trueDcm c z ξ0 k) (z k)

/-- The calls made over `N` sampling periods: the measured DCM is the true one plus a bias which is constant, `β`, in the frame of the robot,
whose orientation is `R k`. -/
def session (c : Conf) (z : ℕ → Fin 2 → ℝ) (R : ℕ → Matrix (Fin 2) (Fin 2) ℝ) (ξ0 β : Fin 2 → ℝ) : ℕ → List Op
  | 0 => []
  | k + 1 => session c z R ξ0 β k ++ [.setInputs (trueDcm c z ξ0 (k + 1) + R (k + 1) *ᵥ β) (z (k + 1)) (R (k + 1)), .update]

theorem rel_rot {R R' : Matrix (Fin 2) (Fin 2) ℝ} (h : Rᵀ * R = 1) (h' : R'ᵀ * R' = 1) : (R' * Rᵀ)ᵀ * (R' * Rᵀ) = 1 := by
  rw [Matrix.transpose_mul, Matrix.transpose_transpose, Matrix.mul_assoc, ← Matrix.mul_assoc R'ᵀ, h', Matrix.one_mul]
  exact mul_eq_one_comm.1 h

/-- The models along the motion. -/
noncomputable def models (c : Conf) (R : ℕ → Matrix (Fin 2) (Fin 2) ℝ) (k : ℕ) : LinModel (2 + 2) 2 2 :=
  turning (c.omega0 * c.dt) (c.omega0 * c.dt * c.zmpStd) (c.driftStd * c.dt) c.dcmStd (colBlk (dblToDiag (-c.omega0 * c.dt)) 0)
    (R (k + 1) * (R k)ᵀ)

theorem trueState_eq (c : Conf) (z : ℕ → Fin 2 → ℝ) {R : ℕ → Matrix (Fin 2) (Fin 2) ℝ} (hR : ∀ k, (R k)ᵀ * R k = 1) (ξ0 β : Fin 2 → ℝ) (N : ℕ) :
    trueState (models c R) z 0 (vcat ξ0 (R 0 *ᵥ β)) N = vcat (trueDcm c z ξ0 N) (R N *ᵥ β) := by
  induction N with
  | zero => rfl
  | succ N ih =>
    rw [trueState, ih]
    simp only [models, turning, Pi.zero_apply, add_zero]
    rw [blk_mulVec, colBlk_mulVec, vcat_add, dblToDiag_mulVec, dblToDiag_mulVec]
    simp only [zero_mulVec, add_zero, zero_add]
    rw [mulVec_mulVec, Matrix.mul_assoc, hR N, Matrix.mul_one]
    congr 1
    rw [trueDcm]
    unfold pendulum
    rw [smul_sub, add_smul, one_smul, neg_mul, neg_smul]
    abel

/-- The estimator between two samples. -/
structure Between (v : View) (c : Conf) (z : ℕ → Fin 2 → ℝ) (R : ℕ → Matrix (Fin 2) (Fin 2) ℝ) (N : ℕ) : Prop where
  pend : v.pend = []
  old : v.old ≤ 1
  limit : ∀ i, v.biasLimit i ≤ 0
  zmp : v.previousZmp = z N
  ori : v.previousOrientation = R N
  A : ∃ ρ, v.A = blk (dblToDiag (1 + c.omega0 * c.dt)) 0 0 ρ
  B : v.B = colBlk (dblToDiag (-c.omega0 * c.dt)) 0
  C : v.C = rowBlk 1 1
  Q : v.Q = blk (dblToSqDiag (c.omega0 * c.dt * c.zmpStd)) 0 0 (dblToSqDiag (c.driftStd * c.dt))
  Rm : v.R = dblToSqDiag c.dcmStd

theorem between_step {s : Est} {v : View} {c : Conf} {z : ℕ → Fin 2 → ℝ} {R : ℕ → Matrix (Fin 2) (Fin 2) ℝ} {N : ℕ} (hr : Rep s v) (hg : v.Good)
    (hb : Between v c z R N) (y : Fin 2 → ℝ) :
    ∃ s' v', [Op.setInputs y (z (N + 1)) (R (N + 1)), .update].foldlM exec s = .ok s' ∧ Rep s' v' ∧ v'.Good ∧ Between v' c z R (N + 1) ∧
      (v'.x, v'.P) = linStep (models c R N) ⟨z N, 0, y⟩ (v.x, v.P) := by
  have hne : ¬ (v.old + v.pend.length > 1) := by rw [hb.pend]; simpa using hb.old
  have hve : v.exec (.setInputs y (z (N + 1)) (R (N + 1))) = .ok (v.push y (z (N + 1)) (R (N + 1))) := by
    rw [View.exec, if_neg hne]; rfl
  have g1 := hg.exec _ hve
  rcases hr.exec hg (.setInputs y (z (N + 1)) (R (N + 1))) with ⟨s1, v1, h1, h2, h3⟩ | ⟨h1, h2⟩
  swap
  · rw [hve] at h2; cases h2
  rw [hve] at h2
  cases h2
  obtain ⟨s2, h4, h5⟩ := h3.update_free g1 hb.limit
  refine ⟨s2, _, ?_, h5, g1.estimate, ⟨rfl, h5.fed.hold, hb.limit, rfl, rfl, ?_, hb.B, hb.C, hb.Q, hb.Rm⟩, ?_⟩
  · rw [List.foldlM_cons, h1, Res.ok_bind, List.foldlM_cons, show exec s1 .update = .ok s2 from h4]
    rfl
  · obtain ⟨ρ, hA⟩ := hb.A
    exact ⟨R (N + 1) * v.previousOrientationᵀ, by
      show blk (tl v.A) (tr v.A) (bl v.A) _ = _
      rw [hA]; simp⟩
  · obtain ⟨ρ, hA⟩ := hb.A
    have hm : (v.push y (z (N + 1)) (R (N + 1))).model = models c R N := by
      unfold View.model models turning View.push
      simp only
      rw [hA, hb.B, hb.C, hb.Q, hb.Rm, hb.ori]
      simp
    show LKF.consume (v.push y (z (N + 1)) (R (N + 1))).model (v.x, v.P) (v.pend ++ [(v.previousZmp, y)]) = _
    rw [hm, hb.pend, hb.zmp]
    rfl

theorem between_run {s : Est} {v : View} {c : Conf} {z : ℕ → Fin 2 → ℝ} {R : ℕ → Matrix (Fin 2) (Fin 2) ℝ} (hr : Rep s v) (hg : v.Good)
    (hb : Between v c z R 0) (hR : ∀ k, (R k)ᵀ * R k = 1) (ξ0 β : Fin 2 → ℝ) (N : ℕ) :
    ∃ s' v', (session c z R ξ0 β N).foldlM exec s = .ok s' ∧ Rep s' v' ∧ v'.Good ∧ Between v' c z R N ∧
      (v'.x, v'.P) = linRun (models c R) (sensorData (models c R) z 0 0 (vcat ξ0 (R 0 *ᵥ β))) (v.x, v.P) N := by
  induction N with
  | zero => exact ⟨s, v, rfl, hr, hg, hb, rfl⟩
  | succ N ih =>
    obtain ⟨s1, v1, h1, h2, h3, h4, h5⟩ := ih
    obtain ⟨s2, v2, h6, h7, h8, h9, h10⟩ := between_step h2 h3 h4 (trueDcm c z ξ0 (N + 1) + R (N + 1) *ᵥ β)
    refine ⟨s2, v2, ?_, h7, h8, h9, ?_⟩
    · rw [session, List.foldlM_append, h1]; exact h6
    · rw [h10, h5, linRun]
      simp only [linStep, sensorData, predMeas]
      rw [trueState_eq c z hR ξ0 β (N + 1)]
      have e1 : (models c R N).D = 0 := rfl
      have e2 : (models c R N).C = rowBlk 1 1 := rfl
      rw [e1, e2, rowBlk_mulVec, one_mulVec, one_mulVec, zero_mulVec, zero_mulVec]
      simp

/-- **C118.** Natural frequency, sampling time and standard deviations nonzero, no limit on the bias. There are `K` and `ρ < 1`, which depend
only on these parameters and on the covariance stored in the estimator, such that: if, from any state reached by a sequence of calls ending
with an update, the estimator is given at each period the measured DCM – the true one plus a bias constant in the frame of the robot –, the
ZMP and the orientation, each followed by an update, then after `N` periods the squared error of the estimates of DCM and bias is at most
`K ρ^N` times what it was – whatever the motion of the ZMP, the rotations of the robot, the bias, the initial estimates. -/
theorem C118_converges (C : Conf) (hw : 0 < C.omega0) (hT : 0 < C.dt) (hzmp : C.zmpStd ≠ 0) (hdrift : C.driftStd ≠ 0)
    (hl : ∀ i, C.limit i ≤ 0) (hO : C.oriᵀ * C.ori = 1) (P : Matrix (Fin 4) (Fin 4) ℝ) (hP : P.PosSemidef) :
    ∃ K ρ : ℝ, 0 ≤ ρ ∧ ρ < 1 ∧
      ∀ (c : Conf) (dcm bias dcmUnc biasUnc : Fin 2 → ℝ) (ops : List Op) (s : Est), c.ori = 1 → c.dcmStd ≠ 0 → (∀ o ∈ ops, o.Sound) →
      c.afterAll ops = C → createRun c dcm bias dcmUnc biasUnc (ops ++ [.update]) = .ok s → s.filter.st.pr = ⟨4, 4, P⟩ →
      ∀ (z : ℕ → Fin 2 → ℝ) (R : ℕ → Matrix (Fin 2) (Fin 2) ℝ) (ξ0 β : Fin 2 → ℝ), z 0 = C.zmp → R 0 = C.ori → (∀ k, (R k)ᵀ * R k = 1) →
      ∀ N, ∃ s' ξ b ξ' b', estimates s = .ok (ξ, b) ∧ (session C z R ξ0 β N).foldlM exec s = .ok s' ∧ estimates s' = .ok (ξ', b') ∧
        ∑ i, (trueDcm C z ξ0 N i - ξ' i) ^ 2 + ∑ i, ((R N *ᵥ β) i - b' i) ^ 2 ≤
          K * ρ ^ N * (∑ i, (ξ0 i - ξ i) ^ 2 + ∑ i, ((R 0 *ᵥ β) i - b i) ^ 2) := by
  by_cases hstd : C.dcmStd = 0
  · refine ⟨0, 0, le_refl _, one_pos, fun c dcm bias dcmUnc biasUnc ops s hc hcs ho hC => ?_⟩
    exfalso
    have : ∀ (ops : List Op) (c : Conf), (∀ o ∈ ops, o.Sound) → (c.afterAll ops).dcmStd = c.dcmStd := by
      intro ops
      induction ops with
      | nil => intro c _; rfl
      | cons o os ih =>
        intro c ho
        rw [Conf.afterAll, List.foldl_cons]
        refine (ih (c.after o) fun o' h => ho o' (by simp [h])).trans ?_
        have := ho o (by simp)
        cases o <;> first | rfl | exact this.elim
    rw [← this ops c ho, hC] at hcs
    exact hcs hstd
  obtain ⟨K, ρ, -, hρ, hρ1, H⟩ := turning_rate (w := C.omega0 * C.dt) (q1 := C.omega0 * C.dt * C.zmpStd) (q2 := C.driftStd * C.dt)
    (r := C.dcmStd) (by positivity) (by positivity) (by positivity) hstd hP
  refine ⟨K, ρ, hρ, hρ1, fun c dcm bias dcmUnc biasUnc ops s hc hcs ho hC hs hpr z R ξ0 β hz hR0 hR N => ?_⟩
  have hcc : c.afterAll (ops ++ [.update]) = C := by rw [← hC]; simp [Conf.afterAll, Conf.after]
  have ho' : ∀ o ∈ ops ++ [Op.update], o.Sound := by
    intro o h
    rcases List.mem_append.1 h with h | h
    · exact ho o h
    · rw [List.mem_singleton.1 h]; trivial
  obtain ⟨v, rv, gv, sv, ev⟩ := reach hc hcs hs
  have nv : Noise v (c.afterAll (ops ++ [.update])) := Noise.run ⟨rfl, rfl, rfl⟩ (shape_new c hc dcm bias dcmUnc biasUnc) _ ho' ev
  rw [hcc] at sv nv
  have hvP : v.P = P := by
    have := rv.fed.model.mats.pr.symm.trans hpr
    simpa using this
  have hb : Between v C z R 0 := by
    refine ⟨?_, rv.fed.hold, fun i => by rw [sv.limit]; exact hl i, by rw [sv.zmp, hz], by rw [sv.ori, hR0], sv.A, sv.B, sv.C, nv.Q, nv.R⟩
    rw [List.foldlM_append] at ev
    obtain ⟨v1, h1, h2⟩ := Res.bind_eq_ok.1 ev
    rw [List.foldlM_cons] at h2
    obtain ⟨v2, h3, h4⟩ := Res.bind_eq_ok.1 h2
    cases h4
    obtain ⟨x, rfl⟩ := View.update_eq h3
    rfl
  obtain ⟨s', v', h1, h2, -, -, h5⟩ := between_run rv gv hb hR ξ0 β N
  refine ⟨s', head v.x, tail v.x, head v'.x, tail v'.x, ?_, h1, ?_, ?_⟩
  · rw [estimates, rv.getUnbiasedDCM, rv.getBias]; rfl
  · rw [estimates, h2.getUnbiasedDCM, h2.getBias]; rfl
  · have h6 := H (colBlk (dblToDiag (-C.omega0 * C.dt)) 0) (fun k => R (k + 1) * (R k)ᵀ) (fun k => rel_rot (hR k) (hR (k + 1)))
      (vcat ξ0 (R 0 *ᵥ β) - v.x) N
    have h7 := err_eq (models C R) v.P v.x (vcat ξ0 (R 0 *ᵥ β)) z N
    rw [← h5, trueState_eq C z hR ξ0 β N, hvP] at h7
    change errRun (models C R) P _ N ⬝ᵥ errRun (models C R) P _ N ≤ _ at h6
    rw [← h7] at h6
    have key : ∀ (a b : Fin 2 → ℝ) (x : Fin (2 + 2) → ℝ), (vcat a b - x) ⬝ᵥ (vcat a b - x) =
        ∑ i, (a i - head x i) ^ 2 + ∑ i, (b i - tail x i) ^ 2 := by
      intro a b x
      rw [dotProduct, Fin.sum_univ_add]
      congr 1 <;> refine Finset.sum_congr rfl fun i _ => ?_ <;>
        simp [-Fin.natAdd_eq_addNat, vcat, head, tail, pow_two]
    rwa [key, key] at h6

/-- The hypotheses are met: a new estimator, updated once; a robot that turns by a quarter at each period, with any bias, DCM and ZMP. -/
example (z : ℕ → Fin 2 → ℝ) (hz : z 0 = 0) (ξ0 β : Fin 2 → ℝ) :
    ∃ (C : Conf) (P : Matrix (Fin 4) (Fin 4) ℝ) (s : Est) (R : ℕ → Matrix (Fin 2) (Fin 2) ℝ), 0 < C.omega0 ∧ 0 < C.dt ∧ C.zmpStd ≠ 0 ∧ C.driftStd ≠ 0 ∧
      (∀ i, C.limit i ≤ 0) ∧ C.oriᵀ * C.ori = 1 ∧ P.PosSemidef ∧ createRun C 0 0 1 1 ([] ++ [.update]) = .ok s ∧ s.filter.st.pr = ⟨4, 4, P⟩ ∧
      z 0 = C.zmp ∧ R 0 = C.ori ∧ (∀ k, (R k)ᵀ * R k = 1) ∧ R 1 ≠ R 0 := by
  obtain ⟨s, hs⟩ := C25_defined ⟨1, 1, 1, 1, 1, 0, 0, 1⟩ rfl one_ne_zero (Or.inr fun _ => le_refl _) 0 0 1 1 ([] ++ [.update])
    (by simp [Op.TwoSided])
  obtain ⟨v, rv, gv, -, -⟩ := reach (c := ⟨1, 1, 1, 1, 1, 0, 0, 1⟩) rfl one_ne_zero hs
  have hq : quarterᵀ * quarter = 1 := by
    ext i j; fin_cases i <;> fin_cases j <;> simp [quarter, Matrix.mul_apply, Fin.sum_univ_two]
  refine ⟨⟨1, 1, 1, 1, 1, 0, 0, 1⟩, v.P, s, fun k => quarter ^ k, one_pos, one_pos, one_ne_zero, one_ne_zero, fun _ => le_refl _, by simp, gv.P, hs,
    rv.fed.model.mats.pr, hz, by simp, fun k => ?_, ?_⟩
  · induction k with
    | zero => simp
    | succ k ih =>
      simp only [pow_succ, Matrix.transpose_mul]
      rw [Matrix.mul_assoc, ← Matrix.mul_assoc (quarter ^ k)ᵀ, ih, Matrix.one_mul, hq]
  · intro h
    have := congrFun (congrFun h 0) 0
    simp [quarter] at this

end StateObs.Lipm
