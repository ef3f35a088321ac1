import Verif.Kalman.StableProps
import Verif.Lipm.UnidimProps
/-!
# Property C118 for the one-dimensional estimator
-/

namespace StateObs.Unidim
open StateObs Matrix KF KFSpec Filter Topology

/-- The true DCM at the sampling times, the ZMP at time `k` being `z k`. -/
def trueDcm (c : Conf) (z : ℕ → ℝ) (ξ0 : ℝ) : ℕ → ℝ
  | 0 => ξ0
  | k + 1 => pendulum c (trueDcm c z ξ0 k) (z k)

/-- The calls made over `N` sampling periods: the measured DCM is the true one plus the bias `β`. -/
def session (c : Conf) (z : ℕ → ℝ) (ξ0 β : ℝ) : ℕ → List Op
  | 0 => []
  | k + 1 => session c z ξ0 β k ++ [.setInputs (trueDcm c z ξ0 (k + 1) + β) (z (k + 1)), .update]

/-- The call leaves no measurement waiting. -/
def Op.Settles : Op → Prop
  | .update => True
  | .resetWithInputs .. => True
  | _ => False

/-- The model of the filter. -/
noncomputable def modelOf (c : Conf) : LinModel 2 1 1 :=
  ⟨!![1 + c.omega0 * c.dt, 0; 0, 1], !![-c.omega0 * c.dt; 0], !![1, 1], 0,
    !![square (c.omega0 * c.dt * c.zmpStd), 0; 0, square (c.driftStd * c.dt)], !![square c.dcmStd]⟩

theorem pd2_diag {a c : ℝ} (ha : a ≠ 0) (hc : c ≠ 0) : (!![square a, 0; 0, square c] : Matrix (Fin 2) (Fin 2) ℝ).PosDef := by
  have : (!![square a, 0; 0, square c] : Matrix (Fin 2) (Fin 2) ℝ) = diagonal ![square a, square c] := by
    ext i j; fin_cases i <;> fin_cases j <;> simp
  rw [this]
  refine Matrix.PosDef.diagonal fun i => ?_
  fin_cases i
  · exact mul_self_pos.2 ha
  · exact mul_self_pos.2 hc

/-- Gains with which DCM and bias are found in two periods. -/
theorem observable {w : ℝ} (hw : 0 < w) : ∃ L : Matrix (Fin 2) (Fin 1) ℝ,
    Tendsto (fun k : ℕ => ((1 - L * (!![1, 1] : Matrix (Fin 1) (Fin 2) ℝ)) * !![1 + w, 0; 0, 1]) ^ k) atTop (𝓝 0) := by
  refine ⟨!![(1 + w) / w; -1 / w], tendsto_const_nhds.congr' ?_⟩
  filter_upwards [eventually_ge_atTop 2] with k hk
  obtain ⟨l, rfl⟩ := Nat.exists_eq_add_of_le hk
  have : ((1 - (!![(1 + w) / w; -1 / w] : Matrix (Fin 2) (Fin 1) ℝ) * (!![1, 1] : Matrix (Fin 1) (Fin 2) ℝ)) * !![1 + w, 0; 0, 1]) ^ 2 = 0 := by
    rw [pow_two]
    ext i j
    fin_cases i <;> fin_cases j <;> simp [Matrix.mul_apply, Fin.sum_univ_two, Matrix.sub_apply, Matrix.one_apply] <;> field_simp <;> ring
  rw [pow_add, this, Matrix.zero_mul]

theorem trueState_eq (c : Conf) (z : ℕ → ℝ) (ξ0 β : ℝ) (N : ℕ) :
    trueState (fun _ => modelOf c) (fun k => ![z k]) 0 ![ξ0, β] N = ![trueDcm c z ξ0 N, β] := by
  induction N with
  | zero => rfl
  | succ N ih =>
    rw [trueState, ih]
    ext i
    fin_cases i
    · simp [modelOf, mulVec, dotProduct, Fin.sum_univ_two, trueDcm, pendulum]; ring
    · simp [modelOf, mulVec, dotProduct, Fin.sum_univ_two]

theorem step_view {s : Est} {v : View} (hr : Rep s v) (hg : v.Good) (hp : v.pend = []) (y z : ℝ) :
    ∃ s' v', [Op.setInputs y z, .update].foldlM exec s = .ok s' ∧ Rep s' v' ∧ v'.Good ∧ v'.pend = [] ∧ v'.d = v.d ∧ v'.previousZmp = z ∧
      (v'.x, v'.P) = linStep v.d ⟨![v.previousZmp], 0, ![y]⟩ (v.x, v.P) := by
  rcases hr.exec hg (.setInputs y z) with ⟨s1, v1, h1, h2, h3⟩ | ⟨h1, h2⟩
  swap
  · cases h2
  cases h2
  have g1 : (v.push y z).Good := hg.exec (o := .setInputs y z) trivial rfl
  rcases h3.update g1 with ⟨s2, v2, h4, h5, h6⟩ | ⟨h4, h5⟩
  swap
  · simp [View.update, View.push] at h5
  have h5' := h5
  rw [View.update, if_neg (by simp [View.push])] at h5
  cases h5
  refine ⟨s2, _, ?_, h6, g1.exec (o := .update) trivial h5', rfl, rfl, rfl, ?_⟩
  · rw [List.foldlM_cons, h1, Res.ok_bind, List.foldlM_cons, show exec s1 .update = .ok s2 from h4]
    rfl
  · show LKF.consume v.d (v.x, v.P) (v.pend ++ [(![v.previousZmp], ![y])]) = _
    rw [hp]; rfl

theorem run_view {s : Est} {v : View} {c : Conf} (hr : Rep s v) (hg : v.Good) (hp : v.pend = []) (hd : v.d = modelOf c) (z : ℕ → ℝ)
    (hz : v.previousZmp = z 0) (ξ0 β : ℝ) (N : ℕ) :
    ∃ s' v', (session c z ξ0 β N).foldlM exec s = .ok s' ∧ Rep s' v' ∧ v'.Good ∧ v'.pend = [] ∧ v'.d = modelOf c ∧ v'.previousZmp = z N ∧
      (v'.x, v'.P) = linRun (fun _ => modelOf c) (sensorData (fun _ => modelOf c) (fun k => ![z k]) 0 0 ![ξ0, β]) (v.x, v.P) N := by
  induction N with
  | zero => exact ⟨s, v, rfl, hr, hg, hp, hd, hz, rfl⟩
  | succ N ih =>
    obtain ⟨s1, v1, h1, h2, h3, h4, h5, h6, h7⟩ := ih
    obtain ⟨s2, v2, k1, k2, k3, k4, k5, k6, k7⟩ := step_view h2 h3 h4 (trueDcm c z ξ0 (N + 1) + β) (z (N + 1))
    refine ⟨s2, v2, ?_, k2, k3, k4, k5.trans h5, k6, ?_⟩
    · rw [session, List.foldlM_append, h1]; exact k1
    · rw [k7, h7, linRun, h5, h6]
      simp only [linStep, sensorData, predMeas]
      rw [trueState_eq c z ξ0 β (N + 1)]
      have e1 : (modelOf c).D = 0 := rfl
      have e2 : (modelOf c).C *ᵥ ![trueDcm c z ξ0 (N + 1), β] = ![trueDcm c z ξ0 (N + 1) + β] := by
        ext i; fin_cases i; simp [modelOf, mulVec, dotProduct, Fin.sum_univ_two]
      rw [e1, e2, zero_mulVec, zero_mulVec]
      simp

/-- **C118**, one-dimensional estimator: as `C118_converges`, from any state in which no measurement is waiting. -/
theorem C118_unidim (C : Conf) (hw : 0 < C.omega0) (hT : 0 < C.dt) (hzmp : C.zmpStd ≠ 0) (hdrift : C.driftStd ≠ 0) (hdcm : C.dcmStd ≠ 0)
    (P : Matrix (Fin 2) (Fin 2) ℝ) (hP : P.PosSemidef) :
    ∃ K ρ : ℝ, 0 ≤ ρ ∧ ρ < 1 ∧
      ∀ (c : Conf) (dcm bias dcmUnc biasUnc : ℝ) (ops : List Op) (s : Est), c.dcmStd ≠ 0 → (∀ o ∈ ops, o.Sound) → (∀ o ∈ ops, o.Regular) →
      (∀ o ∈ ops.getLast?, o.Settles) → c.afterAll ops = C → createRun c dcm bias dcmUnc biasUnc ops = .ok s → s.filter.st.pr = ⟨2, 2, P⟩ →
      ∀ (z : ℕ → ℝ) (ξ0 β : ℝ), z 0 = C.zmp →
      ∀ N, ∃ s' ξ b ξ' b', estimates s = .ok (ξ, b) ∧ (session C z ξ0 β N).foldlM exec s = .ok s' ∧ estimates s' = .ok (ξ', b') ∧
        (trueDcm C z ξ0 N - ξ') ^ 2 + (β - b') ^ 2 ≤ K * ρ ^ N * ((ξ0 - ξ) ^ 2 + (β - b) ^ 2) := by
  obtain ⟨L, hL⟩ := observable (mul_pos hw hT)
  obtain ⟨K, ρ, -, hρ, hρ1, H⟩ := LKF.exists_rate (modelOf C) (pd2_diag (by positivity) (by positivity)) (pd1 hdcm) hP L hL
  refine ⟨K, ρ, hρ, hρ1, fun c dcm bias dcmUnc biasUnc ops s hc ho ho' hset hC hs hpr z ξ0 β hz N => ?_⟩
  obtain ⟨v, rv, gv, sv, ev⟩ := reach hc ho' hs
  have nv : Noise v (c.afterAll ops) := Noise.run ⟨rfl, rfl, rfl⟩ (shape_new c dcm bias dcmUnc biasUnc) _ ho ev
  rw [hC] at sv nv
  have hvP : v.P = P := by
    have := rv.fed.model.mats.pr.symm.trans hpr
    simpa using this
  have hd : v.d = modelOf C := by
    rcases hvd : v.d with ⟨A, B, C', D, Q, R⟩
    have a1 := sv.A; have a2 := sv.B; have a3 := sv.C; have a4 := sv.D; have a5 := nv.Q; have a6 := nv.R
    rw [hvd] at a1 a2 a3 a4 a5 a6
    simp only at a1 a2 a3 a4 a5 a6
    rw [a1, a2, a3, a4, a5, a6]; rfl
  have hpend : v.pend = [] := by
    rcases List.eq_nil_or_concat ops with h | ⟨os, o, h⟩
    · subst h; cases ev; rfl
    · subst h
      have := hset o (by simp)
      rw [List.concat_eq_append, List.foldlM_append] at ev
      obtain ⟨v1, h1, h2⟩ := Res.bind_eq_ok.1 ev
      rw [List.foldlM_cons] at h2
      obtain ⟨v2, h3, h4⟩ := Res.bind_eq_ok.1 h2
      cases h4
      cases o <;> try exact this.elim
      · cases h3; rfl
      · simp only [View.exec, View.update] at h3
        split_ifs at h3
        cases h3
        rfl
  obtain ⟨s', v', h1, h2, -, -, -, -, h5⟩ := run_view rv gv hpend hd z (sv.zmp.trans hz.symm) ξ0 β N
  refine ⟨s', v.x 0, v.x 1, v'.x 0, v'.x 1, rv.estimates, h1, h2.estimates, ?_⟩
  have h6 := H (![ξ0, β] - v.x) N
  have h7 := err_eq (fun _ => modelOf C) v.P v.x ![ξ0, β] (fun k => ![z k]) N
  rw [← h5, trueState_eq C z ξ0 β N, hvP] at h7
  rw [← h7] at h6
  simpa [dotProduct, Fin.sum_univ_two, pow_two] using h6

/-- The hypotheses are met by a new estimator. -/
example : ∃ (C : Conf) (P : Matrix (Fin 2) (Fin 2) ℝ) (s : Est), 0 < C.omega0 ∧ 0 < C.dt ∧ C.zmpStd ≠ 0 ∧ C.driftStd ≠ 0 ∧ C.dcmStd ≠ 0 ∧
    P.PosSemidef ∧ createRun C 0 0 1 1 [] = .ok s ∧ s.filter.st.pr = ⟨2, 2, P⟩ := by
  obtain ⟨s, P, h1, -, h2, h3, -⟩ := C29_unidim_constructor ⟨1, 1, 1, 1, 1, 0⟩ 0 0 1 1
  exact ⟨_, P, s, one_pos, one_pos, one_ne_zero, one_ne_zero, one_ne_zero, h3, h1, h2⟩

end StateObs.Unidim
