import Verif.Kalman.OutputModel
import Verif.Kalman.LinProps
/-!
# Property C124: the intermediate results of the last step
-/

namespace StateObs.LKF
open StateObs Matrix KFSpec KF
variable {n m p : ℕ}

/-- The filter after one sampling time. -/
theorem cycle_full (s : KFilter Ext) (x : Fin n → ℝ) (P : Matrix (Fin n) (Fin n) ℝ) (k : Int) (hs : InUse s n m p x P k)
    (hP : P.PosSemidef) (d : LinModel n m p) (hd : d.Ok) (i : StepIn m p) :
    ∃ s', cycle d i s = .ok s' ∧ InUse s' n m p (linStep d i (x, P)).1 (linStep d i (x, P)).2 (k + 1) ∧
      HasModel s' d (linStep d i (x, P)).2 ∧ (p = 0 ∨ s'.u.get (k + 1) = .ok ⟨p, i.u'⟩) ∧
      s'.st.xbar = some (⟨n, predState d i.u x⟩, k + 1) ∧ s'.st.ybar = some (⟨m, predMeas d i.u' (predState d i.u x)⟩, k + 1) ∧
      s'.st.innovation = ⟨n, gain d.C d.R (predCov d.A d.Q P) *ᵥ (i.y - predMeas d i.u' (predState d i.u x))⟩ ∧
      s'.st.kGain = ⟨n, m, gain d.C d.R (predCov d.A d.Q P)⟩ := by
  set s1 : KFilter Ext := { s with st := { s.st with
    a := ⟨n, n, d.A⟩, c := ⟨m, n, d.C⟩, q := ⟨n, n, d.Q⟩, r := ⟨m, m, d.R⟩, ext := ⟨⟨n, p, d.B⟩, ⟨m, p, d.D⟩⟩ } } with hs1
  have hc : cycle d i s = (do
      let s ← Obs.setInput (cfg s1) s1 ⟨p, i.u⟩ k
      let s ← Obs.setInput (cfg s) s ⟨p, i.u'⟩ (k + 1)
      let s ← Obs.setMeasurement (cfg s) s ⟨m, i.y⟩ (k + 1)
      getEstimatedState s (k + 1)) := by
    simp [cycle, Obs.getCurrentTime, hs.x, setA, setB, setC, setD, setQ, setR, KData.checkA, KData.checkC, KData.checkQ, KData.checkR,
      checkB, checkD, hs.hn, hs.hnt, hs.hm, hs.hmt, hs.hp, hs1]
  have hx1 : s1.x = some (⟨n, x⟩, k) := hs.x
  have hin : ∃ u', (do
      let s ← Obs.setInput (cfg s1) s1 ⟨p, i.u⟩ k
      Obs.setInput (cfg s) s ⟨p, i.u'⟩ (k + 1)) = .ok { s1 with u := u' } ∧
      (p = 0 ∨ u' = ⟨k, [⟨p, i.u⟩, ⟨p, i.u'⟩]⟩) ∧ (p = 0 → u' = s.u) := by
    by_cases hp : p = 0
    · have hp1 : ¬ (cfg s1).p > 0 := by simp [cfg, hs1, hs.hp, hp]
      refine ⟨s.u, ?_, Or.inl hp, fun _ => rfl⟩
      simp only [Obs.setInput, hp1, if_false, Res.ok_bind]
      rfl
    · have hp1 : (cfg s1).p > 0 := by simp [cfg, hs1, hs.hp]; omega
      obtain ⟨s2, h2, h3⟩ := setInput_two (cfg s1) s1 _ k hx1 (hs.u.resolve_left hp) (⟨p, i.u⟩ : DVec) ⟨p, i.u'⟩ (by simp [cfg, hs1, hs.hp])
        (by simp [cfg, hs1, hs.hp]) hp1
      refine ⟨⟨k, [⟨p, i.u⟩, ⟨p, i.u'⟩]⟩, ?_, Or.inr rfl, fun h => absurd h hp⟩
      rw [h2, Res.ok_bind, ← h3]
      have : cfg s2 = cfg s1 := by
        have := obs_setInput_st h2
        simp only [cfg, this]
      rw [this]
  obtain ⟨u', hin, hu', hu0⟩ := hin
  rw [← Res.bind_assoc, hin, Res.ok_bind] at hc
  obtain ⟨y', hm, hget, hpop⟩ := setMeasurement_next (cfg { s1 with u := u' }) { s1 with u := u' } _ k hx1 hs.y (⟨m, i.y⟩ : DVec)
    (by simp [cfg, hs1, hs.hm])
  rw [hm, Res.ok_bind] at hc
  set s2 : KFilter Ext := { s1 with u := u', y := y' } with hs2
  have hmodel : HasModel s2 d P :=
    ⟨hs.hn, hs.hm, hs.hp, ⟨hs.hnt, hs.hmt, rfl, rfl, hs.pr, rfl, rfl⟩, hs.ar, rfl, Or.inl rfl⟩
  have hstep := oneStep_eq hmodel hd hP x k hx1 i hget
    (by rcases hu' with h | h
        · exact Or.inl h
        · right; right; show u'.get k = _; rw [h]; simp [IArr.get, IArr.checkIndex])
    (by rcases hu' with h | h
        · exact Or.inl h
        · right; right; show u'.get (k + 1) = _; rw [h]; simp [IArr.get, IArr.checkIndex])
  have hest : ∀ s0 : KFilter Ext, s0 = s2 → getEstimatedState s0 (k + 1) = Obs.loopBody (cfg s2) (oneStep virt) (k + 1) s2 := by
    rintro s0 rfl
    have hx2 : s2.x = some (⟨n, x⟩, k) := hx1
    have h1 : k ≤ k + 1 := by omega
    simp only [getEstimatedState, KF.getEstimatedState, Obs.getEstimatedState, Obs.getCurrentTime, hx2, Res.ok_bind, h1, decide_true,
      Res.assert_true]
    rw [show (k + 1 - k).toNat = 1 by omega]
    simp only [Obs.loop]
    cases Obs.loopBody (cfg s2) (oneStep virt) (k + 1) s2 <;> rfl
  have hc : cycle d i s = Obs.loopBody (cfg s2) (oneStep virt) (k + 1) s2 := by
    rw [hc]; exact hest _ rfl
  rw [hc, Obs.loopBody, hstep]
  have hpop' : Obs.popIf (k + 1) s2.y = .ok ⟨k + 1, [⟨m, i.y⟩]⟩ := hpop
  simp only [Res.ok_bind, hpop']
  by_cases hp : p = 0
  · have hp1 : ¬ (cfg s2).p > 0 := by simp [cfg, hs2, hs1, hs.hp, hp]
    rw [if_neg hp1]
    exact ⟨_, rfl, ⟨hs.hn, hs.hnt, hs.hm, hs.hmt, hs.hp, hs.ar, rfl, rfl, Or.inr ⟨rfl, rfl⟩, Or.inl hp⟩,
      ⟨hs.hn, hs.hm, hs.hp, ⟨hs.hnt, hs.hmt, rfl, rfl, rfl, rfl, rfl⟩, hs.ar, rfl, Or.inl rfl⟩, Or.inl hp, rfl, rfl, rfl, rfl⟩
  · have hp1 : (cfg s2).p > 0 := by simp [cfg, hs2, hs1, hs.hp]; omega
    have hu2 : s2.u = ⟨k, [⟨p, i.u⟩, ⟨p, i.u'⟩]⟩ := by tauto
    rw [if_pos hp1, hu2]
    have : Obs.popIf (k + 1) (⟨k, [⟨p, i.u⟩, ⟨p, i.u'⟩]⟩ : IArr DVec) = .ok ⟨k + 1, [⟨p, i.u'⟩]⟩ := by
      simp [Obs.popIf, IArr.getFirstIndex, IArr.popFront]
    rw [this]
    exact ⟨_, rfl, ⟨hs.hn, hs.hnt, hs.hm, hs.hmt, hs.hp, hs.ar, rfl, rfl, Or.inr ⟨rfl, rfl⟩, Or.inr (Or.inr ⟨rfl, rfl⟩)⟩,
      ⟨hs.hn, hs.hm, hs.hp, ⟨hs.hnt, hs.hmt, rfl, rfl, rfl, rfl, rfl⟩, hs.ar, rfl, Or.inl rfl⟩,
      Or.inr (by simp [IArr.get, IArr.checkIndex]), rfl, rfl, rfl, rfl⟩

theorem simulate_eq {s : KFilter Ext} {d : LinModel n m p} {P} (h : HasModel s d P) (x : Fin n → ℝ) (k : Int) (u : Fin p → ℝ)
    (hu : p = 0 ∨ d.D = 0 ∨ s.u.get k = .ok ⟨p, u⟩) : simulateSensor s ⟨n, x⟩ k = .ok ⟨m, d.C *ᵥ x + d.D *ᵥ u⟩ := by
  have h1 := predictSensor_eq (s := { s with st := { s.st with xbar := some (⟨n, x⟩, k) } }) (d := d) (P := P)
    ⟨h.hn, h.hm, h.hp, ⟨h.mats.1, h.mats.2, h.mats.3, h.mats.4, h.mats.5, h.mats.6, h.mats.7⟩, h.ar, h.b, h.d⟩ x k k rfl u hu
  have h2 : simulateSensor { s with st := { s.st with xbar := some (⟨n, x⟩, k) } } ⟨n, x⟩ k = simulateSensor s ⟨n, x⟩ k := rfl
  simp only [predictSensor, val, Res.ok_bind, h2] at h1
  cases hs : simulateSensor s ⟨n, x⟩ k with
  | ok y =>
    rw [hs] at h1
    simp only [Res.ok_bind, Res.ok.injEq] at h1
    have h3 := congrArg (fun s : KFilter Ext => s.st.ybar) h1
    simp only [Option.some.injEq, Prod.mk.injEq, and_true] at h3
    rw [h3]; rfl
  | assertFail => rw [hs] at h1; cases h1
  | ub => rw [hs] at h1; cases h1
  | exn => rw [hs] at h1; cases h1

/-- After an estimation, with `x`, `P` the estimate and covariance before it: the last prediction is `A x + B u`, the last predicted measurement that of this
prediction, the last gain is the only matrix `K` with `K (C M Cᵀ + R) = M Cᵀ` where `M = A P Aᵀ + Q`, the innovation is this gain times the difference between
the measurement and its prediction, and the estimate is the prediction plus the innovation. -/
theorem C124_outputs (s : KFilter Ext) (x : Fin n → ℝ) (P : Matrix (Fin n) (Fin n) ℝ) (k : Int) (hs : InUse s n m p x P k)
    (hP : P.PosSemidef) (d : LinModel n m p) (hd : d.Ok) (i : StepIn m p) :
    ∃ s' K xh, cycle d i s = .ok s' ∧ getLastPrediction s' = .ok ⟨n, d.A *ᵥ x + d.B *ᵥ i.u⟩ ∧
      getLastPredictedMeasurement s' = .ok ⟨m, d.C *ᵥ (d.A *ᵥ x + d.B *ᵥ i.u) + d.D *ᵥ i.u'⟩ ∧
      getLastGain s' = ⟨n, m, K⟩ ∧
      K * (d.C * (d.A * P * d.Aᵀ + d.Q) * d.Cᵀ + d.R) = (d.A * P * d.Aᵀ + d.Q) * d.Cᵀ ∧
      (∀ K', K' * (d.C * (d.A * P * d.Aᵀ + d.Q) * d.Cᵀ + d.R) = (d.A * P * d.Aᵀ + d.Q) * d.Cᵀ → K' = K) ∧
      getInnovation s' = ⟨n, K *ᵥ (i.y - (d.C *ᵥ (d.A *ᵥ x + d.B *ᵥ i.u) + d.D *ᵥ i.u'))⟩ ∧
      s'.x = some (⟨n, xh⟩, k + 1) ∧ xh = d.A *ᵥ x + d.B *ᵥ i.u + K *ᵥ (i.y - (d.C *ᵥ (d.A *ᵥ x + d.B *ᵥ i.u) + d.D *ᵥ i.u')) ∧
      getStateCovariance s' = ⟨n, n, (1 - K * d.C) * (d.A * P * d.Aᵀ + d.Q)⟩ := by
  obtain ⟨s', h1, h2, -, -, h3, h4, h5, h6⟩ := cycle_full s x P k hs hP d hd i
  set M := predCov d.A d.Q P with hM
  have hMp : M.PosSemidef := predCov_psd hd.1 hP
  have hdet : IsUnit (innovCov d.C d.R M).det := by
    have h : (innovCov d.C d.R M).PosDef := by
      have h1 : (d.C * M * d.Cᵀ).PosSemidef := by
        have := hMp.mul_mul_conjTranspose_same d.C
        rwa [conjTranspose_eq_transpose_of_trivial] at this
      exact PosDef.posSemidef_add h1 hd.2
    exact (Matrix.isUnit_iff_isUnit_det _).1 h.isUnit
  refine ⟨s', gain d.C d.R M, _, h1, ?_, ?_, h6, ?_, fun K' hK' => ?_, h5, h2.x, rfl, h2.pr⟩
  · rw [getLastPrediction, h3]; rfl
  · rw [getLastPredictedMeasurement, h4]; rfl
  · show gain d.C d.R M * innovCov d.C d.R M = M * d.Cᵀ
    rw [gain, Matrix.mul_assoc, Matrix.nonsing_inv_mul _ hdet, Matrix.mul_one]
  · have hK : K' * innovCov d.C d.R M = M * d.Cᵀ := hK'
    rw [gain, ← hK, Matrix.mul_assoc, Matrix.mul_nonsing_inv _ hdet, Matrix.mul_one]

/-- The full claim on simulated measurements: asking for one changes nothing that the other functions return. -/
def C124_statement : Prop :=
  ∀ (n m p : ℕ) (s : KFilter Ext) (x : Fin n → ℝ) (P : Matrix (Fin n) (Fin n) ℝ) (k : Int) (d : LinModel n m p) (i : StepIn m p) (s1 s2 : KFilter Ext) (y : DVec),
    InUse s n m p x P k → P.PosSemidef → d.Ok → cycle d i s = .ok s1 → getSimulatedMeasurement s1 (k + 1) = .ok (s2, y) →
    getLastPredictedMeasurement s2 = getLastPredictedMeasurement s1

/-- After an estimation the simulated measurement is `C x + D u`, of the new estimate `x`; asking for it does not change the estimate, the covariance, the
last prediction, the last gain, the innovation, nor any later estimate. Missing: the last predicted measurement, which is lost. -/
theorem C124_simulated_partial (s : KFilter Ext) (x : Fin n → ℝ) (P : Matrix (Fin n) (Fin n) ℝ) (k : Int) (hs : InUse s n m p x P k)
    (hP : P.PosSemidef) (d : LinModel n m p) (hd : d.Ok) (i : StepIn m p) :
    ∃ s1 s2 xh, cycle d i s = .ok s1 ∧ s1.x = some (⟨n, xh⟩, k + 1) ∧
      getSimulatedMeasurement s1 (k + 1) = .ok (s2, ⟨m, d.C *ᵥ xh + d.D *ᵥ i.u'⟩) ∧ s2.x = s1.x ∧ getStateCovariance s2 = getStateCovariance s1 ∧
      getLastPrediction s2 = getLastPrediction s1 ∧ getLastGain s2 = getLastGain s1 ∧ getInnovation s2 = getInnovation s1 ∧
      ∀ (d' : ℕ → LinModel n m p) (i' : ℕ → StepIn m p) (N : ℕ), (∀ N, (d' N).Ok) → ∃ r1 r2, cycles d' i' s1 N = .ok r1 ∧ cycles d' i' s2 N = .ok r2 ∧
        r1.x = r2.x ∧ getStateCovariance r1 = getStateCovariance r2 := by
  obtain ⟨s1, h1, h2, h7, hu, h3, h4, h5, h6⟩ := cycle_full s x P k hs hP d hd i
  have hP1 := linStep_psd d hd i x hP
  have hsim := simulate_eq h7 (linStep d i (x, P)).1 (k + 1) i.u' (hu.imp_right Or.inr)
  have hg : getEstimatedState s1 (k + 1) = .ok s1 := by
    simp [getEstimatedState, KF.getEstimatedState, Obs.getEstimatedState, Obs.getCurrentTime, h2.x, Obs.loop]
  refine ⟨s1, { s1 with st := { s1.st with ybar := some ((⟨m, d.C *ᵥ (linStep d i (x, P)).1 + d.D *ᵥ i.u'⟩ : DVec), k + 1) } }, _, h1, h2.x, by
    rw [getSimulatedMeasurement, hg, Res.ok_bind, h2.x, val, Res.ok_bind, hsim, Res.ok_bind], rfl, rfl, rfl, rfl, rfl, fun d' i' N hd' => ?_⟩
  have h2' : InUse { s1 with st := { s1.st with ybar := some ((⟨m, d.C *ᵥ (linStep d i (x, P)).1 + d.D *ᵥ i.u'⟩ : DVec), k + 1) } } n m p
      (linStep d i (x, P)).1 (linStep d i (x, P)).2 (k + 1) := ⟨h2.1, h2.2, h2.3, h2.4, h2.5, h2.6, h2.7, h2.8, h2.9, h2.10⟩
  obtain ⟨r1, e1, f1⟩ := C20_run s1 _ _ (k + 1) h2 hP1 d' hd' i' N
  obtain ⟨r2, e2, f2⟩ := C20_run _ _ _ (k + 1) h2' hP1 d' hd' i' N
  exact ⟨r1, r2, e1, e2, by rw [f1.x, f2.x], by rw [getStateCovariance, getStateCovariance, f1.pr, f2.pr]⟩

/-- The full claim is false: state 0, measurement 1 (variances 1); the predicted measurement is 0 and, after the simulated measurement is asked, 2/3. -/
theorem C124_false : ¬ C124_statement := by
  intro h
  obtain ⟨s, -, hs⟩ := init_inUse 1 1 0 (fun _ => 0) 1 0
  let d : LinModel 1 1 0 := ⟨1, 0, 1, 0, 1, 1⟩
  have hd : d.Ok := ⟨PosSemidef.one, PosDef.one⟩
  let i : StepIn 1 0 := ⟨0, 0, fun _ => 1⟩
  obtain ⟨s1, h1, h2, h7, hu, h3, h4, -, -⟩ := cycle_full s _ _ 0 hs PosSemidef.one d hd i
  obtain ⟨s1', s2, xh, g1, g2, g3, -⟩ := C124_simulated_partial s _ _ 0 hs PosSemidef.one d hd i
  rw [h1] at g1
  cases g1
  have e := h 1 1 0 s _ _ 0 d i s1 s2 _ hs PosSemidef.one hd h1 g3
  have hx : xh = (linStep d i (fun _ => 0, 1)).1 := by
    have := h2.x
    rw [g2] at this
    simpa using this
  have hy : getLastPredictedMeasurement s2 = .ok ⟨1, d.C *ᵥ xh + d.D *ᵥ i.u'⟩ := by
    rw [getSimulatedMeasurement] at g3
    obtain ⟨a, -, g3⟩ := Res.bind_eq_ok.1 g3
    obtain ⟨b, -, g3⟩ := Res.bind_eq_ok.1 g3
    obtain ⟨c, -, g3⟩ := Res.bind_eq_ok.1 g3
    cases g3
    rfl
  have hy1 : getLastPredictedMeasurement s1 = .ok ⟨1, predMeas d i.u' (predState d i.u fun _ => 0)⟩ := by
    rw [getLastPredictedMeasurement, h4]; rfl
  rw [hy, hy1] at e
  simp only [Res.ok.injEq, DVec.mk.injEq, heq_eq_eq, true_and] at e
  have e0 := congrFun e 0
  have hx0 : xh 0 = 2 / 3 := by
    rw [hx]
    have hg : gain d.C d.R (predCov d.A d.Q 1) 0 0 = 2 / 3 := by
      have h1 : innovCov d.C d.R (predCov d.A d.Q 1) = (3 : ℝ) • (1 : Matrix (Fin 1) (Fin 1) ℝ) := by
        ext a b; fin_cases a; fin_cases b; simp [innovCov, predCov, d]; norm_num
      rw [gain, h1]
      have h2 : ((3 : ℝ) • (1 : Matrix (Fin 1) (Fin 1) ℝ))⁻¹ = (1 / 3 : ℝ) • 1 := by
        refine Matrix.inv_eq_right_inv ?_
        rw [smul_mul_smul_comm, Matrix.mul_one]; norm_num
      rw [h2]
      simp [predCov, d]; norm_num
    show (predState d i.u _ + gain d.C d.R (predCov d.A d.Q 1) *ᵥ (i.y - predMeas d i.u' (predState d i.u _))) 0 = _
    simp [predState, predMeas, d, i, mulVec, dotProduct] at hg ⊢
    exact hg
  simp [predMeas, predState, d, i] at e0
  rw [hx0] at e0
  norm_num at e0

/-- The hypotheses are met by a new filter: see the example of C20. -/
example : ∃ s, init 1 1 1 (fun _ => 3) 1 0 = .ok s ∧ InUse s 1 1 1 (fun _ => 3) 1 0 ∧ (1 : Matrix (Fin 1) (Fin 1) ℝ).PosSemidef ∧
    (⟨1, 1, 1, 1, 1, 1⟩ : LinModel 1 1 1).Ok := by
  obtain ⟨s, h1, h2⟩ := init_inUse 1 1 1 (fun _ => 3) 1 0
  exact ⟨s, h1, h2, Matrix.PosSemidef.one, Matrix.PosSemidef.one, Matrix.PosDef.one⟩

end StateObs.LKF
