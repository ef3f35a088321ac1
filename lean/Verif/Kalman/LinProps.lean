import Verif.Kalman.LinLemmas
import Verif.ZeroDelay.Props
import Mathlib.Algebra.BigOperators.Fin
import Mathlib.Data.Real.StarOrdered
/-!
# Properties C17, C18, C20 of the linear Kalman filter

The filter is driven through its public interface (`cycle`); the textbook filter is `KFSpec.linRun`.
-/

namespace StateObs.LKF
open StateObs Matrix KFSpec KF
variable {n m p : ℕ}

/-- What a user does between two sampling times: set the (possibly new) matrices, give the inputs of times `k` and `k+1` and the
measurement of time `k+1`, and ask for the estimate of time `k+1`. -/
noncomputable def cycle (d : LinModel n m p) (i : StepIn m p) (s : KFilter Ext) : Res (KFilter Ext) := do
  let k ← s.getCurrentTime
  let s ← setA s ⟨n, n, d.A⟩
  let s ← setB s ⟨n, p, d.B⟩
  let s ← setC s ⟨m, n, d.C⟩
  let s ← setD s ⟨m, p, d.D⟩
  let s ← setQ s ⟨n, n, d.Q⟩
  let s ← setR s ⟨m, m, d.R⟩
  let s ← Obs.setInput (cfg s) s ⟨p, i.u⟩ k
  let s ← Obs.setInput (cfg s) s ⟨p, i.u'⟩ (k + 1)
  let s ← Obs.setMeasurement (cfg s) s ⟨m, i.y⟩ (k + 1)
  getEstimatedState s (k + 1)

/-- `N` sampling times. -/
noncomputable def cycles (d : ℕ → LinModel n m p) (i : ℕ → StepIn m p) (s : KFilter Ext) : ℕ → Res (KFilter Ext)
  | 0 => .ok s
  | N + 1 => do
    let s ← cycles d i s N
    cycle (d N) (i N) s

/-- A filter in use: sizes `n`, `m`, `p`, estimate `x` of time `k` with covariance `P`, default arithmetic, and at most the measurement and
input of time `k` still stored. -/
structure InUse (s : KFilter Ext) (n m p : ℕ) (x : Fin n → ℝ) (P : Matrix (Fin n) (Fin n) ℝ) (k : Int) : Prop where
  hn : s.st.n = n
  hnt : s.st.nt = n
  hm : s.st.m = m
  hmt : s.st.mt = m
  hp : s.st.p = p
  ar : s.st.arith = Arith.default
  x : s.x = some (⟨n, x⟩, k)
  pr : s.st.pr = ⟨n, n, P⟩
  y : s.y.v = [] ∨ (s.y.k = k ∧ s.y.v.length = 1)
  u : p = 0 ∨ s.u.v = [] ∨ (s.u.k = k ∧ s.u.v.length = 1)

/-- Initialisation of a new filter: `setState`, `setStateCovariance`. -/
noncomputable def init (n m p : ℕ) (x : Fin n → ℝ) (P : Matrix (Fin n) (Fin n) ℝ) (k : Int) : Res (KFilter Ext) := do
  let s := LKF.mk n m p
  let s ← Obs.setState (cfg s) s ⟨n, x⟩ k
  setStateCovariance s ⟨n, n, P⟩

/-- A newly initialised filter is in use. -/
theorem init_inUse (n m p : ℕ) (x : Fin n → ℝ) (P : Matrix (Fin n) (Fin n) ℝ) (k : Int) :
    ∃ s, init n m p x P k = .ok s ∧ InUse s n m p x P k := by
  have h1 : (cfg (LKF.mk n m p)).okX ⟨n, x⟩ = true := by simp [cfg, LKF.mk, KF.mk]
  by_cases hp : p > 0
  · have hp' : (cfg (LKF.mk n m p)).p > 0 := hp
    refine ⟨_, by
      simp only [init, Obs.setState, h1, Res.assert_true, Res.ok_bind, Obs.getCurrentTime, lt_irrefl, if_false, hp', if_true,
        setStateCovariance, KData.checkP]
      simp only [LKF.mk, KF.mk, DMat.hasSize_mk, Res.assert_true, Res.ok_bind]
      rfl, ?_⟩
    exact ⟨rfl, rfl, rfl, rfl, rfl, rfl, rfl, rfl, Or.inl rfl, Or.inr (Or.inl rfl)⟩
  · have hp' : ¬ (cfg (LKF.mk n m p)).p > 0 := hp
    refine ⟨_, by
      simp only [init, Obs.setState, h1, Res.assert_true, Res.ok_bind, Obs.getCurrentTime, lt_irrefl, if_false, hp',
        setStateCovariance, KData.checkP]
      simp only [LKF.mk, KF.mk, DMat.hasSize_mk, Res.assert_true, Res.ok_bind]
      rfl, ?_⟩
    exact ⟨rfl, rfl, rfl, rfl, rfl, rfl, rfl, rfl, Or.inl rfl, Or.inr (Or.inl rfl)⟩

theorem setInput_two {σ X Y U : Type} (c : ObsCfg X Y U) (s : Obs σ X Y U) (x : X) (k : Int) (hx : s.x = some (x, k))
    (hu : s.u.v = [] ∨ (s.u.k = k ∧ s.u.v.length = 1)) (a b : U) (ha : c.okU a = true) (hb : c.okU b = true) (hp : c.p > 0) :
    ∃ s1, Obs.setInput c s a k = .ok s1 ∧ Obs.setInput c s1 b (k + 1) = .ok { s with u := ⟨k, [a, b]⟩ } := by
  refine ⟨{ s with u := ⟨k, [a]⟩ }, ?_, ?_⟩
  · rcases hu with h | ⟨h1, h2⟩
    · simp [Obs.setInput, hp, ha, IArr.size, h, hx, IArr.setValue, IArr.checkIndex, IArr.checkNext]
    · obtain ⟨z, hz⟩ := List.length_eq_one_iff.1 h2
      simp [Obs.setInput, hp, ha, IArr.size, hz, IArr.setValue, IArr.checkIndex, h1]
  · simp [Obs.setInput, hp, hb, IArr.size, IArr.setValue, IArr.checkIndex, IArr.checkNext, IArr.getNextIndex]

theorem setMeasurement_next {σ X Y U : Type} (c : ObsCfg X Y U) (s : Obs σ X Y U) (x : X) (k : Int) (hx : s.x = some (x, k))
    (hy : s.y.v = [] ∨ (s.y.k = k ∧ s.y.v.length = 1)) (b : Y) (hb : c.okY b = true) :
    ∃ y', Obs.setMeasurement c s b (k + 1) = .ok { s with y := y' } ∧ y'.get (k + 1) = .ok b ∧
      Obs.popIf (k + 1) y' = .ok ⟨k + 1, [b]⟩ := by
  rcases hy with h | ⟨h1, h2⟩
  · refine ⟨⟨k + 1, [b]⟩, ?_, ?_, ?_⟩
    · simp [Obs.setMeasurement, hb, IArr.size, h, hx, IArr.setValue, IArr.checkIndex, IArr.checkNext]
    · simp [IArr.get, IArr.checkIndex]
    · simp [Obs.popIf, IArr.getFirstIndex]
  · obtain ⟨z, hz⟩ := List.length_eq_one_iff.1 h2
    refine ⟨⟨k, [z, b]⟩, ?_, ?_, ?_⟩
    · simp [Obs.setMeasurement, hb, IArr.size, hz, h1, IArr.setValue, IArr.checkIndex, IArr.checkNext, IArr.getNextIndex]
    · simp [IArr.get, IArr.checkIndex]
    · simp [Obs.popIf, IArr.getFirstIndex, IArr.popFront]

/-! ## C20 -/

/-- **C20**, one step of any linear filter: with state `x` at time `k`, measurement `y_{k+1}` stored, input `u_k` stored (unless there is no
input or `B = 0`) and input `u_{k+1}` stored (unless there is no input or `D` is zero or was never set), the step succeeds; the
prediction is `A x + B u_k`, the predicted measurement `C (A x + B u_k) + D u_{k+1}`, and the new estimate and covariance
are those of the textbook. -/
theorem C20_step (s : KFilter Ext) (d : LinModel n m p) (P : Matrix (Fin n) (Fin n) ℝ) (h : HasModel s d P) (hd : d.Ok)
    (hP : P.PosSemidef) (x : Fin n → ℝ) (k : Int) (hx : s.x = some (⟨n, x⟩, k)) (i : StepIn m p)
    (hy : s.y.get (k + 1) = .ok ⟨m, i.y⟩) (hu : p = 0 ∨ d.B = 0 ∨ s.u.get k = .ok ⟨p, i.u⟩)
    (hu' : p = 0 ∨ d.D = 0 ∨ s.u.get (k + 1) = .ok ⟨p, i.u'⟩) :
    ∃ s', oneStep virt s = .ok s' ∧
      s'.st.xbar = some (⟨n, d.A *ᵥ x + d.B *ᵥ i.u⟩, k + 1) ∧
      s'.st.ybar = some (⟨m, d.C *ᵥ (d.A *ᵥ x + d.B *ᵥ i.u) + d.D *ᵥ i.u'⟩, k + 1) ∧
      s'.x = some (⟨n, (linStep d i (x, P)).1⟩, k + 1) ∧ s'.st.pr = ⟨n, n, (linStep d i (x, P)).2⟩ :=
  ⟨_, oneStep_eq h hd hP x k hx i hy hu hu', rfl, rfl, rfl, rfl⟩

theorem linStep_psd (d : LinModel n m p) (hd : d.Ok) (i : StepIn m p) (x) {P : Matrix (Fin n) (Fin n) ℝ}
    (hP : P.PosSemidef) : (linStep d i (x, P)).2.PosSemidef :=
  posterior_psd hd.2 (predCov_psd hd.1 hP)

/-- **C20**, one sampling time through the public interface. -/
theorem C20_cycle (s : KFilter Ext) (x : Fin n → ℝ) (P : Matrix (Fin n) (Fin n) ℝ) (k : Int) (hs : InUse s n m p x P k)
    (hP : P.PosSemidef) (d : LinModel n m p) (hd : d.Ok) (i : StepIn m p) :
    ∃ s', cycle d i s = .ok s' ∧ InUse s' n m p (linStep d i (x, P)).1 (linStep d i (x, P)).2 (k + 1) := by
  set s1 : KFilter Ext := { s with st := { s.st with
    a := ⟨n, n, d.A⟩, c := ⟨m, n, d.C⟩, q := ⟨n, n, d.Q⟩, r := ⟨m, m, d.R⟩, ext := ⟨⟨n, p, d.B⟩, ⟨m, p, d.D⟩⟩ } } with hs1
  have hc : cycle d i s = (do
      let s ← Obs.setInput (cfg s1) s1 ⟨p, i.u⟩ k
      let s ← Obs.setInput (cfg s) s ⟨p, i.u'⟩ (k + 1)
      let s ← Obs.setMeasurement (cfg s) s ⟨m, i.y⟩ (k + 1)
      getEstimatedState s (k + 1)) := by
    simp [cycle, Obs.getCurrentTime, hs.x, setA, setB, setC, setD, setQ, setR, KData.checkA, KData.checkC, KData.checkQ, KData.checkR,
      checkB, checkD, hs.hn, hs.hnt, hs.hm, hs.hmt, hs.hp, hs1]
  have hx1 : s1.x = some (⟨n, x⟩, k) := hs.x
  -- the inputs
  have hin : ∃ u', (do
      let s ← Obs.setInput (cfg s1) s1 ⟨p, i.u⟩ k
      Obs.setInput (cfg s) s ⟨p, i.u'⟩ (k + 1)) = .ok { s1 with u := u' } ∧
      (p = 0 ∨ u' = ⟨k, [⟨p, i.u⟩, ⟨p, i.u'⟩]⟩) ∧ (p = 0 → u' = s.u) := by
    by_cases hp : p = 0
    · have hp1 : ¬ (cfg s1).p > 0 := by simp [cfg, hs1, hs.hp, hp]
      refine ⟨s.u, ?_, Or.inl hp, fun _ => rfl⟩
      simp only [Obs.setInput, hp1, if_false, Res.ok_bind]
      rfl
    · have hp1 : (cfg s1).p > 0 := by simp [cfg, hs1, hs.hp]; omega
      obtain ⟨s2, h2, h3⟩ := setInput_two (cfg s1) s1 _ k hx1 (hs.u.resolve_left hp) (⟨p, i.u⟩ : DVec) ⟨p, i.u'⟩ (by simp [cfg, hs1, hs.hp])
        (by simp [cfg, hs1, hs.hp]) hp1
      refine ⟨⟨k, [⟨p, i.u⟩, ⟨p, i.u'⟩]⟩, ?_, Or.inr rfl, fun h => absurd h hp⟩
      rw [h2, Res.ok_bind, ← h3]
      have : cfg s2 = cfg s1 := by
        have := obs_setInput_st h2
        simp only [cfg, this]
      rw [this]
  obtain ⟨u', hin, hu', hu0⟩ := hin
  rw [← Res.bind_assoc, hin, Res.ok_bind] at hc
  -- the measurement
  obtain ⟨y', hm, hget, hpop⟩ := setMeasurement_next (cfg { s1 with u := u' }) { s1 with u := u' } _ k hx1 hs.y (⟨m, i.y⟩ : DVec)
    (by simp [cfg, hs1, hs.hm])
  rw [hm, Res.ok_bind] at hc
  -- the step
  set s2 : KFilter Ext := { s1 with u := u', y := y' } with hs2
  have hmodel : HasModel s2 d P :=
    ⟨hs.hn, hs.hm, hs.hp, ⟨hs.hnt, hs.hmt, rfl, rfl, hs.pr, rfl, rfl⟩, hs.ar, rfl, Or.inl rfl⟩
  have hstep := oneStep_eq hmodel hd hP x k hx1 i hget
    (by rcases hu' with h | h
        · exact Or.inl h
        · right; right; show u'.get k = _; rw [h]; simp [IArr.get, IArr.checkIndex])
    (by rcases hu' with h | h
        · exact Or.inl h
        · right; right; show u'.get (k + 1) = _; rw [h]; simp [IArr.get, IArr.checkIndex])
  have hest : ∀ s0 : KFilter Ext, s0 = s2 → getEstimatedState s0 (k + 1) = Obs.loopBody (cfg s2) (oneStep virt) (k + 1) s2 := by
    rintro s0 rfl
    have hx2 : s2.x = some (⟨n, x⟩, k) := hx1
    have h1 : k ≤ k + 1 := by omega
    simp only [getEstimatedState, KF.getEstimatedState, Obs.getEstimatedState, Obs.getCurrentTime, hx2, Res.ok_bind, h1, decide_true,
      Res.assert_true]
    rw [show (k + 1 - k).toNat = 1 by omega]
    simp only [Obs.loop]
    cases Obs.loopBody (cfg s2) (oneStep virt) (k + 1) s2 <;> rfl
  have hc : cycle d i s = Obs.loopBody (cfg s2) (oneStep virt) (k + 1) s2 := by
    rw [hc]; exact hest _ rfl
  rw [hc, Obs.loopBody, hstep]
  have hpop' : Obs.popIf (k + 1) s2.y = .ok ⟨k + 1, [⟨m, i.y⟩]⟩ := hpop
  simp only [Res.ok_bind, hpop']
  by_cases hp : p = 0
  · have hp1 : ¬ (cfg s2).p > 0 := by simp [cfg, hs2, hs1, hs.hp, hp]
    rw [if_neg hp1]
    exact ⟨_, rfl, hs.hn, hs.hnt, hs.hm, hs.hmt, hs.hp, hs.ar, rfl, rfl, Or.inr ⟨rfl, rfl⟩, Or.inl hp⟩
  · have hp1 : (cfg s2).p > 0 := by simp [cfg, hs2, hs1, hs.hp]; omega
    have hu2 : s2.u = ⟨k, [⟨p, i.u⟩, ⟨p, i.u'⟩]⟩ := by tauto
    rw [if_pos hp1, hu2]
    have : Obs.popIf (k + 1) (⟨k, [⟨p, i.u⟩, ⟨p, i.u'⟩]⟩ : IArr DVec) = .ok ⟨k + 1, [⟨p, i.u'⟩]⟩ := by
      simp [Obs.popIf, IArr.getFirstIndex, IArr.popFront]
    rw [this]
    exact ⟨_, rfl, hs.hn, hs.hnt, hs.hm, hs.hmt, hs.hp, hs.ar, rfl, rfl, Or.inr ⟨rfl, rfl⟩, Or.inr (Or.inr ⟨rfl, rfl⟩)⟩

theorem linRun_psd (d : ℕ → LinModel n m p) (hd : ∀ N, (d N).Ok) (i : ℕ → StepIn m p) (x) {P : Matrix (Fin n) (Fin n) ℝ}
    (hP : P.PosSemidef) (N : ℕ) : (linRun d i (x, P) N).2.PosSemidef := by
  induction N with
  | zero => exact hP
  | succ N ih => exact linStep_psd (d N) (hd N) (i N) _ ih

/-- **C20**, any number of sampling times, time-varying matrices: the filter computes what the textbook says. -/
theorem C20_run (s : KFilter Ext) (x : Fin n → ℝ) (P : Matrix (Fin n) (Fin n) ℝ) (k : Int) (hs : InUse s n m p x P k)
    (hP : P.PosSemidef) (d : ℕ → LinModel n m p) (hd : ∀ N, (d N).Ok) (i : ℕ → StepIn m p) (N : ℕ) :
    ∃ s', cycles d i s N = .ok s' ∧ InUse s' n m p (linRun d i (x, P) N).1 (linRun d i (x, P) N).2 (k + N) := by
  induction N with
  | zero => exact ⟨s, rfl, by simpa [linRun] using hs⟩
  | succ N ih =>
    obtain ⟨s1, h1, h2⟩ := ih
    obtain ⟨s2, h3, h4⟩ := C20_cycle s1 _ _ _ h2 (linRun_psd d hd i x hP N) (d N) (hd N) (i N)
    refine ⟨s2, by simp only [cycles, h1, Res.ok_bind, h3], ?_⟩
    rw [show (k + ((N + 1 : ℕ) : Int)) = k + N + 1 by push_cast; omega]
    exact h4

/-! ## C18 -/

/-- The model with all covariances multiplied by `a`. -/
def scale (a : ℝ) (d : LinModel n m p) : LinModel n m p := { d with Q := a • d.Q, R := a • d.R }

theorem linRun_scale (a : ℝ) (ha : 0 < a) (d : ℕ → LinModel n m p) (i : ℕ → StepIn m p) (x : Fin n → ℝ)
    (P : Matrix (Fin n) (Fin n) ℝ) (N : ℕ) :
    linRun (fun t => scale a (d t)) i (x, a • P) N = ((linRun d i (x, P) N).1, a • (linRun d i (x, P) N).2) := by
  induction N with
  | zero => rfl
  | succ N ih =>
    have h1 := predCov_smul a (d N).A (d N).Q (linRun d i (x, P) N).2
    have e : (scale a (d N)).A = (d N).A ∧ (scale a (d N)).B = (d N).B ∧ (scale a (d N)).C = (d N).C ∧
        (scale a (d N)).D = (d N).D ∧ (scale a (d N)).Q = a • (d N).Q ∧ (scale a (d N)).R = a • (d N).R :=
      ⟨rfl, rfl, rfl, rfl, rfl, rfl⟩
    obtain ⟨e1, e2, e3, e4, e5, e6⟩ := e
    simp only [linRun, ih, linStep, e1, e2, e3, e4, e5, e6, h1, gain_smul a ha, posterior_smul a ha, predState, predMeas]

/-- **C18**. Two filters with the same initial estimate, given the same matrices `A`, `B`, `C`, `D`, the same inputs and measurements, the
second with all covariances multiplied by `a > 0`: both succeed at every time, with the same estimate, and the covariance of
the second is `a` times that of the first. -/
theorem C18_scaling (s sa : KFilter Ext) (x : Fin n → ℝ) (P : Matrix (Fin n) (Fin n) ℝ) (k : Int) (a : ℝ) (ha : 0 < a)
    (hs : InUse s n m p x P k) (hsa : InUse sa n m p x (a • P) k)
    (hP : P.PosSemidef) (d : ℕ → LinModel n m p) (hd : ∀ N, (d N).Ok) (i : ℕ → StepIn m p) (N : ℕ) :
    ∃ s' sa' P', cycles d i s N = .ok s' ∧
      cycles (fun t => { d t with Q := a • (d t).Q, R := a • (d t).R }) i sa N = .ok sa' ∧
      sa'.x = s'.x ∧ s'.st.pr = ⟨n, n, P'⟩ ∧ sa'.st.pr = ⟨n, n, a • P'⟩ := by
  obtain ⟨s', h1, h2⟩ := C20_run s x P k hs hP d hd i N
  obtain ⟨sa', h3, h4⟩ := C20_run sa x (a • P) k hsa (hP.smul ha.le) (fun t => scale a (d t))
    (fun t => ⟨(hd t).1.smul ha.le, (hd t).2.smul ha⟩) i N
  rw [linRun_scale a ha d i x P] at h4
  exact ⟨s', sa', _, h1, h3, by rw [h4.x, h2.x], h2.pr, h4.pr⟩

/-! ## C17 -/

/-- **C17**. For all models and all `N`, there are matrices `Φ`, `Γ j`, `Λ j` (`j < N`) such that, for a filter started with estimate `x`,
covariance `P` at time `k`, and fed with the data of a system following the same models – whatever its true initial state `X`,
inputs `u`, process noises `w`, measurement noises `v` – the error of the estimate after `N` sampling times is
`Φ (X - x) + Σ Γ j w j + Σ Λ j v j`, and the covariance stored by the filter is
`Φ P Φᵀ + Σ Γ j Q j (Γ j)ᵀ + Σ Λ j R j (Λ j)ᵀ`. -/
theorem C17_error (P : Matrix (Fin n) (Fin n) ℝ) (hP : P.PosSemidef) (d : ℕ → LinModel n m p) (hd : ∀ N, (d N).Ok) (N : ℕ) :
    ∃ (Φ : Matrix (Fin n) (Fin n) ℝ) (Γ : ℕ → Matrix (Fin n) (Fin n) ℝ) (Λ : ℕ → Matrix (Fin n) (Fin m) ℝ),
      ∀ (s : KFilter Ext) (x : Fin n → ℝ) (k : Int), InUse s n m p x P k →
      ∀ (X : Fin n → ℝ) (u : ℕ → Fin p → ℝ) (w : ℕ → Fin n → ℝ) (v : ℕ → Fin m → ℝ),
      ∃ s' xN PN, cycles d (sensorData d u w v X) s N = .ok s' ∧ s'.x = some (⟨n, xN⟩, k + N) ∧ s'.st.pr = ⟨n, n, PN⟩ ∧
        trueState d u w X N - xN = Φ *ᵥ (X - x) + ∑ j ∈ Finset.range N, Γ j *ᵥ w j + ∑ j ∈ Finset.range N, Λ j *ᵥ v j ∧
        PN = Φ * P * Φᵀ + ∑ j ∈ Finset.range N, Γ j * (d j).Q * (Γ j)ᵀ + ∑ j ∈ Finset.range N, Λ j * (d j).R * (Λ j)ᵀ := by
  -- the covariance does not depend on the data
  have hcov : ∀ (i i' : ℕ → StepIn m p) (x x' : Fin n → ℝ) (N : ℕ), (linRun d i (x, P) N).2 = (linRun d i' (x', P) N).2 := by
    intro i i' x x' N
    induction N with
    | zero => rfl
    | succ N ih => simp only [linRun, linStep, ih]
  suffices H : ∃ (Φ : Matrix (Fin n) (Fin n) ℝ) (Γ : ℕ → Matrix (Fin n) (Fin n) ℝ) (Λ : ℕ → Matrix (Fin n) (Fin m) ℝ),
      ∀ (x X : Fin n → ℝ) (u : ℕ → Fin p → ℝ) (w : ℕ → Fin n → ℝ) (v : ℕ → Fin m → ℝ),
        trueState d u w X N - (linRun d (sensorData d u w v X) (x, P) N).1 =
          Φ *ᵥ (X - x) + ∑ j ∈ Finset.range N, Γ j *ᵥ w j + ∑ j ∈ Finset.range N, Λ j *ᵥ v j ∧
        (linRun d (sensorData d u w v X) (x, P) N).2 =
          Φ * P * Φᵀ + ∑ j ∈ Finset.range N, Γ j * (d j).Q * (Γ j)ᵀ + ∑ j ∈ Finset.range N, Λ j * (d j).R * (Λ j)ᵀ by
    obtain ⟨Φ, Γ, Λ, h⟩ := H
    refine ⟨Φ, Γ, Λ, fun s x k hs X u w v => ?_⟩
    obtain ⟨s', h1, h2⟩ := C20_run s x P k hs hP d hd (sensorData d u w v X) N
    exact ⟨s', _, _, h1, h2.x, h2.pr, h x X u w v⟩
  induction N with
  | zero => exact ⟨1, 0, 0, fun x X u w v => by simp [trueState, linRun]⟩
  | succ N ih =>
    obtain ⟨Φ, Γ, Λ, h⟩ := ih
    set M : Matrix (Fin n) (Fin n) ℝ := predCov (d N).A (d N).Q (linRun d (fun _ => ⟨0, 0, 0⟩) (0, P) N).2 with hM
    have hMp : M.PosSemidef := predCov_psd (hd N).1 (linRun_psd d hd _ _ hP N)
    set K := gain (d N).C (d N).R M with hK
    set F := 1 - K * (d N).C with hF
    refine ⟨F * (d N).A * Φ, fun j => if j = N then F else F * (d N).A * Γ j,
      fun j => if j = N then -K else F * (d N).A * Λ j, fun x X u w v => ?_⟩
    obtain ⟨h1, h2⟩ := h x X u w v
    have hM' : predCov (d N).A (d N).Q (linRun d (sensorData d u w v X) (x, P) N).2 = M := by
      rw [hM, hcov (sensorData d u w v X) (fun _ => ⟨0, 0, 0⟩) x 0]
    have hne : ∀ j ∈ Finset.range N, ¬ j = N := fun j hj => by have := Finset.mem_range.1 hj; omega
    have s1 : ∑ j ∈ Finset.range N, (if j = N then F else F * (d N).A * Γ j) *ᵥ w j =
        ∑ j ∈ Finset.range N, (F * (d N).A * Γ j) *ᵥ w j := Finset.sum_congr rfl fun j hj => by rw [if_neg (hne j hj)]
    have s2 : ∑ j ∈ Finset.range N, (if j = N then -K else F * (d N).A * Λ j) *ᵥ v j =
        ∑ j ∈ Finset.range N, (F * (d N).A * Λ j) *ᵥ v j := Finset.sum_congr rfl fun j hj => by rw [if_neg (hne j hj)]
    have s3 : ∑ j ∈ Finset.range N, (if j = N then F else F * (d N).A * Γ j) * (d j).Q * (if j = N then F else F * (d N).A * Γ j)ᵀ =
        ∑ j ∈ Finset.range N, F * (d N).A * Γ j * (d j).Q * (F * (d N).A * Γ j)ᵀ :=
      Finset.sum_congr rfl fun j hj => by rw [if_neg (hne j hj)]
    have s4 : ∑ j ∈ Finset.range N, (if j = N then -K else F * (d N).A * Λ j) * (d j).R * (if j = N then -K else F * (d N).A * Λ j)ᵀ =
        ∑ j ∈ Finset.range N, F * (d N).A * Λ j * (d j).R * (F * (d N).A * Λ j)ᵀ :=
      Finset.sum_congr rfl fun j hj => by rw [if_neg (hne j hj)]
    constructor
    · have e : trueState d u w X (N + 1) - (linRun d (sensorData d u w v X) (x, P) (N + 1)).1 =
          F *ᵥ ((d N).A *ᵥ (trueState d u w X N - (linRun d (sensorData d u w v X) (x, P) N).1) + w N) - K *ᵥ v N := by
        simp only [linRun, linStep, hM', ← hK, sensorData, trueState, predState, predMeas, hF]
        simp only [Matrix.sub_mulVec, Matrix.one_mulVec, Matrix.mulVec_add, Matrix.mulVec_sub, ← Matrix.mulVec_mulVec]
        abel
      simp only
      rw [e, h1, Finset.sum_range_succ, Finset.sum_range_succ, if_pos rfl, if_pos rfl, s1, s2]
      simp only [Matrix.mulVec_add, Matrix.mulVec_sum, Matrix.mulVec_mulVec, Matrix.neg_mulVec, ← Matrix.mul_assoc]
      abel
    · have e : (linRun d (sensorData d u w v X) (x, P) (N + 1)).2 = joseph K (d N).C (d N).R M := by
        simp only [linRun, linStep, hM']
        exact (joseph_gain (hd N).2 hMp).symm
      simp only
      rw [e, joseph, ← hF, ← hM', predCov, h2, Finset.sum_range_succ, Finset.sum_range_succ, if_pos rfl, if_pos rfl, s3, s4]
      simp only [Matrix.mul_add, Matrix.add_mul, Matrix.mul_sum, Matrix.sum_mul, Matrix.transpose_mul, Matrix.transpose_neg,
        Matrix.neg_mul, Matrix.mul_neg, neg_neg, Matrix.mul_assoc]
      abel

/-- The hypotheses of C17, C18 and C20 are met: a scalar integrator with input, observed with direct feedthrough. -/
example : ∃ s, init 1 1 1 (fun _ => 3) 1 0 = .ok s ∧ InUse s 1 1 1 (fun _ => 3) 1 0 ∧ (1 : Matrix (Fin 1) (Fin 1) ℝ).PosSemidef ∧
    (⟨1, 1, 1, 1, 1, 1⟩ : LinModel 1 1 1).Ok := by
  obtain ⟨s, h1, h2⟩ := init_inUse 1 1 1 (fun _ => 3) 1 0
  exact ⟨s, h1, h2, Matrix.PosSemidef.one, Matrix.PosSemidef.one, Matrix.PosDef.one⟩

end StateObs.LKF
