import Verif.Kalman.FactoryModel
import Verif.Kalman.LinProps
/-!
# Properties C128 (matrices and vectors made by a filter) and C129 (a linear filter without inputs)
-/

namespace StateObs.KF
open StateObs KFSpec Matrix
variable {E : Type}

/-- The call succeeds. -/
def Works {α : Type} (r : Res α) : Prop := ∃ a, r = .ok a

theorem setA_works {s : KFilter E} {M : DMat} (h : M.rows = s.st.nt ∧ M.cols = s.st.nt) : Works (setA s M) := by
  simp [Works, setA, KData.checkA, DMat.hasSize, h]
theorem setC_works {s : KFilter E} {M : DMat} (h : M.rows = s.st.mt ∧ M.cols = s.st.nt) : Works (setC s M) := by
  simp [Works, setC, KData.checkC, DMat.hasSize, h]
theorem setQ_works {s : KFilter E} {M : DMat} (h : M.rows = s.st.nt ∧ M.cols = s.st.nt) : Works (setQ s M) := by
  simp [Works, setQ, KData.checkQ, DMat.hasSize, h]
theorem setR_works {s : KFilter E} {M : DMat} (h : M.rows = s.st.mt ∧ M.cols = s.st.mt) : Works (setR s M) := by
  simp [Works, setR, KData.checkR, DMat.hasSize, h]
theorem setP_works {s : KFilter E} {M : DMat} (h : M.rows = s.st.nt ∧ M.cols = s.st.nt) : Works (setStateCovariance s M) := by
  simp [Works, setStateCovariance, KData.checkP, DMat.hasSize, h]

/-- **C128**. The matrices made by a filter, whatever its state, are accepted by its setters. -/
theorem C128_matrices (s : KFilter E) (c : ℝ) (w : ℕ → ℕ → ℝ) :
    (∀ M ∈ [getAmatrixConstant s c, getAmatrixRandom s w, getAmatrixZero s, getAmatrixIdentity s], Works (setA s M)) ∧
    (∀ M ∈ [getCmatrixConstant s c, getCmatrixRandom s w, getCmatrixZero s], Works (setC s M)) ∧
    (∀ M ∈ [getQmatrixConstant s c, getQmatrixRandom s w, getQmatrixZero s, getQmatrixIdentity s], Works (setQ s M)) ∧
    (∀ M ∈ [getRmatrixConstant s c, getRmatrixRandom s w, getRmatrixZero s, getRmatrixIdentity s], Works (setR s M)) ∧
    (∀ M ∈ [getPmatrixConstant s c, getPmatrixRandom s w, getPmatrixZero s, getPmatrixIdentity s], Works (setStateCovariance s M)) := by
  refine ⟨?_, ?_, ?_, ?_, ?_⟩ <;> intro M hM <;> simp only [List.mem_cons, List.not_mem_nil, or_false] at hM
  · exact setA_works (by rcases hM with rfl | rfl | rfl | rfl <;> exact ⟨rfl, rfl⟩)
  · exact setC_works (by rcases hM with rfl | rfl | rfl <;> exact ⟨rfl, rfl⟩)
  · exact setQ_works (by rcases hM with rfl | rfl | rfl | rfl <;> exact ⟨rfl, rfl⟩)
  · exact setR_works (by rcases hM with rfl | rfl | rfl | rfl <;> exact ⟨rfl, rfl⟩)
  · exact setP_works (by rcases hM with rfl | rfl | rfl | rfl <;> exact ⟨rfl, rfl⟩)

/-- **C128**. The vectors made by a filter are accepted: a state at any time, after it a measurement for the next time if none is stored, and an input
for this time if none is stored. -/
theorem C128_vectors (s : KFilter E) (c : ℝ) (w : ℕ → ℝ) (k : Int) :
    (∀ v ∈ [stateVectorConstant s c, stateVectorRandom s w, stateVectorZero s], Works (Obs.setState (cfg s) s v k)) ∧
    (∀ x, s.x = some (x, k) → s.y.v = [] → ∀ v ∈ [measureVectorConstant s c, measureVectorRandom s w, measureVectorZero s],
      Works (Obs.setMeasurement (cfg s) s v (k + 1))) ∧
    (∀ x, s.x = some (x, k) → s.u.v = [] → ∀ v ∈ [inputVectorConstant s c, inputVectorRandom s w, inputVectorZero s],
      Works (Obs.setInput (cfg s) s v k)) ∧
    (∀ v ∈ [stateTangentVectorConstant s c, stateTangentVectorRandom s w, stateTangentVectorZero s], checkStateTangentVector s v = true) ∧
    (∀ v ∈ [measureTangentVectorConstant s c, measureTangentVectorRandom s w, measureTangentVectorZero s],
      checkMeasureTangentVector s v = true) := by
  refine ⟨?_, ?_, ?_, ?_, ?_⟩
  · intro v hv
    have h : (cfg s).okX v = true := by
      simp only [List.mem_cons, List.not_mem_nil, or_false] at hv
      rcases hv with rfl | rfl | rfl <;> simp [cfg, DVec.hasSize, stateVectorConstant, stateVectorRandom, stateVectorZero, DVec.const, DVec.random, DVec.zero]
    simp only [Obs.setState, h, Res.assert_true, Res.ok_bind, Obs.getCurrentTime, lt_irrefl, if_false]
    exact ⟨_, rfl⟩
  · intro x hx hy v hv
    have h : (cfg s).okY v = true := by
      simp only [List.mem_cons, List.not_mem_nil, or_false] at hv
      rcases hv with rfl | rfl | rfl <;>
        simp [cfg, DVec.hasSize, measureVectorConstant, measureVectorRandom, measureVectorZero, DVec.const, DVec.random, DVec.zero]
    simp [Works, Obs.setMeasurement, h, hx, hy, IArr.size, IArr.setValue, IArr.checkIndex, IArr.checkNext]
  · intro x hx hy v hv
    have h : (cfg s).okU v = true := by
      simp only [List.mem_cons, List.not_mem_nil, or_false] at hv
      rcases hv with rfl | rfl | rfl <;>
        simp [cfg, DVec.hasSize, inputVectorConstant, inputVectorRandom, inputVectorZero, DVec.const, DVec.random, DVec.zero]
    by_cases hp : (cfg s).p > 0
    · simp [Works, Obs.setInput, h, hx, hy, hp, IArr.size, IArr.setValue, IArr.checkIndex, IArr.checkNext]
    · simp [Works, Obs.setInput, hp]
  · intro v hv
    simp only [List.mem_cons, List.not_mem_nil, or_false] at hv
    rcases hv with rfl | rfl | rfl <;>
      simp [checkStateTangentVector, DVec.hasSize, stateTangentVectorConstant, stateTangentVectorRandom, stateTangentVectorZero, DVec.const,
        DVec.random, DVec.zero]
  · intro v hv
    simp only [List.mem_cons, List.not_mem_nil, or_false] at hv
    rcases hv with rfl | rfl | rfl <;>
      simp [checkMeasureTangentVector, DVec.hasSize, measureTangentVectorConstant, measureTangentVectorRandom, measureTangentVectorZero, DVec.const,
        DVec.random, DVec.zero]

end StateObs.KF

namespace StateObs.LKF
open StateObs KF KFSpec Matrix
variable {n m p : ℕ}

/-- **C128**, the matrices of the inputs. -/
theorem C128_inputs (s : KFilter Ext) (c : ℝ) (w : ℕ → ℕ → ℝ) :
    (∀ M ∈ [getBmatrixConstant s c, getBmatrixRandom s w, getBmatrixZero s], Works (setB s M)) ∧
    (∀ M ∈ [getDmatrixConstant s c, getDmatrixRandom s w, getDmatrixZero s], Works (setD s M)) := by
  constructor <;> intro M hM <;> simp only [List.mem_cons, List.not_mem_nil, or_false] at hM
  · have : M.rows = s.st.n ∧ M.cols = s.st.p := by rcases hM with rfl | rfl | rfl <;> exact ⟨rfl, rfl⟩
    simp [Works, setB, checkB, DMat.hasSize, this]
  · have : M.rows = s.st.m ∧ M.cols = s.st.p := by rcases hM with rfl | rfl | rfl <;> exact ⟨rfl, rfl⟩
    simp [Works, setD, checkD, DMat.hasSize, this]

/-- A cycle with the neutral matrices made by the filter: `A`, `Q`, `R` identity, `B`, `C`, `D` zero. -/
noncomputable def neutralCycle (i : StepIn m p) (s : KFilter Ext) : Res (KFilter Ext) := do
  let k ← s.getCurrentTime
  let s ← setA s (getAmatrixIdentity s)
  let s ← setB s (getBmatrixZero s)
  let s ← setC s (getCmatrixZero s)
  let s ← setD s (getDmatrixZero s)
  let s ← setQ s (getQmatrixIdentity s)
  let s ← setR s (getRmatrixIdentity s)
  let s ← Obs.setInput (cfg s) s ⟨p, i.u⟩ k
  let s ← Obs.setInput (cfg s) s ⟨p, i.u'⟩ (k + 1)
  let s ← Obs.setMeasurement (cfg s) s ⟨m, i.y⟩ (k + 1)
  getEstimatedState s (k + 1)

/-- `N` cycles. -/
noncomputable def neutralCycles (i : ℕ → StepIn m p) (s : KFilter Ext) : ℕ → Res (KFilter Ext)
  | 0 => .ok s
  | N + 1 => do
    let s ← neutralCycles i s N
    neutralCycle (i N) s

theorem ident_sq (n : ℕ) : DMat.ident n n = ⟨n, n, 1⟩ := by
  simp only [DMat.ident]
  congr 1
  ext i j
  simp [Matrix.one_apply, Fin.ext_iff]

theorem neutralCycle_eq {s : KFilter Ext} {x : Fin n → ℝ} {P : Matrix (Fin n) (Fin n) ℝ} {k : Int} (hs : InUse s n m p x P k) (i : StepIn m p) :
    neutralCycle i s = cycle (⟨1, 0, 0, 0, 1, 1⟩ : LinModel n m p) i s := by
  obtain ⟨sx, sy, su, ⟨sn, snt, sm, smt, sp, sa, sc, sq, sr, spr, sxb, syb, sin, skg, sar, ⟨sb, sd⟩⟩⟩ := s
  obtain ⟨h1, h2, h3, h4, h5, -, h7, -, -, -⟩ := hs
  simp only at h1 h2 h3 h4 h5 h7
  subst h1 h2 h3 h4 h5 h7
  simp only [neutralCycle, cycle, getAmatrixIdentity, getBmatrixZero, getCmatrixZero, getDmatrixZero, getQmatrixIdentity, getRmatrixIdentity,
    DMat.zero, ident_sq, setA, setB, setC, setD, setQ, setR, KData.checkA, KData.checkC, KData.checkQ, KData.checkR, checkB, checkD, DMat.hasSize_mk,
    Res.assert_true, Res.ok_bind, Obs.getCurrentTime]

/-- **C128**. With the identity and zero matrices made by the filter itself, whatever the inputs and measurements, every estimation succeeds,
the estimate stays the initial one, and its covariance grows by the identity at each step. -/
theorem C128_neutral (s : KFilter Ext) (x : Fin n → ℝ) (P : Matrix (Fin n) (Fin n) ℝ) (k : Int) (hs : InUse s n m p x P k) (hP : P.PosSemidef)
    (i : ℕ → StepIn m p) (N : ℕ) :
    ∃ s', neutralCycles i s N = .ok s' ∧ s'.x = some (⟨n, x⟩, k + N) ∧ s'.st.pr = ⟨n, n, P + (N : ℝ) • 1⟩ := by
  set d : ℕ → LinModel n m p := fun _ => ⟨1, 0, 0, 0, 1, 1⟩ with hd
  have hok : ∀ N, (d N).Ok := fun _ => ⟨.one, .one⟩
  have hrun : ∀ N, linRun d i (x, P) N = (x, P + (N : ℝ) • 1) := by
    intro N
    induction N with
    | zero => simp [linRun]
    | succ N ih =>
      rw [linRun, ih]
      simp only [hd, linStep, predState, predMeas, predCov, gain, posterior]
      refine Prod.ext ?_ ?_
      · simp
      · simp [add_smul, add_assoc]
  have key : ∀ N, ∃ s', neutralCycles i s N = .ok s' ∧ cycles d i s N = .ok s' ∧
      InUse s' n m p (linRun d i (x, P) N).1 (linRun d i (x, P) N).2 (k + N) := by
    intro N
    induction N with
    | zero => exact ⟨s, rfl, rfl, by simpa [linRun] using hs⟩
    | succ N ih =>
      obtain ⟨s1, h1, h2, h3⟩ := ih
      obtain ⟨s2, h4, h5⟩ := C20_run s x P k hs hP d hok i (N + 1)
      refine ⟨s2, ?_, h4, h5⟩
      rw [neutralCycles, h1, Res.ok_bind, neutralCycle_eq h3]
      rw [cycles, h2, Res.ok_bind] at h4
      exact h4
  obtain ⟨s', h1, -, h2⟩ := key N
  refine ⟨s', h1, ?_, ?_⟩
  · rw [h2.x, hrun]
  · rw [h2.pr, hrun]

/-! ## C129 -/

/-- A linear filter without inputs (`p = 0`, the default), to which everything else is given. -/
noncomputable def autonomous (n m : ℕ) (A Q P : Matrix (Fin n) (Fin n) ℝ) (C : Matrix (Fin m) (Fin n) ℝ) (R : Matrix (Fin m) (Fin m) ℝ) (x : Fin n → ℝ)
    (y : Fin m → ℝ) (k : Int) : Res (KFilter Ext) := do
  let s := LKF.mk n m 0
  let s ← setA s ⟨n, n, A⟩
  let s ← setC s ⟨m, n, C⟩
  let s ← setQ s ⟨n, n, Q⟩
  let s ← setR s ⟨m, m, R⟩
  let s ← Obs.setState (cfg s) s ⟨n, x⟩ k
  let s ← setStateCovariance s ⟨n, n, P⟩
  Obs.setMeasurement (cfg s) s ⟨m, y⟩ (k + 1)

/-- The full claim: such a filter can estimate. -/
def C129_statement : Prop := ∀ (n m : ℕ) (A Q P : Matrix (Fin n) (Fin n) ℝ) (C : Matrix (Fin m) (Fin n) ℝ) (R : Matrix (Fin m) (Fin m) ℝ)
  (x : Fin n → ℝ) (y : Fin m → ℝ) (k : Int), P.PosSemidef → Q.PosSemidef → R.PosDef →
  ∃ s s', autonomous n m A Q P C R x y k = .ok s ∧ getEstimatedState s (k + 1) = .ok s'

theorem autonomous_eq (n m : ℕ) (A Q P : Matrix (Fin n) (Fin n) ℝ) (C : Matrix (Fin m) (Fin n) ℝ) (R : Matrix (Fin m) (Fin m) ℝ)
    (x : Fin n → ℝ) (y : Fin m → ℝ) (k : Int) : autonomous n m A Q P C R x y k = .ok ⟨some (⟨n, x⟩, k), ⟨k + 1, [⟨m, y⟩]⟩, IArr.empty,
      { (LKF.mk n m 0).st with a := ⟨n, n, A⟩, c := ⟨m, n, C⟩, q := ⟨n, n, Q⟩, r := ⟨m, m, R⟩, pr := ⟨n, n, P⟩ }⟩ := by
  simp [autonomous, LKF.mk, KF.mk, setA, setC, setQ, setR, KData.checkA, KData.checkC, KData.checkQ, KData.checkR, KData.checkP, DMat.hasSize,
    setStateCovariance, Obs.setState, cfg, Obs.getCurrentTime, Obs.setMeasurement, IArr.size, IArr.setValue, IArr.checkIndex, IArr.checkNext,
    Obs.dropUpTo, IArr.empty, DVec.hasSize]

/-- **C129** is false: the filter always stops on an assertion, because `B`, a matrix without entries, was not given. -/
theorem C129_fails (n m : ℕ) (hn : 0 < n) (A Q P : Matrix (Fin n) (Fin n) ℝ) (C : Matrix (Fin m) (Fin n) ℝ) (R : Matrix (Fin m) (Fin m) ℝ)
    (x : Fin n → ℝ) (y : Fin m → ℝ) (k : Int) :
    ∃ s, autonomous n m A Q P C R x y k = .ok s ∧ getEstimatedState s (k + 1) = .assertFail := by
  refine ⟨_, autonomous_eq n m A Q P C R x y k, ?_⟩
  have h1 : k ≤ k + 1 := by omega
  have hb : (DMat.empty).hasSize n 0 = false := by simp [DMat.hasSize, DMat.empty]; omega
  simp only [getEstimatedState, KF.getEstimatedState, Obs.getEstimatedState, Obs.getCurrentTime, Res.ok_bind, h1, decide_true, Res.assert_true]
  rw [show (k + 1 - k).toNat = 1 by omega]
  simp [Obs.loop, Obs.loopBody, oneStep, virt, prediction, LKF.mk, KF.mk, KData.checkA, KData.checkC, KData.checkQ, KData.checkR, KData.checkP,
    checkB, DMat.hasSize_mk, IArr.size, IArr.checkIndex, hb]

/-- **C129** is false. -/
theorem C129_false : ¬ C129_statement := fun h => by
  obtain ⟨s, s', h1, h2⟩ := h 1 1 1 1 1 1 1 0 0 0 .one .one .one
  obtain ⟨t, h3, h4⟩ := C129_fails 1 1 one_pos 1 1 1 1 1 0 0 0
  rw [h1] at h3
  cases h3
  rw [h2] at h4
  cases h4

/-- **C129**, what holds: once any matrix `B` accepted by the filter is given, for instance `getBmatrixZero`, the estimation succeeds, and its result is the textbook one. -/
theorem C129_partial (n m : ℕ) (A Q P : Matrix (Fin n) (Fin n) ℝ) (C : Matrix (Fin m) (Fin n) ℝ) (R : Matrix (Fin m) (Fin m) ℝ)
    (x : Fin n → ℝ) (y : Fin m → ℝ) (k : Int) (hP : P.PosSemidef) (hQ : Q.PosSemidef) (hR : R.PosDef) (s s1 : KFilter Ext) (B : DMat)
    (h : autonomous n m A Q P C R x y k = .ok s) (h1 : setB s B = .ok s1) :
    ∃ s', getEstimatedState s1 (k + 1) = .ok s' ∧
      s'.x = some (⟨n, A *ᵥ x + gain C R (A * P * Aᵀ + Q) *ᵥ (y - C *ᵥ (A *ᵥ x))⟩, k + 1) ∧
      s'.st.pr = ⟨n, n, posterior C R (A * P * Aᵀ + Q)⟩ := by
  rw [autonomous_eq] at h
  cases h
  have hB : ∃ B0 : Matrix (Fin n) (Fin 0) ℝ, B = ⟨n, 0, B0⟩ := by
    obtain ⟨r, c, B0⟩ := B
    simp only [setB, checkB, DMat.hasSize, LKF.mk, KF.mk] at h1
    by_cases hb : r = n ∧ c = 0
    · obtain ⟨rfl, rfl⟩ := hb
      exact ⟨B0, rfl⟩
    · simp [hb] at h1
  obtain ⟨B0, rfl⟩ := hB
  simp only [setB, checkB, LKF.mk, KF.mk, DMat.hasSize_mk, Res.assert_true, Res.ok_bind, Res.ok.injEq] at h1
  set d : LinModel n m 0 := ⟨A, B0, C, 0, Q, R⟩ with hd
  have hmodel : HasModel s1 d P := by
    subst h1
    refine ⟨rfl, rfl, rfl, ⟨rfl, rfl, rfl, rfl, rfl, rfl, rfl⟩, rfl, rfl, ?_⟩
    by_cases hm : m = 0
    · subst hm
      left
      simp only [hd, DMat.empty, DMat.mk.injEq, true_and, heq_eq_eq]
      try exact Subsingleton.elim _ _
    · right
      simp [checkD, DMat.hasSize, DMat.empty, hd, Ne.symm hm]
  have hx1 : s1.x = some (⟨n, x⟩, k) := by subst h1; rfl
  have hy1 : s1.y = ⟨k + 1, [⟨m, y⟩]⟩ := by subst h1; rfl
  have hp1 : ¬ (cfg s1).p > 0 := by subst h1; simp [cfg]
  have hstep := oneStep_eq hmodel ⟨hQ, hR⟩ hP x k hx1 ⟨0, 0, y⟩ (by rw [hy1]; simp [IArr.get, IArr.checkIndex]) (Or.inl rfl) (Or.inl rfl)
  have hk : k ≤ k + 1 := by omega
  simp only [getEstimatedState, KF.getEstimatedState, Obs.getEstimatedState, Obs.getCurrentTime, hx1, Res.ok_bind, hk, decide_true, Res.assert_true]
  rw [show (k + 1 - k).toNat = 1 by omega]
  simp only [Obs.loop, Obs.loopBody, hstep, Res.ok_bind, hy1, Obs.popIf, IArr.getFirstIndex, lt_irrefl, if_false, hp1]
  refine ⟨_, rfl, ?_, rfl⟩
  simp [linStep, predState, predMeas, hd, predCov]

/-- The hypotheses of `C129_partial` hold with the matrix made by the filter. -/
example : ∃ s s1, autonomous 2 1 1 1 1 (Matrix.of fun _ j => if j = 0 then 1 else 0) 1 ![1, 2] ![3] 7 = .ok s ∧ setB s (getBmatrixZero s) = .ok s1 ∧
    (1 : Matrix (Fin 2) (Fin 2) ℝ).PosSemidef ∧ (1 : Matrix (Fin 1) (Fin 1) ℝ).PosDef := by
  have h : ∀ s, Works (setB s (getBmatrixZero s)) := fun s => (C128_inputs s 0 (fun _ _ => 0)).1 _ (by simp)
  obtain ⟨s1, h1⟩ := h _
  exact ⟨_, s1, autonomous_eq .., h1, .one, .one⟩

end StateObs.LKF
