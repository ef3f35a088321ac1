import Verif.Kalman.Lemmas
import Verif.Kalman.SizeProps
/-!
# Properties C15, C16, C19 of every Kalman filter of the library

`V` is the derived class (its prediction functions); the hypothesis `KeepsFilter V` says that these store nothing but the
predictions. It holds for both derived classes (`lkf_keeps`, and `ekf_keeps` in `Verif/EKF`).
-/

namespace StateObs.KF
open StateObs Matrix KFSpec
variable {E : Type}

/-- Symmetric positive semidefinite. -/
def IsPSD (M : DMat) : Prop := ∃ (k : ℕ) (A : Matrix (Fin k) (Fin k) ℝ), M = ⟨k, k, A⟩ ∧ A.PosSemidef
/-- Symmetric positive definite. -/
def IsPD (M : DMat) : Prop := ∃ (k : ℕ) (A : Matrix (Fin k) (Fin k) ℝ), M = ⟨k, k, A⟩ ∧ A.PosDef

theorem isPSD_empty : IsPSD DMat.empty := ⟨0, 0, rfl, Matrix.PosSemidef.zero⟩
theorem isPD_empty : IsPD DMat.empty :=
  ⟨0, 0, rfl, .of_dotProduct_mulVec_pos (by ext i; exact i.elim0) fun x hx => absurd (Subsingleton.elim x 0) hx⟩

theorem isPSD_mk {k : ℕ} {A : Matrix (Fin k) (Fin k) ℝ} : IsPSD ⟨k, k, A⟩ ↔ A.PosSemidef := by
  constructor
  · rintro ⟨k', B, h, hB⟩
    cases h; exact hB
  · exact fun h => ⟨k, A, rfl, h⟩

theorem isPD_mk {k : ℕ} {A : Matrix (Fin k) (Fin k) ℝ} : IsPD ⟨k, k, A⟩ ↔ A.PosDef := by
  constructor
  · rintro ⟨k', B, h, hB⟩
    cases h; exact hB
  · exact fun h => ⟨k, A, rfl, h⟩

/-- What a successful step does to the filter, for any derived class. -/
theorem oneStep_ok {V : Virt E} (hV : KeepsFilter V) {s s' : KFilter E} (h : oneStep V s = .ok s') :
    ∃ (x : DVec) (k : Int) (st1 : KData E) (xb yb y xhat : DVec) (P : DMat) (inn : DVec) (K : DMat),
      s.x = some (x, k) ∧ s.y.get (k + 1) = .ok y ∧
      (st1.n = s.st.n ∧ st1.nt = s.st.nt ∧ st1.m = s.st.m ∧ st1.mt = s.st.mt ∧ st1.p = s.st.p ∧
        st1.a = s.st.a ∧ st1.c = s.st.c ∧ st1.q = s.st.q ∧ st1.r = s.st.r ∧ st1.pr = s.st.pr ∧
        st1.arith = s.st.arith) ∧
      (s.st.checkA s.st.a = true ∧ s.st.checkC s.st.c = true ∧ s.st.checkQ s.st.q = true ∧
        s.st.checkR s.st.r = true ∧ s.st.checkP s.st.pr = true) ∧
      val st1.xbar = .ok xb ∧ val st1.ybar = .ok yb ∧
      correct st1 xb yb y = .ok (xhat, P, inn, K) ∧
      s' = { s with x := some (xhat, k + 1), st := { st1 with pr := P, innovation := inn, kGain := K } } := by
  unfold oneStep at h
  cases hx : s.x with
  | none => simp [hx] at h
  | some q =>
    obtain ⟨x, k⟩ := q
    simp only [hx, Res.bind_eq_ok] at h
    obtain ⟨_, h0, _, h1, _, h2, _, h3, _, h4, _, h5, s1, h6, s2, h7, yb, h8, y, h9, xb, h10, ⟨xhat, P, inn, K⟩, h11,
      h12⟩ := h
    have ha : ∀ b : Bool, ∀ a, Res.assert b = .ok a → b = true := by
      intro b a hb; cases b <;> simp_all
    obtain ⟨xb', e1, rfl⟩ := hV.pred _ _ _ h6
    obtain ⟨yb', e2, rfl⟩ := hV.sens _ _ _ h7
    simp only at h8 h9 h10 h11
    refine ⟨x, k, _, xb, yb, y, xhat, P, inn, K, rfl, h9, ?_, ?_, h10, h8, h11, ?_⟩
    · simp
    · exact ⟨ha _ _ h1, ha _ _ h2, ha _ _ h3, ha _ _ h4, ha _ _ h5⟩
    · cases h12; rfl

theorem oneStep_keepsBuffers {V : Virt E} (hV : KeepsFilter V) : Obs.StepKeepsBuffers (oneStep V) := by
  intro s s' h
  obtain ⟨x, k, st1, xb, yb, y, xhat, P, inn, K, hx, -, -, -, -, -, -, rfl⟩ := oneStep_ok hV h
  exact ⟨rfl, rfl, x, k, xhat, hx, rfl⟩

/-- Covariance of a successful step in textbook form. -/
theorem oneStep_cov {V : Virt E} (hV : KeepsFilter V) {s s' : KFilter E} (h : oneStep V s = .ok s')
    {nt mt A Q P C R} (hm : HasMats s.st nt mt A Q P C R) (hQ : Q.PosSemidef) (hP : P.PosSemidef) (hR : R.PosDef) :
    s'.st.pr = ⟨nt, nt, posterior C R (predCov A Q P)⟩ ∧ s'.st.kGain = ⟨nt, mt, gain C R (predCov A Q P)⟩ := by
  obtain ⟨x, k, st1, xb, yb, y, xhat, P', inn, K, -, -, ⟨-, e1, -, e2, -, e3, e4, e5, e6, e7, -⟩, -, -, -, hc, rfl⟩ :=
    oneStep_ok hV h
  have hm1 : HasMats st1 nt mt A Q P C R :=
    ⟨e1 ▸ hm.hnt, e2 ▸ hm.hmt, e3 ▸ hm.a, e5 ▸ hm.q, e7 ▸ hm.pr, e4 ▸ hm.c, e6 ▸ hm.r⟩
  rw [correct_eq hm1 hQ hP hR] at hc
  simp only [Res.bind_eq_ok] at hc
  obtain ⟨_, -, _, -, _, -, hc⟩ := hc
  cases hc
  exact ⟨rfl, rfl⟩

/-! ## C15 -/

/-- **C15**, one step, any derived class: positive semidefinite `P`, `Q` and positive definite `R` give a positive
semidefinite `P` and leave the others. -/
theorem C15_step {V : Virt E} (hV : KeepsFilter V) {s s' : KFilter E} (h : oneStep V s = .ok s')
    (hP : IsPSD s.st.pr) (hQ : IsPSD s.st.q) (hR : IsPD s.st.r) :
    IsPSD s'.st.pr ∧ IsPSD s'.st.q ∧ IsPD s'.st.r := by
  obtain ⟨x, k, st1, xb, yb, y, xhat, P', inn, K, -, -, ⟨-, -, -, -, -, -, -, e5, e6, -, -⟩, ⟨h1, h2, h3, h4, h5⟩, -, -, -, hs⟩ :=
    oneStep_ok hV h
  obtain ⟨A, Q, P, C, R, hm⟩ := hasMats_of_checks _ h1 h2 h3 h4 h5
  have hP' : P.PosSemidef := by rw [hm.pr] at hP; exact isPSD_mk.1 hP
  have hQ' : Q.PosSemidef := by rw [hm.q] at hQ; exact isPSD_mk.1 hQ
  have hR' : R.PosDef := by rw [hm.r] at hR; exact isPD_mk.1 hR
  refine ⟨?_, ?_, ?_⟩
  · rw [(oneStep_cov hV h hm hQ' hP' hR').1]
    exact isPSD_mk.2 (posterior_psd hR' (predCov_psd hQ' hP'))
  · rw [hs]; simpa [e5] using hQ
  · rw [hs]; simpa [e6] using hR

/-- The calls of the public interface of `KalmanFilterBase`. `setExt` stands for any call that changes members of the derived class
(`setB`, `setD`, `setFunctor`, ...), `setArith` for `setStateArithmetics`, `predict` for
`updateStatePrediction`/`updateStateAndMeasurementPrediction`. -/
inductive KOp (E : Type) where
  | setA (M : DMat) | setC (M : DMat) | setQ (M : DMat) | setR (M : DMat) | setStateCovariance (M : DMat)
  | clearA | clearC | clearQ | clearR | clearStateCovariance
  | setState (x : DVec) (k : Int) | setCurrentState (x : DVec) | clearStates
  | setMeasurement (y : DVec) (k : Int) | pushMeasurement (y : DVec) | clearMeasurements
  | setInput (u : DVec) (k : Int) | pushInput (u : DVec) | clearInputs
  | setStateSize (n nt : ℕ) | setMeasureSize (m mt : ℕ) | setInputSize (p : ℕ)
  | reset
  | predict | predictMeasurement
  | setExt (f : E → E) | setArith (a : Arith)
  | getEstimatedState (k : Int)

/-- Perform a call. -/
noncomputable def kexec (V : Virt E) (s : KFilter E) : KOp E → Res (KFilter E)
  | .setA M => setA s M
  | .setC M => setC s M
  | .setQ M => setQ s M
  | .setR M => setR s M
  | .setStateCovariance M => setStateCovariance s M
  | .clearA => .ok (clearA s)
  | .clearC => .ok (clearC s)
  | .clearQ => .ok (clearQ s)
  | .clearR => .ok (clearR s)
  | .clearStateCovariance => .ok (clearStateCovariance s)
  | .setState x k => Obs.setState (cfg s) s x k
  | .setCurrentState x => Obs.setCurrentState (cfg s) s x
  | .clearStates => .ok (clearStates s)
  | .setMeasurement y k => Obs.setMeasurement (cfg s) s y k
  | .pushMeasurement y => Obs.pushMeasurement (cfg s) s y
  | .clearMeasurements => .ok (Obs.clearMeasurements s)
  | .setInput u k => Obs.setInput (cfg s) s u k
  | .pushInput u => Obs.pushInput (cfg s) s u
  | .clearInputs => .ok (Obs.clearInputs s)
  | .setStateSize n nt => .ok (setStateSize2 s n nt)
  | .setMeasureSize m mt => .ok (setMeasureSize2 s m mt)
  | .setInputSize p => .ok (setInputSize s p)
  | .reset => .ok (reset s)
  | .predict => do let k ← s.getCurrentTime; V.prediction s (k + 1)
  | .predictMeasurement => do let k ← s.getCurrentTime; let s ← V.prediction s (k + 1); V.predictSensor s (k + 1)
  | .setExt f => .ok { s with st := { s.st with ext := f s.st.ext } }
  | .setArith a => .ok { s with st := { s.st with arith := a } }
  | .getEstimatedState k => getEstimatedState V s k

/-- The covariances passed by the user are covariances. -/
def KOp.Admissible : KOp E → Prop
  | .setQ M => IsPSD M
  | .setR M => IsPD M
  | .setStateCovariance M => IsPSD M
  | _ => True

/-- The invariant. -/
def CovInv (s : KFilter E) : Prop := IsPSD s.st.pr ∧ IsPSD s.st.q ∧ IsPD s.st.r

theorem loop_inv (c : ObsCfg DVec DVec DVec) (oneStep : KFilter E → Res (KFilter E)) (I : KData E → Prop)
    (h : ∀ s s', oneStep s = .ok s' → I s.st → I s'.st) (K : Int) (n : ℕ) :
    ∀ s s' : KFilter E, Obs.loop c oneStep K n s = .ok s' → I s.st → I s'.st := by
  induction n with
  | zero => intro s s' h1 h2; cases h1; exact h2
  | succ n ih =>
    intro s s' h1 h2
    simp only [Obs.loop, Obs.loopBody, Res.bind_eq_ok] at h1
    obtain ⟨s2, ⟨s1, h3, y, -, h4⟩, h5⟩ := h1
    apply ih s2 s' h5
    have := h s s1 h3 h2
    split_ifs at h4
    · simp only [Res.bind_eq_ok] at h4
      obtain ⟨u, -, h4⟩ := h4
      cases h4; exact this
    · cases h4; exact this

theorem getEstimatedState_inv {V : Virt E} (I : KData E → Prop)
    (h : ∀ s s', oneStep V s = .ok s' → I s.st → I s'.st) (s s' : KFilter E) (K : Int)
    (he : getEstimatedState V s K = .ok s') (hI : I s.st) : I s'.st := by
  simp only [getEstimatedState, Obs.getEstimatedState, Res.bind_eq_ok] at he
  obtain ⟨k0, -, _, -, he⟩ := he
  exact loop_inv _ _ I h K _ s s' he hI

theorem obs_setState_st {s s' : KFilter E} {x k} (h : Obs.setState (cfg s) s x k = .ok s') : s'.st = s.st := by
  simp only [Obs.setState, Obs.getCurrentTime, Res.bind_eq_ok] at h
  obtain ⟨_, -, k', hk', h⟩ := h
  cases hk'
  rw [if_neg (by omega)] at h
  split_ifs at h <;> cases h <;> rfl

theorem obs_setCurrentState_st {s s' : KFilter E} {x} (h : Obs.setCurrentState (cfg s) s x = .ok s') : s'.st = s.st := by
  unfold Obs.setCurrentState at h
  cases hx : s.x with
  | none => simp [hx] at h
  | some q =>
    simp only [hx, Res.bind_eq_ok] at h
    obtain ⟨_, -, h⟩ := h
    cases h; rfl

theorem obs_setMeasurement_st {s s' : KFilter E} {y k} (h : Obs.setMeasurement (cfg s) s y k = .ok s') : s'.st = s.st := by
  simp only [Obs.setMeasurement, Res.bind_eq_ok] at h
  obtain ⟨_, -, h⟩ := h
  split_ifs at h <;> simp only [Res.bind_eq_ok] at h <;> obtain ⟨_, -, y', -, h⟩ := h <;> cases h <;> rfl

theorem obs_pushMeasurement_st {s s' : KFilter E} {y} (h : Obs.pushMeasurement (cfg s) s y = .ok s') : s'.st = s.st := by
  simp only [Obs.pushMeasurement, Res.bind_eq_ok] at h
  obtain ⟨_, -, h⟩ := h
  split_ifs at h
  · cases h; rfl
  · cases hx : s.x with
    | none => simp [hx] at h
    | some q =>
      simp only [hx, Res.bind_eq_ok] at h
      obtain ⟨y', -, h⟩ := h
      cases h; rfl

theorem obs_setInput_st {s s' : KFilter E} {u k} (h : Obs.setInput (cfg s) s u k = .ok s') : s'.st = s.st := by
  unfold Obs.setInput at h
  by_cases hp : (cfg s).p > 0
  · simp only [hp, if_true, Res.bind_eq_ok] at h
    obtain ⟨_, -, h⟩ := h
    split_ifs at h <;> simp only [Res.bind_eq_ok] at h <;> obtain ⟨_, -, y', -, h⟩ := h <;> cases h <;> rfl
  · simp only [hp, if_false] at h
    cases h; rfl

theorem obs_pushInput_st {s s' : KFilter E} {u} (h : Obs.pushInput (cfg s) s u = .ok s') : s'.st = s.st := by
  unfold Obs.pushInput at h
  by_cases hp : (cfg s).p > 0
  · simp only [hp, if_true, Res.bind_eq_ok] at h
    obtain ⟨_, -, h⟩ := h
    split_ifs at h
    · cases h; rfl
    · cases hx : s.x with
      | none => simp [hx] at h
      | some q =>
        simp only [hx, Res.bind_eq_ok] at h
        obtain ⟨y', -, h⟩ := h
        cases h; rfl
  · simp only [hp, if_false] at h
    cases h; rfl

theorem covInv_kexec {V : Virt E} (hV : KeepsFilter V) (s s' : KFilter E) (op : KOp E) (ha : op.Admissible)
    (hI : CovInv s) (h : kexec V s op = .ok s') : CovInv s' := by
  have key : ∀ s1 : KFilter E, s1.st = s.st → CovInv s1 := by
    intro s1 h1; unfold CovInv; rw [h1]; exact hI
  cases op <;> simp only [kexec] at h
  case setA M => simp only [setA, Res.bind_eq_ok] at h; obtain ⟨_, -, h⟩ := h; cases h; exact hI
  case setC M => simp only [setC, Res.bind_eq_ok] at h; obtain ⟨_, -, h⟩ := h; cases h; exact hI
  case setQ M => simp only [setQ, Res.bind_eq_ok] at h; obtain ⟨_, -, h⟩ := h; cases h; exact ⟨hI.1, ha, hI.2.2⟩
  case setR M => simp only [setR, Res.bind_eq_ok] at h; obtain ⟨_, -, h⟩ := h; cases h; exact ⟨hI.1, hI.2.1, ha⟩
  case setStateCovariance M =>
    simp only [setStateCovariance, Res.bind_eq_ok] at h; obtain ⟨_, -, h⟩ := h; cases h; exact ⟨ha, hI.2⟩
  case clearA => cases h; exact hI
  case clearC => cases h; exact hI
  case clearQ => cases h; exact ⟨hI.1, isPSD_empty, hI.2.2⟩
  case clearR => cases h; exact ⟨hI.1, hI.2.1, isPD_empty⟩
  case clearStateCovariance => cases h; exact ⟨isPSD_empty, hI.2⟩
  case setState x k => exact key _ (obs_setState_st h)
  case setCurrentState x => exact key _ (obs_setCurrentState_st h)
  case clearStates => cases h; exact ⟨isPSD_empty, hI.2⟩
  case setMeasurement y k => exact key _ (obs_setMeasurement_st h)
  case pushMeasurement y => exact key _ (obs_pushMeasurement_st h)
  case clearMeasurements => cases h; exact hI
  case setInput u k => exact key _ (obs_setInput_st h)
  case pushInput u => exact key _ (obs_pushInput_st h)
  case clearInputs => cases h; exact hI
  case setStateSize n nt =>
    cases h
    unfold setStateSize2
    split_ifs
    · exact ⟨isPSD_empty, isPSD_empty, hI.2.2⟩
    · exact ⟨isPSD_empty, isPSD_empty, hI.2.2⟩
    · exact hI
  case setMeasureSize m mt =>
    cases h
    by_cases h1 : m = s.st.m
    · subst h1
      by_cases h2 : mt = s.st.mt
      · subst h2; rw [C14_setMeasureSize_same]; exact hI
      · rw [C14_setTangentMeasureSize _ _ h2]; exact ⟨hI.1, hI.2.1, isPD_empty⟩
    · rw [C14_setMeasureSize _ _ _ h1]; exact ⟨hI.1, hI.2.1, isPD_empty⟩
  case setInputSize p =>
    cases h
    unfold setInputSize
    split_ifs <;> exact hI
  case reset => cases h; exact ⟨isPSD_empty, hI.2⟩
  case predict =>
    simp only [Res.bind_eq_ok] at h
    obtain ⟨k, -, h⟩ := h
    obtain ⟨xb, e, rfl⟩ := hV.pred _ _ _ h
    exact hI
  case predictMeasurement =>
    simp only [Res.bind_eq_ok] at h
    obtain ⟨k, -, s1, h, h2⟩ := h
    obtain ⟨xb, e, rfl⟩ := hV.pred _ _ _ h
    obtain ⟨xb, e, rfl⟩ := hV.sens _ _ _ h2
    exact hI
  case setExt f => cases h; exact hI
  case setArith a => cases h; exact hI
  case getEstimatedState k =>
    exact getEstimatedState_inv (fun st => IsPSD st.pr ∧ IsPSD st.q ∧ IsPD st.r)
      (fun s s' h hI => C15_step hV h hI.1 hI.2.1 hI.2.2) s s' k h hI

/-- **C15**. After any sequence of calls that fail no assertion, in which every process covariance and state covariance given is
positive semidefinite and every measurement covariance positive definite – with arbitrary matrices `A`, `C`, measurements,
inputs, changes of size, of arithmetic and of dynamics in between – the covariance returned by the filter is
symmetric positive semidefinite. -/
theorem C15_history {V : Virt E} (hV : KeepsFilter V) (n nt m mt p : ℕ) (e : E) (ops : List (KOp E))
    (ha : ∀ op ∈ ops, op.Admissible) (s : KFilter E) (h : ops.foldlM (kexec V) (mk n nt m mt p e) = .ok s) :
    IsPSD s.st.pr := by
  have : ∀ (ops : List (KOp E)) (s0 s : KFilter E), (∀ op ∈ ops, op.Admissible) → CovInv s0 →
      ops.foldlM (kexec V) s0 = .ok s → CovInv s := by
    intro ops
    induction ops with
    | nil => intro s0 s _ h0 h; cases h; exact h0
    | cons o os ih =>
      intro s0 s ha h0 h
      rw [List.foldlM_cons, Res.bind_eq_ok] at h
      obtain ⟨s1, h1, h2⟩ := h
      exact ih s1 s (fun op hop => ha op (by simp [hop])) (covInv_kexec hV s0 s1 o (ha o (by simp)) h0 h1) h2
  exact (this ops _ s ha ⟨isPSD_empty, isPSD_empty, isPD_empty⟩ h).1

/-- **C15**, innovation covariance: in every such history, whenever the matrices are set (so that a step can be performed), the
innovation covariance of the step is symmetric positive definite and the factorisation used by the code succeeds, giving a lower
triangular factor. -/
theorem C15_innovation {V : Virt E} (hV : KeepsFilter V) (n nt m mt p : ℕ) (e : E) (ops : List (KOp E))
    (ha : ∀ op ∈ ops, op.Admissible) (s : KFilter E) (h : ops.foldlM (kexec V) (mk n nt m mt p e) = .ok s)
    {A Q P C R} (hm : HasMats s.st s.st.nt s.st.mt A Q P C R) :
    (C * (A * P * Aᵀ + Q) * Cᵀ + R).PosDef ∧
      ∃ L, chol s.st.mt (C * (A * P * Aᵀ + Q) * Cᵀ + R) = some L ∧ L * Lᵀ = C * (A * P * Aᵀ + Q) * Cᵀ + R ∧
        ∀ i j, i < j → L i j = 0 := by
  have : ∀ (ops : List (KOp E)) (s0 s : KFilter E), (∀ op ∈ ops, op.Admissible) → CovInv s0 →
      ops.foldlM (kexec V) s0 = .ok s → CovInv s := by
    intro ops
    induction ops with
    | nil => intro s0 s _ h0 h; cases h; exact h0
    | cons o os ih =>
      intro s0 s ha h0 h
      rw [List.foldlM_cons, Res.bind_eq_ok] at h
      obtain ⟨s1, h1, h2⟩ := h
      exact ih s1 s (fun op hop => ha op (by simp [hop])) (covInv_kexec hV s0 s1 o (ha o (by simp)) h0 h1) h2
  obtain ⟨hP, hQ, hR⟩ := this ops _ s ha ⟨isPSD_empty, isPSD_empty, isPD_empty⟩ h
  rw [hm.pr, isPSD_mk] at hP
  rw [hm.q, isPSD_mk] at hQ
  rw [hm.r, isPD_mk] at hR
  have hS : (innovCov C R (predCov A Q P)).PosDef := innovCov_pd hR (predCov_psd hQ hP)
  refine ⟨hS, ?_⟩
  obtain ⟨L, h1, h2, -, h3⟩ := chol_spec _ _ hS
  exact ⟨L, h1, h2, h3⟩

/-! ## C16 -/

/-- **C16**. A step with covariances `P`, `Q` positive semidefinite and `R` positive definite stores as covariance the Joseph form
for the gain it reports; this is below the predicted covariance `A P Aᵀ + Q`, and below the Joseph form
`(1-GC) M (1-GC)ᵀ + G R Gᵀ` of every other gain `G`. -/
theorem C16_minimum_variance {V : Virt E} (hV : KeepsFilter V) {s s' : KFilter E} (h : oneStep V s = .ok s')
    {nt mt A Q P C R} (hm : HasMats s.st nt mt A Q P C R) (hQ : Q.PosSemidef) (hP : P.PosSemidef) (hR : R.PosDef) :
    ∃ P' K, s'.st.pr = ⟨nt, nt, P'⟩ ∧ s'.st.kGain = ⟨nt, mt, K⟩ ∧
      P' = joseph K C R (A * P * Aᵀ + Q) ∧
      Loewner P' (A * P * Aᵀ + Q) ∧
      ∀ G : Matrix (Fin nt) (Fin mt) ℝ, Loewner P' (joseph G C R (A * P * Aᵀ + Q)) := by
  obtain ⟨h1, h2⟩ := oneStep_cov hV h hm hQ hP hR
  have hM := predCov_psd (A := A) hQ hP
  exact ⟨_, _, h1, h2, (joseph_gain hR hM).symm, posterior_le_pred hR hM, posterior_le_joseph hR hM⟩

/-! ## C19 -/

/-- **C19**. If the measurement is the predicted one, the new state is the predicted state – for any matrices (no
definiteness needed) and any arithmetic in which this measurement differs from itself by the zero vector and adding the
zero tangent vector to the predicted state changes nothing. -/
theorem C19_zero_innovation {V : Virt E} (hV : KeepsFilter V) {s s' : KFilter E} (h : oneStep V s = .ok s') (x : DVec) (k : Int)
    (hx : s.x = some (x, k)) (y : DVec) (hy : s.y.get (k + 1) = .ok y) (t : Int) (hyb : s'.st.ybar = some (y, t))
    (hd : s.st.arith.measurementDifference y y = .ok (DVec.zero s.st.mt))
    (hs : ∀ z t', s'.st.xbar = some (z, t') → s.st.arith.stateSum z (DVec.zero s.st.nt) = .ok z) :
    ∃ xb t', s'.st.xbar = some (xb, t') ∧ s'.x = some (xb, k + 1) := by
  obtain ⟨x', k', st1, xb, yb, y', xhat, P', inn, K, hx', hy', ⟨-, e1, -, e2, -, e3, e4, e5, e6, e7, e8⟩, ⟨h1, h2, h3, h4, h5⟩,
    hxb, hyb', hc, rfl⟩ := oneStep_ok hV h
  rw [hx] at hx'; cases hx'
  rw [hy] at hy'; cases hy'
  simp only at hyb
  rw [hyb] at hyb'
  cases hyb'
  obtain ⟨A, Q, P, C, R, hm⟩ := hasMats_of_checks _ h1 h2 h3 h4 h5
  simp only [correct, e3, e4, e5, e6, e7, e8, hm.a, hm.q, hm.pr, hm.c, hm.r, DMat.transpose_mk, DMat.mul_mk, DMat.add_mk,
    Res.ok_bind, hd, lltInv_mk, Res.bind_assoc] at hc
  rw [Res.bind_eq_ok] at hc
  obtain ⟨Si, -, hc⟩ := hc
  simp only [Res.ok_bind, DVec.zero, DMat.mulVec_mk, Matrix.mulVec_zero] at hc
  cases hb : st1.xbar with
  | none => rw [hb] at hxb; simp [val] at hxb
  | some q =>
    rw [hb] at hxb
    cases hxb
    have hs' : s.st.arith.stateSum q.1 ⟨s.st.nt, 0⟩ = .ok q.1 := hs q.1 q.2 hb
    rw [hs'] at hc
    simp only [DMat.neg_mk, DMat.mul_mk, Res.ok_bind, DMat.addDiagOne_mk, DMat.transpose_mk, DMat.add_mk, DMat.smul_mk] at hc
    have hxh : q.1 = xhat := by
      have := Res.ok.inj hc
      exact (Prod.mk.inj this).1
    subst hxh
    exact ⟨q.1, q.2, rfl, rfl⟩

/-- **C19** with the default arithmetic, without any other hypothesis. -/
theorem C19_default {V : Virt E} (hV : KeepsFilter V) {s s' : KFilter E} (h : oneStep V s = .ok s') (x : DVec) (k : Int)
    (hx : s.x = some (x, k)) (y : DVec) (hy : s.y.get (k + 1) = .ok y) (t : Int) (hyb : s'.st.ybar = some (y, t))
    (ha : s.st.arith = Arith.default) : ∃ xb t', s'.st.xbar = some (xb, t') ∧ s'.x = some (xb, k + 1) := by
  have hk := h
  obtain ⟨x', k', st1, xb, yb, y', xhat, P', inn, K, hx', hy', ⟨-, e1, -, e2, -, e3, e4, e5, e6, e7, e8⟩, ⟨h1, h2, h3, h4, h5⟩,
    hxb, hyb', hc, rfl⟩ := oneStep_ok hV h
  rw [hx] at hx'; cases hx'
  rw [hy] at hy'; cases hy'
  simp only at hyb
  rw [hyb] at hyb'
  cases hyb'
  obtain ⟨A, Q, P, C, R, hm⟩ := hasMats_of_checks _ h1 h2 h3 h4 h5
  obtain ⟨my, y⟩ := y
  simp only [correct, e3, e4, e5, e6, e7, e8, hm.a, hm.q, hm.pr, hm.c, hm.r, DMat.transpose_mk, DMat.mul_mk, DMat.add_mk,
    Res.ok_bind, ha, Arith.default, DVec.sub_mk, lltInv_mk, Res.bind_assoc] at hc
  rw [Res.bind_eq_ok] at hc
  obtain ⟨Si, -, hc⟩ := hc
  rw [Res.bind_eq_ok] at hc
  obtain ⟨inn', hi, hc⟩ := hc
  have hmy : my = s.st.mt := by
    simp only [DMat.mulVec] at hi
    split_ifs at hi with hh
    exact hh.symm
  subst hmy
  rw [Res.bind_eq_ok] at hc
  obtain ⟨xh, hx2, hc⟩ := hc
  rw [DMat.mulVec_mk] at hi
  cases hi
  have hxs : xb.size = s.st.nt := by
    simp only [DVec.add] at hx2
    split_ifs at hx2 with hh
    exact hh
  refine C19_zero_innovation hV hk x k hx _ hy t hyb ?_ ?_
  · simp [ha, Arith.default, DVec.zero]
  · intro z t' hz
    simp only at hz
    rw [hz] at hxb
    cases hxb
    obtain ⟨nz, xb⟩ := xb
    obtain rfl : nz = s.st.nt := hxs
    simp [ha, Arith.default, DVec.zero]

end StateObs.KF
