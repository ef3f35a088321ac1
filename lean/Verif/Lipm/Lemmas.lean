import Verif.Lipm.Model
/-!
# The LIPM estimator with its filter replaced by the textbook filter

`View` is the estimator with the filter replaced by its mathematical content; every method of the estimator does the same to the two.
-/

namespace StateObs.Lipm
open StateObs Matrix KF KFSpec Blocks

/-- The estimator, its filter reduced to estimate, covariance, time and waiting data. -/
structure View where
  omega0 : ℝ
  dt : ℝ
  biasDriftStd : ℝ
  zmpErrorStd : ℝ
  previousZmp : Fin 2 → ℝ
  biasLimit : Fin 2 → ℝ
  A : Matrix (Fin (2 + 2)) (Fin (2 + 2)) ℝ
  B : Matrix (Fin (2 + 2)) (Fin 2) ℝ
  C : Matrix (Fin 2) (Fin (2 + 2)) ℝ
  R : Matrix (Fin 2) (Fin 2) ℝ
  Q : Matrix (Fin (2 + 2)) (Fin (2 + 2)) ℝ
  previousOrientation : Matrix (Fin 2) (Fin 2) ℝ
  x : Fin (2 + 2) → ℝ
  P : Matrix (Fin (2 + 2)) (Fin (2 + 2)) ℝ
  k : Int
  old : ℕ
  pend : List ((Fin 2 → ℝ) × (Fin 2 → ℝ))

namespace View

/-- The linear model of the filter. -/
def model (v : View) : LinModel (2 + 2) 2 2 := ⟨v.A, v.B, v.C, 0, v.Q, v.R⟩

def updateMatrices (v : View) : View :=
  { v with
    A := blk (dblToDiag (1 + v.omega0 * v.dt)) (tr v.A) (bl v.A) (br v.A)
    B := colBlk (dblToDiag (-v.omega0 * v.dt)) 0
    Q := blk (dblToSqDiag (v.omega0 * v.dt * v.zmpErrorStd)) 0 0 (dblToSqDiag (v.biasDriftStd * v.dt)) }

def reset (v : View) (dcm zmp : Fin 2 → ℝ) (yaw : Matrix (Fin 2) (Fin 2) ℝ) (w : Bool) (b bu : Fin 2 → ℝ) : View :=
  { v with
    previousZmp := zmp
    previousOrientation := yaw
    x := if w then vcat (dcm - b) b else vcat dcm b
    P := if w then blk (vecToSqDiag bu + v.R) (-vecToSqDiag bu) (-vecToSqDiag bu) (vecToSqDiag bu) else blk v.R 0 0 (vecToSqDiag bu)
    k := 0
    old := 0
    pend := [] }

/-- `estimateState`. -/
noncomputable def estimate (v : View) : View :=
  { v with
    x := (LKF.consume v.model (v.x, v.P) v.pend).1
    P := (LKF.consume v.model (v.x, v.P) v.pend).2
    k := v.k + v.pend.length
    old := if v.pend = [] then v.old else 1
    pend := [] }

/-- The clamping in `update`, both limits being positive. -/
noncomputable def clamp (v : View) : View :=
  let l := v.previousOrientationᵀ *ᵥ tail v.x
  let c := fun i => clampScalar (l i) (v.biasLimit i)
  { v with x := vcat (head v.x + l - c) (v.previousOrientation *ᵥ c) }

open Classical in
noncomputable def update (v : View) : Res View :=
  if v.biasLimit 0 > 0 ∨ v.biasLimit 1 > 0 then
    if v.biasLimit 0 > 0 ∧ v.biasLimit 1 > 0 then .ok v.estimate.clamp else .ub
  else .ok v.estimate

def push (v : View) (dcm zmp : Fin 2 → ℝ) (R : Matrix (Fin 2) (Fin 2) ℝ) : View :=
  { v with
    previousZmp := zmp
    pend := v.pend ++ [(v.previousZmp, dcm)]
    A := blk (tl v.A) (tr v.A) (bl v.A) (R * v.previousOrientationᵀ)
    previousOrientation := R }

noncomputable def exec (v : View) : Op → Res View
  | .resetWithMeasurements dcm zmp yaw w b bu => .ok (v.reset dcm zmp yaw w b bu)
  | .setLipmNaturalFrequency w => .ok (updateMatrices { v with omega0 := w })
  | .setSamplingTime dt => .ok (updateMatrices { v with dt := dt })
  | .setZmpMeasureErrorStd a => .ok (updateMatrices { v with zmpErrorStd := a })
  | .setDcmMeasureErrorStd _ => .ok v
  | .setBiasDriftPerSecond a => .ok { v with Q := blk (tl v.Q) (tr v.Q) (bl v.Q) (dblToSqDiag a) }
  | .setBiasLimit l => .ok { v with biasLimit := l }
  | .setBias b => .ok { v with x := vcat (head v.x) b }
  | .setBias2 b u => .ok { v with x := vcat (head v.x) b, P := blk (tl v.P) 0 0 (vecToSqDiag u) }
  | .setUnbiasedDCM b => .ok { v with x := vcat b (tail v.x) }
  | .setUnbiasedDCM2 b u => .ok { v with x := vcat b (tail v.x), P := blk (vecToSqDiag u) 0 0 (br v.P) }
  | .update => v.update
  | .setInputs dcm zmp R => do
    let v ← (if v.old + v.pend.length > 1 then v.update else .ok v)
    .ok (v.push dcm zmp R)

/-- The covariances are covariances, and the process noise has no correlation between DCM and bias. -/
structure Good (v : View) : Prop where
  P : v.P.PosSemidef
  q : ∃ a b, v.Q = blk (dblToSqDiag a) 0 0 (dblToSqDiag b)
  R : v.R.PosDef

theorem dblToSqDiag_psd (a : ℝ) : (dblToSqDiag a).PosSemidef := diag_sq_psd fun _ => a
theorem vecToSqDiag_psd (v : Fin 2 → ℝ) : (vecToSqDiag v).PosSemidef := diag_sq_psd v

theorem Good.ok {v : View} (h : v.Good) : v.model.Ok := by
  obtain ⟨a, b, hq⟩ := h.q
  refine ⟨?_, h.R⟩
  show v.Q.PosSemidef
  rw [hq]
  exact blk_diag_psd (dblToSqDiag_psd a) (dblToSqDiag_psd b)

theorem consume_psd {n m p : ℕ} {d : LinModel n m p} (hd : d.Ok) : ∀ (pend) (z : (Fin n → ℝ) × Matrix (Fin n) (Fin n) ℝ), z.2.PosSemidef →
    (LKF.consume d z pend).2.PosSemidef
  | [], _, h => h
  | _ :: pend, z, h => consume_psd hd pend _ (LKF.linStep_psd d hd _ z.1 h)

theorem Good.estimate {v : View} (h : v.Good) : v.estimate.Good := ⟨consume_psd h.ok _ _ h.P, h.q, h.R⟩

theorem Good.update {v v' : View} (h : v.Good) (hu : v.update = .ok v') : v'.Good := by
  unfold View.update at hu
  split_ifs at hu <;> cases hu
  · exact ⟨h.estimate.P, h.q, h.R⟩
  · exact h.estimate

theorem Good.exec {v v' : View} (h : v.Good) (o : Op) (he : v.exec o = .ok v') : v'.Good := by
  cases o
  case resetWithMeasurements dcm zmp yaw w b bu =>
    cases he
    refine ⟨?_, h.q, h.R⟩
    show (if w then _ else _ : Matrix _ _ ℝ).PosSemidef
    split_ifs
    · exact blk_corr_psd (vecToSqDiag_psd bu) h.R.posSemidef
    · exact blk_diag_psd h.R.posSemidef (vecToSqDiag_psd bu)
  case setLipmNaturalFrequency w => cases he; exact ⟨h.P, ⟨_, _, rfl⟩, h.R⟩
  case setSamplingTime w => cases he; exact ⟨h.P, ⟨_, _, rfl⟩, h.R⟩
  case setZmpMeasureErrorStd w => cases he; exact ⟨h.P, ⟨_, _, rfl⟩, h.R⟩
  case setDcmMeasureErrorStd w => cases he; exact h
  case setBiasDriftPerSecond a =>
    cases he
    obtain ⟨a', b', hq⟩ := h.q
    refine ⟨h.P, ⟨a', a, ?_⟩, h.R⟩
    show blk (tl v.Q) (tr v.Q) (bl v.Q) _ = _
    rw [hq]; simp
  case setBiasLimit l => cases he; exact ⟨h.P, h.q, h.R⟩
  case setBias b => cases he; exact ⟨h.P, h.q, h.R⟩
  case setUnbiasedDCM b => cases he; exact ⟨h.P, h.q, h.R⟩
  case setBias2 b u => cases he; exact ⟨blk_diag_psd (tl_psd h.P) (vecToSqDiag_psd u), h.q, h.R⟩
  case setUnbiasedDCM2 b u => cases he; exact ⟨blk_diag_psd (vecToSqDiag_psd u) (br_psd h.P), h.q, h.R⟩
  case update => exact h.update he
  case setInputs dcm zmp R =>
    simp only [View.exec, Res.bind_eq_ok] at he
    obtain ⟨v1, h1, h2⟩ := he
    have hg : v1.Good := by
      split_ifs at h1
      · exact h.update h1
      · cases h1; exact h
    cases h2
    exact ⟨hg.P, hg.q, hg.R⟩

end View

/-- `s` is the estimator `v`. -/
structure Rep (s : Est) (v : View) : Prop where
  omega0 : s.omega0 = v.omega0
  dt : s.dt = v.dt
  biasDriftStd : s.biasDriftStd = v.biasDriftStd
  zmpErrorStd : s.zmpErrorStd = v.zmpErrorStd
  previousZmp : s.previousZmp = v.previousZmp
  biasLimit : s.biasLimit = v.biasLimit
  A : s.A = v.A
  B : s.B = v.B
  C : s.C = v.C
  R : s.R = v.R
  Q : s.Q = v.Q
  ori : s.previousOrientation = v.previousOrientation
  fed : LKF.Fed s.filter v.model v.x v.P v.k v.old v.pend

theorem Rep.updateMatrices {s : Est} {v : View} (h : Rep s v) : ∃ s', updateMatricesABQ s = .ok s' ∧ Rep s' v.updateMatrices := by
  have hm := h.fed.model
  have hm2 := hm.mats
  obtain ⟨e1, e2, e3, e4, e5, e6, e7, e8, e9, e10, e11, e12, e13⟩ := h
  refine ⟨{ s with
    A := v.updateMatrices.A
    B := v.updateMatrices.B
    Q := v.updateMatrices.Q
    filter := { s.filter with st := { s.filter.st with
      a := ⟨4, 4, v.updateMatrices.A⟩
      q := ⟨4, 4, v.updateMatrices.Q⟩
      ext := { s.filter.st.ext with b := ⟨4, 2, v.updateMatrices.B⟩ } } } }, ?_, ?_⟩
  · have hn : s.filter.st.n = 4 := hm.hn
    have hnt : s.filter.st.nt = 4 := hm2.hnt
    have hp : s.filter.st.p = 2 := hm.hp
    simp only [updateMatricesABQ, setA, LKF.setB, setQ, KData.checkA, KData.checkQ, LKF.checkB, hn, hnt, hp, DMat.hasSize_mk,
      Res.assert_true, Res.ok_bind, View.updateMatrices, e1, e2, e3, e4, e7]
  · refine ⟨e1, e2, e3, e4, e5, e6, rfl, rfl, e9, e10, rfl, e12, ?_⟩
    exact ⟨⟨hm.hn, hm.hm, hm.hp, ⟨hm2.hnt, hm2.hmt, rfl, rfl, hm2.pr, hm2.c, hm2.r⟩, hm.ar, rfl, hm.d⟩, e13.x, e13.uv, e13.uk, e13.hold, e13.y, e13.yk⟩

theorem Rep.curState {s : Est} {v : View} (h : Rep s v) : curState s = .ok v.x := by
  simp only [Lipm.curState, h.fed.x, val, Res.ok_bind]
  exact asVec_mk v.x

theorem Rep.getUnbiasedDCM {s : Est} {v : View} (h : Rep s v) : getUnbiasedDCM s = .ok (head v.x) := by
  rw [Lipm.getUnbiasedDCM, h.curState]; rfl

theorem Rep.getBias {s : Est} {v : View} (h : Rep s v) : getBias s = .ok (tail v.x) := by
  rw [Lipm.getBias, h.curState]; rfl

theorem Rep.getLocalBias {s : Est} {v : View} (h : Rep s v) : getLocalBias s = .ok (v.previousOrientationᵀ *ᵥ tail v.x) := by
  rw [Lipm.getLocalBias, h.getBias, h.ori]; rfl

theorem Rep.setX {s : Est} {v : View} (h : Rep s v) (x' : Fin (2 + 2) → ℝ) :
    Obs.setCurrentState (cfg s.filter) s.filter ⟨4, x'⟩ = .ok { s.filter with x := some (⟨4, x'⟩, v.k) } ∧
    Rep { s with filter := { s.filter with x := some (⟨4, x'⟩, v.k) } } { v with x := x' } := by
  have hm := h.fed.model
  obtain ⟨e1, e2, e3, e4, e5, e6, e7, e8, e9, e10, e11, e12, e13⟩ := h
  constructor
  · have : (cfg s.filter).okX ⟨4, x'⟩ = true := by simp [cfg, hm.hn]
    simp [Obs.setCurrentState, e13.x, this]
  · exact ⟨e1, e2, e3, e4, e5, e6, e7, e8, e9, e10, e11, e12, ⟨hm.hn, hm.hm, hm.hp, hm.mats, hm.ar, hm.b, hm.d⟩, rfl, e13.uv, e13.uk, e13.hold, e13.y, e13.yk⟩

theorem Rep.setP {s : Est} {v : View} (h : Rep s v) (P' : Matrix (Fin (2 + 2)) (Fin (2 + 2)) ℝ) :
    setStateCovariance s.filter ⟨4, 4, P'⟩ = .ok { s.filter with st := { s.filter.st with pr := ⟨4, 4, P'⟩ } } ∧
    Rep { s with filter := { s.filter with st := { s.filter.st with pr := ⟨4, 4, P'⟩ } } } { v with P := P' } := by
  have hm := h.fed.model
  have hm2 := hm.mats
  obtain ⟨e1, e2, e3, e4, e5, e6, e7, e8, e9, e10, e11, e12, e13⟩ := h
  constructor
  · have : s.filter.st.nt = 4 := hm2.hnt
    simp [setStateCovariance, KData.checkP, this]
  · exact ⟨e1, e2, e3, e4, e5, e6, e7, e8, e9, e10, e11, e12, ⟨hm.hn, hm.hm, hm.hp, ⟨hm2.hnt, hm2.hmt, hm2.a, hm2.q, rfl, hm2.c, hm2.r⟩, hm.ar, hm.b, hm.d⟩,
      e13.x, e13.uv, e13.uk, e13.hold, e13.y, e13.yk⟩

theorem Rep.setBias {s : Est} {v : View} (h : Rep s v) (b : Fin 2 → ℝ) :
    ∃ s', setBias s b = .ok s' ∧ Rep s' { v with x := vcat (head v.x) b } := by
  obtain ⟨h1, h2⟩ := h.setX (vcat (head v.x) b)
  refine ⟨_, ?_, h2⟩
  rw [Lipm.setBias, h.curState]
  simp only [Res.ok_bind]
  rw [h1]; rfl

theorem Rep.setUnbiasedDCM {s : Est} {v : View} (h : Rep s v) (b : Fin 2 → ℝ) :
    ∃ s', setUnbiasedDCM s b = .ok s' ∧ Rep s' { v with x := vcat b (tail v.x) } := by
  obtain ⟨h1, h2⟩ := h.setX (vcat b (tail v.x))
  refine ⟨_, ?_, h2⟩
  rw [Lipm.setUnbiasedDCM, h.curState]
  simp only [Res.ok_bind]
  rw [h1]; rfl

theorem Rep.getP {s : Est} {v : View} (h : Rep s v) : asMat 4 4 s.filter.st.pr = .ok v.P := by
  have : s.filter.st.pr = ⟨4, 4, v.P⟩ := h.fed.model.mats.pr
  rw [this]; exact asMat_mk v.P

theorem Rep.reset {s : Est} {v : View} (h : Rep s v) (dcm zmp : Fin 2 → ℝ) (yaw : Matrix (Fin 2) (Fin 2) ℝ) (w : Bool) (b bu : Fin 2 → ℝ) :
    ∃ s', resetWithMeasurements s dcm zmp yaw w b bu = .ok s' ∧ Rep s' (v.reset dcm zmp yaw w b bu) := by
  have hm := h.fed.model
  have hm2 := hm.mats
  obtain ⟨e1, e2, e3, e4, e5, e6, e7, e8, e9, e10, e11, e12, e13⟩ := h
  have hn : s.filter.st.n = 4 := hm.hn
  have hnt : s.filter.st.nt = 4 := hm2.hnt
  have hp : s.filter.st.p = 2 := hm.hp
  refine ⟨{ s with
    previousZmp := zmp
    previousOrientation := yaw
    filter := { s.filter with
      x := some (⟨4, (v.reset dcm zmp yaw w b bu).x⟩, 0)
      y := IArr.empty
      u := IArr.empty
      st := { s.filter.st with pr := ⟨4, 4, (v.reset dcm zmp yaw w b bu).P⟩ } } }, ?_, ?_⟩
  · have hok : ∀ x : Fin (2 + 2) → ℝ, (cfg (KF.reset s.filter)).okX ⟨4, x⟩ = true := by
      intro x
      simp [cfg, KF.reset, KF.clearStateCovariance, KF.clearStates, Obs.clearInputs, Obs.clearMeasurements, Obs.clearStates, hn]
    have hp' : (cfg (KF.reset s.filter)).p > 0 := by
      simp [cfg, KF.reset, KF.clearStateCovariance, KF.clearStates, Obs.clearInputs, Obs.clearMeasurements, Obs.clearStates, hp]
    have hset : ∀ x : Fin (2 + 2) → ℝ, Obs.setState (cfg (KF.reset s.filter)) (KF.reset s.filter) ⟨4, x⟩ 0 = .ok { KF.reset s.filter with x := some (⟨4, x⟩, 0) } := by
      intro x
      simp only [Obs.setState, hok x, Res.assert_true, Res.ok_bind, Obs.getCurrentTime, lt_irrefl, if_false, hp', if_true]
      rfl
    simp only [resetWithMeasurements, hset, Res.ok_bind, setStateCovariance, KData.checkP]
    simp only [KF.reset, KF.clearStateCovariance, KF.clearStates, Obs.clearInputs, Obs.clearMeasurements, Obs.clearStates, hnt,
      DMat.hasSize_mk, Res.assert_true, Res.ok_bind, View.reset, e10]
    rfl
  · refine ⟨e1, e2, e3, e4, rfl, e6, e7, e8, e9, e10, e11, rfl, ?_⟩
    exact ⟨⟨hm.hn, hm.hm, hm.hp, ⟨hm2.hnt, hm2.hmt, hm2.a, hm2.q, rfl, hm2.c, hm2.r⟩, hm.ar, hm.b, hm.d⟩, rfl, rfl, fun h => absurd rfl h,
      Nat.zero_le _, ⟨[], rfl, rfl⟩, fun h => absurd rfl h⟩

theorem Rep.estimate {s : Est} {v : View} (h : Rep s v) (hg : v.Good) :
    ∃ f t, Obs.estimateState (cfg s.filter) (oneStep LKF.virt) s.filter = .ok (f, t) ∧ Rep { s with filter := f } v.estimate := by
  obtain ⟨f, h1, h2, h3⟩ := h.fed.estimate (by norm_num) hg.ok rfl hg.P
  refine ⟨f, _, h1, ?_⟩
  obtain ⟨e1, e2, e3, e4, e5, e6, e7, e8, e9, e10, e11, e12, e13⟩ := h
  exact ⟨e1, e2, e3, e4, e5, e6, e7, e8, e9, e10, e11, e12, h2⟩

theorem Rep.update {s : Est} {v : View} (h : Rep s v) (hg : v.Good) :
    (∃ s' v', Lipm.update s = .ok s' ∧ v.update = .ok v' ∧ Rep s' v') ∨ (Lipm.update s = .ub ∧ v.update = .ub) := by
  obtain ⟨f, t, h1, h2⟩ := h.estimate hg
  unfold Lipm.update View.update
  rw [h1, ← h.biasLimit]
  simp only [Res.ok_bind]
  by_cases c1 : s.biasLimit 0 > 0 ∨ s.biasLimit 1 > 0
  · rw [if_pos c1, if_pos c1, h2.getLocalBias]
    simp only [Res.ok_bind]
    by_cases c2 : s.biasLimit 0 > 0 ∧ s.biasLimit 1 > 0
    · left
      rw [if_pos c2, if_pos c2]
      simp only [Res.ok_bind]
      set l := v.estimate.previousOrientationᵀ *ᵥ tail v.estimate.x with hl
      set c : Fin 2 → ℝ := fun i => clampScalar (l i) (s.biasLimit i) with hc
      obtain ⟨s1, h3, h4⟩ := h2.setBias (s.previousOrientation *ᵥ c)
      rw [h3]
      simp only [Res.ok_bind]
      rw [h4.getUnbiasedDCM]
      simp only [Res.ok_bind]
      obtain ⟨s2, h5, h6⟩ := h4.setUnbiasedDCM (head (vcat (head v.estimate.x) (s.previousOrientation *ᵥ c)) + l - c)
      refine ⟨s2, _, h5, rfl, ?_⟩
      have e : v.estimate.clamp = { v.estimate with
          x := vcat (head (vcat (head v.estimate.x) (s.previousOrientation *ᵥ c)) + l - c)
            (tail (vcat (head v.estimate.x) (s.previousOrientation *ᵥ c))) } := by
        rw [head_vcat, tail_vcat, h.ori, hc, h.biasLimit]
        rfl
      rw [e]
      exact h6
    · right
      rw [if_neg c2, if_neg c2]
      exact ⟨rfl, rfl⟩
  · left
    rw [if_neg c1, if_neg c1]
    exact ⟨_, _, rfl, rfl, h2⟩

theorem Rep.push {s : Est} {v : View} (h : Rep s v) (dcm zmp : Fin 2 → ℝ) (R : Matrix (Fin 2) (Fin 2) ℝ) :
    ∃ f, (do
        let f ← Obs.pushMeasurement (cfg s.filter) s.filter ⟨2, dcm⟩
        Obs.pushInput (cfg f) f ⟨2, s.previousZmp⟩) = .ok f ∧
      ∃ f', setA f ⟨4, 4, blk (tl s.A) (tr s.A) (bl s.A) (R * s.previousOrientationᵀ)⟩ = .ok f' ∧
      Rep { s with
        previousZmp := zmp
        A := blk (tl s.A) (tr s.A) (bl s.A) (R * s.previousOrientationᵀ)
        previousOrientation := R
        filter := f' } (v.push dcm zmp R) := by
  obtain ⟨f, h1, h2, h3⟩ := h.fed.push (by norm_num) v.previousZmp dcm
  have hm := h2.model
  have hm2 := hm.mats
  refine ⟨f, by rw [h.previousZmp]; exact h1, { f with st := { f.st with a := ⟨4, 4, (v.push dcm zmp R).A⟩ } }, ?_, ?_⟩
  · have : f.st.nt = 4 := hm2.hnt
    simp [setA, KData.checkA, this, h.A, h.ori, View.push]
  · obtain ⟨e1, e2, e3, e4, e5, e6, e7, e8, e9, e10, e11, e12, e13⟩ := h
    refine ⟨e1, e2, e3, e4, rfl, e6, by rw [View.push, ← e7, ← e12], e8, e9, e10, e11, rfl, ?_⟩
    exact ⟨⟨hm.hn, hm.hm, hm.hp, ⟨hm2.hnt, hm2.hmt, rfl, hm2.q, hm2.pr, hm2.c, hm2.r⟩, hm.ar, hm.b, hm.d⟩, h2.x, h2.uv, h2.uk, h2.hold, h2.y, h2.yk⟩

/-- Every method has the same effect on the estimator and on its view. -/
theorem Rep.exec {s : Est} {v : View} (h : Rep s v) (hg : v.Good) (o : Op) :
    (∃ s' v', Lipm.exec s o = .ok s' ∧ v.exec o = .ok v' ∧ Rep s' v') ∨ (Lipm.exec s o = .ub ∧ v.exec o = .ub) := by
  cases o
  case resetWithMeasurements dcm zmp yaw w b bu =>
    obtain ⟨s', h1, h2⟩ := h.reset dcm zmp yaw w b bu
    exact Or.inl ⟨s', _, h1, rfl, h2⟩
  case setLipmNaturalFrequency a =>
    have h' : Rep { s with omega0 := a } { v with omega0 := a } :=
      ⟨rfl, h.dt, h.biasDriftStd, h.zmpErrorStd, h.previousZmp, h.biasLimit, h.A, h.B, h.C, h.R, h.Q, h.ori, h.fed⟩
    obtain ⟨s', h1, h2⟩ := h'.updateMatrices
    exact Or.inl ⟨s', _, h1, rfl, h2⟩
  case setSamplingTime a =>
    have h' : Rep { s with dt := a } { v with dt := a } :=
      ⟨h.omega0, rfl, h.biasDriftStd, h.zmpErrorStd, h.previousZmp, h.biasLimit, h.A, h.B, h.C, h.R, h.Q, h.ori, h.fed⟩
    obtain ⟨s', h1, h2⟩ := h'.updateMatrices
    exact Or.inl ⟨s', _, h1, rfl, h2⟩
  case setZmpMeasureErrorStd a =>
    have h' : Rep { s with zmpErrorStd := a } { v with zmpErrorStd := a } :=
      ⟨h.omega0, h.dt, h.biasDriftStd, rfl, h.previousZmp, h.biasLimit, h.A, h.B, h.C, h.R, h.Q, h.ori, h.fed⟩
    obtain ⟨s', h1, h2⟩ := h'.updateMatrices
    exact Or.inl ⟨s', _, h1, rfl, h2⟩
  case setDcmMeasureErrorStd a => exact Or.inl ⟨s, v, rfl, rfl, h⟩
  case setBiasDriftPerSecond a =>
    left
    have hm := h.fed.model
    have hm2 := hm.mats
    have hnt : s.filter.st.nt = 4 := hm2.hnt
    obtain ⟨e1, e2, e3, e4, e5, e6, e7, e8, e9, e10, e11, e12, e13⟩ := h
    refine ⟨{ s with
      Q := blk (tl v.Q) (tr v.Q) (bl v.Q) (dblToSqDiag a)
      filter := { s.filter with st := { s.filter.st with q := ⟨4, 4, blk (tl v.Q) (tr v.Q) (bl v.Q) (dblToSqDiag a)⟩ } } }, _, ?_, rfl, ?_⟩
    · simp [Lipm.exec, Lipm.setBiasDriftPerSecond, setQ, KData.checkQ, hnt, e11]
    · exact ⟨e1, e2, e3, e4, e5, e6, e7, e8, e9, e10, rfl, e12, ⟨hm.hn, hm.hm, hm.hp, ⟨hm2.hnt, hm2.hmt, hm2.a, rfl, hm2.pr, hm2.c, hm2.r⟩,
        hm.ar, hm.b, hm.d⟩, e13.x, e13.uv, e13.uk, e13.hold, e13.y, e13.yk⟩
  case setBiasLimit l =>
    exact Or.inl ⟨_, _, rfl, rfl, ⟨h.omega0, h.dt, h.biasDriftStd, h.zmpErrorStd, h.previousZmp, rfl, h.A, h.B, h.C, h.R, h.Q, h.ori, h.fed⟩⟩
  case setBias b =>
    obtain ⟨s', h1, h2⟩ := h.setBias b
    exact Or.inl ⟨s', _, h1, rfl, h2⟩
  case setUnbiasedDCM b =>
    obtain ⟨s', h1, h2⟩ := h.setUnbiasedDCM b
    exact Or.inl ⟨s', _, h1, rfl, h2⟩
  case setBias2 b u =>
    obtain ⟨s', h1, h2⟩ := h.setBias b
    obtain ⟨h3, h4⟩ := h2.setP (blk (tl v.P) 0 0 (vecToSqDiag u))
    refine Or.inl ⟨_, _, ?_, rfl, h4⟩
    simp only [Lipm.exec, Lipm.setBias2, h1, Res.ok_bind, h2.getP]
    rw [h3]; rfl
  case setUnbiasedDCM2 b u =>
    obtain ⟨s', h1, h2⟩ := h.setUnbiasedDCM b
    obtain ⟨h3, h4⟩ := h2.setP (blk (vecToSqDiag u) 0 0 (br v.P))
    refine Or.inl ⟨_, _, ?_, rfl, h4⟩
    simp only [Lipm.exec, Lipm.setUnbiasedDCM2, h1, Res.ok_bind, h2.getP]
    rw [h3]; rfl
  case update => exact h.update hg
  case setInputs dcm zmp R =>
    have hsz := h.fed.size
    simp only [Lipm.exec, Lipm.setInputs, View.exec, h.fed.x, hsz]
    have key : ∀ s1 v1, Rep s1 v1 → ∃ s' v', (do
        let f ← (do
          let f ← Obs.pushMeasurement (cfg s1.filter) s1.filter ⟨2, dcm⟩
          Obs.pushInput (cfg f) f ⟨2, s1.previousZmp⟩)
        let f ← setA f ⟨4, 4, blk (tl s1.A) (tr s1.A) (bl s1.A) (R * s1.previousOrientationᵀ)⟩
        .ok ({ s1 with
          previousZmp := zmp
          A := blk (tl s1.A) (tr s1.A) (bl s1.A) (R * s1.previousOrientationᵀ)
          previousOrientation := R
          filter := f } : Est)) = .ok s' ∧ (.ok (v1.push dcm zmp R) : Res View) = .ok v' ∧ Rep s' v' := by
      intro s1 v1 hr
      obtain ⟨f, h1, f', h2, h3⟩ := hr.push dcm zmp R
      refine ⟨_, _, ?_, rfl, h3⟩
      rw [h1, Res.ok_bind, h2, Res.ok_bind]
    by_cases hc : v.old + v.pend.length > 1
    · rw [if_pos hc, if_pos hc]
      rcases h.update hg with ⟨s1, v1, h1, h2, h3⟩ | ⟨h1, h2⟩
      · rw [h1, h2]
        simp only [Res.ok_bind]
        exact Or.inl (key s1 v1 h3)
      · rw [h1, h2]
        exact Or.inr ⟨rfl, rfl⟩
    · rw [if_neg hc, if_neg hc]
      simp only [Res.ok_bind]
      exact Or.inl (key s v h)

/-- Whole histories. -/
theorem Rep.run {s : Est} {v : View} (h : Rep s v) (hg : v.Good) (ops : List Op) :
    (∃ s' v', ops.foldlM Lipm.exec s = .ok s' ∧ ops.foldlM View.exec v = .ok v' ∧ Rep s' v' ∧ v'.Good) ∨
    (ops.foldlM Lipm.exec s = .ub ∧ ops.foldlM View.exec v = .ub) := by
  induction ops generalizing s v with
  | nil => exact Or.inl ⟨s, v, rfl, rfl, h, hg⟩
  | cons o os ih =>
    rw [List.foldlM_cons, List.foldlM_cons]
    rcases h.exec hg o with ⟨s1, v1, h1, h2, h3⟩ | ⟨h1, h2⟩
    · rw [h1, h2]
      exact ih h3 (hg.exec o h2)
    · rw [h1, h2]
      exact Or.inr ⟨rfl, rfl⟩

/-- The view of a new estimator. -/
noncomputable def viewNew (dt omega0 drift dcmStd zmpStd : ℝ) (lim zmp dcm bias dcmUnc biasUnc : Fin 2 → ℝ) : View :=
  ⟨omega0, dt, drift, zmpStd, zmp, lim, blk (dblToDiag (1 + omega0 * dt)) 0 0 1, colBlk (dblToDiag (-omega0 * dt)) 0, rowBlk 1 1, dblToSqDiag dcmStd,
    blk (dblToSqDiag (omega0 * dt * zmpStd)) 0 0 (dblToSqDiag (drift * dt)), 1, vcat dcm bias,
    blk (vecToSqDiag dcmUnc) 0 0 (vecToSqDiag biasUnc), 0, 0, []⟩

theorem one_blk : (1 : Matrix (Fin (2 + 2)) (Fin (2 + 2)) ℝ) = blk 1 0 0 1 := by
  rw [← blk_eta 1]
  congr 1 <;> ext i j <;> fin_cases i <;> fin_cases j <;> rfl

theorem rep_new (dt omega0 drift dcmStd zmpStd : ℝ) (lim zmp dcm bias dcmUnc biasUnc : Fin 2 → ℝ) :
    ∃ s, ctor dt omega0 drift dcmStd zmpStd lim zmp dcm bias dcmUnc biasUnc = .ok s ∧
      Rep s (viewNew dt omega0 drift dcmStd zmpStd lim zmp dcm bias dcmUnc biasUnc) := by
  set v := viewNew dt omega0 drift dcmStd zmpStd lim zmp dcm bias dcmUnc biasUnc with hv
  have hA : blk (dblToDiag (1 + omega0 * dt)) (tr (1 : Matrix (Fin (2 + 2)) (Fin (2 + 2)) ℝ)) (bl 1) (br 1) = v.A := by
    rw [one_blk]; simp [hv, viewNew]
  refine ⟨⟨omega0, dt, drift, zmpStd, zmp, lim, ⟨some (⟨4, v.x⟩, 0), IArr.empty, IArr.empty,
    { n := 4, nt := 4, m := 2, mt := 2, p := 2, a := ⟨4, 4, v.A⟩, c := ⟨2, 4, v.C⟩, q := ⟨4, 4, v.Q⟩, r := ⟨2, 2, v.R⟩, pr := ⟨4, 4, v.P⟩,
      xbar := none, ybar := none, innovation := ⟨0, 0⟩, kGain := .empty, arith := Arith.default,
      ext := ⟨⟨4, 2, v.B⟩, .empty⟩ }⟩, v.A, v.B, v.C, v.R, v.Q, 1⟩, ?_, ?_⟩
  · rw [ctor, updateMatricesABQ]
    simp only [hA]
    rfl
  · refine ⟨rfl, rfl, rfl, rfl, rfl, rfl, rfl, rfl, rfl, rfl, rfl, rfl, ?_⟩
    exact ⟨⟨rfl, rfl, rfl, ⟨rfl, rfl, rfl, rfl, rfl, rfl, rfl⟩, rfl, rfl, Or.inr ⟨rfl, rfl⟩⟩, rfl, rfl, fun h => absurd rfl h, Nat.zero_le _,
      ⟨[], rfl, rfl⟩, fun h => absurd rfl h⟩

theorem good_new (dt omega0 drift dcmStd zmpStd : ℝ) (lim zmp dcm bias dcmUnc biasUnc : Fin 2 → ℝ) (h : dcmStd ≠ 0) :
    (viewNew dt omega0 drift dcmStd zmpStd lim zmp dcm bias dcmUnc biasUnc).Good :=
  ⟨blk_diag_psd (View.vecToSqDiag_psd _) (View.vecToSqDiag_psd _), ⟨_, _, rfl⟩, diag_sq_pd dcmStd h⟩

end StateObs.Lipm
