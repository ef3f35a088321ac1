import Verif.Lipm.Unidim
import Verif.OutcomeLaws
/-!
# The one-dimensional estimator with its filter replaced by the textbook filter
-/

namespace StateObs.Unidim
open StateObs Matrix KF KFSpec

/-- The estimator, its filter reduced to model, estimate, covariance, time and waiting data. -/
structure View where
  omega0 : ℝ
  dt : ℝ
  biasDriftStd : ℝ
  zmpErrorStd : ℝ
  previousZmp : ℝ
  d : LinModel 2 1 1
  x : Fin 2 → ℝ
  P : Matrix (Fin 2) (Fin 2) ℝ
  k : Int
  old : ℕ
  pend : List ((Fin 1 → ℝ) × (Fin 1 → ℝ))

namespace View

def updateMatrices (v : View) : View :=
  { v with d := { v.d with
    A := !![1 + v.omega0 * v.dt, 0; 0, 1]
    B := !![-v.omega0 * v.dt; 0]
    Q := !![square (v.omega0 * v.dt * v.zmpErrorStd), 0; 0, square (v.biasDriftStd * v.dt)] } }

def reset (v : View) (dcm zmp : ℝ) (w : Bool) (drift dcmStd zmpStd b bu : ℝ) : View :=
  let v := updateMatrices { v with biasDriftStd := drift, zmpErrorStd := zmpStd, previousZmp := zmp }
  { v with
    d := { v.d with R := !![square dcmStd] }
    x := if w then ![dcm - b, b] else ![dcm, b]
    P := if w then !![square dcmStd + square bu, -square bu; -square bu, square bu] else !![square dcmStd, 0; 0, square bu]
    k := 0
    old := 0
    pend := [] }

noncomputable def estimate (v : View) : View :=
  { v with
    x := (LKF.consume v.d (v.x, v.P) v.pend).1
    P := (LKF.consume v.d (v.x, v.P) v.pend).2
    k := v.k + v.pend.length
    old := if v.pend = [] then v.old else 1
    pend := [] }

noncomputable def update (v : View) : Res View := if v.old + v.pend.length = 0 then .assertFail else .ok v.estimate

def push (v : View) (dcm zmp : ℝ) : View := { v with previousZmp := zmp, pend := v.pend ++ [(![v.previousZmp], ![dcm])] }

noncomputable def exec (v : View) : Op → Res View
  | .resetWithInputs dcm zmp w d r z b bu => .ok (v.reset dcm zmp w d r z b bu)
  | .setLipmNaturalFrequency w => .ok (updateMatrices { v with omega0 := w })
  | .setSamplingTime dt => .ok (updateMatrices { v with dt := dt })
  | .setZmpMeasureErrorStd a => .ok (updateMatrices { v with zmpErrorStd := a })
  | .setDcmMeasureErrorStd _ => .ok v
  | .setBiasDriftPerSecond a => .ok { v with d := { v.d with Q := !![v.d.Q 0 0, v.d.Q 0 1; v.d.Q 1 0, square a] } }
  | .setBias b => .ok { v with x := ![v.x 0, b] }
  | .setBias2 b u => .ok { v with x := ![v.x 0, b], P := !![v.P 0 0, 0; 0, square u] }
  | .setUnbiasedDCM b => .ok { v with x := ![b, v.x 1] }
  | .setUnbiasedDCM2 b u => .ok { v with x := ![b, v.x 1], P := !![square u, 0; 0, v.P 1 1] }
  | .update => v.update
  | .setInputs dcm zmp => .ok (v.push dcm zmp)

end View

/-- A two-by-two symmetric matrix with nonnegative determinant and diagonal. -/
theorem psd2 {a b c : ℝ} (ha : 0 ≤ a) (hc : 0 ≤ c) (h : b * b ≤ a * c) : (!![a, b; b, c] : Matrix (Fin 2) (Fin 2) ℝ).PosSemidef := by
  rw [Blocks.psd_iff]
  constructor
  · ext i j; fin_cases i <;> fin_cases j <;> rfl
  · intro x
    simp only [dotProduct, mulVec, Fin.sum_univ_two]
    simp
    have key : 0 ≤ a * x 0 ^ 2 + 2 * b * (x 0 * x 1) + c * x 1 ^ 2 := by
      rcases eq_or_lt_of_le ha with h0 | h0
      · have hb : b = 0 := by
          have : b * b = 0 := le_antisymm (by rw [← h0] at h; linarith) (mul_self_nonneg b)
          exact mul_self_eq_zero.1 this
        rw [hb, ← h0]
        nlinarith [mul_nonneg hc (sq_nonneg (x 1))]
      · have : 0 ≤ a * (a * x 0 ^ 2 + 2 * b * (x 0 * x 1) + c * x 1 ^ 2) := by
          nlinarith [sq_nonneg (a * x 0 + b * x 1), mul_nonneg (sub_nonneg.2 h) (sq_nonneg (x 1))]
        exact nonneg_of_mul_nonneg_right this h0
    nlinarith [key]

theorem psd2_diag {a c : ℝ} (ha : 0 ≤ a) (hc : 0 ≤ c) : (!![a, 0; 0, c] : Matrix (Fin 2) (Fin 2) ℝ).PosSemidef :=
  psd2 ha hc (by simpa using mul_nonneg ha hc)

theorem pd1 {a : ℝ} (ha : a ≠ 0) : (!![square a] : Matrix (Fin 1) (Fin 1) ℝ).PosDef := by
  have : (!![square a] : Matrix (Fin 1) (Fin 1) ℝ) = diagonal fun _ => a * a := by
    ext i j; fin_cases i; fin_cases j; simp [square]
  rw [this]
  exact Blocks.diag_sq_pd a ha

theorem square_nonneg (a : ℝ) : 0 ≤ square a := mul_self_nonneg a

/-- The covariances are covariances. -/
structure View.Good (v : View) : Prop where
  P : v.P.PosSemidef
  q : ∃ a b, v.d.Q = !![square a, 0; 0, square b]
  R : v.d.R.PosDef
  D : v.d.D = 0

theorem View.Good.ok {v : View} (h : v.Good) : v.d.Ok := by
  obtain ⟨a, b, hq⟩ := h.q
  refine ⟨?_, h.R⟩
  rw [hq]
  exact psd2_diag (square_nonneg a) (square_nonneg b)

/-- The standard deviation of the DCM measurement given to a reset is not zero. -/
def Op.Regular : Op → Prop
  | .resetWithInputs _ _ _ _ dcmStd _ _ _ => dcmStd ≠ 0
  | _ => True

theorem consume_psd {n m p : ℕ} {d : LinModel n m p} (hd : d.Ok) : ∀ (pend) (z : (Fin n → ℝ) × Matrix (Fin n) (Fin n) ℝ), z.2.PosSemidef →
    (LKF.consume d z pend).2.PosSemidef
  | [], _, h => h
  | _ :: pend, z, h => consume_psd hd pend _ (LKF.linStep_psd d hd _ z.1 h)

theorem diag_nonneg {P : Matrix (Fin 2) (Fin 2) ℝ} (h : P.PosSemidef) (i : Fin 2) : 0 ≤ P i i := by
  have := ((Blocks.psd_iff P).1 h).2 (Pi.single i 1)
  simpa using this

theorem View.Good.exec {v v' : View} (h : v.Good) {o : Op} (ho : o.Regular) (he : v.exec o = .ok v') : v'.Good := by
  cases o
  case resetWithInputs dcm zmp w d r z b bu =>
    cases he
    refine ⟨?_, ⟨_, _, rfl⟩, pd1 ho, h.D⟩
    show (if w then _ else _ : Matrix _ _ ℝ).PosSemidef
    have h1 := square_nonneg r
    have h2 := square_nonneg bu
    split_ifs
    · exact psd2 (by linarith) h2 (by nlinarith [mul_nonneg h1 h2])
    · exact psd2_diag h1 h2
  case setLipmNaturalFrequency w => cases he; exact ⟨h.P, ⟨_, _, rfl⟩, h.R, h.D⟩
  case setSamplingTime w => cases he; exact ⟨h.P, ⟨_, _, rfl⟩, h.R, h.D⟩
  case setZmpMeasureErrorStd w => cases he; exact ⟨h.P, ⟨_, _, rfl⟩, h.R, h.D⟩
  case setDcmMeasureErrorStd w => cases he; exact h
  case setBiasDriftPerSecond a =>
    cases he
    obtain ⟨a', b', hq⟩ := h.q
    refine ⟨h.P, ⟨a', a, ?_⟩, h.R, h.D⟩
    show !![v.d.Q 0 0, v.d.Q 0 1; v.d.Q 1 0, square a] = _
    rw [hq]; rfl
  case setBias b => cases he; exact ⟨h.P, h.q, h.R, h.D⟩
  case setUnbiasedDCM b => cases he; exact ⟨h.P, h.q, h.R, h.D⟩
  case setBias2 b u => cases he; exact ⟨psd2_diag (diag_nonneg h.P 0) (square_nonneg u), h.q, h.R, h.D⟩
  case setUnbiasedDCM2 b u => cases he; exact ⟨psd2_diag (square_nonneg u) (diag_nonneg h.P 1), h.q, h.R, h.D⟩
  case update =>
    simp only [View.exec, View.update] at he
    split_ifs at he
    cases he
    exact ⟨consume_psd h.ok _ _ h.P, h.q, h.R, h.D⟩
  case setInputs dcm zmp => cases he; exact ⟨h.P, h.q, h.R, h.D⟩

/-- `s` is the estimator `v`. -/
structure Rep (s : Est) (v : View) : Prop where
  omega0 : s.omega0 = v.omega0
  dt : s.dt = v.dt
  biasDriftStd : s.biasDriftStd = v.biasDriftStd
  zmpErrorStd : s.zmpErrorStd = v.zmpErrorStd
  previousZmp : s.previousZmp = v.previousZmp
  fed : LKF.Fed s.filter v.d v.x v.P v.k v.old v.pend

theorem Rep.updateMatrices {s : Est} {v : View} (h : Rep s v) : ∃ s', updateMatricesABQ s = .ok s' ∧ Rep s' v.updateMatrices ∧
    s'.filter.x = s.filter.x ∧ s'.filter.y = s.filter.y ∧ s'.filter.u = s.filter.u := by
  have hm := h.fed.model
  have hm2 := hm.mats
  obtain ⟨e1, e2, e3, e4, e5, e13⟩ := h
  refine ⟨{ s with
    filter := { s.filter with st := { s.filter.st with
      a := ⟨2, 2, v.updateMatrices.d.A⟩
      q := ⟨2, 2, v.updateMatrices.d.Q⟩
      ext := { s.filter.st.ext with b := ⟨2, 1, v.updateMatrices.d.B⟩ } } } }, ?_, ?_, rfl, rfl, rfl⟩
  · have hn : s.filter.st.n = 2 := hm.hn
    have hnt : s.filter.st.nt = 2 := hm2.hnt
    have hp : s.filter.st.p = 1 := hm.hp
    simp only [updateMatricesABQ, setA, LKF.setB, setQ, KData.checkA, KData.checkQ, LKF.checkB, hn, hnt, hp, DMat.hasSize_mk,
      Res.assert_true, Res.ok_bind, View.updateMatrices, e1, e2, e3, e4]
  · refine ⟨e1, e2, e3, e4, e5, ?_⟩
    exact ⟨⟨hm.hn, hm.hm, hm.hp, ⟨hm2.hnt, hm2.hmt, rfl, rfl, hm2.pr, hm2.c, hm2.r⟩, hm.ar, rfl, hm.d⟩, e13.x, e13.uv, e13.uk, e13.hold, e13.y, e13.yk⟩

theorem Rep.curState {s : Est} {v : View} (h : Rep s v) : curState s = .ok v.x := by
  simp only [Unidim.curState, h.fed.x, val, Res.ok_bind]
  exact Lipm.asVec_mk v.x

theorem Rep.getUnbiasedDCM {s : Est} {v : View} (h : Rep s v) : getUnbiasedDCM s = .ok (v.x 0) := by
  rw [Unidim.getUnbiasedDCM, h.curState]; rfl

theorem Rep.getBias {s : Est} {v : View} (h : Rep s v) : getBias s = .ok (v.x 1) := by
  rw [Unidim.getBias, h.curState]; rfl

theorem Rep.setX {s : Est} {v : View} (h : Rep s v) (x' : Fin 2 → ℝ) :
    Obs.setCurrentState (cfg s.filter) s.filter ⟨2, x'⟩ = .ok { s.filter with x := some (⟨2, x'⟩, v.k) } ∧
    Rep { s with filter := { s.filter with x := some (⟨2, x'⟩, v.k) } } { v with x := x' } := by
  have hm := h.fed.model
  obtain ⟨e1, e2, e3, e4, e5, e13⟩ := h
  constructor
  · have : (cfg s.filter).okX ⟨2, x'⟩ = true := by simp [cfg, hm.hn]
    simp [Obs.setCurrentState, e13.x, this]
  · exact ⟨e1, e2, e3, e4, e5, ⟨hm.hn, hm.hm, hm.hp, hm.mats, hm.ar, hm.b, hm.d⟩, rfl, e13.uv, e13.uk, e13.hold, e13.y, e13.yk⟩

theorem Rep.setP {s : Est} {v : View} (h : Rep s v) (P' : Matrix (Fin 2) (Fin 2) ℝ) :
    setStateCovariance s.filter ⟨2, 2, P'⟩ = .ok { s.filter with st := { s.filter.st with pr := ⟨2, 2, P'⟩ } } ∧
    Rep { s with filter := { s.filter with st := { s.filter.st with pr := ⟨2, 2, P'⟩ } } } { v with P := P' } := by
  have hm := h.fed.model
  have hm2 := hm.mats
  obtain ⟨e1, e2, e3, e4, e5, e13⟩ := h
  constructor
  · have : s.filter.st.nt = 2 := hm2.hnt
    simp [setStateCovariance, KData.checkP, this]
  · exact ⟨e1, e2, e3, e4, e5, ⟨hm.hn, hm.hm, hm.hp, ⟨hm2.hnt, hm2.hmt, hm2.a, hm2.q, rfl, hm2.c, hm2.r⟩, hm.ar, hm.b, hm.d⟩,
      e13.x, e13.uv, e13.uk, e13.hold, e13.y, e13.yk⟩

theorem Rep.setBias {s : Est} {v : View} (h : Rep s v) (b : ℝ) : ∃ s', setBias s b = .ok s' ∧ Rep s' { v with x := ![v.x 0, b] } := by
  obtain ⟨h1, h2⟩ := h.setX ![v.x 0, b]
  refine ⟨_, ?_, h2⟩
  rw [Unidim.setBias, h.curState]
  simp only [Res.ok_bind]
  rw [h1]; rfl

theorem Rep.setUnbiasedDCM {s : Est} {v : View} (h : Rep s v) (b : ℝ) :
    ∃ s', setUnbiasedDCM s b = .ok s' ∧ Rep s' { v with x := ![b, v.x 1] } := by
  obtain ⟨h1, h2⟩ := h.setX ![b, v.x 1]
  refine ⟨_, ?_, h2⟩
  rw [Unidim.setUnbiasedDCM, h.curState]
  simp only [Res.ok_bind]
  rw [h1]; rfl

theorem Rep.getP {s : Est} {v : View} (h : Rep s v) : Lipm.asMat 2 2 s.filter.st.pr = .ok v.P := by
  have : s.filter.st.pr = ⟨2, 2, v.P⟩ := h.fed.model.mats.pr
  rw [this]; exact Lipm.asMat_mk v.P

theorem Rep.reset {s : Est} {v : View} (h : Rep s v) (dcm zmp : ℝ) (w : Bool) (drift dcmStd zmpStd b bu : ℝ) :
    ∃ s', resetWithInputs s dcm zmp w drift dcmStd zmpStd b bu = .ok s' ∧ Rep s' (v.reset dcm zmp w drift dcmStd zmpStd b bu) := by
  have hm := h.fed.model
  have hm2 := hm.mats
  have hn : s.filter.st.n = 2 := hm.hn
  have hnt : s.filter.st.nt = 2 := hm2.hnt
  have hmt : s.filter.st.mt = 1 := hm2.hmt
  have hp : s.filter.st.p = 1 := hm.hp
  obtain ⟨e1, e2, e3, e4, e5, e13⟩ := h
  set v' := v.reset dcm zmp w drift dcmStd zmpStd b bu with hv'
  refine ⟨{ s with
    biasDriftStd := drift
    zmpErrorStd := zmpStd
    previousZmp := zmp
    filter := { s.filter with
      x := some (⟨2, v'.x⟩, 0)
      y := IArr.empty
      u := IArr.empty
      st := { s.filter.st with
        pr := ⟨2, 2, v'.P⟩
        a := ⟨2, 2, v'.d.A⟩
        q := ⟨2, 2, v'.d.Q⟩
        r := ⟨1, 1, v'.d.R⟩
        ext := { s.filter.st.ext with b := ⟨2, 1, v'.d.B⟩ } } } }, ?_, ?_⟩
  · have hset : ∀ (f : KFilter LKF.Ext) (x : Fin 2 → ℝ), f.st.n = 2 → f.st.p = 1 → f.x = none → f.y = IArr.empty → f.u = IArr.empty →
        Obs.setState (cfg f) f ⟨2, x⟩ 0 = .ok { f with x := some (⟨2, x⟩, 0) } := by
      rintro ⟨fx, fy, fu, fst⟩ x hfn hfp rfl rfl rfl
      have hok : (cfg (⟨none, IArr.empty, IArr.empty, fst⟩ : KFilter LKF.Ext)).okX ⟨2, x⟩ = true := by
        simpa [cfg, DVec.hasSize] using hfn.symm
      have hp' : (cfg (⟨none, IArr.empty, IArr.empty, fst⟩ : KFilter LKF.Ext)).p > 0 := by
        show fst.p > 0
        rw [show fst.p = 1 from hfp]; norm_num
      simp only [Obs.setState, hok, Res.assert_true, Res.ok_bind, hp', if_true]
      rfl
    simp only [resetWithInputs, updateMatricesABQ, setA, LKF.setB, setQ, setR, setStateCovariance, KData.checkA, KData.checkQ, KData.checkR,
      KData.checkP, LKF.checkB]
    have hn' : (KF.reset s.filter).st.n = 2 := hn
    have hnt' : (KF.reset s.filter).st.nt = 2 := hnt
    have hmt' : (KF.reset s.filter).st.mt = 1 := hmt
    have hp' : (KF.reset s.filter).st.p = 1 := hp
    have hx' : (KF.reset s.filter).x = none := rfl
    have hy' : (KF.reset s.filter).y = IArr.empty := rfl
    have hu' : (KF.reset s.filter).u = IArr.empty := rfl
    have hs : ∀ r c (M : Matrix (Fin r) (Fin c) ℝ) r' c', r' = r → c' = c → Res.assert ((⟨r, c, M⟩ : DMat).hasSize r' c') = .ok () := by
      rintro r c M _ _ rfl rfl; simp
    rw [hs _ _ _ _ _ hnt' hnt']
    simp only [Res.ok_bind]
    rw [hs _ _ _ _ _ hn' hp']
    simp only [Res.ok_bind]
    rw [hs _ _ _ _ _ hnt' hnt']
    simp only [Res.ok_bind]
    rw [hs _ _ _ _ _ hmt' hmt']
    simp only [Res.ok_bind]
    rw [hset]
    pick_goal 2; · exact hn'
    pick_goal 2; · exact hp'
    pick_goal 2; · exact hx'
    pick_goal 2; · exact hy'
    pick_goal 2; · exact hu'
    simp only [Res.ok_bind]
    rw [hs _ _ _ _ _ hnt' hnt']
    simp only [Res.ok_bind, e1, e2]
    rfl
  · refine ⟨e1, e2, rfl, rfl, rfl, ?_⟩
    exact ⟨⟨hm.hn, hm.hm, hm.hp, ⟨hm2.hnt, hm2.hmt, rfl, rfl, rfl, hm2.c, rfl⟩, hm.ar, rfl, hm.d⟩, rfl, rfl, fun h => absurd rfl h,
      Nat.zero_le _, ⟨[], rfl, rfl⟩, fun h => absurd rfl h⟩

theorem Rep.update {s : Est} {v : View} (h : Rep s v) (hg : v.Good) :
    (∃ s' v', Unidim.update s = .ok s' ∧ v.update = .ok v' ∧ Rep s' v') ∨ (Unidim.update s = .assertFail ∧ v.update = .assertFail) := by
  have hsz := h.fed.size
  by_cases hz : v.old + v.pend.length = 0
  · right
    constructor
    · have h0 : s.filter.y.size = 0 := by rw [hsz, hz]
      simp [Unidim.update, Obs.getMeasurementTime, h0]
    · rw [View.update, if_pos hz]
  · left
    obtain ⟨f, h1, h2, -⟩ := h.fed.getEstimated (by norm_num) hg.ok hg.D hg.P (by omega)
    refine ⟨{ s with filter := f }, v.estimate, ?_, ?_, ?_⟩
    · unfold Unidim.update
      rw [h1]; rfl
    · rw [View.update, if_neg hz]
    · exact ⟨h.1, h.2, h.3, h.4, h.5, h2⟩

/-- Every method has the same effect on the estimator and on its view. -/
theorem Rep.exec {s : Est} {v : View} (h : Rep s v) (hg : v.Good) (o : Op) :
    (∃ s' v', Unidim.exec s o = .ok s' ∧ v.exec o = .ok v' ∧ Rep s' v') ∨ (Unidim.exec s o = .assertFail ∧ v.exec o = .assertFail) := by
  cases o
  case resetWithInputs dcm zmp w d r z b bu =>
    obtain ⟨s', h1, h2⟩ := h.reset dcm zmp w d r z b bu
    exact Or.inl ⟨s', _, h1, rfl, h2⟩
  case setLipmNaturalFrequency a =>
    have h' : Rep { s with omega0 := a } { v with omega0 := a } := ⟨rfl, h.dt, h.biasDriftStd, h.zmpErrorStd, h.previousZmp, h.fed⟩
    obtain ⟨s', h1, h2, -⟩ := h'.updateMatrices
    exact Or.inl ⟨s', _, h1, rfl, h2⟩
  case setSamplingTime a =>
    have h' : Rep { s with dt := a } { v with dt := a } := ⟨h.omega0, rfl, h.biasDriftStd, h.zmpErrorStd, h.previousZmp, h.fed⟩
    obtain ⟨s', h1, h2, -⟩ := h'.updateMatrices
    exact Or.inl ⟨s', _, h1, rfl, h2⟩
  case setZmpMeasureErrorStd a =>
    have h' : Rep { s with zmpErrorStd := a } { v with zmpErrorStd := a } := ⟨h.omega0, h.dt, h.biasDriftStd, rfl, h.previousZmp, h.fed⟩
    obtain ⟨s', h1, h2, -⟩ := h'.updateMatrices
    exact Or.inl ⟨s', _, h1, rfl, h2⟩
  case setDcmMeasureErrorStd a => exact Or.inl ⟨s, v, rfl, rfl, h⟩
  case setBiasDriftPerSecond a =>
    left
    have hm := h.fed.model
    have hm2 := hm.mats
    have hnt : s.filter.st.nt = 2 := hm2.hnt
    have hq : s.filter.st.q = ⟨2, 2, v.d.Q⟩ := hm2.q
    obtain ⟨e1, e2, e3, e4, e5, e13⟩ := h
    refine ⟨{ s with
      filter := { s.filter with st := { s.filter.st with q := ⟨2, 2, !![v.d.Q 0 0, v.d.Q 0 1; v.d.Q 1 0, square a]⟩ } } }, _, ?_, rfl, ?_⟩
    · simp [Unidim.exec, Unidim.setBiasDriftPerSecond, setQ, KData.checkQ, hnt, hq]
    · exact ⟨e1, e2, e3, e4, e5, ⟨hm.hn, hm.hm, hm.hp, ⟨hm2.hnt, hm2.hmt, hm2.a, rfl, hm2.pr, hm2.c, hm2.r⟩,
        hm.ar, hm.b, hm.d⟩, e13.x, e13.uv, e13.uk, e13.hold, e13.y, e13.yk⟩
  case setBias b =>
    obtain ⟨s', h1, h2⟩ := h.setBias b
    exact Or.inl ⟨s', _, h1, rfl, h2⟩
  case setUnbiasedDCM b =>
    obtain ⟨s', h1, h2⟩ := h.setUnbiasedDCM b
    exact Or.inl ⟨s', _, h1, rfl, h2⟩
  case setBias2 b u =>
    obtain ⟨s', h1, h2⟩ := h.setBias b
    obtain ⟨h3, h4⟩ := h2.setP !![v.P 0 0, 0; 0, square u]
    refine Or.inl ⟨_, _, ?_, rfl, h4⟩
    simp only [Unidim.exec, Unidim.setBias2, h1, Res.ok_bind, h2.getP]
    rw [h3]; rfl
  case setUnbiasedDCM2 b u =>
    obtain ⟨s', h1, h2⟩ := h.setUnbiasedDCM b
    obtain ⟨h3, h4⟩ := h2.setP !![square u, 0; 0, v.P 1 1]
    refine Or.inl ⟨_, _, ?_, rfl, h4⟩
    simp only [Unidim.exec, Unidim.setUnbiasedDCM2, h1, Res.ok_bind, h2.getP]
    rw [h3]; rfl
  case update => exact h.update hg
  case setInputs dcm zmp =>
    left
    obtain ⟨f, h1, h2, -⟩ := h.fed.push (by norm_num) ![v.previousZmp] ![dcm]
    refine ⟨{ s with previousZmp := zmp, filter := f }, _, ?_, rfl, ⟨h.1, h.2, h.3, h.4, rfl, h2⟩⟩
    simp only [Unidim.exec, Unidim.setInputs, h.previousZmp]
    rw [h1]; rfl

/-- Whole histories. -/
theorem Rep.run {s : Est} {v : View} (h : Rep s v) (hg : v.Good) (ops : List Op) (ho : ∀ o ∈ ops, o.Regular) :
    (∃ s' v', ops.foldlM Unidim.exec s = .ok s' ∧ ops.foldlM View.exec v = .ok v' ∧ Rep s' v' ∧ v'.Good) ∨
    (ops.foldlM Unidim.exec s = .assertFail ∧ ops.foldlM View.exec v = .assertFail) := by
  induction ops generalizing s v with
  | nil => exact Or.inl ⟨s, v, rfl, rfl, h, hg⟩
  | cons o os ih =>
    rw [List.foldlM_cons, List.foldlM_cons]
    rcases h.exec hg o with ⟨s1, v1, h1, h2, h3⟩ | ⟨h1, h2⟩
    · rw [h1, h2]
      exact ih h3 (hg.exec (ho o (by simp)) h2) fun o' h' => ho o' (by simp [h'])
    · rw [h1, h2]
      exact Or.inr ⟨rfl, rfl⟩

/-- The view of a new estimator. -/
noncomputable def viewNew (dt omega0 drift dcm zmp bias dcmStd zmpStd dcmUnc biasUnc : ℝ) : View :=
  ⟨omega0, dt, drift, zmpStd, zmp, ⟨!![1 + omega0 * dt, 0; 0, 1], !![-omega0 * dt; 0], !![1, 1], 0,
    !![square (omega0 * dt * zmpStd), 0; 0, square (drift * dt)], !![square dcmStd]⟩, ![dcm, bias],
    !![square dcmUnc, 0; 0, square biasUnc], 0, 0, []⟩

theorem rep_new (dt omega0 drift dcm zmp bias dcmStd zmpStd dcmUnc biasUnc : ℝ) :
    ∃ s, ctor dt omega0 drift dcm zmp bias dcmStd zmpStd dcmUnc biasUnc = .ok s ∧
      Rep s (viewNew dt omega0 drift dcm zmp bias dcmStd zmpStd dcmUnc biasUnc) := by
  set v := viewNew dt omega0 drift dcm zmp bias dcmStd zmpStd dcmUnc biasUnc with hv
  refine ⟨⟨omega0, dt, drift, zmpStd, zmp, ⟨some (⟨2, v.x⟩, 0), IArr.empty, IArr.empty,
    { n := 2, nt := 2, m := 1, mt := 1, p := 1, a := ⟨2, 2, v.d.A⟩, c := ⟨1, 2, v.d.C⟩, q := ⟨2, 2, v.d.Q⟩, r := ⟨1, 1, v.d.R⟩, pr := ⟨2, 2, v.P⟩,
      xbar := none, ybar := none, innovation := ⟨0, 0⟩, kGain := .empty, arith := Arith.default,
      ext := ⟨⟨2, 1, v.d.B⟩, .empty⟩ }⟩⟩, ?_, ?_⟩
  · rfl
  · refine ⟨rfl, rfl, rfl, rfl, rfl, ?_⟩
    exact ⟨⟨rfl, rfl, rfl, ⟨rfl, rfl, rfl, rfl, rfl, rfl, rfl⟩, rfl, rfl, Or.inr ⟨rfl, rfl⟩⟩, rfl, rfl, fun h => absurd rfl h, Nat.zero_le _,
      ⟨[], rfl, rfl⟩, fun h => absurd rfl h⟩

theorem good_new (dt omega0 drift dcm zmp bias dcmStd zmpStd dcmUnc biasUnc : ℝ) (h : dcmStd ≠ 0) :
    (viewNew dt omega0 drift dcm zmp bias dcmStd zmpStd dcmUnc biasUnc).Good :=
  ⟨psd2_diag (square_nonneg _) (square_nonneg _), ⟨_, _, rfl⟩, pd1 h, rfl⟩

end StateObs.Unidim
