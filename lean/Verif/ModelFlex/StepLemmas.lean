import Verif.ModelFlex.Jac
import Verif.Kalman.Singular
/-! # One estimation: the filter -/

namespace StateObs.ModelFlex
open StateObs KF KFSpec Imu Rot Kine Matrix Obs
open StateObs.Elastic (at1 bump)

/-- The filter after the Jacobians. -/
def jacFilter (f : Filter) (k : Int) (xb yb u : DVec) (JA : List (Fin 35 → ℝ)) (JC : List DVec) (sys : Elastic.Sys Unit) : Filter :=
  { f with st := { f.st with
      a := ofCols JA
      c := ofDCols sys.measSize JC
      xbar := some (xb, k + 1)
      ybar := some (yb, k + 1)
      ext := ⟨sys, u⟩ } }

/-- The Jacobians, when no prediction has been computed before. -/
theorem jac_ok {k : Int} {f f1 : Filter} {x : DVec} (hf : FInv k f) (hx : f.x = some (x, k)) (hp : Past k f) (h : jacobians true f = .ok f1) :
    ∃ a u xb yb s1 s2 s3 s4 JA JC, f.u = ⟨k, [a, u]⟩ ∧ f.st.ext.sys.stateDynamics x a () = .ok (xb, s1, ()) ∧ s1.measureDynamics xb u (k + 1) () = .ok (yb, s2, ()) ∧
      s2.stateDynamicsJacobian () = .ok (JA, s3, ()) ∧ s3.measureDynamicsJacobian () = .ok (JC, s4, ()) ∧ f1 = jacFilter f k xb yb u JA JC s4 := by
  simp only [jacobians, if_true, Res.bind_eq_ok, setA, setC, updateStateAndMeasurementPrediction, updateStatePrediction, getCurrentTime, hx, Res.ok.injEq, exists_eq_left'] at h
  obtain ⟨f0, ⟨g0, h1, k', h2, h3⟩, ⟨A, s3, g1⟩, h4, f2, ⟨_, h5, h6⟩, ⟨C, s4, g2⟩, h7, _, h8, h9⟩ := h
  rw [prediction, if_pos hp.notX] at h1
  simp only [hx, Res.bind_eq_ok] at h1
  obtain ⟨_, h10, a, ha, ⟨xb, s1, _⟩, h11, h12⟩ := h1
  cases h12
  simp only at h2
  cases h2
  rw [predictSensor, if_pos (by exact hp.notY)] at h3
  simp only [val, simulateSensor, Res.ok_bind, Res.bind_eq_ok] at h3
  obtain ⟨⟨yb, g3⟩, ⟨_, h13, u, hu, ⟨yb', s2, _⟩, h14, h15⟩, h16⟩ := h3
  cases h15; cases h16; cases h6; cases h9
  have hU : f.u = ⟨k, [a, u]⟩ := by
    have h13 := asserted h13
    have h10 := asserted h10
    rcases hf.u with h | ⟨w, h⟩ | ⟨b, c, h⟩
    · simp [IArr.size, h] at h10
    · rw [h] at h13
      simp [IArr.checkIndex] at h13
    · rw [h] at ha hu ⊢
      simp [IArr.get, IArr.checkIndex] at ha hu
      rw [ha, hu]
  exact ⟨a, u, xb, yb', s1, s2, s3, s4, A, C, hU, h11, h14, h4, h7, by simp only [jacFilter, hx]⟩

theorem jac_live {k : Int} {f : Filter} {x a u xb yb : DVec} {s1 s2 s3 s4 : Elastic.Sys Unit} {JA JC} (hf : FInv k f) (hx : f.x = some (x, k)) (hp : Past k f) (hU : f.u = ⟨k, [a, u]⟩)
    (h1 : f.st.ext.sys.stateDynamics x a () = .ok (xb, s1, ())) (h2 : s1.measureDynamics xb u (k + 1) () = .ok (yb, s2, ())) (h3 : s2.stateDynamicsJacobian () = .ok (JA, s3, ()))
    (h4 : s3.measureDynamicsJacobian () = .ok (JC, s4, ())) (hm : s4.measSize = f.st.ext.sys.measSize) : jacobians true f = .ok (jacFilter f k xb yb u JA JC s4) := by
  have e1 : prediction f (k + 1) = .ok { f with st := { f.st with xbar := some (xb, k + 1), ext := ⟨s1, a⟩ } } := by
    rw [prediction, if_pos hp.notX, hU]
    simp only [show k + 1 - 1 = k by omega, IArr.size, IArr.checkIndex, IArr.get]
    simp [hx, h1, ← hU]
  have e2 : predictSensor { f with st := { f.st with xbar := some (xb, k + 1), ext := ⟨s1, a⟩ } } (k + 1) =
      .ok { f with st := { f.st with xbar := some (xb, k + 1), ybar := some (yb, k + 1), ext := ⟨s2, u⟩ } } := by
    rw [predictSensor, if_pos (by exact hp.notY)]
    simp only [val, simulateSensor, Res.ok_bind, hU]
    simp only [IArr.checkIndex, IArr.get]
    simp [h2, ← hU]
  rw [jacobians, if_pos rfl]
  have e0 : updateStateAndMeasurementPrediction f = .ok { f with st := { f.st with xbar := some (xb, k + 1), ybar := some (yb, k + 1), ext := (⟨s2, u⟩ : Ext) } } := by
    have e3 : getCurrentTime f = .ok k := by simp only [getCurrentTime, hx]
    have e4 : getCurrentTime { f with st := { f.st with xbar := some (xb, k + 1), ext := (⟨s1, a⟩ : Ext) } } = .ok k := e3
    unfold updateStateAndMeasurementPrediction updateStatePrediction
    rw [e3, Res.ok_bind, e1, Res.ok_bind, e4, Res.ok_bind, e2]
  rw [e0]
  simp only [Res.ok_bind, h3, h4, setA, setC, KData.checkA, KData.checkC]
  have c1 : (ofCols JA).hasSize f.st.nt f.st.nt = true := by rw [hf.nt]; simp [DMat.hasSize, ofCols]
  have c2 : (ofDCols s4.measSize JC).hasSize f.st.mt f.st.nt = true := by rw [hf.nt, hf.mt, hm]; simp [DMat.hasSize, ofDCols]
  simp only [c1, Res.assert_true, Res.ok_bind, h4]
  simp only [c2, Res.assert_true, Res.ok_bind]
  rfl

theorem stateSum_default {a b : Fin 35 → ℝ} : (Arith.default : Arith).stateSum ⟨35, a⟩ ⟨35, b⟩ = .ok ⟨35, a + b⟩ := by
  simp [Arith.default, DVec.add]

/-- A step of the filter, when the predictions have been computed before. -/
theorem oneStep_of {k : Int} {f : Filter} {x : DVec} {m : ℕ} {xb : Fin 35 → ℝ} {yb w : Fin m → ℝ} {A Q P : Matrix (Fin 35) (Fin 35) ℝ} {C : Matrix (Fin m) (Fin 35) ℝ} {R : Matrix (Fin m) (Fin m) ℝ}
    (hx : f.x = some (x, k)) (hm : HasMats f.st 35 m A Q P C R) (har : f.st.arith = Arith.default) (hxb : f.st.xbar = some (⟨35, xb⟩, k + 1)) (hyb : f.st.ybar = some (⟨m, yb⟩, k + 1))
    (hy : f.y = ⟨k + 1, [⟨m, w⟩]⟩) (hQ : Q.PosSemidef) (hP : P.PosSemidef) :
    (∀ g, R.PosSemidef → oneStep virt f = .ok g → (innovCov C R (predCov A Q P)).PosDef ∧ g = { f with
      x := some (⟨35, xb + gain C R (predCov A Q P) *ᵥ (w - yb)⟩, k + 1)
      st := { f.st with
        pr := ⟨35, 35, posterior C R (predCov A Q P)⟩
        innovation := ⟨35, gain C R (predCov A Q P) *ᵥ (w - yb)⟩
        kGain := ⟨35, m, gain C R (predCov A Q P)⟩ } }) ∧
    (R.PosDef → ∃ g, oneStep virt f = .ok g) := by
  have p1 : prediction f (k + 1) = .ok f := by
    unfold prediction
    rw [hxb]
    simp [EKF.notCached]
  have p2 : predictSensor f (k + 1) = .ok f := by
    unfold predictSensor
    rw [hyb]
    simp [EKF.notCached]
  have hd : (Arith.default : Arith).measurementDifference ⟨m, w⟩ ⟨m, yb⟩ = .ok ⟨m, w - yb⟩ := by simp [Arith.default, DVec.sub]
  have hmv : ∀ K : Matrix (Fin 35) (Fin m) ℝ, (⟨35, m, K⟩ : DMat).mulVec ⟨m, w - yb⟩ = .ok ⟨35, K *ᵥ (w - yb)⟩ := fun K => by simp [DMat.mulVec]
  have hgy : f.y.get (k + 1) = .ok ⟨m, w⟩ := by rw [hy]; simp [IArr.get, IArr.checkIndex]
  constructor
  · intro g hR e
    unfold oneStep at e
    simp only [hx, virt, Res.bind_eq_ok, p1, p2, Res.ok.injEq, exists_eq_left', hxb, hyb, val, hgy] at e
    obtain ⟨_, -, _, -, _, -, _, -, _, -, _, -, ⟨xhat, P', inn, K⟩, hc, e⟩ := e
    obtain ⟨h1, rfl, rfl, ino, h2, h3, h4⟩ := correct_ok hm hQ hP hR hc
    rw [har, hd] at h2
    cases h2
    rw [hmv] at h3
    cases h3
    rw [har, stateSum_default] at h4
    cases h4
    exact ⟨h1, by rw [← e]; simp only [hxb, hyb]⟩
  · intro hR
    unfold oneStep
    simp only [hx, virt, p1, p2, Res.ok_bind, hxb, hyb, val, hgy]
    rw [correct_eq hm hQ hP hR, har, hd]
    simp only [Res.ok_bind, hmv, stateSum_default]
    have c0 : (decide (f.y.size > 0) && f.y.checkIndex (k + 1)) = true := by rw [hy]; simp [IArr.size, IArr.checkIndex]
    have c1 : f.st.checkA f.st.a = true := by rw [KData.checkA, hm.a, hm.hnt]; simp [DMat.hasSize]
    have c2 : f.st.checkC f.st.c = true := by rw [KData.checkC, hm.c, hm.hnt, hm.hmt]; simp [DMat.hasSize]
    have c3 : f.st.checkQ f.st.q = true := by rw [KData.checkQ, hm.q, hm.hnt]; simp [DMat.hasSize]
    have c4 : f.st.checkR f.st.r = true := by rw [KData.checkR, hm.r, hm.hmt]; simp [DMat.hasSize]
    have c5 : f.st.checkP f.st.pr = true := by rw [KData.checkP, hm.pr, hm.hnt]; simp [DMat.hasSize]
    simp only [c0, c1, c2, c3, c4, c5, Res.assert_true, Res.ok_bind]
    exact ⟨_, rfl⟩

/-- The converse of `getVector_ok`. -/
theorem getVector_of {s : Est} (hi : Inv s) (hon : s.on = true) (hy : s.ekf.y.v ≠ []) {f1 f : Filter} {z : Fin 35 → ℝ} (hj : jacobians s.fd s.ekf = .ok f1) (hs : oneStep virt f1 = .ok f)
    (hz : f.x = some (⟨35, z⟩, s.k + 1)) (hu : s.ekf.u.v ≠ []) :
    (∃ t, s.getFlexibilityVector = .ok t) ∨ s.getFlexibilityVector = .ub ∧ regulateOrientationVector (seg 3 z Elastic.iOri) = .ub := by
  obtain ⟨x, hx⟩ := hi.f.x
  rcases hi.f.y with hy0 | ⟨w, hy1⟩
  · exact absurd hy0 hy
  have u1 := jacobians_upd hi.f.reach hj
  have i1 := u1.inv hi.f
  have hx1 : f1.x = some (⟨35, x⟩, s.k) := by rw [u1.x, hx]
  obtain ⟨g1, g2, xb, yb, y, xhat, P, inn, K, -, -, up, -, -, -, -, -, -, -, e'⟩ := oneStep_ok' i1.reach hx1 hs
  have hfy : f.y = ⟨s.k + 1, [⟨_, w⟩]⟩ := by rw [e']; exact up.y.trans (u1.y.trans hy1)
  have hfu : f.u = s.ekf.u := by rw [e']; exact up.u.trans u1.u
  have hp : 0 < f.st.p := by rw [e']; show 0 < g2.st.p; rw [up.p, i1.p]; omega
  have hn : f.st.n = 35 := by rw [e']; exact up.n.trans i1.n
  have hsz : s.ekf.y.size > 0 := by rw [hy1]; simp [IArr.size]
  have e1 : s.ekf.getMeasurementTime = .ok (s.k + 1) := by simp [Obs.getMeasurementTime, hy1, IArr.getLastIndex, IArr.size]
  obtain ⟨U, hU⟩ : ∃ U, popIf (s.k + 1) f.u = .ok U := by
    rw [hfu]
    rcases hi.f.u with h | ⟨a, h⟩ | ⟨a, b, h⟩
    · exact absurd h hu
    · rw [h]; simp [popIf, IArr.getFirstIndex, IArr.popFront]
    · rw [h]; simp [popIf, IArr.getFirstIndex, IArr.popFront]
  have hest : KF.getEstimatedState virt f1 (s.k + 1) = .ok { f with u := U } := by
    have hp1 : (cfg f1).p > 0 := by show f1.st.p > 0; rw [i1.p]; omega
    simp only [KF.getEstimatedState, Obs.getEstimatedState, getCurrentTime, hx1, Res.ok_bind, show decide (s.k ≤ s.k + 1) = true by simp, Res.assert_true,
      show (s.k + 1 - s.k).toNat = 1 by omega, loop, loopBody]
    rw [hs]
    have : popIf (s.k + 1) f.y = .ok f.y := by rw [hfy]; simp [popIf, IArr.getFirstIndex]
    simp only [Res.ok_bind, this, hp1, if_true, hU]
  have hest0 : KF.getEstimatedState virt { f with u := U } (s.k + 1) = .ok { f with u := U } := by
    simp only [KF.getEstimatedState, Obs.getEstimatedState, getCurrentTime, hz, Res.ok_bind, show decide (s.k + 1 ≤ s.k + 1) = true by simp, Res.assert_true,
      show (s.k + 1 - (s.k + 1)).toNat = 0 by omega, loop]
  obtain ⟨F, hF⟩ : ∃ F : Filter, F = { f with u := U } := ⟨_, rfl⟩
  rw [← hF] at hest hest0
  have hFx : F.x = some (⟨35, z⟩, s.k + 1) := by rw [hF]; exact hz
  rw [Est.getFlexibilityVector, if_pos hon, if_pos hsz]
  simp only [e1, Res.ok_bind, getCurrentTime, hx, show (s.k + 1 - s.k).toNat = 1 by omega, estimate, hj, hest, hest0, hFx, val, dif_pos, Fin.cast_eq_self]
  have hr : (∃ o, regulateOrientationVector (seg 3 z Elastic.iOri) = .ok o) ∨ regulateOrientationVector (seg 3 z Elastic.iOri) = .ub := by
    unfold regulateOrientationVector
    dsimp only
    split_ifs <;> simp
  rcases hr with ⟨o, ho⟩ | ho
  · left
    have hl := obsSetState_live F (s.saturate (setSeg z Elastic.iOri o)) (s.k + 1) (by rw [hF]; exact hn) (by rw [hF]; exact hp)
    rw [ho]
    simp only [Res.ok_bind]
    refine ⟨_, (congrArg (fun r => Res.bind r _) hl).trans rfl⟩
  · right
    rw [ho]
    exact ⟨rfl, rfl⟩

end StateObs.ModelFlex
