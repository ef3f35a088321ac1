import Verif.Flex.Model
import Verif.EKF.StepForm
import Verif.EKF.CacheProps
/-! # What the calls of the flexibility estimator leave unchanged in the filter -/

namespace StateObs.Flex
open StateObs KF Imu Rot Kine Matrix

/-- Everything except the Jacobians, the covariance of the state, the stored predictions, gain and innovation. -/
structure Same (a b : KData EKF.Ext) : Prop where
  n : b.n = a.n
  nt : b.nt = a.nt
  m : b.m = a.m
  mt : b.mt = a.mt
  p : b.p = a.p
  q : b.q = a.q
  r : b.r = a.r
  arith : b.arith = a.arith
  f : b.ext.f = a.ext.f
  dirOut : b.ext.dirOut = a.ext.dirOut
  dirState : b.ext.dirState = a.ext.dirState

theorem Same.refl (a : KData EKF.Ext) : Same a a := ⟨rfl, rfl, rfl, rfl, rfl, rfl, rfl, rfl, rfl, rfl, rfl⟩

theorem Same.trans {a b c : KData EKF.Ext} (h : Same a b) (g : Same b c) : Same a c :=
  ⟨g.n.trans h.n, g.nt.trans h.nt, g.m.trans h.m, g.mt.trans h.mt, g.p.trans h.p, g.q.trans h.q, g.r.trans h.r, g.arith.trans h.arith,
    g.f.trans h.f, g.dirOut.trans h.dirOut, g.dirState.trans h.dirState⟩

/-- The same, and the covariance and the buffers. -/
structure Keeps (s t : KFilter EKF.Ext) : Prop where
  same : Same s.st t.st
  pr : t.st.pr = s.st.pr
  x : t.x = s.x
  y : t.y = s.y
  u : t.u = s.u

theorem Keeps.refl (s : KFilter EKF.Ext) : Keeps s s := ⟨Same.refl _, rfl, rfl, rfl, rfl⟩
theorem Keeps.trans {a b c : KFilter EKF.Ext} (h : Keeps a b) (g : Keeps b c) : Keeps a c :=
  ⟨h.same.trans g.same, g.pr.trans h.pr, g.x.trans h.x, g.y.trans h.y, g.u.trans h.u⟩

theorem prediction_keeps {s t : KFilter EKF.Ext} {k : Int} (h : EKF.prediction s k = .ok t) : Keeps s t := by
  unfold EKF.prediction at h
  by_cases h1 : EKF.notCached s.st.xbar k = true
  · rw [if_pos h1] at h
    simp only [Res.bind_eq_ok] at h
    obtain ⟨u, -, h⟩ := h
    cases hf : s.st.ext.f with
    | none => rw [hf] at h; simp at h
    | some f =>
      cases hx : s.x with
      | none => rw [hf, hx] at h; simp at h
      | some q =>
        rw [hf, hx] at h
        simp only [Res.bind_eq_ok] at h
        obtain ⟨v, -, h⟩ := h
        cases h
        exact ⟨⟨rfl, rfl, rfl, rfl, rfl, rfl, rfl, rfl, by simp [hf], rfl, rfl⟩, rfl, by simp [hx], rfl, rfl⟩
  · rw [if_neg h1] at h
    cases h; exact Keeps.refl _

theorem predictSensor_keeps {s t : KFilter EKF.Ext} {k : Int} (h : EKF.predictSensor s k = .ok t) : Keeps s t := by
  unfold EKF.predictSensor at h
  split_ifs at h with h1
  · simp only [Res.bind_eq_ok] at h
    obtain ⟨xb, -, ⟨y, u⟩, -, h⟩ := h
    cases h
    exact ⟨⟨rfl, rfl, rfl, rfl, rfl, rfl, rfl, rfl, rfl, rfl, rfl⟩, rfl, rfl, rfl, rfl⟩
  · cases h; exact Keeps.refl _

theorem optU_keeps (s : KFilter EKF.Ext) (u : DVec) :
    Keeps s { s with st := { s.st with ext := { s.st.ext with optU := u } } } :=
  ⟨⟨rfl, rfl, rfl, rfl, rfl, rfl, rfl, rfl, rfl, rfl, rfl⟩, rfl, rfl, rfl, rfl⟩

theorem updateStatePrediction_keeps {s t : KFilter EKF.Ext} (h : EKF.updateStatePrediction s = .ok t) : Keeps s t := by
  simp only [EKF.updateStatePrediction, Res.bind_eq_ok] at h
  obtain ⟨k, -, h⟩ := h
  exact prediction_keeps h

theorem updateBoth_keeps {s t : KFilter EKF.Ext} (h : EKF.updateStateAndMeasurementPrediction s = .ok t) : Keeps s t := by
  simp only [EKF.updateStateAndMeasurementPrediction, Res.bind_eq_ok] at h
  obtain ⟨s1, h1, k, -, h⟩ := h
  exact (updateStatePrediction_keeps h1).trans (predictSensor_keeps h)

theorem getA_keeps {s t : KFilter EKF.Ext} {dx : DVec} {A : DMat} (h : EKF.getAMatrixFD s dx = .ok (A, t)) : Keeps s t := by
  simp only [EKF.getAMatrixFD, Res.bind_eq_ok] at h
  obtain ⟨k, -, s1, h1, x, -, u, -, c, -, h⟩ := h
  cases h
  exact (updateStatePrediction_keeps h1).trans (optU_keeps _ _)

theorem getC_keeps {s t : KFilter EKF.Ext} {dx : DVec} {C : DMat} (h : EKF.getCMatrixFD s dx = .ok (C, t)) : Keeps s t := by
  simp only [EKF.getCMatrixFD, Res.bind_eq_ok] at h
  obtain ⟨k, -, s1, h1, s2, h2, c, -, u, -, h⟩ := h
  cases h
  exact ((updateBoth_keeps h1).trans (prediction_keeps h2)).trans (optU_keeps _ _)

theorem setA_keeps {s t : KFilter EKF.Ext} {A : DMat} (h : setA s A = .ok t) : Keeps s t := by
  simp only [setA, Res.bind_eq_ok] at h
  obtain ⟨_, -, h⟩ := h
  cases h
  exact ⟨⟨rfl, rfl, rfl, rfl, rfl, rfl, rfl, rfl, rfl, rfl, rfl⟩, rfl, rfl, rfl, rfl⟩

theorem setC_keeps {s t : KFilter EKF.Ext} {A : DMat} (h : setC s A = .ok t) : Keeps s t := by
  simp only [setC, Res.bind_eq_ok] at h
  obtain ⟨_, -, h⟩ := h
  cases h
  exact ⟨⟨rfl, rfl, rfl, rfl, rfl, rfl, rfl, rfl, rfl, rfl, rfl⟩, rfl, rfl, rfl, rfl⟩

theorem jacobians_keeps {fd : Bool} {dx : DVec} {s t : KFilter EKF.Ext} (h : jacobians fd dx s = .ok t) : Keeps s t := by
  unfold jacobians at h
  split_ifs at h
  · simp only [Res.bind_eq_ok] at h
    obtain ⟨⟨A, s1⟩, h1, s2, h2, ⟨C, s3⟩, h3, h4⟩ := h
    exact (((getA_keeps h1).trans (setA_keeps h2)).trans (getC_keeps h3)).trans (setC_keeps h4)
  · cases h; exact Keeps.refl _

theorem oneStep_same {s t : KFilter EKF.Ext} (h : oneStep EKF.virt s = .ok t) : Same s.st t.st := by
  rw [EKF.oneStep_form] at h
  unfold Obs.kalmanStep at h
  cases hx : s.x with
  | none => rw [hx] at h; simp at h
  | some q =>
    obtain ⟨x, k⟩ := q
    rw [hx] at h
    simp only [Res.bind_eq_ok, EKF.stepF] at h
    obtain ⟨y, -, ⟨st, x'⟩, ⟨_, -, _, -, _, -, _, -, _, -, ⟨xb, o⟩, -, ⟨yb, o'⟩, -, ⟨xh, P, i, K⟩, -, h1⟩, h2⟩ := h
    cases h1; cases h2
    exact ⟨rfl, rfl, rfl, rfl, rfl, rfl, rfl, rfl, rfl, rfl, rfl⟩

theorem getEstimated_same {s t : KFilter EKF.Ext} {k : Int} (h : EKF.getEstimatedState s k = .ok t) : Same s.st t.st :=
  getEstimatedState_inv (fun st => Same s.st st) (fun _ _ h hI => hI.trans (oneStep_same h)) s t k h (Same.refl _)

theorem getEstimated_cov {s t : KFilter EKF.Ext} {k : Int} (h : EKF.getEstimatedState s k = .ok t) (hc : CovInv s) : CovInv t :=
  getEstimatedState_inv (fun st => IsPSD st.pr ∧ IsPSD st.q ∧ IsPD st.r)
    (fun _ _ h hI => C15_step EKF.ekf_keeps h hI.1 hI.2.1 hI.2.2) s t k h hc

theorem Keeps.cov {s t : KFilter EKF.Ext} (h : Keeps s t) (hc : CovInv s) : CovInv t := by
  unfold CovInv
  rw [h.pr, h.same.q, h.same.r]
  exact hc

theorem estimate_same {fd : Bool} {dx : DVec} : ∀ (n : ℕ) (i : Int) (s t : KFilter EKF.Ext), estimate fd dx n i s = .ok t →
    Same s.st t.st ∧ (CovInv s → CovInv t)
  | 0, _, s, t, h => by cases h; exact ⟨Same.refl _, id⟩
  | n + 1, i, s, t, h => by
    simp only [estimate, Res.bind_eq_ok] at h
    obtain ⟨s1, h1, s2, h2, h3⟩ := h
    have k1 := jacobians_keeps h1
    obtain ⟨e, c⟩ := estimate_same n (i + 1) s2 t h3
    exact ⟨(k1.same.trans (getEstimated_same h2)).trans e, fun hc => c (getEstimated_cov h2 (k1.cov hc))⟩

end StateObs.Flex
