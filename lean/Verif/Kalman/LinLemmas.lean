import Verif.Kalman.Props
/-! # The linear filter: typed form of a step -/

namespace StateObs.LKF
open StateObs Matrix KFSpec KF
variable {n m p : ℕ}

/-- The filter has the sizes `n`, `m`, `p`, the default arithmetic and the matrices of the model `d` (an unset `D` counts as zero), and
covariance `P`. -/
structure HasModel (s : KFilter Ext) (d : LinModel n m p) (P : Matrix (Fin n) (Fin n) ℝ) : Prop where
  hn : s.st.n = n
  hm : s.st.m = m
  hp : s.st.p = p
  mats : HasMats s.st n m d.A d.Q P d.C d.R
  ar : s.st.arith = Arith.default
  b : s.st.ext.b = ⟨n, p, d.B⟩
  d : s.st.ext.d = ⟨m, p, d.D⟩ ∨ (checkD s.st s.st.ext.d = false ∧ d.D = 0)

theorem prediction_eq {s : KFilter Ext} {d : LinModel n m p} {P} (h : HasModel s d P) (x : Fin n → ℝ) (k : Int)
    (hx : s.x = some (⟨n, x⟩, k)) (u : Fin p → ℝ) (hu : p = 0 ∨ d.B = 0 ∨ s.u.get k = .ok ⟨p, u⟩) :
    prediction s (k + 1) = .ok { s with st := { s.st with xbar := some (⟨n, predState d u x⟩, k + 1) } } := by
  obtain ⟨h1, h2, -, -, -⟩ := h.mats.checks
  have hb : checkB s.st s.st.ext.b = true := by simp [checkB, h.b, h.hn, h.hp]
  unfold prediction
  simp only [h1, hb, h2, Res.assert_true, Res.ok_bind]
  simp only [hx, val, h.mats.a, DMat.mulVec_mk, Res.ok_bind]
  by_cases hc : s.st.p > 0 ∧ s.st.ext.b ≠ DMat.zero s.st.n s.st.p
  · have hp : p ≠ 0 := by have := hc.1; rw [h.hp] at this; omega
    have hB : d.B ≠ 0 := by
      intro h0; apply hc.2; rw [h.b, h.hn, h.hp, h0]; rfl
    have hg : s.u.get k = .ok ⟨p, u⟩ := by tauto
    have hk : s.u.checkIndex k = true := by
      simp only [IArr.get] at hg
      cases hci : s.u.checkIndex k with
      | false => rw [hci] at hg; simp at hg
      | true => rfl
    rw [if_pos hc]
    simp only [show k + 1 - 1 = k by omega, hk, Res.assert_true, Res.ok_bind, hg, h.b, DMat.mulVec_mk, DVec.add_mk]
    rfl
  · rw [if_neg hc]
    have : d.B *ᵥ u = 0 := by
      by_cases hp : p = 0
      · subst hp
        ext i; simp [Matrix.mulVec, dotProduct]
      · have : d.B = 0 := by
          by_contra hB
          apply hc
          refine ⟨by rw [h.hp]; omega, fun h0 => hB ?_⟩
          rw [h.b, h.hn, h.hp] at h0
          exact DMat.mk_eq.1 h0
        rw [this, Matrix.zero_mulVec]
    simp only [predState, this, add_zero]

theorem predictSensor_eq {s : KFilter Ext} {d : LinModel n m p} {P} (h : HasModel s d P) (xb : Fin n → ℝ) (k t : Int)
    (hx : s.st.xbar = some (⟨n, xb⟩, t)) (u : Fin p → ℝ) (hu : p = 0 ∨ d.D = 0 ∨ s.u.get k = .ok ⟨p, u⟩) :
    predictSensor s k = .ok { s with st := { s.st with ybar := some (⟨m, predMeas d u xb⟩, k) } } := by
  obtain ⟨-, h2, -, -, -⟩ := h.mats.checks
  unfold predictSensor simulateSensor
  simp only [h2, Res.assert_true, Res.ok_bind]
  simp only [hx, val, h.mats.c, DMat.mulVec_mk, Res.ok_bind]
  by_cases hc : s.st.p > 0 ∧ checkD s.st s.st.ext.d = true ∧ s.st.ext.d ≠ DMat.zero s.st.m s.st.p
  · have hp : p ≠ 0 := by have := hc.1; rw [h.hp] at this; omega
    have hd : s.st.ext.d = ⟨m, p, d.D⟩ := by
      rcases h.d with h' | h'
      · exact h'
      · rw [h'.1] at hc; simp at hc
    have hD : d.D ≠ 0 := by
      intro h0; apply hc.2.2; rw [hd, h.hm, h.hp, h0]; rfl
    have hg : s.u.get k = .ok ⟨p, u⟩ := by tauto
    have hk : s.u.checkIndex k = true := by
      simp only [IArr.get] at hg
      cases hci : s.u.checkIndex k with
      | false => rw [hci] at hg; simp at hg
      | true => rfl
    rw [if_pos hc]
    simp only [hk, Res.assert_true, Res.ok_bind, hg, hd, DMat.mulVec_mk, DVec.add_mk]
    rfl
  · rw [if_neg hc]
    have : d.D *ᵥ u = 0 := by
      by_cases hp : p = 0
      · subst hp
        ext i; simp [Matrix.mulVec, dotProduct]
      · have : d.D = 0 := by
          rcases h.d with hd | h'
          · by_contra hD
            apply hc
            refine ⟨by rw [h.hp]; omega, by simp [checkD, hd, h.hm, h.hp], fun h0 => hD ?_⟩
            rw [hd, h.hm, h.hp] at h0
            exact DMat.mk_eq.1 h0
          · exact h'.2
        rw [this, Matrix.zero_mulVec]
    simp only [predMeas, this, add_zero, Res.ok_bind]

/-- A step of the linear filter, completely. -/
theorem oneStep_eq {s : KFilter Ext} {d : LinModel n m p} {P} (h : HasModel s d P) (hd : d.Ok) (hP : P.PosSemidef)
    (x : Fin n → ℝ) (k : Int) (hx : s.x = some (⟨n, x⟩, k)) (i : StepIn m p) (hy : s.y.get (k + 1) = .ok ⟨m, i.y⟩)
    (hu : p = 0 ∨ d.B = 0 ∨ s.u.get k = .ok ⟨p, i.u⟩) (hu' : p = 0 ∨ d.D = 0 ∨ s.u.get (k + 1) = .ok ⟨p, i.u'⟩) :
    oneStep virt s = .ok { s with
      x := some (⟨n, (linStep d i (x, P)).1⟩, k + 1)
      st := { s.st with
        xbar := some (⟨n, predState d i.u x⟩, k + 1)
        ybar := some (⟨m, predMeas d i.u' (predState d i.u x)⟩, k + 1)
        pr := ⟨n, n, (linStep d i (x, P)).2⟩
        innovation := ⟨n, gain d.C d.R (predCov d.A d.Q P) *ᵥ (i.y - predMeas d i.u' (predState d i.u x))⟩
        kGain := ⟨n, m, gain d.C d.R (predCov d.A d.Q P)⟩ } } := by
  obtain ⟨h1, h2, h3, h4, h5⟩ := h.mats.checks
  have hc : (decide (s.y.size > 0) && s.y.checkIndex (k + 1)) = true := by
    have h0 : s.y.checkIndex (k + 1) = true := by
      simp only [IArr.get] at hy
      cases hci : s.y.checkIndex (k + 1) with
      | false => rw [hci] at hy; simp at hy
      | true => rfl
    have : s.y.size > 0 := by
      simp only [IArr.checkIndex, Bool.and_eq_true, decide_eq_true_eq] at h0
      exact h0.1.1
    simp [this, h0]
  unfold oneStep
  rw [hx]
  simp only [hc, h1, h2, h3, h4, h5, Res.assert_true, Res.ok_bind, virt]
  rw [prediction_eq h x k hx i.u hu, Res.ok_bind]
  have hm2 : HasModel { s with st := { s.st with xbar := some (⟨n, predState d i.u x⟩, k + 1) } } d P :=
    ⟨h.hn, h.hm, h.hp, ⟨h.mats.hnt, h.mats.hmt, h.mats.a, h.mats.q, h.mats.pr, h.mats.c, h.mats.r⟩, h.ar, h.b, h.d⟩
  rw [predictSensor_eq hm2 (predState d i.u x) (k + 1) (k + 1) rfl i.u' hu', Res.ok_bind]
  simp only [val, Res.ok_bind, hy]
  have hm3 : HasMats { s.st with xbar := some (⟨n, predState d i.u x⟩, k + 1), ybar := some (⟨m, predMeas d i.u' (predState d i.u x)⟩, k + 1) } n m d.A d.Q P d.C d.R :=
    ⟨h.mats.hnt, h.mats.hmt, h.mats.a, h.mats.q, h.mats.pr, h.mats.c, h.mats.r⟩
  rw [correct_eq hm3 hd.1 hP hd.2]
  simp only [h.ar, Arith.default, DVec.sub_mk, Res.ok_bind, DMat.mulVec_mk, DVec.add_mk, linStep]

end StateObs.LKF
