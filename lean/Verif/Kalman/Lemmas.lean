import Verif.Kalman.Model
import Verif.Kalman.Algebra
import Verif.ZeroDelay.Lemmas
/-! # Reduction of the dynamically sized step to the typed equations -/

namespace StateObs.KF
open StateObs Matrix KFSpec
variable {E : Type}

/-- The matrices of a filter have the given (right) sizes and values. -/
structure HasMats (st : KData E) (nt mt : ℕ) (A Q P : Matrix (Fin nt) (Fin nt) ℝ) (C : Matrix (Fin mt) (Fin nt) ℝ)
    (R : Matrix (Fin mt) (Fin mt) ℝ) : Prop where
  hnt : st.nt = nt
  hmt : st.mt = mt
  a : st.a = ⟨nt, nt, A⟩
  q : st.q = ⟨nt, nt, Q⟩
  pr : st.pr = ⟨nt, nt, P⟩
  c : st.c = ⟨mt, nt, C⟩
  r : st.r = ⟨mt, mt, R⟩

/-- The checks of `oneStepEstimation_` pass exactly if the matrices have the right sizes. -/
theorem hasMats_of_checks (st : KData E) (ha : st.checkA st.a = true) (hc : st.checkC st.c = true)
    (hq : st.checkQ st.q = true) (hr : st.checkR st.r = true) (hp : st.checkP st.pr = true) :
    ∃ A Q P C R, HasMats st st.nt st.mt A Q P C R := by
  obtain ⟨A, hA⟩ := (DMat.hasSize_iff _ _ _).1 ha
  obtain ⟨C, hC⟩ := (DMat.hasSize_iff _ _ _).1 hc
  obtain ⟨Q, hQ⟩ := (DMat.hasSize_iff _ _ _).1 hq
  obtain ⟨R, hR⟩ := (DMat.hasSize_iff _ _ _).1 hr
  obtain ⟨P, hP⟩ := (DMat.hasSize_iff _ _ _).1 hp
  exact ⟨A, Q, P, C, R, ⟨rfl, rfl, hA, hQ, hP, hC, hR⟩⟩

theorem HasMats.checks {st : KData E} {nt mt A Q P C R} (h : HasMats st nt mt A Q P C R) :
    st.checkA st.a = true ∧ st.checkC st.c = true ∧ st.checkQ st.q = true ∧ st.checkR st.r = true ∧
      st.checkP st.pr = true := by
  simp [KData.checkA, KData.checkC, KData.checkQ, KData.checkR, KData.checkP, h.a, h.c, h.q, h.r, h.pr, h.hnt, h.hmt]

theorem correct_eq {st : KData E} {nt mt A Q P C R} (h : HasMats st nt mt A Q P C R) (hQ : Q.PosSemidef)
    (hP : P.PosSemidef) (hR : R.PosDef) (xb yb y : DVec) :
    correct st xb yb y = (do
      let ino ← st.arith.measurementDifference y yb
      let innovation ← (⟨nt, mt, gain C R (predCov A Q P)⟩ : DMat).mulVec ino
      let xhat ← st.arith.stateSum xb innovation
      .ok (xhat, ⟨nt, nt, posterior C R (predCov A Q P)⟩, innovation, ⟨nt, mt, gain C R (predCov A Q P)⟩)) := by
  have e1 : Q + A * (P * Aᵀ) = predCov A Q P := by rw [predCov, Matrix.mul_assoc, add_comm]
  have e2 : R + C * (predCov A Q P * Cᵀ) = innovCov C R (predCov A Q P) := by
    rw [innovCov, Matrix.mul_assoc, add_comm]
  have hM := predCov_psd (A := A) hQ hP
  have e3 : lltInverse (innovCov C R (predCov A Q P)) = .ok (innovCov C R (predCov A Q P))⁻¹ :=
    lltInverse_posDef _ (innovCov_pd hR hM)
  have e4 : predCov A Q P * (Cᵀ * (innovCov C R (predCov A Q P))⁻¹) = gain C R (predCov A Q P) := by
    rw [gain, Matrix.mul_assoc]
  have e5 : (-gain C R (predCov A Q P) * C + 1) * predCov A Q P = posterior C R (predCov A Q P) := by
    rw [posterior, Matrix.neg_mul, neg_add_eq_sub]
  have e6 : (0.5 : ℝ) • (posterior C R (predCov A Q P) + (posterior C R (predCov A Q P))ᵀ) =
      posterior C R (predCov A Q P) := by
    rw [psd_symm (posterior_psd hR hM), ← two_smul ℝ, smul_smul]; norm_num
  simp only [correct, h.a, h.q, h.pr, h.c, h.r, DMat.transpose_mk, DMat.mul_mk, DMat.add_mk, Res.ok_bind, e1]
  cases st.arith.measurementDifference y yb with
  | assertFail => rfl
  | ub => rfl
  | exn => rfl
  | ok ino =>
    simp only [Res.ok_bind, DMat.mul_mk, DMat.add_mk, e2, lltInv_mk, e3, e4, DMat.neg_mk, DMat.addDiagOne_mk, e5,
      DMat.transpose_mk, DMat.smul_mk, e6]

/-- A derived class whose predictions only store `xbar_`, `ybar_` (and its own members), as both derived classes do. -/
structure KeepsFilter (V : Virt E) : Prop where
  pred : ∀ s s' k, V.prediction s k = .ok s' →
    ∃ xb e, s' = { s with st := { s.st with xbar := xb, ext := e } }
  sens : ∀ s s' k, V.predictSensor s k = .ok s' →
    ∃ yb e, s' = { s with st := { s.st with ybar := yb, ext := e } }

theorem lkf_keeps : KeepsFilter LKF.virt where
  pred := by
    intro s s' k h
    simp only [LKF.virt, LKF.prediction, Res.bind_eq_ok] at h
    obtain ⟨_, -, _, -, _, -, x, -, xb, -, h⟩ := h
    split_ifs at h
    · simp only [Res.bind_eq_ok] at h
      obtain ⟨_, -, u, -, bu, -, xb', -, h⟩ := h
      cases h; exact ⟨_, s.st.ext, rfl⟩
    · cases h; exact ⟨_, s.st.ext, rfl⟩
  sens := by
    intro s s' k h
    simp only [LKF.virt, LKF.predictSensor, Res.bind_eq_ok] at h
    obtain ⟨_, -, y, -, h⟩ := h
    cases h; exact ⟨_, s.st.ext, rfl⟩

end StateObs.KF
