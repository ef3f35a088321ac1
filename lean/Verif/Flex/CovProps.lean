import Verif.Flex.Inv
import Verif.Flex.Spec
import Verif.Kalman.Algebra
import Mathlib.LinearAlgebra.Matrix.SchurComplement
import Mathlib.Analysis.Matrix.Order
/-! # C71: covariances of the flexibility estimator with fixed contacts -/

namespace StateObs.Flex
open StateObs KF Imu Rot Kine Matrix KFSpec

theorem resize_eq (l : List V3) (n : ℕ) : l.take n ++ List.replicate (n - l.length) 0 = (List.range n).map fun i => l.getD i 0 := by
  apply List.ext_getElem?
  intro i
  by_cases h1 : i < n
  · by_cases h2 : i < l.length
    · simp [List.getElem?_append, h1, h2, List.getElem?_take]
    · have : i - l.length < n - l.length := by omega
      simp [List.getElem?_append, h1, h2, List.getElem?_replicate]
      omega
  · rw [List.getElem?_eq_none (by simp; omega), List.getElem?_eq_none (by simp; omega)]

theorem defaultR_eq (i j : Fin 6) : defaultR i j = diag6 i j := by
  fin_cases i <;> fin_cases j <;> norm_num [defaultR, setBlock, diag6, Matrix.one_apply, Matrix.smul_apply]

/-- The estimator agrees with the request. -/
structure Agrees (dt : ℝ) (s : Fixed) (q : Request) : Prop where
  inv : Inv s
  dt : s.dtF = dt
  contacts : s.contacts = q.contacts
  vcov : s.vcov = q.virt
  R : ∀ i j, i < 6 → j < 6 → entry s.R i j = q.imu i j
  Q : ∀ i j, i < 18 → j < 18 → entry s.Q i j = q.proc i j

theorem entry_mk {r c : ℕ} (M : Matrix (Fin r) (Fin c) ℝ) (i : Fin r) (j : Fin c) : entry ⟨r, c, M⟩ i j = M i j := by
  simp [entry]

theorem entry_default (i j : ℕ) (hi : i < 6) (hj : j < 6) : entry ⟨6, 6, defaultR⟩ i j = diag6 i j := by
  rw [show entry ⟨6, 6, defaultR⟩ i j = defaultR ⟨i, hi⟩ ⟨j, hj⟩ from entry_mk defaultR ⟨i, hi⟩ ⟨j, hj⟩, defaultR_eq]

theorem setBlock_diagonal (d : Fin 18 → ℝ) (a : ℕ) (c : ℝ) :
    setBlock (diagonal d) a a (c • (1 : M3)) = diagonal fun i : Fin 18 => if a ≤ i.val ∧ i.val < a + 3 then c else d i := by
  funext i j
  simp only [setBlock, diagonal_apply, Fin.ext_iff]
  by_cases h : (a ≤ i.val ∧ i.val < a + 3) ∧ a ≤ j.val ∧ j.val < a + 3
  · rw [dif_pos h, if_pos h.1]
    simp only [Matrix.smul_apply, Matrix.one_apply, Fin.ext_iff, smul_eq_mul, mul_ite, mul_one, mul_zero]
    by_cases hij : i.val = j.val
    · rw [if_pos (by omega), if_pos hij]
    · rw [if_neg (by omega), if_neg hij]
  · rw [dif_neg h]
    by_cases hij : i.val = j.val
    · rw [if_pos hij, if_pos hij, if_neg (by omega)]
    · rw [if_neg hij, if_neg hij]

theorem defaultQ_eq (i j : Fin 18) : defaultQ i j = diag18 i j := by
  have h : (1e-8 : ℝ) • (1 : Matrix (Fin 18) (Fin 18) ℝ) = diagonal fun _ => 1e-8 := by
    rw [← diagonal_one, ← diagonal_smul]; congr; funext i; simp
  rw [defaultQ, withBlocks, h, setBlock_diagonal, setBlock_diagonal, setBlock_diagonal, setBlock_diagonal, diagonal_apply, diag18]
  simp only [Fin.ext_iff, iLinVel, iAngVel, iLinAcc, iAngAcc]
  by_cases hij : (i : ℕ) = j
  · rw [if_pos hij, if_pos hij]
    split_ifs <;> first | rfl | omega
  · rw [if_neg hij, if_neg hij]

theorem entry_defaultQ (i j : ℕ) (hi : i < 18) (hj : j < 18) : entry ⟨18, 18, defaultQ⟩ i j = diag18 i j := by
  rw [show entry ⟨18, 18, defaultQ⟩ i j = defaultQ ⟨i, hi⟩ ⟨j, hj⟩ from entry_mk defaultQ ⟨i, hi⟩ ⟨j, hj⟩, defaultQ_eq]

theorem getVector_params {s t : Fixed} (hi : Inv s) (h : s.getFlexibilityVector = .ok t) :
    t.dtF = s.dtF ∧ t.contacts = s.contacts ∧ t.vcov = s.vcov ∧ t.R = s.R ∧ t.Q = s.Q := by
  by_cases hy : s.ekf.y.v = []
  · rw [getVector_idle hy] at h; cases h; exact ⟨rfl, rfl, rfl, rfl, rfl⟩
  · obtain ⟨f1, f, z, o, -, -, -, -, -, -, -, -, rfl⟩ := getVector_ok hi hy h
    exact ⟨rfl, rfl, rfl, rfl, rfl⟩

theorem agrees_exec {dt : ℝ} {s t : Fixed} {q : Request} (ha : Agrees dt s q) (op : Op) (h : exec s op = .ok t) : Agrees dt t (q.after op) := by
  have hi := ha.inv
  have hi' := inv_exec hi op h
  cases op with
  | setContactsNumber n =>
    obtain ⟨R, y, c, hR, hy1, hy2, rfl⟩ := setContactsNumber_eq hi h
    exact ⟨hi', ha.dt, by rw [resize_eq, ha.contacts]; rfl, ha.vcov, ha.R, ha.Q⟩
  | setContactPosition i p =>
    simp only [exec, Fixed.setContactPosition, Res.bind_eq_ok] at h
    obtain ⟨_, -, h⟩ := h
    cases h
    exact ⟨hi', ha.dt, by simp only [Fixed.sync, Request.after, ha.contacts], ha.vcov, ha.R, ha.Q⟩
  | setMeasurement y =>
    simp only [exec, Fixed.setMeasurement] at h
    split_ifs at h with h1
    simp only [Res.bind_eq_ok] at h
    obtain ⟨f, hf, h⟩ := h
    cases h
    exact ⟨hi', ha.dt, ha.contacts, ha.vcov, ha.R, ha.Q⟩
  | setVirtualMeasurementsCovariance c =>
    obtain ⟨R, hR, hm, rfl⟩ := updateCov_eq h
    exact ⟨hi', ha.dt, ha.contacts, rfl, ha.R, ha.Q⟩
  | setMeasurementNoiseCovariance M =>
    simp only [exec, Fixed.setMeasurementNoiseCovariance, Res.bind_eq_ok] at h
    obtain ⟨_, -, h⟩ := h
    obtain ⟨R, hR, hm, rfl⟩ := updateCov_eq h
    exact ⟨hi', ha.dt, ha.contacts, ha.vcov, fun _ _ _ _ => rfl, ha.Q⟩
  | setProcessNoiseCovariance Q =>
    simp only [exec, Fixed.setProcessNoiseCovariance, setQ, Res.bind_eq_ok] at h
    obtain ⟨f, ⟨_, h1, hf⟩, h⟩ := h
    cases hf; cases h
    exact ⟨hi', ha.dt, ha.contacts, ha.vcov, ha.R, fun _ _ _ _ => rfl⟩
  | setFlexibilityGuess x =>
    obtain ⟨w, rfl, -⟩ := setGuess_eq hi h
    exact ⟨hi', ha.dt, ha.contacts, ha.vcov, ha.R, ha.Q⟩
  | setFlexibilityCovariance P =>
    simp only [exec, Res.bind_eq_ok] at h
    obtain ⟨b, -, h⟩ := h
    cases h
    exact ⟨hi', ha.dt, ha.contacts, ha.vcov, ha.R, ha.Q⟩
  | setInput u =>
    simp only [exec, Res.bind_eq_ok] at h
    obtain ⟨b, -, h⟩ := h
    cases h
    exact ⟨hi', ha.dt, ha.contacts, ha.vcov, ha.R, ha.Q⟩
  | setMeasurementInput u =>
    simp only [exec, Res.bind_eq_ok] at h
    obtain ⟨b, -, h⟩ := h
    cases h
    exact ⟨hi', ha.dt, ha.contacts, ha.vcov, ha.R, ha.Q⟩
  | resetCovarianceMatrices =>
    obtain ⟨hm, rfl⟩ := resetCov_eq h
    exact ⟨hi', ha.dt, ha.contacts, ha.vcov, fun i j hi hj => entry_default i j hi hj, fun i j hi hj => entry_defaultQ i j hi hj⟩
  | setSamplingPeriod dt =>
    cases h
    exact ⟨hi', ha.dt, ha.contacts, ha.vcov, ha.R, ha.Q⟩
  | getFlexibilityVector =>
    obtain ⟨h1, h2, h3, h4, h5⟩ := getVector_params hi h
    exact ⟨hi', h1.trans ha.dt, h2.trans ha.contacts, h3.trans ha.vcov, by rw [h4]; exact ha.R, by rw [h5]; exact ha.Q⟩
  | getFlexibility =>
    simp only [exec, Res.bind_eq_ok] at h
    obtain ⟨⟨M, t'⟩, h0, h2⟩ := h
    cases h2
    obtain ⟨h1, h2, h3, h4, h5⟩ := getVector_params hi (getFlexibility_of h0)
    exact ⟨hi', h1.trans ha.dt, h2.trans ha.contacts, h3.trans ha.vcov, by rw [h4]; exact ha.R, by rw [h5]; exact ha.Q⟩
  | getSimulatedMeasurement =>
    simp only [exec, Fixed.getSimulatedMeasurement, Res.bind_eq_ok] at h
    obtain ⟨_, ⟨t', h0, _, -, _, -, ⟨y, u⟩, -, h2⟩, h3⟩ := h
    cases h2; cases h3
    obtain ⟨h1, h2, h3, h4, h5⟩ := getVector_params hi h0
    exact ⟨hi', h1.trans ha.dt, h2.trans ha.contacts, h3.trans ha.vcov, by show ∀ i j, _ → _ → entry t'.R i j = _; rw [h4]; exact ha.R, by show ∀ i j, _ → _ → entry t'.Q i j = _; rw [h5]; exact ha.Q⟩
  | getPrediction =>
    simp only [exec, Res.bind_eq_ok] at h
    obtain ⟨f, hf, h⟩ := h
    cases h
    exact ⟨hi', ha.dt, ha.contacts, ha.vcov, ha.R, ha.Q⟩
  | getPredictedMeasurement =>
    simp only [exec, Res.bind_eq_ok] at h
    obtain ⟨f, hf, h⟩ := h
    cases h
    exact ⟨hi', ha.dt, ha.contacts, ha.vcov, ha.R, ha.Q⟩

theorem agrees_foldl (dt : ℝ) : ∀ (ops : List Op) {s t : Fixed} {q : Request}, Agrees dt s q → ops.foldlM exec s = .ok t →
    Agrees dt t (ops.foldl Request.after q)
  | [], s, t, q, hi, h => by cases h; exact hi
  | op :: ops, s, t, q, hi, h => by
    simp only [List.foldlM_cons, Res.bind_eq_ok] at h
    obtain ⟨s1, h1, h2⟩ := h
    exact agrees_foldl dt ops (agrees_exec hi op h1) h2

theorem agrees_run {dt : ℝ} {ops : List Op} {s : Fixed} (h : run dt ops = .ok s) : Agrees dt s (ops.foldl Request.after Request.start) := by
  obtain ⟨s0, h0, hi, e1, e2, e3, e4, e5, -⟩ := ctor_eq dt
  rw [run, h0, Res.ok_bind] at h
  exact agrees_foldl dt ops ⟨hi, e1, e2, e3, fun i j h1 h2 => by rw [e4]; exact entry_default i j h1 h2,
    fun i j h1 h2 => by rw [e5]; exact entry_defaultQ i j h1 h2⟩ h

/-- **C71** Whatever the calls made, the filter of the fixed-contact estimator works with the contacts last given, and with the measurement
covariance last asked for: the block of the user for the inertial measurements, then the variance of the virtual measurements on the diagonal,
three for each contact. -/
theorem C71_covariance (dt : ℝ) (ops : List Op) (s : Fixed) (h : run dt ops = .ok s) :
    let q := ops.foldl Request.after Request.start
    s.ekf.st.ext.f = some (functor dt q.contacts) ∧ s.ekf.st.m = 6 + 3 * q.contacts.length ∧
    s.ekf.st.r.rows = 6 + 3 * q.contacts.length ∧ s.ekf.st.r.cols = 6 + 3 * q.contacts.length ∧
    ∀ i j, i < 6 + 3 * q.contacts.length → j < 6 + 3 * q.contacts.length → entry s.ekf.st.r i j = q.covariance i j := by
  intro q
  have ha := agrees_run h
  change Agrees dt s q at ha
  obtain ⟨R, hR, hr⟩ := ha.inv.r
  refine ⟨by rw [ha.inv.f, ha.contacts, ha.dt], by rw [ha.inv.m, ha.contacts], by rw [hr, ha.contacts], by rw [hr, ha.contacts], ?_⟩
  rw [hr, ha.contacts]
  intro i j hi hj
  rw [show entry _ i j = fullR (6 + 3 * q.contacts.length) R s.vcov ⟨i, hi⟩ ⟨j, hj⟩ from entry_mk _ (⟨i, hi⟩ : Fin _) (⟨j, hj⟩ : Fin _)]
  have hE := ha.R i j
  rw [hR] at hE
  simp only [fullR, setDiag, setBlock, Request.covariance, Matrix.one_apply, Fin.mk.injEq, ha.vcov]
  by_cases h1 : i < 6
  · rw [if_neg (by omega)]
    by_cases h2 : j < 6
    · rw [dif_pos (by omega), if_pos ⟨h1, h2⟩, ← hE h1 h2]
      simp [entry, h1, h2]
    · rw [dif_neg (by omega), if_neg (by omega), if_neg (by omega), if_neg (by omega)]
  · rw [dif_neg (by omega), if_neg (by omega : ¬ (i < 6 ∧ j < 6))]
    by_cases h3 : i = j
    · rw [if_pos (by omega), if_pos h3]
    · rw [if_neg (by omega), if_neg h3, if_neg h3]

/-- **C71** Whatever the calls made, the filter works with the process covariance last asked for. -/
theorem C71_process (dt : ℝ) (ops : List Op) (s : Fixed) (h : run dt ops = .ok s) :
    s.ekf.st.q.rows = 18 ∧ s.ekf.st.q.cols = 18 ∧
    ∀ i j, i < 18 → j < 18 → entry s.ekf.st.q i j = (ops.foldl Request.after Request.start).proc i j := by
  have ha := agrees_run h
  obtain ⟨Q, hQ⟩ := ha.inv.q18
  have e : s.ekf.st.q = s.Q := ha.inv.q
  refine ⟨by rw [e, hQ], by rw [e, hQ], ?_⟩
  rw [e]; exact ha.Q

/-- The block diagonal matrix is positive definite. -/
theorem fullR_pd (k : ℕ) (R : Matrix (Fin 6) (Fin 6) ℝ) (hR : R.PosDef) (c : ℝ) (hc : 0 < c) : (fullR (6 + k) R c).PosDef := by
  have e : fullR (6 + k) R c = (fromBlocks R 0 0 (c • (1 : Matrix (Fin k) (Fin k) ℝ))).submatrix finSumFinEquiv.symm finSumFinEquiv.symm := by
    funext i j
    simp only [submatrix_apply]
    refine Fin.addCases (fun i => ?_) (fun i => ?_) i <;> refine Fin.addCases (fun j => ?_) (fun j => ?_) j
    · simp [fullR, setDiag, setBlock]
    · simp only [fullR, setDiag, setBlock, Matrix.one_apply, Fin.ext_iff, finSumFinEquiv_symm_apply_natAdd, finSumFinEquiv_symm_apply_castAdd,
        fromBlocks_apply₁₂, Matrix.zero_apply, Fin.val_natAdd, Fin.val_castAdd]
      rw [if_neg (by omega), dif_neg (by omega), if_neg (by omega)]
    · simp only [fullR, setDiag, setBlock, Matrix.one_apply, Fin.ext_iff, finSumFinEquiv_symm_apply_natAdd, finSumFinEquiv_symm_apply_castAdd,
        fromBlocks_apply₂₁, Matrix.zero_apply, Fin.val_natAdd, Fin.val_castAdd]
      rw [if_neg (by omega), dif_neg (by omega), if_neg (by omega)]
    · simp only [fullR, setDiag, setBlock, Matrix.one_apply, Fin.ext_iff, finSumFinEquiv_symm_apply_natAdd, fromBlocks_apply₂₂, Matrix.smul_apply,
        Fin.val_natAdd, smul_eq_mul, mul_ite, mul_one, mul_zero]
      by_cases hij : (i : ℕ) = j
      · rw [if_pos (by omega), if_pos hij]
      · rw [if_neg (by omega), dif_neg (by omega), if_neg (by omega), if_neg hij]
  rw [e]
  have hD : (c • (1 : Matrix (Fin k) (Fin k) ℝ)).PosDef := Matrix.PosDef.one.smul hc
  have hpsd : (fromBlocks R 0 0 (c • (1 : Matrix (Fin k) (Fin k) ℝ))).PosSemidef := by
    haveI := hR.isUnit.invertible
    have := (Matrix.PosDef.fromBlocks₁₁ (A := R) 0 (c • (1 : Matrix (Fin k) (Fin k) ℝ)) hR)
    simp only [conjTranspose_zero, Matrix.zero_mul, Matrix.mul_zero] at this
    exact this.2 (by rw [_root_.sub_zero]; exact hD.posSemidef)
  have hdet : IsUnit (fromBlocks R 0 0 (c • (1 : Matrix (Fin k) (Fin k) ℝ))) := by
    rw [Matrix.isUnit_iff_isUnit_det, det_fromBlocks_zero₂₁]
    exact ((Matrix.isUnit_iff_isUnit_det _).1 hR.isUnit).mul ((Matrix.isUnit_iff_isUnit_det _).1 hD.isUnit)
  exact ((Matrix.PosSemidef.posDef_iff_isUnit hpsd).2 hdet).submatrix finSumFinEquiv.symm.injective

theorem withBlocks_psd (e c d : ℝ) (he : 0 ≤ e) (hc : 0 ≤ c) (hd : 0 ≤ d) : (withBlocks (e • (1 : Matrix (Fin 18) (Fin 18) ℝ)) c d).PosSemidef := by
  have h : e • (1 : Matrix (Fin 18) (Fin 18) ℝ) = diagonal fun _ => e := by
    rw [← diagonal_one, ← diagonal_smul]; congr; funext i; simp
  rw [withBlocks, h, setBlock_diagonal, setBlock_diagonal, setBlock_diagonal, setBlock_diagonal]
  refine PosSemidef.diagonal fun i => ?_
  simp only [Pi.zero_apply]
  split_ifs <;> assumption

theorem defaultQ_psd : defaultQ.PosSemidef := withBlocks_psd _ _ _ (by norm_num) (by norm_num) (by norm_num)
theorem defaultP_psd : defaultP.PosSemidef := withBlocks_psd _ _ _ (by norm_num) (by norm_num) (by norm_num)

theorem defaultR_pd : defaultR.PosDef := by
  have : defaultR = (1e-6 : ℝ) • (1 : Matrix (Fin 6) (Fin 6) ℝ) := by
    funext i j
    rw [defaultR_eq, Matrix.smul_apply, Matrix.one_apply, diag6]
    by_cases h : i = j
    · simp [h]
    · have : (i : ℕ) ≠ j := fun h' => h (Fin.ext h')
      simp [h, this]
  rw [this]
  exact PosDef.one.smul (by norm_num)

/-- Covariances of the filter. -/
structure Cov (s : Fixed) : Prop where
  pr : ∃ P, s.ekf.st.pr = ⟨18, 18, P⟩ ∧ P.PosSemidef
  q : IsPSD s.Q
  R : IsPD s.R
  vcov : 0 < s.vcov

theorem Cov.r {s : Fixed} (hc : Cov s) (hi : Inv s) : IsPD s.ekf.st.r := by
  obtain ⟨R, hR, hr⟩ := hi.r
  have := hc.R
  rw [hR, isPD_mk] at this
  rw [hr, isPD_mk]
  exact fullR_pd _ R this _ hc.vcov

theorem Cov.covInv {s : Fixed} (hc : Cov s) (hi : Inv s) : CovInv s.ekf := by
  obtain ⟨P, hP, hP'⟩ := hc.pr
  refine ⟨by rw [hP, isPSD_mk]; exact hP', by rw [hi.q]; exact hc.q, hc.r hi⟩

theorem getEstimated_cov18 {s t : KFilter EKF.Ext} {k : Int} (h : EKF.getEstimatedState s k = .ok t) (hc : CovInv s) (hn : s.st.nt = 18)
    (hp : ∃ P, s.st.pr = ⟨18, 18, P⟩ ∧ P.PosSemidef) : ∃ P, t.st.pr = ⟨18, 18, P⟩ ∧ P.PosSemidef := by
  refine (getEstimatedState_inv (fun st => (IsPSD st.pr ∧ IsPSD st.q ∧ IsPD st.r) ∧ st.nt = 18 ∧ ∃ P, st.pr = ⟨18, 18, P⟩ ∧ P.PosSemidef)
    (fun a b h hI => ⟨C15_step EKF.ekf_keeps h hI.1.1 hI.1.2.1 hI.1.2.2, (oneStep_same h).nt.trans hI.2.1, ?_⟩) s t k h ⟨hc, hn, hp⟩).2.2
  obtain ⟨⟨i1, i2, i3⟩, i4, i5⟩ := hI
  obtain ⟨x, k, st1, xb, yb, y, xhat, P', inn, K, -, -, -, ⟨h1, h2, h3, h4, h5⟩, -, -, -, hs⟩ := oneStep_ok EKF.ekf_keeps h
  obtain ⟨A, Q, P, C, R, hm⟩ := hasMats_of_checks _ h1 h2 h3 h4 h5
  have hP' : P.PosSemidef := by rw [hm.pr] at i1; exact isPSD_mk.1 i1
  have hQ' : Q.PosSemidef := by rw [hm.q] at i2; exact isPSD_mk.1 i2
  have hR' : R.PosDef := by rw [hm.r] at i3; exact isPD_mk.1 i3
  have e := (oneStep_cov EKF.ekf_keeps h hm hQ' hP' hR').1
  have hpsd := posterior_psd (C := C) hR' (predCov_psd (A := A) hQ' hP')
  rw [e]
  clear e hm
  revert A Q P C R
  rw [i4]
  intro A Q P C R _ _ _ hh
  exact ⟨_, rfl, hh⟩

theorem cov_getVector {s t : Fixed} (hi : Inv s) (hc : Cov s) (h : s.getFlexibilityVector = .ok t) : Cov t := by
  by_cases hy : s.ekf.y.v = []
  · rw [getVector_idle hy] at h; cases h; exact hc
  · obtain ⟨f1, f, z, o, h1, h2, -, -, -, -, -, -, rfl⟩ := getVector_ok hi hy h
    have k := jacobians_keeps h1
    refine ⟨?_, hc.q, hc.R, hc.vcov⟩
    exact (getEstimated_cov18 h2 (k.cov (hc.covInv hi)) (k.same.nt.trans hi.nt) (by rw [k.pr]; exact hc.pr) :)

theorem cov_exec {s t : Fixed} (hi : Inv s) (hc : Cov s) (op : Op) (ha : op.Admissible) (h : exec s op = .ok t) : Cov t := by
  cases op with
  | setContactsNumber n =>
    obtain ⟨R, y, c, hR, hy1, hy2, rfl⟩ := setContactsNumber_eq hi h
    exact ⟨hc.pr, hc.q, hc.R, hc.vcov⟩
  | setContactPosition i p =>
    simp only [exec, Fixed.setContactPosition, Res.bind_eq_ok] at h
    obtain ⟨_, -, h⟩ := h
    cases h
    exact ⟨hc.pr, hc.q, hc.R, hc.vcov⟩
  | setMeasurement y =>
    simp only [exec, Fixed.setMeasurement] at h
    split_ifs at h with h1
    simp only [Res.bind_eq_ok] at h
    obtain ⟨f, hf, h⟩ := h
    cases h
    exact ⟨by show ∃ P, f.st.pr = _ ∧ _; rw [obs_setMeasurement_st hf]; exact hc.pr, hc.q, hc.R, hc.vcov⟩
  | setVirtualMeasurementsCovariance c =>
    obtain ⟨R, hR, hm, rfl⟩ := updateCov_eq h
    exact ⟨hc.pr, hc.q, hc.R, ha⟩
  | setMeasurementNoiseCovariance M =>
    simp only [exec, Fixed.setMeasurementNoiseCovariance, Res.bind_eq_ok] at h
    obtain ⟨_, -, h⟩ := h
    obtain ⟨R, hR, hm, rfl⟩ := updateCov_eq h
    exact ⟨hc.pr, hc.q, ha, hc.vcov⟩
  | setProcessNoiseCovariance Q =>
    simp only [exec, Fixed.setProcessNoiseCovariance, setQ, Res.bind_eq_ok] at h
    obtain ⟨f, ⟨_, h1, hf⟩, h⟩ := h
    cases hf; cases h
    exact ⟨hc.pr, ha, hc.R, hc.vcov⟩
  | setFlexibilityGuess x =>
    obtain ⟨w, rfl, -⟩ := setGuess_eq hi h
    exact ⟨hc.pr, hc.q, hc.R, hc.vcov⟩
  | setFlexibilityCovariance P =>
    simp only [exec, Base.setFlexibilityCovariance, setStateCovariance, Res.bind_eq_ok] at h
    obtain ⟨b, ⟨f, ⟨_, h1, hf⟩, hb⟩, h⟩ := h
    cases hf; cases hb; cases h
    have h1 := asserted h1
    refine ⟨?_, hc.q, hc.R, hc.vcov⟩
    simp only [KData.checkP, hi.nt] at h1
    obtain ⟨A, hA⟩ := (DMat.hasSize_iff _ _ _).1 h1
    change IsPSD P at ha
    rw [hA, isPSD_mk] at ha
    exact ⟨A, hA, ha⟩
  | setInput u =>
    simp only [exec, Base.setInput, Res.bind_eq_ok] at h
    obtain ⟨b, ⟨f, hf, hb⟩, h⟩ := h
    cases hb; cases h
    exact ⟨by show ∃ P, f.st.pr = _ ∧ _; rw [obs_setInput_st hf]; exact hc.pr, hc.q, hc.R, hc.vcov⟩
  | setMeasurementInput u =>
    simp only [exec, Res.bind_eq_ok] at h
    obtain ⟨b, hb, h⟩ := h
    obtain ⟨w, a, -, rfl, -⟩ := setMeasInput_eq hi hb
    cases h
    exact ⟨hc.pr, hc.q, hc.R, hc.vcov⟩
  | resetCovarianceMatrices =>
    obtain ⟨hm, rfl⟩ := resetCov_eq h
    exact ⟨⟨_, rfl, defaultP_psd⟩, isPSD_mk.2 defaultQ_psd, isPD_mk.2 defaultR_pd, hc.vcov⟩
  | setSamplingPeriod dt =>
    cases h
    exact ⟨hc.pr, hc.q, hc.R, hc.vcov⟩
  | getFlexibilityVector => exact cov_getVector hi hc h
  | getFlexibility =>
    simp only [exec, Res.bind_eq_ok] at h
    obtain ⟨⟨M, t'⟩, h0, h2⟩ := h
    cases h2
    exact cov_getVector hi hc (getFlexibility_of h0)
  | getSimulatedMeasurement =>
    simp only [exec, Fixed.getSimulatedMeasurement, Res.bind_eq_ok] at h
    obtain ⟨_, ⟨t', h0, _, -, _, -, ⟨y, u⟩, -, h2⟩, h3⟩ := h
    cases h2; cases h3
    have := cov_getVector hi hc h0
    exact ⟨this.pr, this.q, this.R, this.vcov⟩
  | getPrediction =>
    simp only [exec, Res.bind_eq_ok] at h
    obtain ⟨f, hf, h⟩ := h
    cases h
    exact ⟨by show ∃ P, f.st.pr = _ ∧ _; rw [(updateStatePrediction_keeps hf).pr]; exact hc.pr, hc.q, hc.R, hc.vcov⟩
  | getPredictedMeasurement =>
    simp only [exec, Res.bind_eq_ok] at h
    obtain ⟨f, hf, h⟩ := h
    cases h
    exact ⟨by show ∃ P, f.st.pr = _ ∧ _; rw [(updateBoth_keeps hf).pr]; exact hc.pr, hc.q, hc.R, hc.vcov⟩

theorem cov_foldl : ∀ (ops : List Op) {s t : Fixed}, (∀ op ∈ ops, op.Admissible) → Inv s → Cov s → ops.foldlM exec s = .ok t → Cov t
  | [], s, t, _, hi, hc, h => by cases h; exact hc
  | op :: ops, s, t, ha, hi, hc, h => by
    simp only [List.foldlM_cons, Res.bind_eq_ok] at h
    obtain ⟨s1, h1, h2⟩ := h
    exact cov_foldl ops (fun o ho => ha o (List.mem_cons_of_mem _ ho)) (inv_exec hi op h1)
      (cov_exec hi hc op (ha op List.mem_cons_self) h1) h2

theorem cov_run {dt : ℝ} {ops : List Op} {s : Fixed} (ha : ∀ op ∈ ops, op.Admissible) (h : run dt ops = .ok s) : Cov s := by
  obtain ⟨s0, h0, hi, e1, e2, e3, e4, e5, e6, -⟩ := ctor_eq dt
  rw [run, h0, Res.ok_bind] at h
  exact cov_foldl ops ha hi ⟨⟨defaultQ, e6, defaultQ_psd⟩, by rw [e5, isPSD_mk]; exact defaultQ_psd, by rw [e4, isPD_mk]; exact defaultR_pd,
    by rw [e3]; norm_num⟩ h

/-- **C71** If the covariances given by the user are positive semidefinite, the one of the state stays positive semidefinite after any sequence
of calls. -/
theorem C71_psd (dt : ℝ) (ops : List Op) (ha : ∀ op ∈ ops, op.Admissible) (s : Fixed) (h : run dt ops = .ok s) :
    ∃ P : Matrix (Fin 18) (Fin 18) ℝ, s.ekf.st.pr = ⟨18, 18, P⟩ ∧ P.PosSemidef :=
  (cov_run ha h).pr

end StateObs.Flex
