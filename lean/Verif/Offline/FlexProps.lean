import Verif.Offline.FlexLoop
/-! # Property C100: the offline estimation of a flexibility -/

namespace StateObs.Offline
open StateObs KF Flex Matrix Imu EKF KFSpec Rot Kine

theorem flexQ_eq : flexQ = guessCov := by
  have h : (1e-4 : ℝ) • (1 : Matrix (Fin 18) (Fin 18) ℝ) = diagonal fun _ => 1e-4 := by
    rw [← diagonal_one, ← diagonal_smul]; congr; funext i; simp
  rw [flexQ, h, setBlock_diagonal, setBlock_diagonal, guessCov]
  congr 1
  funext i
  split_ifs <;> first | rfl | omega

theorem flexQ_psd : flexQ.PosSemidef := by
  rw [flexQ_eq, guessCov]
  refine PosSemidef.diagonal fun i => ?_
  show (0 : ℝ) ≤ _
  split_ifs <;> norm_num

theorem flexR_pd : flexR.PosDef := PosDef.one.smul (by norm_num)

theorem fullR_eq (m : ℕ) : fullR m flexR 1e-10 = measCov m := by
  funext i j
  simp only [fullR, measCov, setDiag, setBlock, flexR, diagonal_apply, Matrix.smul_apply, Matrix.one_apply, Fin.ext_iff]
  have hi := i.isLt
  have hj := j.isLt
  by_cases hij : i.val = j.val
  · by_cases h6 : i.val < 6
    · simp [hij, hij ▸ h6]
    · have h6' : ¬ j.val < 6 := by omega
      simp [hij, h6']
      omega
  · by_cases h6 : i.val < 6 ∧ j.val < 6
    · simp [hij, h6.1, h6.2]
    · simp [hij]

/-- What the loop on the contacts changes. -/
theorem setContacts_spec (c : List V3) : ∀ (n i : ℕ) (s : Fixed), Inv s → Fresh s → Cov s → s.contacts.length = i + n → i + n ≤ c.length →
    ∃ t, setContacts c n i s = .ok t ∧ Inv t ∧ Fresh t ∧ Cov t ∧ t.contacts = s.contacts.take i ++ (c.drop i).take n ∧ t.dtF = s.dtF ∧
      t.ekf.st.q = s.ekf.st.q ∧ t.ekf.st.r = s.ekf.st.r ∧ t.ekf.st.pr = s.ekf.st.pr
  | 0, i, s, hi, hf, hc, h1, _ => ⟨s, rfl, hi, hf, hc, by simp [List.take_of_length_le (show s.contacts.length ≤ i by omega)], rfl, rfl, rfl, rfl⟩
  | n + 1, i, s, hi, hf, hc, h1, h2 => by
    have hic : i < c.length := by omega
    have e : exec s (.setContactPosition i c[i]) = .ok { s with contacts := s.contacts.set i c[i] }.sync := by
      simp only [Flex.exec, Fixed.setContactPosition]
      rw [show decide (i < s.contacts.length) = true from decide_eq_true (by omega)]
      rfl
    obtain ⟨t, et, a1, a2, a3, a4, a5, a6, a7, a8⟩ := setContacts_spec c n (i + 1) _ (inv_exec hi _ e) (fresh_exec hi hf _ (by simp [Op.Predicts]) e)
      (cov_exec hi hc _ (by simp [Op.Admissible]) e) (by simp [Fixed.sync]; omega) (by omega)
    refine ⟨t, ?_, a1, a2, a3, ?_, a5, a6, a7, a8⟩
    · rw [setContacts, List.getElem?_eq_getElem hic]
      simp only [Res.ok_bind, e, et]
    · rw [a4]
      have hs : i < s.contacts.length := by omega
      rw [List.drop_eq_getElem_cons hic, List.take_succ_cons]
      show (s.contacts.set i c[i]).take (i + 1) ++ _ = _
      rw [List.take_add_one]
      simp [hs, List.take_set_of_le]

/-- The estimator at the start of the loop. -/
theorem start_live (x : Fin 18 → ℝ) (n : ℕ) (c : List V3) (hn : n ≤ c.length) :
    ∃ s0 s1 s2 s3 s4 s5 s6, Flex.ctor 0.005 = .ok s0 ∧ exec s0 (.setFlexibilityCovariance ⟨18, 18, flexQ⟩) = .ok s1 ∧
      exec s1 (.setMeasurementNoiseCovariance ⟨6, 6, flexR⟩) = .ok s2 ∧ exec s2 (.setProcessNoiseCovariance ⟨18, 18, flexQ⟩) = .ok s3 ∧
      exec s3 (.setContactsNumber n) = .ok s4 ∧ setContacts c n 0 s4 = .ok s5 ∧ exec s5 (.setFlexibilityGuess ⟨18, 1, fun i _ => x i⟩) = .ok s6 ∧
      Live 0.005 (c.take n) guessCov (measCov (6 + 3 * (c.take n).length)) x guessCov s6 := by
  obtain ⟨s0, e0, hi0, d0, c0, v0, -, -, -, -, -, -, -, -, -, -, -⟩ := ctor_eq 0.005
  have r0 : run 0.005 [] = .ok s0 := by simp [Flex.run, e0]
  have hc0 := cov_run (by simp) r0
  have hf0 := fresh_run (by simp) r0
  have e1 : exec s0 (.setFlexibilityCovariance ⟨18, 18, flexQ⟩) = .ok { s0 with ekf := { s0.ekf with st := { s0.ekf.st with pr := ⟨18, 18, flexQ⟩ } } } := by
    simp only [Flex.exec, Base.setFlexibilityCovariance, setStateCovariance, KData.checkP, hi0.nt, DMat.hasSize_mk, Res.assert_true, Res.ok_bind]
  set s1 : Fixed := { s0 with ekf := { s0.ekf with st := { s0.ekf.st with pr := ⟨18, 18, flexQ⟩ } } } with hs1
  have hi1 := inv_exec hi0 _ e1
  have hf1 := fresh_exec hi0 hf0 _ (by simp [Op.Predicts]) e1
  have hc1 := cov_exec hi0 hc0 _ (by simp [Op.Admissible, isPSD_mk, flexQ_psd]) e1
  obtain ⟨s2, hs2⟩ : ∃ s2 : Fixed, s2 = { s1 with R := ⟨6, 6, flexR⟩, ekf := { s1.ekf with st := { s1.ekf.st with
      r := ⟨s1.ekf.st.mt, s1.ekf.st.mt, fullR s1.ekf.st.mt flexR s1.vcov⟩ } } } := ⟨_, rfl⟩
  have e2' : exec s1 (.setMeasurementNoiseCovariance ⟨6, 6, flexR⟩) = .ok s2 := by
    simp only [Flex.exec, Fixed.setMeasurementNoiseCovariance, DMat.hasSize_mk, Res.assert_true, Res.ok_bind]
    exact (updateCov_live { s1 with R := ⟨6, 6, flexR⟩ } flexR rfl (by show 6 ≤ s1.ekf.st.mt; rw [hi1.mt]; omega)).trans (by rw [hs2])
  have hi2 : Inv s2 := inv_exec hi1 _ e2'
  have hf2 : Fresh s2 := fresh_exec hi1 hf1 _ (by simp [Op.Predicts]) e2'
  have hc2 : Cov s2 := cov_exec hi1 hc1 _ (by simp [Op.Admissible, isPD_mk, flexR_pd]) e2'
  have e3 : exec s2 (.setProcessNoiseCovariance ⟨18, 18, flexQ⟩) =
      .ok { s2 with Q := ⟨18, 18, flexQ⟩, ekf := { s2.ekf with st := { s2.ekf.st with q := ⟨18, 18, flexQ⟩ } } } := by
    simp only [Flex.exec, Fixed.setProcessNoiseCovariance, setQ, KData.checkQ, hi2.nt, DMat.hasSize_mk, Res.assert_true, Res.ok_bind]
  have hi3 := inv_exec hi2 _ e3
  have hf3 := fresh_exec hi2 hf2 _ (by simp [Op.Predicts]) e3
  have hc3 := cov_exec hi2 hc2 _ (by simp [Op.Admissible, isPSD_mk, flexQ_psd]) e3
  set s3 : Fixed := { s2 with Q := ⟨18, 18, flexQ⟩, ekf := { s2.ekf with st := { s2.ekf.st with q := ⟨18, 18, flexQ⟩ } } } with hs3
  obtain ⟨s4, e4⟩ : ∃ t, exec s3 (.setContactsNumber n) = .ok t := by
    obtain ⟨y, c, r, e, -⟩ := setMeasureSize_eq
      (EKF.setFunctor s3.ekf (functor s3.dtF (s3.contacts.take n ++ List.replicate (n - s3.contacts.length) 0))) hi3.m hi3.mt (6 + 3 * n)
    simp only [Flex.exec, Fixed.setContactsNumber, Fixed.sync, e]
    exact ⟨_, updateCov_live _ flexR (by simp [hs3, hs2]) (Nat.le_add_right 6 (3 * n))⟩
  have hi4 := inv_exec hi3 _ e4
  have hf4 := fresh_exec hi3 hf3 _ (by simp [Op.Predicts]) e4
  have hc4 := cov_exec hi3 hc3 _ (by simp [Op.Admissible]) e4
  obtain ⟨R, y, cm, hR, -, -, h4⟩ := setContactsNumber_eq hi3 e4
  have hR' : R = flexR := by
    have : s3.R = ⟨6, 6, flexR⟩ := by simp [hs3, hs2]
    rw [this] at hR
    cases hR
    rfl
  have l4 : s4.contacts.length = 0 + n := by rw [h4, Nat.zero_add]; exact resize_length _ _ _
  obtain ⟨s5, e5, hi5, hf5, hc5, a1, a2, a3, a4, a5⟩ := setContacts_spec c n 0 s4 hi4 hf4 hc4 l4 (by omega)
  obtain ⟨s6, e6⟩ : ∃ t, exec s5 (.setFlexibilityGuess ⟨18, 1, fun i _ => x i⟩) = .ok t := by
    have h1 : (⟨18, 1, fun i _ => x i⟩ : DMat).hasSize s5.ekf.st.n 1 = true := by rw [hi5.n]; exact (DMat.hasSize_iff _ _ _).2 ⟨_, rfl⟩
    simp only [Flex.exec, Fixed.setFlexibilityGuess, h1, Bool.true_or, Res.assert_true, Res.ok_bind, or_true, decide_true, dif_pos, if_true]
    rw [obsSetState_live _ _ _ hi5.n hi5.p]
    exact ⟨_, rfl⟩
  obtain ⟨w, h6, hw⟩ := setGuess_eq hi5 e6
  have hwx : w = x := by
    rcases hw with ⟨v, hv, rfl⟩ | ⟨v, hv, -⟩
    · injection hv with _ _ hv
      funext i
      exact (congrFun (congrFun hv i) 0).symm
    · injection hv with h _ _
      omega
  subst hwx
  refine ⟨s0, s1, s2, s3, s4, s5, s6, e0, e1, e2', e3, e4, e5, e6, inv_exec hi5 _ e6, fresh_exec hi5 hf5 _ (by simp [Op.Predicts]) e6,
    cov_exec hi5 hc5 _ (by simp [Op.Admissible]) e6, ?_, ?_, ?_, ?_, ?_, ?_⟩
  · rw [h6]
    show s5.dtF = _
    rw [a2, h4]
    show s3.dtF = _
    rw [hs3]
    show s2.dtF = _
    rw [hs2]
    exact d0
  · rw [h6]
    show s5.contacts = _
    rw [a1]
    simp
  · rw [h6]
    show s5.ekf.st.q = _
    rw [a3, h4, ← flexQ_eq]
  · rw [h6]
    show s5.ekf.st.r = _
    rw [a4, h4]
    show (⟨6 + 3 * n, 6 + 3 * n, fullR (6 + 3 * n) R s3.vcov⟩ : DMat) = _
    have hv : s3.vcov = 1e-10 := by rw [hs3]; show s2.vcov = _; rw [hs2]; exact v0
    rw [hv, hR', fullR_eq, List.length_take, min_eq_left hn]
  · rw [h6]
  · rw [h6]
    show s5.ekf.st.pr = _
    rw [a5, h4]
    show s3.ekf.st.pr = _
    rw [hs3]
    show s2.ekf.st.pr = _
    rw [hs2, ← flexQ_eq]

theorem FlexRun.cases_ok {dt : ℝ} {c : List V3} {Q : Matrix (Fin 18) (Fin 18) ℝ} {R : Matrix (Fin (6 + 3 * c.length)) (Fin (6 + 3 * c.length)) ℝ}
    {x P l r} (h : FlexRun dt c Q R x P l r) : (∃ q, r = .ok q) ∨ r = .ub := by
  induction h with
  | done => exact Or.inl ⟨_, rfl⟩
  | step x P u y l r _ _ _ _ _ _ _ _ _ _ _ _ _ _ _ _ _ ih =>
    rcases ih with ⟨q, rfl⟩ | rfl
    · exact Or.inl ⟨_, rfl⟩
    · exact Or.inr rfl
  | tooLong => exact Or.inr rfl

/-- **C100** `offlineEKFFlexibilityEstimation` on inputs and measurements `l` at the times `k`, `k + 1`, …, with at least as many contact positions as
contacts, is a run of the extended Kalman filter with the covariances of the documentation on the first contacts: it returns the guess at time
`k - 1` followed by the estimates, and stores the corrections and the predicted measurements at their times in the arrays given. The period of the
filter is 0.005. -/
theorem C100_partial (l : List ((Fin 15 → ℝ) × (Fin 6 → ℝ))) (k : Int) (us : IArr DVec) (hu : ∀ j (h : j < l.length), us.get (k + j) = .ok ⟨15, l[j].1⟩)
    (x : Fin 18 → ℝ) (n : ℕ) (c : List V3) (hn : n ≤ c.length) (dt : ℝ) (ino premea : Option (IArr DVec)) (hi : ∀ a, ino = some a → Ready a k)
    (hp : ∀ a, premea = some a → Ready a k) :
    ∃ r, FlexRun 0.005 (c.take n) guessCov (measCov _) x guessCov l r ∧
      ((∃ q o, r = .ok q ∧ offlineEKFFlexibilityEstimation ⟨k, l.map fun e => ⟨6, e.2⟩⟩ us ⟨18, x⟩ n c dt ino premea = .ok o ∧
        o.xh = ⟨k - 1, ⟨18, x⟩ :: q.map fun e => ⟨18, e.estimate⟩⟩ ∧
        (∀ a, ino = some a → ∃ b, o.ino = some b ∧ Holds b k (q.map fun e => ⟨18, e.correction⟩)) ∧
        ∀ a, premea = some a → ∃ b, o.premea = some b ∧ Holds b k (q.map fun e => ⟨_, e.predicted⟩)) ∨
      r = .ub ∧ offlineEKFFlexibilityEstimation ⟨k, l.map fun e => ⟨6, e.2⟩⟩ us ⟨18, x⟩ n c dt ino premea = .ub) := by
  obtain ⟨s0, s1, s2, s3, s4, s5, s6, e0, e1, e2, e3, e4, e5, e6, hl⟩ := start_live x n c hn
  have hy : ∀ j (h : j < l.length), (⟨k, l.map fun e => ⟨6, e.2⟩⟩ : IArr DVec).get (k + j) = .ok ⟨6, l[j].2⟩ ∧ us.get (k + j) = .ok ⟨15, l[j].1⟩ := by
    refine fun j h => ⟨?_, hu j h⟩
    have hj : (j : Int) < l.length := by exact_mod_cast h
    have h0 : 0 < l.length := by omega
    simp [IArr.get, IArr.checkIndex, h, hj, h0]
  have ex : (IArr.empty : IArr DVec).setValue ⟨18, x⟩ (k - 1) = .ok ⟨k - 1, [⟨18, x⟩]⟩ := by
    simp [IArr.empty, IArr.setValue, IArr.checkIndex, IArr.checkNext]
  obtain ⟨r, hr, er⟩ := loop_spec ⟨k, l.map fun e => ⟨6, e.2⟩⟩ us 0.005 (c.take n) _ _ l k s6 ⟨⟨k - 1, [⟨18, x⟩]⟩, ino, premea⟩ x _ hl hy hi hp
  have hc : column ⟨18, x⟩ = ⟨18, 1, fun i _ => x i⟩ := rfl
  have e : offlineEKFFlexibilityEstimation ⟨k, l.map fun e => ⟨6, e.2⟩⟩ us ⟨18, x⟩ n c dt ino premea =
      (r >>= fun q => .ok (Out.after ⟨⟨k - 1, [⟨18, x⟩]⟩, ino, premea⟩ k q)) := by
    simp only [offlineEKFFlexibilityEstimation, e0, e1, e2, e3, e4, e5, hc, e6, ex, Res.ok_bind, IArr.getFirstIndex, IArr.size, List.length_map, er]
  refine ⟨r, hr, ?_⟩
  have hcase : (∃ q, r = .ok q) ∨ r = .ub := by
    exact hr.cases_ok
  rcases hcase with ⟨q, rfl⟩ | rfl
  · refine Or.inl ⟨q, _, rfl, e, rfl, fun a ha => ?_, fun a ha => ?_⟩
    · subst ha; exact ⟨_, rfl, holds_app (hi a rfl) _⟩
    · subst ha; exact ⟨_, rfl, holds_app (hp a rfl) _⟩
  · exact Or.inr ⟨rfl, e⟩

/-- The null inputs. -/
theorem zeroInputs_eq : ∀ (n : ℕ) (k : Int) (u : IArr DVec), Ready u k → zeroInputs 15 n k u = .ok (app k (List.replicate n (DVec.zero 15)) u)
  | 0, k, u, _ => by simp [zeroInputs, app]
  | n + 1, k, u, h => by
    rw [zeroInputs, setValue_ready h, Res.ok_bind, zeroInputs_eq n (k + 1) _ (ready_app h _), app_app]
    rfl

/-- **C100** The overload without inputs is the same with null inputs. -/
theorem C100_noInput_partial (l : List (Fin 6 → ℝ)) (k : Int) (x : Fin 18 → ℝ) (n : ℕ) (c : List V3) (hn : n ≤ c.length) (dt : ℝ) :
    ∃ r, FlexRun 0.005 (c.take n) guessCov (measCov _) x guessCov (l.map fun y => (0, y)) r ∧
      ((∃ q o, r = .ok q ∧ offlineEKFFlexibilityEstimation0 ⟨k, l.map fun y => ⟨6, y⟩⟩ ⟨18, x⟩ n c dt = .ok o ∧
        o.xh = ⟨k - 1, ⟨18, x⟩ :: q.map fun e => ⟨18, e.estimate⟩⟩) ∨
      r = .ub ∧ offlineEKFFlexibilityEstimation0 ⟨k, l.map fun y => ⟨6, y⟩⟩ ⟨18, x⟩ n c dt = .ub) := by
  have hz := zeroInputs_eq (l.length + 1) (k - 1) IArr.empty (Or.inl rfl)
  have hh : Holds _ _ _ := holds_app (a := IArr.empty) (i := k - 1) (Or.inl rfl) (List.replicate (l.length + 1) (DVec.zero 15))
  obtain ⟨r, hr, h⟩ := C100_partial (l.map fun y => ((0 : Fin 15 → ℝ), y)) k _ (fun j hj => by
    have := hh (j + 1) (by simpa using hj)
    simp only [List.getElem_replicate] at this
    rw [show k - 1 + ((j + 1 : ℕ) : Int) = k + j by push_cast; ring] at this
    simp only [List.getElem_map]
    exact this) x n c hn dt none none (by simp) (by simp)
  have e : offlineEKFFlexibilityEstimation0 ⟨k, l.map fun y => ⟨6, y⟩⟩ ⟨18, x⟩ n c dt = offlineEKFFlexibilityEstimation
      ⟨k, (l.map fun y => ((0 : Fin 15 → ℝ), y)).map fun e => ⟨6, e.2⟩⟩ (app (k - 1) (List.replicate (l.length + 1) (DVec.zero 15)) IArr.empty)
      ⟨18, x⟩ n c dt none none := by
    simp only [offlineEKFFlexibilityEstimation0, IArr.size, IArr.getFirstIndex, List.length_map, hz, Res.ok_bind, List.map_map]
    rfl
  refine ⟨r, hr, ?_⟩
  rw [e]
  rcases h with ⟨q, o, h1, h2, h3, -⟩ | h
  · exact Or.inl ⟨q, o, h1, h2, h3⟩
  · exact Or.inr h

/-- The full claim, with the period given by the caller. -/
def C100_statement : Prop := ∀ (l : List ((Fin 15 → ℝ) × (Fin 6 → ℝ))) (k : Int) (us : IArr DVec)
    (_ : ∀ j (h : j < l.length), us.get (k + j) = .ok ⟨15, l[j].1⟩) (x : Fin 18 → ℝ) (n : ℕ) (c : List V3) (_ : n ≤ c.length) (dt : ℝ) (_ : 0 < dt)
    (ino premea : Option (IArr DVec)) (_ : ∀ a, ino = some a → Ready a k) (_ : ∀ a, premea = some a → Ready a k),
    ∃ r, FlexRun dt (c.take n) guessCov (measCov _) x guessCov l r ∧
      ((∃ q o, r = .ok q ∧ offlineEKFFlexibilityEstimation ⟨k, l.map fun e => ⟨6, e.2⟩⟩ us ⟨18, x⟩ n c dt ino premea = .ok o ∧
        o.xh = ⟨k - 1, ⟨18, x⟩ :: q.map fun e => ⟨18, e.estimate⟩⟩ ∧
        (∀ a, ino = some a → ∃ b, o.ino = some b ∧ Holds b k (q.map fun e => ⟨18, e.correction⟩)) ∧
        ∀ a, premea = some a → ∃ b, o.premea = some b ∧ Holds b k (q.map fun e => ⟨_, e.predicted⟩)) ∨
      r = .ub ∧ offlineEKFFlexibilityEstimation ⟨k, l.map fun e => ⟨6, e.2⟩⟩ us ⟨18, x⟩ n c dt ino premea = .ub)

/-- A guess with the velocity (1,0,0), at rest otherwise, at the position (-0.005,0,0). -/
noncomputable def drift : Fin 18 → ℝ := fun i => if i.val = 0 then -0.005 else if i.val = 6 then 1 else 0

theorem drift_turn {dt : ℝ} {z : Fin 18 → ℝ} (h : Next dt drift z) : turn (seg 3 z 3) = 1 := by
  have h1 : seg 3 drift 3 = 0 := by funext i; fin_cases i <;> simp [seg, drift]
  have h2 : seg 3 drift 9 = 0 := by funext i; fin_cases i <;> simp [seg, drift]
  have h3 : seg 3 drift 15 = 0 := by funext i; fin_cases i <;> simp [seg, drift]
  have ho := h.ori
  have t0 : turn 0 = 1 := by rw [turn, if_pos (by simp [nrm]; norm_num)]
  rw [h1, h2, h3, smul_zero, smul_zero, add_zero, t0, mul_one] at ho
  rw [turn, ho]
  split_ifs <;> rfl

/-- The measurement predicted after `drift` with a contact at the origin. -/
theorem drift_reading {dt : ℝ} {z : Fin 18 → ℝ} (h : Next dt drift z) {y : Fin 9 → ℝ} (hr : Reading [0] z 0 y) :
    y = fun i : Fin 9 => if i.val = 2 then 9.8 else if i.val = 6 then dt - 0.005 else 0 := by
  have ht := drift_turn h
  have t0 : turn 0 = 1 := by rw [turn, if_pos (by simp [nrm]; norm_num)]
  have s0 : ∀ a, seg 3 (0 : Fin 15 → ℝ) a = 0 := fun a => by funext i; simp [seg]
  have a1 := hr.acc
  have a2 := hr.gyro
  have a3 := hr.contact 0 (by simp)
  simp only [pointAcceleration, ht, s0, t0, mul_one, one_mulVec, mulVec_zero] at a1 a2 a3
  have e1 : seg 3 z 12 = 0 := by rw [h.linAcc]; funext i; fin_cases i <;> simp [seg, drift]
  have e2 : seg 3 z 9 = 0 := by
    rw [h.angVel]; funext i; fin_cases i <;> simp [seg, drift]
  have e3 : seg 3 z 0 = ![dt - 0.005, 0, 0] := by
    rw [h.pos]; funext i; fin_cases i <;> simp [seg, drift]
    ring
  rw [e1, e2] at a1
  rw [e2] at a2
  rw [e3] at a3
  simp at a1 a2 a3
  funext i
  have b1 := congrFun a1
  have b2 := congrFun a2
  have b3 := congrFun a3
  have p0 := b1 0
  have p1 := b1 1
  have p2 := b1 2
  have p3 := b2 0
  have p4 := b2 1
  have p5 := b2 2
  have p6 := b3 0
  have p7 := b3 1
  have p8 := b3 2
  simp [seg] at p0 p1 p2 p3 p4 p5 p6 p7 p8
  fin_cases i <;> simp <;> assumption

/-- One measurement with `drift`. -/
theorem drift_run {dt : ℝ} {R P Q} {y : Fin 6 → ℝ} {r} (h : FlexRun dt [0] Q R drift P [(0, y)] r) :
    (∃ e, r = .ok [e] ∧ ∀ i : Fin 9, e.predicted i = if i.val = 2 then 9.8 else if i.val = 6 then dt - 0.005 else 0) ∨
    (r = .ub ∧ ¬ (dt = 0.005 ∧ y = ![0, 0, 9.8, 0, 0, 0])) := by
  cases h with
  | step _ _ _ _ _ r F H A C Pp d v hF hH hA hC hP hd hv ho hn h =>
    cases h
    exact Or.inl ⟨_, rfl, fun i => congrFun (drift_reading (hF drift) (hH (F drift))) i⟩
  | tooLong _ _ _ _ _ F H A C Pp d hF hH hA hC hP hd ho =>
    refine Or.inr ⟨rfl, ?_⟩
    rintro ⟨rfl, rfl⟩
    have e : padded (6 + 3 * [(0 : V3)].length) ![0, 0, 9.8, 0, 0, 0] - H (F drift) = 0 := by
      have := drift_reading (hF drift) (hH (F drift))
      rw [this]
      funext i
      change Fin 9 at i
      fin_cases i <;> simp [padded]
    rw [e, mulVec_zero] at hd
    rw [hd, add_zero] at ho
    have := (hF drift).short
    nlinarith [Real.pi_pos]

/-- Non-vacuity of C100: one measurement at time 3, a contact at the origin; the run ends. -/
example : ∃ e o, FlexRun 0.005 [0] guessCov (measCov _) drift guessCov [(0, ![0, 0, 9.8, 0, 0, 0])] (.ok [e]) ∧
    offlineEKFFlexibilityEstimation ⟨3, [⟨6, ![0, 0, 9.8, 0, 0, 0]⟩]⟩ ⟨3, [⟨15, 0⟩]⟩ ⟨18, drift⟩ 1 [0] 0.005 none none = .ok o ∧
    o.xh = ⟨2, [⟨18, drift⟩, ⟨18, e.estimate⟩]⟩ := by
  obtain ⟨r, h1, h2⟩ := C100_partial [(0, ![0, 0, 9.8, 0, 0, 0])] 3 ⟨3, [⟨15, 0⟩]⟩ (by
    intro j h
    have : j = 0 := by simpa using h
    subst this
    rfl) drift 1 [0] (by simp) 0.005 none none (by simp) (by simp)
  rcases drift_run h1 with ⟨e, rfl, -⟩ | ⟨-, h⟩
  · rcases h2 with ⟨q, o, hq, ho, hx, -⟩ | ⟨h, -⟩
    · cases hq
      exact ⟨e, o, h1, ho, hx⟩
    · cases h
  · exact absurd ⟨rfl, rfl⟩ h

/-- **C100** is false: the period given by the caller is ignored. With a contact at the origin, a guess at (-0.005,0,0) with the velocity (1,0,0) and the
period 1, the predicted position of the contact is the origin. -/
theorem C100_false : ¬ C100_statement := by
  intro hs
  have hu : ∀ j (h : j < [((0 : Fin 15 → ℝ), (![0, 0, 9.8, 0, 0, 0] : Fin 6 → ℝ))].length), (⟨0, [⟨15, 0⟩]⟩ : IArr DVec).get (0 + j) =
      .ok ⟨15, [((0 : Fin 15 → ℝ), (![0, 0, 9.8, 0, 0, 0] : Fin 6 → ℝ))][j].1⟩ := by
    intro j h
    have : j = 0 := by simpa using h
    subst this
    rfl
  obtain ⟨r, h1, h2⟩ := hs [(0, ![0, 0, 9.8, 0, 0, 0])] 0 _ hu drift 1 [0] (by simp) 1 one_pos none (some ⟨0, []⟩) (by simp) (by rintro a ⟨⟩; exact Or.inl rfl)
  obtain ⟨r', h1', h2'⟩ := C100_partial [(0, ![0, 0, 9.8, 0, 0, 0])] 0 _ hu drift 1 [0] (by simp) 1 none (some ⟨0, []⟩) (by simp)
    (by rintro a ⟨⟩; exact Or.inl rfl)
  rcases drift_run h1' with ⟨e', rfl, p'⟩ | ⟨-, h⟩
  · rcases h2' with ⟨q', o', hq', ho', -, -, hm'⟩ | ⟨h, -⟩
    · cases hq'
      obtain ⟨b', hb', hb2'⟩ := hm' _ rfl
      rcases h2 with ⟨q, o, hq, ho, -, -, hm⟩ | ⟨-, h⟩
      · rcases drift_run h1 with ⟨e, rfl, p⟩ | ⟨rfl, -⟩
        · cases hq
          obtain ⟨b, hb, hb2⟩ := hm _ rfl
          rw [ho'] at ho
          cases ho
          rw [hb'] at hb
          cases hb
          have g := hb2 0 (by simp)
          have g' := hb2' 0 (by simp)
          rw [g'] at g
          have g : (⟨9, e'.predicted⟩ : DVec) = ⟨9, e.predicted⟩ := Res.ok.inj g
          injection g with _ g
          have := congrFun g (6 : Fin 9)
          rw [p 6, p' 6] at this
          norm_num at this
        · cases hq
      · rw [ho'] at h
        cases h
    · cases h
  · exact h ⟨rfl, rfl⟩

end StateObs.Offline
