import Verif.ModelFlex.CovLemmas
/-!
# C93: the covariance of the measurement noise of the flexibility estimator on elastic contacts

`s.R` is what `getMeasurementNoiseCovariance()` returns and `s.ekf.st.r` the matrix that the filter uses. `Config.of ops` are the options that the client chose with the calls `ops`.
-/

namespace StateObs.ModelFlex
open StateObs KF Imu Rot Kine Matrix Obs

/-- The covariance that the client asked for: `V` for the IMU, and independent components of variance `d` for the forces and `a` for the absolute pose. -/
noncomputable def expectedR (c : Config) (V : Matrix (Fin 6) (Fin 6) ℝ) (d a : ℝ) (i j : ℕ) : ℝ :=
  if h : i < 6 ∧ j < 6 then V ⟨i, h.1⟩ ⟨j, h.2⟩
  else if i = j then (if c.force = true ∧ i < 6 + c.nb * 6 then d else a) else 0

/-- The components `i` and `j` of a measurement belong to two different contacts. -/
def TwoContacts (c : Config) (i j : ℕ) : Prop := c.force = true ∧ (6 ≤ i ∧ i < 6 + c.nb * 6) ∧ (6 ≤ j ∧ j < 6 + c.nb * 6) ∧ (i - 6) / 6 ≠ (j - 6) / 6

/-- In every reachable state the covariance returned is the one that the filter uses, and it has the size of the measurement. -/
theorem C93_size {mem : ℕ → ℕ → ℕ → ℝ} {dt : ℝ} {ops : List Op} {s : Est} (h : run mem dt ops = .ok s) :
    s.ekf.st.r = s.R ∧ ∃ R : Matrix (Fin (Config.of ops).size) (Fin (Config.of ops).size) ℝ, s.R = ⟨_, _, R⟩ := by
  have hi := inv_run h
  obtain ⟨R, hR⟩ := hi.rSize
  obtain ⟨R', h'⟩ := square_cast ((has_run h).size hi) R
  exact ⟨hi.r, R', hR.trans h'⟩

theorem setR_step {s : Est} {n : ℕ} {V : Matrix (Fin n) (Fin n) ℝ} (h0 : 0 < n) (h6 : n % 6 = 0) : exec s (.setMeasurementNoiseCovariance ⟨n, n, V⟩) = ({ s with R := ⟨n, n, V⟩ } : Est).updateR := by
  show s.setMeasurementNoiseCovariance _ = _
  unfold Est.setMeasurementNoiseCovariance
  rw [show decide ((⟨n, n, V⟩ : DMat).rows = (⟨n, n, V⟩ : DMat).cols ∧ (⟨n, n, V⟩ : DMat).rows > 0 ∧ (⟨n, n, V⟩ : DMat).rows % 6 = 0) = true from decide_eq_true ⟨rfl, h0, h6⟩]
  rfl

theorem square_six {m : ℕ} (h : m = 6) (V : Matrix (Fin 6) (Fin 6) ℝ) : (⟨6, 6, V⟩ : DMat) = ⟨m, m, fun i j => V (Fin.cast h i) (Fin.cast h j)⟩ := by subst h; rfl

/-- A covariance of the size of the measurement is accepted and used as it is. -/
theorem C93_whole {mem : ℕ → ℕ → ℕ → ℝ} {dt : ℝ} {ops : List Op} {s : Est} (h : run mem dt ops = .ok s) (V : Matrix (Fin (Config.of ops).size) (Fin (Config.of ops).size) ℝ) :
    ∃ t, exec s (.setMeasurementNoiseCovariance ⟨_, _, V⟩) = .ok t ∧ t.R = ⟨_, _, V⟩ ∧ t.ekf.st.r = ⟨_, _, V⟩ := by
  have hi := inv_run h
  have hs := (has_run h).size hi
  obtain ⟨V', hV⟩ := square_cast hs.symm V
  rw [setR_step (by rw [Config.size]; omega) (by rw [Config.size]; split_ifs <;> omega)]
  rw [updateR_keep (s := { s with R := ⟨_, _, V⟩ }) hi.f.mt hV]
  exact ⟨_, rfl, rfl, rfl⟩

/-- The coefficients written around a covariance of the IMU. -/
theorem nextR_imu {c : Config} {V : Matrix (Fin 6) (Fin 6) ℝ} {junk : ℕ → ℕ → ℝ} {d a : ℝ} {i j : ℕ} (h6 : 6 + (if c.force then c.nb * 6 else 0) + (if c.abs then 6 else 0) ≠ 6)
    (hi : i < 6 + (if c.force then c.nb * 6 else 0) + (if c.abs then 6 else 0)) (hj : j < 6 + (if c.force then c.nb * 6 else 0) + (if c.abs then 6 else 0))
    (ht : ¬ TwoContacts c i j) : nextR c.nb c.force c.abs d a 6 (coeff ⟨6, 6, V⟩ junk) i j = expectedR c V d a i j := by
  obtain ⟨W, hW⟩ : ∃ W : ℕ → ℕ → ℝ, W = coeff ⟨6, 6, V⟩ 0 := ⟨_, rfl⟩
  have h1 : coeff ⟨6, 6, V⟩ junk = fun i j => if i < 6 ∧ j < 6 then W i j else junk i j := by
    funext i j
    rw [hW]
    simp only [coeff]
    split_ifs <;> rfl
  have h2 : expectedR c V d a i j = if i < 6 ∧ j < 6 then W i j else if i = j then (if c.force = true ∧ i < 6 + c.nb * 6 then d else a) else 0 := by
    rw [hW, expectedR]
    simp only [coeff]
    by_cases h : i < 6 ∧ j < 6
    · rw [dif_pos h, if_pos h, dif_pos h]
    · rw [dif_neg h, if_neg h]
  rw [h1, h2]
  clear h1 h2 hW
  simp only [TwoContacts] at ht
  generalize c.nb = n at *
  unfold nextR
  cases hf : c.force <;> cases ha : c.abs <;> simp only [hf, ha, if_true, if_false, Bool.false_eq_true, false_and, true_and] at h6 hi hj ht ⊢ <;>
    clear hf ha
  · omega
  · rw [if_pos (by omega)]
    simp only [setBlk, scalar, Pi.zero_apply]
    split_ifs <;> first | rfl | (exfalso; omega)
  · rw [if_pos (by omega)]
    simp only [fillForces_at, setBlk, scalar, Pi.zero_apply]
    split_ifs <;> first | rfl | (exfalso; omega)
  · by_cases hn : 6 < 6 + n * 6
    · simp only [hn, if_true]
      rw [if_pos (by omega)]
      simp only [fillForces_at, setBlk, scalar, Pi.zero_apply]
      split_ifs <;> first | rfl | (exfalso; omega)
    · simp only [hn, if_false]
      rw [if_pos (by omega)]
      simp only [setBlk, scalar, Pi.zero_apply]
      split_ifs <;> first | rfl | (exfalso; omega)

/-- A covariance of the IMU is accepted; the forces and the absolute pose get the variances that were chosen. Missing: the coefficients of two different contacts, see `C93_contacts_false`. -/
theorem C93_imu_partial {mem : ℕ → ℕ → ℕ → ℝ} {dt : ℝ} {ops : List Op} {s : Est} (h : run mem dt ops = .ok s) {d : ℝ} (hd : (Config.of ops).forceVar = some d)
    (V : Matrix (Fin 6) (Fin 6) ℝ) :
    ∃ t, exec s (.setMeasurementNoiseCovariance ⟨6, 6, V⟩) = .ok t ∧
      ∃ R : Matrix (Fin (Config.of ops).size) (Fin (Config.of ops).size) ℝ, t.R = ⟨_, _, R⟩ ∧ t.ekf.st.r = ⟨_, _, R⟩ ∧
        ∀ i j : Fin (Config.of ops).size, ¬ TwoContacts (Config.of ops) i j → R i j = expectedR (Config.of ops) V d (Config.of ops).absVar i j := by
  have hi := inv_run h
  have hc := has_run h
  generalize Config.of ops = c at *
  have hs := hc.size hi
  by_cases h6 : c.size = 6
  · obtain ⟨V', hV⟩ := square_cast (h6.symm.trans hs.symm) V
    rw [setR_step (by omega) (by omega), updateR_keep (s := { s with R := ⟨_, _, V⟩ }) hi.f.mt hV]
    refine ⟨_, rfl, _, square_six h6 V, square_six h6 V, ?_⟩
    intro i j _
    rw [expectedR, dif_pos ⟨by have := i.2; omega, by have := j.2; omega⟩]
    rfl
  · have hz : c.size = 6 + (if c.force then c.nb * 6 else 0) + (if c.abs then 6 else 0) := rfl
    have hm : s.sys.measSize = 6 + (if s.useFT then s.sys.nb * 6 else 0) + (if s.withAbs then 6 else 0) := by rw [hs, hc.force, hc.nb, hc.abs, hz]
    rw [setR_step (by omega) (by omega), updateR_live (s := { s with R := ⟨6, 6, V⟩ }) hi.f.mt
      (resizedR_live (s := { s with R := ⟨6, 6, V⟩ }) (d := d) (by show 6 ≠ s.sys.measSize; omega) hm (hc.forceVar d hd)) (DMat.hasSize_mk ..)]
    have e : square s.sys.measSize (nextR s.sys.nb s.useFT s.withAbs d s.absVar 6 (coeff ⟨6, 6, V⟩ (s.mem s.allocs))) =
        square c.size (nextR c.nb c.force c.abs d c.absVar 6 (coeff ⟨6, 6, V⟩ (s.mem s.allocs))) := by rw [hs, hc.nb, hc.force, hc.abs, hc.absVar]
    refine ⟨_, rfl, fun i j => nextR c.nb c.force c.abs d c.absVar 6 (coeff ⟨6, 6, V⟩ (s.mem s.allocs)) i j, e, e, ?_⟩
    rintro ⟨i, hi'⟩ ⟨j, hj'⟩ ht
    rw [hz] at hi' hj'
    exact nextR_imu (by omega) hi' hj' ht

/-- With at most one contact the covariance is exactly the one that was asked for. -/
theorem C93_imu {mem : ℕ → ℕ → ℕ → ℝ} {dt : ℝ} {ops : List Op} {s : Est} (h : run mem dt ops = .ok s) {d : ℝ} (hd : (Config.of ops).forceVar = some d)
    (hn : (Config.of ops).force = true → (Config.of ops).nb ≤ 1) (V : Matrix (Fin 6) (Fin 6) ℝ) :
    ∃ t, exec s (.setMeasurementNoiseCovariance ⟨6, 6, V⟩) = .ok t ∧
      ∃ R : Matrix (Fin (Config.of ops).size) (Fin (Config.of ops).size) ℝ, t.R = ⟨_, _, R⟩ ∧ t.ekf.st.r = ⟨_, _, R⟩ ∧
        ∀ i j : Fin (Config.of ops).size, R i j = expectedR (Config.of ops) V d (Config.of ops).absVar i j := by
  obtain ⟨t, h1, R, h2, h3, h4⟩ := C93_imu_partial h hd V
  refine ⟨t, h1, R, h2, h3, fun i j => h4 i j ?_⟩
  rintro ⟨hf, h1, h2, h3⟩
  have := hn hf
  omega

/-- `setForceVariance` and `setAbsolutePosVariance` never change the covariance: the variances are only used when the size of the measurement changes later. -/
theorem C93_setVariance_false {mem : ℕ → ℕ → ℕ → ℝ} {dt : ℝ} {ops : List Op} {s : Est} (h : run mem dt ops = .ok s) (d : ℝ) :
    (∃ t, exec s (.setForceVariance d) = .ok t ∧ t.R = s.R ∧ t.ekf.st.r = s.ekf.st.r) ∧
      ∃ t, exec s (.setAbsolutePosVariance d) = .ok t ∧ t.R = s.R ∧ t.ekf.st.r = s.ekf.st.r := by
  have hi := inv_run h
  obtain ⟨R, hR⟩ := hi.rSize
  refine ⟨⟨_, updateR_keep (s := { s with forceVar := square 6 (scalar d) }) hi.f.mt hR, rfl, hi.r.symm⟩,
    ⟨_, updateR_keep (s := { s with absVar := d }) hi.f.mt hR, rfl, hi.r.symm⟩⟩

/-- After `resetCovarianceMatrices` the variances of the IMU are the default ones. Those of the forces and of the absolute pose are 1, whatever variances were chosen. -/
theorem C93_reset_partial {mem : ℕ → ℕ → ℕ → ℝ} {dt : ℝ} {ops : List Op} {s : Est} (h : run mem dt ops = .ok s) :
    ∃ t, exec s .resetCovarianceMatrices = .ok t ∧
      ∃ R : Matrix (Fin (Config.of ops).size) (Fin (Config.of ops).size) ℝ, t.R = ⟨_, _, R⟩ ∧ t.ekf.st.r = ⟨_, _, R⟩ ∧
        (∀ i, R i i = if i.val < 6 then 1e-6 else 1) ∧ ∀ i j, i ≠ j → (¬ (i.val < 6 ∧ j.val < 6) ∨ i.val / 3 = j.val / 3) → R i j = 0 := by
  have hi := inv_run h
  have hc := has_run h
  generalize Config.of ops = c at *
  have hs := hc.size hi
  have h6 : 6 ≤ s.sys.measSize := by rw [hs, Config.size]; omega
  have e : s.newR = square c.size (setBlk (scalar 1) 0 0 6 6 (defaultRIMU (s.mem s.allocs))) := by rw [Est.newR, hs]
  refine ⟨_, resetAll_live hi.f.mt h6 hi.f.nt, fun i j => setBlk (scalar 1) 0 0 6 6 (defaultRIMU (s.mem s.allocs)) i j, e, e, ?_, ?_⟩
  · rintro ⟨i, hi⟩
    simp only [setBlk, defaultRIMU, scalar, Nat.zero_le, true_and, Nat.sub_zero, Nat.zero_add]
    split_ifs <;> first | rfl | (exfalso; omega)
  · rintro ⟨i, hi⟩ ⟨j, hj⟩ hij hb
    have hij : i ≠ j := fun e => hij (by subst e; rfl)
    simp only at hb
    simp only [setBlk, defaultRIMU, scalar, Nat.zero_le, true_and, Nat.sub_zero, Nat.zero_add]
    split_ifs <;> first | rfl | (exfalso; omega)

/-- The rest of the default covariance is not initialised: it can be any number. -/
theorem C93_default_false (dt v : ℝ) : ∃ mem s, run mem dt [] = .ok s ∧ ∃ R : Matrix (Fin 6) (Fin 6) ℝ, s.R = ⟨6, 6, R⟩ ∧ s.ekf.st.r = ⟨6, 6, R⟩ ∧ R 0 3 = v := by
  obtain ⟨s, e, hi, -, -, -, -, -, -, -, -, -, -, -, -, -, -, -, hR, -⟩ := ctor_eq (fun _ _ _ => v) dt
  refine ⟨fun _ _ _ => v, s, ?_, _, hR, hi.r.trans hR, ?_⟩
  · rw [run, e]; rfl
  · simp [defaultRIMU, setBlk]

/-- With two contacts the covariance between their forces is not initialised: it can be any number. -/
theorem C93_contacts_false (dt v : ℝ) (V : Matrix (Fin 6) (Fin 6) ℝ) : ∃ mem s,
    run mem dt [.setContactsNumber 2, .setWithForcesMeasurements true, .setMeasurementNoiseCovariance ⟨6, 6, V⟩] = .ok s ∧
      ∃ R : Matrix (Fin 18) (Fin 18) ℝ, s.R = ⟨18, 18, R⟩ ∧ s.ekf.st.r = ⟨18, 18, R⟩ ∧ R 6 12 = v := by
  obtain ⟨s0, e, hi, -, -, -, hmem, -, -, -, -, -, -, -, -, -, -, -, -, hf, -⟩ := ctor_eq (fun _ _ _ => v) dt
  have r0 : run (fun _ _ _ => v) dt [] = .ok s0 := by rw [run, e]; rfl
  obtain ⟨s1, e1, m1, -⟩ := contacts_live hi hf 2
  have r1 := run_snoc r0 e1
  simp only [List.nil_append, List.cons_append] at r1
  have c1 := has_run r1
  obtain ⟨s2, e2, m2, -⟩ := forces_live (inv_run r1) c1 rfl (by show 0 < 2; omega) (d := 1e-4) rfl
  have r2 := run_snoc r1 e2
  simp only [List.nil_append, List.cons_append] at r2
  have c2 := has_run r2
  have hi := inv_run r2
  have hm : s2.sys.measSize = 18 := c2.size hi
  have hn : s2.sys.nb = 2 := c2.nb
  have hft : s2.useFT = true := c2.force
  have hab : s2.withAbs = false := c2.abs
  have hl := updateR_live (s := { s2 with R := ⟨6, 6, V⟩ }) hi.f.mt (resizedR_live (s := { s2 with R := ⟨6, 6, V⟩ }) (d := 1e-4) (by show 6 ≠ s2.sys.measSize; omega) (by
    show s2.sys.measSize = 6 + (if s2.useFT then s2.sys.nb * 6 else 0) + (if s2.withAbs then 6 else 0)
    rw [hm, hn, hft, hab]; rfl) (c2.forceVar _ rfl)) (DMat.hasSize_mk ..)
  have r3 := run_snoc r2 ((setR_step (by omega) (by omega)).trans hl)
  simp only [List.nil_append, List.cons_append] at r3
  refine ⟨_, _, r3, ?_⟩
  have e : square s2.sys.measSize (nextR s2.sys.nb s2.useFT s2.withAbs 1e-4 s2.absVar 6 (coeff ⟨6, 6, V⟩ (s2.mem s2.allocs))) =
      square 18 (nextR 2 true false 1e-4 s2.absVar 6 (coeff ⟨6, 6, V⟩ fun _ _ => v)) := by rw [hm, hn, hft, hab, m2, m1, hmem]
  refine ⟨fun i j => nextR 2 true false 1e-4 s2.absVar 6 (coeff ⟨6, 6, V⟩ fun _ _ => v) i j, e, e, ?_⟩
  show nextR 2 true false 1e-4 s2.absVar 6 (coeff ⟨6, 6, V⟩ fun _ _ => v) 6 12 = v
  simp [nextR, fillForces_at, setBlk, coeff]

/-- When the forces of at least one contact are measured, enabling the measurement of the absolute pose leaves its variance uninitialised: it can be any number. -/
theorem C93_pose_false (dt v : ℝ) (n : ℕ) : ∃ mem s,
    run mem dt [.setContactsNumber (n + 1), .setWithForcesMeasurements true, .setWithAbsolutePos true] = .ok s ∧
      ∃ R : Matrix (Fin (18 + n * 6)) (Fin (18 + n * 6)) ℝ, s.R = ⟨_, _, R⟩ ∧ s.ekf.st.r = ⟨_, _, R⟩ ∧ R ⟨12 + n * 6, by omega⟩ ⟨12 + n * 6, by omega⟩ = v := by
  obtain ⟨s0, e, hi, -, -, -, hmem, -, -, -, -, -, -, -, -, -, -, -, -, hf, -⟩ := ctor_eq (fun _ _ _ => v) dt
  have r0 : run (fun _ _ _ => v) dt [] = .ok s0 := by rw [run, e]; rfl
  obtain ⟨s1, e1, m1, -⟩ := contacts_live hi hf (n + 1)
  have r1 := run_snoc r0 e1
  simp only [List.nil_append, List.cons_append] at r1
  have c1 := has_run r1
  obtain ⟨s2, e2, m2, -⟩ := forces_live (inv_run r1) c1 rfl (by show 0 < n + 1; omega) (d := 1e-4) rfl
  have r2 := run_snoc r1 e2
  simp only [List.nil_append, List.cons_append] at r2
  have c2 := has_run r2
  obtain ⟨s3, e3, m3, h3⟩ := abs_live (inv_run r2) c2 rfl (d := 1e-4) rfl
  have r3 := run_snoc r2 e3
  simp only [List.nil_append, List.cons_append] at r3
  have hm : Config.size { Config.of [.setContactsNumber (n + 1), .setWithForcesMeasurements true] with abs := true } = 18 + n * 6 := by
    show 6 + (n + 1) * 6 + 6 = _; omega
  have hz : Config.size (Config.of [.setContactsNumber (n + 1), .setWithForcesMeasurements true]) = 12 + n * 6 := by
    show 6 + (n + 1) * 6 + 0 = _; omega
  obtain ⟨R2, hR2⟩ := (inv_run r2).rSize
  have hr2 : s2.sys.measSize = 12 + n * 6 := (c2.size (inv_run r2)).trans hz
  have h3' : s3.R = _ := h3
  rw [hm, hz] at h3'
  refine ⟨_, s3, r3, _, h3', (inv_run r3).r.trans h3', ?_⟩
  show nextR (n + 1) true true 1e-4 _ (12 + n * 6) (coeff s2.R (s2.mem s2.allocs)) (12 + n * 6) (12 + n * 6) = v
  have h1 : ¬ (12 + n * 6 < 6 + (n + 1) * 6) := by omega
  have h2 : ¬ (12 + n * 6 < 6 + 6) := by omega
  simp only [nextR, h1, if_false, and_false, h2]
  rw [coeff, dif_neg (by rw [hR2]; simp only; omega), m2, m1, hmem]

/-- After `setForceVariance` with a 3x3 matrix, enabling the measurement of the forces fails an assertion. -/
theorem C93_matrix3_false {mem : ℕ → ℕ → ℕ → ℝ} {dt : ℝ} {ops : List Op} {s : Est} (h : run mem dt ops = .ok s) (hv : (Config.of ops).forceVar = none)
    (hf : (Config.of ops).force = false) (ha : (Config.of ops).abs = false) (hn : 0 < (Config.of ops).nb) : exec s (.setWithForcesMeasurements true) = .assertFail := by
  have hi := inv_run h
  have hc := has_run h
  generalize Config.of ops = c at *
  have hs := hc.size hi
  have hz : c.size = 6 := by simp [Config.size, hf, ha]
  obtain ⟨R, hR⟩ := hi.rSize
  have hRr : s.R.rows = 6 := by rw [hR]; exact hs.trans hz
  show s.setWithForcesMeasurements true = _
  rw [setWithForces_step hi (by rw [hc.force, hf]; decide)]
  obtain ⟨sys, hsys⟩ : ∃ x, { s.sys with withForce := true }.updateMeasurementSize = x := ⟨_, rfl⟩
  rw [hsys]
  have hn' : sys.nb = c.nb := by rw [← hsys]; exact hc.nb
  have hm : sys.measSize = 6 + c.nb * 6 := by
    rw [← hsys]
    simp only [Elastic.Sys.updateMeasurementSize, if_true]
    rw [hi.abs, hc.abs, hc.nb, ha]
    simp
  have e : (Est.sys { s with useFT := true, ekf := resizeF s.ekf sys }) = sys := resizeF_sys hi sys
  unfold Est.updateR Est.resizedR Est.forcePart
  rw [e]
  simp only
  rw [hRr, hn', hm, if_pos (by omega), if_pos ⟨trivial, by omega⟩]
  have h3 : s.forceVar.hasSize 6 6 = false := by
    have := hc.forceVar3 hv
    obtain ⟨W, hW⟩ := (DMat.hasSize_iff _ _ _).1 this
    rw [hW]; rfl
  rw [h3, show decide (c.nb = 0) = false from decide_eq_false (by omega)]
  simp

/-! ## The hypotheses are satisfied -/

/-- A client that measures the forces of one contact and the absolute pose. -/
example (mem : ℕ → ℕ → ℕ → ℝ) (dt : ℝ) : ∃ s, run mem dt [.setForceVariance 2, .setAbsolutePosVariance 3, .setContactsNumber 1, .setWithForcesMeasurements true] = .ok s ∧
    (Config.of [.setForceVariance 2, .setAbsolutePosVariance 3, .setContactsNumber 1, .setWithForcesMeasurements true]).forceVar = some 2 ∧
    (Config.of [.setForceVariance 2, .setAbsolutePosVariance 3, .setContactsNumber 1, .setWithForcesMeasurements true]).nb = 1 := by
  obtain ⟨s0, e, -⟩ := ctor_eq mem dt
  have r0 : run mem dt [] = .ok s0 := by rw [run, e]; rfl
  obtain ⟨⟨s1, e1, -⟩, -⟩ := C93_setVariance_false r0 2
  have r1 := run_snoc r0 e1
  simp only [List.nil_append, List.cons_append] at r1
  obtain ⟨-, ⟨s2, e2, -⟩⟩ := C93_setVariance_false r1 3
  have r2 := run_snoc r1 e2
  simp only [List.nil_append, List.cons_append] at r2
  obtain ⟨s3, e3, -⟩ := contacts_live (inv_run r2) (has_run r2).force 1
  have r3 := run_snoc r2 e3
  simp only [List.nil_append, List.cons_append] at r3
  obtain ⟨s4, e4, -⟩ := forces_live (inv_run r3) (has_run r3) rfl (by show 0 < 1; omega) (d := 2) rfl
  have r4 := run_snoc r3 e4
  simp only [List.nil_append, List.cons_append] at r4
  exact ⟨s4, r4, rfl, rfl⟩

/-- A client that gives a 3x3 variance of the forces. -/
example (mem : ℕ → ℕ → ℕ → ℝ) (dt : ℝ) (V : M3) : ∃ s, run mem dt [.setForceVariance3 V, .setContactsNumber 1] = .ok s := by
  obtain ⟨s0, e, -⟩ := ctor_eq mem dt
  have r0 : run mem dt [] = .ok s0 := by rw [run, e]; rfl
  have hi := inv_run r0
  obtain ⟨R, hR⟩ := hi.rSize
  have r1 := run_snoc r0 (op := .setForceVariance3 V) (updateR_keep (s := { s0 with forceVar := ⟨3, 3, V⟩ }) hi.f.mt hR)
  simp only [List.nil_append, List.cons_append] at r1
  obtain ⟨s2, e2, -⟩ := contacts_live (inv_run r1) (has_run r1).force 1
  have r2 := run_snoc r1 e2
  simp only [List.nil_append, List.cons_append] at r2
  exact ⟨s2, r2⟩

end StateObs.ModelFlex
