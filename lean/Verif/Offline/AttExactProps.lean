import Verif.Offline.AttProps
import Verif.Offline.MltpExactProps
/-! # C147: the offline estimation of the attitude with a rotation vector is exact on exact data -/

namespace StateObs.Offline
open StateObs KF Flex Matrix Imu EKF KFSpec Rot Kine

/-- `ObservedV dt X l Xs`: a body that is in the state `X` goes through the states `Xs`, one sampling period apart; `l` gives for each of them the accelerations set as input the sampling
time before and what the accelerometer and the gyrometer measure then. -/
inductive ObservedV (dt : ℝ) : (Fin 18 → ℝ) → List ((Fin 6 → ℝ) × (Fin 6 → ℝ)) → List (Fin 18 → ℝ) → Prop
  | done (X) : ObservedV dt X [] []
  | step {X u y l X' Xs} (hX : ImuNext dt X u X') (hy : ImuReading X' y) (h : ObservedV dt X' l Xs) : ObservedV dt X ((u, y) :: l) (X' :: Xs)

/-- The same pose, velocities and accelerations (a rotation has several vectors). -/
structure SameMotionV (x z : Fin 18 → ℝ) : Prop where
  pos : seg 3 x 0 = seg 3 z 0
  ori : NormedSpace.exp (hat (seg 3 x 3)) = NormedSpace.exp (hat (seg 3 z 3))
  linVel : seg 3 x 6 = seg 3 z 6
  angVel : seg 3 x 9 = seg 3 z 9
  linAcc : seg 3 x 12 = seg 3 z 12
  angAcc : seg 3 x 15 = seg 3 z 15

theorem trace_exp (z : V3) : (NormedSpace.exp (hat z)).trace = 1 + 2 * Real.cos (nrm z) := by
  by_cases hne : z = 0
  · subst hne
    rw [hat_zero, NormedSpace.exp_zero, nrm_eq_zero.2 rfl, Real.cos_zero, Matrix.trace_one]
    norm_num
  have hp : 0 < nrm z := lt_of_le_of_ne (Real.sqrt_nonneg _) fun h => hne (nrm_eq_zero.1 h.symm)
  have hu : ((1 / nrm z) • z) ⬝ᵥ ((1 / nrm z) • z) = 1 := unit_normalized hp
  have e := toMat_eq_exp hu (nrm z)
  rw [← hat_smul, smul_smul, mul_one_div_cancel hp.ne', one_smul] at e
  rw [← e]
  generalize (1 / nrm z) • z = u at hu e
  rw [Matrix.trace_fin_three]
  simp [AngleAxis.toMat]
  rw [dot3] at hu
  linear_combination (1 - Real.cos (nrm z)) * hu

/-- Two vectors of the same rotation, not longer than 3π/2, are both below 1e-16 or both above. -/
theorem turn_eq_of_exp {a b : V3} (h : NormedSpace.exp (hat a) = NormedSpace.exp (hat b)) (ha : nrm a ≤ 3 / 2 * Real.pi) (hb : nrm b ≤ 3 / 2 * Real.pi) : turn a = turn b := by
  have hpi := Real.two_le_pi
  have key : ∀ {a b : V3}, Real.cos (nrm a) = Real.cos (nrm b) → nrm a ≤ 1e-16 → ¬nrm b ≤ 1e-16 → nrm b ≤ 3 / 2 * Real.pi → False := by
    intro a b hc ha hb hb'
    have h0 : 0 ≤ nrm a := Real.sqrt_nonneg _
    rw [not_le] at hb
    rcases le_or_gt (nrm b) Real.pi with h1 | h1
    · have := Real.cos_lt_cos_of_nonneg_of_le_pi h0 h1 (by linarith)
      linarith
    · have h2 : Real.cos (nrm b) ≤ 0 := Real.cos_nonpos_of_pi_div_two_le_of_le (by linarith) (by linarith)
      have h3 : 0 < Real.cos (nrm a) := Real.cos_pos_of_mem_Ioo ⟨by linarith, by norm_num at ha; linarith⟩
      linarith
  have hc : Real.cos (nrm a) = Real.cos (nrm b) := by
    have := congrArg Matrix.trace h
    rw [trace_exp, trace_exp] at this
    linarith
  rw [turn, turn]
  split <;> split
  · rfl
  · exact (key hc ‹_› ‹_› hb).elim
  · exact (key hc.symm ‹_› ‹_› ha).elim
  · exact h

/-- What the next step uses of a state. -/
structure AlikeV (x z : Fin 18 → ℝ) : Prop where
  pos : seg 3 x 0 = seg 3 z 0
  ori : turn (seg 3 x 3) = turn (seg 3 z 3)
  linVel : seg 3 x 6 = seg 3 z 6
  angVel : seg 3 x 9 = seg 3 z 9
  linAcc : seg 3 x 12 = seg 3 z 12
  angAcc : seg 3 x 15 = seg 3 z 15

theorem ImuNext.same {dt : ℝ} {x z x' z' : Fin 18 → ℝ} {u : Fin 6 → ℝ} (h : AlikeV x z) (hx : ImuNext dt x u x') (hz : ImuNext dt z u z') : SameMotionV x' z' :=
  ⟨by rw [hx.pos, hz.pos, h.pos, h.linVel, h.linAcc], by rw [hx.ori, hz.ori, h.ori, h.angVel, h.angAcc],
    by rw [hx.linVel, hz.linVel, h.linVel, h.linAcc], by rw [hx.angVel, hz.angVel, h.angVel, h.angAcc], by rw [hx.linAcc, hz.linAcc], by rw [hx.angAcc, hz.angAcc]⟩

theorem SameMotionV.alike {x z : Fin 18 → ℝ} (h : SameMotionV x z) (hx : nrm (seg 3 x 3) ≤ 3 / 2 * Real.pi) (hz : nrm (seg 3 z 3) ≤ 3 / 2 * Real.pi) : AlikeV x z :=
  ⟨h.pos, turn_eq_of_exp h.ori hx hz, h.linVel, h.angVel, h.linAcc, h.angAcc⟩

theorem turn_isRot (v : V3) : IsRot (turn v) := by
  rw [show turn v = rotationVectorToRotationMatrix v from (C34_exp v).symm]
  exact rv_isRot v

theorem ImuReading.same {x z : Fin 18 → ℝ} {y w : Fin 6 → ℝ} (h : AlikeV x z) (hy : ImuReading x y) (hw : ImuReading z w) : y = w := by
  have hR := turn_isRot (seg 3 x 3)
  have inj : ∀ a b : V3, turn (seg 3 x 3) *ᵥ a = turn (seg 3 x 3) *ᵥ b → a = b := by
    intro a b e
    have := congrArg ((turn (seg 3 x 3))ᵀ *ᵥ ·) e
    simpa only [hR.cancel] using this
  refine ext6 (inj _ _ ?_) (inj _ _ ?_)
  · rw [hy.acc, h.ori, hw.acc, h.linAcc]
  · rw [hy.gyro, h.ori, hw.gyro, h.angVel]

theorem le_long {a : V3} (h : nrm a ≤ Real.pi) : nrm a ≤ 3 / 2 * Real.pi := by
  have := Real.pi_pos
  linarith

theorem AttRun.exact {dt : ℝ} {Q : Matrix (Fin 18) (Fin 18) ℝ} {R : Matrix (Fin 6) (Fin 6) ℝ} {x P l r} (h : AttRun dt Q R x P l r) :
    ∀ {X Xs}, AlikeV x X → ObservedV dt X l Xs → ∃ q, r = .ok q ∧ List.Forall₂ SameMotionV q Xs := by
  induction h with
  | done x P =>
    intro X Xs _ hO
    cases hO
    exact ⟨[], rfl, .nil⟩
  | step x P u y l r F H A C Pp d v hF hH hA hC hP hd hv ho hn h ih =>
    intro X Xs hs hO
    cases hO with
    | @step _ _ _ _ X' Xs hX hy hO =>
      have s1 := ImuNext.same hs (hF x) hX
      have e : H (F x) = y := ImuReading.same (s1.alike (le_long (hF x).short) (le_long hX.short)) (hH _) hy
      have d0 : d = 0 := by rw [hd, e, sub_self, mulVec_zero]
      subst d0
      rw [add_zero] at ho
      have hs3 : ∀ i : ℕ, i + 2 < 3 ∨ 6 ≤ i → i + 2 < 18 → seg 3 v i = seg 3 (F x) i := by
        intro i hi h18
        funext j
        have hj : i + j.val < 18 := by omega
        have := hv ⟨i + j.val, hj⟩ (by have := j.2; simp only; omega)
        simpa [seg, hj] using this
      have s3 : SameMotionV v X' := ⟨(hs3 0 (by omega) (by omega)).trans s1.pos, ho.trans s1.ori, (hs3 6 (by omega) (by omega)).trans s1.linVel,
        (hs3 9 (by omega) (by omega)).trans s1.angVel, (hs3 12 (by omega) (by omega)).trans s1.linAcc, (hs3 15 (by omega) (by omega)).trans s1.angAcc⟩
      obtain ⟨q, rfl, hq⟩ := ih (s3.alike hn (le_long hX.short)) hO
      exact ⟨v :: q, rfl, .cons s3 hq⟩
  | tooLong x P u y l F H A C Pp d hF hH hA hC hP hd ho =>
    intro X Xs hs hO
    cases hO with
    | step hX hy hO =>
      have s1 := ImuNext.same hs (hF x) hX
      have e : H (F x) = y := ImuReading.same (s1.alike (le_long (hF x).short) (le_long hX.short)) (hH _) hy
      have d0 : d = 0 := by rw [hd, e, sub_self, mulVec_zero]
      subst d0
      rw [add_zero] at ho
      have := (hF x).short
      have := Real.pi_pos
      nlinarith

/-- **C147** The offline estimation of the attitude with a rotation vector is exact on exact data, and ends: from the true initial state, with the true accelerations as inputs and the
measurements of an exact inertial unit, it returns the true motion, whatever the covariances and the sampling period. -/
theorem C147_attitude (l : List ((Fin 6 → ℝ) × (Fin 6 → ℝ))) (k : Int) (us : IArr DVec) (h0 : ∃ w, us.get (k - 1) = .ok ⟨6, w⟩)
    (hu : ∀ j (h : j < l.length), us.get (k - 1 + j) = .ok ⟨6, l[j].1⟩) (X : Fin 18 → ℝ) (P Q : Matrix (Fin 18) (Fin 18) ℝ) (R : Matrix (Fin 6) (Fin 6) ℝ)
    (hP : P.PosSemidef) (hQ : Q.PosSemidef) (hR : R.PosDef) (dt : ℝ) (Xs : List (Fin 18 → ℝ)) (hO : ObservedV dt X l Xs) :
    ∃ r, imuAttitudeTrajectoryReconstruction ⟨k, l.map fun e => ⟨6, e.2⟩⟩ us ⟨18, X⟩ ⟨18, 18, P⟩ ⟨18, 18, Q⟩ ⟨6, 6, R⟩ dt =
        .ok ⟨k - 1, ⟨18, X⟩ :: r.map fun v => ⟨18, v⟩⟩ ∧ List.Forall₂ SameMotionV r Xs := by
  obtain ⟨r, hr, e⟩ := C101_run l k us h0 hu X P Q R hP hQ hR dt
  obtain ⟨q, rfl, hq⟩ := hr.exact ⟨rfl, rfl, rfl, rfl, rfl, rfl⟩ hO
  exact ⟨q, by rw [e, Res.ok_bind], hq⟩

/-- **C147** The same without inputs, for a body whose accelerations are zero from the first sampling time on. -/
theorem C147_attitude_noInput (l : List (Fin 6 → ℝ)) (k : Int) (X : Fin 18 → ℝ) (P Q : Matrix (Fin 18) (Fin 18) ℝ) (R : Matrix (Fin 6) (Fin 6) ℝ)
    (hP : P.PosSemidef) (hQ : Q.PosSemidef) (hR : R.PosDef) (dt : ℝ) (Xs : List (Fin 18 → ℝ)) (hO : ObservedV dt X (l.map fun y => (0, y)) Xs) :
    ∃ r, imuAttitudeTrajectoryReconstruction0 ⟨k, l.map fun y => ⟨6, y⟩⟩ ⟨18, X⟩ ⟨18, 18, P⟩ ⟨18, 18, Q⟩ ⟨6, 6, R⟩ dt =
        .ok ⟨k - 1, ⟨18, X⟩ :: r.map fun v => ⟨18, v⟩⟩ ∧ List.Forall₂ SameMotionV r Xs := by
  obtain ⟨r, hr, e⟩ := C101_noInput l k X P Q R hP hQ hR dt
  obtain ⟨q, rfl, hq⟩ := hr.exact ⟨rfl, rfl, rfl, rfl, rfl, rfl⟩ hO
  exact ⟨q, by rw [e, Res.ok_bind], hq⟩

/-- C147 is not vacuous: for every initial state and every sequence of inputs there are such a motion and such measurements. -/
theorem C147_attitude_data (dt : ℝ) (us : List (Fin 6 → ℝ)) : ∀ X : Fin 18 → ℝ, ∃ l Xs, l.map Prod.fst = us ∧ ObservedV dt X l Xs := by
  induction us with
  | nil => exact fun X => ⟨[], [], rfl, .done X⟩
  | cons u us ih =>
    intro X
    obtain ⟨z, s', -, h1, h2⟩ := C142_step (G := Unit) .imu dt [] () () () (Imu.ctor dt) rfl rfl X u
    obtain ⟨l, Xs, e, hO⟩ := ih z
    have hR := turn_isRot (seg 3 z 3)
    set a : V3 := (turn (seg 3 z 3))ᵀ *ᵥ (seg 3 z 12 + ![0, 0, 9.8])
    set w : V3 := (turn (seg 3 z 3))ᵀ *ᵥ seg 3 z 9
    refine ⟨(u, ![a 0, a 1, a 2, w 0, w 1, w 2]) :: l, z :: Xs, by rw [List.map_cons, e],
      .step ⟨h1.pos, h1.ori, h1.short, h1.linVel, h1.angVel, h2.linAcc, h2.angAcc⟩ ⟨?_, ?_⟩ hO⟩
    · have : seg 3 ![a 0, a 1, a 2, w 0, w 1, w 2] 0 = a := by apply ext3 <;> rfl
      rw [this, hR.cancel']
    · have : seg 3 ![a 0, a 1, a 2, w 0, w 1, w 2] 3 = w := by apply ext3 <;> rfl
      rw [this, hR.cancel']

end StateObs.Offline
