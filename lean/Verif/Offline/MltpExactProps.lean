import Verif.Offline.MltpProps
import Verif.Imu.MotionProps
/-! # C147: the offline estimations of the attitude are exact on exact data -/

namespace StateObs.Offline
open StateObs KF Flex Matrix Imu EKF KFSpec Rot Kine Mltp

/-- `Observed dt X l Xs`: a body that is in the state `X` goes through the states `Xs`, one sampling period apart; `l` gives for each of them the accelerations set as input the sampling
time before and what the accelerometer and the gyrometer measure then. -/
inductive Observed (dt : ℝ) : (Fin 19 → ℝ) → List ((Fin 6 → ℝ) × (Fin 6 → ℝ)) → List (Fin 19 → ℝ) → Prop
  | done (X) : Observed dt X [] []
  | step {X u y l X' Xs} (hX : MltpNext dt X u X') (hy : MltpReading X' y) (h : Observed dt X' l Xs) : Observed dt X ((u, y) :: l) (X' :: Xs)

/-- The same pose, velocities and accelerations (a rotation has two unit quaternions). -/
structure SameMotion (x z : Fin 19 → ℝ) : Prop where
  pos : seg 3 x 0 = seg 3 z 0
  ori : rotOf x = rotOf z
  linVel : seg 3 x 7 = seg 3 z 7
  angVel : seg 3 x 10 = seg 3 z 10
  linAcc : seg 3 x 13 = seg 3 z 13
  angAcc : seg 3 x 16 = seg 3 z 16

theorem MltpNext.same {dt : ℝ} {x z x' z' : Fin 19 → ℝ} {u : Fin 6 → ℝ} (h : SameMotion x z) (hx : MltpNext dt x u x') (hz : MltpNext dt z u z') : SameMotion x' z' :=
  ⟨by rw [hx.pos, hz.pos, h.pos, h.linVel, h.linAcc], by rw [hx.ori, hz.ori, h.ori, rotationDuring, rotationDuring, h.angVel, h.angAcc],
    by rw [hx.linVel, hz.linVel, h.linVel, h.linAcc], by rw [hx.angVel, hz.angVel, h.angVel, h.angAcc], by rw [hx.linAcc, hz.linAcc], by rw [hx.angAcc, hz.angAcc]⟩

theorem rotOf_isRot {x : Fin 19 → ℝ} (h : Unit4 x) : IsRot (rotOf x) := Quat.toMat_isRot h

theorem ext6 {y w : Fin 6 → ℝ} (h0 : seg 3 y 0 = seg 3 w 0) (h3 : seg 3 y 3 = seg 3 w 3) : y = w := by
  funext i
  fin_cases i
  · exact congrFun h0 0
  · exact congrFun h0 1
  · exact congrFun h0 2
  · exact congrFun h3 0
  · exact congrFun h3 1
  · exact congrFun h3 2

theorem MltpReading.same {x z : Fin 19 → ℝ} {y w : Fin 6 → ℝ} (h : SameMotion x z) (hu : Unit4 x) (hy : MltpReading x y) (hw : MltpReading z w) : y = w := by
  have hR := rotOf_isRot hu
  have inj : ∀ a b : V3, rotOf x *ᵥ a = rotOf x *ᵥ b → a = b := by
    intro a b e
    have := congrArg ((rotOf x)ᵀ *ᵥ ·) e
    simpa only [hR.cancel] using this
  refine ext6 (inj _ _ ?_) (inj _ _ ?_)
  · rw [hy.acc, h.ori, hw.acc, h.linAcc]
  · rw [hy.gyro, h.ori, hw.gyro, h.angVel]

theorem turn_zero : turn 0 = 1 := by
  rw [turn, if_pos]
  rw [nrm_eq_zero.2 rfl]
  norm_num

theorem MltpRun.exact {dt : ℝ} {Q : Matrix (Fin 18) (Fin 18) ℝ} {R : Matrix (Fin 6) (Fin 6) ℝ} {x P l r} (h : MltpRun dt Q R x P l r) (hx : Unit4 x) :
    ∀ {X Xs}, SameMotion x X → Observed dt X l Xs → List.Forall₂ SameMotion r Xs := by
  induction h with
  | done x P =>
    intro X Xs _ hO
    cases hO
    exact .nil
  | step x P u y l r F H A C Pp d v hF hH hA hC hP hd hv h ih =>
    intro X Xs hs hO
    cases hO with
    | step hX hy hO =>
      have s1 := MltpNext.same hs (hF x hx) hX
      have e : H (F x) = y := MltpReading.same s1 (hF x hx).unit (hH _ (hF x hx).unit) hy
      have d0 : d = 0 := by rw [hd, e, sub_self, mulVec_zero]
      subst d0
      have s2 : SameMotion v (F x) := by
        have z : ∀ i, seg 3 (0 : Fin 18 → ℝ) i = 0 := fun i => Mltp.seg_zero i
        refine ⟨?_, ?_, ?_, ?_, ?_, ?_⟩
        · rw [hv.pos, z, add_zero]
        · rw [hv.ori, z, turn_zero, one_mul]
        · rw [hv.linVel, z, add_zero]
        · rw [hv.angVel, z, add_zero]
        · rw [hv.linAcc, z, add_zero]
        · rw [hv.angAcc, z, add_zero]
      have s3 : SameMotion v _ := ⟨s2.pos.trans s1.pos, s2.ori.trans s1.ori, s2.linVel.trans s1.linVel, s2.angVel.trans s1.angVel, s2.linAcc.trans s1.linAcc, s2.angAcc.trans s1.angAcc⟩
      exact .cons s3 (ih hv.unit s3 hO)

/-- **C147** The offline estimation of the attitude with a quaternion is exact on exact data: from the true initial state, with the true accelerations as inputs and the measurements of an
exact inertial unit, it returns the true motion, whatever the covariances and the sampling period. -/
theorem C147_exact (l : List ((Fin 6 → ℝ) × (Fin 6 → ℝ))) (k : Int) (us : IArr DVec) (h0 : ∃ w, us.get (k - 1) = .ok ⟨6, w⟩)
    (hu : ∀ j (h : j < l.length), us.get (k - 1 + j) = .ok ⟨6, l[j].1⟩) (x : Fin 19 → ℝ) (hx : Unit4 x) (P Q : Matrix (Fin 18) (Fin 18) ℝ)
    (R : Matrix (Fin 6) (Fin 6) ℝ) (hP : P.PosSemidef) (hQ : Q.PosSemidef) (hR : R.PosDef) (dt : ℝ) (X : Fin 19 → ℝ) (Xs : List (Fin 19 → ℝ)) (hX : SameMotion x X)
    (hO : Observed dt X l Xs) :
    ∃ r, imuMultiplicativeAttitudeReconstruction ⟨k, l.map fun e => ⟨6, e.2⟩⟩ us ⟨19, x⟩ ⟨18, 18, P⟩ ⟨18, 18, Q⟩ ⟨6, 6, R⟩ dt =
        .ok ⟨k - 1, ⟨19, x⟩ :: r.map fun v => ⟨19, v⟩⟩ ∧ List.Forall₂ SameMotion r Xs := by
  obtain ⟨r, hr, e⟩ := C102_run l k us h0 hu x hx P Q R hP hQ hR dt
  exact ⟨r, e, hr.exact hx hX hO⟩

/-- **C147** The same without inputs, for a body whose accelerations are zero from the first sampling time on. -/
theorem C147_noInput (l : List (Fin 6 → ℝ)) (k : Int) (x : Fin 19 → ℝ) (hx : Unit4 x) (P Q : Matrix (Fin 18) (Fin 18) ℝ) (R : Matrix (Fin 6) (Fin 6) ℝ)
    (hP : P.PosSemidef) (hQ : Q.PosSemidef) (hR : R.PosDef) (dt : ℝ) (X : Fin 19 → ℝ) (Xs : List (Fin 19 → ℝ)) (hX : SameMotion x X)
    (hO : Observed dt X (l.map fun y => (0, y)) Xs) :
    ∃ r, imuMultiplicativeAttitudeReconstruction0 ⟨k, l.map fun y => ⟨6, y⟩⟩ ⟨19, x⟩ ⟨18, 18, P⟩ ⟨18, 18, Q⟩ ⟨6, 6, R⟩ dt =
        .ok ⟨k - 1, ⟨19, x⟩ :: r.map fun v => ⟨19, v⟩⟩ ∧ List.Forall₂ SameMotion r Xs := by
  obtain ⟨r, hr, e⟩ := C102_noInput l k x hx P Q R hP hQ hR dt
  exact ⟨r, e, hr.exact hx hX hO⟩

/-- C147 is not vacuous: for every initial state with a unit quaternion and every sequence of inputs there are such a motion and such measurements. -/
theorem C147_data (dt : ℝ) (us : List (Fin 6 → ℝ)) : ∀ X : Fin 19 → ℝ, Unit4 X → ∃ l Xs, l.map Prod.fst = us ∧ Observed dt X l Xs := by
  induction us with
  | nil => exact fun X _ => ⟨[], [], rfl, .done X⟩
  | cons u us ih =>
    intro X hX
    obtain ⟨z, -, h1, h2, h3⟩ := C144_step (R := Unit) [.setSamplingPeriod dt] () () () _ rfl rfl X u ((quatNormSq_eq X).trans hX)
    have hz : Unit4 z := (quatNormSq_eq z).symm.trans h2
    obtain ⟨l, Xs, e, hO⟩ := ih z hz
    have hR := rotOf_isRot hz
    set a : V3 := (rotOf z)ᵀ *ᵥ (seg 3 z 13 + ![0, 0, 9.8])
    set w : V3 := (rotOf z)ᵀ *ᵥ seg 3 z 10
    refine ⟨(u, ![a 0, a 1, a 2, w 0, w 1, w 2]) :: l, z :: Xs, by rw [List.map_cons, e], .step ⟨hz, h1.pos, h3, h1.linVel, h1.angVel, h1.linAcc, h1.angAcc⟩ ⟨?_, ?_⟩ hO⟩
    · have : seg 3 ![a 0, a 1, a 2, w 0, w 1, w 2] 0 = a := by apply ext3 <;> rfl
      rw [this, hR.cancel']
    · have : seg 3 ![a 0, a 1, a 2, w 0, w 1, w 2] 3 = w := by apply ext3 <;> rfl
      rw [this, hR.cancel']

end StateObs.Offline
