import Verif.Elastic.NewtonProps
import Verif.KO.NewtonFalse
/-! # C87: when the accelerations can be computed; a case -/

namespace StateObs.Elastic
open StateObs Matrix Rot Kine Imu
open StateObs.KO (Robot at3 skew2_mulVec)

variable {G : Type}

theorem skew2_rot {R : M3} (hR : IsRot R) (c : V3) : skewSymmetric2 (R *ᵥ c) = R * skewSymmetric2 c * Rᵀ := by
  have h : ∀ v, skewSymmetric2 (R *ᵥ c) *ᵥ v = (R * skewSymmetric2 c * Rᵀ) *ᵥ v := fun v => by
    rw [skew2_mulVec, ← mulVec_mulVec, ← mulVec_mulVec, skew2_mulVec, hR.cross, hR.cross, hR.cancel']
  ext i j
  have := congrFun (h (Pi.single j 1)) i
  simpa using this

theorem comInertia_posDef {m : ℝ} {i : Input} {R : M3} (hR : IsRot R) (h : (i.inertia + m • skewSymmetric2 i.com).PosDef) : (comInertia m i R).PosDef := by
  have e : comInertia m i R = R * (i.inertia + m • skewSymmetric2 i.com) * Rᴴ := by
    unfold comInertia
    rw [skew2_rot hR, conjTranspose_eq_transpose_of_trivial, Matrix.mul_add, Matrix.add_mul, Matrix.mul_smul, Matrix.smul_mul]
  rw [e]
  refine h.mul_mul_conjTranspose_same ?_
  have hu : IsUnit R := by rw [Matrix.isUnit_iff_isUnit_det, hR.det]; exact isUnit_one
  exact vecMul_injective_of_isUnit hu

theorem accelerations_live {m mi : ℝ} {i : Input} {R : M3} {p ω f t : V3} (hm : m ≠ 0) (h : (comInertia m i R).PosDef) : ∃ r, accelerations m mi i R p ω f t = .ok r := by
  unfold accelerations
  rw [if_neg hm]
  simp only
  obtain ⟨β, hβ⟩ := lltSolve_live (S := comInertia m i R) (_ : V3) h
  rw [hβ]
  exact ⟨_, rfl⟩

/-- **C87**, return: with a mass, an inertia about the centre of mass that is positive definite, and at most two contacts if they are elastic, the accelerations are computed. -/
theorem C87_return (dt : ℝ) (g g' : G) (ops : List (Op G)) (s : Sys G) (x u : DVec) (hr : run dt g ops = .ok (s, g')) (hx : x.size = 35)
    (hu : u.size = 48 + 12 * s.nb) (hm : s.mass ≠ 0) (hn : s.model = 1 → s.nb ≤ 2)
    (hI : (sym u 9 + s.mass • skewSymmetric2 (at3 u 0 - bias s x)).PosDef) : ∃ a α s', s.computeAccelerations x u = .ok ((a, α), s') := by
  have hi := run_inv hr
  obtain ⟨rt, -, e⟩ := computeAccelerations_eq hi.rot x u hx hu
  rw [e]
  unfold Sys.accelPure Sys.accel
  rw [biased_eq]
  simp only
  obtain ⟨w, hw⟩ := contactWrench_live (model := (s.readEfforts (cast x 35 hx)).model) (R := rotationVectorToRotationMatrix (seg 3 (cast x 35 hx) iOri))
    (p := seg 3 (cast x 35 hx) iPos)
    (cs := (List.range s.nb).map fun i => ⟨at3 u (48 + 12 * i), at3 u (48 + 12 * i + 3), at3 u (48 + 12 * i + 6), at3 u (48 + 12 * i + 9)⟩)
    (fc := (s.readEfforts (cast x 35 hx)).fc) (tc := (s.readEfforts (cast x 35 hx)).tc)
    (fm := seg 3 (cast x 35 hx) iUnmodeled) (tm := seg 3 (cast x 35 hx) (iUnmodeled + 3)) (a := at3 u 42) (b := at3 u 45) (fun h => by simpa using hn h)
  rw [hw]
  simp only [Res.ok_bind]
  have hS := comInertia_posDef (m := s.mass) (i := ⟨at3 u 0 - bias s x, at3 u 3, at3 u 6, sym u 9, at3 u 15, sym u 18, at3 u 24, at3 u 27, at3 u 30, at3 u 33, at3 u 36, at3 u 39,
    at3 u 42, at3 u 45, (List.range s.nb).map fun i => ⟨at3 u (48 + 12 * i), at3 u (48 + 12 * i + 3), at3 u (48 + 12 * i + 6), at3 u (48 + 12 * i + 9)⟩⟩)
    (rv_isRot (seg 3 (cast x 35 hx) iOri)) hI
  obtain ⟨r, h⟩ := accelerations_live (mi := (s.readEfforts (cast x 35 hx)).massInv) (p := seg 3 (cast x 35 hx) iPos) (ω := seg 3 (cast x 35 hx) iAngVel) (f := w.1) (t := w.2) hm hS
  exact ⟨r.1, r.2, _, congrArg (fun q => Res.bind q _) h⟩

/-- **C87**, more contacts: with three elastic contacts or more, nothing is computed. -/
theorem C87_three_contacts_false (dt : ℝ) (g g' : G) (ops : List (Op G)) (s : Sys G) (x u : DVec) (hr : run dt g ops = .ok (s, g')) (hx : x.size = 35)
    (hu : u.size = 48 + 12 * s.nb) (hm : s.model = 1) (hn : 3 ≤ s.nb) : s.computeAccelerations x u = .assertFail := by
  have hi := run_inv hr
  obtain ⟨rt, -, e⟩ := computeAccelerations_eq hi.rot x u hx hu
  rw [e]
  unfold Sys.accelPure Sys.accel
  rw [biased_eq]
  simp only
  obtain ⟨k, hk⟩ : ∃ k, s.nb = k + 3 := ⟨s.nb - 3, by omega⟩
  unfold contactWrench
  simp only
  rw [if_pos (show (s.readEfforts (cast x 35 hx)).model = 1 from hm), hk, List.range_eq_range']
  rfl

/-! ## A case: one elastic contact pushes a spinning robot upwards -/

/-- Two kilograms, one elastic contact. -/
def exOps : List (Op G) := [.setRobotMass 2, .setContactModel 1, .setContactsNumber 1]

/-- Turning about the vertical axis, with a vertical force of 39.2 at the first contact. -/
noncomputable def exState : DVec := ⟨35, fun i => if i.1 = 11 then 1 else if i.1 = 14 then 39.2 else 0⟩

/-- Centre of mass at the height 1/2, unit inertia. -/
noncomputable def exInput : DVec := ⟨60, fun i => if i.1 = 2 then 1 / 2 else if i.1 = 9 ∨ i.1 = 10 ∨ i.1 = 11 then 1 else 0⟩

/-- The system after these calls. -/
noncomputable def exSys (dt : ℝ) : Sys G := Sys.updateMeasurementSize { (ctor dt : Sys G) with mass := 2, massInv := 1 / 2, model := 1, nb := 1 }

theorem ex_run (dt : ℝ) (g : G) : run dt g exOps = .ok (exSys dt, g) := rfl

theorem exState_at (i : ℕ) (h : i + 2 < 35) : at3 exState i = ![if i = 11 then 1 else if i = 14 then 39.2 else 0, if i + 1 = 11 then 1 else if i + 1 = 14 then 39.2 else 0,
    if i + 2 = 11 then 1 else if i + 2 = 14 then 39.2 else 0] := by
  funext j
  unfold at3
  rw [dif_pos (show i + j.1 < exState.size from (by show i + j.1 < 35; omega))]
  fin_cases j <;> rfl

theorem exInput_at (i : ℕ) (h : i + 2 < 60) (h9 : 12 ≤ i ∨ i ≤ 6) : at3 exInput i = ![if i = 2 then 1 / 2 else 0, if i + 1 = 2 then 1 / 2 else 0, if i + 2 = 2 then 1 / 2 else 0] := by
  funext j
  unfold at3
  rw [dif_pos (show i + j.1 < exInput.size from (by show i + j.1 < 60; omega))]
  have f0 : ∀ k : ℕ, (12 ≤ k ∨ k ≤ 8) → (if k = 2 then (1 / 2 : ℝ) else if k = 9 ∨ k = 10 ∨ k = 11 then 1 else 0) = if k = 2 then 1 / 2 else 0 := fun k hk => by
    rw [if_neg (show ¬ (k = 9 ∨ k = 10 ∨ k = 11) by omega)]
  fin_cases j
  · exact f0 i (by omega)
  · exact f0 (i + 1) (by omega)
  · exact f0 (i + 2) (by omega)

theorem exInertia : sym exInput 9 = 1 := by
  ext i j
  fin_cases i <;> fin_cases j <;> simp [sym, at1, exInput]

theorem exInertiad : sym exInput 18 = 0 := by
  ext i j
  fin_cases i <;> fin_cases j <;> simp [sym, at1, exInput]

theorem ex_describes (dt : ℝ) : Describes (exSys dt : Sys G) exState exInput (KO.spinRobot ![0, 0, 9.8] ![0, 0, 1 / 2]) 0 := by
  have z : (![0, 0, 0] : V3) = 0 := by ext i; fin_cases i <;> rfl
  have hb : bias (exSys dt : Sys G) exState = 0 := rfl
  constructor
  all_goals try rw [hb]
  all_goals try rw [exState_at _ (by norm_num)]
  all_goals try rw [exInput_at _ (by norm_num) (by norm_num)]
  · simp [KO.spinRobot, KO.spin]
  · simp only [KO.spinRobot, KO.spin, Kin.fallingTop]
    norm_num
    rw [z, rv_zero]
    ext i j
    fin_cases i <;> fin_cases j <;> simp
  · simp [KO.spinRobot, KO.spin]
  · simp [KO.spinRobot, KO.spin, Kin.fallingTop]
  · simp [KO.spinRobot]
  · simp [KO.spinRobot, z]
  · simp [KO.spinRobot, z]
  · rw [exInertia]; rfl
  · simp [KO.spinRobot, z]
  · rw [exInertiad]; rfl
  · simp [KO.spinRobot, z]

theorem ex_posDef (dt : ℝ) : (sym exInput 9 + (exSys dt : Sys G).mass • skewSymmetric2 (at3 exInput 0 - bias (exSys dt : Sys G) exState)).PosDef := by
  have hb : bias (exSys dt : Sys G) exState = 0 := rfl
  have hm : (exSys dt : Sys G).mass = 2 := rfl
  rw [exInertia, hb, hm, exInput_at 0 (by norm_num) (by norm_num), _root_.sub_zero]
  have e : (1 : M3) + (2 : ℝ) • skewSymmetric2 ![if 0 = 2 then 1 / 2 else 0, if 0 + 1 = 2 then 1 / 2 else 0, if 0 + 2 = 2 then 1 / 2 else 0] = diagonal ![1 / 2, 1 / 2, 1] := by
    ext i j
    fin_cases i <;> fin_cases j <;> simp [skewSymmetric2, vecMulVec_apply, Matrix.trace, Fin.sum_univ_three] <;> norm_num
  rw [e]
  refine PosDef.diagonal fun i => ?_
  fin_cases i <;> norm_num

/-- **C87**, a case: the accelerations of the spinning robot that an elastic contact pushes upwards. -/
theorem C87_example (dt : ℝ) (g : G) : ∃ s s', run dt g exOps = .ok (s, g) ∧ s.computeAccelerations exState exInput = .ok ((![0, 0, 9.8], 0), s') ∧
    Describes s exState exInput (KO.spinRobot ![0, 0, 9.8] ![0, 0, 1 / 2]) 0 := by
  obtain ⟨a, α, s', h⟩ := C87_return dt g g exOps (exSys dt) exState exInput (ex_run dt g) rfl rfl (by show (2 : ℝ) ≠ 0; norm_num) (fun _ => by show 1 ≤ 2; norm_num) (ex_posDef dt)
  obtain ⟨hm, h1, h2⟩ := compute_facts (ex_run dt g) h (ex_describes dt)
  have hR : (KO.spinRobot ![0, 0, 9.8] ![0, 0, 1 / 2]).frame.R 0 = 1 := by
    simp only [KO.spinRobot, KO.spin, Kin.fallingTop]
    ext i j
    fin_cases i <;> fin_cases j <;> simp
  have hp : (KO.spinRobot ![0, 0, 9.8] ![0, 0, 1 / 2]).frame.p 0 = 0 := by simp [KO.spinRobot, KO.spin]
  have hω : (KO.spinRobot ![0, 0, 9.8] ![0, 0, 1 / 2]).frame.ω 0 = ![0, 0, 1] := rfl
  have z : (![0, 0, 0] : V3) = 0 := by ext i; fin_cases i <;> rfl
  have hc : contactOri exInput 0 = 1 := by
    unfold contactOri
    rw [exInput_at _ (by norm_num) (by norm_num)]
    norm_num
    rw [z, rv_zero]
  have hpc : contactPos exInput 0 = 0 := by
    unfold contactPos
    rw [exInput_at _ (by norm_num) (by norm_num)]
    simp [z]
  have hF : totalForce (exSys dt : Sys G) exState exInput 1 = ![0, 0, 39.2] := by
    unfold totalForce contactsForce contactForce
    rw [if_pos (show (exSys dt : Sys G).model = 1 from rfl), show (exSys dt : Sys G).nb = 1 from rfl]
    simp only [Finset.range_one, Finset.sum_singleton, hc, one_mulVec]
    rw [exState_at _ (by norm_num), exState_at _ (by norm_num), exInput_at _ (by norm_num) (by norm_num)]
    norm_num
  have hM : totalMoment (exSys dt : Sys G) exState exInput 0 1 = 0 := by
    unfold totalMoment contactsMoment contactMoment contactForce
    rw [if_pos (show (exSys dt : Sys G).model = 1 from rfl), show (exSys dt : Sys G).nb = 1 from rfl]
    simp only [Finset.range_one, Finset.sum_singleton, hc, hpc, one_mulVec]
    rw [exState_at _ (by norm_num), exState_at _ (by norm_num), exInput_at _ (by norm_num) (by norm_num), exInput_at _ (by norm_num) (by norm_num)]
    have h27 : at3 exState 27 = 0 := by rw [exState_at _ (by norm_num)]; simp [z]
    simp [z, h27]
  have hm2 : (exSys dt : Sys G).mass = 2 := rfl
  rw [hR, hω, hF, hm2] at h1
  rw [hR, hω, hp, hF, hM, hm2] at h2
  simp only [KO.spinRobot, one_mulVec, transpose_one, Pi.zero_apply] at h1 h2
  have a0 := congrFun h1 0
  have a1 := congrFun h1 1
  have a2 := congrFun h1 2
  have b0 := congrFun h2 0
  have b1 := congrFun h2 1
  have b2 := congrFun h2 2
  simp [cross0, cross1, cross2, KO.g] at a0 a1 a2 b0 b1 b2
  have e0 : α 0 = 0 := by linarith
  have e1 : α 1 = 0 := by linarith
  have e2 : α = 0 := ext3 e0 e1 b2
  have e3 : a = ![0, 0, 9.8] := by
    apply ext3
    · show a 0 = 0; linarith
    · show a 1 = 0; linarith
    · show a 2 = 9.8; norm_num at a2 ⊢; linarith
  rw [e2, e3] at h
  exact ⟨_, _, ex_run dt g, h, ex_describes dt⟩

end StateObs.Elastic
