import Verif.Imu.Mltp
import Verif.Imu.CacheProps
import Verif.Rot.Jacobian
/-!
# The inertial unit with a multiplicative state: helper lemmas
-/

namespace StateObs.Rot
open Matrix

theorem TurnsAt.mulVec {R : ℝ → M3} {ω : V3} {t : ℝ} (h : TurnsAt R ω t) {x : ℝ → V3} {x' : V3} (hx : HasDerivAt x x' t) :
    HasDerivAt (fun t => R t *ᵥ x t) (ω ⨯₃ (R t *ᵥ x t) + R t *ᵥ x') t := by
  obtain ⟨x0, x1, x2⟩ := hasDerivAt3.1 hx
  have hs : (fun t => R t *ᵥ x t) = fun t => x t 0 • (R t *ᵥ ![1, 0, 0]) + x t 1 • (R t *ᵥ ![0, 1, 0]) + x t 2 • (R t *ᵥ ![0, 0, 1]) := by
    funext t; exact mulVec_sum _ _
  rw [hs]
  have := ((x0.smul (h ![1, 0, 0])).add (x1.smul (h ![0, 1, 0]))).add (x2.smul (h ![0, 0, 1]))
  convert! this using 1
  rw [mulVec_sum (R t) (x t), mulVec_sum (R t) x']
  simp only [cross_add, cross_smul]
  abel

theorem TurnsAt.transpose_mulVec {R : ℝ → M3} {ω : V3} {t : ℝ} (h : TurnsAt R ω t) {x : ℝ → V3} {x' : V3} (hx : HasDerivAt x x' t) :
    HasDerivAt (fun t => (R t)ᵀ *ᵥ x t) ((R t)ᵀ *ᵥ (x' - ω ⨯₃ x t)) t := by
  have hs : (fun t => (R t)ᵀ *ᵥ x t) = fun t => ![(R t *ᵥ ![1, 0, 0]) ⬝ᵥ x t, (R t *ᵥ ![0, 1, 0]) ⬝ᵥ x t, (R t *ᵥ ![0, 0, 1]) ⬝ᵥ x t] := by
    funext t; exact transpose_mulVec_eq _ _
  rw [hs, transpose_mulVec_eq, hasDerivAt3]
  refine ⟨?_, ?_, ?_⟩
  · convert! hasDerivAt_dot (h ![1, 0, 0]) hx using 1
    simp only [cons_val_zero, dotProduct_sub]; rw [cross_dot_left]; ring
  · convert! hasDerivAt_dot (h ![0, 1, 0]) hx using 1
    simp only [cons_val_one, cons_val_zero, dotProduct_sub]; rw [cross_dot_left]; ring
  · convert! hasDerivAt_dot (h ![0, 0, 1]) hx using 1
    simp only [cons_val, dotProduct_sub]; rw [cross_dot_left]; ring

/-- Angular velocities add up along a product. -/
theorem TurnsAt.mul {P Q : ℝ → M3} {a b : V3} {t : ℝ} (hP : TurnsAt P a t) (hQ : TurnsAt Q b t) (hr : IsRot (P t)) :
    TurnsAt (fun s => P s * Q s) (a + P t *ᵥ b) t := by
  intro w
  have := hP.mulVec (hQ w)
  simp only [← mulVec_mulVec]
  convert! this using 1
  rw [add_cross, hr.cross]

end StateObs.Rot

namespace StateObs.Mltp
open StateObs Matrix Rot Kine Sensor Imu

theorem quatOf_coeffs (q : Quat) : quatOf (coeffs q) = q := by ext <;> simp [quatOf, coeffs]
theorem coeffs_quatOf (c : Fin 4 → ℝ) : coeffs (quatOf c) = c := by
  funext i; fin_cases i <;> rfl

/-- The segments of `stateSum`. -/
theorem sum_pos (x : Fin 19 → ℝ) (d : Fin 18 → ℝ) : seg 3 (stateSum x d) qPos = seg 3 x qPos + seg 3 d iPos := by
  simp only [stateSum]
  rw [seg_setSeg_ne _ _ _ _ (by norm_num), seg_setSeg_ne _ _ _ _ (by norm_num), seg_setSeg_ne _ _ _ _ (by norm_num),
    seg_setSeg_ne _ _ _ _ (by norm_num), seg_setSeg_ne _ _ _ _ (by norm_num), seg_setSeg_same _ _ _ (by norm_num)]

theorem sum_ori (x : Fin 19 → ℝ) (d : Fin 18 → ℝ) :
    seg 4 (stateSum x d) qOri = coeffs (rotationVectorToQuaternion (seg 3 d iOri) * quatOf (seg 4 x qOri)) := by
  simp only [stateSum]
  rw [seg_setSeg_ne _ _ _ _ (by norm_num), seg_setSeg_ne _ _ _ _ (by norm_num), seg_setSeg_same _ _ _ (by norm_num)]

theorem sum_linVel (x : Fin 19 → ℝ) (d : Fin 18 → ℝ) : seg 3 (stateSum x d) qLinVel = seg 3 x qLinVel + seg 3 d iLinVel := by
  simp only [stateSum]
  rw [seg_setSeg_ne _ _ _ _ (by norm_num), seg_setSeg_ne _ _ _ _ (by norm_num), seg_setSeg_ne _ _ _ _ (by norm_num),
    seg_setSeg_ne _ _ _ _ (by norm_num), seg_setSeg_same _ _ _ (by norm_num)]

theorem sum_angVel (x : Fin 19 → ℝ) (d : Fin 18 → ℝ) : seg 3 (stateSum x d) qAngVel = seg 3 x qAngVel + seg 3 d iAngVel := by
  simp only [stateSum]
  rw [seg_setSeg_ne _ _ _ _ (by norm_num), seg_setSeg_same _ _ _ (by norm_num)]

theorem sum_linAcc (x : Fin 19 → ℝ) (d : Fin 18 → ℝ) : seg 3 (stateSum x d) qLinAcc = seg 3 x qLinAcc + seg 3 d iLinAcc := by
  simp only [stateSum]
  rw [seg_setSeg_ne _ _ _ _ (by norm_num), seg_setSeg_ne _ _ _ _ (by norm_num), seg_setSeg_ne _ _ _ _ (by norm_num),
    seg_setSeg_same _ _ _ (by norm_num)]

theorem sum_angAcc (x : Fin 19 → ℝ) (d : Fin 18 → ℝ) : seg 3 (stateSum x d) qAngAcc = seg 3 x qAngAcc + seg 3 d iAngAcc := by
  simp only [stateSum]
  rw [seg_setSeg_same _ _ _ (by norm_num)]

/-- The segments of the next state. -/
theorem next_pos (dt : ℝ) (x : Fin 19 → ℝ) (u : Fin 6 → ℝ) :
    seg 3 (nextState dt x u) qPos = (integratePosVel (seg 3 x qPos) (seg 3 x qLinVel) (seg 3 x qLinAcc) dt).1 := by
  simp only [nextState]
  rw [seg_setSeg_ne _ _ _ _ (by norm_num), seg_setSeg_ne _ _ _ _ (by norm_num), seg_setSeg_ne _ _ _ _ (by norm_num),
    seg_setSeg_ne _ _ _ _ (by norm_num), seg_setSeg_ne _ _ _ _ (by norm_num), seg_setSeg_same _ _ _ (by norm_num)]

theorem next_linVel (dt : ℝ) (x : Fin 19 → ℝ) (u : Fin 6 → ℝ) :
    seg 3 (nextState dt x u) qLinVel = (integratePosVel (seg 3 x qPos) (seg 3 x qLinVel) (seg 3 x qLinAcc) dt).2 := by
  simp only [nextState]
  rw [seg_setSeg_ne _ _ _ _ (by norm_num), seg_setSeg_ne _ _ _ _ (by norm_num), seg_setSeg_ne _ _ _ _ (by norm_num),
    seg_setSeg_ne _ _ _ _ (by norm_num), seg_setSeg_same _ _ _ (by norm_num)]

theorem next_ori (dt : ℝ) (x : Fin 19 → ℝ) (u : Fin 6 → ℝ) : seg 4 (nextState dt x u) qOri =
    coeffs (renormalize (integrateQuatVel (quatOf (seg 4 x qOri)) (seg 3 x qAngVel) (seg 3 x qAngAcc) dt).1) := by
  simp only [nextState]
  rw [seg_setSeg_ne _ _ _ _ (by norm_num), seg_setSeg_ne _ _ _ _ (by norm_num), seg_setSeg_ne _ _ _ _ (by norm_num),
    seg_setSeg_same _ _ _ (by norm_num)]

theorem next_angVel (dt : ℝ) (x : Fin 19 → ℝ) (u : Fin 6 → ℝ) : seg 3 (nextState dt x u) qAngVel =
    (integrateQuatVel (quatOf (seg 4 x qOri)) (seg 3 x qAngVel) (seg 3 x qAngAcc) dt).2 := by
  simp only [nextState]
  rw [seg_setSeg_ne _ _ _ _ (by norm_num), seg_setSeg_ne _ _ _ _ (by norm_num), seg_setSeg_same _ _ _ (by norm_num)]

theorem next_linAcc (dt : ℝ) (x : Fin 19 → ℝ) (u : Fin 6 → ℝ) : seg 3 (nextState dt x u) qLinAcc = seg 3 u 0 := by
  simp only [nextState]
  rw [seg_setSeg_ne _ _ _ _ (by norm_num), seg_setSeg_same _ _ _ (by norm_num)]

theorem next_angAcc (dt : ℝ) (x : Fin 19 → ℝ) (u : Fin 6 → ℝ) : seg 3 (nextState dt x u) qAngAcc = seg 3 u 3 := by
  simp only [nextState]
  rw [seg_setSeg_same _ _ _ (by norm_num)]

theorem renormalize_unit {q : Quat} (h : q.normSq = 1) : renormalize q = q := by
  rw [renormalize, if_neg]
  rw [h, quatNormTol]
  norm_num

/-- A state from its segments. -/
theorem ext_state {x y : Fin 19 → ℝ} (h0 : seg 3 x qPos = seg 3 y qPos) (h1 : seg 4 x qOri = seg 4 y qOri)
    (h2 : seg 3 x qLinVel = seg 3 y qLinVel) (h3 : seg 3 x qAngVel = seg 3 y qAngVel) (h4 : seg 3 x qLinAcc = seg 3 y qLinAcc)
    (h5 : seg 3 x qAngAcc = seg 3 y qAngAcc) : x = y := by
  have a := fun j => congrFun h0 j
  have b := fun j => congrFun h1 j
  have c := fun j => congrFun h2 j
  have d := fun j => congrFun h3 j
  have e := fun j => congrFun h4 j
  have f := fun j => congrFun h5 j
  funext i
  fin_cases i
  exacts [a 0, a 1, a 2, b 0, b 1, b 2, b 3, c 0, c 1, c 2, d 0, d 1, d 2, e 0, e 1, e 2, f 0, f 1, f 2]

theorem ext_tangent {x y : Fin 18 → ℝ} (h0 : seg 3 x iPos = seg 3 y iPos) (h1 : seg 3 x iOri = seg 3 y iOri)
    (h2 : seg 3 x iLinVel = seg 3 y iLinVel) (h3 : seg 3 x iAngVel = seg 3 y iAngVel) (h4 : seg 3 x iLinAcc = seg 3 y iLinAcc)
    (h5 : seg 3 x iAngAcc = seg 3 y iAngAcc) : x = y := by
  have a := fun j => congrFun h0 j
  have b := fun j => congrFun h1 j
  have c := fun j => congrFun h2 j
  have d := fun j => congrFun h3 j
  have e := fun j => congrFun h4 j
  have f := fun j => congrFun h5 j
  funext i
  fin_cases i
  exacts [a 0, a 1, a 2, b 0, b 1, b 2, c 0, c 1, c 2, d 0, d 1, d 2, e 0, e 1, e 2, f 0, f 1, f 2]

/-- The Jacobians do not keep anything of the previous calls. -/
theorem writeA_writeA (A : Matrix (Fin 18) (Fin 18) ℝ) (dt dt' : ℝ) (x x' : Fin 19 → ℝ) : writeA (writeA A dt' x') dt x = writeA A dt x := by
  funext r c
  simp only [writeA, setBlock, setDiag]
  split_ifs <;> first | rfl | omega

theorem writeC_writeC (C : Matrix (Fin 6) (Fin 18) ℝ) (x x' : Fin 19 → ℝ) : writeC (writeC C x') x = writeC C x := by
  funext r c
  simp only [writeC, setBlock]
  split_ifs <;> first | rfl | omega

/-- The blocks of a matrix after writing at other places, at this place, or before any writing. -/
macro "blocks" : tactic => `(tactic| repeat first
  | rw [sub_setBlock_same _ _ _ _ (by decide) (by decide)]
  | rw [sub_setBlock_ne _ _ _ _ _ _ (by decide)]
  | rw [sub_setDiag_ne _ _ _ _ _ _ (by decide)]
  | rw [Imu.sub_zero])

/-- The products of the measurement Jacobian. -/
theorem writeC_mulVec (x : Fin 19 → ℝ) (ξ : Fin 18 → ℝ) :
    seg 3 (writeC 0 x *ᵥ ξ) 0 = (quatOf (seg 4 x qOri)).toMatᵀ *ᵥ (seg 3 ξ iLinAcc + (seg 3 x qLinAcc + gravity) ⨯₃ seg 3 ξ iOri) ∧
    seg 3 (writeC 0 x *ᵥ ξ) 3 = (quatOf (seg 4 x qOri)).toMatᵀ *ᵥ (seg 3 ξ iAngVel + seg 3 x qAngVel ⨯₃ seg 3 ξ iOri) := by
  constructor
  · rw [mulVec_add, ← hat_mulVec, ← skew_hat, mulVec_mulVec, seg_mulVec _ _ _ (by norm_num)]
    simp only [writeC]
    blocks
    simp only [zero_mulVec]
    abel
  · rw [mulVec_add, ← hat_mulVec, ← skew_hat, mulVec_mulVec, seg_mulVec _ _ _ (by norm_num)]
    simp only [writeC]
    blocks
    simp only [zero_mulVec]
    abel

theorem aJac0_pos (j : ℕ) (h : 3 ≤ j) : sub 3 3 aJac0 0 j = 0 := by
  simp only [aJac0, iPos, iLinVel]
  rw [sub_setBlock_ne _ _ _ _ _ _ (by omega), sub_setBlock_ne _ _ _ _ _ _ (by omega), Imu.sub_zero]

theorem aJac0_pos0 : sub 3 3 aJac0 0 0 = 1 := by
  simp only [aJac0, iPos, iLinVel]
  rw [sub_setBlock_ne _ _ _ _ _ _ (by omega), sub_setBlock_same _ _ _ _ (by norm_num) (by norm_num)]

theorem aJac0_ori (j : ℕ) : sub 3 3 aJac0 3 j = 0 := by
  simp only [aJac0, iPos, iLinVel]
  rw [sub_setBlock_ne _ _ _ _ _ _ (by omega), sub_setBlock_ne _ _ _ _ _ _ (by omega), Imu.sub_zero]

theorem aJac0_acc (i j : ℕ) (h : 12 ≤ i) : sub 3 3 aJac0 i j = 0 := by
  simp only [aJac0, iPos, iLinVel]
  rw [sub_setBlock_ne _ _ _ _ _ _ (by omega), sub_setBlock_ne _ _ _ _ _ _ (by omega), Imu.sub_zero]

theorem aJac0_vel (i j : ℕ) (hi : 6 ≤ i) (h : j + 3 ≤ 6 ∨ 12 ≤ j) : sub 3 3 aJac0 i j = 0 := by
  simp only [aJac0, iPos, iLinVel]
  rw [sub_setBlock_ne _ _ _ _ _ _ (by omega), sub_setBlock_ne _ _ _ _ _ _ (by omega), Imu.sub_zero]

theorem aJac0_linVel : sub 3 3 aJac0 6 6 = 1 := by
  rw [aJac0, sub_setBlock_in _ _ _ _ _ _ (by norm_num) (by norm_num) (by norm_num) (by norm_num), sub_one_same _ _ _ (by norm_num)]

theorem aJac0_angVel : sub 3 3 aJac0 9 9 = 1 := by
  rw [aJac0, sub_setBlock_in _ _ _ _ _ _ (by norm_num) (by norm_num) (by norm_num) (by norm_num), sub_one_same _ _ _ (by norm_num)]

theorem aJac0_vel_ne : sub 3 3 aJac0 6 9 = 0 ∧ sub 3 3 aJac0 9 6 = 0 := by
  constructor <;>
  rw [aJac0, sub_setBlock_in _ _ _ _ _ _ (by norm_num) (by norm_num) (by norm_num) (by norm_num), sub_one_ne (by norm_num)]

/-- The products of the state Jacobian. -/
theorem writeA_mulVec (dt : ℝ) (x : Fin 19 → ℝ) (ξ : Fin 18 → ℝ) (j : M3 × M3)
    (hj : j = derivateRotationMultiplicative (dt • seg 3 x qAngVel + (dt * dt / 2) • seg 3 x qAngAcc)) :
    seg 3 (writeA aJac0 dt x *ᵥ ξ) iPos = seg 3 ξ iPos + dt • seg 3 ξ iLinVel + (dt * dt * 0.5) • seg 3 ξ iLinAcc ∧
    seg 3 (writeA aJac0 dt x *ᵥ ξ) iOri = j.1 *ᵥ seg 3 ξ iOri + j.2 *ᵥ (dt • seg 3 ξ iAngVel + (dt * dt / 2) • seg 3 ξ iAngAcc) ∧
    seg 3 (writeA aJac0 dt x *ᵥ ξ) iLinVel = seg 3 ξ iLinVel + dt • seg 3 ξ iLinAcc ∧
    seg 3 (writeA aJac0 dt x *ᵥ ξ) iAngVel = seg 3 ξ iAngVel + dt • seg 3 ξ iAngAcc ∧
    seg 3 (writeA aJac0 dt x *ᵥ ξ) iLinAcc = 0 ∧
    seg 3 (writeA aJac0 dt x *ᵥ ξ) iAngAcc = 0 := by
  subst hj
  have p0 : sub 3 3 (writeA aJac0 dt x) 0 0 = 1 := by
    simp only [writeA]
    blocks
    exact aJac0_pos0
  have p3 : sub 3 3 (writeA aJac0 dt x) 0 3 = 0 := by
    simp only [writeA]
    blocks
    exact aJac0_pos _ (by norm_num)
  have p6 : sub 3 3 (writeA aJac0 dt x) 0 6 = dt • (1 : M3) := by
    simp only [writeA]
    blocks
    rw [sub_setDiag_same _ _ _ _ _ _ (by decide) (by decide) (by decide) (by decide) (by blocks; exact aJac0_pos _ (by norm_num))]
  have p9 : sub 3 3 (writeA aJac0 dt x) 0 9 = 0 := by
    simp only [writeA]
    blocks
    exact aJac0_pos _ (by norm_num)
  have p12 : sub 3 3 (writeA aJac0 dt x) 0 12 = (dt * dt * 0.5) • (1 : M3) := by
    simp only [writeA]
    blocks
    rw [sub_setDiag_same _ _ _ _ _ _ (by decide) (by decide) (by decide) (by decide) (by blocks; exact aJac0_pos _ (by norm_num))]
  have p15 : sub 3 3 (writeA aJac0 dt x) 0 15 = 0 := by
    simp only [writeA]
    blocks
    exact aJac0_pos _ (by norm_num)
  have v0 : sub 3 3 (writeA aJac0 dt x) 6 0 = 0 := by
    simp only [writeA]
    blocks
    exact aJac0_vel _ _ (by norm_num) (by norm_num)
  have v3 : sub 3 3 (writeA aJac0 dt x) 6 3 = 0 := by
    simp only [writeA]
    blocks
    exact aJac0_vel _ _ (by norm_num) (by norm_num)
  have v6 : sub 3 3 (writeA aJac0 dt x) 6 6 = 1 := by
    simp only [writeA]
    blocks
    exact aJac0_linVel
  have v9 : sub 3 3 (writeA aJac0 dt x) 6 9 = 0 := by
    simp only [writeA]
    blocks
    exact aJac0_vel_ne.1
  have v12 : sub 3 3 (writeA aJac0 dt x) 6 12 = dt • (1 : M3) := by
    simp only [writeA]
    blocks
    rw [sub_setDiag_same _ _ _ _ _ _ (by decide) (by decide) (by decide) (by decide) (by blocks; exact aJac0_vel _ _ (by norm_num) (by norm_num))]
  have v15 : sub 3 3 (writeA aJac0 dt x) 6 15 = 0 := by
    simp only [writeA]
    blocks
    exact aJac0_vel _ _ (by norm_num) (by norm_num)
  have w0 : sub 3 3 (writeA aJac0 dt x) 9 0 = 0 := by
    simp only [writeA]
    blocks
    exact aJac0_vel _ _ (by norm_num) (by norm_num)
  have w3 : sub 3 3 (writeA aJac0 dt x) 9 3 = 0 := by
    simp only [writeA]
    blocks
    exact aJac0_vel _ _ (by norm_num) (by norm_num)
  have w6 : sub 3 3 (writeA aJac0 dt x) 9 6 = 0 := by
    simp only [writeA]
    blocks
    exact aJac0_vel_ne.2
  have w9 : sub 3 3 (writeA aJac0 dt x) 9 9 = 1 := by
    simp only [writeA]
    blocks
    exact aJac0_angVel
  have w12 : sub 3 3 (writeA aJac0 dt x) 9 12 = 0 := by
    simp only [writeA]
    blocks
    exact aJac0_vel _ _ (by norm_num) (by norm_num)
  have w15 : sub 3 3 (writeA aJac0 dt x) 9 15 = dt • (1 : M3) := by
    simp only [writeA]
    blocks
    rw [sub_setDiag_same _ _ _ _ _ _ (by decide) (by decide) (by decide) (by decide) (by blocks; exact aJac0_vel _ _ (by norm_num) (by norm_num))]
  refine ⟨?_, ?_, ?_, ?_, ?_, ?_⟩ <;> rw [seg_mulVec _ _ _ (by norm_num)]
  · rw [p0, p3, p6, p9, p12, p15]
    simp only [zero_mulVec, one_mulVec, smul_mulVec]
    abel
  · simp only [writeA]
    blocks
    simp only [aJac0_ori, zero_mulVec, smul_mulVec, mulVec_add, mulVec_smul]
    abel
  · rw [v0, v3, v6, v9, v12, v15]
    simp only [zero_mulVec, one_mulVec, smul_mulVec]
    abel
  · rw [w0, w3, w6, w9, w12, w15]
    simp only [zero_mulVec, one_mulVec, smul_mulVec]
    abel
  · simp only [writeA]
    blocks
    simp only [aJac0_acc _ _ (le_refl 12), zero_mulVec, add_zero]
  · simp only [writeA]
    blocks
    simp only [aJac0_acc 15 _ (by norm_num), zero_mulVec, add_zero]

/-- The Jacobian of the exponential. -/
theorem jacobian_turns {δ : ℝ → V3} {δ' : V3} {t : ℝ} (hd : HasDerivAt δ δ' t) (h : epsilonAngle < nrm (δ t)) :
    TurnsAt (fun s => rotationVectorToRotationMatrix (δ s)) ((derivateRotationMultiplicative (δ t)).2 *ᵥ δ') t := by
  have hne : δ t ≠ 0 := by
    intro e; rw [e, nrm_zero] at h; exact absurd h (not_lt.2 epsilonAngle_pos.le)
  intro w
  have h1 := turnsAt_exp hd hne w
  have hev : ∀ᶠ s in nhds t, epsilonAngle < nrm (δ s) := (hasDerivAt_nrm hd hne).continuousAt.eventually_const_lt h
  have h2 := h1.congr_of_eventuallyEq (f₁ := fun s => rotationVectorToRotationMatrix (δ s) *ᵥ w) (hev.mono fun s hs => by
    show rotationVectorToRotationMatrix (δ s) *ᵥ w = NormedSpace.exp (hat (δ s)) *ᵥ w
    rw [rv_exp hs])
  convert! h2 using 1
  simp only [derivateRotationMultiplicative]
  rw [rv_exp h, if_neg (not_lt.2 h.le)]
  congr 2
  rw [skew_hat]
  simp only [add_mulVec, smul_mulVec, one_mulVec, hat_mulVec, vecMulVec_mulVec, op_smul_eq_smul, smul_smul]
  rw [show nrm (δ t) * nrm (δ t) * nrm (δ t) = nrm (δ t) ^ 3 by ring, show nrm (δ t) * nrm (δ t) = nrm (δ t) ^ 2 by ring]

end StateObs.Mltp
