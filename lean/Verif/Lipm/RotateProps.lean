import Verif.Kalman.CoordProps
import Verif.Lipm.Props
/-!
# Property C122: the DCM estimator does not depend on the directions of the horizontal axes
-/

namespace StateObs.Lipm
open StateObs Matrix KF KFSpec Blocks

/-! ## Specification -/

/-- The same call with the horizontal axes turned (or mirrored) by `U`: positions, biases and orientations, all given in the world frame. -/
def Op.turn (U : Matrix (Fin 2) (Fin 2) ℝ) : Op → Op
  | .resetWithMeasurements dcm zmp yaw w b bu => .resetWithMeasurements (U *ᵥ dcm) (U *ᵥ zmp) (U * yaw) w (U *ᵥ b) bu
  | .setBias b => .setBias (U *ᵥ b)
  | .setBias2 b u => .setBias2 (U *ᵥ b) u
  | .setUnbiasedDCM dcm => .setUnbiasedDCM (U *ᵥ dcm)
  | .setUnbiasedDCM2 dcm u => .setUnbiasedDCM2 (U *ᵥ dcm) u
  | .setInputs dcm zmp R => .setInputs (U *ᵥ dcm) (U *ᵥ zmp) (U * R)
  | o => o

/-- The uncertainties given by the call are the same in the two directions. -/
def Op.Isotropic : Op → Prop
  | .resetWithMeasurements _ _ _ _ _ bu => bu 0 = bu 1
  | .setBias2 _ u => u 0 = u 1
  | .setUnbiasedDCM2 _ u => u 0 = u 1
  | _ => True

/-- The call sets no positive limit on the bias. -/
def Op.Unlimited : Op → Prop
  | .setBiasLimit l => ∀ i, l i ≤ 0
  | _ => True

/-- The full claim: two estimators with the same parameters, put by `resetWithMeasurements` in the same situation seen in axes turned by `U`, then
used in the same way: the estimates of the second are those of the first, turned, and the local biases are the same. -/
def C122_statement : Prop :=
  ∀ (c : Conf) (dcm bias dcmUnc biasUnc : Fin 2 → ℝ) (U : Matrix (Fin 2) (Fin 2) ℝ) (dcm1 zmp1 : Fin 2 → ℝ) (yaw : Matrix (Fin 2) (Fin 2) ℝ) (w : Bool)
    (b1 bu : Fin 2 → ℝ) (ops : List Op) (s : Est), c.ori = 1 → c.dcmStd ≠ 0 → Uᵀ * U = 1 → bu 0 = bu 1 → (∀ o ∈ ops, o.Isotropic) →
    createRun c dcm bias dcmUnc biasUnc (.resetWithMeasurements dcm1 zmp1 yaw w b1 bu :: ops) = .ok s →
    ∃ s' ξ b l, createRun c dcm bias dcmUnc biasUnc ((Op.resetWithMeasurements dcm1 zmp1 yaw w b1 bu :: ops).map (Op.turn U)) = .ok s' ∧
      estimates s = .ok (ξ, b) ∧ estimates s' = .ok (U *ᵥ ξ, U *ᵥ b) ∧ getLocalBias s = .ok l ∧ getLocalBias s' = .ok l

/-! ## Blocks -/

variable {d : ℕ}

/-- The change of axes of a pair. -/
def both (U : Matrix (Fin d) (Fin d) ℝ) : Matrix (Fin (d + d)) (Fin (d + d)) ℝ := blk U 0 0 U

theorem blk_mul (A B C D A' B' C' D' : Matrix (Fin d) (Fin d) ℝ) :
    blk A B C D * blk A' B' C' D' = blk (A * A' + B * C') (A * B' + B * D') (C * A' + D * C') (C * B' + D * D') := by
  ext i j
  refine Fin.addCases (fun i => ?_) (fun i => ?_) i <;> refine Fin.addCases (fun j => ?_) (fun j => ?_) j <;>
    simp [-Fin.natAdd_eq_addNat, Matrix.mul_apply, blk, Fin.sum_univ_add]

theorem both_blk (U A B C D : Matrix (Fin d) (Fin d) ℝ) :
    both U * blk A B C D * (both U)ᵀ = blk (U * A * Uᵀ) (U * B * Uᵀ) (U * C * Uᵀ) (U * D * Uᵀ) := by
  rw [both, blk_transpose, blk_mul, blk_mul]
  simp

theorem both_colBlk (U A B : Matrix (Fin d) (Fin d) ℝ) : both U * colBlk A B = colBlk (U * A) (U * B) := by
  ext i j
  refine Fin.addCases (fun i => ?_) (fun i => ?_) i <;> simp [-Fin.natAdd_eq_addNat, Matrix.mul_apply, both, blk, colBlk, Fin.sum_univ_add]

theorem colBlk_mul (U A B : Matrix (Fin d) (Fin d) ℝ) : colBlk A B * U = colBlk (A * U) (B * U) := by
  ext i j
  refine Fin.addCases (fun i => ?_) (fun i => ?_) i <;> simp [-Fin.natAdd_eq_addNat, Matrix.mul_apply, colBlk]

theorem rowBlk_both (U A B : Matrix (Fin d) (Fin d) ℝ) : rowBlk A B * both U = rowBlk (A * U) (B * U) := by
  ext i j
  refine Fin.addCases (fun j => ?_) (fun j => ?_) j <;> simp [-Fin.natAdd_eq_addNat, Matrix.mul_apply, both, blk, rowBlk, Fin.sum_univ_add]

theorem mul_rowBlk (U A B : Matrix (Fin d) (Fin d) ℝ) : U * rowBlk A B = rowBlk (U * A) (U * B) := by
  ext i j
  refine Fin.addCases (fun j => ?_) (fun j => ?_) j <;> simp [-Fin.natAdd_eq_addNat, Matrix.mul_apply, rowBlk]

theorem both_vcat (U : Matrix (Fin 2) (Fin 2) ℝ) (a b : Fin 2 → ℝ) : both U *ᵥ vcat a b = vcat (U *ᵥ a) (U *ᵥ b) := by
  rw [both, blk_mulVec]; simp

theorem head_both (U : Matrix (Fin 2) (Fin 2) ℝ) (x : Fin (2 + 2) → ℝ) : head (both U *ᵥ x) = U *ᵥ head x := by
  conv_lhs => rw [← vcat_eta x, both_vcat, head_vcat]

theorem tail_both (U : Matrix (Fin 2) (Fin 2) ℝ) (x : Fin (2 + 2) → ℝ) : tail (both U *ᵥ x) = U *ᵥ tail x := by
  conv_lhs => rw [← vcat_eta x, both_vcat, tail_vcat]

theorem both_parts (U : Matrix (Fin 2) (Fin 2) ℝ) (M : Matrix (Fin (2 + 2)) (Fin (2 + 2)) ℝ) :
    tl (both U * M * (both U)ᵀ) = U * tl M * Uᵀ ∧ tr (both U * M * (both U)ᵀ) = U * tr M * Uᵀ ∧
      bl (both U * M * (both U)ᵀ) = U * bl M * Uᵀ ∧ br (both U * M * (both U)ᵀ) = U * br M * Uᵀ := by
  have h : both U * M * (both U)ᵀ = both U * blk (tl M) (tr M) (bl M) (br M) * (both U)ᵀ := by rw [blk_eta]
  rw [h, both_blk]
  simp

theorem dbl_eq (e : ℝ) : dblToDiag e = e • (1 : Matrix (Fin 2) (Fin 2) ℝ) := by
  ext i j; fin_cases i <;> fin_cases j <;> simp [dblToDiag]

theorem dbl_turn {U : Matrix (Fin 2) (Fin 2) ℝ} (hU : U * Uᵀ = 1) (e : ℝ) : U * dblToDiag e * Uᵀ = dblToDiag e := by
  rw [dbl_eq]; simp [hU]

theorem vec_eq {u : Fin 2 → ℝ} (h : u 0 = u 1) : vecToSqDiag u = dblToSqDiag (u 0) := by
  ext i j; fin_cases i <;> fin_cases j <;> simp [vecToSqDiag, dblToSqDiag, dblToDiag, h]

namespace View

/-- The estimator in turned axes. -/
def turn (U : Matrix (Fin 2) (Fin 2) ℝ) (v : View) : View :=
  { v with
    x := both U *ᵥ v.x
    P := both U * v.P * (both U)ᵀ
    A := both U * v.A * (both U)ᵀ
    previousZmp := U *ᵥ v.previousZmp
    previousOrientation := U * v.previousOrientation
    pend := v.pend.map fun q => (U *ᵥ q.1, U *ᵥ q.2) }

end View

theorem linStep_input {n m p : ℕ} (d : LinModel n m p) (U : Matrix (Fin p) (Fin p) ℝ) (u : Fin p → ℝ) (y : Fin m → ℝ)
    (z : (Fin n → ℝ) × Matrix (Fin n) (Fin n) ℝ) : linStep d ⟨U *ᵥ u, 0, y⟩ z = linStep { d with B := d.B * U } ⟨u, 0, y⟩ z := by
  have h : predState d (U *ᵥ u) z.1 = predState { d with B := d.B * U } u z.1 := by
    simp only [predState, mulVec_mulVec]
  unfold linStep
  simp only [h]
  rfl

/-- What is used of a state: no positive limit, same noise in the two directions. -/
structure Even (v : View) (c : Conf) : Prop where
  good : v.Good
  shape : Shape v c
  R : ∃ r, v.R = dblToSqDiag r
  limit : ∀ i, v.biasLimit i ≤ 0

theorem Even.maps {v : View} {c : Conf} (h : Even v c) {U : Matrix (Fin 2) (Fin 2) ℝ} (hU : Uᵀ * U = 1) :
    Maps (both U) (both U) U v.model { (v.turn U).model with B := v.B * U } := by
  have hU' : U * Uᵀ = 1 := mul_eq_one_comm.1 hU
  obtain ⟨a, b, hq⟩ := h.good.q
  obtain ⟨r, hr⟩ := h.R
  have hW : (both U)ᵀ * both U = 1 := by
    rw [both, blk_transpose, blk_mul, one_blk]; simp [hU]
  refine ⟨?_, ?_, ?_, ?_, ?_, ?_⟩
  · show both U * v.A * (both U)ᵀ * both U = both U * v.A
    rw [Matrix.mul_assoc, hW, Matrix.mul_one]
  · show v.B * U = both U * v.B
    rw [h.shape.B, both_colBlk, colBlk_mul, dbl_eq]; simp
  · show v.C * both U = U * v.C
    rw [h.shape.C, rowBlk_both, mul_rowBlk]; simp
  · show (0 : Matrix (Fin 2) (Fin 2) ℝ) = U * 0
    simp
  · show v.Q = both U * v.Q * (both U)ᵀ
    rw [hq, both_blk]
    simp [dblToSqDiag, dbl_turn hU']
  · show v.R = U * v.R * Uᵀ
    rw [hr]
    simp [dblToSqDiag, dbl_turn hU']

theorem Even.consume {v : View} {c : Conf} (h : Even v c) {U : Matrix (Fin 2) (Fin 2) ℝ} (hU : Uᵀ * U = 1)
    (pend : List ((Fin 2 → ℝ) × (Fin 2 → ℝ))) : ∀ (x : Fin (2 + 2) → ℝ) (P : Matrix (Fin (2 + 2)) (Fin (2 + 2)) ℝ), P.PosSemidef →
      LKF.consume (v.turn U).model (both U *ᵥ x, both U * P * (both U)ᵀ) (pend.map fun q => (U *ᵥ q.1, U *ᵥ q.2)) =
        (both U *ᵥ (LKF.consume v.model (x, P) pend).1, both U * (LKF.consume v.model (x, P) pend).2 * (both U)ᵀ) := by
  have hdet : IsUnit U.det := (Matrix.isUnit_iff_isUnit_det _).1 (IsUnit.of_mul_eq_one_right _ hU)
  induction pend with
  | nil => intro x P _; rfl
  | cons q qs ih =>
    intro x P hP
    show LKF.consume (v.turn U).model (linStep (v.turn U).model ⟨U *ᵥ q.1, 0, U *ᵥ q.2⟩ (both U *ᵥ x, both U * P * (both U)ᵀ)) _ = _
    rw [linStep_input]
    have hs := step_maps (h.maps hU) hdet h.good.ok h.good.ok ⟨q.1, 0, q.2⟩ x hP
    have hs' : linStep { (v.turn U).model with B := (v.turn U).model.B * U } ⟨q.1, 0, U *ᵥ q.2⟩ (both U *ᵥ x, both U * P * (both U)ᵀ) = _ := hs
    rw [hs', ih _ _ (LKF.linStep_psd _ h.good.ok _ _ hP)]
    rfl

theorem Even.estimate {v : View} {c : Conf} (h : Even v c) {U : Matrix (Fin 2) (Fin 2) ℝ} (hU : Uᵀ * U = 1) :
    (v.turn U).estimate = v.estimate.turn U := by
  have h1 : (LKF.consume (v.turn U).model ((v.turn U).x, (v.turn U).P) (v.turn U).pend) = _ := h.consume hU v.pend v.x v.P h.good.P
  unfold View.estimate
  rw [h1]
  simp [View.turn]

theorem Even.update_eq {v : View} {c : Conf} (h : Even v c) : v.update = .ok v.estimate := by
  unfold View.update
  have h0 := h.limit 0
  have h1 := h.limit 1
  rw [if_neg (by rintro (h | h) <;> linarith)]

theorem Even.update {v : View} {c : Conf} (h : Even v c) {U : Matrix (Fin 2) (Fin 2) ℝ} (hU : Uᵀ * U = 1) :
    (v.turn U).update = (v.update >>= fun v' => .ok (v'.turn U)) := by
  have h0 := h.limit 0
  have h1 := h.limit 1
  rw [h.update_eq, Res.ok_bind, ← h.estimate hU]
  unfold View.update
  rw [if_neg (by rintro (h | h) <;> simp only [View.turn] at h <;> linarith)]

theorem updateMatrices_turn {U : Matrix (Fin 2) (Fin 2) ℝ} (hU : U * Uᵀ = 1) (v : View) :
    (v.turn U).updateMatrices = v.updateMatrices.turn U := by
  obtain ⟨_, h2, h3, h4⟩ := both_parts U v.A
  simp only [View.updateMatrices, View.turn, h2, h3, h4, both_blk, dbl_turn hU]

theorem Even.exec {v : View} {c : Conf} (h : Even v c) {U : Matrix (Fin 2) (Fin 2) ℝ} (hU : Uᵀ * U = 1) (o : Op) (ho : o.Isotropic) :
    (v.turn U).exec (o.turn U) = (v.exec o >>= fun v' => .ok (v'.turn U)) := by
  have hU' : U * Uᵀ = 1 := mul_eq_one_comm.1 hU
  obtain ⟨r, hr⟩ := h.R
  obtain ⟨p1, -, -, p4⟩ := both_parts U v.P
  have hd : ∀ e, U * dblToSqDiag e * Uᵀ = dblToSqDiag e := fun e => dbl_turn hU' _
  cases o
  case resetWithMeasurements dcm zmp yaw w b bu =>
    have e1 := vec_eq (show bu 0 = bu 1 from ho)
    simp only [View.exec, Op.turn, Res.ok_bind]
    unfold View.reset View.turn
    simp only [List.map_nil, hr, e1]
    congr 2
    · cases w
      · simp [both_vcat]
      · simp [both_vcat, mulVec_sub]
    · cases w
      · show blk _ _ _ _ = both U * blk _ _ _ _ * (both U)ᵀ
        rw [both_blk]; simp [hd]
      · show blk _ _ _ _ = both U * blk _ _ _ _ * (both U)ᵀ
        rw [both_blk]; simp [hd, Matrix.mul_add, Matrix.add_mul]
  case setLipmNaturalFrequency w => exact congrArg Res.ok (updateMatrices_turn hU' { v with omega0 := w })
  case setSamplingTime w => exact congrArg Res.ok (updateMatrices_turn hU' { v with dt := w })
  case setZmpMeasureErrorStd w => exact congrArg Res.ok (updateMatrices_turn hU' { v with zmpErrorStd := w })
  case setDcmMeasureErrorStd w => rfl
  case setBiasDriftPerSecond a => rfl
  case setBiasLimit l => rfl
  case setBias b => simp [View.exec, Op.turn, View.turn, both_vcat, head_both]
  case setBias2 b u =>
    have e1 := vec_eq (show u 0 = u 1 from ho)
    simp only [View.exec, Op.turn, View.turn, Res.ok_bind, both_vcat, head_both, e1, p1]
    rw [both_blk, hd]; simp
  case setUnbiasedDCM b => simp [View.exec, Op.turn, View.turn, both_vcat, tail_both]
  case setUnbiasedDCM2 b u =>
    have e1 := vec_eq (show u 0 = u 1 from ho)
    simp only [View.exec, Op.turn, View.turn, Res.ok_bind, both_vcat, tail_both, e1, p4]
    rw [both_blk, hd]; simp
  case update => exact h.update hU
  case setInputs dcm zmp R =>
    simp only [View.exec, Op.turn]
    have hl : (v.turn U).old + (v.turn U).pend.length = v.old + v.pend.length := by simp [View.turn]
    rw [hl]
    have hp : ∀ v : View, (v.turn U).push (U *ᵥ dcm) (U *ᵥ zmp) (U * R) = (v.push dcm zmp R).turn U := by
      intro v
      obtain ⟨q1, q2, q3, -⟩ := both_parts U v.A
      have q4 : U * R * (U * v.previousOrientation)ᵀ = U * (R * v.previousOrientationᵀ) * Uᵀ := by
        simp only [transpose_mul, Matrix.mul_assoc]
      simp only [View.push, View.turn, q1, q2, q3, q4]
      rw [both_blk]; simp
    split_ifs with h1
    · rw [h.update hU]
      cases v.update <;> simp [hp]
    · simp [hp]

theorem View.R_exec {v v' : View} (o : Op) (he : v.exec o = .ok v') : v'.R = v.R := by
  have hu : ∀ {v v' : View}, v.update = .ok v' → v'.R = v.R := by
    intro v v' h
    obtain ⟨x, rfl⟩ := View.update_eq h
    rfl
  cases o
  case update => exact hu he
  case setInputs dcm zmp R =>
    simp only [View.exec, Res.bind_eq_ok] at he
    obtain ⟨v1, h1, h2⟩ := he
    cases h2
    show v1.R = v.R
    split_ifs at h1
    · exact hu h1
    · cases h1; rfl
  all_goals (cases he; rfl)

theorem Even.after {v v' : View} {c : Conf} (h : Even v c) {o : Op} (hl : o.Unlimited) (he : v.exec o = .ok v') : Even v' (c.after o) := by
  have hs := h.shape.exec o he
  refine ⟨h.good.exec o he, hs, by rw [View.R_exec o he]; exact h.R, fun i => ?_⟩
  rw [hs.limit]
  have h0 : ∀ i, c.limit i ≤ 0 := h.shape.limit ▸ h.limit
  cases o
  case setBiasLimit l => exact hl i
  all_goals exact h0 i

theorem Even.run {U : Matrix (Fin 2) (Fin 2) ℝ} (hU : Uᵀ * U = 1) (ops : List Op) : ∀ {v : View} {c : Conf}, Even v c → (∀ o ∈ ops, o.Isotropic) →
    (∀ o ∈ ops, o.Unlimited) →
    (ops.map (Op.turn U)).foldlM View.exec (v.turn U) = (ops.foldlM View.exec v >>= fun v' => .ok (v'.turn U)) := by
  induction ops with
  | nil => intro v c _ _ _; rfl
  | cons o os ih =>
    intro v c hs hi hl
    rw [List.map_cons, List.foldlM_cons, List.foldlM_cons, hs.exec hU o (hi o (by simp))]
    cases he : v.exec o with
    | ok v1 =>
      simp only [Res.ok_bind]
      exact ih (hs.after (hl o (by simp)) he) (fun o' h' => hi o' (by simp [h'])) fun o' h' => hl o' (by simp [h'])
    | assertFail => rfl
    | ub => rfl
    | exn => rfl

/-- Without positive limits on the bias, the claim holds. Missing: uses with limits, for which the claim is false. -/
theorem C122_partial (c : Conf) (hc : c.ori = 1) (hstd : c.dcmStd ≠ 0) (hlim : ∀ i, c.limit i ≤ 0) (dcm bias dcmUnc biasUnc : Fin 2 → ℝ)
    (U : Matrix (Fin 2) (Fin 2) ℝ) (hU : Uᵀ * U = 1) (dcm1 zmp1 : Fin 2 → ℝ) (yaw : Matrix (Fin 2) (Fin 2) ℝ) (w : Bool) (b1 bu : Fin 2 → ℝ)
    (hbu : bu 0 = bu 1) (ops : List Op) (hi : ∀ o ∈ ops, o.Isotropic) (hl : ∀ o ∈ ops, o.Unlimited) (s : Est)
    (h : createRun c dcm bias dcmUnc biasUnc (.resetWithMeasurements dcm1 zmp1 yaw w b1 bu :: ops) = .ok s) :
    ∃ s' ξ b l, createRun c dcm bias dcmUnc biasUnc ((Op.resetWithMeasurements dcm1 zmp1 yaw w b1 bu :: ops).map (Op.turn U)) = .ok s' ∧
      estimates s = .ok (ξ, b) ∧ estimates s' = .ok (U *ᵥ ξ, U *ᵥ b) ∧ getLocalBias s = .ok l ∧ getLocalBias s' = .ok l := by
  have hU' : U * Uᵀ = 1 := mul_eq_one_comm.1 hU
  obtain ⟨v, rv, gv, sv, ev⟩ := reach hc hstd h
  set v0 := viewNew c.dt c.omega0 c.driftStd c.dcmStd c.zmpStd c.limit c.zmp dcm bias dcmUnc biasUnc with hv0
  have he0 : Even v0 c := ⟨good_new _ _ _ _ _ _ _ _ _ _ _ hstd, shape_new c hc _ _ _ _, ⟨c.dcmStd, rfl⟩, hlim⟩
  set o : Op := .resetWithMeasurements dcm1 zmp1 yaw w b1 bu with ho
  set v1 := v0.reset dcm1 zmp1 yaw w b1 bu with hv1
  have he1 : Even v1 (c.after o) := he0.after (o := o) trivial rfl
  -- the first reset
  have h0 : v0.exec (o.turn U) = .ok (v1.turn U) := by
    have ha := he0.exec hU o hbu
    have hb : v0.exec (o.turn U) = (v0.turn U).exec (o.turn U) := by
      have hA : both U * v0.A * (both U)ᵀ = v0.A := by
        rw [hv0]
        show both U * blk _ _ _ _ * _ = blk _ _ _ _
        rw [both_blk, dbl_turn hU']; simp [hU']
      show Res.ok (View.reset _ _ _ _ _ _ _) = Res.ok (View.reset _ _ _ _ _ _ _)
      unfold View.reset View.turn
      simp only [hA]
    rw [hb, ha]
    rfl
  have ht := Even.run hU ops he1 hi hl
  have ev1 : ops.foldlM View.exec v1 = .ok v := ev
  rw [ev1, Res.ok_bind] at ht
  obtain ⟨s0, h1, h2⟩ := rep_new c.dt c.omega0 c.driftStd c.dcmStd c.zmpStd c.limit c.zmp dcm bias dcmUnc biasUnc
  rcases h2.run (good_new _ _ _ _ _ _ _ _ _ _ _ hstd) ((o :: ops).map (Op.turn U)) with ⟨s', v', h3, h4, h5, h6⟩ | ⟨h3, h4⟩
  · rw [List.map_cons, List.foldlM_cons, ← hv0, h0, Res.ok_bind, ht] at h4
    cases h4
    refine ⟨s', head v.x, tail v.x, v.previousOrientationᵀ *ᵥ tail v.x, ?_, ?_, ?_, rv.getLocalBias, ?_⟩
    · rw [createRun, create, h1]
      exact h3
    · rw [estimates, rv.getUnbiasedDCM, rv.getBias]; rfl
    · rw [estimates, h5.getUnbiasedDCM, h5.getBias]
      show Res.ok (head (both U *ᵥ v.x), tail (both U *ᵥ v.x)) = _
      rw [head_both, tail_both]
    · rw [h5.getLocalBias]
      show Res.ok ((U * v.previousOrientation)ᵀ *ᵥ tail (both U *ᵥ v.x)) = _
      rw [tail_both, transpose_mul, mulVec_mulVec, Matrix.mul_assoc, hU, Matrix.mul_one]
  · rw [List.map_cons, List.foldlM_cons, ← hv0, h0, Res.ok_bind, ht] at h4
    cases h4

/-- The full claim is false: limits 1, bias `(2, 0)`, an update without data; in axes turned by a quarter the DCM should move along the second axis
and moves along the first one. -/
theorem C122_false : ¬ C122_statement := by
  intro hst
  obtain ⟨s0, h1, h2⟩ := rep_new 1 1 1 1 1 (fun _ => 1) 0 0 0 0 0
  have hg0 := good_new 1 1 1 1 1 (fun _ => 1) 0 0 0 0 0 one_ne_zero
  -- one run: reset with the orientation `Y` and the bias `b` of local coordinates `(2, 0)`, update
  have key : ∀ (Y : Matrix (Fin 2) (Fin 2) ℝ) (b : Fin 2 → ℝ), Yᵀ *ᵥ b = ![2, 0] → ∃ s,
      createRun conf1 0 0 0 0 [.resetWithMeasurements 0 0 Y false b 0, .update] = .ok s ∧ estimates s = .ok (![1, 0], Y *ᵥ ![1, 0]) := by
    intro Y b hb
    obtain ⟨s, h3, h4⟩ := h2.reset 0 0 Y false b 0
    have hg : (View.reset _ 0 0 Y false b 0).Good := hg0.exec (.resetWithMeasurements 0 0 Y false b 0) rfl
    obtain ⟨s1, h5, h6⟩ := h4.update_limited hg (fun i => one_pos)
    refine ⟨s1, ?_, ?_⟩
    · simp only [createRun, create, conf1, h1, Res.ok_bind, List.foldlM_cons, exec, h3, h5]
      rfl
    · have hcl : (fun i => clampScalar ((![2, 0] : Fin 2 → ℝ) i) 1) = ![1, 0] := by
        ext i; fin_cases i <;> norm_num [clampScalar, clampScalar3]
      have hx : (View.estimate (View.reset (viewNew 1 1 1 1 1 (fun _ => 1) 0 0 0 0 0) 0 0 Y false b 0)).clamp.x =
          vcat ![1, 0] (Y *ᵥ ![1, 0]) := by
        show vcat (head (vcat 0 b) + Yᵀ *ᵥ tail (vcat 0 b) - fun i => clampScalar ((Yᵀ *ᵥ tail (vcat 0 b)) i) 1)
          (Y *ᵥ fun i => clampScalar ((Yᵀ *ᵥ tail (vcat 0 b)) i) 1) = _
        rw [head_vcat, tail_vcat, hb, hcl]
        congr 1
        ext i; fin_cases i <;> norm_num
      rw [estimates, h6.getUnbiasedDCM, h6.getBias, hx, head_vcat, tail_vcat]
      rfl
  obtain ⟨s, e1, e2⟩ := key 1 ![2, 0] (by simp)
  obtain ⟨s', e3, e4⟩ := key (quarter * 1) (quarter *ᵥ ![2, 0]) (by rw [Matrix.mul_one, mulVec_mulVec, quarter_rot, one_mulVec])
  obtain ⟨t, ξ, b, l, f1, f2, f3, -⟩ := hst conf1 0 0 0 0 quarter 0 0 1 false ![2, 0] 0 [.update] s rfl one_ne_zero quarter_rot rfl
    (by simp [Op.Isotropic]) e1
  have f1' : createRun conf1 0 0 0 0 [.resetWithMeasurements 0 0 (quarter * 1) false (quarter *ᵥ ![2, 0]) 0, .update] = .ok t := by
    simpa [Op.turn] using f1
  rw [e3] at f1'
  cases f1'
  rw [e2] at f2
  rw [e4] at f3
  simp only [Res.ok.injEq, Prod.mk.injEq] at f2 f3
  have g := f3.1
  rw [← f2.1] at g
  have := congrFun g 0
  simp [quarter, mulVec, dotProduct, Fin.sum_univ_two] at this

/-- The hypotheses of `C122_partial` are met: a use with measurements, a change of orientation and an update, in axes turned by a quarter. -/
example : ∃ s, createRun { conf1 with limit := 0 } 0 0 0 0 [.resetWithMeasurements ![1, 2] ![3, 4] 1 true ![1, 0] ![1, 1],
      .setInputs ![1, 2] ![3, 4] quarter, .update, .setInputs ![5, 6] ![7, 8] 1] = .ok s ∧ quarterᵀ * quarter = 1 ∧
    (∀ o ∈ [Op.setInputs ![1, 2] ![3, 4] quarter, .update, .setInputs ![5, 6] ![7, 8] 1], o.Isotropic ∧ o.Unlimited) := by
  obtain ⟨s, h⟩ := C25_defined { conf1 with limit := 0 } rfl one_ne_zero (Or.inr fun _ => le_refl _) 0 0 0 0
    [.resetWithMeasurements ![1, 2] ![3, 4] 1 true ![1, 0] ![1, 1], .setInputs ![1, 2] ![3, 4] quarter, .update, .setInputs ![5, 6] ![7, 8] 1]
    (by simp [Op.TwoSided])
  exact ⟨s, h, quarter_rot, by simp [Op.Isotropic, Op.Unlimited]⟩

end StateObs.Lipm
