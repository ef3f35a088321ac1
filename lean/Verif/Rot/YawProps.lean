import Verif.Rot.Lemmas
import Mathlib.Analysis.SpecialFunctions.Complex.Arg
/-!
# Properties C39, C40: tilt and yaw
-/

namespace StateObs.Kine
open StateObs Matrix Rot

/-- The frame of a horizontal unit vector. -/
theorem frame_isRot {m : V3} (hm : m ⬝ᵥ m = 1) (hz : m 2 = 0) : IsRot (cols (m ⨯₃ ez) m ez) := by
  rw [dot3, hz] at hm
  refine cols_isRot ?_ ez_unit ?_ ?_
  · simp [dot3, cross0, cross1, cross2]; linear_combination hm
  · simp [cross2]
  · apply ext3 <;> simp [cross0, cross1, cross2, hz]

theorem frame_ez (m : V3) (hz : m 2 = 0) : (cols (m ⨯₃ ez) m ez)ᵀ *ᵥ ez = ez := by
  rw [cols_eq, transpose_transpose, rows_mulVec]
  apply ext3 <;> simp [cross2, hz]

theorem rows_ez (a b c : V3) : (rows a b c)ᵀ *ᵥ ez = c := by
  rw [← cols_eq, cols_mulVec]; simp

/-- **C39** Merging a unit tilt `v` with the yaw of a rotation `R2` along a unit horizontal axis `m`, outside the singular set: the
result is a rotation; its transpose maps `e_z` to `v`; the body vector that `R2` maps to `m` is mapped by the result to a vector
whose horizontal part is a positive multiple of `m`. -/
theorem C39_tilt (v m : V3) (R2 : M3) (hv : v ⬝ᵥ v = 1) (hR : IsRot R2) (hm : m ⬝ᵥ m = 1) (hz : m 2 = 0)
    (hs : 1e-16 < nrm ((R2ᵀ *ᵥ m) ⨯₃ v)) :
    ∃ R, mergeTiltWithYaw v R2 m = .ok R ∧ IsRot R ∧ Rᵀ *ᵥ ez = v ∧
      ∃ α β : ℝ, 0 < α ∧ ∀ b, R2 *ᵥ b = m → R *ᵥ b = α • m + β • ez := by
  have hs' : epsilonAngle < nrm ((R2ᵀ *ᵥ m) ⨯₃ v) := hs
  have hn := epsilonAngle_pos.trans hs'
  have hcond := (above_iff _).2 hs'
  refine ⟨_, by rw [mergeTiltWithYaw]; dsimp only; rw [if_pos hcond], ?_⟩
  rw [show Real.sqrt (((R2ᵀ *ᵥ m) ⨯₃ v) ⬝ᵥ ((R2ᵀ *ᵥ m) ⨯₃ v)) = nrm ((R2ᵀ *ᵥ m) ⨯₃ v) from rfl]
  set ml := R2ᵀ *ᵥ m with hml
  set n := nrm (ml ⨯₃ v) with hn'
  set u := (1 / n) • (ml ⨯₃ v) with hu
  have huu : u ⬝ᵥ u = 1 := unit_normalized hn
  have huv : u ⬝ᵥ v = 0 := by
    rw [hu, smul_dotProduct, dotProduct_comm, dot_cross_self]; simp
  have hB : IsRot (rows u (v ⨯₃ u) v) := rows_isRot huu hv huv rfl
  refine ⟨(frame_isRot hm hz).mul hB, ?_, n, v ⬝ᵥ ml, hn, fun b hb => ?_⟩
  · rw [transpose_mul, ← mulVec_mulVec, frame_ez m hz, rows_ez]
  · have hb' : b = ml := by rw [hml, ← hb, hR.cancel]
    subst hb'
    rw [← mulVec_mulVec, rows_mulVec, cols_mulVec]
    have h0 : u ⬝ᵥ ml = 0 := by rw [hu, smul_dotProduct, dotProduct_comm, dot_self_cross]; simp
    have h1 : (v ⨯₃ u) ⬝ᵥ ml = n := by
      have : (v ⨯₃ u) ⬝ᵥ ml = u ⬝ᵥ (ml ⨯₃ v) := by
        simp only [dot3, cross0, cross1, cross2]; ring
      rw [this, hu, smul_dotProduct, ← nrm_mul_self]
      simp; rw [← hn']; field_simp
    simp [h0, h1]

/-- **C39** Among all rotations with that tilt it is the one for which the vector moves least: it maximises the scalar product
of `m` with the image of the body vector that `R2` maps to `m`. -/
theorem C39_optimal (v m : V3) (R2 R R' : M3) (hv : v ⬝ᵥ v = 1) (hR2 : IsRot R2) (hm : m ⬝ᵥ m = 1) (hz : m 2 = 0)
    (hR : mergeTiltWithYaw v R2 m = .ok R) (hR' : IsRot R') (ht : R'ᵀ *ᵥ ez = v) :
    m ⬝ᵥ (R' *ᵥ (R2ᵀ *ᵥ m)) ≤ m ⬝ᵥ (R *ᵥ (R2ᵀ *ᵥ m)) := by
  have hs : 1e-16 < nrm ((R2ᵀ *ᵥ m) ⨯₃ v) := by
    show epsilonAngle < _
    rw [← above_iff]
    by_contra hc
    rw [mergeTiltWithYaw] at hR
    dsimp only at hR
    rw [if_neg hc] at hR
    cases hR
  have hcond := (above_iff ((R2ᵀ *ᵥ m) ⨯₃ v)).2 hs
  have hn := epsilonAngle_pos.trans hs
  -- the value reached is the norm of `ml × v`
  have hval : m ⬝ᵥ (R *ᵥ (R2ᵀ *ᵥ m)) = nrm ((R2ᵀ *ᵥ m) ⨯₃ v) := by
    rw [mergeTiltWithYaw] at hR
    dsimp only at hR
    rw [if_pos hcond] at hR
    obtain rfl : _ = R := by cases hR; rfl
    rw [show Real.sqrt (((R2ᵀ *ᵥ m) ⨯₃ v) ⬝ᵥ ((R2ᵀ *ᵥ m) ⨯₃ v)) = nrm ((R2ᵀ *ᵥ m) ⨯₃ v) from rfl]
    set ml := R2ᵀ *ᵥ m
    have h1 : (v ⨯₃ ((1 / nrm (ml ⨯₃ v)) • (ml ⨯₃ v))) ⬝ᵥ ml = nrm (ml ⨯₃ v) := by
      have : ∀ u : V3, (v ⨯₃ u) ⬝ᵥ ml = u ⬝ᵥ (ml ⨯₃ v) := fun u => by
        simp only [dot3, cross0, cross1, cross2]; ring
      rw [this, smul_dotProduct, ← nrm_mul_self]
      simp; field_simp
    have h2 : m ⬝ᵥ (m ⨯₃ ez) = 0 := dot_self_cross m ez
    have h3 : m ⬝ᵥ ez = 0 := by simp [hz]
    rw [← mulVec_mulVec, rows_mulVec, cols_mulVec]
    simp only [cons_val_zero, cons_val_one, cons_val, dotProduct_add, dotProduct_smul, h1, hm, h2, h3]
    simp
  rw [hval]
  set ml := R2ᵀ *ᵥ m
  -- the vector `w` that `R'` maps to `m` is a unit vector orthogonal to `v`
  set w := R'ᵀ *ᵥ m with hw
  have hwu : w ⬝ᵥ w = 1 := by rw [hw, hR'.transpose.dot, hm]
  have hwv : w ⬝ᵥ v = 0 := by
    rw [hw, ← ht, hR'.transpose.dot]; simp [hz]
  have e : m ⬝ᵥ (R' *ᵥ ml) = (w ⨯₃ v) ⬝ᵥ (ml ⨯₃ v) := by
    rw [cross_dot_cross, hwv, hv, ← rot_dot_transpose, ← hw]; ring
  rw [e]
  have hz1 : nrm (w ⨯₃ v) = 1 := by
    rw [nrm_eq_one, cross_dot_cross, hwu, hv, hwv]; ring
  calc _ ≤ nrm (w ⨯₃ v) * nrm (ml ⨯₃ v) := dot_le _ _
    _ = _ := by rw [hz1, one_mul]

/-- **C39** In the singular set (the body vector of `R2` for the axis is, up to `1e-16`, along the tilt) the call throws, and it
throws only then. -/
theorem C39_throws (v m : V3) (R2 : M3) : mergeTiltWithYaw v R2 m = .exn ↔ nrm ((R2ᵀ *ᵥ m) ⨯₃ v) ≤ 1e-16 := by
  show _ ↔ _ ≤ epsilonAngle
  rw [← not_lt, ← above_iff, mergeTiltWithYaw]
  dsimp only
  split
  · rename_i h; simp [h]
  · rename_i h; simp [h]

/-- **C39** Merging the tilt of a rotation with itself returns it, whatever the axis. -/
theorem C39_self (R m : _) (hR : IsRot R) (hm : m ⬝ᵥ m = 1) (hz : m 2 = 0) : mergeRoll1Pitch1WithYaw2 R R m = .ok R := by
  have hx : (Rᵀ *ᵥ m) ⨯₃ (Rᵀ *ᵥ ez) = Rᵀ *ᵥ (m ⨯₃ ez) := (hR.transpose.cross m ez).symm
  have hmz : (m ⨯₃ ez) ⬝ᵥ (m ⨯₃ ez) = 1 := by
    rw [dot3, hz] at hm
    simp [dot3, cross0, cross1, cross2]; linear_combination hm
  have h1 : nrm ((Rᵀ *ᵥ m) ⨯₃ (Rᵀ *ᵥ ez)) = 1 := by rw [hx, hR.transpose.nrm, nrm_eq_one, hmz]
  have hcond := (above_iff ((Rᵀ *ᵥ m) ⨯₃ (Rᵀ *ᵥ ez))).2 (by rw [h1]; norm_num [epsilonAngle])
  rw [mergeRoll1Pitch1WithYaw2, mergeTiltWithYaw]
  dsimp only
  rw [if_pos hcond]
  congr 1
  rw [show Real.sqrt (((Rᵀ *ᵥ m) ⨯₃ (Rᵀ *ᵥ ez)) ⬝ᵥ ((Rᵀ *ᵥ m) ⨯₃ (Rᵀ *ᵥ ez))) = nrm ((Rᵀ *ᵥ m) ⨯₃ (Rᵀ *ᵥ ez)) from rfl, h1, hx]
  have hb : (Rᵀ *ᵥ ez) ⨯₃ ((1 / 1 : ℝ) • (Rᵀ *ᵥ (m ⨯₃ ez))) = Rᵀ *ᵥ m := by
    rw [div_one, one_smul, ← hR.transpose.cross]
    congr 1
    apply ext3 <;> simp [cross0, cross1, cross2, hz]
  rw [hb, div_one, one_smul]
  -- the rows are the transposes of the columns of the frame, seen in the body
  have hrows : rows (Rᵀ *ᵥ (m ⨯₃ ez)) (Rᵀ *ᵥ m) (Rᵀ *ᵥ ez) = (cols (m ⨯₃ ez) m ez)ᵀ * R := by
    apply mulVec_ext; intro b
    rw [rows_mulVec, ← mulVec_mulVec, cols_eq, transpose_transpose, rows_mulVec]
    simp only [rot_dot_transpose]
  rw [hrows, ← mul_assoc, (frame_isRot hm hz).orth', one_mul]

theorem vecNormalized_spec {v : V3} (h : v ≠ 0) : vecNormalized v = (1 / nrm v) • v := by
  have : v ⬝ᵥ v > 0 := by rw [← nrm_mul_self]; have := nrm_pos h; positivity
  rw [vecNormalized, if_pos this]; rfl

/-- **C39** The axis-agnostic version, when the tilts of the two arguments are either exactly equal (up to the sign) or differ by more than the
threshold: the result is a rotation with the given tilt, and some horizontal unit vector is the image of the same body
vector by both rotations. -/
theorem C39_agnostic (v : V3) (R2 : M3) (hv : v ⬝ᵥ v = 1) (hR : IsRot R2)
    (hs : ((R2 *ᵥ v) 0 = 0 ∧ (R2 *ᵥ v) 1 = 0) ∨ epsilon1 < |(R2 *ᵥ v) 0| ∨ epsilon1 < |(R2 *ᵥ v) 1|) :
    IsRot (mergeTiltWithYawAxisAgnostic v R2) ∧ (mergeTiltWithYawAxisAgnostic v R2)ᵀ *ᵥ ez = v ∧
    ∃ m : V3, m ⬝ᵥ m = 1 ∧ m 2 = 0 ∧ ∀ b, R2 *ᵥ b = m → mergeTiltWithYawAxisAgnostic v R2 *ᵥ b = m := by
  set m := vecNormalized (getInvariantOrthogonalVector R2 v) with hm
  have key : m ⬝ᵥ m = 1 ∧ m 2 = 0 ∧ m ⬝ᵥ (R2 *ᵥ v) = 0 := by
    by_cases hz : (R2 *ᵥ v) 0 = 0 ∧ (R2 *ᵥ v) 1 = 0
    · have e : getInvariantOrthogonalVector R2 v = ex := by
        rw [getInvariantOrthogonalVector, if_pos]; simp [muchSmaller1, hz, epsilon1_pos.le]
      have hex : ex ⬝ᵥ ex = 1 := by simp
      have hne : ex ≠ 0 := by intro h; rw [h] at hex; simp at hex
      have : m = ex := by
        rw [hm, e, vecNormalized_spec hne, nrm_eq_one.2 hex]; simp
      rw [this]
      exact ⟨hex, rfl, by rw [ex_dot, hz.1]⟩
    · have hs := hs.resolve_left hz
      have e : getInvariantOrthogonalVector R2 v = ![(R2 *ᵥ v) 1, -(R2 *ᵥ v) 0, 0] := by
        rw [getInvariantOrthogonalVector, if_neg]
        rintro ⟨h0, h1⟩
        simp only [muchSmaller1] at h0 h1
        rcases hs with hs | hs <;> linarith
      have hne : (![(R2 *ᵥ v) 1, -(R2 *ᵥ v) 0, 0] : V3) ≠ 0 := by
        intro h
        apply hz
        have h0 := congrFun h 0
        have h1 := congrFun h 1
        simp only [cons_val_zero, cons_val_one, Pi.zero_apply, neg_eq_zero] at h0 h1
        exact ⟨h1, h0⟩
      rw [hm, e, vecNormalized_spec hne]
      refine ⟨unit_normalized (nrm_pos hne), by simp, ?_⟩
      rw [smul_dotProduct, dot3]; simp; right; ring
  obtain ⟨hmm, hmz, hmv⟩ := key
  have hml : (R2ᵀ *ᵥ m) ⬝ᵥ (R2ᵀ *ᵥ m) = 1 := by rw [hR.transpose.dot, hmm]
  have hmlv : (R2ᵀ *ᵥ m) ⬝ᵥ v = 0 := by rw [rot_dot_transpose, hmv]
  set ml := R2ᵀ *ᵥ m with hml'
  have hB : IsRot (rows (ml ⨯₃ v) ml v) := by
    refine rows_isRot ?_ hv ?_ ?_
    · rw [cross_dot_cross, hml, hv, hmlv]; ring
    · rw [dotProduct_comm, dot_cross_self]
    · rw [cross_cross_eq_smul_sub_smul', hv, hmlv]; simp
  have hdef : mergeTiltWithYawAxisAgnostic v R2 = cols (m ⨯₃ ez) m ez * rows (ml ⨯₃ v) ml v := rfl
  rw [hdef]
  refine ⟨(frame_isRot hmm hmz).mul hB, ?_, m, hmm, hmz, fun b hb => ?_⟩
  · rw [transpose_mul, ← mulVec_mulVec, frame_ez m hmz, rows_ez]
  · have hb' : b = ml := by rw [hml', ← hb, hR.cancel]
    subst hb'
    rw [← mulVec_mulVec, rows_mulVec, cols_mulVec, hml, dotProduct_comm v, hmlv, dotProduct_comm, dot_self_cross]
    simp

/-- **C39** Merging the tilt of a rotation with itself by the axis-agnostic version returns it. -/
theorem C39_agnostic_self (R : M3) (hR : IsRot R) : mergeRoll1Pitch1WithYaw2AxisAgnostic R R = R := by
  have hz : R *ᵥ (Rᵀ *ᵥ ez) = ez := hR.cancel' ez
  have e : getInvariantOrthogonalVector R (Rᵀ *ᵥ ez) = ex := by
    rw [getInvariantOrthogonalVector, if_pos]; rw [hz]; simp [muchSmaller1, epsilon1_pos.le]
  have hex : ex ⬝ᵥ ex = 1 := by simp
  have hne : ex ≠ 0 := by intro h; rw [h] at hex; simp at hex
  have hm : vecNormalized (getInvariantOrthogonalVector R (Rᵀ *ᵥ ez)) = ex := by
    rw [e, vecNormalized_spec hne, nrm_eq_one.2 hex]; simp
  rw [mergeRoll1Pitch1WithYaw2AxisAgnostic, mergeTiltWithYawAxisAgnostic, hm, ← hR.transpose.cross]
  have hrows : rows (Rᵀ *ᵥ (ex ⨯₃ ez)) (Rᵀ *ᵥ ex) (Rᵀ *ᵥ ez) = (cols (ex ⨯₃ ez) ex ez)ᵀ * R := by
    apply mulVec_ext; intro b
    rw [rows_mulVec, ← mulVec_mulVec, cols_eq, transpose_transpose, rows_mulVec]
    simp only [rot_dot_transpose]
  rw [hrows, ← mul_assoc, (frame_isRot hex (by simp)).orth', one_mul]

/-- Turning a vector of the plane adds to its angle. -/
theorem atan2_turn (ψ a b : ℝ) (h : a ≠ 0 ∨ b ≠ 0) :
    (atan2 (Real.sin ψ * a + Real.cos ψ * b) (Real.cos ψ * a - Real.sin ψ * b) : Real.Angle) = ψ + (atan2 b a : Real.Angle) := by
  have hz : (⟨a, b⟩ : ℂ) ≠ 0 := by
    intro e
    have h1 := congrArg Complex.re e
    have h2 := congrArg Complex.im e
    simp at h1 h2
    rcases h with h | h
    · exact h h1
    · exact h h2
  have hu : (Complex.cos ψ + Complex.sin ψ * Complex.I) ≠ 0 := by
    rw [← Complex.exp_mul_I]; exact Complex.exp_ne_zero _
  have h1 := Complex.arg_mul_coe_angle hu hz
  have h2 : ((Complex.cos ψ + Complex.sin ψ * Complex.I).arg : Real.Angle) = ψ := by
    simpa using Complex.arg_cos_add_sin_mul_I_coe_angle (ψ : Real.Angle)
  rw [h2] at h1
  rw [atan2, atan2, ← h1]
  congr 2
  apply Complex.ext <;> simp [← Complex.ofReal_cos, ← Complex.ofReal_sin] <;> ring

theorem rotZ_mul (ψ : ℝ) (R : M3) (j : Fin 3) :
    (rotZ ψ * R) 0 j = Real.cos ψ * R 0 j - Real.sin ψ * R 1 j ∧ (rotZ ψ * R) 1 j = Real.sin ψ * R 0 j + Real.cos ψ * R 1 j ∧
    (rotZ ψ * R) 2 j = R 2 j := by
  refine ⟨?_, ?_, ?_⟩ <;> simp [mul3, rotZ] <;> ring

/-- The image of the invariant horizontal vector of a rotation that is not a pure yaw. -/
theorem invariant_image {R : M3} (hR : IsRot R) : R *ᵥ ![R 2 1, -R 2 0, 0] = ![-R 1 2, R 0 2, 0] := by
  apply ext3 <;> simp [mulVec3]
  · linear_combination -hR.a12
  · linear_combination hR.a02
  · ring

/-- **C40** The yaw of a pure yaw rotation, by the three functions. -/
theorem C40_pure (ψ : ℝ) (h : ψ ∈ Set.Ioc (-Real.pi) Real.pi) :
    rotationMatrixToYaw (rotZ ψ) = ψ ∧ rotationMatrixToYawAxisAgnostic (rotZ ψ) = ψ ∧
    ∀ v : Fin 2 → ℝ, v ≠ 0 → rotationMatrixToYaw2 (rotZ ψ) v = ψ := by
  have h1 : rotationMatrixToYaw (rotZ ψ) = ψ := by
    have := AngleAxis.atan2_polar (r := 1) one_pos h
    rw [one_mul, one_mul] at this
    rw [rotationMatrixToYaw]; exact this
  refine ⟨h1, ?_, fun v hv => ?_⟩
  · rw [rotationMatrixToYawAxisAgnostic, if_pos, h1]
    simp [isPureYaw, muchSmaller1, rotZ, epsilon1_pos.le]
  · have hn : 0 < v 0 * v 0 + v 1 * v 1 := by
      by_contra hc
      apply hv
      have h0 : v 0 = 0 := by nlinarith [sq_nonneg (v 0), sq_nonneg (v 1)]
      have h1 : v 1 = 0 := by nlinarith [sq_nonneg (v 0), sq_nonneg (v 1)]
      funext i; fin_cases i <;> simp [h0, h1]
    have := AngleAxis.atan2_polar hn h
    rw [rotationMatrixToYaw2]
    convert! this using 2 <;> simp [rotZ] <;> ring

/-- **C40** Turning about the vertical after a rotation adds to the yaw, modulo a turn; the x axis must not be mapped to the vertical. -/
theorem C40_add (ψ : ℝ) (R : M3) (hR : IsRot R) (h : |R 2 0| < 1) :
    (rotationMatrixToYaw (rotZ ψ * R) : Real.Angle) = ψ + (rotationMatrixToYaw R : Real.Angle) := by
  rw [rotationMatrixToYaw, rotationMatrixToYaw, (rotZ_mul ψ R 0).1, (rotZ_mul ψ R 0).2.1]
  apply atan2_turn
  by_contra hc
  push Not at hc
  have := hR.o00
  rw [hc.1, hc.2] at this
  have h2 : R 2 0 ^ 2 < 1 := by rw [← sq_abs]; nlinarith [abs_nonneg (R 2 0)]
  linarith

/-- **C40** The same for the axis-agnostic version, for every rotation whatsoever. -/
theorem C40_add_agnostic (ψ : ℝ) (R : M3) (hR : IsRot R) :
    (rotationMatrixToYawAxisAgnostic (rotZ ψ * R) : Real.Angle) = ψ + (rotationMatrixToYawAxisAgnostic R : Real.Angle) := by
  have hp : isPureYaw (rotZ ψ * R) ↔ isPureYaw R := by
    rw [isPureYaw, isPureYaw, (rotZ_mul ψ R 0).2.2, (rotZ_mul ψ R 1).2.2]
  by_cases h : isPureYaw R
  · rw [rotationMatrixToYawAxisAgnostic, rotationMatrixToYawAxisAgnostic, if_pos h, if_pos (hp.2 h)]
    refine C40_add ψ R hR ?_
    have := h.1
    simp only [muchSmaller1] at this
    have := epsilon1_lt
    linarith
  · rw [rotationMatrixToYawAxisAgnostic, rotationMatrixToYawAxisAgnostic, if_neg h, if_neg (hp.not.2 h)]
    have hv : getInvariantHorizontalVector (rotZ ψ * R) = ![R 2 1, -R 2 0, 0] := by
      rw [getInvariantHorizontalVector, if_neg (hp.not.2 h), (rotZ_mul ψ R 0).2.2, (rotZ_mul ψ R 1).2.2]
    have hv' : getInvariantHorizontalVector R = ![R 2 1, -R 2 0, 0] := by
      rw [getInvariantHorizontalVector, if_neg h]
    simp only [hv, hv', rotationMatrixToYaw2, (rotZ_mul ψ R 0).1, (rotZ_mul ψ R 0).2.1, (rotZ_mul ψ R 1).1, (rotZ_mul ψ R 1).2.1,
      cons_val_zero, cons_val_one]
    set a := R 0 0 * R 2 1 + R 0 1 * -R 2 0
    set b := R 1 0 * R 2 1 + R 1 1 * -R 2 0
    have hne : (R 2 1 * a + -R 2 0 * b) ≠ 0 ∨ (R 2 1 * b - -R 2 0 * a) ≠ 0 := by
      by_contra hc
      push Not at hc
      have ha : a = -R 1 2 := by linear_combination -hR.a12
      have hb : b = R 0 2 := by linear_combination hR.a02
      have hs : (R 2 1 * R 2 1 + R 2 0 * R 2 0) * (R 1 2 * R 1 2 + R 0 2 * R 0 2) = 0 := by
        rw [ha, hb] at hc
        linear_combination (-R 2 1 * R 1 2 - R 2 0 * R 0 2) * hc.1 + (R 2 1 * R 0 2 - R 2 0 * R 1 2) * hc.2
      have h1 : R 1 2 * R 1 2 + R 0 2 * R 0 2 = R 2 1 * R 2 1 + R 2 0 * R 2 0 := by linear_combination hR.o22 - hR.r22
      rw [h1] at hs
      have h2 := mul_self_eq_zero.1 hs
      apply h
      have e0 : R 2 0 = 0 := by nlinarith [sq_nonneg (R 2 0), sq_nonneg (R 2 1)]
      have e1 : R 2 1 = 0 := by nlinarith [sq_nonneg (R 2 0), sq_nonneg (R 2 1)]
      simp [isPureYaw, muchSmaller1, e0, e1, epsilon1_pos.le]
    rw [← atan2_turn ψ _ _ hne]
    congr 2
    · ring
    · ring

/-- **C40** What the axis-agnostic yaw means, for a rotation that is not a pure yaw: there is a nonzero horizontal vector whose
image by the rotation is horizontal, and the yaw is the angle between the two. -/
theorem C40_agnostic_meaning (R : M3) (hR : IsRot R) (h : epsilon1 < |R 2 0| ∨ epsilon1 < |R 2 1|) :
    ∃ v : V3, v ≠ 0 ∧ v 2 = 0 ∧ (R *ᵥ v) 2 = 0 ∧ R *ᵥ v = rotZ (rotationMatrixToYawAxisAgnostic R) *ᵥ v := by
  have hp : ¬isPureYaw R := by
    rintro ⟨h0, h1⟩
    simp only [muchSmaller1] at h0 h1
    rcases h with h | h <;> linarith
  have hv' : getInvariantHorizontalVector R = ![R 2 1, -R 2 0, 0] := by
    rw [getInvariantHorizontalVector, if_neg hp]
  have hpos : 0 < R 2 1 * R 2 1 + R 2 0 * R 2 0 := by
    have he := epsilon1_pos
    rcases h with h | h
    · nlinarith [abs_mul_abs_self (R 2 0), sq_nonneg (R 2 1)]
    · nlinarith [abs_mul_abs_self (R 2 1), sq_nonneg (R 2 0)]
  refine ⟨![R 2 1, -R 2 0, 0], ?_, by simp, by rw [invariant_image hR]; simp, ?_⟩
  · intro e
    have h0 := congrFun e 0
    have h1 := congrFun e 1
    simp only [cons_val_zero, cons_val_one, Pi.zero_apply, neg_eq_zero] at h0 h1
    rw [h0, h1] at hpos
    simp at hpos
  · rw [rotationMatrixToYawAxisAgnostic, if_neg hp, invariant_image hR]
    simp only [hv', rotationMatrixToYaw2, cons_val_zero, cons_val_one]
    have ha : R 0 0 * R 2 1 + R 0 1 * -R 2 0 = -R 1 2 := by linear_combination -hR.a12
    have hb : R 1 0 * R 2 1 + R 1 1 * -R 2 0 = R 0 2 := by linear_combination hR.a02
    rw [ha, hb]
    have hq : R 1 2 * R 1 2 + R 0 2 * R 0 2 = R 2 1 * R 2 1 + R 2 0 * R 2 0 := by linear_combination hR.o22 - hR.r22
    have hn : ‖(⟨R 2 1 * -R 1 2 + -R 2 0 * R 0 2, R 2 1 * R 0 2 - -R 2 0 * -R 1 2⟩ : ℂ)‖ = R 2 1 * R 2 1 + R 2 0 * R 2 0 := by
      rw [Complex.norm_def, Complex.normSq_mk, Real.sqrt_eq_iff_mul_self_eq_of_pos hpos]
      linear_combination -(R 2 1 * R 2 1 + R 2 0 * R 2 0) * hq
    have h0 : (⟨R 2 1 * -R 1 2 + -R 2 0 * R 0 2, R 2 1 * R 0 2 - -R 2 0 * -R 1 2⟩ : ℂ) ≠ 0 := by
      intro e; rw [e] at hn; simp at hn; linarith
    have hcos := Complex.cos_arg h0
    have hsin := Complex.sin_arg ⟨R 2 1 * -R 1 2 + -R 2 0 * R 0 2, R 2 1 * R 0 2 - -R 2 0 * -R 1 2⟩
    rw [hn] at hcos hsin
    rw [atan2]
    generalize Complex.arg _ = t at hcos hsin
    simp only at hcos hsin
    have hne := hpos.ne'
    generalize hN : R 2 1 * R 2 1 + R 2 0 * R 2 0 = N at hcos hsin hne
    apply ext3 <;> simp only [mulVec3, rotZ] <;> simp [hcos, hsin] <;> field_simp
    · linear_combination R 1 2 * hN
    · linear_combination -R 0 2 * hN

/-- **C40** `rotationMatrixToAngle` recovers the angle of a rotation about the given unit axis, using any vector that is not along it. -/
theorem C40_angle (t : ℝ) (u v : V3) (hu : u ⬝ᵥ u = 1) (hv : u ⨯₃ v ≠ 0) (h : t ∈ Set.Ioc (-Real.pi) Real.pi) :
    rotationMatrixToAngle (NormedSpace.exp (hat (t • u))) u v = t := by
  rw [hat_smul, ← toMat_eq_exp hu, rotationMatrixToAngle, AngleAxis.toMat_mulVec]
  have hpos : 0 < (u ⨯₃ v) ⬝ᵥ (u ⨯₃ v) := by
    rw [← nrm_mul_self]; have := nrm_pos hv; positivity
  have hw : u ⨯₃ ((Real.cos t • v + Real.sin t • (u ⨯₃ v) + ((1 - Real.cos t) * (u ⬝ᵥ v)) • u) ⨯₃ u) =
      Real.cos t • (v - (u ⬝ᵥ v) • u) + Real.sin t • (u ⨯₃ v) := by
    have h1 : u ⨯₃ (v ⨯₃ u) = v - (u ⬝ᵥ v) • u := by
      rw [cross_cross_eq_smul_sub_smul', hu, one_smul, dotProduct_comm]
    have h2 : u ⨯₃ ((u ⨯₃ v) ⨯₃ u) = u ⨯₃ v := by
      rw [cross_cross_eq_smul_sub_smul', hu, one_smul, dotProduct_comm, dot_self_cross, zero_smul, sub_zero]
    simp only [add_cross, smul_cross, cross_add, cross_smul, h1, h2, _root_.cross_self, smul_zero, add_zero]
  have hvv : (u ⨯₃ v) ⬝ᵥ (u ⨯₃ v) = v ⬝ᵥ v - (u ⬝ᵥ v) * (u ⬝ᵥ v) := by
    rw [cross_dot_cross, hu, dotProduct_comm v u]; ring
  have hp := AngleAxis.atan2_polar hpos h
  convert! hp using 2
  · rw [hw]
    simp only [cross_add, cross_sub, cross_smul, _root_.cross_self, add_dotProduct, sub_dotProduct, smul_dotProduct, smul_eq_mul]
    have e1 : (v ⨯₃ u) ⬝ᵥ u = 0 := by rw [dotProduct_comm, dot_cross_self]
    have e2 : (v ⨯₃ (u ⨯₃ v)) ⬝ᵥ u = (u ⨯₃ v) ⬝ᵥ (u ⨯₃ v) := by
      simp only [dot3, cross0, cross1, cross2]; ring
    rw [e1, e2]; simp; ring
  · rw [hw, hvv]
    simp only [dotProduct_add, dotProduct_sub, dotProduct_smul, smul_eq_mul, dot_cross_self]
    rw [dotProduct_comm v u]; ring

end StateObs.Kine
