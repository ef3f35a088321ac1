import Verif.Kalman.LinProps
import Mathlib.LinearAlgebra.Matrix.Permutation
/-!
# Property C121: the linear Kalman filter does not depend on the coordinates, on the order of the sensors, on the number of updates
-/

namespace StateObs.KFSpec
open Matrix
variable {n n' m p p' : ℕ}

/-- The model `d'` follows from `d` by the change of coordinates `T` of the state before the step, `T'` after it, `U` of the measurement. -/
structure Maps (T T' : Matrix (Fin n') (Fin n) ℝ) (U : Matrix (Fin m) (Fin m) ℝ) (d : LinModel n m p) (d' : LinModel n' m p) : Prop where
  A : d'.A * T = T' * d.A
  B : d'.B = T' * d.B
  C : d'.C * T' = U * d.C
  D : d'.D = U * d.D
  Q : d'.Q = T' * d.Q * T'ᵀ
  R : d'.R = U * d.R * Uᵀ

theorem innov_det {C : Matrix (Fin m) (Fin n) ℝ} {R : Matrix (Fin m) (Fin m) ℝ} {M : Matrix (Fin n) (Fin n) ℝ} (hR : R.PosDef)
    (hM : M.PosSemidef) : IsUnit (innovCov C R M).det := by
  have h : (innovCov C R M).PosDef := by
    have h1 : (C * M * Cᵀ).PosSemidef := by
      have := hM.mul_mul_conjTranspose_same C
      rwa [conjTranspose_eq_transpose_of_trivial] at this
    exact PosDef.posSemidef_add h1 hR
  exact (Matrix.isUnit_iff_isUnit_det _).1 h.isUnit

/-- The gain is the only solution of its normal equation. -/
theorem gain_unique {C : Matrix (Fin m) (Fin n) ℝ} {R : Matrix (Fin m) (Fin m) ℝ} {M : Matrix (Fin n) (Fin n) ℝ} (hR : R.PosDef)
    (hM : M.PosSemidef) (K : Matrix (Fin n) (Fin m) ℝ) (h : K * innovCov C R M = M * Cᵀ) : gain C R M = K := by
  rw [gain, ← h, Matrix.mul_assoc, Matrix.mul_nonsing_inv _ (innov_det hR hM), Matrix.mul_one]

theorem gain_normal {C : Matrix (Fin m) (Fin n) ℝ} {R : Matrix (Fin m) (Fin m) ℝ} {M : Matrix (Fin n) (Fin n) ℝ} (hR : R.PosDef)
    (hM : M.PosSemidef) : gain C R M * innovCov C R M = M * Cᵀ := by
  rw [gain, Matrix.mul_assoc, Matrix.nonsing_inv_mul _ (innov_det hR hM), Matrix.mul_one]

theorem step_maps {T T' : Matrix (Fin n') (Fin n) ℝ} {U : Matrix (Fin m) (Fin m) ℝ} {d : LinModel n m p} {d' : LinModel n' m p}
    (h : Maps T T' U d d') (hU : IsUnit U.det) (hd : d.Ok) (hd' : d'.Ok) (i : StepIn m p) (x : Fin n → ℝ) {P : Matrix (Fin n) (Fin n) ℝ} (hP : P.PosSemidef) :
    linStep d' ⟨i.u, i.u', U *ᵥ i.y⟩ (T *ᵥ x, T * P * Tᵀ) = (T' *ᵥ (linStep d i (x, P)).1, T' * (linStep d i (x, P)).2 * T'ᵀ) := by
  set M := predCov d.A d.Q P with hM
  have hMp : M.PosSemidef := predCov_psd hd.1 hP
  have hTP : (T * P * Tᵀ).PosSemidef := by
    have := hP.mul_mul_conjTranspose_same T
    rwa [conjTranspose_eq_transpose_of_trivial] at this
  have hM' : predCov d'.A d'.Q (T * P * Tᵀ) = T' * M * T'ᵀ := by
    have : d'.A * (T * P * Tᵀ) * d'.Aᵀ = (d'.A * T) * P * (d'.A * T)ᵀ := by simp only [Matrix.transpose_mul, Matrix.mul_assoc]
    rw [predCov, this, h.A, h.Q, hM, predCov]
    simp only [Matrix.transpose_mul, Matrix.mul_assoc, Matrix.mul_add, Matrix.add_mul]
  have hMp' : (T' * M * T'ᵀ).PosSemidef := hM' ▸ predCov_psd hd'.1 hTP
  have hCt : T'ᵀ * d'.Cᵀ = d.Cᵀ * Uᵀ := by rw [← Matrix.transpose_mul, h.C, Matrix.transpose_mul]
  have hK : gain d'.C d'.R (T' * M * T'ᵀ) = T' * gain d.C d.R M * U⁻¹ := by
    refine gain_unique hd'.2 hMp' _ ?_
    have e : innovCov d'.C d'.R (T' * M * T'ᵀ) = U * innovCov d.C d.R M * Uᵀ := by
      have : d'.C * (T' * M * T'ᵀ) * d'.Cᵀ = (d'.C * T') * M * (T'ᵀ * d'.Cᵀ) := by simp only [Matrix.mul_assoc]
      rw [innovCov, this, hCt, h.C, h.R, innovCov]
      simp only [Matrix.mul_assoc, Matrix.mul_add, Matrix.add_mul]
    rw [e]
    calc T' * gain d.C d.R M * U⁻¹ * (U * innovCov d.C d.R M * Uᵀ) = T' * gain d.C d.R M * (U⁻¹ * U) * innovCov d.C d.R M * Uᵀ := by
          simp only [Matrix.mul_assoc]
      _ = T' * (gain d.C d.R M * innovCov d.C d.R M) * Uᵀ := by
          rw [Matrix.nonsing_inv_mul _ hU, Matrix.mul_one, Matrix.mul_assoc T']
      _ = T' * M * (T'ᵀ * d'.Cᵀ) := by rw [gain_normal hd.2 hMp, hCt]; simp only [Matrix.mul_assoc]
      _ = _ := by simp only [Matrix.mul_assoc]
  have hx : predState d' i.u (T *ᵥ x) = T' *ᵥ predState d i.u x := by
    rw [predState, predState, mulVec_mulVec, h.A, h.B, mulVec_add, mulVec_mulVec, mulVec_mulVec]
  have hy : predMeas d' i.u' (T' *ᵥ predState d i.u x) = U *ᵥ predMeas d i.u' (predState d i.u x) := by
    rw [predMeas, predMeas, mulVec_mulVec, h.C, h.D, mulVec_add, mulVec_mulVec, mulVec_mulVec]
  have hI : U⁻¹ * U = 1 := Matrix.nonsing_inv_mul _ hU
  simp only [linStep, hM', hx, hy, hK]
  refine Prod.ext ?_ ?_
  · simp only
    rw [← mulVec_sub, mulVec_mulVec, Matrix.mul_assoc, hI, Matrix.mul_one, ← mulVec_mulVec, ← mulVec_add]
  · simp only [posterior, hK]
    have e : T' * gain d.C d.R M * U⁻¹ * d'.C * T' = T' * gain d.C d.R M * d.C := by
      rw [Matrix.mul_assoc _ d'.C, h.C, Matrix.mul_assoc (T' * gain d.C d.R M), ← Matrix.mul_assoc U⁻¹, hI, Matrix.one_mul]
    calc (1 - T' * gain d.C d.R M * U⁻¹ * d'.C) * (T' * M * T'ᵀ) = T' * M * T'ᵀ - (T' * gain d.C d.R M * U⁻¹ * d'.C * T') * M * T'ᵀ := by
          rw [Matrix.sub_mul, Matrix.one_mul]; simp only [Matrix.mul_assoc]
      _ = T' * ((1 - gain d.C d.R M * d.C) * M) * T'ᵀ := by
          rw [e, Matrix.sub_mul, Matrix.one_mul, Matrix.mul_sub, Matrix.sub_mul]; simp only [Matrix.mul_assoc]

theorem run_maps (T : ℕ → Matrix (Fin n') (Fin n) ℝ) (U : ℕ → Matrix (Fin m) (Fin m) ℝ) (d : ℕ → LinModel n m p) (d' : ℕ → LinModel n' m p)
    (h : ∀ N, Maps (T N) (T (N + 1)) (U N) (d N) (d' N)) (hU : ∀ N, IsUnit (U N).det) (hd : ∀ N, (d N).Ok) (hd' : ∀ N, (d' N).Ok)
    (i : ℕ → StepIn m p) (x : Fin n → ℝ) {P : Matrix (Fin n) (Fin n) ℝ} (hP : P.PosSemidef) (N : ℕ) :
    linRun d' (fun N => ⟨(i N).u, (i N).u', U N *ᵥ (i N).y⟩) (T 0 *ᵥ x, T 0 * P * (T 0)ᵀ) N =
      (T N *ᵥ (linRun d i (x, P) N).1, T N * (linRun d i (x, P) N).2 * (T N)ᵀ) := by
  induction N with
  | zero => rfl
  | succ N ih =>
    rw [linRun, ih, linRun]
    exact step_maps (h N) (hU N) (hd N) (hd' N) (i N) _ (LKF.linRun_psd d hd i x hP N)

/-! ## Sensors used one after the other -/

variable {a b : ℕ}

theorem mul_split {q : ℕ} (K : Matrix (Fin n) (Fin (a + b)) ℝ) (X : Matrix (Fin (a + b)) (Fin q) ℝ) :
    K * X = K.submatrix id (Fin.castAdd b) * X.submatrix (Fin.castAdd b) id + K.submatrix id (Fin.natAdd a) * X.submatrix (Fin.natAdd a) id := by
  ext i j
  simp only [Matrix.mul_apply, Matrix.add_apply, Fin.sum_univ_add, submatrix_apply, id]

/-- The first `a` and the last `b` measurements of a model; the second part does not move the state. -/
def LinModel.first (d : LinModel n (a + b) p) : LinModel n a p :=
  ⟨d.A, d.B, d.C.submatrix (Fin.castAdd b) id, d.D.submatrix (Fin.castAdd b) id, d.Q, d.R.submatrix (Fin.castAdd b) (Fin.castAdd b)⟩
/-- See `first`. -/
def LinModel.second (d : LinModel n (a + b) p) : LinModel n b p :=
  ⟨1, 0, d.C.submatrix (Fin.natAdd a) id, d.D.submatrix (Fin.natAdd a) id, 0, d.R.submatrix (Fin.natAdd a) (Fin.natAdd a)⟩

theorem first_ok {d : LinModel n (a + b) p} (hd : d.Ok) : d.first.Ok := ⟨hd.1, hd.2.submatrix (Fin.castAdd_injective a b)⟩
theorem second_ok {d : LinModel n (a + b) p} (hd : d.Ok) : d.second.Ok := ⟨PosSemidef.zero, hd.2.submatrix (Fin.natAdd_injective b a)⟩

theorem linStep_split (d : LinModel n (a + b) p) (hd : d.Ok) (h12 : ∀ i j, d.R (Fin.castAdd b i) (Fin.natAdd a j) = 0) (i : StepIn (a + b) p)
    (v : Fin p → ℝ) (x : Fin n → ℝ) {P : Matrix (Fin n) (Fin n) ℝ} (hP : P.PosSemidef) :
    linStep d.second ⟨v, i.u', fun j => i.y (Fin.natAdd a j)⟩ (linStep d.first ⟨i.u, i.u', fun j => i.y (Fin.castAdd b j)⟩ (x, P)) =
      linStep d i (x, P) := by
  set M := predCov d.A d.Q P with hM
  have hMp : M.PosSemidef := predCov_psd hd.1 hP
  set C1 := d.first.C with hC1
  set C2 := d.second.C with hC2
  set K1 := gain C1 d.first.R M with hK1
  set P1 := posterior C1 d.first.R M with hP1
  have hP1p : P1.PosSemidef := posterior_psd (first_ok hd).2 hMp
  have hM2 : predCov d.second.A d.second.Q P1 = P1 := by simp [predCov, LinModel.second]
  set K2 := gain C2 d.second.R P1 with hK2
  have n1 : K1 * (C1 * M * C1ᵀ + d.first.R) = M * C1ᵀ := gain_normal (first_ok hd).2 hMp
  have n2 : K2 * (C2 * P1 * C2ᵀ + d.second.R) = P1 * C2ᵀ := gain_normal (second_ok hd).2 hP1p
  have hP1e : P1 = M - K1 * C1 * M := by rw [hP1, posterior, Matrix.sub_mul, Matrix.one_mul]
  set L : Matrix (Fin n) (Fin a) ℝ := (1 - K2 * C2) * K1 with hL
  set K : Matrix (Fin n) (Fin (a + b)) ℝ := Matrix.of fun r => Fin.addCases (fun j => L r j) (fun j => K2 r j) with hK
  have k1 : K.submatrix id (Fin.castAdd b) = L := by ext r j; simp [hK]
  have k2 : K.submatrix id (Fin.natAdd a) = K2 := by ext r j; simp [hK]
  have h21 : ∀ i j, d.R (Fin.natAdd a j) (Fin.castAdd b i) = 0 := fun i j => by
    have := hd.2.isHermitian.apply (Fin.castAdd b i) (Fin.natAdd a j)
    simpa [h12] using this
  have hg : gain d.C d.R M = K := by
    refine gain_unique hd.2 hMp _ ?_
    have s11 : (innovCov d.C d.R M).submatrix (Fin.castAdd b) (Fin.castAdd b) = C1 * M * C1ᵀ + d.first.R := by
      ext r j; simp [innovCov, hC1, LinModel.first, Matrix.mul_apply]
    have s12 : (innovCov d.C d.R M).submatrix (Fin.castAdd b) (Fin.natAdd a) = C1 * M * C2ᵀ := by
      ext r j; simp [innovCov, hC1, hC2, LinModel.first, LinModel.second, Matrix.mul_apply, h12]
    have s21 : (innovCov d.C d.R M).submatrix (Fin.natAdd a) (Fin.castAdd b) = C2 * M * C1ᵀ := by
      ext r j; simp [innovCov, hC1, hC2, LinModel.first, LinModel.second, Matrix.mul_apply, h21]
    have s22 : (innovCov d.C d.R M).submatrix (Fin.natAdd a) (Fin.natAdd a) = C2 * M * C2ᵀ + d.second.R := by
      ext r j; simp [innovCov, hC2, LinModel.second, Matrix.mul_apply]
    have e1 : L * (C1 * M * C1ᵀ + d.first.R) + K2 * (C2 * M * C1ᵀ) = M * C1ᵀ := by
      rw [hL, Matrix.mul_assoc (1 - K2 * C2), n1, Matrix.sub_mul, Matrix.one_mul]
      simp only [Matrix.mul_assoc, sub_add_cancel]
    have e2 : L * (C1 * M * C2ᵀ) + K2 * (C2 * M * C2ᵀ + d.second.R) = M * C2ᵀ := by
      have e3 : C2 * M * C2ᵀ + d.second.R = (C2 * P1 * C2ᵀ + d.second.R) + C2 * (K1 * C1 * M) * C2ᵀ := by
        rw [hP1e, Matrix.mul_sub, Matrix.sub_mul]; abel
      rw [hL, e3, Matrix.mul_add, n2, hP1e, Matrix.sub_mul, Matrix.sub_mul, Matrix.sub_mul, Matrix.one_mul]
      simp only [Matrix.mul_assoc]
      abel
    ext r j
    refine Fin.addCases (fun j => ?_) (fun j => ?_) j
    · have := congrFun (congrFun e1 r) j
      rw [← k1, ← k2, ← s11, ← s21] at this
      rw [mul_split]
      simp only [Matrix.mul_apply, Matrix.add_apply, submatrix_apply, id, transpose_apply] at this ⊢
      rw [this]
      rfl
    · have := congrFun (congrFun e2 r) j
      rw [← k1, ← k2, ← s12, ← s22] at this
      rw [mul_split]
      simp only [Matrix.mul_apply, Matrix.add_apply, submatrix_apply, id, transpose_apply] at this ⊢
      rw [this]
      rfl
  have hKC : K * d.C = L * C1 + K2 * C2 := by rw [mul_split, k1, k2]; rfl
  have hKv : ∀ v : Fin (a + b) → ℝ, K *ᵥ v = L *ᵥ (fun j => v (Fin.castAdd b j)) + K2 *ᵥ (fun j => v (Fin.natAdd a j)) := by
    intro v
    rw [← k1, ← k2]
    ext r
    simp only [mulVec, dotProduct, Pi.add_apply, Fin.sum_univ_add, submatrix_apply, id]
  set xb := predState d i.u x with hxb
  have hl : linStep d.first ⟨i.u, i.u', fun j => i.y (Fin.castAdd b j)⟩ (x, P) =
      (xb + K1 *ᵥ ((fun j => i.y (Fin.castAdd b j)) - predMeas d.first i.u' xb), P1) := rfl
  rw [hl]
  have hr : linStep d i (x, P) = (xb + K *ᵥ (i.y - predMeas d i.u' xb), (1 - K * d.C) * M) := by rw [← hg]; rfl
  rw [hr]
  have hp : ∀ z, predState d.second v z = z := fun z => by simp [predState, LinModel.second]
  simp only [linStep, hM2, hp]
  refine Prod.ext ?_ ?_
  · simp only
    rw [hKv]
    have y1 : (fun j => (i.y - predMeas d i.u' xb) (Fin.castAdd b j)) = (fun j => i.y (Fin.castAdd b j)) - predMeas d.first i.u' xb := rfl
    have y2 : (fun j => (i.y - predMeas d i.u' xb) (Fin.natAdd a j)) = (fun j => i.y (Fin.natAdd a j)) - predMeas d.second i.u' xb := rfl
    rw [y1, y2]
    set r1 := (fun j => i.y (Fin.castAdd b j)) - predMeas d.first i.u' xb with hr1
    have e : ∀ q, predMeas d.second i.u' (xb + q) = predMeas d.second i.u' xb + C2 *ᵥ q := fun q => by
      simp only [predMeas, mulVec_add, ← hC2]; abel
    rw [e, ← sub_sub, mulVec_sub K2, hL, Matrix.sub_mul, Matrix.one_mul, Matrix.sub_mulVec, mulVec_mulVec, mulVec_mulVec, Matrix.mul_assoc]
    abel
  · simp only
    show (1 - K2 * C2) * P1 = (1 - K * d.C) * M
    rw [hKC, hP1e, hL]
    have : (1 : Matrix (Fin n) (Fin n) ℝ) - ((1 - K2 * C2) * K1 * C1 + K2 * C2) = (1 - K2 * C2) - (1 - K2 * C2) * (K1 * C1) := by
      rw [Matrix.mul_assoc]; abel
    rw [this, Matrix.sub_mul (1 - K2 * C2), Matrix.mul_sub, Matrix.mul_assoc (1 - K2 * C2) (K1 * C1)]

end StateObs.KFSpec

namespace StateObs.LKF
open StateObs Matrix KFSpec KF
variable {n n' m p a b : ℕ}

/-- **C121**, coordinates. A filter `s'` estimates `T x` where the filter `s` estimates `x`: its model follows by the change of coordinates `T` of
the state – time-varying (a moving frame), not necessarily invertible (a part of the state, a larger state) – and `U`, invertible, of the
measurements (units, order, combinations). Then its estimates are the images of the estimates of `s` at all times, and its covariances too. -/
theorem C121_coordinates (s s' : KFilter Ext) (x : Fin n → ℝ) (P : Matrix (Fin n) (Fin n) ℝ) (k k' : Int)
    (T : ℕ → Matrix (Fin n') (Fin n) ℝ) (U : ℕ → Matrix (Fin m) (Fin m) ℝ) (hs : InUse s n m p x P k)
    (hs' : InUse s' n' m p (T 0 *ᵥ x) (T 0 * P * (T 0)ᵀ) k') (hP : P.PosSemidef) (d : ℕ → LinModel n m p) (d' : ℕ → LinModel n' m p)
    (h : ∀ N, Maps (T N) (T (N + 1)) (U N) (d N) (d' N)) (hU : ∀ N, IsUnit (U N).det) (hd : ∀ N, (d N).Ok)
    (i i' : ℕ → StepIn m p) (hi : ∀ N, (i' N).u = (i N).u ∧ (i' N).u' = (i N).u' ∧ (i' N).y = U N *ᵥ (i N).y) (N : ℕ) :
    ∃ t t' xN PN, cycles d i s N = .ok t ∧ cycles d' i' s' N = .ok t' ∧ t.x = some (⟨n, xN⟩, k + N) ∧ t.st.pr = ⟨n, n, PN⟩ ∧
      t'.x = some (⟨n', T N *ᵥ xN⟩, k' + N) ∧ t'.st.pr = ⟨n', n', T N * PN * (T N)ᵀ⟩ := by
  have hTP : (T 0 * P * (T 0)ᵀ).PosSemidef := by
    have := hP.mul_mul_conjTranspose_same (T 0)
    rwa [conjTranspose_eq_transpose_of_trivial] at this
  have hd' : ∀ N, (d' N).Ok := fun N => by
    refine ⟨?_, ?_⟩
    · rw [(h N).Q]
      have := (hd N).1.mul_mul_conjTranspose_same (T (N + 1))
      rwa [conjTranspose_eq_transpose_of_trivial] at this
    · rw [(h N).R]
      have hu : Function.Injective (U N).vecMul := Matrix.vecMul_injective_of_isUnit ((Matrix.isUnit_iff_isUnit_det _).2 (hU N))
      have := (hd N).2.mul_mul_conjTranspose_same hu
      rwa [conjTranspose_eq_transpose_of_trivial] at this
  obtain ⟨t, h1, h2⟩ := C20_run s x P k hs hP d hd i N
  obtain ⟨t', h3, h4⟩ := C20_run s' _ _ k' hs' hTP d' hd' i' N
  have e : i' = fun N => ⟨(i N).u, (i N).u', U N *ᵥ (i N).y⟩ := funext fun N => by
    obtain ⟨e1, e2, e3⟩ := hi N
    rw [← e1, ← e2, ← e3]
  rw [e, run_maps T U d d' h hU hd hd' i x hP N] at h4
  exact ⟨t, t', _, _, h1, h3, h2.x, h2.pr, h4.x, h4.pr⟩

/-- **C121**, several sensors. The measurements of a filter `s` are those of two groups of sensors with independent noises. Using them together is
the same as using the first group with a filter `s1`, then the second group with a filter `s2` that starts from the estimate and covariance of
`s1`, with the identity as state matrix, no process noise, no effect of the inputs on the state. -/
theorem C121_sequential (s s1 s2 : KFilter Ext) (x : Fin n → ℝ) (P : Matrix (Fin n) (Fin n) ℝ) (k k1 k2 : Int) (hP : P.PosSemidef)
    (d : LinModel n (a + b) p) (hd : d.Ok) (h12 : ∀ i j, d.R (Fin.castAdd b i) (Fin.natAdd a j) = 0) (i : StepIn (a + b) p) (v : Fin p → ℝ)
    (hs : InUse s n (a + b) p x P k) (hs1 : InUse s1 n a p x P k1) :
    ∃ t t1 x1 P1, cycles (fun _ => d) (fun _ => i) s 1 = .ok t ∧
      cycles (fun _ => ⟨d.A, d.B, fun r c => d.C (Fin.castAdd b r) c, fun r c => d.D (Fin.castAdd b r) c, d.Q,
        fun r c => d.R (Fin.castAdd b r) (Fin.castAdd b c)⟩) (fun _ => ⟨i.u, i.u', fun j => i.y (Fin.castAdd b j)⟩) s1 1 = .ok t1 ∧
      t1.x = some (⟨n, x1⟩, k1 + 1) ∧ t1.st.pr = ⟨n, n, P1⟩ ∧
      (InUse s2 n b p x1 P1 k2 → ∃ t2 xN PN,
        cycles (fun _ => ⟨1, 0, fun r c => d.C (Fin.natAdd a r) c, fun r c => d.D (Fin.natAdd a r) c, 0,
          fun r c => d.R (Fin.natAdd a r) (Fin.natAdd a c)⟩) (fun _ => ⟨v, i.u', fun j => i.y (Fin.natAdd a j)⟩) s2 1 = .ok t2 ∧
        t.x = some (⟨n, xN⟩, k + 1) ∧ t.st.pr = ⟨n, n, PN⟩ ∧ t2.x = some (⟨n, xN⟩, k2 + 1) ∧ t2.st.pr = ⟨n, n, PN⟩) := by
  obtain ⟨t, h1, h2⟩ := C20_run s x P k hs hP (fun _ => d) (fun _ => hd) (fun _ => i) 1
  obtain ⟨t1, h3, h4⟩ := C20_run s1 x P k1 hs1 hP (fun _ => d.first) (fun _ => first_ok hd)
    (fun _ => ⟨i.u, i.u', fun j => i.y (Fin.castAdd b j)⟩) 1
  refine ⟨t, t1, _, _, h1, h3, h4.x, h4.pr, fun hs2 => ?_⟩
  obtain ⟨t2, h5, h6⟩ := C20_run s2 _ _ k2 hs2 (linRun_psd _ (fun _ => first_ok hd) _ _ hP 1) (fun _ => d.second) (fun _ => second_ok hd)
    (fun _ => ⟨v, i.u', fun j => i.y (Fin.natAdd a j)⟩) 1
  have e := linStep_split d hd h12 i v x hP
  refine ⟨t2, _, _, h5, h2.x, h2.pr, ?_, ?_⟩
  · have := h6.x
    simp only [linRun] at this ⊢
    rw [this]
    exact congrArg (fun z => some ((⟨n, z⟩ : DVec), k2 + 1)) (congrArg Prod.fst e)
  · have := h6.pr
    simp only [linRun] at this ⊢
    rw [this]
    exact congrArg (fun z => (⟨n, n, z⟩ : DMat)) (congrArg Prod.snd e)

/-- **C121**, order of the sensors. Reordering the components of the measurements, with the rows of the observation and feedthrough matrices and the
rows and columns of the measurement covariance, changes neither the estimates nor the covariances. -/
theorem C121_order (s s' : KFilter Ext) (x : Fin n → ℝ) (P : Matrix (Fin n) (Fin n) ℝ) (k : Int) (σ : ℕ → Equiv.Perm (Fin m))
    (hs : InUse s n m p x P k) (hs' : InUse s' n m p x P k) (hP : P.PosSemidef) (d : ℕ → LinModel n m p) (hd : ∀ N, (d N).Ok)
    (i : ℕ → StepIn m p) (N : ℕ) :
    ∃ t t', cycles d i s N = .ok t ∧
      cycles (fun N => ⟨(d N).A, (d N).B, (d N).C.submatrix (σ N) id, (d N).D.submatrix (σ N) id, (d N).Q,
        (d N).R.submatrix (σ N) (σ N)⟩) (fun N => ⟨(i N).u, (i N).u', fun r => (i N).y (σ N r)⟩) s' N = .ok t' ∧
      t'.x = t.x ∧ t'.st.pr = t.st.pr := by
  have hσ : ∀ N, IsUnit ((σ N).permMatrix ℝ).det := fun N => by
    rw [det_permutation]
    rcases Int.units_eq_one_or (Equiv.Perm.sign (σ N)) with h | h <;> simp [h]
  have hm : ∀ (N : ℕ) {q : ℕ} (M : Matrix (Fin m) (Fin q) ℝ), (σ N).permMatrix ℝ * M = M.submatrix (σ N) id := fun N q M =>
    PEquiv.toMatrix_toPEquiv_mul (σ N) M
  have hmt : ∀ (N : ℕ) (M : Matrix (Fin m) (Fin m) ℝ), M * ((σ N).permMatrix ℝ)ᵀ = M.submatrix id (σ N) := fun N M => by
    rw [← Matrix.transpose_transpose M, ← Matrix.transpose_mul, hm]
    rfl
  obtain ⟨t, t', xN, PN, h1, h2, h3, h4, h5, h6⟩ := C121_coordinates s s' x P k k (fun _ => 1) (fun N => (σ N).permMatrix ℝ) hs
    (by simpa using hs') hP d
    (fun N => ⟨(d N).A, (d N).B, (d N).C.submatrix (σ N) id, (d N).D.submatrix (σ N) id, (d N).Q, (d N).R.submatrix (σ N) (σ N)⟩)
    (fun N => ⟨by simp, by simp, by rw [hm, Matrix.mul_one], by rw [hm], by simp, by rw [hm, hmt, submatrix_submatrix]; rfl⟩) hσ hd i
    (fun N => ⟨(i N).u, (i N).u', fun r => (i N).y (σ N r)⟩) (fun N => ⟨rfl, rfl, by rw [permMatrix_mulVec]; rfl⟩) N
  refine ⟨t, t', h1, h2, ?_, ?_⟩
  · rw [h5, h3]; simp
  · rw [h6, h4]; simp

/-- The hypotheses of `C121_coordinates` are met by a change of units of state and measurements. -/
example : ∃ (d d' : LinModel 1 1 0), d.Ok ∧ d'.Ok ∧ Maps !![2] !![2] !![3] d d' ∧ IsUnit (!![3] : Matrix (Fin 1) (Fin 1) ℝ).det := by
  refine ⟨⟨1, 0, !![1], 0, 1, 1⟩, ⟨1, 0, !![3 / 2], 0, !![4], !![9]⟩, ⟨.one, .one⟩, ⟨?_, ?_⟩, ⟨?_, ?_, ?_, ?_, ?_, ?_⟩, ?_⟩
  · rw [show (!![4] : Matrix (Fin 1) (Fin 1) ℝ) = (4 : ℝ) • 1 by ext i j; fin_cases i; fin_cases j; simp]
    exact PosSemidef.one.smul (by norm_num)
  · rw [show (!![9] : Matrix (Fin 1) (Fin 1) ℝ) = (9 : ℝ) • 1 by ext i j; fin_cases i; fin_cases j; simp]
    exact PosDef.one.smul (by norm_num)
  · simp
  · simp
  · ext i j; fin_cases i; fin_cases j; simp
  · simp
  · ext i j; fin_cases i; fin_cases j; simp [Matrix.vecMul, dotProduct]; norm_num
  · ext i j; fin_cases i; fin_cases j; simp [Matrix.vecMul, dotProduct]; norm_num
  · simp

/-- They are met by a part of the state that evolves and is measured alone: the first component of two. -/
example : ∃ (d : LinModel 2 1 0) (d' : LinModel 1 1 0), d.Ok ∧ d'.Ok ∧ Maps !![1, 0] !![1, 0] 1 d d' := by
  refine ⟨⟨!![1, 0; 5, 1], 0, !![7, 0], 0, 1, 1⟩, ⟨1, 0, !![7], 0, 1, 1⟩, ⟨.one, .one⟩, ⟨.one, .one⟩, ⟨?_, ?_, ?_, ?_, ?_, ?_⟩⟩
  · ext i j; fin_cases i; fin_cases j <;> simp
  · simp
  · ext i j; fin_cases i; fin_cases j <;> simp
  · simp
  · ext i j; fin_cases i; fin_cases j; simp [Matrix.vecMul, dotProduct]
  · simp

/-- The hypothesis of `C121_sequential` is met by sensors with independent noises. -/
example : ∃ d : LinModel 1 (1 + 1) 0, d.Ok ∧ ∀ i j, d.R (Fin.castAdd 1 i) (Fin.natAdd 1 j) = 0 :=
  ⟨⟨1, 0, fun _ _ => 1, 0, 1, 1⟩, ⟨.one, .one⟩, fun i j => by fin_cases i; fin_cases j; rfl⟩

end StateObs.LKF
