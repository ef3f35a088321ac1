import Verif.Noise.Model
import Verif.Lipm.Blocks
import Mathlib.MeasureTheory.Integral.Bochner.Basic
/-!
# Property C67: the noise has the requested mean and covariance
-/

namespace StateObs.Noise
open Matrix StateObs MeasureTheory

theorem lltLower_eq : ∀ (n : ℕ) (S O L : Matrix (Fin n) (Fin n) ℝ), chol n S = some L → lltLower n S O = L
  | 0, _, _, L, h => by cases h; rfl
  | n + 1, S, O, L, h => by
    rw [chol] at h
    by_cases h0 : S 0 0 ≤ 0
    · rw [if_pos h0] at h; cases h
    · rw [if_neg h0] at h
      simp only [Option.map_eq_some_iff] at h
      obtain ⟨L', h1, h2⟩ := h
      rw [lltLower, if_neg h0]
      simp only []
      have e := lltLower_eq n _ (fun i j => O i.succ j.succ) L' h1
      refine Eq.trans ?_ h2
      exact congrArg (fun z : Matrix (Fin n) (Fin n) ℝ => Matrix.of (Fin.cons (Fin.cons (Real.sqrt (S 0 0)) 0) fun i =>
        Fin.cons (S i.succ 0 / Real.sqrt (S 0 0)) (z i))) e

/-- **C67** For any object, whatever was called before (with the default sum): after `setCovarianceMatrix(P)` with `P` symmetric positive definite and
`setBias(b)`, the noisy vector is `v + (L g + b)` for one matrix `L` with `L Lᵀ = P`. -/
theorem C67_factor (n : ℕ) (s : GWN) (hn : s.dim = n) (hs : s.sum = DVec.add)
    (P : Matrix (Fin n) (Fin n) ℝ) (hP : P.PosDef) (b : Fin n → ℝ) : ∃ (L : Matrix (Fin n) (Fin n) ℝ) (s' : GWN), L * Lᵀ = P ∧
    run s [.setCovarianceMatrix ⟨n, n, P⟩, .setBias ⟨n, b⟩] = .ok s' ∧
    ∀ (v : Fin n → ℝ) (g : ℕ → ℝ), getNoisy s' ⟨n, v⟩ g = .ok ⟨n, v + (L *ᵥ (fun i => g i) + b)⟩ := by
  subst hn
  obtain ⟨L, h1, h2, -, -⟩ := chol_spec s.dim P hP
  refine ⟨L, { s with std := ⟨s.dim, s.dim, L⟩, bias := ⟨s.dim, b⟩ }, h2, ?_, ?_⟩
  · have e : lltLower s.dim (P.submatrix id (Fin.cast rfl)) (P.submatrix id (Fin.cast rfl)) = L := lltLower_eq _ _ _ _ h1
    simp only [run, exec, setCovarianceMatrix, setBias, DMat.hasSize_mk, DVec.hasSize_mk, Res.assert, lltL, dif_pos, e, if_true, Res.ok_bind]
  · intro v g
    simp only [getNoisy, DVec.hasSize_mk, Res.assert, if_true, Res.ok_bind, getGaussianVector, DMat.mulVec_mk, DVec.add_mk, hs]

/-- **C67** The mean and the covariance of the noise: if the numbers drawn are centered, of variance one and uncorrelated, the noise has mean `b` and
covariance `P`. -/
theorem C67_moments (n : ℕ) (s : GWN) (hn : s.dim = n) (hs : s.sum = DVec.add)
    (P : Matrix (Fin n) (Fin n) ℝ) (hP : P.PosDef) (b v : Fin n → ℝ) {Ω : Type} [MeasurableSpace Ω] (μ : Measure Ω) [IsProbabilityMeasure μ]
    (g : Ω → ℕ → ℝ) (hi : ∀ i : Fin n, Integrable (fun ω => g ω i) μ) (hm : ∀ i : Fin n, ∫ ω, g ω i ∂μ = 0)
    (hi2 : ∀ i j : Fin n, Integrable (fun ω => g ω i * g ω j) μ) (hc : ∀ i j : Fin n, ∫ ω, g ω i * g ω j ∂μ = if i = j then 1 else 0) :
    ∃ (s' : GWN) (y : Ω → Fin n → ℝ), run s [.setCovarianceMatrix ⟨n, n, P⟩, .setBias ⟨n, b⟩] = .ok s' ∧
      (∀ ω, getNoisy s' ⟨n, v⟩ (g ω) = .ok ⟨n, y ω⟩) ∧
      (∀ i, ∫ ω, (y ω i - v i) ∂μ = b i) ∧
      (∀ i j, ∫ ω, (y ω i - v i - b i) * (y ω j - v j - b j) ∂μ = P i j) := by
  obtain ⟨L, s', hL, hr, hy⟩ := C67_factor n s hn hs P hP b
  refine ⟨s', fun ω => v + (L *ᵥ (fun i : Fin n => g ω i) + b), hr, fun ω => hy v (g ω), ?_, ?_⟩
  · intro i
    have e : ∀ ω, (v + (L *ᵥ (fun i : Fin n => g ω i) + b)) i - v i = (∑ j, L i j * g ω j) + b i := by
      intro ω
      simp only [Pi.add_apply, mulVec, dotProduct]; ring
    simp only [e]
    rw [integral_add (integrable_finsetSum _ fun (j : Fin n) _ => (hi j).const_mul (L i j)) (integrable_const _),
      integral_finsetSum _ fun (j : Fin n) _ => (hi j).const_mul (L i j)]
    simp only [integral_const_mul, hm]
    simp
  · intro i j
    have e : ∀ ω, ((v + (L *ᵥ (fun i : Fin n => g ω i) + b)) i - v i - b i) * ((v + (L *ᵥ (fun i : Fin n => g ω i) + b)) j - v j - b j) =
        ∑ k, ∑ l, (L i k * L j l) * (g ω k * g ω l) := by
      intro ω
      simp only [Pi.add_apply, mulVec, dotProduct]
      have e1 : ∀ i, v i + (∑ x, L i x * g ω x + b i) - v i - b i = ∑ x, L i x * g ω x := by intro i; ring
      rw [e1, e1, Finset.sum_mul_sum]
      refine Finset.sum_congr rfl fun k _ => Finset.sum_congr rfl fun l _ => by ring
    simp only [e]
    rw [integral_finsetSum _ fun (k : Fin n) _ => integrable_finsetSum _ fun (l : Fin n) _ => (hi2 k l).const_mul (L i k * L j l)]
    have e2 : ∀ k : Fin n, ∫ ω, ∑ l : Fin n, (L i k * L j l) * (g ω k * g ω l) ∂μ = L i k * L j k := by
      intro k
      rw [integral_finsetSum _ fun (l : Fin n) _ => (hi2 k l).const_mul (L i k * L j l)]
      simp only [integral_const_mul, hc]
      simp
    simp only [e2]
    rw [← hL, mul_apply]
    rfl

/-- What the comment of the header promises: any positive semidefinite matrix. -/
def C67_semidefinite_statement : Prop := ∀ (n : ℕ) (P : Matrix (Fin n) (Fin n) ℝ), P.PosSemidef →
  ∃ (L : Matrix (Fin n) (Fin n) ℝ) (s' : GWN), L * Lᵀ = P ∧ setCovarianceMatrix (ctor n) ⟨n, n, P⟩ = .ok s' ∧
    ∀ (v : Fin n → ℝ) (g : ℕ → ℝ), getNoisy s' ⟨n, v⟩ g = .ok ⟨n, v + (L *ᵥ (fun i => g i) + 0)⟩

/-- **C67** It fails for singular matrices: for diag(0, 4) the noise has standard deviation 4. -/
theorem C67_semidefinite_false : ¬C67_semidefinite_statement := by
  intro h
  have hP : (Matrix.diagonal ![(0 : ℝ), 4]).PosSemidef := by
    rw [Blocks.psd_iff]
    refine ⟨diagonal_transpose _, fun x => ?_⟩
    have e : x ⬝ᵥ (Matrix.diagonal ![(0 : ℝ), 4] *ᵥ x) = 4 * (x 1 * x 1) := by
      simp [dotProduct, mulVec_diagonal]; ring
    rw [e]
    have := mul_self_nonneg (x 1)
    linarith
  obtain ⟨L, s', h1, h2, h3⟩ := h 2 _ hP
  have hA : lltLower 2 (Matrix.diagonal ![(0 : ℝ), 4]) (Matrix.diagonal ![(0 : ℝ), 4]) = Matrix.diagonal ![(0 : ℝ), 4] := by
    rw [lltLower, if_pos (by simp)]
    ext i j
    fin_cases i <;> fin_cases j <;> simp
  have e : setCovarianceMatrix (ctor 2) ⟨2, 2, Matrix.diagonal ![(0 : ℝ), 4]⟩ = .ok { ctor 2 with std := ⟨2, 2, Matrix.diagonal ![(0 : ℝ), 4]⟩ } := by
    have e1 : lltL ⟨2, 2, Matrix.diagonal ![(0 : ℝ), 4]⟩ = .ok ⟨2, 2, Matrix.diagonal ![(0 : ℝ), 4]⟩ := by
      rw [lltL, dif_pos rfl]
      exact congrArg (fun z => Res.ok (DMat.mk 2 2 z)) hA
    simp only [setCovarianceMatrix, ctor, DMat.hasSize_mk, Res.assert, if_true, Res.ok_bind, e1]
  rw [e] at h2
  obtain rfl : _ = s' := by cases h2; rfl
  have key : L = Matrix.diagonal ![(0 : ℝ), 4] := by
    have hv : ∀ j : Fin 2, L *ᵥ (fun i : Fin 2 => if (i : ℕ) = j then (1 : ℝ) else 0) =
        Matrix.diagonal ![(0 : ℝ), 4] *ᵥ (fun i : Fin 2 => if (i : ℕ) = j then (1 : ℝ) else 0) := by
      intro j
      have := h3 0 (fun i => if i = j then 1 else 0)
      simp only [getNoisy, ctor, DVec.hasSize_mk, Res.assert, if_true, Res.ok_bind, getGaussianVector, DMat.mulVec_mk, DVec.add_mk] at this
      simpa using this.symm
    ext i j
    have := congrFun (hv j) i
    fin_cases i <;> fin_cases j <;> simpa [mulVec, dotProduct, Fin.sum_univ_succ] using this
  rw [key] at h1
  have := congrFun (congrFun h1 1) 1
  simp at this

/-- C67 is not vacuous: a coin tossed once is such a sequence of length one; matrices `[p]` with `p > 0` are positive definite. -/
example : ∃ (μ : Measure Bool), IsProbabilityMeasure μ ∧ ∫ ω, (if ω then (1 : ℝ) else -1) ∂μ = 0 ∧
    ∫ ω, (if ω then (1 : ℝ) else -1) * (if ω then (1 : ℝ) else -1) ∂μ = 1 := by
  refine ⟨(2⁻¹ : ENNReal) • (Measure.dirac true + Measure.dirac false), ⟨?_⟩, ?_, ?_⟩
  · simp [ENNReal.inv_two_add_inv_two]
  · rw [integral_smul_measure, integral_add_measure (integrable_dirac (by simp)) (integrable_dirac (by simp))]
    simp
  · rw [integral_smul_measure, integral_add_measure (integrable_dirac (by simp)) (integrable_dirac (by simp))]
    simp; norm_num

end StateObs.Noise
