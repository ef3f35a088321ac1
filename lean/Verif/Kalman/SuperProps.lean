import Verif.Kalman.LinProps
/-!
# Property C132: the estimates of the linear Kalman filter depend linearly on the data
-/

namespace StateObs.LKF
open StateObs Matrix KFSpec KF
variable {n m p : ℕ}

/-- The same combination of the data of two runs. -/
def mixData (a b : ℝ) (i j : ℕ → StepIn m p) (N : ℕ) : StepIn m p :=
  ⟨a • (i N).u + b • (j N).u, a • (i N).u' + b • (j N).u', a • (i N).y + b • (j N).y⟩

theorem linRun_cov (d : ℕ → LinModel n m p) (i j : ℕ → StepIn m p) (x y : Fin n → ℝ) (P : Matrix (Fin n) (Fin n) ℝ) (N : ℕ) :
    (linRun d i (x, P) N).2 = (linRun d j (y, P) N).2 := by
  induction N with
  | zero => rfl
  | succ N ih => simp only [linRun, linStep, ih]

theorem linRun_mix (d : ℕ → LinModel n m p) (i j : ℕ → StepIn m p) (x y : Fin n → ℝ) (P : Matrix (Fin n) (Fin n) ℝ) (a b : ℝ) (N : ℕ) :
    (linRun d (mixData a b i j) (a • x + b • y, P) N).1 = a • (linRun d i (x, P) N).1 + b • (linRun d j (y, P) N).1 := by
  induction N with
  | zero => rfl
  | succ N ih =>
    have e1 := linRun_cov d (mixData a b i j) i (a • x + b • y) x P N
    have e2 := linRun_cov d j i y x P N
    simp only [linRun, linStep, ih, e1, e2, predState, predMeas, mixData]
    simp only [mulVec_add, mulVec_sub, mulVec_smul, smul_add, smul_sub]
    abel

/-- **C132**. Three filters with the same models and the same initial covariance, started at any times: the initial estimate, the inputs and the
measurements of the third are combinations, with the same two numbers, of those of the two others. Then all succeed at every time, the
estimates of the third are the same combinations of the estimates of the two others, and the three covariances are equal. -/
theorem C132_superposition (s₁ s₂ s : KFilter Ext) (x₁ x₂ : Fin n → ℝ) (P : Matrix (Fin n) (Fin n) ℝ) (k₁ k₂ k : Int) (a b : ℝ)
    (h₁ : InUse s₁ n m p x₁ P k₁) (h₂ : InUse s₂ n m p x₂ P k₂) (hs : InUse s n m p (a • x₁ + b • x₂) P k) (hP : P.PosSemidef)
    (d : ℕ → LinModel n m p) (hd : ∀ N, (d N).Ok) (i₁ i₂ : ℕ → StepIn m p) (N : ℕ) :
    ∃ t₁ t₂ t z₁ z₂ PN, cycles d i₁ s₁ N = .ok t₁ ∧ cycles d i₂ s₂ N = .ok t₂ ∧
      cycles d (fun N => ⟨a • (i₁ N).u + b • (i₂ N).u, a • (i₁ N).u' + b • (i₂ N).u', a • (i₁ N).y + b • (i₂ N).y⟩) s N = .ok t ∧
      t₁.x = some (⟨n, z₁⟩, k₁ + N) ∧ t₂.x = some (⟨n, z₂⟩, k₂ + N) ∧ t.x = some (⟨n, a • z₁ + b • z₂⟩, k + N) ∧
      t₁.st.pr = ⟨n, n, PN⟩ ∧ t₂.st.pr = ⟨n, n, PN⟩ ∧ t.st.pr = ⟨n, n, PN⟩ := by
  obtain ⟨t₁, e1, e2⟩ := C20_run s₁ x₁ P k₁ h₁ hP d hd i₁ N
  obtain ⟨t₂, e3, e4⟩ := C20_run s₂ x₂ P k₂ h₂ hP d hd i₂ N
  obtain ⟨t, e5, e6⟩ := C20_run s _ P k hs hP d hd (mixData a b i₁ i₂) N
  refine ⟨t₁, t₂, t, _, _, _, e1, e3, e5, e2.x, e4.x, ?_, e2.pr, ?_, ?_⟩
  · rw [e6.x, linRun_mix]
  · rw [e4.pr, linRun_cov d i₂ i₁ x₂ x₁]
  · rw [e6.pr, linRun_cov d _ i₁ _ x₁]

/-- **C132**, the effect of one more disturbance: adding `δy` to the measurements, `δu` to the inputs and `δx` to the initial estimate adds to the
estimates what a filter started at `δx` finds from these alone, whatever the data it is added to. -/
theorem C132_disturbance (s s' s₀ : KFilter Ext) (x δx : Fin n → ℝ) (P : Matrix (Fin n) (Fin n) ℝ) (k : Int)
    (h : InUse s n m p x P k) (h' : InUse s' n m p (x + δx) P k) (h₀ : InUse s₀ n m p δx P k) (hP : P.PosSemidef)
    (d : ℕ → LinModel n m p) (hd : ∀ N, (d N).Ok) (i δ : ℕ → StepIn m p) (N : ℕ) :
    ∃ t t' t₀ z δz, cycles d i s N = .ok t ∧ cycles d δ s₀ N = .ok t₀ ∧
      cycles d (fun N => ⟨(i N).u + (δ N).u, (i N).u' + (δ N).u', (i N).y + (δ N).y⟩) s' N = .ok t' ∧
      t.x = some (⟨n, z⟩, k + N) ∧ t₀.x = some (⟨n, δz⟩, k + N) ∧ t'.x = some (⟨n, z + δz⟩, k + N) := by
  obtain ⟨t, t₀, t', z, δz, _, e1, e2, e3, e4, e5, e6, -⟩ := C132_superposition s s₀ s' x δx P k k k 1 1 h h₀ (by simpa using h') hP d hd i δ N
  simp only [one_smul] at e3 e6
  exact ⟨t, t', t₀, z, δz, e1, e2, e3, e4, e5, e6⟩

/-- The hypotheses are met. -/
example : ∃ s₁ s₂ s : KFilter Ext, InUse s₁ 1 1 1 (fun _ => 3) 1 0 ∧ InUse s₂ 1 1 1 (fun _ => 5) 1 2 ∧
    InUse s 1 1 1 ((2:ℝ) • (fun _ => 3) + (-1:ℝ) • fun _ => 5) 1 7 := by
  obtain ⟨s₁, -, h1⟩ := init_inUse 1 1 1 (fun _ => 3) 1 0
  obtain ⟨s₂, -, h2⟩ := init_inUse 1 1 1 (fun _ => 5) 1 2
  obtain ⟨s, -, h3⟩ := init_inUse 1 1 1 ((2:ℝ) • (fun _ => 3) + (-1:ℝ) • fun _ => 5) 1 7
  exact ⟨s₁, s₂, s, h1, h2, h3⟩

end StateObs.LKF
