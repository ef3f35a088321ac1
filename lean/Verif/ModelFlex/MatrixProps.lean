import Verif.ModelFlex.GuessProps
import Verif.Flex.Props
import Verif.Kin.OriLemmas
/-!
# C107: the flexibility as a homogeneous matrix
-/

namespace StateObs
open StateObs KF Imu Rot Kine Matrix Obs
open StateObs.Elastic (at1)

/-- The homogeneous matrix of the pose of a flexibility vector: position at the entries 0 to 2, rotation vector at the entries 3 to 5 (no rotation below 1e-16). -/
structure PoseMatrix (x : ℕ → ℝ) (M : Matrix (Fin 4) (Fin 4) ℝ) : Prop where
  translation : M 0 3 = x 0 ∧ M 1 3 = x 1 ∧ M 2 3 = x 2
  rotation : ∀ i j : Fin 3, M i.castSucc j.castSucc = (if nrm ![x 3, x 4, x 5] ≤ 1e-16 then (1 : M3) else NormedSpace.exp (hat ![x 3, x 4, x 5])) i j
  bottom : M 3 = ![0, 0, 0, 1]

theorem poseMatrix_of {n : ℕ} (h : 6 ≤ n) (x : Fin n → ℝ) : PoseMatrix (at1 ⟨n, x⟩) (vector6ToHomogeneousMatrix (seg 3 x 0) (seg 3 x 3)) := by
  have hp : ∀ i : Fin 3, seg 3 x 0 i = at1 ⟨n, x⟩ i.val := fun i => by simp [seg, at1]
  have ho : seg 3 x 3 = ![at1 ⟨n, x⟩ 3, at1 ⟨n, x⟩ 4, at1 ⟨n, x⟩ 5] := by
    funext i
    fin_cases i <;> simp [seg, at1]
  refine ⟨⟨?_, ?_, ?_⟩, fun i j => ?_, ?_⟩
  · simp [vector6ToHomogeneousMatrix, homo, hp]
  · simp [vector6ToHomogeneousMatrix, homo, hp]
  · simp [vector6ToHomogeneousMatrix, homo, hp]
  · have e : (rotationVectorToAngleAxis (seg 3 x 3)).toMat = vecRot (seg 3 x 3) := vecRot_eq _
    rw [vector6ToHomogeneousMatrix, e, ho]
    show _ = vecRot _ i j
    fin_cases i <;> fin_cases j <;> rfl
  · funext i
    fin_cases i <;> rfl

theorem PoseMatrix.unique {x : ℕ → ℝ} {M N : Matrix (Fin 4) (Fin 4) ℝ} (h : PoseMatrix x M) (h' : PoseMatrix x N) : M = N := by
  obtain ⟨⟨a0, a1, a2⟩, r, b⟩ := h
  obtain ⟨⟨c0, c1, c2⟩, r', b'⟩ := h'
  have hr : ∀ i j : Fin 3, M i.castSucc j.castSucc = N i.castSucc j.castSucc := fun i j => by rw [r, r']
  have hb : M 3 = N 3 := by rw [b, b']
  ext i j
  fin_cases i <;> fin_cases j <;>
    first
      | exact congrFun hb _
      | exact a0.trans c0.symm
      | exact a1.trans c1.symm
      | exact a2.trans c2.symm
      | exact hr 0 0
      | exact hr 0 1
      | exact hr 0 2
      | exact hr 1 0
      | exact hr 1 1
      | exact hr 1 2
      | exact hr 2 0
      | exact hr 2 1
      | exact hr 2 2

/-- **C107** Elastic contacts: `getFlexibility` makes the estimation of `getFlexibilityVector`, and returns the matrix of its pose. -/
theorem C107_elastic {mem : ℕ → ℕ → ℕ → ℝ} {dt : ℝ} {ops : List ModelFlex.Op} {s : ModelFlex.Est} (h : ModelFlex.run mem dt ops = .ok s) (M : Matrix (Fin 4) (Fin 4) ℝ) (t : ModelFlex.Est) :
    s.getFlexibility = .ok (M, t) ↔ s.getFlexibilityVector = .ok t ∧ PoseMatrix (at1 t.lastX) M := by
  have key : ∀ t', s.getFlexibilityVector = .ok t' → ∃ N, s.getFlexibility = .ok (N, t') ∧ PoseMatrix (at1 t'.lastX) N := by
    intro t' ht
    obtain ⟨x, hx⟩ := (ModelFlex.inv_exec (ModelFlex.inv_run h) .getFlexibilityVector ht).lastX
    refine ⟨_, ?_, by rw [hx]; exact poseMatrix_of (by omega) x⟩
    simp only [ModelFlex.Est.getFlexibility, ht, Res.ok_bind]
    rw [dif_pos (by rw [hx])]
    congr 2
    have : ∀ (v : DVec) (e : v.size = 35), v = ⟨35, x⟩ → (fun i => v.val (Fin.cast e.symm i)) = x := by
      rintro v e rfl
      rfl
    rw [this _ (by rw [hx]) hx]
  constructor
  · intro e
    have e' := e
    simp only [ModelFlex.Est.getFlexibility, Res.bind_eq_ok] at e'
    obtain ⟨t', h1, h2⟩ := e'
    obtain ⟨N, e2, hN⟩ := key t' h1
    cases e.symm.trans e2
    exact ⟨h1, hN⟩
  · rintro ⟨h1, h2⟩
    obtain ⟨N, e2, hN⟩ := key t h1
    rw [e2, h2.unique hN]

/-- **C107** Fixed contacts. -/
theorem C107_fixed {dt : ℝ} {ops : List Flex.Op} {s : Flex.Fixed} (h : Flex.run dt ops = .ok s) (M : Matrix (Fin 4) (Fin 4) ℝ) (t : Flex.Fixed) :
    s.getFlexibility = .ok (M, t) ↔ s.getFlexibilityVector = .ok t ∧ PoseMatrix (at1 t.lastX) M := by
  have key : ∀ t', s.getFlexibilityVector = .ok t' → ∃ N, s.getFlexibility = .ok (N, t') ∧ PoseMatrix (at1 t'.lastX) N := by
    intro t' ht
    obtain ⟨x, hx⟩ := (Flex.inv_exec (Flex.run_inv h) .getFlexibilityVector ht).lastX
    refine ⟨_, ?_, by rw [hx]; exact poseMatrix_of (by omega) x⟩
    simp only [Flex.Fixed.getFlexibility, ht, Res.ok_bind]
    rw [dif_pos (by rw [hx])]
    congr 2
    have : ∀ (v : DVec) (e : v.size = 18), v = ⟨18, x⟩ → (fun i => v.val (Fin.cast e.symm i)) = x := by
      rintro v e rfl
      rfl
    rw [this _ (by rw [hx]) hx]
  constructor
  · intro e
    have e' := e
    simp only [Flex.Fixed.getFlexibility, Res.bind_eq_ok] at e'
    obtain ⟨t', h1, h2⟩ := e'
    obtain ⟨N, e2, hN⟩ := key t' h1
    cases e.symm.trans e2
    exact ⟨h1, hN⟩
  · rintro ⟨h1, h2⟩
    obtain ⟨N, e2, hN⟩ := key t h1
    rw [e2, h2.unique hN]

theorem poseMatrix_zero (n : ℕ) : PoseMatrix (at1 (DVec.zero n)) 1 := by
  have hz : ∀ i, at1 (DVec.zero n) i = 0 := fun i => by by_cases h : i < n <;> simp [at1, DVec.zero, h]
  have hn : nrm ![(0 : ℝ), 0, 0] = 0 := by simp [nrm]
  refine ⟨⟨?_, ?_, ?_⟩, fun i j => ?_, ?_⟩
  · rw [hz]; rfl
  · rw [hz]; rfl
  · rw [hz]; rfl
  · rw [hz, hz, hz, hn, if_pos (by norm_num)]
    fin_cases i <;> fin_cases j <;> simp
  · funext i
    fin_cases i <;> rfl

/-- **C107** Before any measurement both return the identity. -/
theorem C107_initial (mem : ℕ → ℕ → ℕ → ℝ) (dt : ℝ) :
    (∃ s, ModelFlex.run mem dt [] = .ok s ∧ s.getFlexibility = .ok (1, s)) ∧ ∃ s, Flex.run dt [] = .ok s ∧ s.getFlexibility = .ok (1, s) := by
  constructor
  · obtain ⟨s, e, -, hon, -, -, -, -, -, hx, -, hy, -⟩ := ModelFlex.ctor_eq mem dt
    have h : ModelFlex.run mem dt [] = .ok s := by rw [ModelFlex.run, e]; rfl
    refine ⟨s, h, (C107_elastic h 1 s).2 ⟨ModelFlex.getVector_idle hon hy, ?_⟩⟩
    rw [hx]
    exact poseMatrix_zero 35
  · obtain ⟨s, e, -, -, -, -, -, -, -, -, hx, -, -, hy, -⟩ := Flex.ctor_eq dt
    have h : Flex.run dt [] = .ok s := by rw [Flex.run, e]; rfl
    refine ⟨s, h, (C107_fixed h 1 s).2 ⟨?_, ?_⟩⟩
    · rw [Flex.Fixed.getFlexibilityVector, if_neg (by simp [IArr.size, hy])]
    · rw [hx]
      exact poseMatrix_zero 18

end StateObs
