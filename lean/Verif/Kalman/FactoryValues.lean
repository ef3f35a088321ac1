import Verif.Kalman.FactoryProps
/-! # Property C128: the entries of the matrices and vectors made by a filter -/

namespace StateObs.KF
open StateObs LKF

/-- **C128**. All the entries of the constant matrices and vectors are the number given, those of the zero ones are zero. -/
theorem C128_values {E : Type} (s : KFilter E) (l : KFilter LKF.Ext) (c : ℝ) :
    (∀ M ∈ [getAmatrixConstant s c, getCmatrixConstant s c, getQmatrixConstant s c, getRmatrixConstant s c, getPmatrixConstant s c,
      getBmatrixConstant l c, getDmatrixConstant l c], ∀ i j, M.val i j = c) ∧
    (∀ M ∈ [getAmatrixZero s, getCmatrixZero s, getQmatrixZero s, getRmatrixZero s, getPmatrixZero s, getBmatrixZero l, getDmatrixZero l],
      ∀ i j, M.val i j = 0) ∧
    (∀ M ∈ [getAmatrixIdentity s, getQmatrixIdentity s, getRmatrixIdentity s, getPmatrixIdentity s],
      ∀ i j, M.val i j = if i.val = j.val then 1 else 0) ∧
    (∀ v ∈ [stateVectorConstant s c, measureVectorConstant s c, inputVectorConstant s c, stateTangentVectorConstant s c,
      measureTangentVectorConstant s c], ∀ i, v.val i = c) ∧
    (∀ v ∈ [stateVectorZero s, measureVectorZero s, inputVectorZero s, stateTangentVectorZero s, measureTangentVectorZero s], ∀ i, v.val i = 0) := by
  refine ⟨?_, ?_, ?_, ?_, ?_⟩ <;> intro M hM <;> simp only [List.mem_cons, List.not_mem_nil, or_false] at hM
  · rcases hM with rfl | rfl | rfl | rfl | rfl | rfl | rfl <;> exact fun _ _ => rfl
  · rcases hM with rfl | rfl | rfl | rfl | rfl | rfl | rfl <;> exact fun _ _ => rfl
  · rcases hM with rfl | rfl | rfl | rfl <;> exact fun _ _ => rfl
  · rcases hM with rfl | rfl | rfl | rfl | rfl <;> exact fun _ => rfl
  · rcases hM with rfl | rfl | rfl | rfl | rfl <;> exact fun _ => rfl

end StateObs.KF
