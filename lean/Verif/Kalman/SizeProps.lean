import Verif.Kalman.Model
/-!
# Property C14: changing a dimension
-/

namespace StateObs.KF
open StateObs
variable {E : Type}

/-- **C14**, state size: a new size drops the state, its covariance and the matrices `A`, `C`, `Q` (whose sizes depend on it), and
nothing else; measurements, inputs and `R` stay. -/
theorem C14_setStateSize (s : KFilter E) (n nt : ℕ) (h : n ≠ s.st.n) :
    setStateSize2 s n nt = { s with x := none, st := { s.st with n := n, nt := nt, a := .empty, c := .empty, q := .empty, pr := .empty } } := by
  rw [setStateSize2, if_pos (Or.inl h)]
  simp only []
  rw [if_pos h]
  rfl

/-- **C14**, tangent size only: the state vector is kept. -/
theorem C14_setTangentSize (s : KFilter E) (nt : ℕ) (h : nt ≠ s.st.nt) :
    setStateSize2 s s.st.n nt = { s with st := { s.st with nt := nt, a := .empty, c := .empty, q := .empty, pr := .empty } } := by
  rw [setStateSize2, if_pos (Or.inr h.symm)]
  simp only []
  rw [if_neg (by simp)]
  rfl

/-- **C14**, the same size: nothing changes. -/
theorem C14_setStateSize_same (s : KFilter E) : setStateSize2 s s.st.n s.st.nt = s := by
  rw [setStateSize2, if_neg (by simp)]

/-- **C14**, measurement size: a new size drops the measurements, `C` and `R`, and nothing else. -/
theorem C14_setMeasureSize (s : KFilter E) (m mt : ℕ) (h : m ≠ s.st.m) :
    setMeasureSize2 s m mt = { s with y := s.y.reset, st := { s.st with m := m, mt := mt, c := .empty, r := .empty } } := by
  rw [setMeasureSize2, if_pos (Or.inl h)]
  simp only []
  rw [if_pos h]
  rfl

/-- **C14**, tangent measurement size only: the measurements are kept. -/
theorem C14_setTangentMeasureSize (s : KFilter E) (mt : ℕ) (h : mt ≠ s.st.mt) :
    setMeasureSize2 s s.st.m mt = { s with st := { s.st with mt := mt, c := .empty, r := .empty } } := by
  rw [setMeasureSize2, if_pos (Or.inr h)]
  simp only []
  rw [if_neg (by simp)]
  rfl

theorem C14_setMeasureSize_same (s : KFilter E) : setMeasureSize2 s s.st.m s.st.mt = s := by
  rw [setMeasureSize2, if_neg (by simp)]

/-- **C14**, input size: a new size drops the inputs and nothing else. -/
theorem C14_setInputSize (s : KFilter E) (p : ℕ) (h : p ≠ s.st.p) :
    setInputSize s p = { s with u := s.u.reset, st := { s.st with p := p } } := by
  rw [setInputSize, if_pos h]
  rfl

theorem C14_setInputSize_same (s : KFilter E) : setInputSize s s.st.p = s := by
  rw [setInputSize, if_neg (by simp)]

/-- **C14**: after a change of a size to a nonzero one, an estimation fails an assertion until the dropped matrices are set again
(whatever state and measurements are set): with an empty `A`, `C`, `Q`, `R` or `P` no step can be performed. -/
theorem C14_no_step_without_matrices (V : Virt E) (s : KFilter E) (hn : 0 < s.st.nt) (hm : 0 < s.st.mt)
    (h : s.st.a = .empty ∨ s.st.c = .empty ∨ s.st.q = .empty ∨ s.st.r = .empty ∨ s.st.pr = .empty) :
    oneStep V s = .assertFail := by
  have e : ∀ r c : ℕ, 0 < r → DMat.empty.hasSize r c = false := by
    intro r c hr
    rw [← Bool.not_eq_true, DMat.empty_hasSize]
    omega
  unfold oneStep
  cases s.x with
  | none => rfl
  | some q =>
    obtain ⟨x, k⟩ := q
    simp only [KData.checkA, KData.checkC, KData.checkQ, KData.checkR, KData.checkP]
    rcases h with h | h | h | h | h <;> simp only [h, e _ _ hn, e _ _ hm, Res.assert_false, Res.assertFail_bind]
    · cases decide (s.y.size > 0) && s.y.checkIndex (k + 1) <;> rfl
    · cases decide (s.y.size > 0) && s.y.checkIndex (k + 1) <;> cases s.st.a.hasSize s.st.nt s.st.nt <;> rfl
    · cases decide (s.y.size > 0) && s.y.checkIndex (k + 1) <;> cases s.st.a.hasSize s.st.nt s.st.nt <;>
        cases s.st.c.hasSize s.st.mt s.st.nt <;> rfl
    · cases decide (s.y.size > 0) && s.y.checkIndex (k + 1) <;> cases s.st.a.hasSize s.st.nt s.st.nt <;>
        cases s.st.c.hasSize s.st.mt s.st.nt <;> cases s.st.q.hasSize s.st.nt s.st.nt <;> rfl
    · cases decide (s.y.size > 0) && s.y.checkIndex (k + 1) <;> cases s.st.a.hasSize s.st.nt s.st.nt <;>
        cases s.st.c.hasSize s.st.mt s.st.nt <;> cases s.st.q.hasSize s.st.nt s.st.nt <;>
        cases s.st.r.hasSize s.st.mt s.st.mt <;> rfl

end StateObs.KF

namespace StateObs.LKF
open StateObs.KF

/-- **C14**, linear filter, state size: `B` is dropped as well. -/
theorem C14_lkf_setStateSize (s : KFilter Ext) (n : ℕ) (h : n ≠ s.st.n) :
    setStateSize s n = { s with x := none, st := { s.st with
      n := n, nt := n, a := .empty, c := .empty, q := .empty, pr := .empty, ext := ⟨.empty, s.st.ext.d⟩ } } := by
  rw [setStateSize, if_pos h, KF.setStateSize, C14_setStateSize _ _ _ h]
  rfl

/-- **C14**, linear filter, measurement size: `D` is dropped as well. -/
theorem C14_lkf_setMeasureSize (s : KFilter Ext) (m : ℕ) (h : m ≠ s.st.m) :
    setMeasureSize s m = { s with y := s.y.reset, st := { s.st with
      m := m, mt := m, c := .empty, r := .empty, ext := ⟨s.st.ext.b, .empty⟩ } } := by
  rw [setMeasureSize, if_pos h, KF.setMeasureSize, C14_setMeasureSize _ _ _ h]
  rfl

/-- **C14**, linear filter, input size: `B` and `D` are dropped as well. -/
theorem C14_lkf_setInputSize (s : KFilter Ext) (p : ℕ) (h : p ≠ s.st.p) :
    setInputSize s p = { s with u := s.u.reset, st := { s.st with p := p, ext := ⟨.empty, .empty⟩ } } := by
  rw [setInputSize, if_pos h, C14_setInputSize _ _ h]
  rfl

/-- **C14**, linear filter, the same size: nothing changes. -/
theorem C14_lkf_same (s : KFilter Ext) :
    setStateSize s s.st.n = s ∧ setMeasureSize s s.st.m = s ∧ setInputSize s s.st.p = s := by
  simp [setStateSize, setMeasureSize, setInputSize]

/-- A filter of sizes 2, 1, 1 whose state size becomes 3: the hypotheses of C14 are met. -/
example : (3 : ℕ) ≠ (LKF.mk 2 1 1).st.n ∧ (LKF.setStateSize (LKF.mk 2 1 1) 3).st.nt = 3 := by
  refine ⟨by simp [LKF.mk, KF.mk], ?_⟩
  rw [C14_lkf_setStateSize _ _ (by simp [LKF.mk, KF.mk])]

end StateObs.LKF
