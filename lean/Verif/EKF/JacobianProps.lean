import Verif.EKF.CacheProps
/-!
# C24: dimensions and contents of the finite-difference measurement Jacobian
-/

namespace StateObs.EKF
open StateObs KF

/-- Column `i` of `M` is the difference quotient of the measurement, at the predicted state `xb` (predicted measurement `yb`, input
`u`, time `k`), in tangent direction `i` with step `dx[i]`, computed with the state and measurement operations of the filter. -/
def DiffQuotient (st : KData Ext) (f : Functor) (dx xb yb u : DVec) (k : Int) {q : ℕ}
    (M : Matrix (Fin q) (Fin st.nt) ℝ) : Prop :=
  ∀ i : Fin st.nt, ∃ (h : ℝ) (x' y' : DVec) (d : Fin q → ℝ), (∃ hi : i.val < dx.size, dx.val ⟨i, hi⟩ = h) ∧
    st.arith.stateSum xb ⟨st.nt, fun j => if j = i then h else 0⟩ = .ok x' ∧
    f.measureDynamics x' u k = .ok y' ∧ st.arith.measurementDifference y' yb = .ok ⟨q, d⟩ ∧
    ∀ r, M r i = d r / h

/-- **C24**, full statement: what `getCMatrixFD` returns passes the check of `setC`, and its columns are computed with the measurement
difference of the filter. -/
def C24_statement : Prop :=
  ∀ (s s' : KFilter Ext) (dx : DVec) (C : DMat) (x : DVec) (k : Int), s.x = some (x, k) → getCMatrixFD s dx = .ok (C, s') →
    s.st.checkC C = true ∧
    ∀ f xb yb, s'.st.ext.f = some f → s'.st.xbar = some (xb, k + 1) → s'.st.ybar = some (yb, k + 1) → s.st.nt > 0 →
      ∃ M, C = ⟨s.st.mt, s.st.nt, M⟩ ∧ DiffQuotient s.st f dx xb yb s'.st.ext.optU (k + 1) M

theorem simulateSensor_eq {s : KFilter Ext} {x : DVec} {k : Int} {y u : DVec} (h : simulateSensor s x k = .ok (y, u)) :
    sensorInput s k = .ok u ∧ ∃ f, s.st.ext.f = some f ∧ f.measureDynamics x u k = .ok y := by
  unfold simulateSensor at h
  cases hf : s.st.ext.f with
  | none => rw [hf] at h; cases h
  | some f =>
    rw [hf] at h
    simp only [Res.bind_eq_ok] at h
    obtain ⟨u', h1, y', h2, h3⟩ := h
    cases h3
    exact ⟨h1, f, rfl, h2⟩

/-- The returned matrix has `m` rows and `nt` columns, so it passes the check of `setC` exactly when the measurement and its tangent
have the same size. -/
theorem C24_dimensions (s s' : KFilter Ext) (dx : DVec) (C : DMat) (h : getCMatrixFD s dx = .ok (C, s')) :
    C.rows = s.st.m ∧ C.cols = s.st.nt ∧ (s.st.checkC C = true ↔ s.st.m = s.st.mt) := by
  simp only [getCMatrixFD, updateStateAndMeasurementPrediction, updateStatePrediction, Res.bind_eq_ok, Res.bind_assoc] at h
  obtain ⟨k, -, k', -, s1, h1, k2, -, s2, h2, s3, h3, c, -, u, -, h⟩ := h
  obtain ⟨_, _, rfl⟩ := ekf_keeps.pred s s1 _ h1
  obtain ⟨_, _, rfl⟩ := ekf_keeps.sens _ s2 _ h2
  obtain ⟨_, _, rfl⟩ := ekf_keeps.pred _ s3 _ h3
  cases h
  refine ⟨rfl, rfl, ?_⟩
  simp [KData.checkC, DMat.hasSize]

/-- **C24**, what holds: when the measurement and its tangent have the same size and the filter subtracts measurements componentwise,
the full statement. Missing: a tangent of another size, where the check of `setC` always fails (`C24_dimensions`, `C24_false_dims`),
and other measurement differences, which are ignored (`C24_false_arith`). -/
theorem C24_partial (s s' : KFilter Ext) (dx : DVec) (C : DMat) (x : DVec) (k : Int) (hx : s.x = some (x, k))
    (h : getCMatrixFD s dx = .ok (C, s')) (hm : s.st.m = s.st.mt) (ha : s.st.arith.measurementDifference = DVec.sub) :
    s.st.checkC C = true ∧
    ∀ f xb yb, s'.st.ext.f = some f → s'.st.xbar = some (xb, k + 1) → s'.st.ybar = some (yb, k + 1) → s.st.nt > 0 →
      ∃ M, C = ⟨s.st.mt, s.st.nt, M⟩ ∧ DiffQuotient s.st f dx xb yb s'.st.ext.optU (k + 1) M := by
  refine ⟨(C24_dimensions s s' dx C h).2.2.2 hm, ?_⟩
  intro f xb yb hf hxb hyb hnt
  simp only [getCMatrixFD, updateStateAndMeasurementPrediction, updateStatePrediction, Res.bind_eq_ok, Res.bind_assoc] at h
  obtain ⟨k0, hk0, k', -, s1, h1, k2, -, s2, h2, s3, h3, c, hc, u, hu, h⟩ := h
  have hk : k0 = k := by
    simp only [Obs.getCurrentTime, hx] at hk0
    cases hk0; rfl
  subst hk
  have hcol := cols_eq_ok _ _ c hc
  obtain ⟨_, _, rfl⟩ := ekf_keeps.pred s s1 _ h1
  obtain ⟨_, _, rfl⟩ := ekf_keeps.sens _ s2 _ h2
  obtain ⟨_, e3, rfl⟩ := ekf_keeps.pred _ s3 _ h3
  cases h
  simp only at hf hxb hyb
  rw [if_pos hnt] at hu
  suffices ∃ M : Matrix (Fin s.st.m) (Fin s.st.nt) ℝ, (⟨s.st.m, s.st.nt, fun r c' => c c' r⟩ : DMat) = ⟨s.st.m, s.st.nt, M⟩ ∧
      DiffQuotient s.st f dx xb yb u (k0 + 1) M from by
    have key : ∀ q, q = s.st.mt → (∃ M : Matrix (Fin q) (Fin s.st.nt) ℝ, (⟨s.st.m, s.st.nt, fun r c' => c c' r⟩ : DMat) =
        ⟨q, s.st.nt, M⟩ ∧ DiffQuotient s.st f dx xb yb u (k0 + 1) M) → ∃ M : Matrix (Fin s.st.mt) (Fin s.st.nt) ℝ,
        (⟨s.st.m, s.st.nt, fun r c' => c c' r⟩ : DMat) = ⟨s.st.mt, s.st.nt, M⟩ ∧ DiffQuotient s.st f dx xb yb u (k0 + 1) M := by
      intro q hq h
      subst hq
      exact h
    exact key _ hm this
  refine ⟨fun r i => c i r, rfl, ?_⟩
  intro i
  have hi := hcol i
  simp only [colC, Res.bind_eq_ok] at hi
  obtain ⟨hh, hat, xb', hxb', x', hx', ⟨yp, u'⟩, hsim, yb', hyb', d, hd, hcl⟩ := hi
  obtain ⟨hu', f', hf', hyp⟩ := simulateSensor_eq hsim
  rw [hu] at hu'; cases hu'
  rw [hxb] at hxb'; cases hxb'
  rw [hyb] at hyb'; cases hyb'
  rw [hf] at hf'; cases hf'
  obtain ⟨ds, dv⟩ := d
  have hds : ds = s.st.m := by
    unfold asCol at hcl
    split_ifs at hcl with hq
    exact hq
  subst hds
  refine ⟨hh, x', yp, dv, ?_, hx', hyp, ?_, ?_⟩
  · unfold DVec.at at hat
    split_ifs at hat with hq
    exact ⟨hq, Res.ok.inj hat⟩
  · rw [ha]
    exact hd
  · intro r
    unfold asCol at hcl
    split_ifs at hcl with hq
    have := Res.ok.inj hcl
    exact (congrFun this r).symm

/-- A filter whose measurement has two components but one tangent component; `f` is the identity, measured twice. -/
noncomputable def twoFunctor : Functor := ⟨fun x _ _ => .ok x, fun _ _ _ => .ok ⟨2, 0⟩⟩

/-- The filter of the first counterexample, made by public calls. -/
noncomputable def dimFilter : KFilter Ext :=
  { mk 1 1 2 1 0 false false with
    x := some (vec1 0, 0)
    st := { (mk 1 1 2 1 0 false false).st with ext := ⟨some twoFunctor, false, false, ⟨0, 0⟩⟩ } }

theorem dimFilter_reachable : [EOp.setFunctor twoFunctor, .base (.setState (vec1 0) 0)].foldlM eexec (mk 1 1 2 1 0 false false) =
    .ok dimFilter := rfl

/-- Its Jacobian is computed without error. -/
theorem dimFilter_ok : ∃ C s', getCMatrixFD dimFilter (vec1 1) = .ok (C, s') := ⟨_, _, rfl⟩

/-- **C24** fails: the Jacobian of `dimFilter` does not pass the check of `setC`. -/
theorem C24_false_dims : ¬ C24_statement := by
  intro h
  obtain ⟨C, s', hC⟩ := dimFilter_ok
  have h1 := (h dimFilter s' (vec1 1) C (vec1 0) 0 rfl hC).1
  have h2 := (C24_dimensions _ _ _ _ hC).2.2.1 h1
  exact absurd h2 (by decide)

/-- A measurement difference that is not the componentwise one: twice the difference. -/
noncomputable def twice : Arith := { Arith.default with measurementDifference := fun a b => do let d ← a.sub b; .ok ⟨d.size, fun i => 2 * d.val i⟩ }

/-- A filter with this measurement difference, that measures its state. -/
noncomputable def arithFilter : KFilter Ext :=
  { mk 1 1 1 1 0 false false with
    x := some (vec1 0, 0)
    st := { (mk 1 1 1 1 0 false false).st with
      arith := twice
      ext := ⟨some idFunctor, false, false, ⟨0, 0⟩⟩ } }

/-- The Jacobian of `arithFilter`: `1`. -/
theorem arithFilter_ok : ∃ C s', getCMatrixFD arithFilter (vec1 1) = .ok (C, s') ∧ s'.st.ext.f = some idFunctor ∧
    s'.st.xbar = some (vec1 0, 1) ∧ s'.st.ybar = some (vec1 0, 1) ∧
    C = ⟨1, 1, fun _ i => ((0 + if (0 : Fin 1) = i then 1 else 0) - 0) / 1⟩ := ⟨_, _, rfl, rfl, rfl, rfl, by
      congr 1
      funext r i
      fin_cases r; fin_cases i
      rfl⟩

/-- **C24** fails also with equal sizes: the measurement difference of the filter is not used. -/
theorem C24_false_arith : ∃ (s s' : KFilter Ext) (dx : DVec) (C : DMat) (x : DVec) (k : Int) (f : Functor) (xb yb : DVec),
    s.x = some (x, k) ∧ s.st.m = s.st.mt ∧ getCMatrixFD s dx = .ok (C, s') ∧ s'.st.ext.f = some f ∧ s'.st.xbar = some (xb, k + 1) ∧
    s'.st.ybar = some (yb, k + 1) ∧
    ¬ ∃ M, C = ⟨s.st.mt, s.st.nt, M⟩ ∧ DiffQuotient s.st f dx xb yb s'.st.ext.optU (k + 1) M := by
  obtain ⟨C, s', h1, h2, h3, h4, h5⟩ := arithFilter_ok
  refine ⟨arithFilter, s', vec1 1, C, vec1 0, 0, idFunctor, vec1 0, vec1 0, rfl, rfl, h1, h2, h3, h4, ?_⟩
  rintro ⟨M, hM, hD⟩
  obtain ⟨h, x', y', d, ⟨hi, hh⟩, hx', hy', hd, hq⟩ := hD (0 : Fin 1)
  have hh1 : h = 1 := by rw [← hh]; rfl
  subst hh1
  have e1 : x' = ⟨1, fun _ => 1⟩ := by
    have : (Arith.default.stateSum (vec1 0) ⟨1, fun j => if j = 0 then 1 else 0⟩) = .ok ⟨1, fun _ => 1⟩ := by
      show DVec.add ⟨1, fun _ => 0⟩ ⟨1, _⟩ = _
      rw [DVec.add_mk]
      congr 2
      funext i
      fin_cases i
      simp
    have e : (Arith.default.stateSum (vec1 0) ⟨1, fun j => if j = 0 then 1 else 0⟩) = .ok x' := hx'
    rw [this] at e
    exact (Res.ok.inj e).symm
  subst e1
  have ey : y' = ⟨1, fun _ => 1⟩ := (Res.ok.inj hy').symm
  subst ey
  have e2 : d = fun _ => 2 := by
    have : twice.measurementDifference ⟨1, fun _ => 1⟩ (vec1 0) = .ok ⟨1, fun _ => 2⟩ := by
      simp only [twice, vec1, DVec.sub_mk, Res.ok_bind]
      congr 2
      funext i
      simp
    have e : twice.measurementDifference ⟨1, fun _ => 1⟩ (vec1 0) = .ok ⟨1, d⟩ := hd
    rw [this] at e
    exact (DVec.mk_eq.1 (Res.ok.inj e)).symm
  have hM' := hM.symm.trans h5
  have hM2 : M = fun _ i => ((0 + if (0 : Fin 1) = i then 1 else 0) - 0) / 1 := DMat.mk_eq.1 hM'
  have h6 : M (0 : Fin 1) (0 : Fin 1) = d (0 : Fin 1) / 1 := hq (0 : Fin 1)
  rw [hM2, e2] at h6
  norm_num at h6

/-- The hypotheses of the partial theorem are met: the Jacobian of a filter that measures its state. -/
example : ∃ C s', getCMatrixFD ({ mk 1 1 1 1 0 false false with
    x := some (vec1 0, 0)
    st := { (mk 1 1 1 1 0 false false).st with ext := ⟨some idFunctor, false, false, ⟨0, 0⟩⟩ } } : KFilter Ext) (vec1 1) = .ok (C, s') ∧
    s'.st.ext.f = some idFunctor ∧ s'.st.xbar = some (vec1 0, 1) ∧ s'.st.ybar = some (vec1 0, 1) := ⟨_, _, rfl, rfl, rfl, rfl⟩

end StateObs.EKF
