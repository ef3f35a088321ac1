import Verif.ModelFlex.Config
import Verif.Elastic.JacProps
/-! # Components of the state without variance do not move: lemmas -/

namespace StateObs.ModelFlex
open StateObs KF Imu Rot Kine Matrix Obs
open StateObs.Elastic (at1 bump)

/-- The components 24 to 34 are null. -/
def Tail (v : DVec) : Prop := ∀ i, 24 ≤ i → at1 v i = 0

theorem at1_out {v : DVec} {i : ℕ} (h : ¬ i < v.size) : at1 v i = 0 := dif_neg h

theorem tail_zero (n : ℕ) : Tail (DVec.zero n) := fun i _ => Elastic.at1_zero n i

/-! ## The functor -/

theorem step_tail {s s' : Elastic.Sys Unit} (hr : Reach s) (hn : s.noise = none) {x u y : DVec} (hx : Tail x) (h : s.stateDynamics x u () = .ok (y, s', ())) :
    Tail y ∧ s'.xk = x ∧ s'.xk1 = y := by
  obtain ⟨dt, ops, e⟩ := hr
  obtain ⟨h1, h2⟩ := Elastic.C90_rest dt () () () ops s s' x u y e hn h
  obtain ⟨-, t, e1, -, -, -, e2, e3, -⟩ := Elastic.step_congr (.refl s) (Elastic.run_inv e).rot (Elastic.run_inv e).rot hn h ()
  rw [h] at e1
  cases e1
  refine ⟨fun i hi => ?_, e2, e3⟩
  by_cases h30 : i < 30
  · rw [h1 i hi h30, hx i hi]; split_ifs <;> simp
  · by_cases h35 : i < 35
    · rw [h2 i (by omega) h35, hx i hi]
    · refine at1_out ?_
      obtain ⟨-, -, -, -, -, -, -, -, -, rfl⟩ := Elastic.step_ok (Elastic.run_inv e) hn h
      exact h35

theorem meas_keep {s s' : Elastic.Sys Unit} (hi : Elastic.Inv s) {x u y : DVec} {k : Int} (h : s.measureDynamics x u k () = .ok (y, s', ())) : s'.xk = s.xk ∧ s'.xk1 = s.xk1 := by
  obtain ⟨hx, hu, he⟩ := Elastic.measureDynamics_sizes h
  obtain ⟨rt, hr, e⟩ := Elastic.measureDynamics_eq hi.rot x u k () hx hu he
  rw [e] at h
  obtain ⟨l, -, h⟩ := Res.bind_eq_ok.1 h
  obtain ⟨-, e⟩ := Elastic.readSensor_eff (by exact hr) (by exact hi.clean) h
  rw [e]
  exact ⟨rfl, rfl⟩

theorem measureColumns_keep {x : Fin 35 → ℝ} {y : DVec} : ∀ {l : List (Fin 35)} {s s' : Elastic.Sys Unit} {J}, Elastic.Inv s →
    Elastic.Sys.measureColumns x y l s () = .ok (J, s', ()) → s'.xk = s.xk ∧ s'.xk1 = s.xk1
  | [], s, s', J, h, e => by cases e; exact ⟨rfl, rfl⟩
  | i :: l, s, s', J, h, e => by
    unfold Elastic.Sys.measureColumns at e
    split_ifs at e with ha
    · simp only [Res.bind_eq_ok] at e
      obtain ⟨⟨c, s1, g1⟩, e1, ⟨cs, s2, g2⟩, e2, e⟩ := e
      cases e
      have h1 := Elastic.fdMeasure_eff h e1
      have hk : s1.xk = s.xk ∧ s1.xk1 = s.xk1 := by
        unfold Elastic.Sys.fdMeasure at e1
        split_ifs at e1 with hi
        simp only [Res.bind_eq_ok] at e1
        obtain ⟨⟨z, s1, g1⟩, e1, e⟩ := e1
        split_ifs at e with hz hd
        cases e
        exact meas_keep h e1
      obtain ⟨a, b⟩ := measureColumns_keep (h1.inv h) e2
      exact ⟨a.trans hk.1, b.trans hk.2⟩
    · simp only [Res.bind_eq_ok] at e
      obtain ⟨⟨cs, s2, g2⟩, e2, e⟩ := e
      cases e
      exact measureColumns_keep h e2

theorem measureJacobian_keep {s s' : Elastic.Sys Unit} {J} (h : Elastic.Inv s) (e : s.measureDynamicsJacobian () = .ok (J, s', ())) : s'.xk = s.xk ∧ s'.xk1 = s.xk1 := by
  unfold Elastic.Sys.measureDynamicsJacobian at e
  split_ifs at e with hx
  simp only [Res.bind_eq_ok] at e
  obtain ⟨⟨J1, s1, g1⟩, e1, e⟩ := e
  cases e
  have := measureColumns_keep (s' := s1) h e1
  exact this

/-- The rows 24 to 34 of the Jacobian of the dynamics are null in the columns 0 to 23. -/
theorem stateJacobian_tail {s s' : Elastic.Sys Unit} (hr : Reach s) (hn : s.noise = none) {J} (hx : Tail s.xk) (hy : Tail s.xk1) (e : s.stateDynamicsJacobian () = .ok (J, s', ())) :
    s'.xk = s.xk ∧ s'.xk1 = s.xk1 ∧ ∀ i j : Fin 35, 24 ≤ i.val → j.val < 24 → (J.getD j 0 : Fin 35 → ℝ) i = 0 := by
  have hi := hr.inv
  unfold Elastic.Sys.stateDynamicsJacobian at e
  split_ifs at e with hk
  simp only [Res.bind_eq_ok] at e
  obtain ⟨⟨J1, s1, g1⟩, e1, e⟩ := e
  cases e
  have hS : Elastic.Same { s with opXk1 := s.xk1 } s := by constructor <;> rfl
  obtain ⟨b1, -, b2, -, -, b5, -⟩ := Elastic.stateColumns_ok (s := s) (x := s.xk) (u := s.uk) (y := s.xk1) (hx := hk) (g := ()) hi.rot hn _ hS (by exact hi.rot) rfl e1
  refine ⟨rfl, b5, fun i j h24 hj => ?_⟩
  obtain ⟨hl, hc⟩ := Elastic.forall₂_finRange b1
  obtain ⟨c, ec, hc⟩ := hc j
  have : (J1.getD j 0 : Fin 35 → ℝ) = c := by rw [List.getD_eq_getElem?_getD, ec]; rfl
  rw [this]
  unfold Elastic.StateColumn at hc
  split_ifs at hc with ha
  · obtain ⟨-, hd, -, z, s2, ez, -, hc⟩ := hc
    rw [hc]
    have hb : Tail (bump s.xk j (at1 s.dx j)) := by
      intro l hl
      rw [← hx l hl]
      show (if h : l < s.xk.size then (if l = j.val then s.xk.val ⟨l, h⟩ + at1 s.dx j else s.xk.val ⟨l, h⟩) else 0) = if h : l < s.xk.size then s.xk.val ⟨l, h⟩ else 0
      split_ifs with h1
      · omega
      · rfl
      · rfl
    obtain ⟨hz, -⟩ := step_tail hr hn hb ez
    rw [hz i h24, hy i h24]
    simp
  · rw [hc, Pi.single_apply, if_neg (by intro e; subst e; omega)]

/-! ## The filter -/

/-- Null components in the filter. -/
structure FFlat (f : Filter) : Prop where
  x : ∀ x k, f.x = some (x, k) → Tail x
  xbar : ∀ x k, f.st.xbar = some (x, k) → Tail x
  xk : Tail f.st.ext.sys.xk
  xk1 : Tail f.st.ext.sys.xk1

theorem prediction_flat {f g : Filter} {k k0 : Int} (hf : FInv k0 f) (h0 : FFlat f) (h : prediction f k = .ok g) : FFlat g := by
  unfold prediction at h
  split_ifs at h
  · simp only [Res.bind_eq_ok] at h
    obtain ⟨_, -, u, -, h⟩ := h
    obtain ⟨x, hx⟩ := hf.x
    simp only [hx, Res.bind_eq_ok] at h
    obtain ⟨⟨v, sys, _⟩, h1, h2⟩ := h
    obtain ⟨a, b, c⟩ := step_tail hf.reach hf.noise (h0.x _ _ hx) h1
    cases h2
    refine ⟨fun x' k' e => h0.x x' k' ?_, fun x' k' e => ?_, ?_, ?_⟩
    · rw [hx]; exact e
    · cases e; exact a
    · show Tail sys.xk; rw [b]; exact h0.x _ _ hx
    · show Tail sys.xk1; rw [c]; exact a
  · cases h; exact h0

theorem simulate_flat {f g : Filter} {x y : DVec} {k k0 : Int} (hf : FInv k0 f) (h0 : FFlat f) (h : simulateSensor f x k = .ok (y, g)) : FFlat g := by
  unfold simulateSensor at h
  simp only [Res.bind_eq_ok] at h
  obtain ⟨_, -, u, -, ⟨v, sys, _⟩, h1, h2⟩ := h
  obtain ⟨b, c⟩ := meas_keep hf.reach.inv h1
  cases h2
  refine ⟨h0.x, h0.xbar, ?_, ?_⟩
  · show Tail sys.xk; rw [b]; exact h0.xk
  · show Tail sys.xk1; rw [c]; exact h0.xk1

theorem predictSensor_flat {f g : Filter} {k k0 : Int} (hf : FInv k0 f) (h0 : FFlat f) (h : predictSensor f k = .ok g) : FFlat g := by
  unfold predictSensor at h
  split_ifs at h
  · simp only [Res.bind_eq_ok] at h
    obtain ⟨xb, -, ⟨y, g'⟩, h1, h2⟩ := h
    have := simulate_flat hf h0 h1
    cases h2
    exact ⟨this.x, this.xbar, this.xk, this.xk1⟩
  · cases h; exact h0

theorem updateState_flat {f g : Filter} {k0 : Int} (hf : FInv k0 f) (h0 : FFlat f) (h : updateStatePrediction f = .ok g) : FFlat g := by
  simp only [updateStatePrediction, Res.bind_eq_ok] at h
  obtain ⟨k, -, h⟩ := h
  exact prediction_flat hf h0 h

theorem updateBoth_flat {f g : Filter} {k0 : Int} (hf : FInv k0 f) (h0 : FFlat f) (h : updateStateAndMeasurementPrediction f = .ok g) : FFlat g := by
  simp only [updateStateAndMeasurementPrediction, Res.bind_eq_ok] at h
  obtain ⟨f1, h1, k, -, h⟩ := h
  exact predictSensor_flat ((updateState_upd hf.reach h1).inv hf) (updateState_flat hf h0 h1) h

/-- The Jacobian of the dynamics in the filter. -/
def Decoupled (A : DMat) : Prop := ∀ i j, 24 ≤ i → j < 24 → coeff A 0 i j = 0

theorem jacobians_flat {f g : Filter} {k0 : Int} (hf : FInv k0 f) (h0 : FFlat f) (h : jacobians true f = .ok g) : FFlat g ∧ Decoupled g.st.a := by
  simp only [jacobians, if_true, Res.bind_eq_ok] at h
  obtain ⟨f1, h1, ⟨A, sys, _⟩, h2, f2, h3, ⟨C, sys', _⟩, h4, h5⟩ := h
  have u1 := updateBoth_upd hf.reach h1
  have i1 := u1.inv hf
  have p1 := updateBoth_flat hf h0 h1
  obtain ⟨a, b, c⟩ := stateJacobian_tail i1.reach i1.noise p1.xk p1.xk1 h2
  simp only [setA, Res.bind_eq_ok] at h3
  obtain ⟨_, -, h3⟩ := h3
  cases h3
  have e1 := Elastic.stateDynamicsJacobian_eff i1.reach.inv h2
  obtain ⟨a', b'⟩ := measureJacobian_keep (e1.inv i1.reach.inv) h4
  simp only [setC, Res.bind_eq_ok] at h5
  obtain ⟨_, -, h5⟩ := h5
  cases h5
  refine ⟨⟨p1.x, p1.xbar, ?_, ?_⟩, fun i j hi hj => ?_⟩
  · show Tail sys'.xk; rw [a', a]; exact p1.xk
  · show Tail sys'.xk1; rw [b', b]; exact p1.xk1
  · show coeff (ofCols A) 0 i j = 0
    unfold coeff
    split_ifs with hij
    · exact c ⟨i, hij.1⟩ ⟨j, hij.2⟩ hi hj
    · rfl

/-- A covariance without the components 24 to 34. -/
def Null (M : DMat) : Prop := ∀ i j, 24 ≤ i ∨ 24 ≤ j → coeff M 0 i j = 0

theorem null_mk {M : Matrix (Fin 35) (Fin 35) ℝ} : Null ⟨35, 35, M⟩ ↔ ∀ i j : Fin 35, 24 ≤ i.val ∨ 24 ≤ j.val → M i j = 0 := by
  constructor
  · intro h i j hij
    have := h i j hij
    rwa [coeff, dif_pos ⟨i.2, j.2⟩] at this
  · intro h i j hij
    unfold coeff
    split_ifs with h'
    · exact h ⟨i, h'.1⟩ ⟨j, h'.2⟩ hij
    · rfl

/-- The correction leaves the components without variance. -/
theorem correct_null {st : KData Ext} {m : ℕ} {A Q P : Matrix (Fin 35) (Fin 35) ℝ} {C R} (h : HasMats st 35 m A Q P C R) (ha : st.arith = Arith.default)
    (hA : ∀ i j : Fin 35, 24 ≤ i.val → j.val < 24 → A i j = 0) (hQ : ∀ i j : Fin 35, 24 ≤ i.val ∨ 24 ≤ j.val → Q i j = 0) (hP : ∀ i j : Fin 35, 24 ≤ i.val ∨ 24 ≤ j.val → P i j = 0)
    {xb yb y xhat inn : DVec} {P' K : DMat} (e : correct st xb yb y = .ok (xhat, P', inn, K)) : Null P' ∧ ∀ i, 24 ≤ i → i < 35 → at1 xhat i = at1 xb i := by
  simp only [correct, h.a, h.q, h.pr, h.c, h.r, DMat.transpose_mk, DMat.mul_mk, DMat.add_mk, Res.ok_bind, lltInv_mk, Res.bind_eq_ok] at e
  obtain ⟨ino, h1, Si, ⟨M, hM, h2⟩, K0, h3, K1, h4, inn', h5, x', h6, h7⟩ := e
  cases h2
  rw [DMat.mul_mk] at h3
  cases h3
  rw [DMat.mul_mk] at h4
  cases h4
  obtain ⟨a1, e1, a2, e2, a3, e3, e4⟩ := h7
  rw [DMat.neg_mk, DMat.mul_mk] at e1
  cases e1
  rw [DMat.addDiagOne_mk, DMat.mul_mk] at e2
  cases e2
  rw [DMat.transpose_mk, DMat.add_mk] at e3
  cases e3
  cases e4
  obtain ⟨B, hB⟩ : ∃ B, B = Q + A * (P * Aᵀ) := ⟨_, rfl⟩
  have hAP : ∀ i j : Fin 35, 24 ≤ i.val → (A * (P * Aᵀ)) i j = 0 := by
    intro i j hi
    rw [Matrix.mul_apply]
    refine Finset.sum_eq_zero fun l _ => ?_
    by_cases hl : l.val < 24
    · rw [hA i l hi hl, zero_mul]
    · rw [Matrix.mul_apply, Finset.sum_eq_zero (fun n _ => ?_), mul_zero]
      rw [hP l n (Or.inl (by omega)), zero_mul]
  have hAP' : ∀ i j : Fin 35, 24 ≤ j.val → (A * (P * Aᵀ)) i j = 0 := by
    intro i j hj
    rw [Matrix.mul_apply]
    refine Finset.sum_eq_zero fun l _ => ?_
    rw [Matrix.mul_apply, Finset.sum_eq_zero (fun n _ => ?_), mul_zero]
    rw [Matrix.transpose_apply]
    by_cases hn : n.val < 24
    · rw [hA j n hj hn, mul_zero]
    · rw [hP l n (Or.inr (by omega)), zero_mul]
  have hB1 : ∀ i j : Fin 35, 24 ≤ i.val → B i j = 0 := by
    intro i j hi
    rw [hB, Matrix.add_apply, hQ i j (Or.inl hi), hAP i j hi, add_zero]
  have hB2 : ∀ i j : Fin 35, 24 ≤ j.val → B i j = 0 := by
    intro i j hj
    rw [hB, Matrix.add_apply, hQ i j (Or.inr hj), hAP' i j hj, add_zero]
  rw [← hB] at h5 ⊢
  have hK : ∀ (i : Fin 35) (j), 24 ≤ i.val → (B * (Cᵀ * M)) i j = 0 := by
    intro i j hi
    rw [Matrix.mul_apply]
    exact Finset.sum_eq_zero fun l _ => by rw [hB1 i l hi, zero_mul]
  generalize B * (Cᵀ * M) = K at *
  have hp : ∀ i j : Fin 35, 24 ≤ i.val ∨ 24 ≤ j.val → ((-K * C + 1) * B : Matrix (Fin 35) (Fin 35) ℝ) i j = 0 := by
    rintro i j (hi | hj)
    · rw [Matrix.add_mul, Matrix.one_mul, Matrix.add_apply, hB1 i j hi, add_zero, Matrix.mul_apply]
      refine Finset.sum_eq_zero fun l _ => ?_
      rw [Matrix.mul_apply, Finset.sum_eq_zero (fun n _ => ?_), zero_mul]
      rw [Matrix.neg_apply, hK i n hi, neg_zero, zero_mul]
    · rw [Matrix.mul_apply]
      exact Finset.sum_eq_zero fun l _ => by rw [hB2 l j hj, mul_zero]
  refine ⟨?_, fun i hi hi' => ?_⟩
  · rw [DMat.smul_mk]
    refine null_mk.2 fun i j hij => ?_
    rw [Matrix.smul_apply, Matrix.add_apply, Matrix.transpose_apply, hp i j hij, hp j i hij.symm, add_zero, smul_zero]
  · obtain ⟨ni, iv⟩ := ino
    unfold DMat.mulVec at h5
    split_ifs at h5 with hs
    cases h5
    rw [ha] at h6
    simp only [Arith.default, DVec.add] at h6
    split_ifs at h6 with hd
    cases h6
    obtain ⟨a, va⟩ := xb
    simp only at hd
    subst hd
    rw [Elastic.at1_mk _ i hi', Elastic.at1_mk _ i hi']
    refine add_eq_left.2 ?_
    show (K *ᵥ iv ∘ Fin.cast hs) ⟨i, hi'⟩ = 0
    simp only [Matrix.mulVec, dotProduct]
    exact Finset.sum_eq_zero fun l _ => by rw [hK _ _ hi, zero_mul]

theorem oneStep_flat {k : Int} {f g : Filter} (hf : FInv k f) (h0 : FFlat f) (hA : Decoupled f.st.a) (hQ : Null f.st.q) (hP : Null f.st.pr) (e : oneStep virt f = .ok g) :
    FFlat g ∧ Null g.st.pr := by
  obtain ⟨x, hx⟩ := hf.x
  obtain ⟨g1, g', xb, yb, y, xhat, P, inn, K, hg1, hg2, up, ea, ec, hch, -, hxb, -, hc, e'⟩ := oneStep_ok' hf.reach hx e
  have f1 := prediction_flat hf h0 hg1
  have f2 := predictSensor_flat ((prediction_upd hf.reach hg1).inv hf) f1 hg2
  obtain ⟨A, Q, P0, C, R, hm⟩ := hasMats_of_checks _ hch.1 hch.2.1 hch.2.2.1 hch.2.2.2.1 hch.2.2.2.2
  have hm1 : HasMats g'.st f.st.nt f.st.mt A Q P0 C R := ⟨up.nt, up.mt, ea.trans hm.a, up.q.trans hm.q, up.pr.trans hm.pr, ec.trans hm.c, up.r.trans hm.r⟩
  rw [hm.a] at hA
  rw [hm.q] at hQ
  rw [hm.pr] at hP
  have ig := up.inv hf
  have hnt := hf.nt
  generalize f.st.nt = n at *
  subst hnt
  obtain ⟨h1, h2⟩ := correct_null hm1 ig.arith (fun i j hi hj => by have := hA i j hi hj; rwa [coeff, dif_pos ⟨i.2, j.2⟩] at this) (null_mk.1 hQ) (null_mk.1 hP) hc
  obtain ⟨-, ⟨z, hz⟩⟩ : True ∧ ∃ z, xhat = ⟨35, z⟩ := by
    refine ⟨trivial, ?_⟩
    obtain ⟨hi', -⟩ := oneStep_inv hf e
    obtain ⟨z, hz⟩ := hi'.x
    rw [e'] at hz
    simp only [Option.some.injEq, Prod.mk.injEq] at hz
    exact ⟨z, hz.1⟩
  have hb : Tail xb := by
    cases hv : g'.st.xbar with
    | none => rw [hv] at hxb; simp [val] at hxb
    | some w =>
      obtain ⟨w, kw⟩ := w
      rw [hv] at hxb
      simp only [val, Res.ok.injEq] at hxb
      rw [← hxb]
      exact f2.xbar w kw hv
  subst e'
  refine ⟨⟨fun x' k' e => ?_, f2.xbar, f2.xk, f2.xk1⟩, h1⟩
  simp only [Option.some.injEq, Prod.mk.injEq] at e
  rw [← e.1]
  intro i hi
  by_cases h35 : i < 35
  · rw [h2 i hi h35, hb i hi]
  · refine at1_out ?_
    rw [hz]; exact h35

/-! ## The estimator -/

/-- Null components in the estimator. -/
structure Flat (s : Est) : Prop where
  f : FFlat s.ekf
  lastX : Tail s.lastX
  Q : Null s.Q
  P : Null s.ekf.st.pr
  fd : s.fd = true

theorem getVector_flat {s t : Est} (hi : Inv s) (h0 : Flat s) (h : s.getFlexibilityVector = .ok t) : Flat t := by
  by_cases hon : s.on = true
  · by_cases hy : s.ekf.y.v = []
    · rw [getVector_idle hon hy] at h; cases h; exact h0
    · obtain ⟨f1, f, z, o, hj, hs, hx, -, rfl⟩ := getVector_ok hi hon hy h
      rw [h0.fd] at hj
      have u := jacobians_upd hi.f.reach hj
      obtain ⟨a, b⟩ := jacobians_flat hi.f h0.f hj
      obtain ⟨c, d⟩ := oneStep_flat (u.inv hi.f) a b (by rw [u.q, hi.q]; exact h0.Q) (by rw [u.pr]; exact h0.P) hs
      have hz : Tail ⟨35, z⟩ := c.x _ _ hx
      have hz' : Tail ⟨35, s.saturate (setSeg z Elastic.iOri o)⟩ := by
        intro i hi'
        by_cases h35 : i < 35
        · rw [← hz i hi', Elastic.at1_mk _ i h35, Elastic.at1_mk _ i h35]
          have e1 : setSeg z Elastic.iOri o ⟨i, h35⟩ = z ⟨i, h35⟩ := Elastic.setSeg_out _ _ _ _ (by simp only [Elastic.iOri]; omega)
          unfold Est.saturate
          split_ifs
          · rw [Elastic.setSeg_out _ _ _ _ (by simp only [Elastic.iFc]; omega), Elastic.setSeg_out _ _ _ _ (by simp only [Elastic.iFc]; omega), e1]
          · exact e1
        · exact at1_out h35
      refine ⟨⟨fun x' k' e => ?_, c.xbar, c.xk, c.xk1⟩, hz', h0.Q, d, h0.fd⟩
      simp only [Option.some.injEq, Prod.mk.injEq] at e
      rw [← e.1]; exact hz'
  · obtain ⟨x, hx⟩ := hi.f.x
    rw [Est.getFlexibilityVector, if_neg hon] at h
    simp only [Res.bind_eq_ok, getCurrentTime, hx, Res.ok.injEq, exists_eq_left'] at h
    obtain ⟨f, hf, h⟩ := h
    obtain ⟨w, hw, rfl, hf'⟩ := hi.f.setState hf
    have hz := tail_zero s.lastX.size
    rw [hw] at h
    have hw' : Tail ⟨35, w⟩ := by rw [← hw]; exact hz
    have hxx : ∀ x' k', (some ((⟨35, w⟩ : DVec), s.k) : Option (DVec × Int)) = some (x', k') → Tail x' := by
      intro x' k' e
      simp only [Option.some.injEq, Prod.mk.injEq] at e
      rw [← e.1]; exact hw'
    split_ifs at h
    · simp only [Est.resetStateCovarianceMatrix, setStateCovariance, Res.bind_eq_ok] at h
      obtain ⟨g, ⟨_, h1, h2⟩, h3⟩ := h
      cases h2; cases h3
      exact ⟨⟨hxx, h0.f.xbar, h0.f.xk, h0.f.xk1⟩, hw', h0.Q, h0.Q, h0.fd⟩
    · cases h
      exact ⟨⟨hxx, h0.f.xbar, h0.f.xk, h0.f.xk1⟩, hw', h0.Q, h0.P, h0.fd⟩

end StateObs.ModelFlex
