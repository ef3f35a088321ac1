import Verif.ModelFlex.Model
import Verif.Elastic.JacProps
import Verif.Kalman.Feed
import Verif.ZeroDelay.Lemmas
/-! # Invariant of the flexibility estimator on a robot with elastic contacts -/

namespace StateObs.ModelFlex
open StateObs KF Imu Rot Kine Matrix Obs

/-- A system that a client can have. -/
def Reach (f : Elastic.Sys Unit) : Prop := ∃ dt ops, Elastic.run dt () ops = .ok (f, ())

theorem Reach.inv {f : Elastic.Sys Unit} (h : Reach f) : Elastic.Inv f := by
  obtain ⟨dt, ops, h⟩ := h
  exact Elastic.run_inv h

theorem reach_ctor (dt : ℝ) : Reach (Elastic.ctor dt) := ⟨dt, [], rfl⟩

theorem Reach.exec {f f' : Elastic.Sys Unit} (h : Reach f) (op : Elastic.Op Unit) (e : Elastic.exec f () op = .ok (f', ())) : Reach f' := by
  obtain ⟨dt, ops, h⟩ := h
  refine ⟨dt, ops ++ [op], ?_⟩
  unfold Elastic.run at h ⊢
  rw [List.foldlM_append, h]
  simp only [Res.ok_bind, List.foldlM_cons, e, List.foldlM_nil]
  rfl

/-- At most one measurement waits, for the next time. -/
def YB (m : ℕ) (k : Int) (y : IArr DVec) : Prop := y.v = [] ∨ ∃ w, y = ⟨k + 1, [⟨m, w⟩]⟩

/-- The inputs stored are those of the current time and possibly of the next one. -/
def UB (p : ℕ) (k : Int) (u : IArr DVec) : Prop := u.v = [] ∨ (∃ a, u = ⟨k, [⟨p, a⟩]⟩) ∨ ∃ a b, u = ⟨k, [⟨p, a⟩, ⟨p, b⟩]⟩

/-- The part of the invariant on the filter alone, for a time. -/
structure FInv (k : Int) (f : Filter) : Prop where
  n : f.st.n = 35
  nt : f.st.nt = 35
  m : f.st.m = f.st.ext.sys.measSize
  mt : f.st.mt = f.st.ext.sys.measSize
  p : f.st.p = 48 + 12 * f.st.ext.sys.nb
  arith : f.st.arith = Arith.default
  reach : Reach f.st.ext.sys
  noise : f.st.ext.sys.noise = none
  snoise : f.st.ext.sys.sensor.noise = none
  dx : f.st.ext.sys.dx = ⟨35, defaultDx⟩
  pr : ∃ P, f.st.pr = ⟨35, 35, P⟩
  x : ∃ x, f.x = some (⟨35, x⟩, k)
  y : YB f.st.ext.sys.measSize k f.y
  u : UB (48 + 12 * f.st.ext.sys.nb) k f.u

/-- The invariant without the measurement noise. -/
structure Inv0 (s : Est) : Prop where
  f : FInv s.k s.ekf
  q : s.ekf.st.q = s.Q
  qSize : ∃ Q, s.Q = ⟨35, 35, Q⟩
  force : s.sys.withForce = s.useFT
  abs : s.sys.withAbs = s.withAbs
  bias : s.sys.withBias = s.withBias
  unmodeled : s.sys.withUnmodeled = s.withUnmodeled
  lastX : ∃ x, s.lastX = ⟨35, x⟩

/-- The invariant. -/
structure Inv (s : Est) : Prop extends Inv0 s where
  r : s.ekf.st.r = s.R
  rSize : ∃ R, s.R = ⟨s.sys.measSize, s.sys.measSize, R⟩

theorem asserted {b : Bool} {a : Unit} (h : Res.assert b = .ok a) : b = true := by cases b <;> simp_all

variable {E : Type}

/-! ## The filter -/

theorem setValue_y {m : ℕ} {k : Int} {y y' : IArr DVec} {w : DVec} (hy : YB m k y) (h : y.setValue w (k + 1) = .ok y') : y' = ⟨k + 1, [w]⟩ := by
  rcases hy with hy | ⟨z, rfl⟩
  · obtain ⟨i, v⟩ := y
    simp only at hy
    subst hy
    simp [IArr.setValue, IArr.checkIndex, IArr.checkNext] at h
    exact h.symm
  · simp [IArr.setValue, IArr.checkIndex] at h
    exact h.symm

theorem setValue_u0 {p : ℕ} {k : Int} {u u' : IArr DVec} {w : Fin p → ℝ} (hu : UB p k u) (h : u.setValue ⟨p, w⟩ k = .ok u') :
    u' = ⟨k, [⟨p, w⟩]⟩ ∨ ∃ b, u' = ⟨k, [⟨p, w⟩, ⟨p, b⟩]⟩ := by
  rcases hu with hu | ⟨z, rfl⟩ | ⟨a, b, rfl⟩
  · obtain ⟨i, v⟩ := u
    simp only at hu
    subst hu
    simp [IArr.setValue, IArr.checkIndex, IArr.checkNext] at h
    exact Or.inl h.symm
  · simp [IArr.setValue, IArr.checkIndex] at h
    exact Or.inl h.symm
  · simp [IArr.setValue, IArr.checkIndex] at h
    exact Or.inr ⟨b, h.symm⟩

theorem setValue_u1 {p : ℕ} {k : Int} {u u' : IArr DVec} {w : Fin p → ℝ} (hu : (∃ a, u = ⟨k, [⟨p, a⟩]⟩) ∨ ∃ a b, u = ⟨k, [⟨p, a⟩, ⟨p, b⟩]⟩)
    (h : u.setValue ⟨p, w⟩ (k + 1) = .ok u') : ∃ a, (∃ b, u = ⟨k, [⟨p, a⟩]⟩ ∨ u = ⟨k, [⟨p, a⟩, ⟨p, b⟩]⟩) ∧ u' = ⟨k, [⟨p, a⟩, ⟨p, w⟩]⟩ := by
  rcases hu with ⟨a, rfl⟩ | ⟨a, b, rfl⟩
  · simp [IArr.setValue, IArr.checkIndex, IArr.checkNext] at h
    exact ⟨a, ⟨0, Or.inl rfl⟩, h.symm⟩
  · simp [IArr.setValue, IArr.checkIndex] at h
    exact ⟨a, ⟨b, Or.inr rfl⟩, h.symm⟩

theorem obsSetInput_ok {f g : KFilter E} {u : DVec} {t : Int} {p : ℕ} (hp : f.st.p = p) (h0 : 0 < p) (h : Obs.setInput (cfg f) f u t = .ok g) :
    ∃ w u', u = ⟨p, w⟩ ∧ f.u.setValue ⟨p, w⟩ t = .ok u' ∧ g = { f with u := u' } := by
  have hp' : (cfg f).p > 0 := by show f.st.p > 0; omega
  rw [Obs.setInput, if_pos hp'] at h
  rw [Res.bind_eq_ok] at h
  obtain ⟨_, h1, h⟩ := h
  have h : ∃ u', f.u.setValue u t = .ok u' ∧ Res.ok { f with u := u' } = Res.ok g := by
    split_ifs at h <;> simp only [Res.bind_eq_ok] at h <;> obtain ⟨_, -, h⟩ := h <;> exact h
  obtain ⟨u', h3, h4⟩ := h
  have h1 := asserted h1
  have h1 : u.hasSize f.st.p = true := h1
  rw [hp, DVec.hasSize_iff] at h1
  obtain ⟨w, rfl⟩ := h1
  cases h4
  exact ⟨w, u', rfl, h3, rfl⟩

theorem obsSetMeas_ok {f g : KFilter E} {y : DVec} {t : Int} (h : Obs.setMeasurement (cfg f) f y t = .ok g) :
    ∃ y', y.size = f.st.m ∧ f.y.setValue y t = .ok y' ∧ g = { f with y := y' } := by
  simp only [Obs.setMeasurement, Res.bind_eq_ok] at h
  obtain ⟨_, h1, h⟩ := h
  have h : ∃ y', f.y.setValue y t = .ok y' ∧ Res.ok { f with y := y' } = Res.ok g := by
    split_ifs at h <;> simp only [Res.bind_eq_ok] at h <;> obtain ⟨_, -, h⟩ := h <;> exact h
  obtain ⟨y', h3, h4⟩ := h
  cases h4
  have h1 := asserted h1
  have h1 : y.hasSize f.st.m = true := h1
  rw [DVec.hasSize_iff] at h1
  obtain ⟨w, rfl⟩ := h1
  exact ⟨y', rfl, h3, rfl⟩

theorem obsSetState_ok {f g : KFilter E} {x : DVec} {t : Int} (hn : f.st.n = 35) (hp : 0 < f.st.p)
    (h : Obs.setState (cfg f) f x t = .ok g) : ∃ w, x = ⟨35, w⟩ ∧
    g = { f with x := some (⟨35, w⟩, t), y := dropUpTo t f.y.k f.y.v, u := dropUpTo (t - 1) f.u.k f.u.v } := by
  have hp' : (cfg f).p > 0 := hp
  simp only [Obs.setState, Res.bind_eq_ok, getCurrentTime, Res.ok.injEq, exists_eq_left', lt_irrefl, if_false, hp', if_true] at h
  obtain ⟨_, h1, h2⟩ := h
  have h1 := asserted h1
  have h1 : x.hasSize f.st.n = true := h1
  rw [hn, DVec.hasSize_iff] at h1
  obtain ⟨w, rfl⟩ := h1
  exact ⟨w, rfl, h2.symm⟩

theorem obsSetState_live (f : KFilter E) (w : Fin 35 → ℝ) (t : Int) (hn : f.st.n = 35) (hp : 0 < f.st.p) :
    Obs.setState (cfg f) f ⟨35, w⟩ t =
      .ok { f with x := some (⟨35, w⟩, t), y := dropUpTo t f.y.k f.y.v, u := dropUpTo (t - 1) f.u.k f.u.v } := by
  have hp' : (cfg f).p > 0 := hp
  have h1 : (cfg f).okX ⟨35, w⟩ = true := by show DVec.hasSize ⟨35, w⟩ f.st.n = true; rw [hn, DVec.hasSize_mk]
  simp only [Obs.setState, h1, Res.assert_true, Res.ok_bind, getCurrentTime, lt_irrefl, if_false, hp', if_true]

theorem drop_y_now {m : ℕ} {k : Int} {y : IArr DVec} (hy : YB m k y) : dropUpTo k y.k y.v = y := by
  rcases hy with hy | ⟨w, rfl⟩
  · obtain ⟨i, v⟩ := y; simp only at hy; subst hy; rfl
  · simp [dropUpTo]

theorem drop_u_now {p : ℕ} {k : Int} {u : IArr DVec} (hu : UB p k u) : dropUpTo (k - 1) u.k u.v = u := by
  rcases hu with hu | ⟨w, rfl⟩ | ⟨a, b, rfl⟩
  · obtain ⟨i, v⟩ := u; simp only at hu; subst hu; rfl
  · simp [dropUpTo]
  · simp [dropUpTo]

/-- Setting the state at the current time. -/
theorem FInv.setState {k : Int} {f g : Filter} (hf : FInv k f) {x : DVec} (h : Obs.setState (cfg f) f x k = .ok g) :
    ∃ w, x = ⟨35, w⟩ ∧ g = { f with x := some (⟨35, w⟩, k) } ∧ FInv k g := by
  obtain ⟨w, hw, e⟩ := obsSetState_ok hf.n (by rw [hf.p]; omega) h
  rw [drop_y_now hf.y, drop_u_now hf.u] at e
  subst e
  exact ⟨w, hw, rfl, hf.n, hf.nt, hf.m, hf.mt, hf.p, hf.arith, hf.reach, hf.noise, hf.snoise, hf.dx, hf.pr, ⟨w, rfl⟩, hf.y, hf.u⟩

theorem FInv.setState_live {k : Int} {f : Filter} (hf : FInv k f) (w : Fin 35 → ℝ) :
    Obs.setState (cfg f) f ⟨35, w⟩ k = .ok { f with x := some (⟨35, w⟩, k) } := by
  rw [obsSetState_live f w k hf.n (by rw [hf.p]; omega), drop_y_now hf.y, drop_u_now hf.u]

/-- What predictions and Jacobians do to the filter. -/
structure Upd (f g : Filter) : Prop where
  x : g.x = f.x
  y : g.y = f.y
  u : g.u = f.u
  n : g.st.n = f.st.n
  nt : g.st.nt = f.st.nt
  m : g.st.m = f.st.m
  mt : g.st.mt = f.st.mt
  p : g.st.p = f.st.p
  arith : g.st.arith = f.st.arith
  q : g.st.q = f.st.q
  r : g.st.r = f.st.r
  pr : g.st.pr = f.st.pr
  reach : Reach g.st.ext.sys
  same : Elastic.Same g.st.ext.sys f.st.ext.sys

theorem Upd.refl {f : Filter} (h : Reach f.st.ext.sys) : Upd f f := ⟨rfl, rfl, rfl, rfl, rfl, rfl, rfl, rfl, rfl, rfl, rfl, rfl, h, .refl _⟩

theorem Upd.trans {f g h : Filter} (a : Upd f g) (b : Upd g h) : Upd f h :=
  ⟨b.x.trans a.x, b.y.trans a.y, b.u.trans a.u, b.n.trans a.n, b.nt.trans a.nt, b.m.trans a.m, b.mt.trans a.mt, b.p.trans a.p, b.arith.trans a.arith, b.q.trans a.q, b.r.trans a.r,
    b.pr.trans a.pr, b.reach, b.same.trans a.same⟩

theorem Upd.inv {k : Int} {f g : Filter} (a : Upd f g) (h : FInv k f) : FInv k g where
  n := a.n.trans h.n
  nt := a.nt.trans h.nt
  m := by rw [a.m, h.m, a.same.measSize]
  mt := by rw [a.mt, h.mt, a.same.measSize]
  p := by rw [a.p, h.p, a.same.nb]
  arith := a.arith.trans h.arith
  reach := a.reach
  noise := a.same.noise.trans h.noise
  snoise := a.same.snoise.trans h.snoise
  dx := a.same.dx.trans h.dx
  pr := by rw [a.pr]; exact h.pr
  x := by rw [a.x]; exact h.x
  y := by rw [a.y, a.same.measSize]; exact h.y
  u := by rw [a.u, a.same.nb]; exact h.u

theorem prediction_upd {f g : Filter} {k : Int} (hr : Reach f.st.ext.sys) (h : prediction f k = .ok g) : Upd f g := by
  unfold prediction at h
  split_ifs at h with h1
  · simp only [Res.bind_eq_ok] at h
    obtain ⟨_, -, u, -, h⟩ := h
    cases hx : f.x with
    | none => rw [hx] at h; simp at h
    | some q =>
      rw [hx] at h
      simp only [Res.bind_eq_ok] at h
      obtain ⟨⟨v, sys, g'⟩, h2, h⟩ := h
      cases h
      refine ⟨hx.symm, rfl, rfl, rfl, rfl, rfl, rfl, rfl, rfl, rfl, rfl, rfl, hr.exec (.stateDynamics q.1 u) ?_, (Elastic.stateDynamics_eff hr.inv h2).same⟩
      simp only [Elastic.exec, h2, Res.ok_bind]
  · cases h
    exact .refl hr

theorem simulateSensor_upd {f g : Filter} {x y : DVec} {k : Int} (hr : Reach f.st.ext.sys) (h : simulateSensor f x k = .ok (y, g)) : Upd f g := by
  unfold simulateSensor at h
  simp only [Res.bind_eq_ok] at h
  obtain ⟨_, -, u, -, ⟨v, sys, g'⟩, h2, h⟩ := h
  cases h
  refine ⟨rfl, rfl, rfl, rfl, rfl, rfl, rfl, rfl, rfl, rfl, rfl, rfl, hr.exec (.measureDynamics x u k) ?_, (Elastic.measureDynamics_eff hr.inv h2).1.same⟩
  simp only [Elastic.exec, h2, Res.ok_bind]

theorem predictSensor_upd {f g : Filter} {k : Int} (hr : Reach f.st.ext.sys) (h : predictSensor f k = .ok g) : Upd f g := by
  unfold predictSensor at h
  split_ifs at h with h1
  · simp only [Res.bind_eq_ok] at h
    obtain ⟨xb, -, ⟨y, f'⟩, h2, h⟩ := h
    cases h
    have := simulateSensor_upd hr h2
    cases this
    constructor <;> assumption
  · cases h
    exact .refl hr

theorem updateState_upd {f g : Filter} (hr : Reach f.st.ext.sys) (h : updateStatePrediction f = .ok g) : Upd f g := by
  simp only [updateStatePrediction, Res.bind_eq_ok] at h
  obtain ⟨k, -, h⟩ := h
  exact prediction_upd hr h

theorem updateBoth_upd {f g : Filter} (hr : Reach f.st.ext.sys) (h : updateStateAndMeasurementPrediction f = .ok g) : Upd f g := by
  simp only [updateStateAndMeasurementPrediction, Res.bind_eq_ok] at h
  obtain ⟨f1, h1, k, -, h⟩ := h
  have u1 := updateState_upd hr h1
  exact u1.trans (predictSensor_upd u1.reach h)

theorem jacobians_upd {b : Bool} {f g : Filter} (hr : Reach f.st.ext.sys) (h : jacobians b f = .ok g) : Upd f g := by
  unfold jacobians at h
  split_ifs at h
  · simp only [Res.bind_eq_ok, setA, setC] at h
    obtain ⟨f1, h1, ⟨A, s1, g1⟩, h2, f2, ⟨_, -, h3⟩, ⟨C, s2, g2⟩, h4, _, -, h5⟩ := h
    have u1 := updateBoth_upd hr h1
    have r1 : Reach s1 := u1.reach.exec .stateDynamicsJacobian (by simp only [Elastic.exec, h2, Res.ok_bind])
    have e1 := (Elastic.stateDynamicsJacobian_eff u1.reach.inv h2).same
    cases h3
    have r2 : Reach s2 := r1.exec .measureDynamicsJacobian (by simp only [Elastic.exec, h4, Res.ok_bind])
    have e2 := (Elastic.measureDynamicsJacobian_eff r1.inv h4).same
    cases h5
    have := u1
    cases this
    exact ⟨by assumption, by assumption, by assumption, by assumption, by assumption, by assumption, by assumption, by assumption, by assumption, by assumption, by assumption,
      by assumption, r2, (e2.trans e1).trans u1.same⟩
  · cases h
    exact .refl hr

end StateObs.ModelFlex
