import Verif.Offline.ModelRunSpec
import Verif.Offline.ModelLoop
import Verif.ModelFlex.QProps
import Verif.Kalman.Singular
/-! # The online estimator as a run of the extended Kalman filter -/

namespace StateObs.Offline
open StateObs KF KFSpec Matrix Imu Rot Kine
open StateObs.ModelFlex (Op Config Inv Has Est StateJacobian MeasureJacobian weights)

/-- The parameters of the robot are kept. -/
theorem Robot.same {a : ModelArgs} {n : ℕ} {f g : Elastic.Sys Unit} (h : Robot a n f) (s : Elastic.Same g f) (hr : ModelFlex.Reach g) : Robot a n g :=
  ⟨hr, s.dt.trans h.dt, s.mass.trans h.mass, s.nb.trans h.nb, s.model.trans h.model, s.withForce.trans h.force, s.withAbs.trans h.abs, s.withBias.trans h.bias,
    s.withUnmodeled.trans h.unmodeled, s.noise.trans h.noise, s.snoise.trans h.snoise, s.Kfe.trans h.kfe, s.Kfv.trans h.kfv, s.Kte.trans h.kte, s.Ktv.trans h.ktv⟩

/-- The inputs stored after the data `prev`. -/
def Inputs (prev : Option Datum) (s : Est) : Prop :=
  match prev with
  | some p => s.ekf.u = ⟨s.k, [p.u]⟩ ∧ s.sys.nb = p.n
  | none => s.ekf.u.v = []

/-- The options of the function with `n` contacts. -/
noncomputable def options (a : ModelArgs) (n : ℕ) : Config := { Config.default with nb := n, force := a.withForce, unmodeled := true }

/-- The estimator between two times: `n` contacts, state `x`, covariance `P`. -/
structure Between (mem : ℕ → ℕ → ℕ → ℝ) (a : ModelArgs) (ops : List Op) (s : Est) (x : DVec) (P : Matrix (Fin 35) (Fin 35) ℝ) (prev : Option Datum) : Prop where
  run : ModelFlex.run mem 0.005 ops = .ok s
  quiet : ∀ op ∈ ops, op.predicts = false
  cfg : ∃ n, Config.of ops = options a n
  x : s.ekf.x = some (x, s.k)
  u : Inputs prev s
  P : s.ekf.st.pr = ⟨35, 35, P⟩
  robot : Robot a s.sys.nb s.sys

/-- The constant covariances, as long as no other is given. -/
structure Constants (a : ModelArgs) (s : Est) : Prop where
  Q : s.Q = (constant a.Q).getD ⟨35, 35, defaultCov⟩
  R : ∀ V : Matrix (Fin 6) (Fin 6) ℝ, constant a.R = some ⟨6, 6, V⟩ → s.R = ⟨6, 6, V⟩

theorem resizeF_u {k : Int} {f : ModelFlex.Filter} (hf : ModelFlex.FInv k f) {sys : Elastic.Sys Unit} (h : sys.nb = f.st.ext.sys.nb) : (ModelFlex.resizeF f sys).u = f.u := by
  have e : ∀ g : ModelFlex.Filter, g.st.p = f.st.p → g.st.p = 48 + 12 * sys.nb := fun g e => by rw [e, hf.p, h]
  unfold ModelFlex.resizeF
  have h1 : KF.setInputSize ({ f with st := { f.st with ext := ⟨sys, f.st.ext.optU⟩ } } : ModelFlex.Filter) (48 + 12 * sys.nb) = { f with st := { f.st with ext := ⟨sys, f.st.ext.optU⟩ } } :=
    ModelFlex.setInputSize_same _ (e _ rfl)
  rw [h1]
  obtain ⟨y, c, r, ey, -⟩ := ModelFlex.setMeasureSize_eq ({ f with st := { f.st with ext := ⟨sys, f.st.ext.optU⟩ } } : ModelFlex.Filter) hf.m hf.mt sys.measSize
  rw [ey]

theorem contacts_step {s t : Est} (hi : Inv s) {n : ℕ} (h : ModelFlex.exec s (.setContactsNumber n) = .ok t) :
    t.ekf.x = s.ekf.x ∧ t.k = s.k ∧ t.ekf.st.pr = s.ekf.st.pr ∧ t.Q = s.Q ∧ t.sys = { s.sys with nb := n }.updateMeasurementSize ∧
      (n = s.sys.nb → t.ekf.u = s.ekf.u) ∧ (n ≠ s.sys.nb → t.ekf.u.v = []) ∧ (s.useFT = false → t.R = s.R) := by
  obtain ⟨sys, hs⟩ : ∃ x, { s.sys with nb := n }.updateMeasurementSize = x := ⟨_, rfl⟩
  have hn : sys.nb = n := by rw [← hs]; rfl
  obtain ⟨y, u, c, r, e, -, -, hu1, hu2⟩ := ModelFlex.resizeF_eq hi.f sys
  have hu : n = s.sys.nb → u = s.ekf.u := by
    intro h
    have := resizeF_u hi.f (sys := sys) (hn.trans h)
    rw [e] at this
    exact this
  have hu' : n ≠ s.sys.nb → u.v = [] := by
    intro h
    refine hu2.resolve_left fun h' => h ?_
    have : sys.nb = s.sys.nb := by
      show sys.nb = s.ekf.st.ext.sys.nb
      omega
    omega
  have h := ModelFlex.setContactsNumber_eq hi h hs
  rw [e] at h
  rw [hs]
  rcases h with ⟨h, hf⟩ | ⟨rfl, -⟩
  · obtain ⟨R, m, -, rfl⟩ := ModelFlex.updateR_eq h
    exact ⟨rfl, rfl, rfl, rfl, rfl, hu, hu', fun h => by rw [hf] at h; cases h⟩
  · exact ⟨rfl, rfl, rfl, rfl, rfl, hu, hu', fun _ => rfl⟩

theorem setQ_step {s t : Est} (hi : Inv s) {V : DMat} (h : ModelFlex.exec s (.setProcessNoiseCovariance V) = .ok t) :
    t = { s with Q := V, ekf := { s.ekf with st := { s.ekf.st with q := V } } } := by
  simp only [ModelFlex.exec, ModelFlex.Est.setProcessNoiseCovariance, Res.bind_eq_ok] at h
  obtain ⟨f, h1, h2⟩ := h
  obtain ⟨Q, rfl, rfl⟩ := ModelFlex.setQ_eq hi.f.nt h1
  cases h2
  rfl

theorem setR_step' {s t : Est} (hi : Inv s) {V : DMat} (h : ModelFlex.exec s (.setMeasurementNoiseCovariance V) = .ok t) :
    ∃ R n, t = { s with R := R, allocs := n, ekf := { s.ekf with st := { s.ekf.st with r := R } } } ∧ (V.rows = s.sys.measSize → R = V) := by
  simp only [ModelFlex.exec, ModelFlex.Est.setMeasurementNoiseCovariance, Res.bind_eq_ok] at h
  obtain ⟨_, -, h⟩ := h
  obtain ⟨R, n, h1, rfl⟩ := ModelFlex.updateR_eq h
  refine ⟨_, n, rfl, fun hV => ?_⟩
  unfold ModelFlex.Est.resizedR at h1
  rw [if_neg (fun h => h hV)] at h1
  simp only [Res.ok.injEq, Prod.mk.injEq] at h1
  exact h1.1.symm

theorem optQ_step {s t : Est} (hi : Inv s) {o : Option DMat} (h : (o.map Op.setProcessNoiseCovariance).toList.foldlM ModelFlex.exec s = .ok t) :
    t = { s with Q := o.getD s.Q, ekf := { s.ekf with st := { s.ekf.st with q := o.getD s.Q } } } := by
  cases o with
  | none =>
    cases h
    have := hi.q
    calc s = { s with ekf := { s.ekf with st := { s.ekf.st with q := s.ekf.st.q } } } := rfl
      _ = _ := by rw [this]; rfl
  | some V =>
    simp only [Option.map_some, Option.toList_some, List.foldlM_cons, List.foldlM_nil, Res.bind_eq_ok] at h
    obtain ⟨t', h1, h2⟩ := h
    cases h2
    exact setQ_step hi h1

theorem optR_step {s t : Est} (hi : Inv s) {o : Option DMat} (h : (o.map Op.setMeasurementNoiseCovariance).toList.foldlM ModelFlex.exec s = .ok t) :
    ∃ R n, t = { s with R := R, allocs := n, ekf := { s.ekf with st := { s.ekf.st with r := R } } } ∧ (∀ V, o = some V → V.rows = s.sys.measSize → R = V) ∧ (o = none → R = s.R) := by
  cases o with
  | none =>
    cases h
    refine ⟨s.R, s.allocs, ?_, by simp, fun _ => rfl⟩
    have := hi.r
    calc s = { s with ekf := { s.ekf with st := { s.ekf.st with r := s.ekf.st.r } } } := rfl
      _ = _ := by rw [this]
  | some V =>
    simp only [Option.map_some, Option.toList_some, List.foldlM_cons, List.foldlM_nil, Res.bind_eq_ok] at h
    obtain ⟨t', h1, h2⟩ := h
    cases h2
    obtain ⟨R, n, e, hR⟩ := setR_step' hi h1
    exact ⟨R, n, e, fun V' e hV => by cases e; exact hR hV, by simp⟩

theorem getVector_params {s t : Est} (hi : Inv s) (hon : s.on = true) (hy : s.ekf.y.v ≠ []) (h : ModelFlex.exec s .getFlexibilityVector = .ok t) :
    t.Q = s.Q ∧ t.R = s.R ∧ Elastic.Same t.sys s.sys := by
  obtain ⟨f1, f, z, o, hj, hs, -, -, rfl⟩ := ModelFlex.getVector_ok hi hon hy h
  have u := ModelFlex.jacobians_upd hi.f.reach hj
  obtain ⟨-, -, -, s2⟩ := ModelFlex.oneStep_inv (u.inv hi.f) hs
  exact ⟨rfl, rfl, s2.trans u.same⟩

theorem run_of {mem : ℕ → ℕ → ℕ → ℝ} {dt : ℝ} {ops ops' : List Op} {s t : Est} (h : ModelFlex.run mem dt ops = .ok s) (h' : ops'.foldlM ModelFlex.exec s = .ok t) :
    ModelFlex.run mem dt (ops ++ ops') = .ok t := (run_append h).trans h'

theorem robot_contacts {a : ModelArgs} {m n : ℕ} {f : Elastic.Sys Unit} (h : Robot a m f) : Robot a n ({ f with nb := n }.updateMeasurementSize) :=
  ⟨h.reach.exec (.setContactsNumber n) rfl, h.dt, h.mass, rfl, h.model, h.force, h.abs, h.bias, h.unmodeled, h.noise, h.snoise, h.kfe, h.kfv, h.kte, h.ktv⟩

theorem options_ask (a : ModelArgs) (n : ℕ) (d : Datum) : (ask d).foldl Config.after (options a n) = options a d.n := by
  have hQ : ∀ (o : Option DMat) (c : Config), (o.map Op.setProcessNoiseCovariance).toList.foldl Config.after c = c := by rintro (_ | _) c <;> rfl
  have hR : ∀ (o : Option DMat) (c : Config), (o.map Op.setMeasurementNoiseCovariance).toList.foldl Config.after c = c := by rintro (_ | _) c <;> rfl
  unfold ask
  simp only [List.foldl_append, hQ, hR]
  rfl

theorem ask_quiet (d : Datum) : ∀ op ∈ ask d, op.predicts = false := by
  obtain ⟨n, y, u, Q, R⟩ := d
  intro op h
  cases Q <;> cases R <;> simp [ask] at h <;> rcases h with h | h | h | h | h | h <;> simp_all [ModelFlex.Op.predicts]

theorem limited_eq {s : Est} (h1 : s.limOn = true) (h2 : s.limF = weights ![100, 100, 1000]) (h3 : s.limT = weights ![10, 10, 100]) (z : Fin 35 → ℝ) (o : V3) :
    ModelFlex.finalState s z o = limited z o := by
  funext i
  unfold ModelFlex.finalState limited clip
  simp only [h1, h2, h3, and_true]

/-- `t` differs from `s` by the data and the covariances only. -/
structure Alike (s t : Est) : Prop where
  sys : t.sys = s.sys
  k : t.k = s.k
  x : t.ekf.x = s.ekf.x
  pr : t.ekf.st.pr = s.ekf.st.pr
  on : t.on = s.on
  fd : t.fd = s.fd
  limOn : t.limOn = s.limOn
  limF : t.limF = s.limF
  limT : t.limT = s.limT

theorem Alike.trans {s t r : Est} (a : Alike s t) (b : Alike t r) : Alike s r :=
  ⟨b.sys.trans a.sys, b.k.trans a.k, b.x.trans a.x, b.pr.trans a.pr, b.on.trans a.on, b.fd.trans a.fd, b.limOn.trans a.limOn, b.limF.trans a.limF, b.limT.trans a.limT⟩

/-- The calls for one time are one step. -/
theorem ask_step {mem : ℕ → ℕ → ℕ → ℝ} {a : ModelArgs} {ops : List Op} {s t : Est} {x : DVec} {P : Matrix (Fin 35) (Fin 35) ℝ} {prev : Option Datum} {d : Datum}
    (hl : Between mem a ops s x P prev) (hP : P.PosSemidef) {Q : Matrix (Fin 35) (Fin 35) ℝ} (hQ : d.Q.getD s.Q = ⟨35, 35, Q⟩) (hQ' : Q.PosSemidef)
    {R : Matrix (Fin d.y.size) (Fin d.y.size) ℝ} (hR : d.R = some ⟨_, _, R⟩ ∨ d.R = none ∧ a.withForce = false ∧ s.R = ⟨_, _, R⟩) (hR' : R.PosSemidef)
    (h : (ask d).foldlM ModelFlex.exec s = .ok t) :
    ∃ (f f1 f2 : Elastic.Sys Unit) (xb : Fin 35 → ℝ) (yb : Fin d.y.size → ℝ) (A : Matrix (Fin 35) (Fin 35) ℝ) (C : Matrix (Fin d.y.size) (Fin 35) ℝ) (z : Fin 35 → ℝ) (o : V3),
      Robot a d.n f ∧ f.stateDynamics x (predictionInput prev d) () = .ok (⟨35, xb⟩, f1, ()) ∧ f1.measureDynamics ⟨35, xb⟩ d.u (s.k + 1) () = .ok (⟨_, yb⟩, f2, ()) ∧
      StateJacobian f x (predictionInput prev d) xb A ∧ MeasureJacobian f1 ⟨35, xb⟩ d.u (s.k + 1) yb C ∧ z = xb + gain C R (predCov A Q P) *ᵥ (d.y.val - yb) ∧
      regulateOrientationVector (seg 3 z 3) = .ok o ∧ t.lastX = ⟨35, limited z o⟩ ∧ val t.ekf.st.xbar = .ok ⟨35, xb⟩ ∧
      t.ekf.st.innovation = ⟨35, gain C R (predCov A Q P) *ᵥ (d.y.val - yb)⟩ ∧ val t.ekf.st.ybar = .ok ⟨_, yb⟩ ∧ t.k = s.k + 1 ∧
      (posterior C R (predCov A Q P)).PosSemidef ∧ Between mem a (ops ++ ask d) t t.lastX (posterior C R (predCov A Q P)) (some d) ∧ t.Q = d.Q.getD s.Q ∧
      (d.R = none → a.withForce = false → t.R = s.R) ∧ t.ekf.y.v = [] ∧ t.on = true := by
  obtain ⟨n0, hcfg⟩ := hl.cfg
  have hrun := run_of hl.run h
  have hi := ModelFlex.inv_run hl.run
  have hc := ModelFlex.has_run hl.run
  rw [hcfg] at hc
  have h0 := h
  unfold ask at h
  simp only [List.foldlM_append, List.foldlM_cons, List.foldlM_nil, bind_assoc, bind_pure, Res.bind_eq_ok] at h
  obtain ⟨s1, h1, s2, h2, s3, h3, s4, h4, s5, h5, h6⟩ := h
  have e6 := h6
  have r5 : ModelFlex.run mem 0.005 (ops ++ ([.setContactsNumber d.n, .setMeasurement d.y, .setMeasurementInput d.u] ++ (d.Q.map Op.setProcessNoiseCovariance).toList ++
      (d.R.map Op.setMeasurementNoiseCovariance).toList)) = .ok s5 := by
    refine run_of hl.run ?_
    simp only [List.foldlM_append, List.foldlM_cons, List.foldlM_nil, bind_assoc, bind_pure, Res.bind_eq_ok]
    exact ⟨s1, h1, s2, h2, s3, h3, s4, h4, h5⟩
  have q5 : ∀ op ∈ ops ++ ([.setContactsNumber d.n, .setMeasurement d.y, .setMeasurementInput d.u] ++ (d.Q.map Op.setProcessNoiseCovariance).toList ++
      (d.R.map Op.setMeasurementNoiseCovariance).toList), op.predicts = false := by
    intro op hop
    rcases List.mem_append.1 hop with hop | hop
    · exact hl.quiet op hop
    · exact ask_quiet d op (by unfold ask; exact List.mem_append_left _ hop)
  have i1 := ModelFlex.inv_exec hi _ h1
  obtain ⟨a1, a2, a3, a4, a5, a6, a7, a8⟩ := contacts_step hi h1
  have i2 := ModelFlex.inv_exec i1 _ h2
  obtain ⟨w, hw, e2⟩ := ModelFlex.setMeas_eq i1 h2
  have i3 := ModelFlex.inv_exec i2 _ h3
  obtain ⟨v, p, hv, e3, hp⟩ := ModelFlex.setMeasInput_eq i2 h3
  have e4 := optQ_step i3 h4
  have i4 := foldlM_ok i3 h4
  obtain ⟨R5, n5, e5, hR1, hR2⟩ := optR_step i4 h5
  have i5 := foldlM_ok i4 h5
  -- the state before the estimation
  have f2 : Alike s1 s2 ∧ s2.Q = s1.Q ∧ s2.R = s1.R ∧ s2.ekf.u = s1.ekf.u ∧ s2.ekf.y = ⟨s1.k + 1, [d.y]⟩ := by
    rw [e2, hw]; exact ⟨⟨rfl, rfl, rfl, rfl, rfl, rfl, rfl, rfl, rfl⟩, rfl, rfl, rfl, rfl⟩
  have f3 : Alike s2 s3 ∧ s3.Q = s2.Q ∧ s3.R = s2.R ∧ s3.ekf.y = s2.ekf.y ∧ s3.ekf.u = ⟨s2.k, [⟨_, p⟩, ⟨_, v⟩]⟩ := by
    rw [e3]; exact ⟨⟨rfl, rfl, rfl, rfl, rfl, rfl, rfl, rfl, rfl⟩, rfl, rfl, rfl, rfl⟩
  have f4 : Alike s3 s4 ∧ s4.Q = d.Q.getD s3.Q ∧ s4.R = s3.R ∧ s4.ekf.y = s3.ekf.y ∧ s4.ekf.u = s3.ekf.u := by
    rw [e4]; exact ⟨⟨rfl, rfl, rfl, rfl, rfl, rfl, rfl, rfl, rfl⟩, rfl, rfl, rfl, rfl⟩
  have f5 : Alike s4 s5 ∧ s5.Q = s4.Q ∧ s5.R = R5 ∧ s5.ekf.y = s4.ekf.y ∧ s5.ekf.u = s4.ekf.u := by
    rw [e5]; exact ⟨⟨rfl, rfl, rfl, rfl, rfl, rfl, rfl, rfl, rfl⟩, rfl, rfl, rfl, rfl⟩
  have l25 := f3.1.trans (f4.1.trans f5.1)
  have l := f2.1.trans l25
  have hk5 : s5.k = s.k := l.k.trans a2
  have hx5 : s5.ekf.x = some (x, s5.k) := by rw [hk5, l.x, a1, hl.x]
  have hP5 : s5.ekf.st.pr = ⟨35, 35, P⟩ := by rw [l.pr, a3, hl.P]
  have hQ5 : s5.Q = ⟨35, 35, Q⟩ := by rw [f5.2.1, f4.2.1, f3.2.1, f2.2.1, a4, hQ]
  have hm : d.y.size = s1.sys.measSize := by rw [hw]
  have hRn : d.R = none → a.withForce = false → s5.R = s.R := by
    intro h1 h2
    rw [f5.2.2.1, hR2 h1, f4.2.2.1, f3.2.2.1, f2.2.2.1]
    exact a8 (by rw [hc.force]; exact h2)
  have hR5 : s5.R = ⟨_, _, R⟩ := by
    rcases hR with hR | ⟨hR, hF, hs⟩
    · rw [f5.2.2.1]
      refine hR1 _ hR ?_
      rw [(f2.1.trans (f3.1.trans f4.1)).sys]
      exact hm
    · rw [hRn hR hF, hs]
  have rob1 : Robot a d.n s1.sys := by rw [a5]; exact robot_contacts hl.robot
  have hu5 : s5.ekf.u = ⟨s5.k, [predictionInput prev d, d.u]⟩ := by
    have hk2 : s2.k = s.k := f2.1.k.trans a2
    rw [hk5, f5.2.2.2.2, f4.2.2.2.2, f3.2.2.2.2, hk2, ← hv]
    rw [f2.2.2.2.1] at hp
    congr 2
    have hnone : s1.ekf.u.v = [] → (⟨48 + 12 * s2.sys.nb, p⟩ : DVec) = d.u := by
      intro h0
      rcases hp with ⟨-, rfl⟩ | ⟨l, hp⟩
      · exact hv.symm
      · rw [hp] at h0; cases h0
    unfold predictionInput
    cases prev with
    | none =>
      refine hnone ?_
      by_cases hn : d.n = s.sys.nb
      · rw [a6 hn]; exact hl.u
      · exact a7 hn
    | some b =>
      obtain ⟨b1, b2⟩ := hl.u
      by_cases hn : b.n = d.n
      · show _ = if b.n = d.n then b.u else d.u
        rw [if_pos hn]
        have hs : s1.ekf.u = ⟨s.k, [b.u]⟩ := (a6 (by omega)).trans b1
        rcases hp with ⟨h0, -⟩ | ⟨l, hp⟩
        · rw [hs] at h0; cases h0
        · rw [hs, hk2] at hp
          injection hp with _ hp
          injection hp with hp _
          exact hp.symm
      · show _ = if b.n = d.n then b.u else d.u
        rw [if_neg hn]
        exact hnone (a7 (by omega))
  have hy5 : s5.ekf.y = ⟨s5.k + 1, [d.y]⟩ := by rw [hk5, f5.2.2.2.1, f4.2.2.2.1, f3.2.2.2.1, f2.2.2.2.2, a2]
  have hc1 := ModelFlex.has_exec hi hc _ h1
  have hon5 : s5.on = true := by rw [l.on]; exact hc1.on
  have hfd5 : s5.fd = true := by rw [l.fd]; exact hc1.fd
  have hlim : s5.limOn = true := by rw [l.limOn]; exact hc1.limit
  have hlimF : s5.limF = weights ![100, 100, 1000] := by rw [l.limF]; exact hc1.forces
  have hlimT : s5.limT = weights ![10, 10, 100] := by rw [l.limT]; exact hc1.torques
  have hsys : s5.sys = s1.sys := l.sys
  -- sizes
  have hm5 : s5.sys.measSize = d.y.size := by rw [hsys, hm]
  have key : ∀ (dy : DVec), s5.sys.measSize = dy.size → s5.ekf.y = ⟨s5.k + 1, [dy]⟩ → ∀ R : Matrix (Fin dy.size) (Fin dy.size) ℝ, s5.R = ⟨_, _, R⟩ → R.PosSemidef →
      ∃ xb f1 f2, ∃ (yb : Fin dy.size → ℝ) (A : Matrix (Fin 35) (Fin 35) ℝ) (C : Matrix (Fin dy.size) (Fin 35) ℝ) (o : V3),
        s5.sys.stateDynamics x (predictionInput prev d) () = .ok (⟨35, xb⟩, f1, ()) ∧ f1.measureDynamics ⟨35, xb⟩ d.u (s5.k + 1) () = .ok (⟨_, yb⟩, f2, ()) ∧
        StateJacobian s5.sys x (predictionInput prev d) xb A ∧ MeasureJacobian f1 ⟨35, xb⟩ d.u (s5.k + 1) yb C ∧ (innovCov C R (predCov A Q P)).PosDef ∧
        t.ekf.st.pr = ⟨35, 35, posterior C R (predCov A Q P)⟩ ∧ regulateOrientationVector (seg 3 (xb + gain C R (predCov A Q P) *ᵥ (dy.val - yb)) 3) = .ok o ∧
        t.lastX = ⟨35, ModelFlex.finalState s5 (xb + gain C R (predCov A Q P) *ᵥ (dy.val - yb)) o⟩ ∧ t.k = s5.k + 1 ∧ t.ekf.x = some (t.lastX, s5.k + 1) ∧ t.ekf.y.v = [] ∧
        t.ekf.u = ⟨s5.k + 1, [d.u]⟩ ∧ val t.ekf.st.xbar = .ok ⟨35, xb⟩ ∧ val t.ekf.st.ybar = .ok ⟨_, yb⟩ ∧
        t.ekf.st.innovation = ⟨35, gain C R (predCov A Q P) *ᵥ (dy.val - yb)⟩ := by
    rintro ⟨m, yv⟩ hm hy R hR hR'
    dsimp only at hm R
    subst hm
    obtain ⟨p, u, hu, xb, yb, f1, f2, A, C, g1, g2, g3, g4, g5, g6, -, -, o, g7, g8, g9, g10, g11, g12, g13, g14, g15⟩ :=
      ModelFlex.C96_step r5 q5 hon5 hfd5 hx5 hy hP5 hQ5 hR hP hQ' hR' e6
    rw [hu5] at hu
    injection hu with _ hu
    injection hu with hu hu'
    injection hu' with hu' _
    subst hu hu'
    exact ⟨xb, f1, f2, yb, A, C, o, g1, g2, g3, g4, g5, g6, g7, g8, g9, g10, g11, g12, g13, g14, g15⟩
  obtain ⟨xb, f1, f2, yb, A, C, o, g1, g2, g3, g4, g5, g6, g7, g8, g9, g10, g11, g12, g13, g14, g15⟩ := key d.y hm5 hy5 R hR5 hR'
  obtain ⟨b1, b2, b3⟩ := getVector_params i5 hon5 (by rw [hy5]; simp) e6
  have rob5 : Robot a d.n s5.sys := by rw [hsys]; exact rob1
  have it := ModelFlex.inv_exec i5 _ e6
  have robt : Robot a d.n t.sys := rob5.same b3 it.f.reach
  refine ⟨s5.sys, f1, f2, xb, yb, A, C, _, o, rob5, g1, by rw [← hk5]; exact g2, g3, by rw [← hk5]; exact g4, rfl, g7, ?_, g13, g15, g14, by rw [← hk5]; exact g9,
    posterior_psd' g5 hR' (predCov_psd hQ' hP), ⟨hrun, ?_, ⟨d.n, ?_⟩, ?_, ⟨?_, robt.nb⟩, g6, ?_⟩, ?_, ?_, g11, ?_⟩
  · rw [g8, limited_eq hlim hlimF hlimT]
  · intro op hop
    rcases List.mem_append.1 hop with hop | hop
    · exact hl.quiet op hop
    · exact ask_quiet d op hop
  · unfold Config.of at hcfg ⊢
    rw [List.foldl_append, hcfg, options_ask]
  · rw [g10, g9]
  · rw [g12, g9]
  · rw [robt.nb]; exact robt
  · rw [b1, hQ5, hQ]
  · intro hn hF
    rw [b2, hRn hn hF]
  · have := (ModelFlex.getVector_kept i5 e6).on
    rw [this, hon5]

/-! ## The beginning -/

/-- What the calls of the beginning leave. -/
structure Fresh (a : ModelArgs) (g : Option DMat) (h : Option DMat) (s : Est) : Prop where
  inv : Inv s
  k : s.k = 0
  u : s.ekf.u.v = []
  pr : s.ekf.st.pr = ⟨35, 35, defaultCov⟩
  Q : s.Q = g.getD ⟨35, 35, defaultCov⟩
  R : ∀ V : Matrix (Fin 6) (Fin 6) ℝ, h = some ⟨6, 6, V⟩ → s.R = ⟨6, 6, V⟩

theorem param_step {s t : Est} {p : ModelFlex.Param} (h : ModelFlex.exec s (.param p) = .ok t) :
    ∃ f, Elastic.exec s.sys () p.op = .ok (f, ()) ∧ t = s.setSys f := by
  simp only [ModelFlex.exec, Res.bind_eq_ok] at h
  obtain ⟨⟨f, _⟩, h1, h2⟩ := h
  cases h2
  exact ⟨f, h1, rfl⟩

theorem Fresh.param {a : ModelArgs} {g h : Option DMat} {s t : Est} (hs : Fresh a g h s) {p : ModelFlex.Param} (ht : ModelFlex.exec s (.param p) = .ok t) : Fresh a g h t := by
  obtain ⟨f, -, e⟩ := param_step ht
  have i := ModelFlex.inv_exec hs.inv _ ht
  subst e
  exact ⟨i, hs.k, hs.u, hs.pr, hs.Q, hs.R⟩

theorem Fresh.setQ {a : ModelArgs} {h : Option DMat} {s t : Est} (hs : Fresh a none h s) {o : Option DMat} (ht : (o.map Op.setProcessNoiseCovariance).toList.foldlM ModelFlex.exec s = .ok t) :
    Fresh a o h t ∧ t.sys = s.sys ∧ t.withUnmodeled = s.withUnmodeled ∧ t.useFT = s.useFT := by
  have i := foldlM_ok hs.inv ht
  have e := optQ_step hs.inv ht
  subst e
  refine ⟨⟨i, hs.k, hs.u, hs.pr, ?_, hs.R⟩, rfl, rfl, rfl⟩
  show o.getD s.Q = _
  rw [hs.Q]
  rfl

theorem Fresh.setR {a : ModelArgs} {g : Option DMat} {s t : Est} (hs : Fresh a g none s) (hm : s.sys.measSize = 6) {o : Option DMat}
    (ht : (o.map Op.setMeasurementNoiseCovariance).toList.foldlM ModelFlex.exec s = .ok t) :
    Fresh a g o t ∧ t.sys = s.sys ∧ t.withUnmodeled = s.withUnmodeled ∧ t.useFT = s.useFT := by
  have i := foldlM_ok hs.inv ht
  obtain ⟨R, n, e, h1, h2⟩ := optR_step hs.inv ht
  subst e
  refine ⟨⟨i, hs.k, hs.u, hs.pr, hs.Q, fun V hV => h1 _ hV hm.symm⟩, rfl, rfl, rfl⟩

theorem updateR_same {s t : Est} (h : s.updateR = .ok t) : (s.R.rows = s.sys.measSize → t.R = s.R) ∧ t.ekf.u = s.ekf.u ∧ t.ekf.st.pr = s.ekf.st.pr ∧ t.Q = s.Q ∧ t.k = s.k ∧ t.ekf.x = s.ekf.x ∧
    t.sys = s.sys ∧ t.useFT = s.useFT ∧ t.withUnmodeled = s.withUnmodeled := by
  obtain ⟨R, m, h1, rfl⟩ := ModelFlex.updateR_eq h
  refine ⟨fun hR => ?_, rfl, rfl, rfl, rfl, rfl, rfl, rfl, rfl⟩
  unfold ModelFlex.Est.resizedR at h1
  rw [if_neg (fun h => h hR)] at h1
  simp only [Res.ok.injEq, Prod.mk.injEq] at h1
  exact h1.1.symm

theorem Fresh.resize {a : ModelArgs} {g h : Option DMat} {s t r : Est} (hs : Fresh a g h s) {sys : Elastic.Sys Unit} (ht : r.updateR = .ok t) (hr : r.ekf = ModelFlex.resizeF s.ekf sys) (hk : r.k = s.k) (hQ : r.Q = s.Q) (hR : r.R = s.R)
    (hm : sys.measSize = 6) (i : Inv t) : Fresh a g h t ∧ t.sys = sys ∧ t.ekf.x = s.ekf.x ∧ t.k = s.k ∧ t.useFT = r.useFT := by
  obtain ⟨y, u, c, r', e, -, -, hu, -⟩ := ModelFlex.resizeF_eq hs.inv.f sys
  rw [e] at hr
  obtain ⟨h1, h2, h3, h4, h5, h6, h7, h8, -⟩ := updateR_same ht
  have hsys : r.sys = sys := by show r.ekf.st.ext.sys = _; rw [hr]
  refine ⟨⟨i, ?_, ?_, ?_, ?_, fun V hV => ?_⟩, ?_, ?_, ?_, h8⟩
  · rw [h5, hk, hs.k]
  · rw [h2, hr]
    show u.v = []
    rcases hu with rfl | hu
    · exact hs.u
    · exact hu
  · rw [h3, hr]; exact hs.pr
  · rw [h4, hQ, hs.Q]
  · have := hs.R V hV
    rw [h1 (by rw [hR, this, hsys, hm]), hR, this]
  · rw [h7, hsys]
  · rw [h6, hr]
  · rw [h5, hk]

theorem default_eq {s : Est} {c : Config} (hc : Has s c) (h1 : c.unmodeled = false) (h2 : c.bias = false) (h3 : c.abs = false) : ModelFlex.square 35 s.resetQ = ⟨35, 35, defaultCov⟩ := by
  unfold ModelFlex.square defaultCov
  congr 1
  funext i j
  rw [ModelFlex.resetQ_at hc _ _ j.2, Matrix.diagonal_apply]
  unfold ModelFlex.expectedQ
  simp only [h1, h2, h3, Fin.ext_iff]
  simp

theorem defaultCov_psd : defaultCov.PosSemidef := by
  refine Matrix.PosSemidef.diagonal fun i => ?_
  show (0 : ℝ) ≤ if i.val < 12 then 1e-8 else if i.val < 24 then 1e-4 else 0
  split_ifs <;> norm_num

theorem options_before (a : ModelArgs) : Config.of (before a) = options a 0 := by
  have hg : ∀ c : Config, (gains a).foldl Config.after c = c := by
    intro c
    unfold gains
    split_ifs <;> rfl
  have hQ : ∀ (o : Option DMat) (c : Config), (o.map Op.setProcessNoiseCovariance).toList.foldl Config.after c = c := by rintro (_ | _) c <;> rfl
  have hR : ∀ (o : Option DMat) (c : Config), (o.map Op.setMeasurementNoiseCovariance).toList.foldl Config.after c = c := by rintro (_ | _) c <;> rfl
  unfold Config.of before
  simp only [List.foldl_append, hQ, hR, hg]
  rfl

theorem before_quiet (a : ModelArgs) : ∀ op ∈ before a, op.predicts = false := by
  intro op h
  unfold before gains at h
  cases hQ : constant a.Q <;> cases hR : constant a.R <;> rw [hQ, hR] at h <;> split_ifs at h <;> simp at h <;> aesop (add norm simp ModelFlex.Op.predicts)

end StateObs.Offline
