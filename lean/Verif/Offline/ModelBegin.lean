import Verif.Offline.ModelRunLoop
/-! # The online estimator after the calls of the beginning -/

namespace StateObs.Offline
open StateObs KF KFSpec Matrix Imu Rot Kine
open StateObs.ModelFlex (Op Config Inv Has Est StateJacobian MeasureJacobian weights)

/-- The parameters of a model of the robot without contacts. -/
structure Prm (dt m : ℝ) (md : ℕ) (F U : Bool) (a b c d : M3) (f : Elastic.Sys Unit) : Prop where
  dt : f.dt = dt
  mass : f.mass = m
  nb : f.nb = 0
  model : f.model = md
  force : f.withForce = F
  abs : f.withAbs = false
  bias : f.withBias = false
  unmodeled : f.withUnmodeled = U
  noise : f.noise = none
  snoise : f.sensor.noise = none
  kfe : f.Kfe = a
  kfv : f.Kfv = b
  kte : f.Kte = c
  ktv : f.Ktv = d

section
variable {dt m : ℝ} {md : ℕ} {F U : Bool} {a b c d : M3}

theorem Prm.withUnmodeled {f : Elastic.Sys Unit} (h : Prm dt m md F U a b c d f) (V : Bool) : Prm dt m md F V a b c d { f with withUnmodeled := V } :=
  ⟨h.dt, h.mass, h.nb, h.model, h.force, h.abs, h.bias, rfl, h.noise, h.snoise, h.kfe, h.kfv, h.kte, h.ktv⟩

theorem Prm.withForce {f : Elastic.Sys Unit} (h : Prm dt m md F U a b c d f) (V : Bool) : Prm dt m md V U a b c d { f with withForce := V }.updateMeasurementSize :=
  ⟨h.dt, h.mass, h.nb, h.model, rfl, h.abs, h.bias, h.unmodeled, h.noise, h.snoise, h.kfe, h.kfv, h.kte, h.ktv⟩

theorem Prm.exec {s t : Est} {p : ModelFlex.Param} (h : Prm dt m md F U a b c d s.sys) (e : ModelFlex.exec s (.param p) = .ok t) : match (generalizing := false) p with
    | .setContactModel n => Prm dt m n F U a b c d t.sys
    | .setSamplingPeriod x => Prm x m md F U a b c d t.sys
    | .setRobotMass x => Prm dt x md F U a b c d t.sys
    | .setKfe x => Prm dt m md F U x b c d t.sys
    | .setKfv x => Prm dt m md F U a x c d t.sys
    | .setKte x => Prm dt m md F U a b x d t.sys
    | .setKtv x => Prm dt m md F U a b c x t.sys
    | _ => True := by
  obtain ⟨f, h1, rfl⟩ := param_step e
  have hs : (s.setSys f).sys = f := rfl
  rw [hs]
  generalize s.sys = g at h h1
  obtain ⟨a1, a2, a3, a4, a5, a6, a7, a8, a9, a10, a11, a12, a13, a14⟩ := h
  cases p <;> cases h1 <;> first | trivial | (constructor <;> first | assumption | rfl)

end

/-- The estimator after the calls of the beginning. -/
theorem begins' {mem : ℕ → ℕ → ℕ → ℝ} {a : ModelArgs} {s : Est} (h : ModelFlex.run mem 0.005 (before a) = .ok s) :
    (∃ x, Starts a.xh0 x ∧ Between mem a (before a) s x defaultCov none ∧ Constants a s) ∧ s.k = 0 := by
  obtain ⟨s0, e0, i0, -, -, -, -, -, k0, -, x0, -, u0, -, -, Q0, -, p0, -, ft0, -, -, wu0, sys0, -⟩ := ModelFlex.ctor_eq mem 0.005
  have hrun := h
  have c0 : Has s0 Config.default := by
    have := ModelFlex.has_run (mem := mem) (dt := 0.005) (ops := []) (s := s0) (by rw [ModelFlex.run, e0]; rfl)
    exact this
  have d0 := default_eq c0 rfl rfl rfl
  have f0 : Fresh a none none s0 := ⟨i0, k0, u0, by rw [p0, Q0, d0], by rw [Q0, d0]; rfl, by simp⟩
  rw [ModelFlex.run, e0, Res.ok_bind] at h
  unfold before at h
  simp only [List.foldlM_append, List.foldlM_cons, List.foldlM_nil, bind_assoc, bind_pure, Res.bind_eq_ok] at h
  obtain ⟨s1, h1, s2, h2, s3, h3, s4, h4, s5, h5, s6, h6, s7, h7, s8, h8, h9⟩ := h
  have f1 := f0.param h1
  have f2 := f1.param h2
  have f3 := f2.param h3
  have b0 : Prm 0.005 Elastic.hrp2m 0 false false ((40000 : ℝ) • (1 : M3)) ((600 : ℝ) • (1 : M3)) ((600 : ℝ) • (1 : M3)) ((60 : ℝ) • (1 : M3)) s0.sys := by
    rw [sys0]
    exact ⟨rfl, rfl, rfl, rfl, rfl, rfl, rfl, rfl, rfl, rfl, rfl, rfl, rfl, rfl⟩
  have b1 := b0.exec h1
  have b2 := b1.exec h2
  have b3 := b2.exec h3
  dsimp only at b3
  have c3 := ModelFlex.has_exec f2.inv (ModelFlex.has_exec f1.inv (ModelFlex.has_exec i0 c0 _ h1) _ h2) _ h3
  have w3 : s3.withUnmodeled = false ∧ s3.useFT = false := ⟨c3.unmodeled, c3.force⟩
  obtain ⟨f4, y4, w4⟩ := f3.setQ h4
  have m4 : s4.sys.measSize = 6 := by rw [y4, c3.size f3.inv]; rfl
  obtain ⟨f5, y5, w5⟩ := f4.setR m4 h5
  obtain ⟨w, r6, hw⟩ := ModelFlex.setGuess_eq f5.inv h6
  have i6 := ModelFlex.inv_exec f5.inv _ h6
  have f6 : Fresh a (constant a.Q) (constant a.R) s6 := by
    subst r6
    exact ⟨i6, f5.k, f5.u, f5.pr, f5.Q, f5.R⟩
  have y6 : s6.sys = s5.sys ∧ s6.ekf.x = some (⟨35, w⟩, s5.k) ∧ s6.withUnmodeled = s5.withUnmodeled ∧ s6.useFT = s5.useFT := by rw [r6]; exact ⟨rfl, rfl, rfl, rfl⟩
  have i7 := ModelFlex.inv_exec i6 _ h7
  have r7 := ModelFlex.setWithUnmodeled_eq i6 (by rw [y6.2.2.1, w5.1, w4.1, w3.1]; simp) h7
  have m6 : s6.sys.measSize = 6 := by rw [y6.1, y5, m4]
  obtain ⟨f7, y7, x7, k7, u7⟩ := f6.resize (sys := { s6.sys with withUnmodeled := true }) r7 rfl rfl rfl rfl m6 i7
  have u7 : s7.useFT = false := by rw [u7]; show s6.useFT = false; rw [y6.2.2.2, w5.2, w4.2, w3.2]
  have i8 := ModelFlex.inv_exec i7 _ h8
  have b7 : Prm a.dt a.mass 1 false true ((40000 : ℝ) • (1 : M3)) ((600 : ℝ) • (1 : M3)) ((600 : ℝ) • (1 : M3)) ((60 : ℝ) • (1 : M3)) s7.sys := by
    rw [y7, y6.1, y5, y4]
    exact b3.withUnmodeled true
  have f8 : Fresh a (constant a.Q) (constant a.R) s8 ∧ Prm a.dt a.mass 1 a.withForce true ((40000 : ℝ) • (1 : M3)) ((600 : ℝ) • (1 : M3)) ((600 : ℝ) • (1 : M3)) ((60 : ℝ) • (1 : M3)) s8.sys ∧
      s8.ekf.x = s7.ekf.x := by
    by_cases hF : a.withForce = true
    · have r8 := ModelFlex.setWithForces_eq i7 (by rw [u7, hF]; simp) h8
      obtain ⟨f8, y8, x8, -, -⟩ := f7.resize (sys := { s7.sys with withForce := a.withForce }.updateMeasurementSize) r8 rfl rfl rfl rfl (by rw [Elastic.Sys.updateMeasurementSize]; simp [b7.nb, b7.abs]) i8
      exact ⟨f8, by rw [y8]; exact b7.withForce _, x8⟩
    · have hF : a.withForce = false := by simpa using hF
      simp only [ModelFlex.exec, ModelFlex.Est.setWithForcesMeasurements] at h8
      rw [if_neg (by rw [u7, hF]; simp)] at h8
      cases h8
      exact ⟨f7, by rw [hF]; exact b7, rfl⟩
  obtain ⟨f8, b8, x8⟩ := f8
  have hx8 : s8.ekf.x = some (⟨35, w⟩, 0) := by rw [x8, x7, y6.2.1, f5.k]
  have rob : ∀ (t : Est) (k1 k2 k3 k4 : M3), Inv t → Prm a.dt a.mass 1 a.withForce true k1 k2 k3 k4 t.sys → k1 = (if a.kfe = 0 then (40000 : ℝ) • (1 : M3) else a.kfe) →
      k2 = (if a.kfe = 0 then (600 : ℝ) • (1 : M3) else a.kfv) → k3 = (if a.kfe = 0 then (600 : ℝ) • (1 : M3) else a.kte) → k4 = (if a.kfe = 0 then (60 : ℝ) • (1 : M3) else a.ktv) →
      Robot a 0 t.sys := by
    intro t k1 k2 k3 k4 i h e1 e2 e3 e4
    exact ⟨i.f.reach, h.dt, h.mass, h.nb, h.model, h.force, h.abs, h.bias, h.unmodeled, h.noise, h.snoise, h.kfe.trans e1, h.kfv.trans e2, h.kte.trans e3, h.ktv.trans e4⟩
  have hend : Fresh a (constant a.Q) (constant a.R) s ∧ s.ekf.x = s8.ekf.x ∧ Robot a 0 s.sys := by
    unfold gains at h9
    by_cases hk : a.kfe = 0
    · rw [if_pos hk] at h9
      cases h9
      exact ⟨f8, rfl, rob s _ _ _ _ f8.inv b8 (by rw [if_pos hk]) (by rw [if_pos hk]) (by rw [if_pos hk]) (by rw [if_pos hk])⟩
    · rw [if_neg hk] at h9
      simp only [List.foldlM_cons, List.foldlM_nil, bind_assoc, bind_pure, Res.bind_eq_ok] at h9
      obtain ⟨t1, j1, t2, j2, t3, j3, j4⟩ := h9
      have f9 := (((f8.param j1).param j2).param j3).param j4
      have hx : ∀ {s t : Est} {p : ModelFlex.Param}, ModelFlex.exec s (.param p) = .ok t → t.ekf.x = s.ekf.x := by
        intro s t p h
        obtain ⟨f, -, rfl⟩ := param_step h
        rfl
      have b9 := b8.exec j1
      have b9 := b9.exec j2
      have b9 := b9.exec j3
      have b9 := b9.exec j4
      dsimp only at b9
      exact ⟨f9, by rw [hx j4, hx j3, hx j2, hx j1], rob s _ _ _ _ f9.inv b9 (by rw [if_neg hk]) (by rw [if_neg hk]) (by rw [if_neg hk]) (by rw [if_neg hk])⟩
  obtain ⟨f9, x9, rob⟩ := hend
  refine ⟨⟨⟨35, w⟩, ?_, ⟨hrun, before_quiet a, ⟨0, options_before a⟩, by rw [x9, hx8, f9.k], f9.u, f9.pr, by rw [rob.nb]; exact rob⟩, ⟨f9.Q, f9.R⟩⟩, f9.k⟩
  rcases hw with ⟨v, e, rfl⟩ | ⟨v, e, rfl⟩
  · exact .inl ⟨w, e, rfl⟩
  · refine .inr ⟨v, e, ?_⟩
    congr 1
    funext i
    simp only [setSeg, seg, Elastic.iPos, Elastic.iOri]
    by_cases h3 : i.val < 3
    · simp [h3, show i.val < 6 by omega, show ¬ 3 ≤ i.val by omega]
    · by_cases h6 : i.val < 6
      · have : 3 + (i.val - 3) = i.val := by omega
        simp [h6, show 3 ≤ i.val by omega, this]
      · simp [h3, h6]

theorem begins {mem : ℕ → ℕ → ℕ → ℝ} {a : ModelArgs} {s : Est} (h : ModelFlex.run mem 0.005 (before a) = .ok s) :
    ∃ x, Starts a.xh0 x ∧ Between mem a (before a) s x defaultCov none ∧ Constants a s := (begins' h).1

theorem begins_k {mem : ℕ → ℕ → ℕ → ℝ} {a : ModelArgs} {s : Est} (h : ModelFlex.run mem 0.005 (before a) = .ok s) : s.k = 0 := (begins' h).2

end StateObs.Offline
