import Verif.ModelFlex.StepProps
import Verif.ModelFlex.CovProps
/-! # C96: a case that meets the hypotheses, and further consequences -/

namespace StateObs.ModelFlex
open StateObs KF KFSpec Imu Rot Kine Matrix Obs
open StateObs.Elastic (at1 bump Estimated)
open StateObs.KO (at3)

/-- Covariances, a guess, inputs and a measurement are given. -/
noncomputable def prepare {m p : ℕ} (P Q : Matrix (Fin 35) (Fin 35) ℝ) (R : Matrix (Fin m) (Fin m) ℝ) (x : Fin 35 → ℝ) (a u : Fin p → ℝ) (w : Fin m → ℝ) : List Op :=
  [.setProcessNoiseCovariance ⟨35, 35, Q⟩, .setFlexibilityCovariance ⟨35, 35, P⟩, .setMeasurementNoiseCovariance ⟨m, m, R⟩, .setFlexibilityGuess (column ⟨35, x⟩),
    .setInput ⟨p, a⟩, .setMeasurementInput ⟨p, u⟩, .setMeasurement ⟨m, w⟩]

theorem prepared {mem : ℕ → ℕ → ℕ → ℝ} {dt : ℝ} {ops : List Op} {s : Est} (h : run mem dt ops = .ok s) (P Q : Matrix (Fin 35) (Fin 35) ℝ) (R : Matrix (Fin s.sys.measSize) (Fin s.sys.measSize) ℝ)
    (x : Fin 35 → ℝ) (a u : Fin (48 + 12 * s.sys.nb) → ℝ) (w : Fin s.sys.measSize → ℝ) :
    run mem dt (ops ++ prepare P Q R x a u w) = .ok { s with
      Q := ⟨35, 35, Q⟩
      R := ⟨_, _, R⟩
      ekf := { s.ekf with
        x := some (⟨35, x⟩, s.k)
        u := ⟨s.k, [⟨_, a⟩, ⟨_, u⟩]⟩
        y := ⟨s.k + 1, [⟨_, w⟩]⟩
        st := { s.ekf.st with q := ⟨35, 35, Q⟩, pr := ⟨35, 35, P⟩, r := ⟨_, _, R⟩ } } } := by
  have i0 := inv_run h
  have m0 : s.sys.measSize = _ := (has_run h).size i0
  have hq : s.ekf.st.checkQ ⟨35, 35, Q⟩ = true := by rw [KData.checkQ, i0.f.nt]; exact DMat.hasSize_mk ..
  have hp : s.ekf.st.checkP ⟨35, 35, P⟩ = true := by rw [KData.checkP, i0.f.nt]; exact DMat.hasSize_mk ..
  have e1 : exec s (.setProcessNoiseCovariance ⟨35, 35, Q⟩) = .ok { s with Q := ⟨35, 35, Q⟩, ekf := { s.ekf with st := { s.ekf.st with q := ⟨35, 35, Q⟩ } } } := by
    simp only [exec, Est.setProcessNoiseCovariance, setQ, hq, Res.assert_true, Res.ok_bind]
  have r1 := run_snoc h e1
  have i1 := inv_run r1
  have e2 : exec { s with Q := ⟨35, 35, Q⟩, ekf := { s.ekf with st := { s.ekf.st with q := ⟨35, 35, Q⟩ } } } (.setFlexibilityCovariance ⟨35, 35, P⟩) =
      .ok { s with Q := ⟨35, 35, Q⟩, ekf := { s.ekf with st := { s.ekf.st with q := ⟨35, 35, Q⟩, pr := ⟨35, 35, P⟩ } } } := by
    have hp' : KData.checkP { s.ekf.st with q := ⟨35, 35, Q⟩ } ⟨35, 35, P⟩ = true := hp
    simp only [exec, Est.setFlexibilityCovariance, setStateCovariance, hp', Res.assert_true, Res.ok_bind]
  have r2 := run_snoc r1 e2
  have i2 := inv_run r2
  have h0 : 0 < s.sys.measSize := by rw [m0, Config.size]; omega
  have h6 : s.sys.measSize % 6 = 0 := by rw [m0, Config.size]; split_ifs <;> omega
  have e3 := setR_step (s := { s with Q := ⟨35, 35, Q⟩, ekf := { s.ekf with st := { s.ekf.st with q := ⟨35, 35, Q⟩, pr := ⟨35, 35, P⟩ } } }) (V := R) h0 h6
  rw [updateR_keep (s := { s with Q := ⟨35, 35, Q⟩, R := ⟨_, _, R⟩, ekf := { s.ekf with st := { s.ekf.st with q := ⟨35, 35, Q⟩, pr := ⟨35, 35, P⟩ } } }) i0.f.mt rfl] at e3
  have r3 := run_snoc r2 e3
  have e4 := setGuess_live (inv_run r3) x
  have r4 := run_snoc r3 e4
  obtain ⟨l, e5⟩ := setInput_live (inv_run r4) a
  have r5 := run_snoc r4 e5
  obtain ⟨a', e6, ha⟩ := setMeasInput_live (inv_run r5) u
  have ha : a' = a := by
    rcases ha with ⟨ha, -⟩ | ⟨l', ha⟩
    · cases ha
    · have ha : (⟨s.k, ⟨48 + 12 * s.sys.nb, a⟩ :: l⟩ : IArr DVec) = ⟨s.k, ⟨48 + 12 * s.sys.nb, a'⟩ :: l'⟩ := ha
      injection ha with _ ha
      injection ha with ha _
      injection ha with _ ha
      exact ha.symm
  rw [ha] at e6
  have r6 := run_snoc r5 e6
  have e7 := setMeas_live (inv_run r6) w
  have r7 := run_snoc r6 e7
  simp only [List.append_assoc, List.cons_append, List.nil_append] at r7
  exact r7

/-- One elastic contact pushes a spinning robot upwards. -/
noncomputable def exFlexOps : List Op := [.param (.setRobotMass 2), .param (.setContactModel 1), .setContactsNumber 1]

theorem exFlex_run (mem : ℕ → ℕ → ℕ → ℝ) (dt : ℝ) : ∃ s, run mem dt exFlexOps = .ok s ∧ s.on = true ∧ s.fd = true ∧ s.limOn = true ∧ s.k = 0 ∧ s.sys.mass = 2 ∧ s.sys.model = 1 ∧
    s.sys.nb = 1 ∧ s.sys.withBias = false ∧ s.sys.measSize = 6 := by
  obtain ⟨s0, e, hi, hon, hfd, hlim, -, -, hk, -, -, hy, -, -, -, -, -, -, -, hft, hab, hbi, -, hsys, -⟩ := ctor_eq mem dt
  have r0 : run mem dt [] = .ok s0 := by rw [run, e]; rfl
  have e1 : exec s0 (.param (.setRobotMass 2)) = .ok (s0.setSys { s0.sys with mass := 2, massInv := 1 / 2 }) := rfl
  have r1 := run_snoc r0 e1
  have e2 : exec (s0.setSys { s0.sys with mass := 2, massInv := 1 / 2 }) (.param (.setContactModel 1)) = .ok (s0.setSys { s0.sys with mass := 2, massInv := 1 / 2, model := 1 }) := rfl
  have r2 := run_snoc r1 e2
  obtain ⟨sys, hs⟩ : ∃ sys, Elastic.Sys.updateMeasurementSize { s0.sys with mass := 2, massInv := 1 / 2, model := 1, nb := 1 } = sys := ⟨_, rfl⟩
  have i2 := inv_run r2
  have e3 : exec (s0.setSys { s0.sys with mass := 2, massInv := 1 / 2, model := 1 }) (.setContactsNumber 1) =
      .ok { (s0.setSys sys) with ekf := setInputSize (s0.setSys sys).ekf (48 + 12 * sys.nb) } := by
    show Est.setContactsNumber _ 1 = _
    simp only [Est.setContactsNumber, ← hs]
    rw [if_neg (by show ¬ s0.useFT = true; simp [hft])]
    rfl
  have r3 := run_snoc r2 e3
  obtain ⟨u, eu, -⟩ := setInputSize_eq (s0.setSys sys).ekf hi.f.p (48 + 12 * sys.nb)
  rw [eu] at r3
  refine ⟨_, r3, hon, hfd, hlim, hk, ?_⟩
  show sys.mass = 2 ∧ sys.model = 1 ∧ sys.nb = 1 ∧ sys.withBias = false ∧ sys.measSize = 6
  rw [← hs, hsys]
  exact ⟨rfl, rfl, rfl, rfl, rfl⟩

theorem exFlex_posDef (f : Elastic.Sys Unit) (hm : f.mass = 2) (x : DVec) (hb : f.withBias = false) : GoodInertia f x Elastic.exInput := by
  intro z _
  have h0 : Elastic.bias f z = 0 := by unfold Elastic.bias; rw [hb]; rfl
  have := Elastic.ex_posDef (G := Unit) 0
  rw [h0, hm]
  exact this

theorem exInput_60 {n : ℕ} (h : n = 60) : ∃ u : Fin n → ℝ, Elastic.exInput = ⟨n, u⟩ := by
  subst h
  exact ⟨_, rfl⟩

/-- The same input with another acceleration of the centre of mass. -/
noncomputable def exInputAcc (c : V3) : DVec := ⟨60, fun i => if h : 6 ≤ i.val ∧ i.val < 9 then c ⟨i.val - 6, by omega⟩ else Elastic.exInput.val i⟩

theorem exInputAcc_at1 (c : V3) (i : ℕ) (h : i < 6 ∨ 9 ≤ i) : at1 (exInputAcc c) i = at1 Elastic.exInput i := by
  unfold at1 exInputAcc
  split_ifs with h1 h2
  · exact dif_neg (by dsimp only; omega)
  · exact absurd h1 h2
  · rename_i h2; exact absurd h2 h1
  · rfl

theorem exInputAcc_at3 (c : V3) (i : ℕ) (h : i + 2 < 6 ∨ 9 ≤ i) : at3 (exInputAcc c) i = at3 Elastic.exInput i := by
  funext j
  have := exInputAcc_at1 c (i + j) (by omega)
  exact this

theorem exInputAcc_6 (c : V3) : at3 (exInputAcc c) 6 = c := by
  funext j
  unfold at3 exInputAcc
  rw [dif_pos (by dsimp only; omega)]
  dsimp only
  rw [dif_pos (by omega)]
  congr 1
  ext
  simp

theorem exInput_6 : at3 Elastic.exInput 6 = 0 := by
  funext j
  unfold at3
  have : 6 + j.val < Elastic.exInput.size := by show 6 + j.val < 60; omega
  rw [dif_pos this]
  show (if 6 + j.val = 2 then (1 / 2 : ℝ) else if 6 + j.val = 9 ∨ 6 + j.val = 10 ∨ 6 + j.val = 11 then 1 else 0) = 0
  rw [if_neg (by omega), if_neg (by omega)]

theorem exAcc_posDef (f : Elastic.Sys Unit) (hm : f.mass = 2) (x : DVec) (hb : f.withBias = false) (c : V3) : GoodInertia f x (exInputAcc c) := by
  intro z hz
  have := exFlex_posDef f hm x hb z hz
  have e : Elastic.sym (exInputAcc c) 9 = Elastic.sym Elastic.exInput 9 := by
    unfold Elastic.sym
    simp only [exInputAcc_at1 c _ (Or.inr (le_refl 9)), exInputAcc_at1 c (9 + 1) (by omega), exInputAcc_at1 c (9 + 2) (by omega), exInputAcc_at1 c (9 + 3) (by omega),
      exInputAcc_at1 c (9 + 4) (by omega), exInputAcc_at1 c (9 + 5) (by omega)]
  rw [e, exInputAcc_at3 c 0 (by omega)]
  exact this

theorem exAcc_60 (c : V3) {n : ℕ} (h : n = 60) : ∃ u : Fin n → ℝ, exInputAcc c = ⟨n, u⟩ := by
  subst h
  exact ⟨_, rfl⟩

/-- **C96**, a case: the robot that an elastic contact pushes upwards and turns, with any covariances, and any acceleration of the centre of mass in the second input; for some
measurement the estimation returns. -/
theorem C96_example (mem : ℕ → ℕ → ℕ → ℝ) (dt : ℝ) (c : V3) (P Q : Matrix (Fin 35) (Fin 35) ℝ) (R : Matrix (Fin 6) (Fin 6) ℝ) (hP : P.PosSemidef) (hQ : Q.PosSemidef) (hR : R.PosDef) :
    ∃ ops s t, run mem dt ops = .ok s ∧ (∀ op ∈ ops, op.predicts = false) ∧ s.on = true ∧ s.fd = true ∧ s.ekf.x = some (Elastic.exState, s.k) ∧ s.sys.measSize = 6 ∧
      (∃ w : Fin s.sys.measSize → ℝ, s.ekf.y = ⟨s.k + 1, [⟨_, w⟩]⟩) ∧ s.ekf.u = ⟨s.k, [Elastic.exInput, exInputAcc c]⟩ ∧ s.sys.mass = 2 ∧ s.sys.model = 1 ∧ s.sys.nb = 1 ∧ s.sys.withBias = false ∧ s.limOn = true ∧ s.ekf.st.pr = ⟨35, 35, P⟩ ∧ s.Q = ⟨35, 35, Q⟩ ∧
      (∃ R' : Matrix (Fin s.sys.measSize) (Fin s.sys.measSize) ℝ, s.R = ⟨_, _, R'⟩ ∧ R'.PosDef) ∧ s.R = ⟨6, 6, R⟩ ∧ exec s .getFlexibilityVector = .ok t := by
  obtain ⟨s, hr, hon, hfd, hlim, hk, hmass, hmodel, hnb, hbias, hsz⟩ := exFlex_run mem dt
  have hi := inv_run hr
  obtain ⟨u, hu⟩ := exInput_60 (n := 48 + 12 * s.sys.nb) (by rw [hnb])
  obtain ⟨u', hu'⟩ := exAcc_60 c (n := 48 + 12 * s.sys.nb) (by rw [hnb])
  obtain ⟨R', hR', hRp⟩ : ∃ R' : Matrix (Fin s.sys.measSize) (Fin s.sys.measSize) ℝ, (⟨_, _, R'⟩ : DMat) = ⟨6, 6, R⟩ ∧ R'.PosDef := by
    rw [hsz]
    exact ⟨R, rfl, hR⟩
  obtain ⟨x, hx⟩ : ∃ x : Fin 35 → ℝ, Elastic.exState = ⟨35, x⟩ := ⟨_, rfl⟩
  have hds : s.sys.dx.size = 35 := by
    have : s.sys.dx = ⟨35, defaultDx⟩ := hi.f.dx
    rw [this]
  have hg := exFlex_posDef s.sys hmass ⟨35, x⟩ hbias
  have hg' := exAcc_posDef s.sys hmass ⟨35, x⟩ hbias c
  rw [hu] at hg
  rw [hu'] at hg'
  obtain ⟨xb, yb, s1, s2, JA, JC, h1, h2, hxb, hys, -⟩ := model_live (x := ⟨35, x⟩) (a := ⟨_, u⟩) (u := ⟨_, u'⟩) (k := s.k + 1) hi.f.reach hi.f.noise hi.f.snoise (dx_at hi.f) hds rfl rfl rfl
    (by rw [show s.ekf.st.ext.sys = s.sys from rfl, hmass]; norm_num) hmodel (by rw [show s.ekf.st.ext.sys = s.sys from rfl, hnb]; norm_num) hg hg'
  obtain ⟨nx, xb⟩ := xb
  obtain ⟨ny, yb⟩ := yb
  simp only at hxb hys
  subst hxb hys
  have r := prepared hr P Q R' x u u' yb
  have hpr : ∀ op ∈ exFlexOps ++ prepare P Q R' x u u' yb, op.predicts = false := by
    intro op hop
    simp only [exFlexOps, prepare, List.cons_append, List.nil_append, List.mem_cons, List.not_mem_nil, or_false] at hop
    rcases hop with rfl | rfl | rfl | rfl | rfl | rfl | rfl | rfl | rfl | rfl <;> rfl
  rcases C96_return r hpr hon hfd rfl rfl rfl rfl rfl rfl hP hQ hRp (by show s.sys.mass ≠ 0; rw [hmass]; norm_num) hmodel (by show s.sys.nb ≤ 2; rw [hnb]; norm_num) hg hg' with ⟨t, ht⟩ | ⟨-, xb', yb', s1', s2', A, C, h1', h2', -, -, hub⟩
  · exact ⟨_, _, t, r, hpr, hon, hfd, by rw [hx], hsz, ⟨_, rfl⟩, by rw [hu, hu'], hmass, hmodel, hnb, hbias, hlim, rfl, rfl, ⟨R', rfl, hRp⟩, hR', ht⟩
  · exfalso
    have h1' : s.sys.stateDynamics ⟨35, x⟩ ⟨_, u⟩ () = .ok (⟨35, xb'⟩, s1', ()) := h1'
    rw [show s.sys.stateDynamics ⟨35, x⟩ ⟨_, u⟩ () = _ from h1] at h1'
    cases h1'
    rw [show s1.measureDynamics ⟨35, xb⟩ _ _ () = _ from h2] at h2'
    cases h2'
    have e0 : ∀ K : Matrix (Fin 35) (Fin s.ekf.st.ext.sys.measSize) ℝ, xb + K *ᵥ (yb - yb) = xb := fun K => by rw [sub_self, mulVec_zero, add_zero]
    have hub : regulateOrientationVector (seg 3 xb 3) = .ub := (congrArg (fun z => regulateOrientationVector (seg 3 z 3)) (e0 _)).symm.trans hub
    obtain ⟨dt', ops', e⟩ := hi.f.reach
    obtain ⟨-, -, -, -, -, -, -, -, -, hn⟩ := Elastic.C90_motion dt' () () () ops' _ _ _ _ _ e hi.f.noise h1
    rw [Elastic.at3_mk] at hn
    have hpi := Real.pi_pos
    obtain ⟨o, ho, -⟩ := C42_partial (seg 3 xb 3) (hn.trans (by nlinarith))
    rw [ho] at hub
    cases hub

end StateObs.ModelFlex
