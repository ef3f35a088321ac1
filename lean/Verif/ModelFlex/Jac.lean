import Verif.ModelFlex.Fresh
/-! # The four calls of an estimation to the robot: step, measurement, and their Jacobians -/

namespace StateObs.ModelFlex
open StateObs KF Imu Rot Kine Matrix Obs
open StateObs.Elastic (at1 bump)

/-- What is stored for the Jacobian of the measurement. -/
structure KeepY (s s' : Elastic.Sys Unit) : Prop where
  xkY : s'.xkY = s.xkY
  ukY : s'.ukY = s.ukY
  opK : s'.opK = s.opK
  yk : s'.yk = s.yk
  efforts : s.efforts = true → s'.efforts = true

theorem KeepY.trans {a b c : Elastic.Sys Unit} (h : KeepY a b) (h' : KeepY b c) : KeepY a c :=
  ⟨h'.xkY.trans h.xkY, h'.ukY.trans h.ukY, h'.opK.trans h.opK, h'.yk.trans h.yk, fun e => h'.efforts (h.efforts e)⟩

theorem step_keepY {s s' : Elastic.Sys Unit} (hi : Elastic.Inv s) (hn : s.noise = none) {x u y : DVec} (h : s.stateDynamics x u () = .ok (y, s', ())) : KeepY s s' ∧ s'.efforts = true := by
  obtain ⟨hx, hu⟩ := Elastic.stateDynamics_sizes h
  obtain ⟨rt, hr, e⟩ := Elastic.stateDynamics_eq hi.rot x u () hx hu
  rw [e] at h
  obtain ⟨w, -, h⟩ := Res.bind_eq_ok.1 h
  unfold Elastic.Sys.finish at h
  rw [hn] at h
  cases h
  exact ⟨⟨rfl, rfl, rfl, rfl, fun _ => rfl⟩, rfl⟩

theorem stateColumns_keepY {x : Fin 35 → ℝ} {y : DVec} : ∀ {l : List (Fin 35)} {s s' : Elastic.Sys Unit} {J}, Elastic.Inv s → s.noise = none →
    Elastic.Sys.stateColumns x y l s () = .ok (J, s', ()) → KeepY s s'
  | [], s, s', J, h, _, e => by cases e; exact ⟨rfl, rfl, rfl, rfl, fun h => h⟩
  | i :: l, s, s', J, h, hn, e => by
    unfold Elastic.Sys.stateColumns at e
    simp only [Res.bind_eq_ok] at e
    obtain ⟨⟨c, s1, g1⟩, e1, ⟨cs, s2, g2⟩, e2, e⟩ := e
    cases e
    unfold Elastic.Sys.stateColumn at e1
    split_ifs at e1 with ha
    · have h1 := Elastic.fdState_eff h e1
      have hk : KeepY s s1 := by
        unfold Elastic.Sys.fdState at e1
        split_ifs at e1 with hi
        simp only [Res.bind_eq_ok] at e1
        obtain ⟨⟨z, s1, g1⟩, e1, e⟩ := e1
        split_ifs at e with hz hd
        cases e
        exact (step_keepY h hn e1).1
      exact hk.trans (stateColumns_keepY (h1.inv h) (h1.same.noise.trans hn) e2)
    · cases e1
      exact stateColumns_keepY h hn e2

theorem stateJacobian_keepY {s s' : Elastic.Sys Unit} {J} (h : Elastic.Inv s) (hn : s.noise = none) (e : s.stateDynamicsJacobian () = .ok (J, s', ())) : KeepY s s' := by
  unfold Elastic.Sys.stateDynamicsJacobian at e
  split_ifs at e with hx
  simp only [Res.bind_eq_ok] at e
  obtain ⟨⟨J1, s1, g1⟩, e1, e⟩ := e
  cases e
  have h0 : Elastic.Inv { s with opXk1 := s.xk1 } := by cases h; constructor <;> assumption
  have := stateColumns_keepY h0 (by exact hn) e1
  exact ⟨this.xkY, this.ukY, this.opK, this.yk, this.efforts⟩

theorem meas_keepX {s s' : Elastic.Sys Unit} (hi : Elastic.Inv s) {x u y : DVec} {k : Int} (h : s.measureDynamics x u k () = .ok (y, s', ())) :
    s'.xk = s.xk ∧ s'.xk1 = s.xk1 ∧ s'.uk = s.uk := by
  obtain ⟨hx, hu, he⟩ := Elastic.measureDynamics_sizes h
  obtain ⟨rt, hr, e⟩ := Elastic.measureDynamics_eq hi.rot x u k () hx hu he
  rw [e] at h
  obtain ⟨l, -, h⟩ := Res.bind_eq_ok.1 h
  obtain ⟨-, e⟩ := Elastic.readSensor_eff (by exact hr) (by exact hi.clean) h
  rw [e]
  exact ⟨rfl, rfl, rfl⟩

/-- The Jacobian of the dynamics, when the measurement has been computed in between. -/
theorem stateJac_of {s t t' : Elastic.Sys Unit} {x u y : DVec} {J} (hi : Elastic.Inv s) (hn : s.noise = none) (hS : Elastic.Same t s) (hR : Elastic.RotOK t.rot)
    (hx : t.xk = x) (hu : t.uk = u) (hy : t.xk1 = y) (hJ : t.stateDynamicsJacobian () = .ok (J, t', ())) :
    List.Forall₂ (Elastic.StateColumn s x u y ()) (List.finRange 35) J := by
  subst hx hu hy
  unfold Elastic.Sys.stateDynamicsJacobian at hJ
  split_ifs at hJ with hk
  simp only [Res.bind_eq_ok] at hJ
  obtain ⟨⟨J1, s1, g1⟩, e1, e⟩ := hJ
  cases e
  have hS : Elastic.Same { t with opXk1 := t.xk1 } s := by
    have := hS
    cases this
    constructor <;> assumption
  exact (Elastic.stateColumns_ok (s := s) (x := t.xk) (u := t.uk) (y := t.xk1) (hx := hk) (g := ()) hi.rot hn _ hS (by exact hR) rfl e1).1

theorem stateJac_live {s t : Elastic.Sys Unit} {x u y : DVec} {J} (hi : Elastic.Inv s) (hn : s.noise = none) (hS : Elastic.Same t s) (hR : Elastic.RotOK t.rot)
    (hx : t.xk = x) (hu : t.uk = u) (hy : t.xk1 = y) (hk : x.size = 35) (hJ : List.Forall₂ (Elastic.StateColumn s x u y ()) (List.finRange 35) J) :
    ∃ t', t.stateDynamicsJacobian () = .ok (J, t', ()) := by
  subst hx hu hy
  have hS : Elastic.Same { t with opXk1 := t.xk1 } s := by
    have := hS
    cases this
    constructor <;> assumption
  obtain ⟨t', ht⟩ := Elastic.stateColumns_live (s := s) (x := t.xk) (u := t.uk) (y := t.xk1) (hx := hk) (g := ()) hi.rot hn _ _ hS (by exact hR) rfl hJ ()
  unfold Elastic.Sys.stateDynamicsJacobian
  rw [dif_pos hk]
  refine ⟨_, (congrArg (fun r => Res.bind r _) ht).trans rfl⟩

theorem measJac_of {s t t' : Elastic.Sys Unit} {x u y : DVec} {k : Int} {J} (hi : Elastic.Inv s) (he : s.efforts = true) (hn : s.sensor.noise = none) (hS : Elastic.Same t s)
    (hT : Elastic.Inv t) (hte : t.efforts = true) (hx : t.xkY = x) (hu : t.ukY = u) (hk' : t.opK = k) (hy : t.yk = y) (hJ : t.measureDynamicsJacobian () = .ok (J, t', ())) :
    List.Forall₂ (Elastic.MeasColumn s x u y k ()) (List.finRange 35) J := by
  subst hx hu hy
  unfold Elastic.Sys.measureDynamicsJacobian at hJ
  split_ifs at hJ with hk
  simp only [Res.bind_eq_ok] at hJ
  obtain ⟨⟨J1, s1, g1⟩, e1, e⟩ := hJ
  cases e
  exact (Elastic.measureColumns_ok (s := s) (x := t.xkY) (u := t.ukY) (y := t.yk) (hx := hk) (k := k) (g := ()) hi he hn _ hS hT hte rfl hk' e1).1

theorem measJac_live {s t : Elastic.Sys Unit} {x u y : DVec} {k : Int} {J} (hi : Elastic.Inv s) (he : s.efforts = true) (hn : s.sensor.noise = none) (hS : Elastic.Same t s)
    (hT : Elastic.Inv t) (hte : t.efforts = true) (hx : t.xkY = x) (hu : t.ukY = u) (hk' : t.opK = k) (hy : t.yk = y) (hk : x.size = 35)
    (hJ : List.Forall₂ (Elastic.MeasColumn s x u y k ()) (List.finRange 35) J) : ∃ t', t.measureDynamicsJacobian () = .ok (J, t', ()) := by
  subst hx hu hy
  obtain ⟨t', ht⟩ := Elastic.measureColumns_live (s := s) (x := t.xkY) (u := t.ukY) (y := t.yk) (hx := hk) (k := k) (g := ()) hi he hn _ _ hJ t hS hT hte rfl hk' ()
  unfold Elastic.Sys.measureDynamicsJacobian
  rw [dif_pos hk]
  refine ⟨_, (congrArg (fun r => Res.bind r _) ht).trans rfl⟩

/-- The four calls. -/
theorem four_ok {s s1 s2 s3 s4 : Elastic.Sys Unit} {x a u xb yb : DVec} {k : Int} {JA JC} (hi : Elastic.Inv s) (hn : s.noise = none) (hsn : s.sensor.noise = none)
    (h1 : s.stateDynamics x a () = .ok (xb, s1, ())) (h2 : s1.measureDynamics xb u k () = .ok (yb, s2, ())) (h3 : s2.stateDynamicsJacobian () = .ok (JA, s3, ()))
    (h4 : s3.measureDynamicsJacobian () = .ok (JC, s4, ())) :
    List.Forall₂ (Elastic.StateColumn s x a xb ()) (List.finRange 35) JA ∧ List.Forall₂ (Elastic.MeasColumn s1 xb u yb k ()) (List.finRange 35) JC := by
  have e1 := Elastic.stateDynamics_eff hi h1
  have i1 := e1.inv hi
  obtain ⟨-, s1', h1', -, -, a3, a4, a5, -, a7⟩ := Elastic.step_congr (.refl s) hi.rot hi.rot hn h1 ()
  rw [h1] at h1'
  cases h1'
  obtain ⟨e2, b1, b2, b3, b4, b5⟩ := Elastic.measureDynamics_eff i1 h2
  have i2 := e2.inv i1
  obtain ⟨c1, c2, c3⟩ := meas_keepX i1 h2
  have r1 := stateJac_of hi hn (e2.same.trans e1.same) e2.rot (c1.trans a4) (c3.trans a3) (c2.trans a5) h3
  have n2 : s2.noise = none := (e2.same.trans e1.same).noise.trans hn
  have e3 := Elastic.stateDynamicsJacobian_eff i2 h3
  have k3 := stateJacobian_keepY i2 n2 h3
  exact ⟨r1, measJac_of i1 a7 (e1.same.snoise.trans hsn) (e3.same.trans e2.same) (e3.inv i2) (k3.efforts b1) (k3.xkY.trans b2) (k3.ukY.trans b3) (k3.opK.trans b4) (k3.yk.trans b5) h4⟩

theorem four_live {s s1 s2 : Elastic.Sys Unit} {x a u xb yb : DVec} {k : Int} {JA JC} (hi : Elastic.Inv s) (hn : s.noise = none) (hsn : s.sensor.noise = none)
    (h1 : s.stateDynamics x a () = .ok (xb, s1, ())) (h2 : s1.measureDynamics xb u k () = .ok (yb, s2, ()))
    (hA : List.Forall₂ (Elastic.StateColumn s x a xb ()) (List.finRange 35) JA) (hC : List.Forall₂ (Elastic.MeasColumn s1 xb u yb k ()) (List.finRange 35) JC) :
    ∃ s3 s4, s2.stateDynamicsJacobian () = .ok (JA, s3, ()) ∧ s3.measureDynamicsJacobian () = .ok (JC, s4, ()) := by
  have e1 := Elastic.stateDynamics_eff hi h1
  have i1 := e1.inv hi
  obtain ⟨-, s1', h1', -, -, a3, a4, a5, -, a7⟩ := Elastic.step_congr (.refl s) hi.rot hi.rot hn h1 ()
  rw [h1] at h1'
  cases h1'
  obtain ⟨e2, b1, b2, b3, b4, b5⟩ := Elastic.measureDynamics_eff i1 h2
  have i2 := e2.inv i1
  obtain ⟨c1, c2, c3⟩ := meas_keepX i1 h2
  have hx := (Elastic.stateDynamics_sizes h1).1
  have hxb := (Elastic.measureDynamics_sizes h2).1
  obtain ⟨s3, h3⟩ := stateJac_live hi hn (e2.same.trans e1.same) e2.rot (c1.trans a4) (c3.trans a3) (c2.trans a5) hx hA
  have n2 : s2.noise = none := (e2.same.trans e1.same).noise.trans hn
  have e3 := Elastic.stateDynamicsJacobian_eff i2 h3
  have k3 := stateJacobian_keepY i2 n2 h3
  obtain ⟨s4, h4⟩ := measJac_live i1 a7 (e1.same.snoise.trans hsn) (e3.same.trans e2.same) (e3.inv i2) (k3.efforts b1) (k3.xkY.trans b2) (k3.ukY.trans b3) (k3.opK.trans b4)
    (k3.yk.trans b5) hxb hC
  exact ⟨s3, s4, h3, h4⟩

end StateObs.ModelFlex
