import Verif.Offline.ModelProps
/-! # C111: cases that meet the hypotheses -/

namespace StateObs.Offline
open StateObs KF KFSpec Matrix Imu Rot Kine
open StateObs.ModelFlex (Op Config Inv Has Est StateJacobian MeasureJacobian weights)

/-- Arguments with one measurement, at time `k`, and one contact. -/
noncomputable def exArgs (k : Int) (b : Bool) (w : DVec) : ModelArgs where
  y := ⟨k, [w]⟩
  u := ⟨k, [Elastic.exInput]⟩
  xh0 := ModelFlex.column Elastic.exState
  contacts := ⟨k, [⟨1, fun _ => 1⟩]⟩
  dt := 0.005
  mass := 2
  withForce := b
  Q := ⟨0, []⟩
  R := ⟨0, [⟨6, 6, 1⟩]⟩
  kfe := 0
  kfv := 0
  kte := 0
  ktv := 0

/-- The data of these arguments. -/
noncomputable def exDatum (w : DVec) : Datum := ⟨1, w, Elastic.exInput, none, none⟩

theorem exData (k : Int) (b : Bool) (w : DVec) (hw : w.size = sizeWith b 1) : Data (exArgs k b w) k [exDatum w] := by
  refine ⟨rfl, rfl, ?_⟩
  intro j hj
  obtain rfl : j = 0 := by simpa using hj
  have get : ∀ {T : Type} (v : T), (⟨k, [v]⟩ : IArr T).get (k + (0 : ℕ)) = .ok v := by
    intro T v
    simp [IArr.get, IArr.checkIndex]
  refine ⟨⟨_, get _, ?_⟩, by simp [exDatum], ⟨_, get _, hw, ⟨le_refl _, fun _ => rfl⟩⟩, get _, .inr ⟨?_, rfl⟩, .inr ⟨?_, rfl⟩⟩
  · exact ⟨Nat.one_pos, .inl (by simp [exDatum])⟩
  · exact Nat.zero_le _
  · exact le_refl _

theorem setContacts_force {s : Est} (hf : s.useFT = true) (n : ℕ) {sys : Elastic.Sys Unit} (hs : { s.sys with nb := n }.updateMeasurementSize = sys) :
    ModelFlex.exec s (.setContactsNumber n) = ({ s with ekf := ModelFlex.resizeF s.ekf sys } : Est).updateR := by
  show s.setContactsNumber n = _
  unfold ModelFlex.Est.setContactsNumber
  simp only [hs]
  have e1 := ModelFlex.setInputSize_ext (s.setSys sys).ekf (48 + 12 * (s.setSys sys).sys.nb)
  rw [if_pos (show (s.setSys sys).useFT = true from hf)]
  congr 2
  unfold ModelFlex.resizeF
  congr 1
  exact congrArg (fun e : ModelFlex.Ext => e.sys.measSize) e1.1

theorem ex_before (mem : ℕ → ℕ → ℕ → ℝ) (k : Int) (b : Bool) (w : DVec) : ∃ s, ModelFlex.run mem 0.005 (before (exArgs k b w)) = .ok s := by
  obtain ⟨s0, e0, i0, -, -, -, -, -, -, -, -, -, -, -, -, -, -, -, -, hft, -⟩ := ModelFlex.ctor_eq mem 0.005
  have r0 : ModelFlex.run mem 0.005 [] = .ok s0 := by rw [ModelFlex.run, e0]; rfl
  have hpar : ∀ (s : Est) (p : ModelFlex.Param), ∃ t, ModelFlex.exec s (.param p) = .ok t := by
    intro s p
    cases p <;> exact ⟨_, rfl⟩
  obtain ⟨s1, e1⟩ := hpar s0 (.setContactModel 1)
  have r1 := ModelFlex.run_snoc r0 e1
  obtain ⟨s2, e2⟩ := hpar s1 (.setSamplingPeriod 0.005)
  have r2 := ModelFlex.run_snoc r1 e2
  obtain ⟨s3, e3⟩ := hpar s2 (.setRobotMass 2)
  have r3 := ModelFlex.run_snoc r2 e3
  have c3 := ModelFlex.has_run r3
  have i3 := ModelFlex.inv_run r3
  have m3 : s3.sys.measSize = 6 := c3.size i3
  obtain ⟨R3, hR3⟩ : ∃ R : Matrix (Fin s3.sys.measSize) (Fin s3.sys.measSize) ℝ, (⟨6, 6, 1⟩ : DMat) = ⟨_, _, R⟩ := by
    rw [m3]
    exact ⟨1, rfl⟩
  have e4 := ModelFlex.setR_step (s := s3) (V := (1 : Matrix (Fin 6) (Fin 6) ℝ)) (by norm_num) (by norm_num)
  rw [ModelFlex.updateR_keep (s := { s3 with R := ⟨6, 6, 1⟩ }) i3.f.mt hR3] at e4
  have r4 := ModelFlex.run_snoc r3 e4
  obtain ⟨x, hx⟩ : ∃ x : Fin 35 → ℝ, Elastic.exState = ⟨35, x⟩ := ⟨_, rfl⟩
  have e5 := ModelFlex.setGuess_live (ModelFlex.inv_run r4) x
  rw [← hx] at e5
  have r5 := ModelFlex.run_snoc r4 e5
  obtain ⟨s6, e6, -⟩ := ModelFlex.unmodeled_live (ModelFlex.inv_run r5) true
  have r6 := ModelFlex.run_snoc r5 e6
  have c6 := ModelFlex.has_run r6
  have i6 := ModelFlex.inv_run r6
  have u6 : s6.useFT = false := c6.force
  have n6 : s6.sys.nb = 0 := c6.nb
  have a6 : s6.sys.withAbs = false := by rw [i6.abs]; exact c6.abs
  have m6 : s6.sys.measSize = 6 := c6.size i6
  obtain ⟨s7, e7⟩ : ∃ s7, ModelFlex.exec s6 (.setWithForcesMeasurements b) = .ok s7 := by
    cases b with
    | false => exact ⟨s6, by simp only [ModelFlex.exec, ModelFlex.Est.setWithForcesMeasurements]; rw [if_neg (by rw [u6]; simp)]⟩
    | true =>
      obtain ⟨sys, hsys⟩ : ∃ x, { s6.sys with withForce := true }.updateMeasurementSize = x := ⟨_, rfl⟩
      have hm : sys.measSize = s6.sys.measSize := by
        rw [← hsys, m6, Elastic.Sys.updateMeasurementSize]
        simp [n6, a6]
      show ∃ s7, s6.setWithForcesMeasurements true = .ok s7
      rw [ModelFlex.setWithForces_step i6 (by rw [u6]; simp), hsys]
      obtain ⟨y, u, c, r, er, -⟩ := ModelFlex.resizeF_eq i6.f sys
      rw [er]
      obtain ⟨R, hR⟩ := i6.rSize
      obtain ⟨R', hR'⟩ := ModelFlex.square_cast hm.symm R
      exact ⟨_, ModelFlex.updateR_keep (s := { s6 with useFT := true, ekf := _ }) rfl (hR.trans hR')⟩
  have r7 := ModelFlex.run_snoc r6 e7
  refine ⟨s7, ?_⟩
  rw [← r7]
  congr 1
  simp [before, gains, exArgs, constant]

/-- The contact is given. -/
theorem ex_contact {mem : ℕ → ℕ → ℕ → ℝ} {k : Int} {b : Bool} {w : DVec} {s : Est} (h : ModelFlex.run mem 0.005 (before (exArgs k b w)) = .ok s) :
    ∃ t, ModelFlex.exec s (.setContactsNumber 1) = .ok t ∧ ∃ R : Matrix (Fin t.sys.measSize) (Fin t.sys.measSize) ℝ, t.R = ⟨_, _, R⟩ ∧ R.PosDef := by
  obtain ⟨-, -, hl, hc⟩ := begins h
  have hR0 : s.R = ⟨6, 6, 1⟩ := hc.R 1 rfl
  have hk := ModelFlex.has_run h
  rw [options_before] at hk
  have hi := ModelFlex.inv_run h
  have hf : s.useFT = b := hk.force
  cases b with
  | false =>
    obtain ⟨t, e, -, eR, -⟩ := ModelFlex.contacts_live hi hf 1
    have it := ModelFlex.inv_exec hi _ e
    have hm : t.sys.measSize = 6 := (ModelFlex.has_exec hi hk _ e).size it
    refine ⟨t, e, ?_⟩
    rw [eR, hR0, hm]
    exact ⟨1, rfl, PosDef.one⟩
  | true =>
    obtain ⟨sys, hsys⟩ : ∃ x, { s.sys with nb := 1 }.updateMeasurementSize = x := ⟨_, rfl⟩
    have hm : sys.measSize = 12 ∧ sys.nb = 1 := by
      rw [← hsys]
      have h1 : s.sys.withForce = true := by rw [hi.force, hf]
      have h2 : s.sys.withAbs = false := by rw [hi.abs, hk.abs]; rfl
      simp [Elastic.Sys.updateMeasurementSize, h1, h2]
    obtain ⟨y, u, c, r, er, -⟩ := ModelFlex.resizeF_eq hi.f sys
    obtain ⟨t, e, hR', -⟩ := ModelFlex.updateR_grow (s := { s with ekf := ModelFlex.resizeF s.ekf sys }) (d := 1e-4) (by rw [er]; rfl)
      (by rw [er]; show s.R.rows ≠ sys.measSize; rw [hR0, hm.1]; norm_num)
      (by rw [er]; show sys.measSize = 6 + (if s.useFT = true then sys.nb * 6 else 0) + if s.withAbs = true then 6 else 0
          rw [hm.1, hm.2, hf, hk.abs]; simp [options, Config.default]) (hk.forceVar _ rfl)
    have e' := setContacts_force hf 1 hsys
    rw [e] at e'
    refine ⟨t, e', ?_⟩
    have it := ModelFlex.inv_exec hi _ e'
    have hmt : t.sys.measSize = 12 := by
      have := (ModelFlex.has_exec hi hk _ e').size it
      rw [this]; rfl
    have : ({ s with ekf := ModelFlex.resizeF s.ekf sys } : Est).sys = sys := by rw [er]; rfl
    rw [this] at hR'
    have hR' : t.R = ModelFlex.square 12 (ModelFlex.nextR 1 true false 1e-4 s.absVar 6 (ModelFlex.coeff ⟨6, 6, 1⟩ (s.mem s.allocs))) := by
      rw [hR']
      show ModelFlex.square sys.measSize (ModelFlex.nextR sys.nb s.useFT s.withAbs 1e-4 s.absVar s.R.rows (ModelFlex.coeff s.R (s.mem s.allocs))) = _
      rw [hm.1, hm.2, hf, hk.abs, hR0]
      rfl
    rw [hR', hmt]
    refine ⟨_, rfl, ?_⟩
    have hdiag : (fun i j : Fin 12 => ModelFlex.nextR 1 true false 1e-4 s.absVar 6 (ModelFlex.coeff ⟨6, 6, 1⟩ (s.mem s.allocs)) i j) =
        (Matrix.diagonal fun i : Fin 12 => if i.val < 6 then (1 : ℝ) else 1e-4) := by
      funext i j
      have := ModelFlex.nextR_imu (c := options (exArgs k true w) 1) (V := 1) (junk := s.mem s.allocs) (d := 1e-4) (a := s.absVar) (i := i) (j := j) (by simp [options, exArgs, Config.default])
        (by simp [options, exArgs, Config.default]) (by simp [options, exArgs, Config.default])
        (by rintro ⟨-, h1, h2, h3⟩; simp [options, exArgs, Config.default] at h1 h2; omega)
      refine this.trans ?_
      unfold ModelFlex.expectedR
      rw [Matrix.diagonal_apply]
      by_cases hij : i = j
      · subst hij
        by_cases h6 : i.val < 6
        · simp [h6]
        · simp [h6, options, exArgs, Config.default]
      · have : i.val ≠ j.val := fun h => hij (Fin.ext h)
        simp only [if_neg this, if_neg hij]
        split_ifs with h6
        · exact Matrix.one_apply_ne (by simpa [Fin.ext_iff] using this)
        · rfl
    rw [hdiag]
    refine Matrix.PosDef.diagonal fun i => ?_
    split_ifs <;> norm_num

/-- **C111**, a case: one measurement at any time `k`, with or without the measurement of the forces; the online estimator accepts the calls, and the function returns. -/
theorem C111_example (mem : ℕ → ℕ → ℕ → ℝ) (k : Int) (b : Bool) : ∃ w o t, Data (exArgs k b w) k [exDatum w] ∧
    ModelFlex.run mem 0.005 (before (exArgs k b w) ++ ask (exDatum w)) = .ok t ∧ offlineModelBaseFlexEstimation mem (exArgs k b w) none (some ⟨0, []⟩) none none = .ok o := by
  obtain ⟨s, hs⟩ := ex_before mem k b ⟨0, 0⟩
  have hi := ModelFlex.inv_run hs
  have hk := ModelFlex.has_run hs
  rw [options_before] at hk
  obtain ⟨t, ht, R, hR, hRp⟩ := ex_contact hs
  obtain ⟨x, hx, hl, hc⟩ := begins hs
  have hit := ModelFlex.inv_exec hi _ ht
  have hkt := ModelFlex.has_exec hi hk _ ht
  obtain ⟨c1, c2, c3, c4, c5, -, -, -⟩ := contacts_step hi ht
  have rob : Robot (exArgs k b ⟨0, 0⟩) 1 t.sys := by rw [c5]; exact robot_contacts hl.robot
  have hsz : t.sys.measSize = sizeWith b 1 := by
    rw [hkt.size hit]
    cases b <;> rfl
  obtain rfl : x = Elastic.exState := by
    rcases hx with ⟨v, h, rfl⟩ | ⟨v, h, rfl⟩
    · have h : ModelFlex.column Elastic.exState = ModelFlex.column ⟨35, v⟩ := h
      exact (Res.ok.inj (show Res.ok Elastic.exState = .ok ⟨35, v⟩ from congrArg asVector h)).symm
    · exfalso
      have h := congrArg DMat.rows h
      exact absurd (show (35 : ℕ) = 6 from h) (by norm_num)
  obtain ⟨u, hu⟩ := ModelFlex.exInput_60 (n := 48 + 12 * t.sys.nb) (by rw [rob.nb])
  obtain ⟨x, hx'⟩ : ∃ x : Fin 35 → ℝ, Elastic.exState = ⟨35, x⟩ := ⟨_, rfl⟩
  have hds : t.sys.dx.size = 35 := by
    have : t.sys.dx = ⟨35, ModelFlex.defaultDx⟩ := hit.f.dx
    rw [this]
  have hg := ModelFlex.exFlex_posDef t.sys rob.mass ⟨35, x⟩ rob.bias
  rw [hu] at hg
  obtain ⟨xb, yb, s1, s2, JA, JC, h1, h2, hxb, hys, -⟩ := ModelFlex.model_live (f := t.sys) (x := ⟨35, x⟩) (a := ⟨_, u⟩) (u := ⟨_, u⟩) (k := t.k + 1) hit.f.reach hit.f.noise hit.f.snoise
    (ModelFlex.dx_at hit.f) hds rfl rfl rfl (by rw [rob.mass]; norm_num [exArgs]) rob.model (by rw [rob.nb]; norm_num) hg hg
  obtain ⟨nx, xb⟩ := xb
  obtain ⟨ny, yb⟩ := yb
  simp only at hxb hys
  subst hxb hys
  have r0 := ModelFlex.run_snoc hs ht
  have e1 := ModelFlex.setMeas_live hit yb
  have r1 := ModelFlex.run_snoc r0 e1
  have hi1 := ModelFlex.inv_run r1
  obtain ⟨a, e2, ha⟩ := ModelFlex.setMeasInput_live hi1 u
  have r2 := ModelFlex.run_snoc r1 e2
  have hau : a = u := by
    rcases ha with ⟨-, h⟩ | ⟨l, h⟩
    · exact h
    · exfalso
      have h : t.ekf.u = ⟨t.k, ⟨_, a⟩ :: l⟩ := h
      obtain ⟨-, -, -, -, -, -, h7, -⟩ := contacts_step hi ht
      have h7 := h7 (by have := hk.nb; rw [this]; simp [options, Config.default])
      rw [h] at h7
      cases h7
  subst hau
  have hu' : Op.setMeasurementInput ⟨48 + 12 * t.sys.nb, a⟩ = Op.setMeasurementInput Elastic.exInput := by rw [hu]
  have r2 : ModelFlex.run mem 0.005 (before (exArgs k b ⟨0, 0⟩) ++ [.setContactsNumber 1] ++ [.setMeasurement ⟨_, yb⟩] ++ [.setMeasurementInput ⟨48 + 12 * t.sys.nb, a⟩]) = .ok _ := r2
  have hpr : ∀ op ∈ before (exArgs k b ⟨0, 0⟩) ++ [.setContactsNumber 1] ++ [.setMeasurement ⟨_, yb⟩] ++ [.setMeasurementInput ⟨48 + 12 * t.sys.nb, a⟩], op.predicts = false := by
    intro op hop
    simp only [List.mem_append, List.mem_cons, List.not_mem_nil, or_false] at hop
    rcases hop with ((h | rfl) | rfl) | rfl
    · exact hl.quiet op h
    all_goals rfl
  have hQ : t.Q = ⟨35, 35, defaultCov⟩ := c4.trans hc.Q
  have fin : ∃ v, ModelFlex.exec ({ t with ekf := { t.ekf with y := ⟨t.k + 1, [⟨_, yb⟩]⟩, u := ⟨t.k, [⟨_, a⟩, ⟨_, a⟩]⟩ } } : Est) .getFlexibilityVector = .ok v := by
    rcases ModelFlex.C96_return r2 hpr hkt.on hkt.fd (x := ⟨35, x⟩) (show t.ekf.x = some (⟨35, x⟩, t.k) by rw [c1, hl.x, c2, hx']) rfl rfl (c3.trans hl.P) hQ hR defaultCov_psd defaultCov_psd hRp (by show t.sys.mass ≠ 0; rw [rob.mass]; norm_num [exArgs]) rob.model
      (by show t.sys.nb ≤ 2; rw [rob.nb]; norm_num) hg hg with ⟨v, hv⟩ | ⟨-, xb', yb', s1', s2', A, C, h1', h2', -, -, hub⟩
    · exact ⟨v, hv⟩
    · exfalso
      have h1' : t.sys.stateDynamics ⟨35, x⟩ ⟨48 + 12 * t.sys.nb, a⟩ () = .ok (⟨35, xb'⟩, s1', ()) := h1'
      rw [h1] at h1'
      cases h1'
      have h2' : s1.measureDynamics ⟨35, xb⟩ ⟨48 + 12 * t.sys.nb, a⟩ (t.k + 1) () = .ok (⟨t.sys.measSize, yb'⟩, s2', ()) := h2'
      rw [h2] at h2'
      cases h2'
      have e0 : ∀ K : Matrix (Fin 35) (Fin t.sys.measSize) ℝ, xb + K *ᵥ (yb - yb) = xb := fun K => by rw [sub_self, mulVec_zero, add_zero]
      have hub : regulateOrientationVector (seg 3 xb 3) = .ub := (congrArg (fun z => regulateOrientationVector (seg 3 z 3)) (e0 _)).symm.trans hub
      obtain ⟨dt', ops', e⟩ := hit.f.reach
      obtain ⟨-, -, -, -, -, -, -, -, -, hn⟩ := Elastic.C90_motion dt' () () () ops' _ _ _ _ _ e hit.f.noise h1
      rw [Elastic.at3_mk] at hn
      have hpi := Real.pi_pos
      obtain ⟨o, ho, -⟩ := C42_partial (seg 3 xb 3) (hn.trans (by nlinarith))
      rw [ho] at hub
      cases hub
  obtain ⟨v, hv⟩ := fin
  have r3 := ModelFlex.run_snoc r2 hv
  have r4 : ModelFlex.run mem 0.005 (before (exArgs k b ⟨_, yb⟩) ++ ask (exDatum ⟨_, yb⟩)) = .ok v := by
    rw [hu'] at r3
    simp only [List.append_assoc] at r3
    exact r3
  have hd := exData k b ⟨_, yb⟩ hsz
  obtain ⟨o, ho, -⟩ := C111_returns (mem := mem) (p := none) (i := some ⟨0, []⟩) (m := none) (s := none) (e := s) hd (by rintro b ⟨⟩) (by rintro b ⟨⟩; exact .inl rfl) (by rintro b ⟨⟩) (by rintro b ⟨⟩) hs
    [⟨v.lastX, ⟨0, 0⟩, v.ekf.st.innovation, ⟨0, 0⟩, ⟨0, 0⟩⟩] rfl (by
      intro j hj hj'
      obtain rfl : j = 0 := by simpa using hj
      refine ⟨v, ?_, rfl, ?_, rfl, ?_, ?_⟩
      · simpa using r4
      all_goals intro h; cases h)
  exact ⟨_, o, v, hd, r4, ho⟩

/-- **C111**, a case: these arguments also meet the hypotheses on the covariances of `C111_run_partial`. -/
theorem C111_run_example (k : Int) (w : DVec) (h : Data (exArgs k false w) k [exDatum w]) :
    (∀ d ∈ [exDatum w], ∃ Q : Matrix (Fin 35) (Fin 35) ℝ, processCov (exArgs k false w) d = ⟨35, 35, Q⟩ ∧ Q.PosSemidef) ∧
      ∀ d ∈ [exDatum w], ∃ R : Matrix (Fin d.y.size) (Fin d.y.size) ℝ, measuredCov (exArgs k false w) d = some ⟨_, _, R⟩ ∧ R.PosSemidef := by
  have hw : w.size = 6 := by
    obtain ⟨-, -, h, -⟩ := (h.each 0 (by simp)).y
    exact h
  refine ⟨?_, ?_⟩
  · intro d hd
    obtain rfl : d = exDatum w := by simpa using hd
    exact ⟨defaultCov, rfl, defaultCov_psd⟩
  · intro d hd
    obtain rfl : d = exDatum w := by simpa using hd
    show ∃ R : Matrix (Fin w.size) (Fin w.size) ℝ, some (⟨6, 6, 1⟩ : DMat) = some ⟨_, _, R⟩ ∧ R.PosSemidef
    rw [hw]
    exact ⟨1, rfl, PosSemidef.one⟩

end StateObs.Offline
