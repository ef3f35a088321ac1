import Verif.KO.MeasLemmas
/-!
# The measurement vector of the kinetics observer (C56)
-/

namespace StateObs.KO
open StateObs Matrix Rot Kine KF Observer

variable {nc ni : ℕ} {o o' : Observer}

/-- **C56**, when `update()` returns: the measurement that the filter gets is, without a gap, the accelerations and angular velocities of the IMUs given in the
iteration, by number, followed by the wrenches of the contacts that have a sensor, by number; no pose was given. The counters of the two kinds of sensors had
the numbers that make the room exactly sufficient. -/
theorem C56_measurement_partial {l : List Op} (h : Reachable nc ni l o) (hk : o.kEst ≠ o.kData) (hu : o.update = .ok o') :
    ∃ y, o'.ekf.y.get o.kData = .ok y ∧
      List.ofFn y.val = (o.imus.flatMap fun m => if m.time = o.kData then (m.signal.map List.ofFn).getD [] else []) ++
        (o.contacts.flatMap fun c => if c.withRealSensor then (c.wrench.map List.ofFn).getD [] else []) ∧
      y.size = 6 * (o.imus.filter fun m => decide (m.time = o.kData)).length + 6 * (o.contacts.filter fun c => c.withRealSensor).length ∧
      (y.size : Int) = 6 * o.nIMU + 6 * o.nReal ∧ o.abs.time ≠ o.kData := by
  have hi := inv_reachable h
  have hp : o.abs.time ≠ o.kData := fun hp => Posed.update hi ⟨hp, hk⟩ o' hu
  have hu' := hu
  rw [Observer.update, if_pos hk] at hu
  simp only [Res.bind_eq_ok] at hu
  obtain ⟨⟨o1, y, cov⟩, e1, e, e2, e3⟩ := hu
  obtain ⟨s0, -, s1, s2, s3, -⟩ := buildMeasurement_holds e1
  obtain ⟨imus, contacts, abs, m, mt, rfl, -⟩ := buildMeasurement_ok e1
  have hk1 : o.kData = o.kEst + 1 := by have := hi.2.time; omega
  obtain ⟨v, xb, yb, xhat, inn, A, C, Q, P0, R, P, K, st, -, -, -, -, -, -, -, -, -, -, -, -, -, -, -, -, -, -, -, hy, -⟩ :=
    runFilter_ok (N := 19 + ni * 3 + nc * 13) (NT := 18 + ni * 3 + 12 * nc) (by exact hk1) (by exact hi.2.ekf) e2
  rw [if_neg hp] at s2 s3
  refine ⟨y, ?_, ?_, ?_, ?_, hp⟩
  · rw [afterFilter_ekf e3, hy]
    simp [IArr.get, IArr.checkIndex]
  · rw [s0, poseSignals, if_neg hp, List.append_nil]
    rfl
  · rw [s1, s2, List.countP_eq_length_filter, List.countP_eq_length_filter]
    rfl
  · rw [s1, s3]
    simp

/-- **C56** fails with an absolute pose sensor: once a pose has been given, `update()` does not return, whatever has been done before and in between (except
`resetInputs`, which drops the pose). -/
theorem C56_pose_false {l l' : List Op} {k : Kin} {cov : Option M6} (h : Observer.construct nc ni = .ok o) (hl : .resetInputs ∉ l') :
    ∀ o', Op.run o (l ++ .setAbsolutePoseSensor k cov :: l' ++ [.update]) ≠ .ok o' := by
  intro o' e
  rw [List.append_assoc, run_append] at e
  obtain ⟨o1, e1, e⟩ := e
  rw [List.cons_append, run_cons] at e
  obtain ⟨o2, e2, e⟩ := e
  obtain ⟨o3, e3, e4⟩ := run_append.1 e
  obtain ⟨o4, e4, -⟩ := run_cons.1 e4
  have i1 := inv_run l o (inv_construct h) o1 e1
  have i2 := inv_exec _ i1 e2
  have hp : Posed o2 := by
    have hk := (clock_exec i1 _ e2 (by simp)).2.1 trivial
    have hE := (clock_exec i1 _ e2 (by simp)).1
    cases e2
    exact ⟨rfl, by omega⟩
  exact (hp.run l' o2 i2 hl o3 e3).1.update (inv_run l' o2 i2 o3 e3) o4 e4

/-- **C56** fails with a wrench sensor: when a contact has a wrench sensor at the end of an estimation, the observer makes no other estimation
(`clearContacts` and `resetInputs` excepted): the calls either do not return or leave the time of the estimation. -/
theorem C56_frozen_false {l l' : List Op} (h : Reachable nc ni l o) (h1 : .clearContacts ∉ l) (h2 : .resetInputs ∉ l) (hk : o.kEst = o.kData)
    (hw : ∃ c ∈ o.contacts, c.withRealSensor = true) (h3 : .clearContacts ∉ l') (h4 : .resetInputs ∉ l') (hr : Op.run o l' = .ok o') :
    o'.getStateVectorTimeIndex = o.getStateVectorTimeIndex := by
  have hi := inv_reachable h
  obtain ⟨f, hc⟩ := Count.reachable h h1 h2
  have hf : 0 < f := by
    rw [← hc.idle hk, flagged, List.countP_pos_iff]
    exact hw
  have := Count.frozen hf l' o hi hc h3 h4 o' hr
  have hi' := inv_run l' o hi o' hr
  obtain ⟨v, hv, -⟩ := hi.2.ekf.x
  obtain ⟨v', hv', -⟩ := hi'.2.ekf.x
  simp only [getStateVectorTimeIndex, hv, hv', Obs.getCurrentTime, this]

/-- The same for the calls alone: after `updateContactWithWrenchSensor` for a contact and the next `update()`, the time of the estimation does not change any
more. -/
theorem C56_wrench_false {l1 l2 l3 : List Op} {w : V6} {cov : Option M6} {k : Kin} {n : ℕ} (h : Observer.construct nc ni = .ok o)
    (hc : .clearContacts ∉ l1 ++ l2 ++ l3) (hi : .resetInputs ∉ l1 ++ l2 ++ l3) (hn : ∀ k, .updateContactWithNoSensor k n ∉ l2)
    (hr : Op.run o (l1 ++ .updateContactWithWrenchSensor w cov k n :: l2 ++ .update :: l3) = .ok o') :
    ∃ o1, Op.run o (l1 ++ .updateContactWithWrenchSensor w cov k n :: l2 ++ [.update]) = .ok o1 ∧ o'.getStateVectorTimeIndex = o1.getStateVectorTimeIndex := by
  simp only [List.mem_append, not_or] at hc hi
  rw [show l1 ++ .updateContactWithWrenchSensor w cov k n :: l2 ++ .update :: l3 = (l1 ++ .updateContactWithWrenchSensor w cov k n :: l2 ++ [.update]) ++ l3 by simp,
    run_append] at hr
  obtain ⟨o1, e1, e2⟩ := hr
  refine ⟨o1, e1, ?_⟩
  have hr1 : Reachable nc ni (l1 ++ .updateContactWithWrenchSensor w cov k n :: l2 ++ [.update]) o1 := ⟨o, h, e1⟩
  rw [List.append_assoc, run_append] at e1
  obtain ⟨oa, ea, e1⟩ := e1
  rw [List.cons_append, run_cons] at e1
  obtain ⟨ob, eb, e1⟩ := e1
  obtain ⟨oc, ec, ed⟩ := run_append.1 e1
  obtain ⟨od, ed, e0⟩ := run_cons.1 ed
  cases e0
  have ia := inv_run l1 o (inv_construct h) oa ea
  have ib := inv_exec _ ia eb
  have ic := inv_run l2 ob ib oc ec
  have hb : Wired n ob := by
    obtain ⟨c, kin, sc, -, hc, -, -, -, rfl⟩ := updateContactWithWrenchSensor_eq eb
    refine ⟨_, List.getElem?_set_self ?_, rfl⟩
    by_contra hh
    rw [List.getElem?_eq_none (by omega)] at hc
    cases hc
  have hcw := hb.run l2 ob ib hc.1.2 hn oc ec
  obtain ⟨c, hc1, hc2⟩ := hcw.exec ic (by simp) (by simp) ed
  have hk : o1.kEst = o1.kData := by
    by_cases hk : oc.kEst = oc.kData
    · simp [Op.exec, Observer.update, hk] at ed
      subst ed
      exact hk
    · obtain ⟨_, _, -, -, eb⟩ := book_update ed hk
      have e1 := congrArg Book.kEst eb
      have e2 := congrArg Book.kData eb
      simp only [Observer.book] at e1 e2
      have := ic.2.time
      omega
  exact C56_frozen_false hr1 (by simp [hc]) (by simp [hi]) hk ⟨c, List.mem_of_getElem? hc1, hc2⟩ hc.2 hi.2 e2

/-- **C56** in an iteration that no contact begins with a wrench sensor: at any moment before `update()`, the size that the observer announces is the one of the IMUs given in
the iteration, of the wrenches of the contacts that have a sensor, and of the pose if one was given. -/
theorem C56_room_partial {l l' : List Op} (h : Reachable nc ni l o) (h1 : .clearContacts ∉ l) (h2 : .resetInputs ∉ l) (hk : o.kEst = o.kData)
    (hw : ∀ c ∈ o.contacts, c.withRealSensor = false) (h3 : .clearContacts ∉ l') (h4 : .resetInputs ∉ l') (h5 : .update ∉ l') (hr : Op.run o l' = .ok o')
    (hk' : o'.kEst ≠ o'.kData) :
    o'.getMeasurementSize = .ok (6 * (o'.imus.filter fun m => decide (m.time = o'.kData)).length + 6 * (o'.contacts.filter fun c => c.withRealSensor).length +
      (if o'.abs.time = o'.kData then 7 else 0)) := by
  have hi := inv_reachable h
  obtain ⟨f, hc⟩ := Count.reachable h h1 h2
  have hf : f = 0 := by
    rw [← hc.idle hk, flagged, List.countP_eq_zero]
    intro c hcc
    simp [hw c hcc]
  subst hf
  obtain ⟨r1, r2⟩ := (Count.noUpdate l' o hi hc h3 h4 h5 o' hr).run hk'
  simp only [flagged] at r2
  rw [getMeasurementSize, if_pos hk', if_neg (by omega), List.countP_eq_length_filter, ← List.countP_eq_length_filter (l := o'.contacts)]
  congr 2
  omega

/-! ## Cases -/

/-- An observer with a wrench sensor makes one estimation (the hypotheses of `C56_wrench_false` with `l2 = []`). -/
theorem C56_example (hnc : 0 < nc) (hni : 0 < ni) (w : V6) :
    ∃ o o', Observer.construct nc ni = .ok o ∧ Op.run o (exampleStart nc ni ++ [.updateContactWithWrenchSensor w (some 1) atRest 0] ++ [.update]) = .ok o' ∧
      o'.getStateVectorTimeIndex = .ok 1 := by
  obtain ⟨o, h⟩ := (C53_constructible nc ni).2 hni
  obtain ⟨c, hr, b0, b1, b2, b3, b4, b5, b6, b7⟩ := example_between (nc := nc) hnc hni 0
  obtain ⟨o1, e1, hs⟩ := (Sim.new h).run hr
  have e1' : Op.run o (exampleStart nc ni) = .ok o1 := by simpa using e1
  obtain ⟨o2, e2, hs2⟩ := hs.contact (n := 0) (by rw [b2]; simp) atRest_has (by simp) (by simp) (Or.inl ⟨by simp, by simp⟩)
  obtain ⟨ct, kin, -, hct, hset, hkin, ho2⟩ := updateContactWithNoSensor_eq e2
  have hw0 : ct.withRealSensor = false := (hs.fed.con ct (List.mem_of_getElem? hct)).1
  have hl0 : 0 < o1.contacts.length := by rw [hs.len]; exact hnc
  have hpend : o2.kEst ≠ o2.kData := hs2.pending.1 (feed_pending c)
  have hall : ∀ k ∈ o2.contacts, k.isSet = true → k.time = o2.kData := by
    intro k hk hks
    obtain ⟨i, hi⟩ := List.mem_iff_getElem?.1 hk
    have hin := (hs2.contacts i k hi).1 hks
    exact hs2.moved (feed_pending c) i k hi (by
      simp only [feed_contacts, b2, Finset.mem_singleton] at hin
      simp [hin])
  have hdyn : Client.Dynamics { c.feed with moved := insert 0 c.feed.moved } :=
    ⟨by simp [feed_mass, b7], 0, by simp [feed_com, b5], by simp [feed_inertia, feed_mass, b6, b7, effective_zero]⟩
  have hstate := hs2.state (show c.feed.state = true by unfold Client.feed; split_ifs <;> exact b1)
  have hcu := hs2.fed.canUpdate (hs2.body hdyn) hstate.1 hpend hall
  -- the observer with the sensor
  set c3 : Contact := { ct with localKine := kin, wrench := some w, time := o1.startNewIteration.kData, sensorCov := ct.sensorCov.assign 1, withRealSensor := true } with hc3
  set o3 : Observer := { o1.startNewIteration with contacts := o1.contacts.set 0 c3, nReal := o1.startNewIteration.nReal + 1 } with ho3
  have e3 : o1.updateContactWithWrenchSensor w (some 1) atRest 0 = .ok o3 := by
    have hsel : o1.startNewIteration.selectContact 0 = .ok ct := by
      have e1 : decide (0 < o1.startNewIteration.maxContacts) = true := by rw [start_maxContacts, hs.fed.inv.1.1]; simpa using hnc
      rw [selectContact, e1, start_contacts, hct]
      simp only [Res.assert, rd, Res.ok_bind, hset, if_true]
    rw [updateContactWithWrenchSensor]
    simp only [hsel, Res.ok_bind, hkin, hw0]
    rw [start_contacts]
    rfl
  have i3 := inv_exec (.updateContactWithWrenchSensor w (some 1) atRest 0) hs.fed.inv e3
  have v3 := covInv_exec (.updateContactWithWrenchSensor w (some 1) atRest 0) (fun M hM => by cases hM; exact Matrix.PosSemidef.one) hs.fed.inv hs.fed.cov e3
  have hcu3 : CanUpdate nc ni o3 := by
    have hcz : o2.contacts.countP (fun c => c.withRealSensor) = 0 := List.countP_eq_zero.2 fun c hcc => by simp [(hs2.fed.con c hcc).1]
    have hnr := hcu.nReal
    rw [hcz] at hnr
    rw [ho2] at hcu hnr hcz
    simp only [hw0] at hnr
    have m2 : ∀ x ∈ o1.contacts.set 0 c3, x = c3 ∨ ((∃ j, j ≠ 0 ∧ o1.contacts[j]? = some x)) := by
      intro x hx
      obtain ⟨i, hi⟩ := List.mem_iff_getElem?.1 hx
      by_cases h0 : i = 0
      · subst h0
        rw [List.getElem?_set_self hl0] at hi
        exact Or.inl (Option.some.inj hi).symm
      · rw [List.getElem?_set_ne (Ne.symm h0)] at hi
        exact Or.inr ⟨i, h0, hi⟩
    have m3 : ∀ j, j ≠ 0 → ∀ x, o1.contacts[j]? = some x → ∀ y, x ∈ o1.contacts.set 0 y := by
      intro j hj x hx y
      refine List.mem_iff_getElem?.2 ⟨j, ?_⟩
      rw [List.getElem?_set_ne (Ne.symm hj)]
      exact hx
    have m4 : ∀ y, y ∈ o1.contacts.set 0 y := fun y => List.mem_iff_getElem?.2 ⟨0, List.getElem?_set_self hl0⟩
    refine ⟨⟨hcu.ready.pos, hcu.ready.maxC, hcu.ready.maxI, hcu.ready.imuLen, ?_, hcu.ready.body⟩, hcu.run, hcu.abs, ?_, hcu.nIMU, ?_, hcu.imus, ?_, hcu.dx, hcu.state⟩
    · intro x hx hxs
      rcases m2 x hx with rfl | ⟨j, hj, hx⟩
      · obtain ⟨q1, q2, q3⟩ := hcu.ready.con _ (m4 _) hset
        exact ⟨q1, q2, q3⟩
      · exact hcu.ready.con x (m3 j hj x hx _) hxs
    · intro x hx hxs
      rcases m2 x hx with rfl | ⟨j, hj, hx⟩
      · rfl
      · exact hcu.contacts x (m3 j hj x hx _) hxs
    · have := countP_set' (fun c : Contact => c.withRealSensor) _ _ _ c3 hct
      have h0 : o1.contacts.countP (fun c => c.withRealSensor) = 0 := List.countP_eq_zero.2 fun c hcc => by simp [(hs.fed.con c hcc).1]
      simp only [hw0, h0] at this
      show o1.startNewIteration.nReal + 1 = _
      simp only [Bool.false_eq_true, if_false] at hnr
      rw [hnr]
      rw [show (o3.contacts.countP fun c => c.withRealSensor) = (o1.contacts.set 0 c3).countP fun c => c.withRealSensor from rfl, this, hc3]
      simp
    · intro x hx hxs
      rcases m2 x hx with rfl | ⟨j, hj, hx⟩
      · exact ⟨⟨w, rfl⟩, ⟨1, rfl, Matrix.PosDef.one⟩⟩
      · rw [(hs.fed.con x (List.mem_of_getElem? hx)).1] at hxs
        cases hxs
  obtain ⟨o4, x, e4, -, hx4, -⟩ := update_live i3 v3.q v3.pr hcu3
  refine ⟨o, o4, h, ?_, ?_⟩
  · rw [run_append, ]
    refine ⟨o3, ?_, run_cons.2 ⟨o4, e4, rfl⟩⟩
    rw [run_append]
    exact ⟨o1, e1', run_cons.2 ⟨o3, e3, rfl⟩⟩
  · have hk : o3.kData = o1.kEst + 1 := start_kData hs.fed.inv
    simp only [getStateVectorTimeIndex, hx4, Obs.getCurrentTime, hk, hs.steps, b0]
    rfl

end StateObs.KO
