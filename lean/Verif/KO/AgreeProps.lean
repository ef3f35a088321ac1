import Verif.KO.StepProps
import Verif.KO.SumProps
import Verif.KO.ClientProps
/-!
# C19 for the kinetics observer: signals equal to their prediction leave the prediction
-/

namespace StateObs.KO
open StateObs Matrix Rot Kine KF Observer KFSpec

variable {nc ni : ℕ} {o o' : Observer}

/-- The signals of an iteration: of the IMUs that have been given, and of the contacts that have a sensor. -/
noncomputable def signals (o : Observer) : List ℝ :=
  (o.imus.flatMap fun m => if m.time = o.kData then (m.signal.map List.ofFn).getD [] else []) ++
    (o.contacts.flatMap fun c => if c.withRealSensor then (c.wrench.map List.ofFn).getD [] else [])

theorem stateSum_zero {x : DVec} (hi : Inv nc ni o) (hx : x.size = 19 + ni * 3 + nc * 13) : o.stateSum x ⟨18 + ni * 3 + 12 * nc, 0⟩ = .ok x := by
  obtain ⟨s, e, z, hs⟩ := stateSum_value hi (t := ⟨18 + ni * 3 + 12 * nc, 0⟩) hx rfl
  rw [e]
  congr 1
  have h0 : ∀ k, at1 ⟨18 + ni * 3 + 12 * nc, 0⟩ k = 0 := fun k => by unfold at1; split_ifs <;> rfl
  have h3 : ∀ k, at3 ⟨18 + ni * 3 + 12 * nc, 0⟩ k = 0 := fun k => by rw [at3_eq, h0, h0, h0]; apply ext3 <;> rfl
  refine dvec_ext (z.trans hx.symm) fun k => ?_
  by_cases hk : ∃ c, InUse o ni c ∧ regS ni c k
  · obtain ⟨c, hc, h1, h2⟩ := hk
    obtain ⟨m, rfl⟩ : ∃ m, k = off ni c + m := ⟨k - off ni c, by omega⟩
    cases ht : c.isTurn
    · have := size_plain ht
      rw [(hs.1 c hc).1 ht m (by omega), h0, add_zero]
    · have hsz := size_turn ht
      have := (hs.1 c hc).2 ht
      rw [h3, Imu.rvq_zero, Quat.one_mul, quatAt_eq, quatAt_eq] at this
      injection this with a b c' d
      obtain rfl | rfl | rfl | rfl : m = 0 ∨ m = 1 ∨ m = 2 ∨ m = 3 := by omega
      · exact b
      · exact c'
      · exact d
      · exact a
  · push Not at hk
    exact hs.2 k hk

/-- **C19**, kinetics observer: when the signals of an iteration are the ones that the observer predicts (`H (F x)`, for the estimate `x` that the filter had), the new
estimate is the prediction `F x`, whatever the covariances. -/
theorem C19_kinetics {l : List Op} (hg : ∀ op ∈ l, op.GoodCov) (h : Reachable nc ni l o) (hk : o.kEst ≠ o.kData) (hu : o.update = .ok o') :
    ∃ (oy : Observer) (x xb yb : DVec), (∃ z cov, o.buildMeasurement = .ok (oy, z, cov)) ∧ o.ekf.x = some (x, o.kEst) ∧
      oy.stateDynamics x = .ok xb ∧ oy.measureDynamics xb o.kData = .ok yb ∧
      (List.ofFn yb.val = signals o → o'.getCurrentStateVector = xb ∧ o'.getStateVectorTimeIndex = .ok (o.kEst + 1)) := by
  have hi := inv_reachable h
  obtain ⟨oy, x, xb, xn, m, y, yb, P, Q, A, C, R, -, ⟨z, cov, hb⟩, hx, -, -, hy, -, hF, hH, -, -, -, hs, -, hn, ht, -⟩ := C85_step hg h hk hu
  refine ⟨oy, x, xb, ⟨m, yb⟩, ⟨z, cov, hb⟩, hx, hF, hH, fun e => ⟨?_, ht⟩⟩
  have hiy := (inv_buildMeasurement hi hb).1
  have hyb : y = yb := List.ofFn_injective (hy.trans e.symm)
  have hsz : xb.size = 19 + ni * 3 + nc * 13 := by
    rw [stateDynamics_size hF]
    obtain ⟨v, hv, hs⟩ := hi.2.ekf.x
    rw [hv] at hx
    cases hx
    exact hs
  rw [hyb, sub_self, mulVec_zero, stateSum_zero hiy hsz] at hs
  rw [hn]
  exact (Res.ok.inj hs).symm

/-- **C19**, kinetics observer without sensors: when no IMU has been given in the iteration and no contact has a sensor, the new estimate is the prediction. -/
theorem C19_kinetics_alone {l : List Op} (hg : ∀ op ∈ l, op.GoodCov) (h : Reachable nc ni l o) (hk : o.kEst ≠ o.kData) (hu : o.update = .ok o')
    (hm : ∀ m ∈ o.imus, m.time ≠ o.kData) (hc : ∀ c ∈ o.contacts, c.withRealSensor = false) :
    ∃ (oy : Observer) (x xb : DVec), (∃ z cov, o.buildMeasurement = .ok (oy, z, cov)) ∧ o.ekf.x = some (x, o.kEst) ∧ oy.stateDynamics x = .ok xb ∧
      o'.getCurrentStateVector = xb ∧ o'.getStateVectorTimeIndex = .ok (o.kEst + 1) := by
  have h0 : signals o = [] := by
    rw [signals, List.append_eq_nil_iff, List.flatMap_eq_nil_iff, List.flatMap_eq_nil_iff]
    exact ⟨fun m h => if_neg (hm m h), fun c h => if_neg (by rw [hc c h]; simp)⟩
  obtain ⟨oy, x, xb, ⟨n, yb⟩, hb, hx, hF, hH, ha⟩ := C19_kinetics hg h hk hu
  obtain ⟨oy', x', xb', xn, m, y, yb', P, Q, A, C, R, -, ⟨z', cov', hb'⟩, hx', -, -, hy, -, hF', hH', -⟩ := C85_step hg h hk hu
  obtain ⟨z, cov, hb1⟩ := hb
  have hoy : oy = oy' := congrArg Prod.fst (Res.ok.inj (hb1.symm.trans hb'))
  subst hoy
  rw [hx] at hx'
  cases hx'
  rw [hF] at hF'
  cases hF'
  rw [hH] at hH'
  cases hH'
  have hn : n = 0 := by
    have := congrArg List.length (hy.trans h0)
    simpa using this
  exact ⟨_, x, xb, ⟨z, cov, hb1⟩, hx, hF, ha (by subst hn; rw [h0]; simp)⟩

/-- After any number of estimations with an IMU, an iteration without it: the hypotheses of `C19_kinetics_alone`. -/
theorem C19_kinetics_example (hnc : 0 < nc) (hni : 0 < ni) (T : ℕ) :
    ∃ o o', Reachable nc ni (exampleStart nc ni ++ (List.replicate T exampleIteration).flatten ++ [.updateContactWithNoSensor atRest 0]) o ∧ o.kEst ≠ o.kData ∧
      o.update = .ok o' ∧ (∀ m ∈ o.imus, m.time ≠ o.kData) ∧ (∀ c ∈ o.contacts, c.withRealSensor = false) ∧ o.kEst = T := by
  obtain ⟨c, r, s, h1, h2, h3, h4, h5, h6, h7⟩ := example_between (nc := nc) hnc hni T
  have hf : c.feed = { c with pending := true, given := ∅, moved := ∅ } := by
    unfold Client.feed
    split_ifs with hp
    · cases c; simp_all
    · rfl
  obtain ⟨c1, hc1, r1⟩ : ∃ c1, c1 = { c.feed with moved := insert 0 c.feed.moved } ∧
      Client.Run nc ni Client.new (exampleStart nc ni ++ (List.replicate T exampleIteration).flatten ++ [.updateContactWithNoSensor atRest 0]) c1 := by
    refine ⟨_, rfl, r.append (.cons (.contact _ 0 _ ?_ atRest_has (by simp) (by simp) (Or.inl (by simp))) (.nil _))⟩
    simp [hf, h2]
  obtain ⟨c2, r2⟩ : ∃ c2, Client.Run nc ni c1 [.update] c2 := by
    refine ⟨_, .cons (.update ?_ ?_ ?_ ?_) (.nil _)⟩
    · simp [hc1, hf]
    · simp [hc1, hf, h1]
    · exact ⟨by simp [hc1, hf, h7], 0, by simp [hc1, hf, h5], by simp [hc1, hf, h6, h7, effective_zero]⟩
    · simp [hc1, hf, h2, Client.ContactsKnown]
  obtain ⟨a, h⟩ := (C53_constructible nc ni).2 hni
  obtain ⟨o, e, hs⟩ := (Sim.new h).run r1
  obtain ⟨o', e', -⟩ := hs.run r2
  obtain ⟨o'', e1, e2⟩ := run_cons.1 e'
  cases e2
  have hp : c1.pending = true := by simp [hc1, hf]
  refine ⟨o, o', ⟨a, h, e⟩, hs.pending.1 hp, e1, fun m hm ht => ?_, fun k hk => (hs.fed.con k hk).1, ?_⟩
  · obtain ⟨n, hn⟩ := List.getElem?_of_mem hm
    have := (hs.given hp n m hn).1 ht
    simp [hc1, hf] at this
  · rw [hs.steps, hc1, hf, ← s]

end StateObs.KO
