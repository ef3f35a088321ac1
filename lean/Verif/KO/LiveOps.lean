import Verif.KO.LiveMeas
import Verif.KO.PsdProps
import Verif.KO.ClockProps
import Verif.Kin.UpdProps
/-!
# When the calls of an iteration return
-/

namespace StateObs.KO
open StateObs Matrix Rot Kine KF
open Observer

variable {nc ni : ℕ} {o : Observer}

theorem has_isSet {k : Kin} {a : Value} (h : k.Has a) : k.pos.isSet dbg = a.pos.isSome ∧ k.ori.isSet = a.ori.isSome ∧ k.linVel.isSet dbg = a.linVel.isSome ∧
    k.angVel.isSet dbg = a.angVel.isSome ∧ k.linAcc.isSet dbg = a.linAcc.isSome ∧ k.angAcc.isSet dbg = a.angAcc.isSome :=
  ⟨h.pos.isSet, Kine.Holds.isSet (R := a.ori) h.ori, h.linVel.isSet, h.angVel.isSet, h.linAcc.isSet, h.angAcc.isSet⟩

/-- An update with complete kinematics returns, whatever the time step. -/
theorem updateKin_sensing {k n : Kin} {a : Value} (h : k.Has a) (hn : Sensing n) (dt : ℝ) : ∃ k', updateKin k n dt flagsIMUKine = .ok k' ∧ Sensing k' := by
  obtain ⟨p, R, v, w, x, y, hn⟩ := hn
  obtain ⟨s1, s2, s3, s4, s5, s6⟩ := has_isSet h
  obtain ⟨t1, t2, t3, t4, t5, t6⟩ := has_isSet hn
  obtain ⟨k', c, e, hc⟩ := (Kin.C52_defined k n a _ h hn flagsIMUKine dt).2 (by
    simp [Value.Deducible, flagsIMUKine, DeduciblePos, DeducibleVel, DeducibleAcc])
  obtain ⟨f1, f2, f3, f4, f5, -⟩ := Kin.C52_flags_linear k n k' a _ c h hn flagsIMUKine dt e hc
  obtain ⟨p', hp⟩ := Kin.some_of f1
  obtain ⟨v', hv⟩ := Kin.some_of f2
  obtain ⟨a', ha⟩ := Kin.some_of f3
  obtain ⟨R', hR⟩ := Kin.some_of f4
  obtain ⟨w', hw⟩ := Kin.some_of f5
  refine ⟨k', ?_, p', R', v', w', a', c.angAcc, by rw [← hp, ← hv, ← ha, ← hR, ← hw]; exact hc⟩
  rw [updateKin, t1, t2, t3, t4, t5, t6]
  simp only [divides, flagsIMUKine, Kin.velMethod, Kin.accMethod, Option.isSome_some, if_true, Res.ok_bind, Bool.false_eq_true, if_false, reduceCtorEq, or_false, decide_false, Bool.or_false,
    and_false]
  exact e

theorem updateKin_moving {k n : Kin} {a b : Value} (h : k.Has a) (hn : n.Has b) (hp : b.pos.isSome = true) (ho : b.ori.isSome = true) (dt : ℝ)
    (hv : (b.linVel.isSome = true ∧ b.angVel.isSome = true) ∨ (dt ≠ 0 ∧ a.pos.isSome = true ∧ a.ori.isSome = true)) :
    ∃ k', updateKin k n dt localKineFlags = .ok k' ∧ Moving k' := by
  obtain ⟨s1, s2, s3, s4, s5, s6⟩ := has_isSet h
  obtain ⟨t1, t2, t3, t4, t5, t6⟩ := has_isSet hn
  obtain ⟨k', c, e, hc⟩ := (Kin.C52_defined k n a _ h hn localKineFlags dt).2 (by
    simp only [Value.Deducible, localKineFlags, DeduciblePos, DeducibleVel, DeducibleAcc]
    simp only [hp, ho, true_implies, Bool.false_eq_true, false_implies, true_or, and_true, true_and]
    tauto)
  obtain ⟨f1, f2, f3, f4, f5, -⟩ := Kin.C52_flags_linear k n k' a _ c h hn localKineFlags dt e hc
  obtain ⟨p', hp'⟩ := Kin.some_of f1
  obtain ⟨v', hv'⟩ := Kin.some_of f2
  obtain ⟨R', hR⟩ := Kin.some_of f4
  obtain ⟨w', hw⟩ := Kin.some_of f5
  refine ⟨k', ?_, p', R', v', w', c.linAcc, c.angAcc, by rw [← hp', ← hv', ← hR, ← hw]; exact hc⟩
  rw [updateKin, t1, t2, t3, t4, t5, t6, s1, s2]
  have hvel : ∀ p v x nv y np, (nv = true ∨ (p = true ∧ np = true)) → ∃ b, divides true false p v x np nv y = .ok b ∧ (nv = true → b = false) := by
    intro p v x nv y np hh
    cases nv
    · obtain ⟨rfl, rfl⟩ : p = true ∧ np = true := by simpa using hh
      exact ⟨_, rfl, fun h => by cases h⟩
    · exact ⟨_, rfl, fun _ => rfl⟩
  obtain ⟨b1, e1, c1⟩ := hvel a.pos.isSome (k.linVel.isSet dbg) (k.linAcc.isSet dbg) b.linVel.isSome b.linAcc.isSome b.pos.isSome (by tauto)
  obtain ⟨b2, e2, c2⟩ := hvel a.ori.isSome (k.angVel.isSet dbg) (k.angAcc.isSet dbg) b.angVel.isSome b.angAcc.isSome b.ori.isSome (by tauto)
  simp only [localKineFlags] at *
  rw [e1, Res.ok_bind, e2, Res.ok_bind, if_neg]
  · exact e
  · rintro ⟨h1, h2⟩
    rcases hv with ⟨q1, q2⟩ | ⟨q, -⟩
    · rw [c1 q1, c2 q2] at h2; cases h2
    · exact q h1

/-- What holds between the calls of a run without contact sensors nor absolute pose. -/
structure Fed (nc ni : ℕ) (o : Observer) : Prop where
  inv : Inv nc ni o
  cov : CovInv o
  dx : o.dx.size = 18 + ni * 3 + 12 * nc
  defaults : o.accCov.PosDef ∧ o.gyroCov.PosDef
  imu : ∀ m ∈ o.imus, (∃ a, m.kin.Has a) ∧ (m.time ≠ 0 → (∃ M, m.covAcc = some M ∧ M.PosDef) ∧ ∃ M, m.covGyro = some M ∧ M.PosDef)
  con : ∀ c ∈ o.contacts, c.withRealSensor = false ∧ ∃ a, c.localKine.Has a
  now : o.kEst ≠ o.kData → o.abs.time ≠ o.kData ∧ o.nIMU = o.imus.countP (fun m => decide (m.time = o.kData)) ∧ o.nReal = 0 ∧
    (∀ m ∈ o.imus, m.time = o.kData → IMUReady m) ∧ ∀ c ∈ o.contacts, c.time = o.kData → Moving c.localKine

theorem start_running (h : o.kEst ≠ o.kData) : o.startNewIteration = o := by rw [startNewIteration, if_neg h]

theorem inv_start (h : Inv nc ni o) : Inv nc ni o.startNewIteration := by
  unfold startNewIteration
  split_ifs with hk
  · refine ⟨h.1, { h.2 with time := Or.inr (by dsimp only; omega), imuTime := fun m hm => ?_, conTime := fun m hm => ?_, absTime := ?_ }⟩
    · have := h.2.imuTime m hm; dsimp only; omega
    · have := h.2.conTime m hm; dsimp only; omega
    · have := h.2.absTime; dsimp only; omega
  · exact h

theorem Fed.start (h : Fed nc ni o) : Fed nc ni o.startNewIteration ∧ o.startNewIteration.kEst ≠ o.startNewIteration.kData ∧ o.startNewIteration.kEst = o.kEst := by
  by_cases hk : o.kEst = o.kData
  · have hi := inv_start h.inv
    have hcv := covInv_start h.cov
    have e : o.startNewIteration = { o with kData := o.kData + 1, nReal := 0, nIMU := 0 } := by rw [startNewIteration, if_pos hk]
    rw [e] at hi hcv ⊢
    refine ⟨⟨hi, hcv, h.dx, h.defaults, h.imu, h.con, fun _ => ⟨?_, ?_, rfl, ?_, ?_⟩⟩, by dsimp only; omega, rfl⟩
    · have := h.inv.2.absTime; dsimp only; omega
    · dsimp only
      rw [List.countP_eq_zero.2]
      · rfl
      · intro m hm
        have := h.inv.2.imuTime m hm
        simp only [decide_eq_true_eq]
        omega
    · intro m hm ht
      have := h.inv.2.imuTime m hm
      dsimp only at ht; omega
    · intro m hm ht
      have := h.inv.2.conTime m hm
      dsimp only at ht; omega
  · rw [start_running hk]; exact ⟨h, hk, rfl⟩

theorem mem_set_of {α : Type} {l : List α} {n : ℕ} {a x : α} (h : x ∈ l.set n a) : x ∈ l ∨ x = a := List.mem_or_eq_of_mem_set h

theorem countP_set_new {α : Type} {p : α → Bool} : ∀ {l : List α} {n : ℕ} {a b : α}, l[n]? = some b → p b = false → p a = true → (l.set n a).countP p = l.countP p + 1
  | [], n, a, b, h, _, _ => by simp at h
  | x :: l, 0, a, b, h, hb, ha => by
    simp at h; subst h
    simp [List.countP_cons, hb, ha]
  | x :: l, n + 1, a, b, h, hb, ha => by
    simp only [List.set_cons_succ, List.countP_cons]
    rw [countP_set_new (by simpa using h) hb ha]
    omega

/-- `setIMU` for an IMU that has no data of the iteration, with complete kinematics. -/
theorem Fed.setIMU (h : Fed nc ni o) {acc gyro : V3} {cov : Option (M3 × M3)} {k : Kin} {n : ℕ} {b : Value} (hn : n < ni)
    (hk : k.Has b) (hp : b.pos.isSome = true) (ho : b.ori.isSome = true)
    (hv : (∀ m, o.imus[n]? = some m → m.time = 0) ∨ (b.linVel.isSome = true ∧ b.angVel.isSome = true ∧ b.linAcc.isSome = true))
    (hcov : ∀ p ∈ cov, p.1.PosDef ∧ p.2.PosDef) (hfree : ∀ m, o.imus[n]? = some m → m.time < o.startNewIteration.kData) :
    ∃ o', o.setIMU acc gyro cov k n = .ok (n, o') ∧ Fed nc ni o' ∧ o'.kEst = o.kEst ∧ o'.kData = o.startNewIteration.kData ∧ o'.kEst ≠ o'.kData ∧
      ∃ m', m'.time = o'.kData ∧ o' = { o.startNewIteration with imus := o.imus.set n m', nIMU := o.startNewIteration.nIMU + 1 } := by
  obtain ⟨h1, hrun, hE⟩ := h.start
  have hl : n < o.imus.length := by rw [h.inv.2.imuLen]; exact hn
  obtain ⟨m, hm⟩ : ∃ m, o.imus[n]? = some m := ⟨_, List.getElem?_eq_getElem hl⟩
  have hmm : m ∈ o.imus := List.mem_of_getElem? hm
  have hnum : o.startNewIteration.imuNumber n = .ok n := by rw [imuNumber, if_neg (by omega)]; simp
  have hsel : o.startNewIteration.selectIMU n = .ok m := by
    have e1 : decide (n < o.startNewIteration.maxIMU) = true := by rw [start_maxIMU, h.inv.1.2]; simpa using hn
    have e2 : decide (m.time < o.startNewIteration.kData) = true := by simpa using hfree m hm
    rw [selectIMU, e1, start_imus, hm]
    simp only [Res.assert, rd, Res.ok_bind, e2, if_true]
  have hkin : ∃ kin, o.startNewIteration.newIMUKin m k = .ok kin ∧ Sensing kin := by
    unfold newIMUKin
    split_ifs with ht
    · obtain ⟨s1, s2, s3, s4, s5, s6⟩ := has_isSet hk
      have hz : ∀ (i : CItem V3) (v : Option V3), Item i v → ∃ w, Item (orZero i) (some w) := by
        intro i v h
        cases v with
        | none => exact ⟨0, by rw [orZero, if_neg (by rw [h.isSet]; simp)]; rfl⟩
        | some w => exact ⟨w, by rw [orZero, if_pos (by rw [h.isSet]; rfl)]; exact h⟩
      obtain ⟨p, hp'⟩ := Kin.some_of hp
      obtain ⟨R, hR⟩ := Kin.some_of ho
      obtain ⟨v, hv'⟩ := hz _ _ hk.linVel
      obtain ⟨w, hw⟩ := hz _ _ hk.angVel
      obtain ⟨a, ha⟩ := hz _ _ hk.linAcc
      refine ⟨{ k with linVel := orZero k.linVel, angVel := orZero k.angVel, linAcc := orZero k.linAcc }, ?_, p, R, v, w, a, b.angAcc, ?_⟩
      · simp only [firstIMUKin, s1, s2, hp, ho, Bool.and_self, Res.assert, if_true, Res.ok_bind]
      · exact ⟨by rw [← hp']; exact hk.pos, by rw [← hR]; exact hk.ori, hv', hw, ha, hk.angAcc⟩
    · obtain ⟨a, ha⟩ := (h.imu m hmm).1
      rcases hv with hv | ⟨v1, v2, v3⟩
      · exact absurd (hv m hm) ht
      · obtain ⟨p, hp'⟩ := Kin.some_of hp
        obtain ⟨R, hR⟩ := Kin.some_of ho
        obtain ⟨v, hv'⟩ := Kin.some_of v1
        obtain ⟨w, hw⟩ := Kin.some_of v2
        obtain ⟨a', ha'⟩ := Kin.some_of v3
        exact updateKin_sensing ha ⟨p, R, v, w, a', b.angAcc, by rw [← hp', ← hv', ← ha', ← hR, ← hw]; exact hk⟩ _
  obtain ⟨kin, ekin, skin⟩ := hkin
  obtain ⟨ca, cg, ec, hca, hcg⟩ : ∃ ca cg : M3, o.setIMU acc gyro cov k n = .ok (n, { o.startNewIteration with
      imus := o.startNewIteration.imus.set n { m with signal := some (signal6 acc gyro), covAcc := some ca, covGyro := some cg, kin := kin, time := o.startNewIteration.kData }
      nIMU := o.startNewIteration.nIMU + 1 }) ∧ ca.PosDef ∧ cg.PosDef := by
    have e0 : ∀ p : Option M3 × Option M3, (match (generalizing := false) cov with
      | some (a, g) => (some a, some g)
      | none => if m.time = 0 then (some o.startNewIteration.accCov, some o.startNewIteration.gyroCov) else (m.covAcc, m.covGyro)) = p →
      o.setIMU acc gyro cov k n = .ok (n, { o.startNewIteration with
        imus := o.startNewIteration.imus.set n { m with signal := some (signal6 acc gyro), covAcc := p.1, covGyro := p.2, kin := kin, time := o.startNewIteration.kData }
        nIMU := o.startNewIteration.nIMU + 1 }) := by
      rintro p rfl
      rw [Observer.setIMU]
      simp only [hnum, Res.ok_bind, hsel, ekin]
      rfl
    cases cov with
    | some p => exact ⟨p.1, p.2, e0 _ rfl, (hcov p rfl).1, (hcov p rfl).2⟩
    | none =>
      by_cases ht : m.time = 0
      · exact ⟨_, _, e0 (_, _) (by simp only [if_pos ht]), h1.defaults.1, h1.defaults.2⟩
      · obtain ⟨⟨A, eA, hA⟩, ⟨G, eG, hG⟩⟩ := (h.imu m hmm).2 ht
        exact ⟨A, G, e0 (_, _) (by simp only [if_neg ht, eA, eG]), hA, hG⟩
  set m' : IMU := { m with signal := some (signal6 acc gyro), covAcc := some ca, covGyro := some cg, kin := kin, time := o.startNewIteration.kData } with hm'
  set o' : Observer := { o.startNewIteration with
    imus := o.imus.set n m'
    nIMU := o.startNewIteration.nIMU + 1 } with ho'
  have e : o.setIMU acc gyro cov k n = .ok (n, o') := by rw [ec, start_imus]
  have hcov' : CovInv o' := covInv_setIMU (fun p hp => ⟨(hcov p hp).1.posSemidef, (hcov p hp).2.posSemidef⟩) h.cov e
  have hr : IMUReady m' := ⟨⟨_, rfl⟩, ⟨ca, rfl, hca⟩, ⟨cg, rfl, hcg⟩, skin⟩
  refine ⟨o', e, ⟨inv_setIMU h.inv e, hcov', h1.dx, h1.defaults, ?_, h1.con, fun _ => ?_⟩, hE, rfl, hrun, m', rfl, rfl⟩
  · intro x hx
    rcases mem_set_of hx with hx | rfl
    · exact h.imu x hx
    · obtain ⟨p, R, v, w, a, x, hs⟩ := skin
      exact ⟨⟨_, hs⟩, fun _ => ⟨⟨ca, rfl, hca⟩, ⟨cg, rfl, hcg⟩⟩⟩
  · obtain ⟨n1, n2, n3, n4, n5⟩ := h1.now hrun
    refine ⟨n1, ?_, n3, ?_, n5⟩
    · show o.startNewIteration.nIMU + 1 = ((o.imus.set n m').countP _ : ℕ)
      have h0 : o'.kData = o.startNewIteration.kData := rfl
      have h2 := hfree m hm
      rw [countP_set_new hm (by simp; omega) (by simp [hm', ho']), n2, start_imus]
      push_cast
      rfl
    · intro x hx ht
      rcases mem_set_of hx with hx | rfl
      · exact n4 x (by rw [start_imus]; exact hx) ht
      · exact hr

/-- `updateContactWithNoSensor` for a set contact. -/
theorem Fed.noSensor (h : Fed nc ni o) {k : Kin} {n : ℕ} {c : Contact} {b : Value} (hc : o.contacts[n]? = some c) (hs : c.isSet = true) (hk : k.Has b) (hp : b.pos.isSome = true)
    (ho : b.ori.isSome = true) (hv : (b.linVel.isSome = true ∧ b.angVel.isSome = true) ∨ (o.dt ≠ 0 ∧ c.time = o.startNewIteration.kData - 1 ∧ Moving c.localKine)) :
    ∃ o' c', o.updateContactWithNoSensor k n = .ok o' ∧ Fed nc ni o' ∧ o'.kEst = o.kEst ∧ o'.kData = o.startNewIteration.kData ∧ o'.kEst ≠ o'.kData ∧
      (∃ r, o' = { o.startNewIteration with contacts := o.contacts.set n c', nReal := r }) ∧ c'.isSet = true ∧ c'.time = o'.kData ∧ Moving c'.localKine := by
  obtain ⟨h1, hrun, hE⟩ := h.start
  have hcm : c ∈ o.contacts := List.mem_of_getElem? hc
  have hlen : n < nc := by
    have h1 : n < o.contacts.length := by
      by_contra hh
      rw [List.getElem?_eq_none (by omega)] at hc
      cases hc
    rcases h.inv.2.conLen with e | e
    · omega
    · rw [e] at h1; simp at h1
  have hsel : o.startNewIteration.selectContact n = .ok c := by
    have e1 : decide (n < o.startNewIteration.maxContacts) = true := by rw [start_maxContacts, h.inv.1.1]; simpa using hlen
    rw [selectContact, e1, start_contacts, hc]
    simp only [Res.assert, rd, Res.ok_bind, hs, if_true]
  have hdt : o.startNewIteration.dt = o.dt := by unfold startNewIteration; split_ifs <;> rfl
  obtain ⟨kin, ekin, mkin⟩ : ∃ kin, o.startNewIteration.newContactKin c k = .ok kin ∧ Moving kin := by
    unfold newContactKin
    split_ifs with ht
    · obtain ⟨a, ha⟩ := (h.con c hcm).2
      rw [hdt]
      rcases hv with hv | ⟨hv1, -, ⟨p, R, v, w, x, y, hm⟩⟩
      · exact updateKin_moving ha hk hp ho _ (Or.inl hv)
      · exact updateKin_moving hm hk hp ho _ (Or.inr ⟨hv1, rfl, rfl⟩)
    · rcases hv with ⟨hv1, hv2⟩ | ⟨-, hv, -⟩
      · obtain ⟨p', hp'⟩ := Kin.some_of hp
        obtain ⟨v', hv'⟩ := Kin.some_of hv1
        obtain ⟨R', hR⟩ := Kin.some_of ho
        obtain ⟨w', hw⟩ := Kin.some_of hv2
        exact ⟨k, rfl, p', R', v', w', b.linAcc, b.angAcc, by rw [← hp', ← hv', ← hR, ← hw]; exact hk⟩
      · exact absurd hv ht
  set c' : Contact := { c with localKine := kin, time := o.startNewIteration.kData, withRealSensor := false } with hc'
  set o' : Observer := { o.startNewIteration with
    contacts := o.contacts.set n c'
    nReal := if c.withRealSensor then o.startNewIteration.nReal - 1 else o.startNewIteration.nReal } with ho'
  have e : o.updateContactWithNoSensor k n = .ok o' := by
    rw [updateContactWithNoSensor]
    simp only [hsel, Res.ok_bind, ekin]
    rw [start_contacts]
  refine ⟨o', c', e, ⟨inv_updateContactWithNoSensor h.inv e, covInv_updateContactWithNoSensor h.cov e, h1.dx, h1.defaults, h1.imu, ?_, fun _ => ?_⟩, hE, rfl, hrun,
    ⟨_, rfl⟩, hs, rfl, mkin⟩
  · intro x hx
    rcases mem_set_of hx with hx | rfl
    · exact h.con x hx
    · obtain ⟨p, R, v, w, x, y, hm⟩ := mkin
      exact ⟨rfl, _, hm⟩
  · obtain ⟨n1, n2, n3, n4, n5⟩ := h1.now hrun
    refine ⟨n1, n2, ?_, n4, ?_⟩
    · show (if c.withRealSensor then o.startNewIteration.nReal - 1 else o.startNewIteration.nReal) = 0
      rw [(h.con c hcm).1]
      simpa using n3
    · intro x hx ht
      rcases mem_set_of hx with hx | rfl
      · exact n5 x (by rw [start_contacts]; exact hx) ht
      · exact mkin

theorem Fed.canUpdate (h : Fed nc ni o) (hb : ∃ b, o.body = .ok b ∧ o.mass ≠ 0 ∧ (inertiaAtOrigin b o.mass).det ≠ 0)
    (hst : ∃ x t, o.ekf.x = some (x, t) ∧ GoodState nc ni x) (hrun : o.kEst ≠ o.kData) (hc : ∀ c ∈ o.contacts, c.isSet = true → c.time = o.kData) : CanUpdate nc ni o := by
  obtain ⟨n1, n2, n3, n4, n5⟩ := h.now hrun
  have hz : o.contacts.countP (fun c => c.withRealSensor) = 0 := List.countP_eq_zero.2 fun c hcc => by simp [(h.con c hcc).1]
  refine ⟨⟨h.inv.2.imuPos, h.inv.1.1, h.inv.1.2, h.inv.2.imuLen, fun c hcc hs => ?_, hb⟩, hrun, n1, hc, n2, by rw [n3, hz]; rfl, n4,
    fun c hcc hs => (by rw [(h.con c hcc).1] at hs; cases hs), h.dx, hst⟩
  obtain ⟨i, hi⟩ := List.mem_iff_getElem?.1 hcc
  obtain ⟨a1, a2, a3⟩ := h.inv.2.conIdx i c hi hs
  have hlen : i < nc := by
    have h1 : i < o.contacts.length := by
      by_contra hh
      rw [List.getElem?_eq_none (by omega)] at hi
      cases hi
    rcases h.inv.2.conLen with e | e
    · omega
    · rw [e] at h1; simp at h1
  refine ⟨⟨19 + ni * 3 + i * 13, 18 + ni * 3 + i * 12, ?_, ?_, by omega, by nlinarith, by nlinarith⟩, n5 c hcc (hc c hcc hs), Option.isSome_iff_exists.1 a3⟩
  · have : decide (c.stateIndex > 0) = true := by rw [a1]; simp; omega
    rw [Contact.index, this, a1]; simp; omega
  · have : decide (c.stateIndexTangent > 0) = true := by rw [a2]; simp; omega
    rw [Contact.indexTangent, this, a2]; simp; omega

/-- `update()` when the set contacts have been updated. -/
theorem Fed.update (h : Fed nc ni o) (hb : ∃ b, o.body = .ok b ∧ o.mass ≠ 0 ∧ (inertiaAtOrigin b o.mass).det ≠ 0)
    (hst : ∃ x t, o.ekf.x = some (x, t) ∧ GoodState nc ni x) (hrun : o.kEst ≠ o.kData) (hc : ∀ c ∈ o.contacts, c.isSet = true → c.time = o.kData) :
    ∃ o', o.update = .ok o' ∧ Fed nc ni o' ∧ o'.kEst = o.kData ∧
      ∃ x imus contacts abs m mt e k, GoodState nc ni x ∧ e.x = some (x, o.kData) ∧
      o' = { o with measSize := m, measTangentSize := mt, imus := imus, contacts := contacts, abs := abs, ekf := e, x := x, kEst := o.kEst + 1, stateKin := k } ∧
      List.Forall₂ (fun m m' => ∃ j, m' = { m with measIndex := j }) o.imus imus ∧
      List.Forall₂ (fun m m' => ∃ j, m' = { m with measIndex := j }) o.contacts contacts ∧ Moving k := by
  have hcu := h.canUpdate hb hst hrun hc
  obtain ⟨o', x, e, hx, ex, exo, imus, contacts, abs, m, mt, ek, k, rfl, f1, f2, mk⟩ := update_live h.inv h.cov.q h.cov.pr hcu
  have hi' := inv_update h.inv e
  have hc' : CovInv _ := covInv_exec Op.update trivial h.inv h.cov e
  have hk : o.kData = o.kEst + 1 := by
    have := h.inv.2.time
    omega
  refine ⟨_, e, ⟨hi', hc', h.dx, h.defaults, ?_, ?_, fun hh => absurd (by dsimp only; omega) hh⟩, by dsimp only; omega,
    x, imus, contacts, abs, m, mt, ek, k, hx, ex, rfl, f1, f2, mk⟩
  · intro m hm
    obtain ⟨m0, h0, j, rfl⟩ := forall₂_mem f1 m hm
    exact h.imu m0 h0
  · intro m hm
    obtain ⟨m0, h0, j, rfl⟩ := forall₂_mem f2 m hm
    exact h.con m0 h0

end StateObs.KO
