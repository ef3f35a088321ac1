import Verif.KO.PoseErase
import Verif.KO.SettingsProps
import Verif.KO.StateProps
/-!
# C104: what `addContact` is given
-/

namespace StateObs.KO
open StateObs Matrix Rot Kine KF
open Observer

variable {nc ni : ℕ} {o o' : Observer}

theorem withP_core (o : Observer) (f : DMat → Res DMat) : (core o).withP f = core <$> o.withP f := by
  unfold withP
  simp only [map_bind]
  rfl

theorem withQ_core (o : Observer) (f : DMat → Res DMat) : (core o).withQ f = core <$> o.withQ f := by
  unfold withQ
  simp only [map_bind]
  rfl

theorem withP_cong {A A' a a' : Observer} {f f' : DMat → Res DMat} (h : core A' = core A) (e : A.withP f = .ok a) (e' : A'.withP f' = .ok a') (hf : f' = f) :
    core a' = core a := by
  subst hf
  have k := withP_core A f'
  have k' := withP_core A' f'
  rw [e] at k
  rw [e', h, k] at k'
  exact (Res.ok.inj k').symm

theorem withQ_cong {A A' a a' : Observer} {f f' : DMat → Res DMat} (h : core A' = core A) (e : A.withQ f = .ok a) (e' : A'.withQ f' = .ok a') (hf : f' = f) :
    core a' = core a := by
  subst hf
  have k := withQ_core A f'
  have k' := withQ_core A' f'
  rw [e] at k
  rw [e', h, k] at k'
  exact (Res.ok.inj k').symm

theorem addContact_core {pose pose' : Kin} {cov : Option (M12 × M12)} {num : Int} {v : Visco} {n n' : ℕ} {o1 o2 : Observer}
    (h : o.addContact pose cov num v = .ok (n, o1)) (h' : o.addContact pose' cov num v = .ok (n', o2)) : n' = n ∧ core o2 = core o1 := by
  simp only [addContact, Res.bind_eq_ok] at h h'
  obtain ⟨_, -, m, hm, _, -, c, hc, _, -, si, hsi, st, hst, r, -, x1, -, a1, e1, a2, e2, h⟩ := h
  obtain ⟨_, -, m', hm', _, -, c', hc', _, -, si', hsi', st', hst', r', -, x1', -, a1', e1', a2', e2', h'⟩ := h'
  cases hm.symm.trans hm'
  cases hc.symm.trans hc'
  cases hsi.symm.trans hsi'
  cases hst.symm.trans hst'
  cases h
  cases h'
  refine ⟨rfl, ?_⟩
  exact withQ_cong (withP_cong (by simp only [core, map_set_strip]; rfl) e1 e1' rfl) e2 e2' rfl

/-- **C104** Whatever the pose of the new contact, the next estimation is the same: two calls of `addContact` that differ by the pose only, followed by the same
calls that bring data (and by an estimation that returns), give the same estimate, covariance and kinematics, though the state vectors after `addContact` differ
(C103). -/
theorem C104_pose_false {pose pose' : Kin} {cov : Option (M12 × M12)} {num : Int} {v : Visco} {n n' : ℕ} {o1 o2 p1 r1 : Observer} {l : List Op}
    (h1 : o.addContact pose cov num v = .ok (n, o1)) (h2 : o.addContact pose' cov num v = .ok (n', o2)) (hl : ∀ op ∈ l, op.brings = true)
    (hr : Op.run o1 l = .ok p1) (hk : p1.kEst ≠ p1.kData) (hu : p1.update = .ok r1) :
    n' = n ∧ ∃ p2 r2, Op.run o2 l = .ok p2 ∧ p2.update = .ok r2 ∧ r2.getCurrentStateVector = r1.getCurrentStateVector ∧
      r2.getStateCovarianceMat = r1.getStateCovarianceMat ∧ r2.getKinematics = r1.getKinematics := by
  obtain ⟨rfl, hc⟩ := addContact_core h1 h2
  refine ⟨rfl, ?_⟩
  have e1 := run_core l o1 hl
  have e2 := run_core l o2 hl
  rw [hr] at e1
  rw [hc, e1] at e2
  obtain ⟨p2, hp2⟩ : ∃ p2, Op.run o2 l = .ok p2 := by
    cases hh : Op.run o2 l with
    | ok a => exact ⟨a, rfl⟩
    | _ => rw [hh] at e2; cases e2
  rw [hp2] at e2
  have e3 : core p1 = core p2 := Res.ok.inj e2
  have hk2 : p2.kEst ≠ p2.kData := by
    have a := congrArg Observer.kEst e3
    have b := congrArg Observer.kData e3
    rw [show p2.kEst = p1.kEst from a.symm, show p2.kData = p1.kData from b.symm]
    exact hk
  have u1 := update_core p1 hk
  have u2 := update_core p2 hk2
  rw [hu, e3, u2] at u1
  obtain ⟨r2, hr2⟩ : ∃ r2, p2.update = .ok r2 := by
    cases hh : p2.update with
    | ok a => exact ⟨a, rfl⟩
    | _ => rw [hh] at u1; cases u1
  rw [hr2] at u1
  have e4 : bare r2 = bare r1 := Res.ok.inj u1
  refine ⟨p2, r2, hp2, hr2, ?_, ?_, ?_⟩
  · have := congrArg Observer.x e4
    exact this
  · have := congrArg (fun q : Observer => q.ekf.st.pr) e4
    exact this
  · have := congrArg Observer.stateKin e4
    exact this

/-- **C104** The part that holds: after a call of a state setter, or an estimation with new data, the filter has the state vector that the observer shows, with the
poses of the contacts; and every call but `addContact` keeps it so. -/
theorem C104_pose_partial {l : List Op} (h : Reachable nc ni l o) (hc : ∀ op ∈ l, op.Coherent) (op : Op) (hop : op.Coherent) (e : op.exec o = .ok o') :
    (op.setsState = true → (∀ p c n v, op ≠ .addContact p c n v) → (op = .update → o.kEst ≠ o.kData) → ∃ t, o'.ekf.x = some (o'.getCurrentStateVector, t)) ∧
    ((∀ p c n v, op ≠ .addContact p c n v) → (∃ t, o.ekf.x = some (o.getCurrentStateVector, t)) → ∃ t, o'.ekf.x = some (o'.getCurrentStateVector, t)) := by
  have hi := inv_reachable h
  have key : op.setsState = true → (∀ p c n v, op ≠ .addContact p c n v) → (op = .update → o.kEst ≠ o.kData) → Synced o' := by
    intro hs ha hu
    cases op <;> simp only [Op.setsState, Bool.false_eq_true] at hs <;> simp only [Op.exec] at e
    case update => exact (update_shows e (hu rfl)).2
    case setStateKinematics k f r =>
      obtain ⟨a, hk⟩ := hop
      have ht : (k.pos.isSet dbg && k.ori.isSet && k.linVel.isSet dbg && k.angVel.isSet dbg) = true := by
        have h2 := e
        simp only [setStateKinematics, Res.bind_eq_ok] at h2
        obtain ⟨_, h2, -⟩ := h2
        exact Res.assert_ok h2
      obtain ⟨p, R, v, w, hh⟩ := has_of_assert hk ht
      obtain ⟨q, k', -, -, -, -, -, -, g, -⟩ := setStateKinematics_ok hi hh e
      exact g
    case setGyroBias b i r => exact (setGyroBias_ok hi e).2.2.2.1
    case setStateUnmodeledWrench w r => exact (setStateUnmodeledWrench_ok hi e).2.2.1
    case setStateVector v r => exact (setStateVector_ok e).2.2
    case addContact p c n v => exact absurd rfl (ha p c n v)
  refine ⟨key, fun ha hs => ?_⟩
  by_cases h1 : op.setsState = true
  · by_cases h2 : op = .update ∧ o.kEst = o.kData
    · obtain ⟨rfl, h2⟩ := h2
      simp only [Op.exec, update, if_neg (not_not.2 h2)] at e
      cases e; exact hs
    · exact key h1 ha fun hu hk => h2 ⟨hu, hk⟩
  · by_cases h2 : op = .estimateAccelerations
    · subst h2
      have := (estimateAccelerations_shows (shows_reachable h hc) e).1
      have ex : o'.x = o.x := by rw [this]
      have ee : o'.ekf = o.ekf := by rw [this]
      rw [getCurrentStateVector, ex, ee]
      exact hs
    · exact Synced.shown hs (shown_other op (by simpa using h1) h2 e)

/-- **C104** In particular: with `setStateVector(getCurrentStateVector())` after `addContact`, the filter has the pose of the contact. -/
theorem C104_pose_pushed_partial {l : List Op} (h : Reachable nc ni l o) {pose : Kin} {p : V3} {R : M3} {v w x y : Option V3}
    (hp : pose.Has ⟨some p, some R, v, w, x, y⟩) {cov : Option (M12 × M12)} {num : Int} {vi : Visco} {n : ℕ} {o1 : Observer}
    (e : o.addContact pose cov num vi = .ok (n, o1)) :
    ∃ o2, o1.setStateVector o1.getCurrentStateVector false = .ok o2 ∧ (Comp.contactPosition n).Is o2 (coords p) ∧
      (∃ q : Quat, q.normSq = 1 ∧ q.toMat = R ∧ (Comp.contactOrientation n).Is o2 (coeffs q)) ∧ ∃ t, o2.ekf.x = some (o2.getCurrentStateVector, t) := by
  have hi' : Inv nc ni o1 := inv_exec (.addContact pose cov num vi) (inv_reachable h) (by simp only [Op.exec, e]; rfl)
  obtain ⟨ek, he⟩ := setStateVector_eq hi' (v := o1.getCurrentStateVector) hi'.2.xSize
  obtain ⟨g1, -, t, g3⟩ := setStateVector_ok he
  obtain ⟨a1, ⟨q, a2, a3, a4⟩, -⟩ := C103_addContact h hp e
  exact ⟨_, he, a1, ⟨q, a2, a3, a4⟩, t, g3⟩

/-! ## The gains -/

/-- **C104** Without a damping, the linear stiffness that is given is not used: all of them give the same contact. -/
theorem C104_stiffness_false (o : Observer) (pose : Kin) (cov : Option (M12 × M12)) (num : Int) (K K' A B : M3) :
    o.addContact pose cov num ⟨K, 0, A, B⟩ = o.addContact pose cov num ⟨K', 0, A, B⟩ := by
  have : ∀ a : Observer, newVisco a ⟨K, 0, A, B⟩ = newVisco a ⟨K', 0, A, B⟩ := fun a => by simp [newVisco, orDefault]
  simp only [addContact, this]

/-- **C104** Each of the three other gains is the one that is given, or the default one when none is given (zero); so is the linear stiffness when a linear damping
is given with it. -/
theorem C104_gains_partial {l : List Op} (h : Reachable nc ni l o) {pose : Kin} {cov : Option (M12 × M12)} {num : Int} {K D A B : M3} {n : ℕ}
    (e : o.addContact pose cov num ⟨K, D, A, B⟩ = .ok (n, o')) : ∃ c vi, o'.contacts[n]? = some c ∧ c.visco = some vi ∧
      (D ≠ 0 → vi.linStiff = K) ∧ (D = 0 → vi.linStiff = (40000 : ℝ) • 1) ∧ (D ≠ 0 → vi.linDamp = D) ∧ (D = 0 → vi.linDamp = (120 : ℝ) • 1) ∧
      (A ≠ 0 → vi.angStiff = A) ∧ (A = 0 → vi.angStiff = (400 : ℝ) • 1) ∧ (B ≠ 0 → vi.angDamp = B) ∧ (B = 0 → vi.angDamp = (12 : ℝ) • 1) := by
  obtain ⟨-, -, -, -, -, -, -, -, -, -, -, -, -, -, -, hd, -⟩ := C105_settings h
  simp only [addContact, Res.bind_eq_ok] at e
  obtain ⟨_, -, m, hm, _, -, c, hc, _, -, si, hsi, st, hst, r, -, x1, -, a1, e1, a2, e2, e⟩ := e
  cases e
  have hlen : n < o.contacts.length := by
    cases hn : o.contacts[n]? with
    | none => rw [hn] at hc; cases hc
    | some c => exact (List.getElem?_eq_some_iff.1 hn).1
  have h1 : o'.contacts = a1.contacts := by rw [withQ_eq e2]
  rw [withP_eq e1] at h1
  refine ⟨_, newVisco o ⟨K, D, A, B⟩, by rw [h1]; exact List.getElem?_set_self hlen, rfl, ?_⟩
  simp only [newVisco, orDefault, hd]
  refine ⟨fun g => if_pos g, fun g => if_neg (not_not.2 g), fun g => if_pos g, fun g => if_neg (not_not.2 g), fun g => if_pos g, fun g => if_neg (not_not.2 g),
    fun g => if_pos g, fun g => if_neg (not_not.2 g)⟩

/-! ## A case -/

/-- The pose one metre above. -/
def raised : Kin := ⟨⟨true, some ![0, 0, 1]⟩, ⟨⟨true, some ⟨1, 0, 0, 0⟩⟩, ⟨false, none⟩⟩, ⟨true, some 0⟩, ⟨true, some 0⟩, ⟨true, some 0⟩, ⟨true, some 0⟩⟩

theorem raised_has : raised.Has ⟨some ![0, 0, 1], some (Quat.toMat ⟨1, 0, 0, 0⟩), some 0, some 0, some 0, some 0⟩ :=
  ⟨rfl, Ori.rep_q (by simp [Quat.normSq]) rfl, rfl, rfl, rfl, rfl⟩

theorem addContact_of_exec {pose : Kin} {cov : Option (M12 × M12)} {num : Int} {v : Visco} (h : Op.exec o (.addContact pose cov num v) = .ok o') :
    ∃ n, o.addContact pose cov num v = .ok (n, o') := by
  simp only [Op.exec, Res.bind_eq_ok] at h
  obtain ⟨⟨n, o1⟩, h1, h2⟩ := h
  cases h2
  exact ⟨n, h1⟩

/-- The hypotheses of `C104_pose_false` hold: a contact on the ground or one metre above, the data of an IMU and of the contact, and an estimation. The two state
vectors before the estimation are different. -/
theorem C104_pose_example (hnc : 0 < nc) (hni : 0 < ni) : ∃ (l : List Op) (o o1 o2 p1 r1 : Observer) (n n' : ℕ), Reachable nc ni l o ∧
    o.addContact atRest none 0 ⟨1, 1, 1, 1⟩ = .ok (n, o1) ∧ o.addContact raised none 0 ⟨1, 1, 1, 1⟩ = .ok (n', o2) ∧
    o1.getCurrentStateVector ≠ o2.getCurrentStateVector ∧
    Op.run o1 [.setIMU ![0, 0, 9.8] 0 none atRest 0, .updateContactWithNoSensor atRest 0] = .ok p1 ∧ p1.kEst ≠ p1.kData ∧ p1.update = .ok r1 := by
  obtain ⟨o0, h0⟩ := (C53_constructible nc ni).2 hni
  obtain ⟨a1, e1, s1⟩ := (Sim.new h0).step (.com3 0 0 0)
  obtain ⟨a2, e2, s2⟩ := s1.step (.stateVector ⟨19 + ni * 3 + nc * 13, fun i => if i.val = 6 then 1 else 0⟩ true ⟨fun i => if i = 6 then 1 else 0, rfl, by simp⟩)
  obtain ⟨a3, e3, s3⟩ := s2.step (.addContact atRest none 0 ⟨1, 1, 1, 1⟩ _ hnc (by simp [Client.feed, Client.new]) atRest_has (by simp) (by simp) (by simp))
  obtain ⟨a3', e3', -⟩ := s2.step (.addContact raised none 0 ⟨1, 1, 1, 1⟩ _ hnc (by simp [Client.feed, Client.new]) raised_has (by simp) (by simp) (by simp))
  obtain ⟨a4, e4, s4⟩ := s3.step (.imu ![0, 0, 9.8] 0 none atRest 0 _ hni (by simp [Client.feed, Client.new]) atRest_has (by simp) (by simp) (by simp) (by simp))
  obtain ⟨a5, e5, s5⟩ := s4.step (.contact atRest 0 _ (by simp [Client.feed, Client.new]) atRest_has (by simp) (by simp) (Or.inl (by simp)))
  obtain ⟨a6, e6, -⟩ := s5.step (.update (by simp [Client.feed, Client.new]) (by simp [Client.feed, Client.new])
    ⟨by simp [Client.feed, Client.new], 0, by simp [Client.feed, Client.new], by simp [Client.feed, Client.new, effective_zero]⟩
    (by simp [Client.feed, Client.new]))
  obtain ⟨n, f3⟩ := addContact_of_exec e3
  obtain ⟨n', f3'⟩ := addContact_of_exec e3'
  have hR : Reachable nc ni [.setCenterOfMass3 0 0 0, .setStateVector ⟨19 + ni * 3 + nc * 13, fun i => if i.val = 6 then 1 else 0⟩ true] a2 :=
    ⟨o0, h0, run_cons.2 ⟨a1, e1, run_cons.2 ⟨a2, e2, rfl⟩⟩⟩
  refine ⟨_, a2, a3, a3', a5, a6, n, n', hR, f3, f3', fun he => ?_, run_cons.2 ⟨a4, e4, run_cons.2 ⟨a5, e5, rfl⟩⟩,
    s5.pending.1 (by simp [Client.feed, Client.new]), e6⟩
  obtain ⟨i, x, g1, g2, g3⟩ := (C103_addContact hR atRest_has f3).1
  obtain ⟨i', x', g1', g2', g3'⟩ := (C103_addContact hR raised_has f3').1
  have hn := (addContact_core f3 f3').1
  subst hn
  have hi : i' = i := by
    have i1 := inv_exec _ (inv_reachable hR) e3
    have i2 := inv_exec _ (inv_reachable hR) e3'
    rw [((start_eq i2 _ _).1 g1').2, ((start_eq i1 _ _).1 g1).2]
  subst hi
  rw [he, g2'] at g2
  cases g2
  rw [← g3'] at g3
  simp [coords] at g3

/-- The same observer: the stiffness of C104 that is not used, and gains that are. -/
theorem C104_gains_example (hnc : 0 < nc) (hni : 0 < ni) : ∃ (l : List Op) (o o1 o2 : Observer) (n n' : ℕ), Reachable nc ni l o ∧
    o.addContact atRest none 0 ⟨(1000 : ℝ) • 1, 0, 0, 0⟩ = .ok (n, o1) ∧ o.addContact atRest none 0 ⟨1, 1, 1, 1⟩ = .ok (n', o2) := by
  obtain ⟨o0, h0⟩ := (C53_constructible nc ni).2 hni
  obtain ⟨a1, e1, s1⟩ := (Sim.new h0).step (.addContact atRest none 0 ⟨(1000 : ℝ) • 1, 0, 0, 0⟩ _ hnc (by simp [Client.new]) atRest_has (by simp) (by simp) (by simp))
  obtain ⟨a2, e2, s2⟩ := (Sim.new h0).step (.addContact atRest none 0 ⟨1, 1, 1, 1⟩ _ hnc (by simp [Client.new]) atRest_has (by simp) (by simp) (by simp))
  obtain ⟨n, f1⟩ := addContact_of_exec e1
  obtain ⟨n', f2⟩ := addContact_of_exec e2
  exact ⟨[], o0, a1, a2, n, n', ⟨o0, h0, rfl⟩, f1, f2⟩

end StateObs.KO
