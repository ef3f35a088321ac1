import Verif.KO.StateSet
import Verif.Kin.Lemmas
/-!
# The accelerations of the kinematics of the observer (helpers for C103)
-/

namespace StateObs.KO
open StateObs Matrix Rot Kine KF
open Observer

variable {nc ni : ℕ} {o o' : Observer}

/-- The accelerations are not set, or hold a value. -/
def Accs (k : Kin) : Prop := ∃ a b, Item k.linAcc a ∧ Item k.angAcc b

theorem accs_loaded {k : Kin} (h : Accs k) (x : DVec) : Accs (loaded k x) := h

theorem accs_reset (k : Kin) : Accs k.reset := ⟨none, none, rfl, rfl⟩

theorem estimateAccelerations_accs (h : o.estimateAccelerations = .ok o') : Accs o'.stateKin := by
  simp only [estimateAccelerations, Res.bind_eq_ok] at h
  obtain ⟨w, -, r, -, h2⟩ := h
  cases h2
  exact ⟨some _, some _, rfl, rfl⟩

theorem update_accs (h : o.update = .ok o') (hk : o.kEst ≠ o.kData) : Accs o'.stateKin := by
  rw [update, if_pos hk] at h
  simp only [Res.bind_eq_ok] at h
  obtain ⟨⟨o1, y, cov⟩, h1, e, -, h3⟩ := h
  simp only [afterFilter, Res.bind_eq_ok] at h3
  obtain ⟨x, hx, o2, h4, h5⟩ := h3
  have e2 := updateKine_shows h4
  have s2 : Accs o2.stateKin := by rw [e2]; exact accs_reset _
  split_ifs at h5
  · exact estimateAccelerations_accs h5
  · cases h5
    exact s2

theorem accs_exec (hi : Inv nc ni o) (hs : Accs o.stateKin) (op : Op) (hc : op.Coherent) (h : Op.exec o op = .ok o') : Accs o'.stateKin := by
  by_cases h1 : op.setsState = false
  · by_cases h2 : op = .estimateAccelerations
    · subst h2
      exact estimateAccelerations_accs h
    · have := shown_other op h1 h2 h
      injection this with e1 e2
      injection e2 with e2 e3
      rw [e2]; exact hs
  · cases op <;> simp only [Op.setsState, not_true_eq_false] at h1 <;> simp only [Op.exec] at h
    case update =>
      by_cases hk : o.kEst ≠ o.kData
      · exact update_accs h hk
      · rw [update, if_neg hk] at h
        cases h; exact hs
    case setStateKinematics k f r =>
      obtain ⟨a, ha⟩ := hc
      have ht : (k.pos.isSet dbg && k.ori.isSet && k.linVel.isSet dbg && k.angVel.isSet dbg) = true := by
        have h2 := h
        simp only [setStateKinematics, Res.bind_eq_ok] at h2
        obtain ⟨_, h2, -⟩ := h2
        exact Res.assert_ok h2
      obtain ⟨p, R, v, w, hh⟩ := has_of_assert ha ht
      obtain ⟨q, k', -, -, -, -, g, -⟩ := setStateKinematics_ok hi hh h
      rw [g]
      exact ⟨_, _, hh.linAcc, hh.angAcc⟩
    case setGyroBias b i r =>
      obtain ⟨-, -, g1, -⟩ := setGyroBias_ok hi h
      rw [g1]; exact hs
    case setStateUnmodeledWrench w r =>
      obtain ⟨-, g1, -⟩ := setStateUnmodeledWrench_ok hi h
      rw [g1]; exact hs
    case setStateVector v r =>
      obtain ⟨g1, g2, -⟩ := setStateVector_ok h
      rw [g2]
      exact hs
    case addContact p c n v =>
      rw [Res.bind_eq_ok] at h
      obtain ⟨⟨m, o1⟩, h, h2⟩ := h
      cases h2
      rw [(addContact_frame hi h).1]; exact hs

theorem accs_reachable {l : List Op} (h : Reachable nc ni l o) (hc : ∀ op ∈ l, op.Coherent) : Accs o.stateKin := by
  obtain ⟨o0, h0, h1⟩ := h
  have key : ∀ (l : List Op) (a : Observer), Inv nc ni a → Accs a.stateKin → (∀ op ∈ l, op.Coherent) → Op.run a l = .ok o → Accs o.stateKin := by
    intro l
    induction l with
    | nil => intro a _ hs _ e; cases e; exact hs
    | cons op l ih =>
      intro a ha hs hc e
      simp only [Op.run, List.foldlM_cons, Res.bind_eq_ok] at e
      obtain ⟨b, e1, e2⟩ := e
      exact ih b (inv_exec op ha e1) (accs_exec ha hs op (hc op (by simp)) e1) (fun x hx => hc x (by simp [hx])) e2
  refine key l o0 (inv_construct h0) ?_ hc h1
  obtain ⟨e, k, hk, ha, hb⟩ := construct_kin (nc := nc) (construct_pos h0)
  rw [hk] at h0
  cases h0
  exact ⟨none, none, by rw [ha]; rfl, by rw [hb]; rfl⟩

end StateObs.KO
