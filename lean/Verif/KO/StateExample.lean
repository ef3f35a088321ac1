import Verif.KO.ClientProps
import Verif.KO.StateProps
/-!
# The hypotheses of C103 are met
-/

namespace StateObs.KO
open StateObs Matrix Rot Kine KF Observer

variable {nc ni : ℕ}

/-- **C103** After any number of estimations with a contact, every setter of the state returns: the theorems above are about these calls. -/
theorem C103_example (hnc : 0 < nc) (hni : 0 < ni) (T : ℕ) :
    ∃ l o, Reachable nc ni l o ∧ o.getStateVectorTimeIndex = .ok T ∧ (∀ n, n ∈ o.getListOfContacts ↔ n = 0) ∧
      (∀ b i r, i < ni → ∃ o', o.setGyroBias b i r = .ok o') ∧ (∀ w r, ∃ o', o.setStateUnmodeledWrench w r = .ok o') ∧
      (∀ f, ∃ o', o.setStateKinematics atRest f false = .ok o') ∧ (∃ w, o.getContactWrench 0 = .ok w) ∧
      (∀ v : Fin (19 + ni * 3 + nc * 13) → ℝ, v ⟨3, by omega⟩ ^ 2 + v ⟨4, by omega⟩ ^ 2 + v ⟨5, by omega⟩ ^ 2 + v ⟨6, by omega⟩ ^ 2 = 1 →
        ∃ o', o.setStateVector ⟨_, v⟩ false = .ok o') := by
  obtain ⟨o0, h⟩ := (C53_constructible nc ni).2 hni
  obtain ⟨c, hr, hs, hst, hc⟩ := C84_example hnc hni T
  obtain ⟨o, e, sim⟩ := (Sim.new h).run hr
  obtain ⟨o', e', ht, hl, -⟩ := C84_returns h hr
  obtain rfl := Res.ok.inj (e.symm.trans e')
  have hre : Reachable nc ni _ o := ⟨o0, h, e⟩
  have hi := inv_reachable hre
  refine ⟨_, o, hre, by rw [ht, hs], ?_, fun b i r hi => ?_, fun w r => ?_, fun f => ?_, ?_, fun v hv => ?_⟩
  · intro n
    rw [hl, hc, Finset.mem_singleton]
  · obtain ⟨o', h1, -⟩ := sim.setGyroBias b hi r
    exact ⟨o', h1⟩
  · obtain ⟨o', h1, -⟩ := sim.setStateUnmodeledWrench w (r := r) fun _ => hnc
    exact ⟨o', h1⟩
  · obtain ⟨o', h1, -⟩ := sim.setStateKinematics atRest_has (f := f) (r := false) (by simp) (by simp) (by simp) (by simp) (by simp)
    exact ⟨o', h1⟩
  · have hset : IsSet o 0 := sim.isSet (by rw [hc]; simp)
    have e1 : (Comp.contactForce 0).Is o (coords fun j => at1 o.x (off ni (.contactForce 0) + j)) := (is3 (c := .contactForce 0) hi rfl _).2 ⟨hset, fun j hj => rfl⟩
    have e2 : (Comp.contactTorque 0).Is o (coords fun j => at1 o.x (off ni (.contactTorque 0) + j)) := (is3 (c := .contactTorque 0) hi rfl _).2 ⟨hset, fun j hj => rfl⟩
    refine ⟨![_, _, _, _, _, _], (C103_getContactWrench hre 0 _).2 ⟨e1, e2⟩⟩
  · have : Client.StateVector nc ni ⟨_, v⟩ := by
      refine ⟨fun i => if hi : i < 19 + ni * 3 + nc * 13 then v ⟨i, hi⟩ else 0, ?_, ?_⟩
      · congr 1
        funext i
        beta_reduce
        rw [dif_pos i.2]
      · beta_reduce
        rw [dif_pos (by omega), dif_pos (by omega), dif_pos (by omega), dif_pos (by omega)]
        exact hv
    obtain ⟨o', h1, -⟩ := sim.step (.stateVector _ false this)
    exact ⟨o', h1⟩

end StateObs.KO
