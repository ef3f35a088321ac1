import Verif.KO.ClientProps
import Verif.KO.StateProps
import Verif.KO.CovResetProps
/-!
# The hypotheses of C53 and C54 are met
-/

namespace StateObs.KO
open StateObs Matrix Rot Kine KF Observer

variable {nc ni : ℕ}

theorem fill_exists (T : ℕ) (hT : T ≤ nc) : ∃ (l : List Op) (c : Client), Client.Run nc ni Client.new l c ∧ ∀ n, n ∈ c.contacts ↔ n < T := by
  induction T with
  | zero => exact ⟨[], _, .nil _, fun n => by simp [Client.new]⟩
  | succ T ih =>
    obtain ⟨l, c, h1, h2⟩ := ih (by omega)
    refine ⟨l ++ [.addContact atRest none T ⟨1, 1, 1, 1⟩], _,
      h1.append (.cons (.addContact atRest none T ⟨1, 1, 1, 1⟩ _ (by omega) (fun h => by have := (h2 T).1 h; omega) atRest_has (by simp) (by simp) (by simp)) (.nil _)), fun n => ?_⟩
    simp only [Finset.mem_insert, h2]
    omega

/-- **C53**, **C54** All the contacts of an observer can be set: the segments cover its vectors, the setters of the covariance return for every component, and so do the resets. -/
example (hni : 0 < ni) : ∃ l o, Reachable nc ni l o ∧ (∀ n < nc, IsSet o n) ∧ (∀ B : Matrix (Fin 12) (Fin 12) ℝ, ∃ o', o.setKinematicsStateCovariance (dm B) = .ok o') ∧
    (∀ B, ∀ n < nc, ∃ o', o.setContactStateCovMat (n : ℕ) B = .ok o') ∧ ∃ o' bl, o.resetStateCovarianceMat = .ok o' ∧ StateCov o o' bl := by
  obtain ⟨o0, h⟩ := (C53_constructible nc ni).2 hni
  obtain ⟨l, c, hr, hc⟩ := fill_exists (nc := nc) (ni := ni) nc le_rfl
  obtain ⟨o, e, sim⟩ := (Sim.new h).run hr
  have hre : Reachable nc ni _ o := ⟨o0, h, e⟩
  have hset : ∀ n < nc, IsSet o n := fun n hn => sim.isSet ((hc n).2 hn)
  obtain ⟨s1, -, -, s4⟩ := C54_stateSetters hre
  obtain ⟨⟨o', r1, r2⟩, -⟩ := C54_resetAll hre
  exact ⟨l, o, hre, hset, fun B => (s1 B).2.2 (C53_defined hre .position trivial).2, fun B n hn => (s4 n B).2.2 (C53_defined hre (.contactPosition n) (hset n hn)).2, o', _, r1, r2⟩

end StateObs.KO
