import Verif.ZeroDelay.ShiftProps
import Verif.Tilt.Props
/-!
# C136 for the tilt estimator
-/

namespace StateObs.Tilt
open StateObs ShiftSpec

/-- The same call, `d` later. -/
def laterOp (d : Int) : Op → Op
  | .setMeasurement ya yg k => .setMeasurement ya yg (k + d)
  | .setState x k => .setState x (k + d)
  | .getEstimatedState k => .getEstimatedState (k + d)
  | op => op

theorem drop_index {α : Type} (d K : Int) : ∀ (v : List α) (i : Int), (Obs.dropUpTo (K + d) (i + d) v).k = (Obs.dropUpTo K i v).k + d
  | [], _ => rfl
  | x :: v, i => by
    simp only [Obs.dropUpTo]
    by_cases h : i ≤ K
    · rw [if_pos h, if_pos (by omega), show i + d + 1 = i + 1 + d by omega]
      exact drop_index d K v (i + 1)
    · rw [if_neg h, if_neg (by omega)]

theorem step_later (d : Int) : Obs.StepShifts True cfg d id (fun _ => True) oneStep where
  shift s s' _ h := by
    unfold oneStep
    rw [h.x]
    cases s.x with
    | none => trivial
    | some q =>
      obtain ⟨x, k⟩ := q
      simp only [Option.map_some]
      have e : k + d + 1 = k + 1 + d := by omega
      rw [e, Obs.later_get h.y, Obs.later_check h.y, Obs.later_size h.y]
      refine Obs.corr_bind (Obs.corr_assert rfl) fun _ _ _ _ => ?_
      refine Obs.corr_bind (Obs.corr_refl (R := Eq) _ fun _ => rfl) fun y y' hg hy => ?_
      subst hy
      have hst : s'.st = s.st := h.st
      rw [hst]
      refine Obs.corr_bind (Obs.corr_refl (R := Eq) _ fun _ => rfl) fun z z' _ hz => ?_
      subst hz
      have hne : s.y.v ≠ [] := fun e => by simp [IArr.get, IArr.checkIndex, e] at hg
      have hk := h.y.2 hne
      rw [setState_eq, setState_eq]
      refine ⟨⟨rfl, Obs.later_drop' h.y _, h.u, h.st⟩, fun _ => ⟨?_, fun hp => by simp [cfg] at hp⟩⟩
      show (Obs.dropUpTo (k + 1 + d) s'.y.k s'.y.v).k = (Obs.dropUpTo (k + 1) s.y.k s.y.v).k + d
      rw [hk, h.y.1]
      exact drop_index d _ _ _
  keeps _ _ _ _ := trivial

theorem exec_later (d : Int) {s s' : Est} (h : Shifted d id s s') (op : Op) : Corr True (Shifted d id) (exec s op) (exec s' (laterOp d op)) := by
  have H := fun o => Obs.corr_mono (Obs.shifted_exec (step_later d) (s := s) (s' := s') trivial h o) fun _ _ hR => hR.2
  have hst : s'.st = s.st := h.st
  cases op with
  | setMeasurement ya yg k => exact H (.setMeasurement ⟨ya, yg⟩ k)
  | pushMeasurement y => exact H (.pushMeasurement y)
  | clearMeasurements => exact H .clearMeasurements
  | setState x k => exact H (.setState x k)
  | setCurrentState x => exact H (.setCurrentState x)
  | clearStates => exact H .clearStates
  | getEstimatedState k => exact H (.getEstimatedState k)
  | estimateState => exact H .estimateState
  | _ => exact ⟨h.x, h.y, h.u, by simp only [hst]; rfl⟩

/-- **C136**, tilt estimator, with all its calls: the same calls `d` later fail in the same way, or return, and leave the same estimates and parameters, at times
`d` later. -/
theorem C136_tilt (d : Int) : ∀ (ops : List Op) (s s' : Est), Shifted d id s s' →
    Corr True (Shifted d id) (ops.foldlM exec s) ((ops.map (laterOp d)).foldlM exec s')
  | [], _, _, h => h
  | op :: ops, s, s', h => by
    rw [List.map_cons, List.foldlM_cons, List.foldlM_cons]
    exact Obs.corr_bind (exec_later d h op) fun t t' _ hR => C136_tilt d ops t t' hR

/-- From the constructor: the two estimators are the same one. -/
example (alpha beta gamma : ℝ) (d : Int) : Shifted d id (ctor alpha beta gamma) (ctor alpha beta gamma) :=
  ⟨rfl, Obs.later_nil rfl rfl, Obs.later_nil rfl rfl, rfl⟩

end StateObs.Tilt
