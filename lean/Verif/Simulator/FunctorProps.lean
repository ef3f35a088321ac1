import Verif.Simulator.Props
/-!
# C62: the dynamics can be changed during a simulation
-/

namespace StateObs.Simulator
open StateObs

variable {α : Type} [Inhabited α] {s s' : Simulator α}

/-- **C62** Another functor can be given during a simulation: the states, the measurements and the inputs there are stay what they are, and the next step is made with the
new functor from the current state and the input in force. -/
theorem C62_functor (s : Simulator α) (f : Dynamics α) :
    (s.setDynamicsFunctor (some f)).getCurrentTime = s.getCurrentTime ∧ (s.setDynamicsFunctor (some f)).getCurrentState = s.getCurrentState ∧
      (∀ k, (s.setDynamicsFunctor (some f)).getInput k = s.getInput k) ∧
      (∀ k, s.x.getFirstIndex ≤ k → k ≤ s.getCurrentTime → ∃ x, s.getState k = .ok (x, s) ∧
        (s.setDynamicsFunctor (some f)).getState k = .ok (x, s.setDynamicsFunctor (some f))) ∧
      (∀ k, s.y.getFirstIndex < k → k < s.y.getNextIndex → ∃ y, s.getMeasurement k = .ok (y, s) ∧
        (s.setDynamicsFunctor (some f)).getMeasurement k = .ok (y, s.setDynamicsFunctor (some f))) ∧
      ∀ s', (s.setDynamicsFunctor (some f)).simulateDynamics = .ok s' → ∃ x u, s.getCurrentState = .ok x ∧ s.getInput s.getCurrentTime = .ok u ∧
        s'.getCurrentTime = s.getCurrentTime + 1 ∧ s'.getCurrentState = .ok (f.state x u s.getCurrentTime) := by
  refine ⟨rfl, rfl, fun k => rfl, fun k h1 h2 => ?_, fun k h1 h2 => ?_, fun s' h => ?_⟩
  · obtain ⟨x, e, h⟩ := C63_getState_partial s k h1 h2
    obtain ⟨x', e', h'⟩ := C63_getState_partial (s.setDynamicsFunctor (some f)) k h1 h2
    have : x' = x := Option.some.inj (e'.symm.trans e)
    exact ⟨x, h, this ▸ h'⟩
  · obtain ⟨x, e, h⟩ := C63_getMeasurement_partial s k h1 h2
    obtain ⟨x', e', h'⟩ := C63_getMeasurement_partial (s.setDynamicsFunctor (some f)) k h1 h2
    have : x' = x := Option.some.inj (e'.symm.trans e)
    exact ⟨x, h, this ▸ h'⟩
  · obtain ⟨-, -, e3, -⟩ := simulateN_spec 1 (s := s.setDynamicsFunctor (some f)) (s' := s') (by simp [simulateN, h])
    obtain ⟨g, u, x0, y', x', hf, hu, hx, -, hx', rfl⟩ := simulateDynamics_ok h
    cases hf
    refine ⟨x0, u, (IArr.get_eq_ok _ _ _).2 hx, hu, e3, ?_⟩
    have e : x'.at? (s.getCurrentTime + 1) = some (f.state x0 u s.getCurrentTime) :=
      (congrFun (IArr.setValue_spec hx').1 _).trans (Function.update_self _ _ _)
    have e4 : x'.getLastIndex = s.getCurrentTime + 1 := e3
    exact (IArr.get_eq_ok _ _ _).2 (by show x'.at? x'.getLastIndex = _; rw [e4, e])

example (f g : Dynamics α) (x u : α) : ∃ s s', run new [.setDynamicsFunctor (some f), .setInput u 0, .setState x 0, .simulateDynamics] = .ok s ∧
    (s.setDynamicsFunctor (some g)).simulateDynamics = .ok s' ∧ s'.getCurrentState = .ok (g.state (f.state x u 0) u 1) := by
  refine ⟨⟨some f, ⟨0, [x, f.state x u 0]⟩, ⟨0, [f.measure x u 0]⟩, [(0, u)]⟩, ⟨some g, ⟨0, [x, f.state x u 0, g.state (f.state x u 0) u 1]⟩, ⟨0, [f.measure x u 0,
    g.measure (f.state x u 0) u 1]⟩, [(0, u)]⟩, ?_, ?_, ?_⟩ <;>
  simp [run, Call.exec, setDynamicsFunctor, new, setInput, mapInsert, setState, IArr.empty, IArr.size, IArr.truncateAfter, IArr.setValue, IArr.checkIndex, IArr.checkNext,
      simulateDynamics, getInput, IArr.get, IArr.getLastIndex, IArr.getNextIndex, IArr.getFirstIndex, getCurrentState]

end StateObs.Simulator
