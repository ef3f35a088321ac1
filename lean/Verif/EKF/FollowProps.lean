import Verif.EKF.GeneralProps
import Verif.Simulator.Props
/-! # C146: a filter that starts at the state of a simulation follows the simulation -/

namespace StateObs
open KF Matrix KFSpec

/-- An empty vector, as made by the default constructor. -/
instance : Inhabited DVec := ⟨⟨0, Fin.elim0⟩⟩

namespace Follow
variable {n m p : ℕ}

/-- The dynamics of the simulator: `F N` from the time `k + N` to the next, `H N` the measurement at the time `k + N + 1`. -/
structure Simulates (g : Dynamics DVec) (k : Int) (F : ℕ → (Fin n → ℝ) → (Fin p → ℝ) → Fin n → ℝ) (H : ℕ → (Fin n → ℝ) → (Fin p → ℝ) → Fin m → ℝ) : Prop where
  state : ∀ (N : ℕ) x u, g.state ⟨n, x⟩ ⟨p, u⟩ (k + N) = ⟨n, F N x u⟩
  measure : ∀ (N : ℕ) x u, g.measure ⟨n, x⟩ ⟨p, u⟩ (k + N + 1) = ⟨m, H N x u⟩

/-- What the filter is given is read in the simulator: the inputs and the measurements. -/
def ReadFrom (s : Simulator DVec) (k : Int) (N : ℕ) (i : ℕ → StepIn m p) : Prop :=
  ∀ j < N, s.getInput (k + j) = .ok ⟨p, (i j).u⟩ ∧ s.getInput (k + j + 1) = .ok ⟨p, (i j).u'⟩ ∧ s.getMeasurement (k + j + 1) = .ok (⟨m, (i j).y⟩, s)

theorem vec_inj {n : ℕ} {a b : Fin n → ℝ} (h : (⟨n, a⟩ : DVec) = ⟨n, b⟩) : a = b := by
  injection h

/-- A recursion with a correction proportional to the innovation stays on the simulated states. -/
theorem follow {F : ℕ → (Fin n → ℝ) → (Fin p → ℝ) → Fin n → ℝ} {H : ℕ → (Fin n → ℝ) → (Fin p → ℝ) → Fin m → ℝ} {g : Dynamics DVec} {s s' : Simulator DVec} {k K : Int}
    (hg : Simulates g k F H) (hf : s.f = some g) {x : Fin n → ℝ} (hk : s.getCurrentTime = k) (hx : s.getCurrentState = .ok ⟨n, x⟩) (hs : s.simulateDynamicsTo K = .ok s')
    {N : ℕ} (hN : k + N < K) {i : ℕ → StepIn m p} (hi : ReadFrom s' k N i) {z : ℕ → Fin n → ℝ} (G : ℕ → Matrix (Fin n) (Fin m) ℝ) (h0 : z 0 = x)
    (hz : ∀ j < N, z (j + 1) = F j (z j) (i j).u + G j *ᵥ ((i j).y - H j (F j (z j) (i j).u) (i j).u')) :
    s'.getState (k + N) = .ok (⟨n, z N⟩, s') := by
  obtain ⟨e1, e2, -, e4, e5⟩ := Simulator.C62_simulateDynamicsTo (k := K) (by omega) hs
  have key : ∀ j ≤ N, s'.x.at? (k + j) = some ⟨n, z j⟩ := by
    intro j
    induction j with
    | zero =>
      intro _
      rw [Nat.cast_zero, add_zero, e2 k (by omega), h0]
      have := (IArr.get_eq_ok _ _ _).1 hx
      rw [← hk]
      exact this
    | succ j ih =>
      intro hj
      obtain ⟨i1, i2, i3⟩ := hi j (by omega)
      obtain ⟨f, x1, u, f1, f2, f3, f4, -⟩ := e5 (k + j) (by omega) (by omega)
      rw [hf] at f1
      cases f1
      rw [ih (by omega)] at f2
      cases f2
      rw [← e4, i1] at f3
      cases f3
      rw [hg.state] at f4
      obtain ⟨f, x1, u, g1, g2, g3, -, g5⟩ := e5 (k + j + 1) (by omega) (by omega)
      rw [hf] at g1
      cases g1
      rw [f4] at g2
      cases g2
      rw [← e4, i2] at g3
      cases g3
      rw [hg.measure] at g5
      have hy : s'.y.at? (k + j + 1) = some ⟨m, (i j).y⟩ := by
        by_contra hc
        have h1 : k + j + 1 < s'.y.getNextIndex := by
          by_contra h
          exact Simulator.C63_getMeasurement_false s' (k + j + 1) (by omega) _ i3
        have h2 : s'.y.getFirstIndex < k + j + 1 := by
          by_contra h
          have w := IArr.window s'.y
          have : (s'.y.at? (k + j + 1)).isSome := by rw [g5]; rfl
          rw [IArr.at?_isSome] at this
          simp only [Simulator.getMeasurement, Res.bind_eq_ok] at i3
          obtain ⟨_, a, -⟩ := i3
          have : ¬s'.y.size = 0 := by
            show ¬s'.y.v.length = 0
            omega
          simp [this, h] at a
        obtain ⟨y, a1, a2⟩ := Simulator.C63_getMeasurement_partial s' _ h2 h1
        rw [i3] at a2
        cases a2
        exact hc a1
      have hyv := vec_inj (Option.some.inj (hy.symm.trans g5))
      rw [hz j (by omega), hyv, sub_self, mulVec_zero, add_zero]
      rw [Nat.cast_succ, ← add_assoc]
      exact f4
  have w := IArr.window s'.x
  have hw : (s'.x.at? (k + N)).isSome := by rw [key N le_rfl]; rfl
  rw [IArr.at?_isSome] at hw
  obtain ⟨v, a1, a2⟩ := Simulator.C63_getState_partial s' (k + N) hw.1 hw.2
  rw [key N le_rfl] at a1
  cases a1
  exact a2

/-- **C146** An extended Kalman filter whose functor computes the system of the simulator, which starts at the state of the simulator with any covariance, and is given the inputs and
the measurements of the simulator, returns the states of the simulator, whatever the Jacobians and the covariances it is given. -/
theorem C146_ekf (f : EKF.Functor) (y : EKF.System n m p) (hc : EKF.Computes f y) (g : Dynamics DVec) (k K : Int)
    (hg : Simulates g k (fun N => y.F (k + N)) fun N => y.H (k + N)) (t t' : Simulator DVec) (hf : t.f = some g) (x : Fin n → ℝ) (hk : t.getCurrentTime = k)
    (hx : t.getCurrentState = .ok ⟨n, x⟩) (ht : t.simulateDynamicsTo K = .ok t') (s : KFilter EKF.Ext) (P : Matrix (Fin n) (Fin n) ℝ) (hs : EKF.InUse s n m p f x P k)
    (hP : P.PosSemidef) (M : ℕ → EKF.Mats n m) (hM : ∀ N, (M N).Ok) (N : ℕ) (hN : k + N < K) (i : ℕ → StepIn m p) (hi : ReadFrom t' k N i) :
    ∃ s' e, EKF.cyclesU M i s N = .ok s' ∧ s'.x = some (⟨n, e⟩, k + N) ∧ t'.getState (k + N) = .ok (⟨n, e⟩, t') := by
  obtain ⟨s', h1, h2⟩ := EKF.C127_recursion s f y hc x P k hs hP M hM i N
  refine ⟨s', _, h1, h2.x, ?_⟩
  exact follow hg hf hk hx ht hN hi (z := fun j => (EKF.ekfRun y k M i (x, P) j).1)
    (fun j => ((M j).A * (EKF.ekfRun y k M i (x, P) j).2 * (M j).Aᵀ + (M j).Q) * (M j).Cᵀ *
      ((M j).C * ((M j).A * (EKF.ekfRun y k M i (x, P) j).2 * (M j).Aᵀ + (M j).Q) * (M j).Cᵀ + (M j).R)⁻¹) rfl fun j _ => rfl

/-- **C146** The same with the Jacobians computed by finite differences. -/
theorem C146_differences (f : EKF.Functor) (y : EKF.System n m p) (hc : EKF.Computes f y) (g : Dynamics DVec) (k K : Int)
    (hg : Simulates g k (fun N => y.F (k + N)) fun N => y.H (k + N)) (t t' : Simulator DVec) (hf : t.f = some g) (x : Fin n → ℝ) (hk : t.getCurrentTime = k)
    (hx : t.getCurrentState = .ok ⟨n, x⟩) (ht : t.simulateDynamicsTo K = .ok t') (s : KFilter EKF.Ext) (P : Matrix (Fin n) (Fin n) ℝ) (hs : EKF.InUse s n m p f x P k)
    (hP : P.PosSemidef) (Q : ℕ → Matrix (Fin n) (Fin n) ℝ) (R : ℕ → Matrix (Fin m) (Fin m) ℝ) (hQ : ∀ N, (Q N).PosSemidef) (hR : ∀ N, (R N).PosDef)
    (dA dC : ℕ → Fin n → ℝ) (hA : ∀ N j, dA N j ≠ 0) (hC : ∀ N j, dC N j ≠ 0) (N : ℕ) (hN : k + N < K) (i : ℕ → StepIn m p) (hi : ReadFrom t' k N i) :
    ∃ s' e, EKF.cycles Q R dA dC i s N = .ok s' ∧ s'.x = some (⟨n, e⟩, k + N) ∧ t'.getState (k + N) = .ok (⟨n, e⟩, t') := by
  obtain ⟨s', h1, h2⟩ := EKF.C127_differences s f y hc x P k hs hP Q R hQ hR dA dC hA hC i N
  refine ⟨s', _, h1, h2.x, ?_⟩
  set z := EKF.fdRun y k Q R dA dC i (x, P) with hz
  set M : ℕ → EKF.Mats n m := fun j => EKF.fdMats y (k + j) (Q j) (R j) (dA j) (dC j) (i j) (z j).1
  exact follow hg hf hk hx ht hN hi (z := fun j => (z j).1)
    (fun j => ((M j).A * (z j).2 * (M j).Aᵀ + (M j).Q) * (M j).Cᵀ * ((M j).C * ((M j).A * (z j).2 * (M j).Aᵀ + (M j).Q) * (M j).Cᵀ + (M j).R)⁻¹) rfl fun j _ => rfl

/-- **C146** The same for the linear Kalman filter. -/
theorem C146_linear (d : ℕ → LinModel n m p) (hd : ∀ N, (d N).Ok) (g : Dynamics DVec) (k K : Int)
    (hg : Simulates g k (fun N x u => (d N).A *ᵥ x + (d N).B *ᵥ u) fun N x u => (d N).C *ᵥ x + (d N).D *ᵥ u) (t t' : Simulator DVec) (hf : t.f = some g) (x : Fin n → ℝ)
    (hk : t.getCurrentTime = k) (hx : t.getCurrentState = .ok ⟨n, x⟩) (ht : t.simulateDynamicsTo K = .ok t') (s : KFilter LKF.Ext) (P : Matrix (Fin n) (Fin n) ℝ)
    (hs : LKF.InUse s n m p x P k) (hP : P.PosSemidef) (N : ℕ) (hN : k + N < K) (i : ℕ → StepIn m p) (hi : ReadFrom t' k N i) :
    ∃ s' e, LKF.cycles d i s N = .ok s' ∧ s'.x = some (⟨n, e⟩, k + N) ∧ t'.getState (k + N) = .ok (⟨n, e⟩, t') := by
  obtain ⟨s', h1, h2⟩ := LKF.C20_run s x P k hs hP d hd i N
  refine ⟨s', _, h1, h2.x, ?_⟩
  exact follow hg hf hk hx ht hN hi (z := fun j => (linRun d i (x, P) j).1) (fun j => gain (d j).C (d j).R (predCov (d j).A (d j).Q (linRun d i (x, P) j).2)) rfl fun j _ => rfl

/-- **C146** There are such simulations and data: a new simulator that is given the dynamics, an input and the initial state simulates to any time, and the inputs and the measurements can
be read. -/
theorem C146_data {F : ℕ → (Fin n → ℝ) → (Fin p → ℝ) → Fin n → ℝ} {H : ℕ → (Fin n → ℝ) → (Fin p → ℝ) → Fin m → ℝ} (g : Dynamics DVec) (k K : Int) (hg : Simulates g k F H)
    (x : Fin n → ℝ) (u : Fin p → ℝ) (N : ℕ) (hN : k + N < K) :
    ∃ (t t' : Simulator DVec) (i : ℕ → StepIn m p), ((Simulator.new.setDynamicsFunctor (some g)).setInput ⟨p, u⟩ k).setState ⟨n, x⟩ k = .ok t ∧ t.f = some g ∧
      t.getCurrentTime = k ∧ t.getCurrentState = .ok ⟨n, x⟩ ∧ t.simulateDynamicsTo K = .ok t' ∧ ReadFrom t' k N i := by
  set t : Simulator DVec := ⟨some g, ⟨k, [⟨n, x⟩]⟩, IArr.empty, [(k, ⟨p, u⟩)]⟩ with ht
  have hu : ∀ j, k ≤ j → t.getInput j = .ok ⟨p, u⟩ := by
    intro j hj
    simp [Simulator.getInput, ht, hj]
  have hk : t.getCurrentTime = k := by simp [Simulator.getCurrentTime, ht, IArr.getLastIndex]
  obtain ⟨t', h'⟩ := Simulator.C62_returns (s := t) (by simp [ht]) (by simp [ht, IArr.size]) (.inl rfl) ((Res.isOk_iff _).2 ⟨_, by rw [hk]; exact hu k le_rfl⟩) K
  obtain ⟨e1, e2, -, e4, e5⟩ := Simulator.C62_simulateDynamicsTo (k := K) (by omega) h'
  have hx : t.getCurrentState = .ok ⟨n, x⟩ := by
    simp [Simulator.getCurrentState, ht, IArr.getLastIndex, IArr.get, IArr.checkIndex]
  -- the states have the size `n`
  have st : ∀ j : ℕ, k + j ≤ K → ∃ v : Fin n → ℝ, t'.x.at? (k + j) = some ⟨n, v⟩ := by
    intro j
    induction j with
    | zero =>
      intro _
      refine ⟨x, ?_⟩
      rw [Nat.cast_zero, add_zero, e2 k (by omega)]
      have := (IArr.get_eq_ok _ _ _).1 hx
      rw [← hk]
      exact this
    | succ j ih =>
      intro hj
      obtain ⟨v, hv⟩ := ih (by omega)
      obtain ⟨f, x1, u1, f1, f2, f3, f4, -⟩ := e5 (k + j) (by omega) (by omega)
      cases f1
      rw [hv] at f2
      cases f2
      rw [hu _ (by omega)] at f3
      cases f3
      rw [hg.state] at f4
      refine ⟨F j v u, ?_⟩
      rw [Nat.cast_succ, ← add_assoc]
      exact f4
  have ms : ∀ j : ℕ, ∃ v : Fin m → ℝ, j < N → t'.getMeasurement (k + j + 1) = .ok (⟨m, v⟩, t') := by
    intro j
    by_cases hj : j < N
    · obtain ⟨f, x1, u1, f1, f2, f3, -, f5⟩ := e5 (k + j + 1) (by omega) (by omega)
      obtain ⟨_, _, _, _, _, _, _, g5⟩ := e5 k (by omega) (by omega)
      cases f1
      obtain ⟨v, hv⟩ := st (j + 1) (by omega)
      rw [Nat.cast_succ, ← add_assoc, f2] at hv
      cases hv
      rw [hu _ (by omega)] at f3
      cases f3
      rw [hg.measure] at f5
      have w := IArr.window t'.y
      have w1 : (t'.y.at? k).isSome := by rw [g5]; rfl
      have w2 : (t'.y.at? (k + j + 1)).isSome := by rw [f5]; rfl
      rw [IArr.at?_isSome] at w1 w2
      obtain ⟨y, a1, a2⟩ := Simulator.C63_getMeasurement_partial t' (k + j + 1) (by omega) (by omega)
      rw [f5] at a1
      cases a1
      exact ⟨_, fun _ => a2⟩
    · exact ⟨0, fun h => absurd h hj⟩
  choose v hv using ms
  refine ⟨t, t', fun j => ⟨u, u, v j⟩, ?_, rfl, hk, hx, h', fun j hj => ⟨?_, ?_, hv j hj⟩⟩
  · simp [Simulator.setDynamicsFunctor, Simulator.new, Simulator.setInput, Simulator.mapInsert, Simulator.setState, IArr.empty, IArr.size, IArr.truncateAfter, IArr.setValue,
      IArr.checkIndex, IArr.checkNext, ht]
  · rw [e4, hu _ (by omega)]
  · rw [e4, hu _ (by omega)]

end Follow
end StateObs
