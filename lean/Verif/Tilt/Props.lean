import Verif.Tilt.Model
import Verif.OutcomeLaws
import Mathlib.Analysis.Calculus.Deriv.Prod
import Mathlib.Analysis.Calculus.Deriv.Pi
import Mathlib.Analysis.Calculus.Deriv.Mul
import Mathlib.Analysis.Calculus.Deriv.Add
/-!
# C31, C32, C33: the tilt estimator
-/

namespace StateObs.Tilt
open StateObs Matrix Rot

/-! ## C31 -/

theorem tilt_grows (dt : ℝ) (x : State) (w : V3) : x.x2 ⬝ᵥ x.x2 ≤ (x.x2 + dt • (x.x2 ⨯₃ w)) ⬝ᵥ (x.x2 + dt • (x.x2 ⨯₃ w)) := by
  have h1 : x.x2 ⬝ᵥ (x.x2 ⨯₃ w) = 0 := dot_self_cross _ _
  have h2 : (x.x2 ⨯₃ w) ⬝ᵥ x.x2 = 0 := by rw [dotProduct_comm]; exact h1
  simp only [add_dotProduct, dotProduct_add, smul_dotProduct, dotProduct_smul, h1, h2, smul_eq_mul]
  nlinarith [mul_nonneg (mul_self_nonneg dt) (dot_self_nonneg (x.x2 ⨯₃ w))]

theorem normalise_ok (c : Params) (y : Meas) (x : State) (h : x.x2 ≠ 0) :
    ∃ x', normalise (euler c.dt x (drift c y x)) = .ok x' ∧ nrm x'.x2 = 1 := by
  have hne : (euler c.dt x (drift c y x)).x2 ≠ 0 := by
    intro h0
    have := tilt_grows c.dt x (y.yg - c.gamma • (x.x2 ⨯₃ x.x2p))
    have h1 : x.x2 + c.dt • (x.x2 ⨯₃ (y.yg - c.gamma • (x.x2 ⨯₃ x.x2p))) = 0 := h0
    rw [h1] at this
    exact h (dot_self_eq_zero (le_antisymm (by simpa using this) (dot_self_nonneg _)))
  refine ⟨_, by rw [normalise, if_neg (fun h' => hne (nrm_eq_zero.1 h'))], nrm_normalized hne⟩

/-- The tilt part of the state is not zero. -/
def Nonzero (s : Est) : Prop := ∀ x k, s.x = some (x, k) → x.x2 ≠ 0

/-- Neither undefined nor with a zero tilt. -/
def Safe : Res Est → Prop
  | .ok s => Nonzero s
  | .ub => False
  | _ => True

theorem Safe.bind {r : Res Est} {f : Est → Res Est} (h : Safe r) (hf : ∀ s, Nonzero s → Safe (f s)) : Safe (r >>= f) := by
  cases r with
  | ok s => exact hf s h
  | assertFail => trivial
  | ub => exact h
  | exn => trivial

theorem get_not_ub {α : Type} (a : IArr α) (t : Int) : a.get t ≠ .ub := by
  unfold IArr.get
  cases h : a.checkIndex t
  · simp
  · simp only [Res.assert_true, Res.ok_bind]
    simp only [IArr.checkIndex, Bool.and_eq_true, decide_eq_true_eq] at h
    have : (t - a.k).toNat < a.v.length := by omega
    rw [List.getElem?_eq_getElem this]
    simp

theorem setState_eq (s : Est) (x : State) (k : Int) :
    Obs.setState cfg s x k = .ok { s with x := some (x, k), y := Obs.dropUpTo k s.y.k s.y.v } := by
  simp [Obs.setState, cfg, Obs.getCurrentTime]

theorem oneStep_safe (s : Est) (h : Nonzero s) : Safe (oneStep s) := by
  unfold oneStep
  match hx : s.x with
  | none => trivial
  | some (x, k) =>
    simp only
    cases ha : decide (s.y.size > 0) && s.y.checkIndex (k + 1)
    · trivial
    · rw [Res.assert_true, Res.ok_bind]
      cases hy : s.y.get (k + 1) with
      | ok y =>
        obtain ⟨x', h1, h2⟩ := normalise_ok s.st y x (h x k hx)
        rw [Res.ok_bind, h1, Res.ok_bind, setState_eq]
        intro x'' k'' he
        cases he
        intro h0
        rw [h0, nrm_zero] at h2
        exact zero_ne_one h2
      | assertFail => trivial
      | ub => exact absurd hy (get_not_ub _ _)
      | exn => trivial

theorem popIf_not_ub {α : Type} (a : IArr α) (t : Int) : Obs.popIf t a ≠ .ub := by
  unfold Obs.popIf IArr.popFront
  split_ifs
  · split <;> simp
  · simp

theorem loopBody_safe (K : Int) (s : Est) (h : Nonzero s) : Safe (Obs.loopBody cfg oneStep K s) := by
  unfold Obs.loopBody
  refine (oneStep_safe s h).bind fun s' h' => ?_
  cases hp : Obs.popIf K s'.y with
  | ok y =>
    simp only [Res.ok_bind]
    rw [if_neg (by simp [cfg])]
    exact h'
  | assertFail => trivial
  | ub => exact absurd hp (popIf_not_ub _ _)
  | exn => trivial

theorem loop_safe (K : Int) : ∀ (n : ℕ) (s : Est), Nonzero s → Safe (Obs.loop cfg oneStep K n s)
  | 0, s, h => h
  | n + 1, s, h => (loopBody_safe K s h).bind fun s' h' => loop_safe K n s' h'

theorem estimated_safe (s : Est) (h : Nonzero s) (K : Int) : Safe (getEstimatedState s K) := by
  unfold getEstimatedState Obs.getEstimatedState Obs.getCurrentTime
  match s.x with
  | none => trivial
  | some (x, k) =>
    simp only [Res.ok_bind]
    cases decide (k ≤ K)
    · trivial
    · exact loop_safe K _ s h

/-- States supplied by the user have a nonzero tilt part. -/
def Op.Good : Op → Prop
  | .setState x _ => x.x2 ≠ 0
  | .setCurrentState x => x.x2 ≠ 0
  | _ => True

theorem safe_setY (s : Est) (h : Nonzero s) (r : Res (IArr Meas)) (hr : r ≠ .ub) : Safe (r >>= fun y' => .ok { s with y := y' }) := by
  cases r with
  | ok y => exact h
  | assertFail => trivial
  | ub => exact absurd rfl hr
  | exn => trivial

theorem setValue_not_ub {α : Type} (a : IArr α) (x : α) (t : Int) : a.setValue x t ≠ .ub := by
  unfold IArr.setValue
  cases a.checkIndex t <;> cases a.checkNext t <;> simp

theorem setMeasurement_safe (s : Est) (h : Nonzero s) (y : Meas) (k : Int) : Safe (Obs.setMeasurement cfg s y k) := by
  unfold Obs.setMeasurement
  simp only [cfg, Res.assert_true, Res.ok_bind]
  have hv : Safe (s.y.setValue y k >>= fun y' => .ok { s with y := y' }) := safe_setY s h _ (setValue_not_ub _ _ _)
  have hi : ∀ b : Bool, Safe (Res.assert b >>= fun _ => s.y.setValue y k >>= fun y' => .ok { s with y := y' }) := by
    intro b; cases b
    · trivial
    · exact hv
  split_ifs <;> exact hi _

theorem exec_safe (s : Est) (h : Nonzero s) (o : Op) (ho : o.Good) : Safe (exec s o) := by
  cases o
  case setMeasurement ya yg k => exact setMeasurement_safe s h _ _
  case pushMeasurement y =>
    unfold exec Obs.pushMeasurement
    simp only [cfg, Res.assert_true, Res.ok_bind]
    split_ifs
    · exact h
    · match hx : s.x with
      | none => trivial
      | some (x, k) =>
        have := safe_setY s h _ (setValue_not_ub s.y y (k + 1))
        rwa [hx] at this
  case setState x k =>
    show Safe (Obs.setState cfg s x k)
    rw [setState_eq]
    intro x' k' he
    cases he
    exact ho
  case setCurrentState x =>
    unfold exec Obs.setCurrentState
    match s.x with
    | none => trivial
    | some (x0, k) =>
      simp only [cfg, Res.assert_true, Res.ok_bind]
      intro x' k' he
      cases he
      exact ho
  case clearStates => intro x k he; cases he
  case getEstimatedState k => exact estimated_safe s h k
  case estimateState =>
    have tail : ∀ r : Res Est, Safe r → Safe (r >>= fun s => s.getCurrentTime >>= fun _ => .ok s) := by
      intro r hr
      refine hr.bind fun s' h' => ?_
      unfold Obs.getCurrentTime
      match hx : s'.x with
      | none => trivial
      | some (x, k) => exact h'
    simp only [exec, Obs.estimateState]
    by_cases hy : s.y.size > 0
    · rw [if_pos hy]
      unfold Obs.getMeasurementTime
      rw [decide_eq_true hy]
      have := tail _ (estimated_safe s h s.y.getLastIndex)
      simpa [Res.bind_assoc, getEstimatedState] using this
    · rw [if_neg hy]
      have := tail (.ok s) h
      simpa [Res.bind_assoc] using this
  all_goals exact h

theorem run_safe (ops : List Op) (ho : ∀ o ∈ ops, o.Good) : ∀ s, Nonzero s → Safe (ops.foldlM exec s) := by
  induction ops with
  | nil => intro s h; exact h
  | cons o os ih =>
    intro s h
    rw [List.foldlM_cons]
    exact (exec_safe s h o (ho o (by simp))).bind fun s' h' => ih (fun o h => ho o (by simp [h])) s' h'

/-- Whatever the gains, sampling times, kinematic data, measurements and order of the calls, if the states supplied by the user have a nonzero
tilt part, then no call divides by zero and the tilt part is never zero. -/
theorem C31_no_division_by_zero (alpha beta gamma : ℝ) (ops : List Op) (ho : ∀ o ∈ ops, o.Good) :
    ops.foldlM exec (ctor alpha beta gamma) ≠ .ub ∧
      ∀ s x k, ops.foldlM exec (ctor alpha beta gamma) = .ok s → s.x = some (x, k) → x.x2 ≠ 0 := by
  have h := run_safe ops ho (ctor alpha beta gamma) (by intro x k he; cases he)
  constructor
  · intro he; rw [he] at h; exact h
  · intro s x k he; rw [he] at h; exact h x k

theorem loop_unit (K : Int) : ∀ (n : ℕ) (s s' : Est), Nonzero s → (∀ x k, s.x = some (x, k) → nrm x.x2 = 1 ∨ 0 < n) →
    Obs.loop cfg oneStep K n s = .ok s' → ∀ x k, s'.x = some (x, k) → nrm x.x2 = 1
  | 0, s, s', _, hu, h => by
    intro x k hx
    cases h
    simpa using hu x k hx
  | n + 1, s, s', h0, _, h => by
    simp only [Obs.loop] at h
    obtain ⟨s1, h1, h2⟩ := Res.bind_eq_ok.1 h
    have hs := loopBody_safe K s h0
    rw [h1] at hs
    refine loop_unit K n s1 s' hs ?_ h2
    intro x k hx
    refine Or.inl ?_
    unfold Obs.loopBody at h1
    obtain ⟨s2, h3, h4⟩ := Res.bind_eq_ok.1 h1
    obtain ⟨y, -, h5⟩ := Res.bind_eq_ok.1 h4
    simp only [cfg, lt_irrefl, if_false, gt_iff_lt] at h5
    cases h5
    unfold oneStep at h3
    match hsx : s.x with
    | none => rw [hsx] at h3; cases h3
    | some (x0, k0) =>
      rw [hsx] at h3
      simp only at h3
      obtain ⟨_, -, h6⟩ := Res.bind_eq_ok.1 h3
      obtain ⟨y', -, h7⟩ := Res.bind_eq_ok.1 h6
      obtain ⟨x', h8, h9⟩ := normalise_ok s.st y' x0 (h0 x0 k0 hsx)
      rw [h8, Res.ok_bind, setState_eq] at h7
      cases h7
      cases hx
      exact h9

/-- After any history, an estimation at a time later than the current one returns a state whose tilt part has norm exactly one. -/
theorem C31_unit (alpha beta gamma : ℝ) (ops : List Op) (ho : ∀ o ∈ ops, o.Good) (s s' : Est)
    (h : ops.foldlM exec (ctor alpha beta gamma) = .ok s) (x0 : State) (k0 K : Int) (hx : s.x = some (x0, k0)) (hK : k0 < K)
    (he : getEstimatedState s K = .ok s') (x : State) (k : Int) (hx' : s'.x = some (x, k)) : nrm x.x2 = 1 := by
  have hs := run_safe ops ho (ctor alpha beta gamma) (by intro x k he; cases he)
  rw [h] at hs
  unfold getEstimatedState Obs.getEstimatedState Obs.getCurrentTime at he
  simp only [hx, Res.ok_bind] at he
  rw [decide_eq_true hK.le] at he
  simp only [Res.assert_true, Res.ok_bind] at he
  exact loop_unit K _ s s' hs (fun _ _ _ => Or.inr (by omega)) he x k hx'

/-! ## C32 -/

/-- One step from `x` with measurement `y`: the value the estimator gives if the tilt part is not zero. -/
noncomputable def next (c : Params) (x : State) (y : Meas) : State :=
  let z := euler c.dt x (drift c y x)
  { z with x2 := (nrm z.x2)⁻¹ • z.x2 }

theorem next_ok (c : Params) (y : Meas) (x : State) (h : x.x2 ≠ 0) : normalise (euler c.dt x (drift c y x)) = .ok (next c x y) := by
  obtain ⟨x', h1, h2⟩ := normalise_ok c y x h
  have h3 := h1
  unfold normalise at h1
  split_ifs at h1
  cases h1
  exact h3

theorem next_ne (c : Params) (y : Meas) (x : State) (h : x.x2 ≠ 0) : (next c x y).x2 ≠ 0 := by
  obtain ⟨x', h1, h2⟩ := normalise_ok c y x h
  rw [next_ok c y x h] at h1
  cases h1
  intro h0
  rw [h0, nrm_zero] at h2
  exact zero_ne_one h2

theorem oneStep_eq (s : Est) (x : State) (k : Int) (hx : s.x = some (x, k)) (h : x.x2 ≠ 0) (y : Meas) (ys : List Meas)
    (hy : s.y = ⟨k + 1, y :: ys⟩) : oneStep s = .ok { s with x := some (next s.st x y, k + 1), y := Obs.dropUpTo (k + 1) (k + 2) ys } := by
  unfold oneStep
  rw [hx]
  simp only [hy]
  have h1 : (decide ((⟨k + 1, y :: ys⟩ : IArr Meas).size > 0) && (⟨k + 1, y :: ys⟩ : IArr Meas).checkIndex (k + 1)) = true := by
    simp [IArr.size, IArr.checkIndex]
  have h2 : (⟨k + 1, y :: ys⟩ : IArr Meas).get (k + 1) = .ok y := by
    unfold IArr.get
    rw [Bool.and_eq_true] at h1
    rw [h1.2]
    simp
  rw [h1, h2]
  simp only [Res.assert_true, Res.ok_bind, next_ok s.st y x h, setState_eq]
  rw [hy]
  simp only [Obs.dropUpTo, le_refl, if_true]
  rw [show k + 1 + 1 = k + 2 by ring]

theorem dropUpTo_ge {α : Type} (k i : Int) (h : k < i) (l : List α) : Obs.dropUpTo k i l = ⟨i, l⟩ := by
  cases l with
  | nil => rfl
  | cons a l => simp only [Obs.dropUpTo]; rw [if_neg (by omega)]

theorem popIf_ge {α : Type} (K i : Int) (l : List α) (h : K ≤ i) : Obs.popIf K ⟨i, l⟩ = .ok ⟨i, l⟩ := by
  unfold Obs.popIf
  rw [if_neg (by simp [IArr.getFirstIndex]; omega)]

theorem popIf_lt {α : Type} (K i : Int) (a : α) (l : List α) (h : i < K) : Obs.popIf K ⟨i, a :: l⟩ = .ok ⟨i + 1, l⟩ := by
  unfold Obs.popIf
  rw [if_pos (by simp [IArr.getFirstIndex]; omega)]
  rfl

/-- The loop body if no further measurement is popped. -/
theorem loopBody_keep (s : Est) (x : State) (k K : Int) (hx : s.x = some (x, k)) (h : x.x2 ≠ 0) (y : Meas) (ys : List Meas)
    (hy : s.y = ⟨k + 1, y :: ys⟩) (hK : K ≤ k + 2) :
    Obs.loopBody cfg oneStep K s = .ok { s with x := some (next s.st x y, k + 1), y := ⟨k + 2, ys⟩ } := by
  unfold Obs.loopBody
  rw [oneStep_eq s x k hx h y ys hy, Res.ok_bind, dropUpTo_ge _ _ (by omega), popIf_ge _ _ _ hK, Res.ok_bind, if_neg (by simp [cfg])]

/-- The loop body if a further measurement is popped: it is lost. -/
theorem loopBody_lose (s : Est) (x : State) (k K : Int) (hx : s.x = some (x, k)) (h : x.x2 ≠ 0) (y y' : Meas) (ys : List Meas)
    (hy : s.y = ⟨k + 1, y :: y' :: ys⟩) (hK : k + 2 < K) :
    Obs.loopBody cfg oneStep K s = .ok { s with x := some (next s.st x y, k + 1), y := ⟨k + 2 + 1, ys⟩ } := by
  unfold Obs.loopBody
  rw [oneStep_eq s x k hx h y _ hy, Res.ok_bind, dropUpTo_ge _ _ (by omega), popIf_lt _ _ _ _ hK, Res.ok_bind, if_neg (by simp [cfg])]

/-- Calls storing measurements at consecutive times. -/
def store (t : Int) : List Meas → List Op
  | [] => []
  | y :: ys => .setMeasurement y.ya y.yg (t + 1) :: store (t + 1) ys

/-- Calls alternating a measurement and an estimation. -/
def alternate (t : Int) : List Meas → List Op
  | [] => []
  | y :: ys => .setMeasurement y.ya y.yg (t + 1) :: .getEstimatedState (t + 1) :: alternate (t + 1) ys

theorem setMeasurement_append (s : Est) (x : State) (t : Int) (hx : s.x = some (x, t)) (ys : List Meas) (hy : s.y = ⟨t + 1, ys⟩) (y : Meas) :
    Obs.setMeasurement cfg s y (t + 1 + ys.length) = .ok { s with y := ⟨t + 1, ys ++ [y]⟩ } := by
  unfold Obs.setMeasurement
  simp only [cfg, Res.assert_true, Res.ok_bind, hy, hx]
  have h1 : IArr.setValue ⟨t + 1, ys⟩ y (t + 1 + ys.length) = .ok ⟨t + 1, ys ++ [y]⟩ := by
    unfold IArr.setValue
    rw [if_neg (by simp [IArr.checkIndex])]
    have : (IArr.mk (t + 1) ys).checkNext (t + 1 + ys.length) = true := by simp [IArr.checkNext]
    rw [this]
    simp
  rw [h1]
  by_cases h : ys = []
  · subst h; simp [IArr.size]
  · have : (IArr.mk (t + 1) ys).size > 0 := List.length_pos_iff.2 h
    rw [if_pos this]
    simp [IArr.getNextIndex]

theorem setMeasurement_empty (s : Est) (x : State) (t : Int) (hx : s.x = some (x, t)) (hy : s.y.v = []) (y : Meas) :
    Obs.setMeasurement cfg s y (t + 1) = .ok { s with y := ⟨t + 1, [y]⟩ } := by
  unfold Obs.setMeasurement
  simp only [cfg, Res.assert_true, Res.ok_bind, hx]
  rw [if_neg (by simp [IArr.size, hy])]
  have h1 : s.y.setValue y (t + 1) = .ok ⟨t + 1, [y]⟩ := by
    unfold IArr.setValue
    rw [if_neg (by simp [IArr.checkIndex, hy])]
    simp [IArr.checkNext, hy]
  simp [h1]

theorem store_run (x : State) (t : Int) : ∀ (ys acc : List Meas) (s : Est), s.x = some (x, t) → s.y = ⟨t + 1, acc⟩ →
    (store (t + acc.length) ys).foldlM exec s = .ok { s with y := ⟨t + 1, acc ++ ys⟩ }
  | [], acc, s, _, hy => by simp [store]; rw [← hy]
  | y :: ys, acc, s, hx, hy => by
    simp only [store, List.foldlM_cons, exec, setMeasurement]
    rw [show t + acc.length + 1 = t + 1 + acc.length by ring, setMeasurement_append s x t hx acc hy, Res.ok_bind]
    have := store_run x t ys (acc ++ [y]) { s with y := ⟨t + 1, acc ++ [y]⟩ } hx rfl
    rw [List.length_append, List.length_singleton] at this
    rw [show t + 1 + (acc.length : Int) = t + ((acc.length + 1 : ℕ) : Int) by push_cast; ring, this]
    simp

/-- Storing from an empty buffer. -/
theorem store_eq (x : State) (t : Int) (ys : List Meas) (hne : ys ≠ []) (s : Est) (hx : s.x = some (x, t)) (hy : s.y.v = []) :
    (store t ys).foldlM exec s = .ok { s with y := ⟨t + 1, ys⟩ } := by
  cases ys with
  | nil => exact absurd rfl hne
  | cons y ys =>
    simp only [store, List.foldlM_cons, exec, setMeasurement]
    rw [setMeasurement_empty s x t hx hy, Res.ok_bind]
    have := store_run x t ys [y] { s with y := ⟨t + 1, [y]⟩ } hx rfl
    simpa using this

theorem estimate_one (s : Est) (x : State) (t : Int) (hx : s.x = some (x, t)) (h : x.x2 ≠ 0) (y : Meas) (hy : s.y = ⟨t + 1, [y]⟩) :
    getEstimatedState s (t + 1) = .ok { s with x := some (next s.st x y, t + 1), y := ⟨t + 2, []⟩ } := by
  unfold getEstimatedState Obs.getEstimatedState Obs.getCurrentTime
  simp only [hx, Res.ok_bind]
  rw [decide_eq_true (by omega), show (t + 1 - t).toNat = 1 by omega]
  simp only [Res.assert_true, Res.ok_bind, Obs.loop]
  rw [loopBody_keep s x t _ hx h y [] hy (by omega)]
  rfl

/-- Used one measurement at a time the estimator applies its step to each of them, for any number of measurements. -/
theorem C32_one_at_a_time (ys : List Meas) : ∀ (s : Est) (x : State) (t : Int), s.x = some (x, t) → x.x2 ≠ 0 → s.y.v = [] →
    ∃ s', (alternate t ys).foldlM exec s = .ok s' ∧ s'.x = some (ys.foldl (next s.st) x, t + ys.length) ∧ s'.st = s.st := by
  induction ys with
  | nil => intro s x t hx _ _; exact ⟨s, rfl, by simpa using hx, rfl⟩
  | cons y ys ih =>
    intro s x t hx h hy
    simp only [alternate, List.foldlM_cons, exec, setMeasurement]
    rw [setMeasurement_empty s x t hx hy, Res.ok_bind, estimate_one { s with y := ⟨t + 1, [y]⟩ } x t hx h y rfl, Res.ok_bind]
    obtain ⟨s', h1, h2, h3⟩ := ih { s with x := some (next s.st x y, t + 1), y := ⟨t + 2, []⟩ } (next s.st x y) (t + 1) rfl (next_ne _ _ _ h) rfl
    refine ⟨s', h1, ?_, h3⟩
    rw [h2]
    simp only [List.foldl_cons, List.length_cons]
    congr 2
    push_cast; ring

/-- The full claim: any number of measurements stored first gives the same as one at a time. -/
def C32_statement : Prop := ∀ (s : Est) (x : State) (t : Int) (ys : List Meas), ys ≠ [] → s.x = some (x, t) → x.x2 ≠ 0 → s.y.v = [] →
  ∃ s', (store t ys ++ [Op.getEstimatedState (t + ys.length)]).foldlM exec s = .ok s' ∧ s'.x = some (ys.foldl (next s.st) x, t + ys.length)

/-- The claim holds for at most two measurements. Missing: three or more, where it is false. -/
theorem C32_partial (s : Est) (x : State) (t : Int) (ys : List Meas) (hne : ys ≠ []) (hx : s.x = some (x, t)) (h : x.x2 ≠ 0) (hy : s.y.v = [])
    (hl : ys.length ≤ 2) :
    ∃ s', (store t ys ++ [Op.getEstimatedState (t + ys.length)]).foldlM exec s = .ok s' ∧
      s'.x = some (ys.foldl (next s.st) x, t + ys.length) := by
  rw [List.foldlM_append, store_eq x t ys hne s hx hy, Res.ok_bind]
  simp only [List.foldlM_cons, exec]
  match ys, hl, hne with
  | [y], _, _ =>
    have e := estimate_one { s with y := ⟨t + 1, [y]⟩ } x t hx h y rfl
    have e' : t + ([y].length : Int) = t + 1 := by simp
    rw [e', e]
    exact ⟨_, rfl, rfl⟩
  | [y, y'], _, _ =>
    have e' : t + ([y, y'].length : Int) = t + 2 := by simp
    rw [e']
    unfold getEstimatedState Obs.getEstimatedState Obs.getCurrentTime
    simp only [hx, Res.ok_bind]
    rw [decide_eq_true (by omega), show (t + 2 - t).toNat = 2 by omega]
    simp only [Res.assert_true, Res.ok_bind, Obs.loop]
    rw [loopBody_keep _ x t _ rfl h y [y'] rfl (by omega), Res.ok_bind]
    rw [loopBody_keep _ (next s.st x y) (t + 1) _ rfl (next_ne _ _ _ h) y' [] (by simp; ring) (by omega), Res.ok_bind]
    refine ⟨_, rfl, ?_⟩
    simp
    ring

/-- With three measurements stored or more, the first step loses one and the second step stops on an assertion. -/
theorem C32_false (s : Est) (x : State) (t : Int) (ys : List Meas) (hx : s.x = some (x, t)) (h : x.x2 ≠ 0) (hy : s.y.v = [])
    (hl : 3 ≤ ys.length) : (store t ys ++ [Op.getEstimatedState (t + ys.length)]).foldlM exec s = .assertFail := by
  have hne : ys ≠ [] := by rintro rfl; simp at hl
  rw [List.foldlM_append, store_eq x t ys hne s hx hy, Res.ok_bind]
  simp only [List.foldlM_cons, exec]
  match ys, hl with
  | y :: y' :: y'' :: ys, _ =>
    have hK : t + ((y :: y' :: y'' :: ys).length : Int) = t + 3 + ys.length := by simp only [List.length_cons]; push_cast; ring
    rw [hK]
    unfold getEstimatedState Obs.getEstimatedState Obs.getCurrentTime
    simp only [hx, Res.ok_bind]
    rw [decide_eq_true (by omega), show (t + 3 + ys.length - t).toNat = (ys.length + 1) + 1 + 1 by omega]
    simp only [Res.assert_true, Res.ok_bind, Obs.loop]
    rw [loopBody_lose _ x t _ rfl h y y' _ rfl (by omega), Res.ok_bind]
    have : ∀ s : Est, s.x = some (next s.st x y, t + 1) → s.y = ⟨t + 2 + 1, y'' :: ys⟩ → oneStep s = .assertFail := by
      intro s h1 h2
      unfold oneStep
      rw [h1]
      simp only [h2]
      have : (IArr.mk (t + 2 + 1) (y'' :: ys)).checkIndex (t + 1 + 1) = false := by simp [IArr.checkIndex]
      rw [this]
      simp
    rw [Obs.loopBody, this _ rfl rfl]
    rfl

theorem C32_negation : ¬ C32_statement := by
  intro h
  let s : Est := { ctor 1 1 1 with x := some (⟨0, 0, ![1, 0, 0]⟩, 0) }
  have hx : (⟨0, 0, ![1, 0, 0]⟩ : State).x2 ≠ 0 := by intro h0; have := congrFun h0 0; simp at this
  obtain ⟨s', h1, -⟩ := h s ⟨0, 0, ![1, 0, 0]⟩ 0 [⟨0, 0⟩, ⟨0, 0⟩, ⟨0, 0⟩] (by simp) rfl hx rfl
  rw [C32_false s _ 0 [⟨0, 0⟩, ⟨0, 0⟩, ⟨0, 0⟩] rfl hx rfl (by simp)] at h1
  cases h1

/-! ## C33 -/

/-- The upward direction of the world. -/
def ez : V3 := ![0, 0, 1]

/-- The state of an IMU with orientation `R` and velocity `v`: local velocity and, twice, the tilt. -/
def trueState (R : M3) (v : V3) : State := ⟨Rᵀ *ᵥ v, Rᵀ *ᵥ ez, Rᵀ *ᵥ ez⟩

theorem hasDerivAt_local {R : ℝ → M3} {v : ℝ → V3} {ω a : V3} {t : ℝ} (hR : ∀ i j, HasDerivAt (fun s => R s i j) ((R t * hat ω) i j) t)
    (hv : HasDerivAt v a t) : HasDerivAt (fun s => (R s)ᵀ *ᵥ v s) (((R t)ᵀ *ᵥ v t) ⨯₃ ω + (R t)ᵀ *ᵥ a) t := by
  rw [hasDerivAt_pi] at hv ⊢
  intro i
  have h1 : ∀ s, ((R s)ᵀ *ᵥ v s) i = R s 0 i * v s 0 + R s 1 i * v s 1 + R s 2 i * v s 2 := by
    intro s; rw [mulVec3]; rfl
  simp only [h1]
  have h2 := (((hR 0 i).mul (hv 0)).add ((hR 1 i).mul (hv 1))).add ((hR 2 i).mul (hv 2))
  convert! h2 using 1
  have h3 : ((R t)ᵀ *ᵥ v t) ⨯₃ ω = (R t * hat ω)ᵀ *ᵥ v t := by
    rw [transpose_mul, hat_transpose, ← mulVec_mulVec, neg_mulVec, hat_mulVec]
    exact (cross_anticomm _ _).symm
  rw [h3, Pi.add_apply, mulVec3, mulVec3]
  simp only [transpose_apply]
  ring

/-- The IMU moves with orientation `R`, local angular velocity `ω`, velocity `v` and acceleration `a`; it measures `Rᵀ(a + g ez)` and `ω`, and the
velocity deduced from the kinematic data is the true one. If the estimate is exact, then its drift is the time derivative of the true state. -/
theorem C33_exact (c : Params) (R : ℝ → M3) (v : ℝ → V3) (ω a : V3) (t : ℝ)
    (hR : ∀ i j, HasDerivAt (fun s => R s i j) ((R t * hat ω) i j) t) (hv : HasDerivAt v a t)
    (hx : x1meas c ω = (R t)ᵀ *ᵥ v t) :
    let y : Meas := ⟨(R t)ᵀ *ᵥ (a + g • ez), ω⟩
    let d := drift c y (trueState (R t) (v t))
    HasDerivAt (fun s => (trueState (R s) (v s)).x1) d.x1 t ∧ HasDerivAt (fun s => (trueState (R s) (v s)).x2p) d.x2p t ∧
      HasDerivAt (fun s => (trueState (R s) (v s)).x2) d.x2 t := by
  have hz : HasDerivAt (fun s => (R s)ᵀ *ᵥ ez) (((R t)ᵀ *ᵥ ez) ⨯₃ ω) t := by
    have := hasDerivAt_local (v := fun _ => ez) hR (hasDerivAt_const t ez)
    simpa using this
  simp only [trueState, drift, hx, sub_self, smul_zero, add_zero, sub_zero, _root_.cross_self]
  refine ⟨?_, hz, ?_⟩
  · have := hasDerivAt_local hR hv
    convert! this using 1
    rw [mulVec_add, mulVec_smul]
    abel
  · simpa using hz

/-- The same on the interface: one measurement and one estimation from an exact estimate advance it by the sampling time along the true
time derivative (and normalise the tilt). -/
theorem C33_step (c : Params) (R : ℝ → M3) (v : ℝ → V3) (ω a : V3) (t : ℝ) (hrot : IsRot (R t))
    (hR : ∀ i j, HasDerivAt (fun s => R s i j) ((R t * hat ω) i j) t) (hv : HasDerivAt v a t)
    (hx : x1meas c ω = (R t)ᵀ *ᵥ v t) (s : Est) (k : Int) (hs : s.x = some (trueState (R t) (v t), k)) (hy : s.y.v = []) (hp : s.st = c) :
    ∃ s' dv dz, HasDerivAt (fun s => (R s)ᵀ *ᵥ v s) dv t ∧ HasDerivAt (fun s => (R s)ᵀ *ᵥ ez) dz t ∧
      [Op.setMeasurement ((R t)ᵀ *ᵥ (a + g • ez)) ω (k + 1), .getEstimatedState (k + 1)].foldlM exec s = .ok s' ∧
      s'.x = some (⟨(R t)ᵀ *ᵥ v t + c.dt • dv, (R t)ᵀ *ᵥ ez + c.dt • dz,
        (nrm ((R t)ᵀ *ᵥ ez + c.dt • dz))⁻¹ • ((R t)ᵀ *ᵥ ez + c.dt • dz)⟩, k + 1) := by
  obtain ⟨h1, h2, h3⟩ := C33_exact c R v ω a t hR hv hx
  have hne : (trueState (R t) (v t)).x2 ≠ 0 := by
    intro h0
    have := hrot.transpose.nrm ez
    rw [show (R t)ᵀ *ᵥ ez = 0 from h0, nrm_zero, eq_comm, nrm_eq_zero] at this
    have := congrFun this 2
    simp [ez] at this
  obtain ⟨s', h4, h5, -⟩ := C32_one_at_a_time [⟨(R t)ᵀ *ᵥ (a + g • ez), ω⟩] s _ k hs hne hy
  refine ⟨s', _, _, h1, h2, h4, ?_⟩
  rw [h5, hp]
  have h6 := h2.unique h3
  simp only [List.foldl_cons, List.foldl_nil, next, euler]
  rw [← h6]
  rfl

/-- The velocity deduced from the kinematic data is the local velocity of the IMU: the IMU is at `o + Rc p` with orientation `Rc Rs`, where the
control frame `(o, Rc)` has velocity `Rc vC` and local angular velocity `ωc`, and the sensor moves in it with `p' = v`, `Rs' = hat w Rs`. The
angular velocity `ω` is the one of the IMU. -/
theorem C33_velocity (c : Params) (o p : ℝ → V3) (Rc Rs : ℝ → M3) (ωc : V3) (t : ℝ) (hRc : IsRot (Rc t)) (hRs : IsRot (Rs t))
    (ho : HasDerivAt o (Rc t *ᵥ c.vC) t) (hc : ∀ i j, HasDerivAt (fun s => Rc s i j) ((Rc t * hat ωc) i j) t)
    (hs : ∀ i j, HasDerivAt (fun s => Rs s i j) ((hat c.w * Rs t) i j) t)
    (hp : HasDerivAt p c.v t) (h1 : c.p = p t) (h2 : c.R = Rs t) :
    ∃ ω vel, (∀ i j, HasDerivAt (fun s => (Rc s * Rs s) i j) ((Rc t * Rs t * hat ω) i j) t) ∧
      HasDerivAt (fun s => o s + Rc s *ᵥ p s) vel t ∧ x1meas c ω = (Rc t * Rs t)ᵀ *ᵥ vel := by
  refine ⟨(Rs t)ᵀ *ᵥ (ωc + c.w), Rc t *ᵥ c.vC + ((Rc t * hat ωc) *ᵥ p t + Rc t *ᵥ c.v), ?_, ?_, ?_⟩
  · intro i j
    have e : ∀ s, (Rc s * Rs s) i j = Rc s i 0 * Rs s 0 j + Rc s i 1 * Rs s 1 j + Rc s i 2 * Rs s 2 j := fun s => mul3 _ _ _ _
    simp only [e]
    have := (((hc i 0).mul (hs 0 j)).add ((hc i 1).mul (hs 1 j))).add ((hc i 2).mul (hs 2 j))
    convert! this using 1
    have e2 : Rc t * Rs t * hat ((Rs t)ᵀ *ᵥ (ωc + c.w)) = Rc t * hat ωc * Rs t + Rc t * (hat c.w * Rs t) := by
      rw [hRs.transpose.hat, transpose_transpose, hat_add]
      simp only [Matrix.mul_add, Matrix.add_mul]
      congr 1
      · rw [← Matrix.mul_assoc, ← Matrix.mul_assoc, Matrix.mul_assoc (Rc t) (Rs t), hRs.orth', Matrix.mul_one]
      · rw [← Matrix.mul_assoc, ← Matrix.mul_assoc, Matrix.mul_assoc (Rc t) (Rs t), hRs.orth', Matrix.mul_one, Matrix.mul_assoc]
    rw [e2, Matrix.add_apply, mul3 (Rc t * hat ωc), mul3 (Rc t) (hat c.w * Rs t)]
    ring
  · refine ho.add ?_
    rw [hasDerivAt_pi] at hp ⊢
    intro i
    have e : ∀ s, (Rc s *ᵥ p s) i = Rc s i 0 * p s 0 + Rc s i 1 * p s 1 + Rc s i 2 * p s 2 := fun s => mulVec3 _ _ _
    simp only [e]
    have := (((hc i 0).mul (hp 0)).add ((hc i 1).mul (hp 1))).add ((hc i 2).mul (hp 2))
    convert! this using 1
    rw [Pi.add_apply, mulVec3, mulVec3]
    ring
  · unfold x1meas
    rw [h1, h2, transpose_mul, ← mulVec_mulVec, ← mulVec_mulVec, hat_mulVec]
    simp only [mulVec_add, hRc.cancel, hRs.transpose.cross]
    rw [show (Rs t)ᵀ *ᵥ ωc + (Rs t)ᵀ *ᵥ c.w - (Rs t)ᵀ *ᵥ c.w = (Rs t)ᵀ *ᵥ ωc by abel]
    abel

/-- A motionless IMU with consistent data: the true state is a fixed point of the estimator, for all gains, all sampling times, all
orientations, any position of the sensor. -/
theorem C33_static (c : Params) (hv : c.v = 0) (hw : c.w = 0) (hC : c.vC = 0) (tilt : V3) (ht : nrm tilt = 1) (s : Est) (k : Int)
    (hs : s.x = some (⟨0, tilt, tilt⟩, k)) (hy : s.y.v = []) (hp : s.st = c) :
    ∃ s', [Op.setMeasurement (g • tilt) 0 (k + 1), .getEstimatedState (k + 1)].foldlM exec s = .ok s' ∧
      s'.x = some (⟨0, tilt, tilt⟩, k + 1) := by
  have hne : tilt ≠ 0 := by rintro rfl; rw [nrm_zero] at ht; exact zero_ne_one ht
  obtain ⟨s', h1, h2, -⟩ := C32_one_at_a_time [⟨g • tilt, 0⟩] s ⟨0, tilt, tilt⟩ k hs hne hy
  refine ⟨s', h1, ?_⟩
  rw [h2, hp]
  have : next c ⟨0, tilt, tilt⟩ ⟨g • tilt, 0⟩ = ⟨0, tilt, tilt⟩ := by
    unfold next euler drift x1meas
    simp [hv, hw, hC, ht]
  simp [this]

/-- The hypotheses of C31: a use with a zero gain and an unrelated measurement. -/
example : ∃ s, [Op.setState ⟨0, 0, ![1, 0, 0]⟩ 0, .setGamma (-3), .setMeasurement ![5, 1, 2] ![7, 7, 7] 1, .getEstimatedState 1].foldlM exec
    (ctor 0 (-1) 2) = .ok s := by
  have hx : (⟨0, 0, ![1, 0, 0]⟩ : State).x2 ≠ 0 := by intro h0; have := congrFun h0 0; simp at this
  let s0 : Est := { ctor 0 (-1) (-3) with x := some (⟨0, 0, ![1, 0, 0]⟩, 0) }
  obtain ⟨s', h1, -⟩ := C32_one_at_a_time [⟨![5, 1, 2], ![7, 7, 7]⟩] s0 ⟨0, 0, ![1, 0, 0]⟩ 0 rfl hx rfl
  exact ⟨s', h1⟩

end StateObs.Tilt
