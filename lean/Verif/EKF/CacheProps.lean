import Verif.EKF.CacheSpec
import Verif.EKF.AffineProps
/-!
# C22: predictions of the extended filter and their cache
-/

namespace StateObs.EKF
open StateObs KF KFSpec IArrSpec Matrix

/-- Full statement of **C22**: after any calls, a step uses the current functor, state and inputs. It is false, see `C22_false`. -/
def C22_statement : Prop :=
  ∀ (n nt m mt p : ℕ) (dO dS : Bool) (ops : List EOp) (s s' : KFilter Ext) (x : DVec) (k : Int),
    ops.foldlM eexec (mk n nt m mt p dO dS) = .ok s → s.x = some (x, k) → getEstimatedState s (k + 1) = .ok s' → FreshStep s s' x k

/-- The calls that change what predictions are computed from are made only while no prediction for the next time is stored; an
input of a later time may also be given when only the state prediction is stored. -/
def EOp.Admissible (s s' : KFilter Ext) : EOp → Prop
  | .base (.setState _ _) | .base (.setCurrentState _) | .base (.pushInput _) | .base .clearInputs | .base (.setInputSize _)
  | .setFunctor _ | .clearFunctor | .setDirectInputOutputFeedthrough _ | .setDirectInputStateFeedthrough _ => ¬ Pending s'
  | .base (.setInput _ t) => ¬ Pending s' ∨ (¬ MeasPending s ∧ ∀ x k, s.x = some (x, k) → t ≠ k)
  | _ => True

/-- A history all of whose calls are admissible. -/
inductive Reach (n nt m mt p : ℕ) (dO dS : Bool) : KFilter Ext → Prop where
  | mk : Reach n nt m mt p dO dS (mk n nt m mt p dO dS)
  | call (s s' : KFilter Ext) (op : EOp) : Reach n nt m mt p dO dS s → eexec s op = .ok s' → op.Admissible s s' →
      Reach n nt m mt p dO dS s'

/-- The stored predictions for the next time are those of the current data. -/
structure Coh (s : KFilter Ext) : Prop where
  xb : ∀ x k v, s.x = some (x, k) → s.st.xbar = some (v, k + 1) →
    ∃ f, s.st.ext.f = some f ∧ f.stateDynamics x (stateInput s k) k = .ok v
  yb : ∀ x k w, s.x = some (x, k) → s.st.ybar = some (w, k + 1) →
    ∃ f v, s.st.ext.f = some f ∧ s.st.xbar = some (v, k + 1) ∧ f.measureDynamics v (measInput s (k + 1)) (k + 1) = .ok w
  opt : ∀ x k v, s.x = some (x, k) → s.st.xbar = some (v, k + 1) → s.st.p = 0 → s.st.ext.optU = DVec.zero 0

theorem coh_of_not_pending {s : KFilter Ext} (h : ¬ Pending s) : Coh s where
  xb := fun x k v h1 h2 => absurd ⟨x, k, v, h1, Or.inl h2⟩ h
  yb := fun x k v h1 h2 => absurd ⟨x, k, v, h1, Or.inr h2⟩ h
  opt := fun x k v h1 h2 => absurd ⟨x, k, v, h1, Or.inl h2⟩ h

theorem coh_of_none {s : KFilter Ext} (h : s.x = none) : Coh s :=
  coh_of_not_pending fun ⟨x, k, v, h1, _⟩ => by rw [h] at h1; cases h1

theorem coh_congr {s s' : KFilter Ext} (h : Coh s) (h1 : s'.x = s.x) (h2 : s'.u = s.u) (h3 : s'.st.xbar = s.st.xbar)
    (h4 : s'.st.ybar = s.st.ybar) (h5 : s'.st.ext = s.st.ext) (h6 : s'.st.p = s.st.p) : Coh s' := by
  have e1 : ∀ k, stateInput s' k = stateInput s k := by intro k; simp only [stateInput, inputAt, h2, h5, h6]
  have e2 : ∀ k, measInput s' k = measInput s k := by intro k; simp only [measInput, inputAt, h2, h6]
  refine ⟨?_, ?_, ?_⟩
  · intro x k v a b
    rw [h1] at a; rw [h3] at b
    rw [h5, e1]; exact h.xb x k v a b
  · intro x k v a b
    rw [h1] at a; rw [h4] at b
    rw [h5, h3, e2]; exact h.yb x k v a b
  · intro x k v a b
    rw [h1] at a; rw [h3] at b
    rw [h5, h6]; exact h.opt x k v a b

theorem get_inputAt {s : KFilter Ext} {k : Int} {u : DVec} (h : s.u.get k = .ok u) : inputAt s k = u := by
  rw [Obs.get_eq] at h
  unfold inputAt
  cases hm : (absMap s.u).m k with
  | none => rw [hm] at h; simp at h
  | some v => rw [hm] at h; cases h; rfl

theorem inputAt_of_not {s : KFilter Ext} {k : Int} (h : s.u.checkIndex k = false) : inputAt s k = DVec.zero s.st.p := by
  unfold inputAt
  cases hm : (absMap s.u).m k with
  | none => rfl
  | some v =>
    have := (absMap_isSome s.u k).1 (by rw [hm]; rfl)
    rw [(checkIndex_iff _ _).2 this] at h; cases h

theorem cached_iff {v : Option (DVec × Int)} {k : Int} : notCached v k = false ↔ ∃ w, v = some (w, k) := by
  cases v with
  | none => simp [notCached]
  | some q =>
    obtain ⟨w, t⟩ := q
    simp only [notCached, decide_eq_false_iff_not, not_not, Option.some.injEq, Prod.mk.injEq]
    constructor
    · rintro rfl; exact ⟨w, rfl, rfl⟩
    · rintro ⟨_, -, h⟩; exact h

/-- Exact effect of `prediction_` when it succeeds. -/
theorem prediction_ok {s s' : KFilter Ext} {x : DVec} {k : Int} (hx : s.x = some (x, k)) (h : prediction s (k + 1) = .ok s') :
    (s' = s ∧ ∃ v, s.st.xbar = some (v, k + 1)) ∨
    ((∀ v, s.st.xbar ≠ some (v, k + 1)) ∧ ∃ f v, s.st.ext.f = some f ∧ f.stateDynamics x (stateInput s k) k = .ok v ∧
      s' = { s with st := { s.st with
        xbar := some (v, k + 1)
        ext := { s.st.ext with optU := stateInput s k } } }) := by
  unfold prediction at h
  by_cases hc : notCached s.st.xbar (k + 1) = true
  · right
    rw [if_pos hc, Res.bind_eq_ok] at h
    obtain ⟨u, hu, h⟩ := h
    have hu' : u = stateInput s k := by
      unfold stateInput
      split_ifs at hu ⊢ with h1
      · rw [show k + 1 - 1 = k by omega, Res.bind_eq_ok] at hu
        obtain ⟨_, -, hu⟩ := hu
        exact (get_inputAt hu).symm
      · cases hu; rfl
    subst hu'
    refine ⟨?_, ?_⟩
    · intro v hv
      rw [hv] at hc; simp at hc
    · cases hf : s.st.ext.f with
      | none => rw [hf] at h; simp at h
      | some f =>
        rw [hf, hx] at h
        simp only [Res.bind_eq_ok] at h
        obtain ⟨v, hv, h⟩ := h
        refine ⟨f, v, rfl, hv, ?_⟩
        cases h
        rw [← hx]
  · left
    rw [if_neg hc] at h
    cases h
    exact ⟨rfl, cached_iff.1 (by simpa using hc)⟩

theorem coh_prediction {s s' : KFilter Ext} {x : DVec} {k : Int} (hs : Coh s) (hx : s.x = some (x, k))
    (h : prediction s (k + 1) = .ok s') :
    Coh s' ∧ s'.x = some (x, k) ∧ s'.u = s.u ∧ s'.st.p = s.st.p ∧ s'.st.ext.f = s.st.ext.f ∧
      s'.st.ext.dirState = s.st.ext.dirState ∧
      ∃ f v, s'.st.ext.f = some f ∧ f.stateDynamics x (stateInput s k) k = .ok v ∧ s'.st.xbar = some (v, k + 1) := by
  rcases prediction_ok hx h with ⟨rfl, v, hv⟩ | ⟨hn, f, v, hf, hfv, rfl⟩
  · refine ⟨hs, hx, rfl, rfl, rfl, rfl, ?_⟩
    obtain ⟨f, h1, h2⟩ := hs.xb x k v hx hv
    exact ⟨f, v, h1, h2, hv⟩
  · refine ⟨⟨?_, ?_, ?_⟩, hx, rfl, rfl, rfl, rfl, f, v, hf, hfv, rfl⟩
    · intro x' k' v h1 h2
      simp only [hx] at h1; cases h1
      cases h2
      exact ⟨f, hf, hfv⟩
    · intro x' k' w h1 h2
      simp only [hx] at h1; cases h1
      obtain ⟨_, v, -, h4, -⟩ := hs.yb x k w hx h2
      exact absurd h4 (hn v)
    · intro x' k' v h1 h2 h3
      simp only at h3 ⊢
      simp only [stateInput, h3]
      simp

/-- Exact effect of `predictSensor_` when it succeeds. -/
theorem predictSensor_ok {s s' : KFilter Ext} {v : DVec} {k : Int} (hx : s.st.xbar = some (v, k))
    (ho : s.st.p = 0 → s.st.ext.optU = DVec.zero 0) (h : predictSensor s k = .ok s') :
    (s' = s ∧ ∃ w, s.st.ybar = some (w, k)) ∨
    ((∀ w, s.st.ybar ≠ some (w, k)) ∧ ∃ f w, s.st.ext.f = some f ∧ f.measureDynamics v (measInput s k) k = .ok w ∧
      s' = { s with st := { s.st with
        ybar := some (w, k)
        ext := { s.st.ext with optU := measInput s k } } }) := by
  unfold predictSensor at h
  by_cases hc : notCached s.st.ybar k = true
  · right
    rw [if_pos hc, hx] at h
    simp only [val, Res.ok_bind, simulateSensor] at h
    refine ⟨?_, ?_⟩
    · intro w hw
      rw [hw] at hc; simp at hc
    · cases hf : s.st.ext.f with
      | none => rw [hf] at h; simp at h
      | some f =>
        rw [hf] at h
        simp only [Res.bind_eq_ok] at h
        obtain ⟨⟨y, u⟩, ⟨u', hu, y', hy', h1⟩, h2⟩ := h
        cases h1
        have hu' : u = measInput s k := by
          unfold sensorInput at hu
          unfold measInput
          by_cases h1 : s.st.p > 0
          · rw [if_pos h1] at hu ⊢
            rw [Res.bind_eq_ok] at hu
            obtain ⟨_, -, hu⟩ := hu
            split_ifs at hu with hci
            · exact (get_inputAt hu).symm
            · cases hu; exact (inputAt_of_not (by simpa using hci)).symm
          · rw [if_neg h1] at hu ⊢
            have h0 : s.st.p = 0 := by omega
            cases hu
            rw [ho h0, h0]
        subst hu'
        refine ⟨f, y, rfl, hy', ?_⟩
        cases h2
        rw [← hf]
  · left
    rw [if_neg hc] at h
    cases h
    exact ⟨rfl, cached_iff.1 (by simpa using hc)⟩

theorem coh_predictSensor {s s' : KFilter Ext} {x v : DVec} {k : Int} (hs : Coh s) (hx : s.x = some (x, k))
    (hv : s.st.xbar = some (v, k + 1)) (h : predictSensor s (k + 1) = .ok s') :
    Coh s' ∧ s'.x = some (x, k) ∧ s'.u = s.u ∧ s'.st.p = s.st.p ∧ s'.st.xbar = some (v, k + 1) ∧ s'.st.ext.f = s.st.ext.f ∧
      ∃ f w, s'.st.ext.f = some f ∧ f.measureDynamics v (measInput s (k + 1)) (k + 1) = .ok w ∧ s'.st.ybar = some (w, k + 1) := by
  rcases predictSensor_ok hv (hs.opt x k v hx hv) h with ⟨rfl, w, hw⟩ | ⟨hn, f, w, hf, hfw, rfl⟩
  · refine ⟨hs, hx, rfl, rfl, hv, rfl, ?_⟩
    obtain ⟨f, v', h1, h2, h3⟩ := hs.yb x k w hx hw
    rw [hv] at h2; cases h2
    exact ⟨f, w, h1, h3, hw⟩
  · refine ⟨⟨?_, ?_, ?_⟩, hx, rfl, rfl, hv, rfl, f, w, hf, hfw, rfl⟩
    · intro x' k' v' h1 h2
      exact hs.xb x' k' v' h1 h2
    · intro x' k' w h1 h2
      simp only [hx] at h1; cases h1
      cases h2
      exact ⟨f, v, hf, hv, hfw⟩
    · intro x' k' v' h1 h2 h3
      simp only at h3 ⊢
      simp only [measInput, h3]
      simp

/-- A step from coherent data is fresh, and leaves nothing pending. -/
theorem oneStep_fresh {s s' : KFilter Ext} {x : DVec} {k : Int} (hs : Coh s) (hx : s.x = some (x, k))
    (h : oneStep virt s = .ok s') : FreshStep s s' x k ∧ ¬ Pending s' := by
  unfold oneStep at h
  rw [hx] at h
  simp only [Res.bind_eq_ok] at h
  obtain ⟨_, -, _, -, _, -, _, -, _, -, _, -, s1, h6, s2, h7, yb, -, y, -, xb, -, ⟨xhat, P, inn, K⟩, -, h12⟩ := h
  obtain ⟨c1, x1, u1, p1, f1, -, f, xb', hf, hfx, hxb⟩ := coh_prediction hs hx h6
  obtain ⟨c2, x2, u2, p2, b2, f2, f', yb', hf', hfy, hyb⟩ := coh_predictSensor c1 x1 hxb h7
  have e : f' = f := by
    rw [f2, hf] at hf'; cases hf'; rfl
  subst e
  cases h12
  have e2 : measInput s1 (k + 1) = measInput s (k + 1) := by simp only [measInput, inputAt, u1, p1]
  refine ⟨⟨f', xb', yb', by rw [← f1]; exact hf, hfx, by rw [← e2]; exact hfy, b2, hyb⟩, ?_⟩
  rintro ⟨x', k', v, h1, h2⟩
  cases h1
  simp only [b2, hyb, Option.some.injEq, Prod.mk.injEq] at h2
  omega

theorem not_pending_loopBody {c : ObsCfg DVec DVec DVec} {K : Int} {s s' : KFilter Ext} (hs : Coh s)
    (h : Obs.loopBody c (oneStep virt) K s = .ok s') : ¬ Pending s' := by
  simp only [Obs.loopBody, Res.bind_eq_ok] at h
  obtain ⟨s1, h1, y, -, h2⟩ := h
  have hx : ∃ x k, s.x = some (x, k) := by
    unfold oneStep at h1
    cases hx : s.x with
    | none => rw [hx] at h1; simp at h1
    | some q => exact ⟨q.1, q.2, rfl⟩
  obtain ⟨x, k, hx⟩ := hx
  have := (oneStep_fresh hs hx h1).2
  intro ⟨x', k', v, h3, h4⟩
  apply this
  split_ifs at h2
  · rw [Res.bind_eq_ok] at h2
    obtain ⟨u, -, h2⟩ := h2
    cases h2; exact ⟨x', k', v, h3, h4⟩
  · cases h2; exact ⟨x', k', v, h3, h4⟩

theorem coh_getEstimatedState {s s' : KFilter Ext} {K : Int} (hs : Coh s) (h : getEstimatedState s K = .ok s') : Coh s' := by
  simp only [getEstimatedState, KF.getEstimatedState, Obs.getEstimatedState, Res.bind_eq_ok] at h
  obtain ⟨k0, -, _, -, h⟩ := h
  have : ∀ n s s', Coh s → Obs.loop (cfg s) (oneStep virt) K n s = .ok s' → Coh s' := by
    intro n
    have key : ∀ (c : ObsCfg DVec DVec DVec) s s', Coh s → Obs.loop c (oneStep virt) K n s = .ok s' → Coh s' := by
      induction n with
      | zero => intro c s s' h1 h2; cases h2; exact h1
      | succ n ih =>
        intro c s s' h1 h2
        simp only [Obs.loop, Res.bind_eq_ok] at h2
        obtain ⟨s1, h3, h4⟩ := h2
        exact ih c s1 s' (coh_of_not_pending (not_pending_loopBody h1 h3)) h4
    intro s s'; exact key _ s s'
  exact this _ s s' hs h

theorem absMap_setValue_ne {α : Type} {a a' : IArr α} {x : α} {t i : Int} (h : a.setValue x t = .ok a') (hi : i ≠ t) :
    (absMap a').m i = (absMap a).m i := by
  have := sim_setValue x a x t
  simp only [Sim, cstep, h, Res.ok_bind, step] at this
  split_ifs at this <;> simp_all [Function.update_of_ne]

theorem coh_eexec {s s' : KFilter Ext} (op : EOp) (hs : Coh s) (h : eexec s op = .ok s') (ha : op.Admissible s s') : Coh s' := by
  cases op with
  | base op =>
    cases op
    case setState x k => exact coh_of_not_pending ha
    case setCurrentState x => exact coh_of_not_pending ha
    case pushInput x => exact coh_of_not_pending ha
    case clearInputs => exact coh_of_not_pending ha
    case setInputSize p => exact coh_of_not_pending ha
    case setInput u t =>
      rcases ha with ha | ⟨hm, ht⟩
      · exact coh_of_not_pending ha
      · simp only [eexec, kexec] at h
        have hst := obs_setInput_st h
        unfold Obs.setInput at h
        by_cases hp : (cfg s).p > 0
        · rw [if_pos hp] at h
          have : ∃ u', s.u.setValue u t = .ok u' ∧ s' = { s with u := u' } := by
            rw [Res.bind_eq_ok] at h
            obtain ⟨_, -, h⟩ := h
            split_ifs at h <;> simp only [Res.bind_eq_ok] at h <;> obtain ⟨_, -, y', h2, h⟩ := h <;> cases h <;> exact ⟨y', h2, rfl⟩
          obtain ⟨u', h1, rfl⟩ := this
          refine ⟨?_, ?_, hs.opt⟩
          · intro x k v h2 h3
            obtain ⟨f, h4, h5⟩ := hs.xb x k v h2 h3
            refine ⟨f, h4, ?_⟩
            rw [← h5]
            have : inputAt ({ s with u := u' } : KFilter Ext) k = inputAt s k := by
              simp only [inputAt]; rw [absMap_setValue_ne h1 (ht x k h2).symm]
            simp only [stateInput, this]
          · intro x k v h2 h3
            exact absurd ⟨x, k, v, h2, h3⟩ hm
        · rw [if_neg hp] at h
          cases h; exact hs
    case setA M => simp only [eexec, kexec, setA, Res.bind_eq_ok] at h; obtain ⟨_, -, h⟩ := h; cases h; exact coh_congr hs rfl rfl rfl rfl rfl rfl
    case setC M => simp only [eexec, kexec, setC, Res.bind_eq_ok] at h; obtain ⟨_, -, h⟩ := h; cases h; exact coh_congr hs rfl rfl rfl rfl rfl rfl
    case setQ M => simp only [eexec, kexec, setQ, Res.bind_eq_ok] at h; obtain ⟨_, -, h⟩ := h; cases h; exact coh_congr hs rfl rfl rfl rfl rfl rfl
    case setR M => simp only [eexec, kexec, setR, Res.bind_eq_ok] at h; obtain ⟨_, -, h⟩ := h; cases h; exact coh_congr hs rfl rfl rfl rfl rfl rfl
    case setStateCovariance M =>
      simp only [eexec, kexec, setStateCovariance, Res.bind_eq_ok] at h
      obtain ⟨_, -, h⟩ := h; cases h; exact coh_congr hs rfl rfl rfl rfl rfl rfl
    case clearA => cases h; exact coh_congr hs rfl rfl rfl rfl rfl rfl
    case clearC => cases h; exact coh_congr hs rfl rfl rfl rfl rfl rfl
    case clearQ => cases h; exact coh_congr hs rfl rfl rfl rfl rfl rfl
    case clearR => cases h; exact coh_congr hs rfl rfl rfl rfl rfl rfl
    case clearStateCovariance => cases h; exact coh_congr hs rfl rfl rfl rfl rfl rfl
    case clearStates => cases h; exact coh_of_none rfl
    case reset => cases h; exact coh_of_none rfl
    case setMeasurement y k =>
      simp only [eexec, kexec, Obs.setMeasurement, Res.bind_eq_ok] at h
      obtain ⟨_, -, h⟩ := h
      split_ifs at h <;> simp only [Res.bind_eq_ok] at h <;> obtain ⟨_, -, y', h2, h⟩ := h <;> cases h <;>
        exact coh_congr hs rfl rfl rfl rfl rfl rfl
    case pushMeasurement y =>
      simp only [eexec, kexec, Obs.pushMeasurement, Res.bind_eq_ok] at h
      obtain ⟨_, -, h⟩ := h
      split_ifs at h
      · cases h; exact coh_congr hs rfl rfl rfl rfl rfl rfl
      · cases hx : s.x with
        | none => rw [hx] at h; simp at h
        | some q =>
          rw [hx] at h; simp only [Res.bind_eq_ok] at h
          obtain ⟨y', -, h⟩ := h
          cases h; exact coh_congr hs hx.symm rfl rfl rfl rfl rfl
    case clearMeasurements => cases h; exact coh_congr hs rfl rfl rfl rfl rfl rfl
    case setMeasureSize m mt =>
      cases h
      unfold setMeasureSize2
      by_cases h1 : m ≠ s.st.m ∨ mt ≠ s.st.mt
      · rw [if_pos h1]
        simp only []
        split_ifs <;> exact coh_congr hs rfl rfl rfl rfl rfl rfl
      · rw [if_neg h1]; exact hs
    case setStateSize n nt =>
      cases h
      unfold setStateSize2
      by_cases h1 : n ≠ s.st.n ∨ s.st.nt ≠ nt
      · rw [if_pos h1]
        by_cases h2 : n ≠ s.st.n
        · rw [if_pos h2]; exact coh_of_none rfl
        · rw [if_neg h2]; exact coh_congr hs rfl rfl rfl rfl rfl rfl
      · rw [if_neg h1]; exact hs
    case setExt f => cases h; exact hs
    case setArith a => cases h; exact coh_congr hs rfl rfl rfl rfl rfl rfl
    case predict =>
      simp only [eexec, kexec, Obs.getCurrentTime] at h
      cases hx : s.x with
      | none => rw [hx] at h; simp at h
      | some q => rw [hx] at h; exact (coh_prediction hs hx h).1
    case predictMeasurement =>
      simp only [eexec, kexec, Obs.getCurrentTime] at h
      cases hx : s.x with
      | none => rw [hx] at h; simp at h
      | some q =>
        rw [hx, Res.ok_bind, Res.bind_eq_ok] at h
        obtain ⟨s1, h1, h2⟩ := h
        obtain ⟨c1, x1, -, -, -, -, f, v, -, -, hv⟩ := coh_prediction hs hx h1
        exact (coh_predictSensor c1 x1 hv h2).1
    case getEstimatedState K => exact coh_getEstimatedState hs h
  | setFunctor f => exact coh_of_not_pending ha
  | clearFunctor => exact coh_of_not_pending ha
  | setDirectInputOutputFeedthrough b => exact coh_of_not_pending ha
  | setDirectInputStateFeedthrough b => exact coh_of_not_pending ha
  | getAMatrixFD dx =>
    simp only [eexec, getAMatrixFD, updateStatePrediction, Obs.getCurrentTime] at h
    cases hx : s.x with
    | none => rw [hx] at h; simp at h
    | some q =>
      simp only [hx, Res.ok_bind, Res.bind_eq_ok, Res.bind_assoc] at h
      obtain ⟨s1, h1, x', -, u, hu, c, -, h⟩ := h
      cases h
      obtain ⟨c1, x1, -⟩ := coh_prediction hs hx h1
      refine ⟨c1.xb, c1.yb, ?_⟩
      intro x2 k2 v h2 h3 h4
      simp only at h4 ⊢
      rw [if_neg (by omega)] at hu
      cases hu
      exact c1.opt x2 k2 v h2 h3 h4
  | getCMatrixFD dx =>
    simp only [eexec, getCMatrixFD, updateStateAndMeasurementPrediction, updateStatePrediction, Obs.getCurrentTime] at h
    cases hx : s.x with
    | none => rw [hx] at h; simp at h
    | some q =>
      simp only [hx, Res.ok_bind, Res.bind_eq_ok, Res.bind_assoc] at h
      obtain ⟨s1, h1, k2, hk2, s2, h2, s3, h3, c, -, u, hu, h⟩ := h
      cases h
      obtain ⟨c1, x1, -, -, -, -, f, v, hf, -, hv⟩ := coh_prediction hs hx h1
      rw [x1] at hk2
      cases hk2
      obtain ⟨c2, x2, -⟩ := coh_predictSensor c1 x1 hv h2
      obtain ⟨c3, x3, -⟩ := coh_prediction c2 x2 h3
      refine ⟨c3.xb, c3.yb, ?_⟩
      intro x4 k4 v4 h4 h5 h6
      simp only at h6 ⊢
      have := c3.opt x4 k4 v4 h4 h5 h6
      unfold sensorInput at hu
      rw [if_neg (show ¬ s3.st.p > 0 by omega)] at hu
      split_ifs at hu <;> cases hu <;> exact this

theorem coh_reach {n nt m mt p dO dS} {s : KFilter Ext} (h : Reach n nt m mt p dO dS s) : Coh s := by
  induction h with
  | mk => exact coh_of_none rfl
  | call s s' op _ h2 h3 ih => exact coh_eexec op ih h2 h3

/-- **C22**, what holds: if calls that change the state, the inputs, the functor or the feedthrough flags are made only while no
prediction of the next time is stored (see `EOp.Admissible`), every step uses the current functor, state and inputs.
Missing: calls made after a prediction or a Jacobian of the same time was requested; there the claim is false (`C22_stale_state`). -/
theorem C22_partial {n nt m mt p dO dS} {s s' : KFilter Ext} (h : Reach n nt m mt p dO dS s) (x : DVec) (k : Int)
    (hx : s.x = some (x, k)) (hs : getEstimatedState s (k + 1) = .ok s') : FreshStep s s' x k := by
  have hc := coh_reach h
  simp only [getEstimatedState, KF.getEstimatedState, Obs.getEstimatedState, Obs.getCurrentTime, hx, Res.ok_bind,
    Res.bind_eq_ok] at hs
  obtain ⟨_, -, hs⟩ := hs
  rw [show (k + 1 - k).toNat = 1 by omega] at hs
  simp only [Obs.loop, Obs.loopBody, Res.bind_eq_ok] at hs
  obtain ⟨s2, ⟨s1, h1, y, -, h2⟩, hs⟩ := hs
  cases hs
  have := (oneStep_fresh hc hx h1).1
  split_ifs at h2
  · rw [Res.bind_eq_ok] at h2
    obtain ⟨u, -, h2⟩ := h2
    cases h2; exact this
  · cases h2; exact this

/-- The cause: once a state prediction for the next time is stored, whatever state and whatever functor is set afterwards, the step
uses the stored prediction. -/
theorem C22_stale_state (s : KFilter Ext) (x0 x v : DVec) (k : Int) (f : Functor) (hx : s.x = some (x0, k))
    (hv : s.st.xbar = some (v, k + 1)) (s1 s' : KFilter Ext) (h1 : Obs.setCurrentState (cfg s) s x = .ok s1)
    (h : getEstimatedState (setFunctor s1 f) (k + 1) = .ok s') : s'.st.xbar = some (v, k + 1) := by
  have e1 : s1.x = some (x, k) ∧ s1.st = s.st := by
    refine ⟨?_, obs_setCurrentState_st h1⟩
    unfold Obs.setCurrentState at h1
    simp only [hx, Res.bind_eq_ok] at h1
    obtain ⟨_, -, h1⟩ := h1
    cases h1; rfl
  set s2 := setFunctor s1 f with hs2
  have hx2 : s2.x = some (x, k) := e1.1
  have hv2 : s2.st.xbar = some (v, k + 1) := by show s1.st.xbar = _; rw [e1.2]; exact hv
  simp only [getEstimatedState, KF.getEstimatedState, Obs.getEstimatedState, Obs.getCurrentTime, hx2, Res.ok_bind,
    Res.bind_eq_ok] at h
  obtain ⟨_, -, h⟩ := h
  rw [show (k + 1 - k).toNat = 1 by omega] at h
  simp only [Obs.loop, Obs.loopBody, Res.bind_eq_ok] at h
  obtain ⟨s4, ⟨s3, h3, y, -, h4⟩, h5⟩ := h
  cases h5
  have key : s3.st.xbar = some (v, k + 1) := by
    unfold oneStep at h3
    rw [hx2] at h3
    have e2 : prediction s2 (k + 1) = .ok s2 := by simp [prediction, hv2]
    simp only [virt, e2, Res.ok_bind, Res.bind_eq_ok] at h3
    obtain ⟨_, -, _, -, _, -, _, -, _, -, _, -, s5, h7, yb, -, y, -, xb, -, ⟨xhat, P, inn, K⟩, -, h12⟩ := h3
    cases h12
    unfold predictSensor at h7
    split_ifs at h7
    · simp only [Res.bind_eq_ok] at h7
      obtain ⟨_, -, ⟨a, b⟩, -, h7⟩ := h7
      cases h7; exact hv2
    · cases h7; exact hv2
  split_ifs at h4
  · rw [Res.bind_eq_ok] at h4
    obtain ⟨u, -, h4⟩ := h4
    cases h4; exact key
  · cases h4; exact key

/-- A scalar as a vector. -/
def vec1 (a : ℝ) : DVec := ⟨1, fun _ => a⟩
/-- A scalar as a matrix. -/
def mat1 (a : ℝ) : DMat := ⟨1, 1, fun _ _ => a⟩

/-- The identity dynamics, the state being measured. -/
def idFunctor : Functor := ⟨fun x _ _ => .ok x, fun x _ _ => .ok x⟩

theorem mat1_one : mat1 1 = ⟨1, 1, 1⟩ := by
  unfold mat1
  congr 1
  ext i j; rw [Subsingleton.elim i 0, Subsingleton.elim j 0]; rfl

/-- The state `5` is set at time 0 after a prediction was requested from the state `0`: the step at time 1 uses the prediction from
`0`. -/
theorem stale_run : ∃ s s', [EOp.base (.setState (vec1 0) 0), .setFunctor idFunctor, .base (.setA (mat1 1)), .base (.setC (mat1 1)),
      .base (.setQ (mat1 1)), .base (.setR (mat1 1)), .base (.setStateCovariance (mat1 1)), .base (.setMeasurement (vec1 0) 1),
      .base .predictMeasurement, .base (.setCurrentState (vec1 5))].foldlM eexec (mk 1 1 1 1 0 false false) = .ok s ∧
    s.x = some (vec1 5, 0) ∧ getEstimatedState s 1 = .ok s' ∧ s'.st.xbar = some (vec1 0, 1) ∧ s.st.ext.f = some idFunctor := by
  set s : KFilter Ext := ⟨some (vec1 5, 0), ⟨1, [vec1 0]⟩, IArr.empty,
    { n := 1, nt := 1, m := 1, mt := 1, p := 0, a := mat1 1, c := mat1 1, q := mat1 1, r := mat1 1, pr := mat1 1,
      xbar := some (vec1 0, 1), ybar := some (vec1 0, 1), innovation := ⟨0, 0⟩, kGain := .empty, arith := Arith.default,
      ext := ⟨some idFunctor, false, false, DVec.zero 0⟩ }⟩ with hs
  have hm : HasMats s.st 1 1 1 1 1 1 1 := ⟨rfl, rfl, mat1_one, mat1_one, mat1_one, mat1_one, mat1_one⟩
  have hstep := oneStep_cached (s := s) hm Matrix.PosSemidef.one Matrix.PosSemidef.one Matrix.PosDef.one rfl (vec1 5) 0 rfl
    (fun _ => 0) (fun _ => 0) (fun _ => 0) rfl rfl rfl
  have he : ∃ s', getEstimatedState s 1 = .ok s' ∧ s'.st.xbar = some (vec1 0, 1) := by
    have h0 : getEstimatedState s 1 = (Obs.loopBody (cfg s) (oneStep virt) 1 s) := by
      simp only [getEstimatedState, KF.getEstimatedState, Obs.getEstimatedState, Obs.getCurrentTime, hs]
      simp only [Res.ok_bind]
      have : (1 - 0 : Int).toNat = 1 := rfl
      simp only [this, Obs.loop, show (decide ((0:Int) ≤ 1)) = true from rfl, Res.assert_true, Res.ok_bind]
      cases Obs.loopBody _ (oneStep virt) 1 _ <;> rfl
    rw [h0, Obs.loopBody, hstep]
    refine ⟨_, rfl, rfl⟩
  obtain ⟨s', h1, h2⟩ := he
  exact ⟨s, s', rfl, rfl, h1, h2, rfl⟩

/-- **C22** fails: `stale_run` is a history of public calls. -/
theorem C22_false : ¬ C22_statement := by
  intro h
  obtain ⟨s, s', h1, h2, h3, h4, h5⟩ := stale_run
  obtain ⟨f, xb, yb, h6, h7, -, h9, -⟩ := h 1 1 1 1 0 false false _ s s' _ 0 h1 h2 h3
  rw [h4] at h9
  rw [h5] at h6
  cases h6
  simp only [idFunctor, vec1, Res.ok.injEq, Option.some.injEq, Prod.mk.injEq] at h7 h9
  have h8 : (fun _ : Fin 1 => (0 : ℝ)) = fun _ => 5 := by
    have := h9.1.trans h7.symm
    injection this with _ h
  have := congrFun h8 0
  norm_num at this

/-- Non-vacuity of `C22_partial`: setting a state, a functor and asking for a prediction is an admissible history. -/
example : ∃ s, Reach 1 1 1 1 0 false false s ∧ s.x = some (vec1 0, 0) ∧ Pending s := by
  have h1 : Reach 1 1 1 1 0 false false _ := .call _ _ (.setFunctor idFunctor) .mk rfl
    (by rintro ⟨x, k, v, h, -⟩; cases h)
  have h2 : Reach 1 1 1 1 0 false false _ := .call _ _ (.base (.setState (vec1 0) 0)) h1 rfl
    (by rintro ⟨x, k, v, -, h | h⟩ <;> cases h)
  have h3 : Reach 1 1 1 1 0 false false _ := .call _ _ (.base .predict) h2 rfl trivial
  exact ⟨_, h3, rfl, vec1 0, 0, vec1 0, rfl, Or.inl rfl⟩

end StateObs.EKF
