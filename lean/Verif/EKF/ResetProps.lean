import Verif.EKF.StepForm
import Verif.EKF.CacheProps
import Verif.Kalman.ResetLemmas
/-!
# C23: what `reset` forgets
-/

namespace StateObs.KF
variable {E : Type}

/-- Two filters are set up in the same way: same sizes, same matrices, same arithmetic, same members of the derived class. -/
structure SameSetup (s1 s2 : KFilter E) : Prop where
  n : s1.st.n = s2.st.n
  nt : s1.st.nt = s2.st.nt
  m : s1.st.m = s2.st.m
  mt : s1.st.mt = s2.st.mt
  p : s1.st.p = s2.st.p
  a : s1.st.a = s2.st.a
  c : s1.st.c = s2.st.c
  q : s1.st.q = s2.st.q
  r : s1.st.r = s2.st.r
  arith : s1.st.arith = s2.st.arith

/-- What a user sees: state, time, covariance, buffered measurements and inputs. -/
def observe (s : KFilter E) : Res (Option (DVec × Int) × DMat × IArr DVec × IArr DVec) := .ok (s.x, s.st.pr, s.y, s.u)

theorem observe_forget (g : Forget E) (s : KFilter E) : observe (forget g s) = observe s := rfl

theorem reset_mk (n nt m mt p : ℕ) (e : E) : reset (mk n nt m mt p e) = mk n nt m mt p e := rfl

end StateObs.KF

namespace StateObs.LKF
open StateObs KF

/-- Everything that the linear filter recomputes. -/
def caches : Forget Ext := fun _ _ e => (none, none, e)

theorem caches_idem : Idem caches := fun _ _ _ => rfl

theorem comm_oneStep (s : KFilter Ext) : Comm caches (oneStep virt) s := by
  unfold Comm
  have : oneStep virt (forget caches s) = (oneStep virt s) := by
    rw [oneStep_form]
    unfold Obs.kalmanStep
    have e2 : (forget caches s).x = s.x := rfl
    rw [e2]
    cases s.x <;> rfl
  rw [this]

theorem comm_kexec (s : KFilter Ext) (op : KOp Ext) : Comm caches (fun s => kexec virt s op) s := by
  cases op
  case predict =>
    unfold Comm
    simp only [kexec, Obs.getCurrentTime]
    have e2 : (forget caches s).x = s.x := rfl
    rw [e2]
    cases hx : s.x with
    | none => rfl
    | some q =>
      simp only [Res.ok_bind, virt]
      rw [prediction_form s q.1 q.2 q.2 hx, prediction_form (forget caches s) q.1 q.2 q.2 hx]
      simp only [Res.bind_assoc, Res.ok_bind]
      rfl
  case predictMeasurement =>
    unfold Comm
    simp only [kexec, Obs.getCurrentTime]
    have e2 : (forget caches s).x = s.x := rfl
    rw [e2]
    cases hx : s.x with
    | none => rfl
    | some q =>
      simp only [Res.ok_bind, virt]
      rw [prediction_form s q.1 q.2 q.2 hx, prediction_form (forget caches s) q.1 q.2 q.2 hx]
      simp only [Res.bind_assoc, Res.ok_bind]
      refine bindc fun xb => ?_
      rw [predictSensor_form _ xb (q.2 + 1) (q.2 + 1) rfl, predictSensor_form _ xb (q.2 + 1) (q.2 + 1) rfl]
      simp only [Res.bind_assoc, Res.ok_bind]
      rfl
  case setExt f => rfl
  case getEstimatedState k =>
    exact comm_getEstimatedState caches_idem (fun _ => True) (fun s _ => comm_oneStep s) (fun _ _ _ _ => trivial) k s trivial
  all_goals exact comm_plain virt caches_idem s _ trivial

theorem comm_run (ops : List (KOp Ext)) : ∀ s1 s2 : KFilter Ext, forget caches s1 = forget caches s2 →
    (ops.foldlM (kexec virt) s1 >>= observe) = (ops.foldlM (kexec virt) s2 >>= observe) := by
  induction ops with
  | nil =>
    intro s1 s2 h
    show observe s1 = observe s2
    rw [← observe_forget caches s1, h, observe_forget]
  | cons o os ih =>
    intro s1 s2 h
    rw [List.foldlM_cons, List.foldlM_cons, Res.bind_assoc, Res.bind_assoc]
    have := comm_congr (comm_kexec s1 o) (comm_kexec s2 o) h
    cases h1 : kexec virt s1 o <;> cases h2 : kexec virt s2 o <;> rw [h1, h2] at this <;> try (cases this)
    · exact ih _ _ (Res.ok.inj this)
    all_goals rfl

/-- **C23**, linear filter. Two linear filters with the same sizes, matrices and arithmetic – whatever they did before, in
particular one of them may be newly constructed – are indistinguishable after `reset()`: every sequence of calls has the same
outcome, and leads to the same state, time, covariance and buffers. -/
theorem C23_linear (s1 s2 : KFilter Ext) (h : SameSetup s1 s2) (he : s1.st.ext = s2.st.ext) (ops : List (KOp Ext)) :
    (ops.foldlM (kexec virt) (reset s1) >>= observe) = (ops.foldlM (kexec virt) (reset s2) >>= observe) := by
  apply comm_run
  obtain ⟨h1, h2, h3, h4, h5, h6, h7, h8, h9, h10⟩ := h
  simp only [forget, reset, caches, clearStateCovariance, clearStates, Obs.clearInputs, Obs.clearMeasurements, Obs.clearStates,
    h1, h2, h3, h4, h5, h6, h7, h8, h9, h10, he, IArr.reset]

/-- The hypotheses of `C23_linear` are met by a filter with a past and a new one. -/
example : ∃ s1 s2 : KFilter Ext, SameSetup s1 s2 ∧ s1.st.ext = s2.st.ext ∧ s1.x ≠ s2.x ∧ s1.st.xbar ≠ s2.st.xbar ∧
    s2 = mk 1 1 0 :=
  ⟨{ mk 1 1 0 with x := some (⟨1, 0⟩, 3), st := { (mk 1 1 0).st with xbar := some (⟨1, 0⟩, 4) } }, mk 1 1 0,
    ⟨rfl, rfl, rfl, rfl, rfl, rfl, rfl, rfl, rfl, rfl⟩, rfl, by simp [mk, KF.mk], by simp [mk, KF.mk], rfl⟩

end StateObs.LKF

namespace StateObs.EKF
open StateObs KF KFSpec

/-- Full statement of **C23** for the extended filter. It is false, see `C23_extended_false`. -/
def C23_extended_statement : Prop :=
  ∀ (s1 s2 : KFilter Ext), SameSetup s1 s2 → s1.st.ext.f = s2.st.ext.f → s1.st.ext.dirOut = s2.st.ext.dirOut →
    s1.st.ext.dirState = s2.st.ext.dirState → ∀ ops : List EOp,
    (ops.foldlM eexec (reset s1) >>= observe) = (ops.foldlM eexec (reset s2) >>= observe)

/-- A stored prediction is of time `T` or before (or there is none). -/
def old (T : Int) (v : Option (DVec × Int)) : Bool :=
  match v with
  | none => true
  | some (_, t) => decide (t ≤ T)

/-- Forget the predictions of time `T` or before, and `opt.u_` if it comes from such a prediction. -/
def oldCaches (T : Int) : Forget Ext := fun xb yb e =>
  (if old T xb then none else xb, if old T yb then none else yb, if old T xb then { e with optU := ⟨0, 0⟩ } else e)

theorem old_none (T : Int) : old T none = true := rfl

theorem oldCaches_idem (T : Int) : Idem (oldCaches T) := by
  intro xb yb e
  simp only [oldCaches]
  by_cases h1 : old T xb = true <;> by_cases h2 : old T yb = true <;> simp [h1, h2, old_none]

/-- The current time, if there is one, is `T` or later. -/
def From (T : Int) (x : Option (DVec × Int)) : Prop := ∀ v k, x = some (v, k) → T ≤ k

theorem notCached_old {T k : Int} (v : Option (DVec × Int)) (h : T ≤ k) :
    notCached (if old T v = true then none else v) (k + 1) = notCached v (k + 1) := by
  cases v with
  | none => rfl
  | some q =>
    obtain ⟨w, t⟩ := q
    simp only [old]
    by_cases ht : t ≤ T
    · simp only [ht, decide_true, if_true, notCached]
      symm
      simp only [decide_eq_true_eq]; omega
    · simp [ht]

theorem old_of_cached {T k : Int} {v : Option (DVec × Int)} (h : T ≤ k) (hc : ¬ notCached v (k + 1) = true) : old T v = false := by
  cases v with
  | none => exact absurd rfl hc
  | some q =>
    obtain ⟨w, t⟩ := q
    simp only [notCached, decide_eq_true_eq, ne_eq, not_not] at hc
    subst hc
    simp only [old, decide_eq_false_iff_not]; omega

theorem predE_old {T k : Int} (s : KFilter Ext) (x : DVec) (u : Res DVec) (h : T ≤ k) :
    predE (forget (oldCaches T) s).st x k u = predE s.st x k u := by
  unfold predE
  have e1 : (forget (oldCaches T) s).st.xbar = if old T s.st.xbar = true then none else s.st.xbar := rfl
  have e2 : (forget (oldCaches T) s).st.ext = if old T s.st.xbar = true then { s.st.ext with optU := ⟨0, 0⟩ } else s.st.ext := rfl
  have e3 : (forget (oldCaches T) s).st.p = s.st.p := rfl
  have e4 : (forget (oldCaches T) s).st.ext.f = s.st.ext.f := by rw [e2]; split_ifs <;> rfl
  have e5 : (forget (oldCaches T) s).st.ext.dirState = s.st.ext.dirState := by rw [e2]; split_ifs <;> rfl
  rw [e1, notCached_old _ h, e3, e4, e5]
  by_cases hc : notCached s.st.xbar (k + 1) = true
  · rw [if_pos hc, if_pos hc]
  · rw [if_neg hc, if_neg hc, e2, old_of_cached h hc]
    rfl

theorem sensE_old {T k : Int} (s : KFilter Ext) (xb o : DVec) (u : Res DVec) (h : T ≤ k) :
    sensE (forget (oldCaches T) s).st xb o k u = sensE s.st xb o k u := by
  unfold sensE
  have e1 : (forget (oldCaches T) s).st.ybar = if old T s.st.ybar = true then none else s.st.ybar := rfl
  have e2 : (forget (oldCaches T) s).st.ext = if old T s.st.xbar = true then { s.st.ext with optU := ⟨0, 0⟩ } else s.st.ext := rfl
  have e3 : (forget (oldCaches T) s).st.p = s.st.p := rfl
  have e4 : (forget (oldCaches T) s).st.ext.f = s.st.ext.f := by rw [e2]; split_ifs <;> rfl
  have e5 : (forget (oldCaches T) s).st.ext.dirOut = s.st.ext.dirOut := by rw [e2]; split_ifs <;> rfl
  have e6 : sensU (forget (oldCaches T) s).st o u = sensU s.st o u := by unfold sensU; rw [e3, e5]
  rw [e1, notCached_old _ h, e4, e6]
  by_cases hc : notCached s.st.ybar (k + 1) = true
  · rw [if_pos hc, if_pos hc]
  · rw [if_neg hc, if_neg hc, old_of_cached h hc]
    rfl

theorem ext_old (T : Int) (s : KFilter Ext) (o : DVec) :
    ({ (forget (oldCaches T) s).st.ext with optU := o } : Ext) = { s.st.ext with optU := o } := by
  have e2 : (forget (oldCaches T) s).st.ext = if old T s.st.xbar = true then { s.st.ext with optU := ⟨0, 0⟩ } else s.st.ext := rfl
  rw [e2]; split_ifs <;> rfl

theorem f_old (T : Int) (s : KFilter Ext) : (forget (oldCaches T) s).st.ext.f = s.st.ext.f := by
  have e2 : (forget (oldCaches T) s).st.ext = if old T s.st.xbar = true then { s.st.ext with optU := ⟨0, 0⟩ } else s.st.ext := rfl
  rw [e2]; split_ifs <;> rfl
theorem dirOut_old (T : Int) (s : KFilter Ext) : (forget (oldCaches T) s).st.ext.dirOut = s.st.ext.dirOut := by
  have e2 : (forget (oldCaches T) s).st.ext = if old T s.st.xbar = true then { s.st.ext with optU := ⟨0, 0⟩ } else s.st.ext := rfl
  rw [e2]; split_ifs <;> rfl
theorem dirState_old (T : Int) (s : KFilter Ext) : (forget (oldCaches T) s).st.ext.dirState = s.st.ext.dirState := by
  have e2 : (forget (oldCaches T) s).st.ext = if old T s.st.xbar = true then { s.st.ext with optU := ⟨0, 0⟩ } else s.st.ext := rfl
  rw [e2]; split_ifs <;> rfl

theorem stepF_old {T k : Int} (s : KFilter Ext) (x y : DVec) (u0 u1 : Res DVec) (h : T ≤ k) :
    stepF (forget (oldCaches T) s).st x k y u0 u1 = stepF s.st x k y u0 u1 := by
  unfold stepF
  simp only [predE_old s x u0 h]
  have : ∀ xb o, sensE (forget (oldCaches T) s).st xb o k u1 = sensE s.st xb o k u1 := fun xb o => sensE_old s xb o u1 h
  simp only [this, ext_old]
  rfl

theorem comm_oneStep (T : Int) (s : KFilter Ext) (hs : From T s.x) : Comm (oldCaches T) (oneStep virt) s := by
  unfold Comm
  have : oneStep virt (forget (oldCaches T) s) = (oneStep virt s) := by
    rw [oneStep_form]
    unfold Obs.kalmanStep
    have e2 : (forget (oldCaches T) s).x = s.x := rfl
    rw [e2]
    cases hx : s.x with
    | none => rfl
    | some q =>
      obtain ⟨x, k⟩ := q
      simp only [stepF_old s _ _ _ _ (hs x k hx)]
      rfl
  rw [this]

/-- A prediction just made at time `k + 1 > T`: what is forgotten of the two filters is the same. -/
theorem forget_pred {T k : Int} (h : T ≤ k) (s : KFilter Ext) (v o : DVec) :
    forget (oldCaches T) ({ s with st := { s.st with xbar := some (v, k + 1), ext := { s.st.ext with optU := o } } } : KFilter Ext) =
    forget (oldCaches T) ({ forget (oldCaches T) s with st := { (forget (oldCaches T) s).st with
      xbar := some (v, k + 1), ext := { (forget (oldCaches T) s).st.ext with optU := o } } } : KFilter Ext) := by
  have h1 : old T (some (v, k + 1)) = false := by simp only [old, decide_eq_false_iff_not]; omega
  rw [ext_old]
  simp only [forget, oldCaches, h1]
  by_cases h3 : old T s.st.ybar = true <;> simp [h3, old_none]

theorem forget_sens {T k : Int} (h : T ≤ k) (s : KFilter Ext) (v w o : DVec) :
    forget (oldCaches T) ({ s with st := { s.st with
      xbar := some (v, k + 1), ybar := some (w, k + 1), ext := { s.st.ext with optU := o } } } : KFilter Ext) =
    forget (oldCaches T) ({ forget (oldCaches T) s with st := { (forget (oldCaches T) s).st with
      xbar := some (v, k + 1), ybar := some (w, k + 1), ext := { (forget (oldCaches T) s).st.ext with optU := o } } } : KFilter Ext) := by
  have h1 : old T (some (v, k + 1)) = false := by simp only [old, decide_eq_false_iff_not]; omega
  have h2 : old T (some (w, k + 1)) = false := by simp only [old, decide_eq_false_iff_not]; omega
  rw [ext_old]
  simp only [forget, oldCaches, h1, h2]

theorem comm_getA (T : Int) (s : KFilter Ext) (dx : DVec) (hs : From T s.x) :
    Comm (oldCaches T) (fun s => eexec s (.getAMatrixFD dx)) s := by
  unfold Comm
  simp only [eexec, getAMatrixFD, updateStatePrediction, Obs.getCurrentTime]
  have e2 : (forget (oldCaches T) s).x = s.x := rfl
  rw [e2]
  cases hx : s.x with
  | none => rfl
  | some q =>
    obtain ⟨x, k⟩ := q
    have hk := hs x k hx
    simp only [Res.ok_bind]
    rw [prediction_form s x k hx, prediction_form (forget (oldCaches T) s) x k hx, predE_old s _ _ hk]
    simp only [Res.bind_assoc, Res.ok_bind]
    refine bindc fun q => ?_
    rw [ext_old]
    simp only [f_old, dirOut_old, dirState_old]
    refine bindc fun x' => ?_
    refine bindc fun u => ?_
    refine bindc fun c => ?_
    have := forget_pred hk s q.1 u
    rw [ext_old] at this
    exact congrArg Res.ok this

theorem comm_getC (T : Int) (s : KFilter Ext) (dx : DVec) (hs : From T s.x) :
    Comm (oldCaches T) (fun s => eexec s (.getCMatrixFD dx)) s := by
  unfold Comm
  simp only [eexec, getCMatrixFD, updateStateAndMeasurementPrediction, updateStatePrediction, Obs.getCurrentTime]
  have e2 : (forget (oldCaches T) s).x = s.x := rfl
  rw [e2]
  cases hx : s.x with
  | none => rfl
  | some q =>
    obtain ⟨x, k⟩ := q
    have hk := hs x k hx
    simp only [Res.ok_bind]
    rw [prediction_form s x k hx, prediction_form (forget (oldCaches T) s) x k hx, predE_old s _ _ hk]
    simp only [Res.bind_assoc, Res.ok_bind, e2, hx]
    refine bindc fun q => ?_
    rw [ext_old, predictSensor_form _ q.1 (k + 1) k rfl, predictSensor_form _ q.1 (k + 1) k rfl]
    have e3 : sensE { (forget (oldCaches T) s).st with xbar := some (q.1, k + 1), ext := { s.st.ext with optU := q.2 } } q.1 q.2 k
        (s.u.get (k + 1)) = sensE s.st q.1 q.2 k (s.u.get (k + 1)) := by
      have := sensE_old s q.1 q.2 (s.u.get (k + 1)) hk
      rw [← this]
      have hf : (forget (oldCaches T) s).st.ext.f = s.st.ext.f := by
        have e2 : (forget (oldCaches T) s).st.ext = if old T s.st.xbar = true then { s.st.ext with optU := ⟨0, 0⟩ } else s.st.ext := rfl
        rw [e2]; split_ifs <;> rfl
      have hd : (forget (oldCaches T) s).st.ext.dirOut = s.st.ext.dirOut := by
        have e2 : (forget (oldCaches T) s).st.ext = if old T s.st.xbar = true then { s.st.ext with optU := ⟨0, 0⟩ } else s.st.ext := rfl
        rw [e2]; split_ifs <;> rfl
      unfold sensE sensU
      simp only [hf, hd]
    have e4 : sensE { s.st with xbar := some (q.1, k + 1), ext := { s.st.ext with optU := q.2 } } q.1 q.2 k
        (s.u.get (k + 1)) = sensE s.st q.1 q.2 k (s.u.get (k + 1)) := rfl
    simp only [Res.bind_assoc, Res.ok_bind]
    have e5 : (forget (oldCaches T) s).u = s.u := rfl
    rw [e5, e3, e4]
    refine bindc fun q' => ?_
    have hp : ∀ t : KFilter Ext, t.st.xbar = some (q.1, k + 1) → prediction t (k + 1) = .ok t := by
      intro t ht; simp [prediction, ht]
    rw [hp _ rfl, hp _ rfl]
    simp only [Res.ok_bind]
    refine bindc fun c => ?_
    refine bindc fun u => ?_
    have := forget_sens hk s q.1 q'.1 u
    rw [ext_old] at this
    refine congrArg Res.ok ?_
    rw [← hx]
    exact this

/-- The calls never go back before time `T`. -/
def EOp.NotBefore (T : Int) : EOp → Prop
  | .base (.setState _ k) => T ≤ k
  | _ => True

theorem comm_setExt (T : Int) (s : KFilter Ext) (F : Ext → Ext)
    (hF : ∀ e o, F { e with optU := o } = { F e with optU := o }) :
    forget (oldCaches T) ({ s with st := { s.st with ext := F s.st.ext } } : KFilter Ext) =
    forget (oldCaches T) ({ forget (oldCaches T) s with st := { (forget (oldCaches T) s).st with
      ext := F (forget (oldCaches T) s).st.ext } } : KFilter Ext) := by
  have e2 : (forget (oldCaches T) s).st.ext = if old T s.st.xbar = true then { s.st.ext with optU := ⟨0, 0⟩ } else s.st.ext := rfl
  rw [e2]
  have hF' := hF s.st.ext ⟨0, 0⟩
  simp only [forget, oldCaches]
  by_cases h1 : old T s.st.xbar = true <;> by_cases h2 : old T s.st.ybar = true <;>
    simp only [h1, h2, old_none, hF', if_true] <;> simp [h1, h2, old_none]

theorem comm_eexec (T : Int) (s : KFilter Ext) (op : EOp) (hs : From T s.x) : Comm (oldCaches T) (fun s => eexec s op) s := by
  have hI : ∀ s s' : KFilter Ext, From T s.x → oneStep virt s = .ok s' → From T s'.x := by
    intro s s' h1 h2
    obtain ⟨x, k, st1, xb, yb, y, xhat, P, inn, K, hx, -, -, -, -, -, -, rfl⟩ := oneStep_ok ekf_keeps h2
    intro v k' h3
    cases h3
    have := h1 x k hx
    omega
  have key : ∀ op' : KOp Ext, op'.Plain → (∀ s, eexec s (.base op') = kexec virt s op') →
      Comm (oldCaches T) (fun s => eexec s (.base op')) s := by
    intro op' h1 h2
    have := comm_plain virt (oldCaches_idem T) s op' h1
    simp only [Comm, h2]
    exact this
  cases op with
  | base op =>
    cases op
    case predict =>
      unfold Comm
      simp only [eexec, kexec, Obs.getCurrentTime]
      have e2 : (forget (oldCaches T) s).x = s.x := rfl
      rw [e2]
      cases hx : s.x with
      | none => rfl
      | some q =>
        obtain ⟨x, k⟩ := q
        have hk := hs x k hx
        simp only [Res.ok_bind, virt]
        rw [prediction_form s x k hx, prediction_form (forget (oldCaches T) s) x k hx, predE_old s _ _ hk]
        simp only [Res.bind_assoc, Res.ok_bind]
        exact bindc fun q => congrArg Res.ok (forget_pred hk s q.1 q.2)
    case predictMeasurement =>
      unfold Comm
      simp only [eexec, kexec, Obs.getCurrentTime]
      have e2 : (forget (oldCaches T) s).x = s.x := rfl
      rw [e2]
      cases hx : s.x with
      | none => rfl
      | some q =>
        obtain ⟨x, k⟩ := q
        have hk := hs x k hx
        simp only [Res.ok_bind, virt]
        rw [prediction_form s x k hx, prediction_form (forget (oldCaches T) s) x k hx, predE_old s _ _ hk]
        simp only [Res.bind_assoc, Res.ok_bind]
        refine bindc fun q => ?_
        rw [predictSensor_form _ q.1 (k + 1) k rfl, predictSensor_form _ q.1 (k + 1) k rfl]
        have e3 : sensE { (forget (oldCaches T) s).st with
            xbar := some (q.1, k + 1), ext := { (forget (oldCaches T) s).st.ext with optU := q.2 } } q.1 q.2 k
            (s.u.get (k + 1)) = sensE s.st q.1 q.2 k (s.u.get (k + 1)) := sensE_old s q.1 q.2 (s.u.get (k + 1)) hk
        have e4 : sensE { s.st with xbar := some (q.1, k + 1), ext := { s.st.ext with optU := q.2 } } q.1 q.2 k
            (s.u.get (k + 1)) = sensE s.st q.1 q.2 k (s.u.get (k + 1)) := rfl
        have e5 : (forget (oldCaches T) s).u = s.u := rfl
        simp only [Res.bind_assoc, Res.ok_bind]
        rw [e5, e3, e4]
        exact bindc fun q' => congrArg Res.ok (forget_sens hk s q.1 q'.1 q'.2)
    case setExt f =>
      unfold Comm
      simp only [eexec, Res.ok_bind, forget_forget (oldCaches_idem T)]
    case getEstimatedState k =>
      exact comm_getEstimatedState (oldCaches_idem T) (From T) (fun s hs => comm_oneStep T s hs) hI k s hs
    all_goals exact key _ trivial (fun _ => rfl)
  | setFunctor f => exact congrArg Res.ok (comm_setExt T s (fun e => { e with f := some f }) (fun _ _ => rfl))
  | clearFunctor => exact congrArg Res.ok (comm_setExt T s (fun e => { e with f := none }) (fun _ _ => rfl))
  | setDirectInputOutputFeedthrough b =>
    unfold Comm
    simp only [eexec, setDirectInputOutputFeedthrough, Res.ok_bind]
    have e3 : (forget (oldCaches T) s).st.p = s.st.p := rfl
    rw [e3]
    split_ifs
    · exact congrArg Res.ok (comm_setExt T s (fun e => { e with dirOut := b }) (fun _ _ => rfl))
    · rw [forget_forget (oldCaches_idem T)]
  | setDirectInputStateFeedthrough b =>
    unfold Comm
    simp only [eexec, setDirectInputStateFeedthrough, Res.ok_bind]
    have e3 : (forget (oldCaches T) s).st.p = s.st.p := rfl
    rw [e3]
    split_ifs
    · exact congrArg Res.ok (comm_setExt T s (fun e => { e with dirState := b }) (fun _ _ => rfl))
    · rw [forget_forget (oldCaches_idem T)]
  | getAMatrixFD dx => exact comm_getA T s dx hs
  | getCMatrixFD dx => exact comm_getC T s dx hs

theorem from_loop (T : Int) (c : ObsCfg DVec DVec DVec) (K : Int) (n : ℕ) : ∀ s s' : KFilter Ext, From T s.x →
    Obs.loop c (oneStep virt) K n s = .ok s' → From T s'.x := by
  induction n with
  | zero => intro s s' h1 h2; cases h2; exact h1
  | succ n ih =>
    intro s s' h1 h2
    simp only [Obs.loop, Obs.loopBody, Res.bind_eq_ok] at h2
    obtain ⟨s2, ⟨s1, h3, y, -, h4⟩, h5⟩ := h2
    obtain ⟨x, k, st1, xb, yb, y', xhat, P, inn, K', hx, -, -, -, -, -, -, rfl⟩ := oneStep_ok ekf_keeps h3
    have h6 : From T (some (xhat, k + 1)) := by
      intro v k' h; cases h
      have := h1 x k hx
      omega
    refine ih s2 s' ?_ h5
    split_ifs at h4
    · simp only [Res.bind_eq_ok] at h4
      obtain ⟨u, -, h4⟩ := h4
      cases h4; exact h6
    · cases h4; exact h6

theorem from_prediction {s s' : KFilter Ext} {k : Int} (h : prediction s k = .ok s') : s'.x = s.x := by
  obtain ⟨_, _, rfl⟩ := ekf_keeps.pred s s' k h
  rfl

theorem from_sensor {s s' : KFilter Ext} {k : Int} (h : predictSensor s k = .ok s') : s'.x = s.x := by
  obtain ⟨_, _, rfl⟩ := ekf_keeps.sens s s' k h
  rfl

theorem from_eexec (T : Int) (s s' : KFilter Ext) (op : EOp) (ho : op.NotBefore T) (hs : From T s.x) (h : eexec s op = .ok s') :
    From T s'.x := by
  have key : ∀ x, x = s.x → From T x := fun x hx => hx ▸ hs
  have keyn : From T none := fun v k h => by cases h
  cases op with
  | base op =>
    cases op
    case setState x k =>
      simp only [eexec, kexec, Obs.setState, Obs.getCurrentTime, Res.ok_bind, lt_irrefl, if_false, Res.bind_eq_ok] at h
      obtain ⟨_, -, h⟩ := h
      have : From T (some (x, k)) := by intro v k' h; cases h; exact ho
      split_ifs at h <;> cases h <;> exact this
    case setCurrentState x =>
      simp only [eexec, kexec, Obs.setCurrentState] at h
      cases hx : s.x with
      | none => rw [hx] at h; cases h
      | some q =>
        rw [hx] at h
        simp only [Res.bind_eq_ok] at h
        obtain ⟨_, -, h⟩ := h
        cases h
        intro v k' h; cases h; exact hs q.1 q.2 hx
    case pushInput u =>
      simp only [eexec, kexec, Obs.pushInput] at h
      by_cases hp : (cfg s).p > 0
      · simp only [hp, if_true, Res.bind_eq_ok] at h
        obtain ⟨_, -, h⟩ := h
        split_ifs at h
        · cases h; exact hs
        · cases hx : s.x with
          | none => rw [hx] at h; cases h
          | some q =>
            rw [hx] at h
            simp only [Res.bind_eq_ok] at h
            obtain ⟨y', -, h⟩ := h
            cases h; exact hx ▸ hs
      · simp only [hp, if_false] at h
        cases h; exact hs
    case setInput u k =>
      simp only [eexec, kexec, Obs.setInput] at h
      by_cases hp : (cfg s).p > 0
      · simp only [hp, if_true, Res.bind_eq_ok] at h
        obtain ⟨_, -, h⟩ := h
        split_ifs at h <;> simp only [Res.bind_eq_ok] at h <;> obtain ⟨_, -, y', -, h⟩ := h <;> cases h <;> exact hs
      · simp only [hp, if_false] at h
        cases h; exact hs
    case setMeasurement y k =>
      simp only [eexec, kexec, Obs.setMeasurement, Res.bind_eq_ok] at h
      obtain ⟨_, -, h⟩ := h
      split_ifs at h <;> simp only [Res.bind_eq_ok] at h <;> obtain ⟨_, -, y', -, h⟩ := h <;> cases h <;> exact hs
    case pushMeasurement y =>
      simp only [eexec, kexec, Obs.pushMeasurement, Res.bind_eq_ok] at h
      obtain ⟨_, -, h⟩ := h
      split_ifs at h
      · cases h; exact hs
      · cases hx : s.x with
        | none => rw [hx] at h; cases h
        | some q =>
          rw [hx] at h
          simp only [Res.bind_eq_ok] at h
          obtain ⟨y', -, h⟩ := h
          cases h; exact hx ▸ hs
    case predict =>
      simp only [eexec, kexec, Res.bind_eq_ok] at h
      obtain ⟨k, -, h⟩ := h
      exact key _ (from_prediction h)
    case predictMeasurement =>
      simp only [eexec, kexec, Res.bind_eq_ok] at h
      obtain ⟨k, -, s1, h1, h⟩ := h
      exact key _ ((from_sensor h).trans (from_prediction h1))
    case getEstimatedState k =>
      simp only [eexec, kexec, KF.getEstimatedState, Obs.getEstimatedState, Res.bind_eq_ok] at h
      obtain ⟨k0, -, _, -, h⟩ := h
      exact from_loop T _ k _ s s' hs h
    case setStateSize n nt =>
      cases h
      unfold setStateSize2
      split_ifs
      · exact keyn
      · exact hs
      · exact hs
    case setMeasureSize m mt =>
      cases h
      by_cases h1 : m = s.st.m
      · subst h1
        by_cases h2 : mt = s.st.mt
        · subst h2; rw [C14_setMeasureSize_same]; exact hs
        · rw [C14_setTangentMeasureSize _ _ h2]; exact hs
      · rw [C14_setMeasureSize _ _ _ h1]; exact hs
    case setInputSize p =>
      cases h
      unfold setInputSize
      split_ifs <;> exact hs
    case clearStates => cases h; exact keyn
    case reset => cases h; exact keyn
    case setA M => simp only [eexec, kexec, setA, Res.bind_eq_ok] at h; obtain ⟨_, -, h⟩ := h; cases h; exact hs
    case setC M => simp only [eexec, kexec, setC, Res.bind_eq_ok] at h; obtain ⟨_, -, h⟩ := h; cases h; exact hs
    case setQ M => simp only [eexec, kexec, setQ, Res.bind_eq_ok] at h; obtain ⟨_, -, h⟩ := h; cases h; exact hs
    case setR M => simp only [eexec, kexec, setR, Res.bind_eq_ok] at h; obtain ⟨_, -, h⟩ := h; cases h; exact hs
    case setStateCovariance M =>
      simp only [eexec, kexec, setStateCovariance, Res.bind_eq_ok] at h; obtain ⟨_, -, h⟩ := h; cases h; exact hs
    all_goals cases h; exact hs
  | setFunctor f => cases h; exact hs
  | clearFunctor => cases h; exact hs
  | setDirectInputOutputFeedthrough b =>
    cases h; unfold setDirectInputOutputFeedthrough; split_ifs <;> exact hs
  | setDirectInputStateFeedthrough b =>
    cases h; unfold setDirectInputStateFeedthrough; split_ifs <;> exact hs
  | getAMatrixFD dx =>
    simp only [eexec, getAMatrixFD, updateStatePrediction, Res.bind_eq_ok, Res.bind_assoc] at h
    obtain ⟨k, -, k', -, s1, h1, x', -, u, -, c, -, h⟩ := h
    obtain ⟨a, h, h'⟩ := h
    cases h; cases h'
    exact key s1.x (from_prediction h1)
  | getCMatrixFD dx =>
    simp only [eexec, getCMatrixFD, updateStateAndMeasurementPrediction, updateStatePrediction, Res.bind_eq_ok, Res.bind_assoc] at h
    obtain ⟨k, -, k', -, s1, h1, k2, -, s2, h2, s3, h3, c, -, u, -, h⟩ := h
    obtain ⟨a, h, h'⟩ := h
    cases h; cases h'
    exact key s3.x ((from_prediction h3).trans ((from_sensor h2).trans (from_prediction h1)))

theorem comm_run (T : Int) (ops : List EOp) (ho : ∀ op ∈ ops, op.NotBefore T) : ∀ s1 s2 : KFilter Ext, From T s1.x → From T s2.x →
    forget (oldCaches T) s1 = forget (oldCaches T) s2 →
    (ops.foldlM eexec s1 >>= observe) = (ops.foldlM eexec s2 >>= observe) := by
  induction ops with
  | nil =>
    intro s1 s2 _ _ h
    show observe s1 = observe s2
    rw [← observe_forget (oldCaches T) s1, h, observe_forget]
  | cons o os ih =>
    intro s1 s2 hx1 hx2 h
    rw [List.foldlM_cons, List.foldlM_cons, Res.bind_assoc, Res.bind_assoc]
    have := comm_congr (comm_eexec T s1 o hx1) (comm_eexec T s2 o hx2) h
    have ho' := ho o (by simp)
    cases h1 : eexec s1 o <;> cases h2 : eexec s2 o <;> rw [h1, h2] at this <;> try (cases this)
    · exact ih (fun op hop => ho op (by simp [hop])) _ _ (from_eexec T _ _ o ho' hx1 h1) (from_eexec T _ _ o ho' hx2 h2)
        (Res.ok.inj this)

/-- **C23**, extended filter, what holds: as for the linear filter, as long as the filter is not restarted at a time before that of a
prediction made in its past (`T`). Missing: restarting earlier, for instance at time 0 again, where the claim is false
(`C23_extended_false`). -/
theorem C23_extended_partial (s1 s2 : KFilter Ext) (h : SameSetup s1 s2) (hf : s1.st.ext.f = s2.st.ext.f)
    (hd : s1.st.ext.dirOut = s2.st.ext.dirOut) (hd' : s1.st.ext.dirState = s2.st.ext.dirState) (T : Int)
    (hT : ∀ v t, s1.st.xbar = some (v, t) ∨ s1.st.ybar = some (v, t) ∨ s2.st.xbar = some (v, t) ∨ s2.st.ybar = some (v, t) → t ≤ T)
    (ops : List EOp) (ho : ∀ op ∈ ops, op.NotBefore T) :
    (ops.foldlM eexec (reset s1) >>= observe) = (ops.foldlM eexec (reset s2) >>= observe) := by
  have hn : From T none := fun v k h => by cases h
  refine comm_run T ops ho _ _ hn hn ?_
  have ho : ∀ v : Option (DVec × Int), (∀ w t, v = some (w, t) → t ≤ T) → old T v = true := by
    intro v hv
    cases v with
    | none => rfl
    | some q => simp only [old, decide_eq_true_eq]; exact hv q.1 q.2 rfl
  have o1 := ho s1.st.xbar fun w t h => hT w t (Or.inl h)
  have o2 := ho s1.st.ybar fun w t h => hT w t (Or.inr (Or.inl h))
  have o3 := ho s2.st.xbar fun w t h => hT w t (Or.inr (Or.inr (Or.inl h)))
  have o4 := ho s2.st.ybar fun w t h => hT w t (Or.inr (Or.inr (Or.inr h)))
  obtain ⟨h1, h2, h3, h4, h5, h6, h7, h8, h9, h10⟩ := h
  simp only [forget, reset, KF.reset, oldCaches, clearStateCovariance, clearStates, Obs.clearInputs, Obs.clearMeasurements,
    Obs.clearStates, o1, o2, o3, o4, h1, h2, h3, h4, h5, h6, h7, h8, h9, h10, hf, hd, hd', IArr.reset]
  simp

theorem bind_okk {α : Type} (r : Res α) : (r >>= fun a => pure a) = r := by cases r <;> rfl

/-- A filter that has predicted from the state `0` at time 0. -/
noncomputable def usedFilter : KFilter Ext :=
  ⟨some (vec1 0, 0), IArr.empty, IArr.empty,
    { n := 1, nt := 1, m := 1, mt := 1, p := 0, a := mat1 1, c := mat1 0, q := mat1 1, r := mat1 1, pr := mat1 1,
      xbar := some (vec1 0, 1), ybar := some (vec1 0, 1), innovation := ⟨0, 0⟩, kGain := .empty, arith := Arith.default,
      ext := ⟨some idFunctor, false, false, DVec.zero 0⟩ }⟩

/-- The calls that configure a new filter, before any state is set. -/
noncomputable def setupCalls : List EOp :=
  [.setFunctor idFunctor, .base (.setA (mat1 1)), .base (.setC (mat1 0)), .base (.setQ (mat1 1)), .base (.setR (mat1 1))]

/-- The used filter is the result of public calls. -/
theorem usedFilter_reachable :
    (setupCalls ++ [EOp.base (.setState (vec1 0) 0), .base (.setStateCovariance (mat1 1)),
      .base .predictMeasurement]).foldlM eexec (mk 1 1 1 1 0 false false) = .ok usedFilter := rfl

/-- The newly configured filter. -/
noncomputable def newFilter : KFilter Ext :=
  ⟨none, IArr.empty, IArr.empty,
    { n := 1, nt := 1, m := 1, mt := 1, p := 0, a := mat1 1, c := mat1 0, q := mat1 1, r := mat1 1, pr := .empty,
      xbar := none, ybar := none, innovation := ⟨0, 0⟩, kGain := .empty, arith := Arith.default,
      ext := ⟨some idFunctor, false, false, DVec.zero 0⟩ }⟩

theorem newFilter_reachable : setupCalls.foldlM eexec (mk 1 1 1 1 0 false false) = .ok newFilter := rfl

/-- Restart at time 0 from the state `5`, and one step. -/
noncomputable def restart : List EOp :=
  [.base (.setState (vec1 5) 0), .base (.setStateCovariance (mat1 1)), .base (.setMeasurement (vec1 0) 1),
    .base .predictMeasurement, .base (.getEstimatedState 1)]

theorem mat1_zero : mat1 0 = ⟨1, 1, 0⟩ := rfl

/-- The step of the restarted filter, from the stored prediction `v`. -/
theorem restart_step (v : ℝ) : ∃ s', eexec (⟨some (vec1 5, 0), ⟨1, [vec1 0]⟩, IArr.empty,
    { n := 1, nt := 1, m := 1, mt := 1, p := 0, a := mat1 1, c := mat1 0, q := mat1 1, r := mat1 1, pr := mat1 1,
      xbar := some (vec1 v, 1), ybar := some (vec1 v, 1), innovation := ⟨0, 0⟩, kGain := .empty, arith := Arith.default,
      ext := ⟨some idFunctor, false, false, DVec.zero 0⟩ }⟩) (.base (.getEstimatedState 1)) = .ok s' ∧ s'.x = some (vec1 v, 1) := by
  set s : KFilter Ext := ⟨some (vec1 5, 0), ⟨1, [vec1 0]⟩, IArr.empty,
    { n := 1, nt := 1, m := 1, mt := 1, p := 0, a := mat1 1, c := mat1 0, q := mat1 1, r := mat1 1, pr := mat1 1,
      xbar := some (vec1 v, 1), ybar := some (vec1 v, 1), innovation := ⟨0, 0⟩, kGain := .empty, arith := Arith.default,
      ext := ⟨some idFunctor, false, false, DVec.zero 0⟩ }⟩ with hs
  have hm : HasMats s.st 1 1 1 1 1 0 1 := ⟨rfl, rfl, mat1_one, mat1_one, mat1_one, mat1_zero, mat1_one⟩
  have hstep := oneStep_cached (s := s) hm Matrix.PosSemidef.one Matrix.PosSemidef.one Matrix.PosDef.one rfl (vec1 5) 0 rfl
    (fun _ => v) (fun _ => v) (fun _ => 0) rfl rfl rfl
  have hg : gain (0 : Matrix (Fin 1) (Fin 1) ℝ) 1 (predCov (1 : Matrix (Fin 1) (Fin 1) ℝ) 1 1) = 0 := by
    simp [gain]
  have h0 : eexec s (.base (.getEstimatedState 1)) = (Obs.loopBody (cfg s) (oneStep virt) 1 s) := by
    simp only [eexec, kexec, KF.getEstimatedState, Obs.getEstimatedState, Obs.getCurrentTime, hs]
    simp only [Res.ok_bind]
    have : (1 - 0 : Int).toNat = 1 := rfl
    simp only [this, Obs.loop, show (decide ((0:Int) ≤ 1)) = true from rfl, Res.assert_true, Res.ok_bind]
    cases Obs.loopBody _ (oneStep virt) 1 _ <;> rfl
  rw [h0, Obs.loopBody, hstep, hg]
  refine ⟨_, rfl, ?_⟩
  simp [vec1]

/-- **C23** fails for the extended filter: after `reset`, restarted at time 0 with the state `5`, `usedFilter` uses the prediction
stored before the reset and estimates `0`; a new filter estimates `5`. -/
theorem C23_extended_false : ¬ C23_extended_statement := by
  intro h
  have := h usedFilter newFilter ⟨rfl, rfl, rfl, rfl, rfl, rfl, rfl, rfl, rfl, rfl⟩ rfl rfl rfl restart
  obtain ⟨s1, h1, e1⟩ := restart_step 0
  obtain ⟨s2, h2, e2⟩ := restart_step 5
  have r1 : restart.foldlM eexec (reset usedFilter) = .ok s1 := by
    exact (bind_okk _).trans h1
  have r2 : restart.foldlM eexec (reset newFilter) = .ok s2 := by
    exact (bind_okk _).trans h2
  rw [r1, r2] at this
  simp only [Res.ok_bind, observe, e1, e2, Res.ok.injEq, Prod.mk.injEq, Option.some.injEq, vec1] at this
  have h8 : (fun _ : Fin 1 => (0 : ℝ)) = fun _ => 5 := by
    have h9 := this.1.1
    injection h9 with _ h
  have := congrFun h8 0
  norm_num at this

/-- The hypotheses of the partial theorem are met by `usedFilter` and `newFilter` with `T = 1`, restarting at time 1. -/
example : SameSetup usedFilter newFilter ∧ usedFilter.st.ext.f = newFilter.st.ext.f ∧
    (∀ v t, usedFilter.st.xbar = some (v, t) ∨ usedFilter.st.ybar = some (v, t) ∨ newFilter.st.xbar = some (v, t) ∨
      newFilter.st.ybar = some (v, t) → t ≤ 1) ∧
    (∀ op ∈ [EOp.base (.setState (vec1 5) 1), .base .predict], op.NotBefore 1) := by
  refine ⟨⟨rfl, rfl, rfl, rfl, rfl, rfl, rfl, rfl, rfl, rfl⟩, rfl, ?_, ?_⟩
  · rintro v t (h | h | h | h) <;> cases h <;> exact le_refl _
  · intro op hop
    simp only [List.mem_cons, List.not_mem_nil, or_false] at hop
    rcases hop with rfl | rfl
    · exact le_refl _
    · exact trivial

end StateObs.EKF
