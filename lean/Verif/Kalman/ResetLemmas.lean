import Verif.Kalman.Props
/-!
# Calls do not look at forgotten members

`forget g` removes part of the stored predictions and of the derived class' members (as `g` says) and the outputs of the last correction.
Calls commute with it, given that the predictions do.
-/

namespace StateObs.KF
open StateObs
variable {E : Type}

/-- Which part of the predictions and of the members of the derived class is forgotten. -/
abbrev Forget (E : Type) := Option (DVec × Int) → Option (DVec × Int) → E → Option (DVec × Int) × Option (DVec × Int) × E

/-- `s` without what `g` forgets and without the outputs of the last correction. -/
def forget (g : Forget E) (s : KFilter E) : KFilter E :=
  { s with st := { s.st with
      xbar := (g s.st.xbar s.st.ybar s.st.ext).1
      ybar := (g s.st.xbar s.st.ybar s.st.ext).2.1
      ext := (g s.st.xbar s.st.ybar s.st.ext).2.2
      innovation := ⟨0, 0⟩
      kGain := DMat.empty } }

/-- A call commutes with forgetting. -/
def Comm (g : Forget E) (F : KFilter E → Res (KFilter E)) (s : KFilter E) : Prop :=
  (F s >>= fun t => .ok (forget g t)) = (F (forget g s) >>= fun t => .ok (forget g t))

/-- Forgetting twice is forgetting once. -/
def Idem (g : Forget E) : Prop := ∀ xb yb e, g (g xb yb e).1 (g xb yb e).2.1 (g xb yb e).2.2 = g xb yb e

theorem forget_forget {g : Forget E} (hg : Idem g) (s : KFilter E) : forget g (forget g s) = forget g s := by
  unfold Idem at hg
  simp only [forget, hg]

/-- The calls other than predictions, estimations and setters of the derived class. -/
def KOp.Plain : KOp E → Prop
  | .predict | .predictMeasurement | .getEstimatedState _ | .setExt _ => False
  | _ => True

theorem comm_assert (g : Forget E) (s : KFilter E) (b : KFilter E → Bool) (F : KFilter E → KFilter E) (hb : b (forget g s) = b s)
    (h : forget g (F s) = forget g (F (forget g s))) : Comm g (fun s => Res.assert (b s) >>= fun _ => .ok (F s)) s := by
  unfold Comm
  simp only [hb]
  cases b s <;> simp [h]

theorem bindc {α β : Type} {r : Res α} {f h : α → Res β} (e : ∀ a, f a = h a) : (r >>= f) = (r >>= h) := by
  rw [funext e]

theorem comm_plain (V : Virt E) {g : Forget E} (hg : Idem g) (s : KFilter E) (op : KOp E) (h : op.Plain) :
    Comm g (fun s => kexec V s op) s := by
  have ff : ∀ (F : KData E → KData E) (x : Option (DVec × Int)) (y u : IArr DVec),
      (∀ st : KData E, (F st).xbar = st.xbar ∧ (F st).ybar = st.ybar ∧ (F st).ext = st.ext) →
      (∀ (st : KData E) xb yb e inn K, { F { st with xbar := xb, ybar := yb, ext := e, innovation := inn, kGain := K } with
        innovation := (⟨0, 0⟩ : DVec), kGain := DMat.empty } =
        { F st with xbar := xb, ybar := yb, ext := e, innovation := (⟨0, 0⟩ : DVec), kGain := DMat.empty }) →
      forget g ⟨x, y, u, F s.st⟩ = forget g ⟨x, y, u, F (forget g s).st⟩ := by
    intro F x y u h1 h2
    have e := h2 s.st (g s.st.xbar s.st.ybar s.st.ext).1 (g s.st.xbar s.st.ybar s.st.ext).2.1
      (g s.st.xbar s.st.ybar s.st.ext).2.2 ⟨0, 0⟩ DMat.empty
    have e1 : forget g ⟨x, y, u, F (forget g s).st⟩ =
        (⟨x, y, u, { F (forget g s).st with
          xbar := (g s.st.xbar s.st.ybar s.st.ext).1
          ybar := (g s.st.xbar s.st.ybar s.st.ext).2.1
          ext := (g s.st.xbar s.st.ybar s.st.ext).2.2
          innovation := ⟨0, 0⟩
          kGain := DMat.empty }⟩ : KFilter E) := by
      have a := h1 (forget g s).st
      have hg' := hg
      unfold Idem at hg'
      simp only [forget] at a ⊢
      simp only [a.1, a.2.1, a.2.2, hg']
    rw [e1]
    simp only [forget, (h1 s.st).1, (h1 s.st).2.1, (h1 s.st).2.2]
    congr 1
    have e' := congrArg (fun d : KData E => ({ d with
      xbar := (g s.st.xbar s.st.ybar s.st.ext).1
      ybar := (g s.st.xbar s.st.ybar s.st.ext).2.1
      ext := (g s.st.xbar s.st.ybar s.st.ext).2.2 } : KData E)) e
    simp only at e'
    exact e'.symm
  have hst : ∀ x y u, forget g (⟨x, y, u, s.st⟩ : KFilter E) = forget g ⟨x, y, u, (forget g s).st⟩ := by
    intro x y u
    exact ff id x y u (fun _ => ⟨rfl, rfl, rfl⟩) (fun _ _ _ _ _ _ => rfl)
  cases op
  case setA M =>
    exact comm_assert g s (fun s => s.st.checkA M) (fun s => { s with st := { s.st with a := M } }) rfl
      (ff (fun st => { st with a := M }) _ _ _ (fun _ => ⟨rfl, rfl, rfl⟩) (fun _ _ _ _ _ _ => rfl))
  case setC M =>
    exact comm_assert g s (fun s => s.st.checkC M) (fun s => { s with st := { s.st with c := M } }) rfl
      (ff (fun st => { st with c := M }) _ _ _ (fun _ => ⟨rfl, rfl, rfl⟩) (fun _ _ _ _ _ _ => rfl))
  case setQ M =>
    exact comm_assert g s (fun s => s.st.checkQ M) (fun s => { s with st := { s.st with q := M } }) rfl
      (ff (fun st => { st with q := M }) _ _ _ (fun _ => ⟨rfl, rfl, rfl⟩) (fun _ _ _ _ _ _ => rfl))
  case setR M =>
    exact comm_assert g s (fun s => s.st.checkR M) (fun s => { s with st := { s.st with r := M } }) rfl
      (ff (fun st => { st with r := M }) _ _ _ (fun _ => ⟨rfl, rfl, rfl⟩) (fun _ _ _ _ _ _ => rfl))
  case setStateCovariance M =>
    exact comm_assert g s (fun s => s.st.checkP M) (fun s => { s with st := { s.st with pr := M } }) rfl
      (ff (fun st => { st with pr := M }) _ _ _ (fun _ => ⟨rfl, rfl, rfl⟩) (fun _ _ _ _ _ _ => rfl))
  case clearA => exact congrArg Res.ok (ff (fun st => { st with a := .empty }) s.x s.y s.u (fun _ => ⟨rfl, rfl, rfl⟩) (fun _ _ _ _ _ _ => rfl))
  case clearC => exact congrArg Res.ok (ff (fun st => { st with c := .empty }) s.x s.y s.u (fun _ => ⟨rfl, rfl, rfl⟩) (fun _ _ _ _ _ _ => rfl))
  case clearQ => exact congrArg Res.ok (ff (fun st => { st with q := .empty }) s.x s.y s.u (fun _ => ⟨rfl, rfl, rfl⟩) (fun _ _ _ _ _ _ => rfl))
  case clearR => exact congrArg Res.ok (ff (fun st => { st with r := .empty }) s.x s.y s.u (fun _ => ⟨rfl, rfl, rfl⟩) (fun _ _ _ _ _ _ => rfl))
  case clearStateCovariance =>
    exact congrArg Res.ok (ff (fun st => { st with pr := .empty }) s.x s.y s.u (fun _ => ⟨rfl, rfl, rfl⟩) (fun _ _ _ _ _ _ => rfl))
  case clearStates =>
    exact congrArg Res.ok (ff (fun st => { st with pr := .empty }) none s.y s.u (fun _ => ⟨rfl, rfl, rfl⟩) (fun _ _ _ _ _ _ => rfl))
  case reset =>
    exact congrArg Res.ok (ff (fun st => { st with pr := .empty }) none s.y.reset s.u.reset (fun _ => ⟨rfl, rfl, rfl⟩)
      (fun _ _ _ _ _ _ => rfl))
  case clearMeasurements => exact congrArg Res.ok (hst s.x s.y.reset s.u)
  case clearInputs => exact congrArg Res.ok (hst s.x s.y s.u.reset)
  case setArith a =>
    exact congrArg Res.ok (ff (fun st => { st with arith := a }) s.x s.y s.u (fun _ => ⟨rfl, rfl, rfl⟩) (fun _ _ _ _ _ _ => rfl))
  case setState x k =>
    unfold Comm
    simp only [kexec, Obs.setState, Obs.getCurrentTime, Res.ok_bind, lt_irrefl, if_false]
    have e1 : (cfg (forget g s)) = cfg s := rfl
    rw [e1]
    cases (cfg s).okX x <;> simp only [Res.assert_true, Res.assert_false, Res.ok_bind, Res.assertFail_bind]
    split_ifs
    · exact congrArg Res.ok (hst _ _ _)
    · exact congrArg Res.ok (hst _ _ _)
  case setCurrentState x =>
    unfold Comm
    simp only [kexec, Obs.setCurrentState]
    have e1 : (cfg (forget g s)) = cfg s := rfl
    have e2 : (forget g s).x = s.x := rfl
    rw [e1, e2]
    cases s.x with
    | none => rfl
    | some q =>
      cases (cfg s).okX x <;> simp only [Res.assert_true, Res.assert_false, Res.ok_bind, Res.assertFail_bind]
      exact congrArg Res.ok (hst _ _ _)
  case setMeasurement y k =>
    unfold Comm
    simp only [kexec, Obs.setMeasurement]
    have e1 : (cfg (forget g s)) = cfg s := rfl
    have e2 : (forget g s).x = s.x := rfl
    have e3 : (forget g s).y = s.y := rfl
    rw [e1, e2, e3]
    simp only [Res.bind_assoc]
    refine bindc fun _ => ?_
    split_ifs <;> simp only [Res.bind_assoc] <;>
      exact bindc fun _ => bindc fun _ => congrArg Res.ok (hst _ _ _)
  case pushMeasurement y =>
    unfold Comm
    simp only [kexec, Obs.pushMeasurement]
    have e1 : (cfg (forget g s)) = cfg s := rfl
    have e2 : (forget g s).x = s.x := rfl
    have e3 : (forget g s).y = s.y := rfl
    rw [e1, e2, e3]
    simp only [Res.bind_assoc]
    refine bindc fun _ => ?_
    split_ifs
    · exact congrArg Res.ok (hst _ _ _)
    · cases hx : s.x with
      | none => rfl
      | some q =>
        simp only [Res.bind_assoc]
        exact bindc fun _ => congrArg Res.ok (hst _ _ _)
  case setInput u k =>
    unfold Comm
    simp only [kexec, Obs.setInput]
    have e1 : (cfg (forget g s)) = cfg s := rfl
    have e2 : (forget g s).x = s.x := rfl
    have e3 : (forget g s).u = s.u := rfl
    rw [e1, e2, e3]
    by_cases hp : (cfg s).p > 0
    · rw [if_pos hp, if_pos hp]
      simp only [Res.bind_assoc]
      refine bindc fun _ => ?_
      split_ifs <;> simp only [Res.bind_assoc] <;>
        exact bindc fun _ => bindc fun _ => congrArg Res.ok (hst _ _ _)
    · rw [if_neg hp, if_neg hp]
      simp only [Res.ok_bind, forget_forget hg]
  case pushInput u =>
    unfold Comm
    simp only [kexec, Obs.pushInput]
    have e1 : (cfg (forget g s)) = cfg s := rfl
    have e2 : (forget g s).x = s.x := rfl
    have e3 : (forget g s).u = s.u := rfl
    rw [e1, e2, e3]
    by_cases hp : (cfg s).p > 0
    · rw [if_pos hp, if_pos hp]
      simp only [Res.bind_assoc]
      refine bindc fun _ => ?_
      split_ifs
      · exact congrArg Res.ok (hst _ _ _)
      · cases hx : s.x with
        | none => rfl
        | some q =>
          simp only [Res.bind_assoc]
          exact bindc fun _ => congrArg Res.ok (hst _ _ _)
    · rw [if_neg hp, if_neg hp]
      simp only [Res.ok_bind, forget_forget hg]
  case setStateSize n nt =>
    unfold Comm
    simp only [kexec, Res.ok_bind, Res.ok.injEq]
    unfold setStateSize2
    have e1 : (forget g s).st.n = s.st.n := rfl
    have e2 : (forget g s).st.nt = s.st.nt := rfl
    rw [e1, e2]
    split_ifs
    · exact ff (fun st => { st with n := n, nt := nt, a := .empty, c := .empty, q := .empty, pr := .empty }) none s.y s.u
        (fun _ => ⟨rfl, rfl, rfl⟩) (fun _ _ _ _ _ _ => rfl)
    · exact ff (fun st => { st with nt := nt, a := .empty, c := .empty, q := .empty, pr := .empty }) s.x s.y s.u
        (fun _ => ⟨rfl, rfl, rfl⟩) (fun _ _ _ _ _ _ => rfl)
    · exact (forget_forget hg s).symm
  case setMeasureSize m mt =>
    unfold Comm
    simp only [kexec, Res.ok_bind, Res.ok.injEq]
    by_cases h1 : m = s.st.m
    · subst h1
      by_cases h2 : mt = s.st.mt
      · subst h2
        have := C14_setMeasureSize_same (forget g s)
        rw [C14_setMeasureSize_same]
        exact (forget_forget hg s).symm.trans (congrArg (forget g) this.symm)
      · have := C14_setTangentMeasureSize (forget g s) mt h2
        rw [C14_setTangentMeasureSize _ _ h2]
        exact (ff (fun st => { st with mt := mt, c := .empty, r := .empty }) s.x s.y s.u
          (fun _ => ⟨rfl, rfl, rfl⟩) (fun _ _ _ _ _ _ => rfl)).trans (congrArg (forget g) this.symm)
    · have := C14_setMeasureSize (forget g s) m mt h1
      rw [C14_setMeasureSize _ _ _ h1, this]
      exact ff (fun st => { st with m := m, mt := mt, c := .empty, r := .empty }) s.x s.y.reset s.u
        (fun _ => ⟨rfl, rfl, rfl⟩) (fun _ _ _ _ _ _ => rfl)
  case setInputSize p =>
    unfold Comm
    simp only [kexec, Res.ok_bind, Res.ok.injEq]
    unfold setInputSize
    have e1 : (forget g s).st.p = s.st.p := rfl
    rw [e1]
    split_ifs
    · exact ff (fun st => { st with p := p }) s.x s.y s.u.reset (fun _ => ⟨rfl, rfl, rfl⟩) (fun _ _ _ _ _ _ => rfl)
    · exact (forget_forget hg s).symm
  case predict => exact absurd h id
  case predictMeasurement => exact absurd h id
  case setExt f => exact absurd h id
  case getEstimatedState k => exact absurd h id

/-- From commuting to equal results for filters that differ only in what is forgotten. -/
theorem comm_congr {g : Forget E} {F : KFilter E → Res (KFilter E)} {s s' : KFilter E} (h : Comm g F s) (h' : Comm g F s')
    (e : forget g s = forget g s') : (F s >>= fun t => Res.ok (forget g t)) = (F s' >>= fun t => Res.ok (forget g t)) := by
  unfold Comm at h h'
  rw [h, h', e]

theorem comm_loop {V : Virt E} {g : Forget E} (hg : Idem g) (I : Option (DVec × Int) → Prop)
    (hs : ∀ s : KFilter E, I s.x → Comm g (oneStep V) s) (hI : ∀ s s' : KFilter E, I s.x → oneStep V s = .ok s' → I s'.x)
    (c : ObsCfg DVec DVec DVec) (K : Int) (n : ℕ) :
    ∀ s s' : KFilter E, I s.x → forget g s = forget g s' →
      (Obs.loop c (oneStep V) K n s >>= fun t => Res.ok (forget g t)) =
        (Obs.loop c (oneStep V) K n s' >>= fun t => Res.ok (forget g t)) := by
  have hx : ∀ s s' : KFilter E, forget g s = forget g s' → s.x = s'.x ∧ s.y = s'.y ∧ s.u = s'.u := by
    intro s s' h
    have h1 : (forget g s).x = (forget g s').x := by rw [h]
    have h2 : (forget g s).y = (forget g s').y := by rw [h]
    have h3 : (forget g s).u = (forget g s').u := by rw [h]
    exact ⟨h1, h2, h3⟩
  induction n with
  | zero => intro s s' _ h; simp only [Obs.loop, Res.ok_bind, h]
  | succ n ih =>
    intro s s' hi h
    simp only [Obs.loop, Obs.loopBody, Res.bind_assoc]
    have hi' : I s'.x := by rw [← (hx _ _ h).1]; exact hi
    have h1 := comm_congr (hs s hi) (hs s' hi') h
    have hI1 := hI s
    cases e1 : oneStep V s with
    | ok t =>
      cases e2 : oneStep V s' with
      | ok t' =>
        rw [e1, e2] at h1
        simp only [Res.ok_bind, Res.ok.injEq] at h1 ⊢
        obtain ⟨ex, ey, eu⟩ := hx t t' h1
        have hIt := hI1 t hi e1
        rw [ey, eu]
        have hst : forget g (⟨none, IArr.empty, IArr.empty, t.st⟩ : KFilter E) = forget g ⟨none, IArr.empty, IArr.empty, t'.st⟩ := by
          have := congrArg (fun z : KFilter E => ({ z with x := none, y := IArr.empty, u := IArr.empty } : KFilter E)) h1
          exact this
        have hst2 : ∀ x y u, forget g (⟨x, y, u, t.st⟩ : KFilter E) = forget g ⟨x, y, u, t'.st⟩ := by
          intro x y u
          have := congrArg (fun z : KFilter E => ({ z with x := x, y := y, u := u } : KFilter E)) hst
          exact this
        cases Obs.popIf K t'.y with
        | ok y =>
          simp only [Res.ok_bind]
          by_cases hp : c.p > 0
          · simp only [hp, if_true, Res.bind_assoc]
            cases Obs.popIf K t'.u with
            | ok u =>
              simp only [Res.ok_bind]
              refine ih ⟨t.x, y, u, t.st⟩ ⟨t'.x, y, u, t'.st⟩ hIt ?_
              rw [ex]
              exact hst2 _ _ _
            | assertFail => rfl
            | ub => rfl
            | exn => rfl
          · simp only [hp, if_false, Res.ok_bind]
            refine ih ⟨t.x, y, t'.u, t.st⟩ ⟨t'.x, y, t'.u, t'.st⟩ hIt ?_
            rw [ex]
            exact hst2 _ _ _
        | assertFail => rfl
        | ub => rfl
        | exn => rfl
      | assertFail => rw [e1, e2] at h1; cases h1
      | ub => rw [e1, e2] at h1; cases h1
      | exn => rw [e1, e2] at h1; cases h1
    | assertFail => rw [e1] at h1; cases e2 : oneStep V s' <;> rw [e2] at h1 <;> first | rfl | cases h1
    | ub => rw [e1] at h1; cases e2 : oneStep V s' <;> rw [e2] at h1 <;> first | rfl | cases h1
    | exn => rw [e1] at h1; cases e2 : oneStep V s' <;> rw [e2] at h1 <;> first | rfl | cases h1

theorem comm_getEstimatedState {V : Virt E} {g : Forget E} (hg : Idem g) (I : Option (DVec × Int) → Prop)
    (hs : ∀ s : KFilter E, I s.x → Comm g (oneStep V) s) (hI : ∀ s s' : KFilter E, I s.x → oneStep V s = .ok s' → I s'.x)
    (K : Int) (s : KFilter E) (hi : I s.x) : Comm g (fun s => getEstimatedState V s K) s := by
  unfold Comm
  simp only [getEstimatedState, Obs.getEstimatedState, Obs.getCurrentTime]
  have e1 : (cfg (forget g s)) = cfg s := rfl
  have e2 : (forget g s).x = s.x := rfl
  rw [e1, e2]
  cases s.x with
  | none => rfl
  | some q =>
    simp only [Res.ok_bind, Res.bind_assoc]
    congr 1; funext _
    exact comm_loop hg I hs hI (cfg s) K _ s _ hi (forget_forget hg s).symm

end StateObs.KF
