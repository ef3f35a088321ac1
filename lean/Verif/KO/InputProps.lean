import Verif.KO.InputLemmas
import Verif.KO.SettingsProps
/-!
# C110: the inputs given without their derivatives are differentiated
-/

namespace StateObs.KO
open StateObs Matrix Rot Kine KF
open Observer

variable {nc ni : ℕ} {o o' : Observer} {l : List Op}

theorem iteration_data (op : Op) (hb : op.BringsData) (l : List Op) : iteration (l ++ [op]) = (clockOf l).1 + 1 := by
  have hu : op ≠ .update := by rintro rfl; exact hb
  have : clockOf (l ++ [op]) = ((clockOf l).1, true) := by
    unfold clockOf
    rw [List.foldl_append]
    simp only [List.foldl_cons, List.foldl_nil, tick]
    rw [if_neg hu, if_pos hb]
  unfold iteration
  rw [this]
  rfl

theorem start_iteration (h : Reachable nc ni l o) (op : Op) (hb : op.BringsData) : o.startNewIteration.kData = (iteration (l ++ [op]) : ℕ) := by
  rw [start_kData (inv_reachable h), (clock_reachable h).1, iteration_data op hb]
  push_cast; rfl

/-- **C58**: the time of the state is the number of calls of `update()` that came after data given since the previous one (`clockOf`), along every history. -/
theorem C58_iterations (h : Reachable nc ni l o) : o.getStateVectorTimeIndex = .ok ((clockOf l).1 : Int) := by
  rw [(C58_clock h).2, (clock_reachable h).1]

theorem derived_new {α : Type} [AddCommGroup α] [Module ℝ α] {o : Observer} {i d : Option (α × Int)} {v w : α} {k m : ℕ} (hi : i = some (w, (k : Int))) (hm : o.kData = m)
    (hk : k < m) (hdt : o.dt ≠ 0) : o.derived i d v = .ok (some ((1 / (o.dt * ((m : ℝ) - k))) • (v - w), (m : Int))) := by
  have hp : (0 : ℝ) < (m : ℝ) - k := sub_pos.2 (by exact_mod_cast hk)
  subst hi
  unfold derived
  rw [Res.bind_eq_ok]
  refine ⟨(w, (k : Int)), rfl, ?_⟩
  dsimp only
  rw [if_pos (by rw [hm]; exact_mod_cast hk), hm, Res.bind_eq_ok]
  unfold derivate
  rw [if_neg (by push_cast; exact mul_ne_zero hdt hp.ne')]
  refine ⟨_, rfl, ?_⟩
  push_cast
  rfl

theorem derived_old {α : Type} [AddCommGroup α] [Module ℝ α] {o : Observer} {i d : Option (α × Int)} {v w : α} {k : ℕ} (hi : i = some (w, (k : Int))) (hm : o.kData = k) :
    o.derived i d v = .ok d := by
  subst hi
  unfold derived
  rw [Res.bind_eq_ok]
  refine ⟨(w, (k : Int)), rfl, ?_⟩
  dsimp only
  rw [if_neg (by rw [hm]; simp)]

/-- **C110**, angular momentum: given without its derivative in a later iteration than the last time, the derivative is the difference quotient of the two values
over the time between the two iterations (the sampling time multiplied by the number of iterations). -/
theorem C110_momentum_partial (h : Reachable nc ni l o) {s s0 : V3} {k : ℕ} (hg : GivenLast Op.momentum? l s0 k)
    (hk : k < iteration (l ++ [.setAngularMomentum s])) (hdt : o.dt ≠ 0) :
    ∃ o', o.setAngularMomentum s = .ok o' ∧ (∃ i, o'.sigma = some (s, i)) ∧
      ∃ i, o'.sigmad = some ((1 / (o.dt * ((iteration (l ++ [.setAngularMomentum s]) : ℝ) - k))) • (s - s0), i) := by
  have e := start_inputs o
  have := derived_new (o := o.startNewIteration) (d := o.startNewIteration.sigmad) (v := s) ((congrArg Inputs.sigma e).trans (given_momentum h hg))
    (start_iteration h (.setAngularMomentum s) trivial) hk (by rw [start_dt]; exact hdt)
  rw [start_dt] at this
  exact ⟨_, Res.bind_eq_ok.2 ⟨_, this, rfl⟩, ⟨_, rfl⟩, ⟨_, rfl⟩⟩

/-- **C110**, inertia given as a matrix. -/
theorem C110_inertia_partial (h : Reachable nc ni l o) {I I0 : M3} {k : ℕ} (hg : GivenLast Op.inertia? l I0 k)
    (hk : k < iteration (l ++ [.setInertiaMatrix I])) (hdt : o.dt ≠ 0) :
    ∃ o', o.setInertiaMatrix I = .ok o' ∧ (∃ i, o'.inertia = some (I, i)) ∧
      ∃ i, o'.inertiad = some ((1 / (o.dt * ((iteration (l ++ [.setInertiaMatrix I]) : ℝ) - k))) • (I - I0), i) := by
  have e := start_inputs o
  have := derived_new (o := o.startNewIteration) (d := o.startNewIteration.inertiad) (v := I) ((congrArg Inputs.inertia e).trans (given_inertia h hg))
    (start_iteration h (.setInertiaMatrix I) trivial) hk (by rw [start_dt]; exact hdt)
  rw [start_dt] at this
  exact ⟨_, Res.bind_eq_ok.2 ⟨_, this, rfl⟩, ⟨_, rfl⟩, ⟨_, rfl⟩⟩

theorem sym6_lower {J : M3} (hJ : Jᵀ = J) (v : V6) (a : ℝ) : sym6 (a • (v - lower6 J)) = a • (symmetric v - J) := by
  have hs : ∀ i j, J i j = J j i := fun i j => congrFun (congrFun hJ j) i
  rw [← sym6_eq]
  ext i j
  fin_cases i <;> fin_cases j <;> first
    | rfl
    | exact congrArg (fun t => a * (v 3 - t)) (hs 1 0)
    | exact congrArg (fun t => a * (v 4 - t)) (hs 2 0)
    | exact congrArg (fun t => a * (v 5 - t)) (hs 2 1)

/-- **C110**, inertia given by its six numbers, the one given before being symmetric. -/
theorem C110_inertiaVector_partial (h : Reachable nc ni l o) {v : V6} {I0 : M3} {k : ℕ} (hg : GivenLast Op.inertia? l I0 k) (hI : I0ᵀ = I0)
    (hk : k < iteration (l ++ [.setInertiaVector v])) (hdt : o.dt ≠ 0) :
    ∃ o', o.setInertiaVector v = .ok o' ∧ (∃ i, o'.inertia = some (symmetric v, i)) ∧
      ∃ i, o'.inertiad = some ((1 / (o.dt * ((iteration (l ++ [.setInertiaVector v]) : ℝ) - k))) • (symmetric v - I0), i) := by
  have e := start_inputs o
  have hm := start_iteration h (.setInertiaVector v) trivial
  have hp : (0 : ℝ) < (iteration (l ++ [.setInertiaVector v]) : ℝ) - k := sub_pos.2 (by exact_mod_cast hk)
  rw [← sym6_lower hI, ← sym6_eq]
  refine ⟨{ o.startNewIteration with
      inertia := some (sym6 v, o.startNewIteration.kData)
      inertiad := some (sym6 ((1 / (o.dt * ((iteration (l ++ [.setInertiaVector v]) : ℝ) - k))) • (v - lower6 I0)), o.startNewIteration.kData) },
    ?_, ⟨_, rfl⟩, ⟨_, rfl⟩⟩
  · refine Res.bind_eq_ok.2 ⟨(I0, (k : Int)), ?_, ?_⟩
    · rw [show o.startNewIteration.inertia = o.inertia from congrArg Inputs.inertia e, given_inertia h hg]; rfl
    · dsimp only
      rw [hm, if_pos (by exact_mod_cast hk), Res.bind_eq_ok]
      unfold derivate
      rw [if_neg (by rw [start_dt]; push_cast; exact mul_ne_zero hdt hp.ne')]
      refine ⟨_, rfl, ?_⟩
      rw [start_dt]
      push_cast
      rfl

/-- **C110**, centre of mass given alone: the velocity is the difference quotient of the positions, the acceleration the one of the velocities (the new one and
the one used until now). -/
theorem C110_com_partial (h : Reachable nc ni l o) {c c0 : V3} {k : ℕ} (hg : GivenLast Op.com? l c0 k)
    (hk : k < iteration (l ++ [.setCenterOfMass c])) (hdt : o.dt ≠ 0) :
    ∃ o' v0 v, o.setCenterOfMass c = .ok o' ∧ (∃ i, o.comd = some (v0, i)) ∧ v = (1 / (o.dt * ((iteration (l ++ [.setCenterOfMass c]) : ℝ) - k))) • (c - c0) ∧
      (∃ i, o'.com = some (c, i)) ∧ (∃ i, o'.comd = some (v, i)) ∧
      ∃ i, o'.comdd = some ((1 / (o.dt * ((iteration (l ++ [.setCenterOfMass c]) : ℝ) - k))) • (v - v0), i) := by
  have e := start_inputs o
  have hm := start_iteration h (.setCenterOfMass c) trivial
  have hp : (0 : ℝ) < (iteration (l ++ [.setCenterOfMass c]) : ℝ) - k := sub_pos.2 (by exact_mod_cast hk)
  have hc := given_com h hg
  obtain ⟨-, v0, hv⟩ := comTime_reachable h _ _ hc
  obtain ⟨v, hvv⟩ : ∃ v, v = (1 / (o.dt * ((iteration (l ++ [.setCenterOfMass c]) : ℝ) - k))) • (c - c0) := ⟨_, rfl⟩
  refine ⟨{ o.startNewIteration with
      com := some (c, o.startNewIteration.kData)
      comd := some (v, o.startNewIteration.kData)
      comdd := some ((1 / (o.dt * ((iteration (l ++ [.setCenterOfMass c]) : ℝ) - k))) • (v - v0), o.startNewIteration.kData) },
    v0, v, ?_, ⟨_, hv⟩, hvv, ⟨_, rfl⟩, ⟨_, rfl⟩, ⟨_, rfl⟩⟩
  refine Res.bind_eq_ok.2 ⟨(c0, (k : Int)), ?_, ?_⟩
  · rw [show o.startNewIteration.com = o.com from congrArg Inputs.com e, hc]; rfl
  · dsimp only
    rw [hm, if_pos (by exact_mod_cast hk)]
    unfold derivate
    rw [show o.startNewIteration.comd = o.comd from congrArg Inputs.comd e, hv, start_dt, if_neg (by push_cast; exact mul_ne_zero hdt hp.ne')]
    refine Res.bind_eq_ok.2 ⟨_, rfl, Res.bind_eq_ok.2 ⟨(v0, (k : Int)), rfl, ?_⟩⟩
    dsimp only
    rw [if_neg (by push_cast; exact mul_ne_zero hdt hp.ne')]
    refine Res.bind_eq_ok.2 ⟨_, rfl, ?_⟩
    rw [hvv]
    push_cast
    rfl

/-- **C110**, centre of mass given with its velocity: the acceleration is the difference quotient of the velocities. -/
theorem C110_comVelocity_partial (h : Reachable nc ni l o) {c c0 d : V3} {k : ℕ} (hg : GivenLast Op.com? l c0 k)
    (hk : k < iteration (l ++ [.setCenterOfMass2 c d])) (hdt : o.dt ≠ 0) :
    ∃ o' v0, o.setCenterOfMass2 c d = .ok o' ∧ (∃ i, o.comd = some (v0, i)) ∧
      (∃ i, o'.com = some (c, i)) ∧ (∃ i, o'.comd = some (d, i)) ∧
      ∃ i, o'.comdd = some ((1 / (o.dt * ((iteration (l ++ [.setCenterOfMass2 c d]) : ℝ) - k))) • (d - v0), i) := by
  have e := start_inputs o
  obtain ⟨-, v0, hv⟩ := comTime_reachable h _ _ (given_com h hg)
  have := derived_new (o := o.startNewIteration) (d := o.startNewIteration.comdd) (v := d) ((congrArg Inputs.comd e).trans hv)
    (start_iteration h (.setCenterOfMass2 c d) trivial) hk (by rw [start_dt]; exact hdt)
  rw [start_dt] at this
  exact ⟨_, v0, Res.bind_eq_ok.2 ⟨_, this, rfl⟩, ⟨_, hv⟩, ⟨_, rfl⟩, ⟨_, rfl⟩, ⟨_, rfl⟩⟩

/-- **C110** The derivatives that are given are used as they are. -/
theorem C110_given (o : Observer) :
    (∀ c d e, ∃ i, (o.setCenterOfMass3 c d e).com = some (c, i) ∧ (o.setCenterOfMass3 c d e).comd = some (d, i) ∧ (o.setCenterOfMass3 c d e).comdd = some (e, i)) ∧
    (∀ s d, ∃ i, (o.setAngularMomentum2 s d).sigma = some (s, i) ∧ (o.setAngularMomentum2 s d).sigmad = some (d, i)) ∧
    (∀ I d, ∃ i, (o.setInertiaMatrix2 I d).inertia = some (I, i) ∧ (o.setInertiaMatrix2 I d).inertiad = some (d, i)) ∧
    (∀ v d, ∃ i, (o.setInertiaVector2 v d).inertia = some (symmetric v, i) ∧ (o.setInertiaVector2 v d).inertiad = some (symmetric d, i)) :=
  ⟨fun _ _ _ => ⟨_, rfl, rfl, rfl⟩, fun _ _ => ⟨_, rfl, rfl⟩, fun _ _ => ⟨_, rfl, rfl⟩, fun v d => by rw [← sym6_eq, ← sym6_eq]; exact ⟨_, rfl, rfl⟩⟩

/-- **C110** The other calls leave the inputs and their derivatives. -/
theorem C110_others {op : Op} (e : op.exec o = .ok o') :
    (op.com? = none → o'.com = o.com ∧ o'.comd = o.comd ∧ o'.comdd = o.comdd) ∧
    (op.momentum? = none → o'.sigma = o.sigma ∧ o'.sigmad = o.sigmad) ∧ (op.inertia? = none → o'.inertia = o.inertia ∧ o'.inertiad = o.inertiad) :=
  ⟨fun hc => kept_com hc e, fun hc => kept_momentum hc e, fun hc => kept_inertia hc e⟩

/-! ## What fails -/

theorem never_com (h : Reachable nc ni l o) (hn : ∀ op ∈ l, op.com? = none) : o.com = none ∧ o.comd = some (0, 0) ∧ o.comdd = some (0, 0) := by
  obtain ⟨o0, h0, h1⟩ := h
  have e := inputs_construct h0
  have := kept_run (fun o => (o.com, o.comd, o.comdd)) (fun q => q.com? = none)
    (fun p p' op hq e => by obtain ⟨e1, e2, e3⟩ := kept_com hq e; simp only [e1, e2, e3]) l o0 o hn h1
  have e1 := congrArg Prod.fst this
  have e2 := congrArg (fun x => x.2.1) this
  have e3 := congrArg (fun x => x.2.2) this
  exact ⟨e1.trans (congrArg Inputs.com e), e2.trans (congrArg Inputs.comd e), e3.trans (congrArg Inputs.comdd e)⟩

theorem never_momentum (h : Reachable nc ni l o) (hn : ∀ op ∈ l, op.momentum? = none) : o.sigma = some (0, 0) := by
  obtain ⟨o0, h0, h1⟩ := h
  have e := inputs_construct h0
  exact (kept_run (·.sigma) (fun q => q.momentum? = none) (fun p p' op hq e => (kept_momentum hq e).1) l o0 o hn h1).trans (congrArg Inputs.sigma e)

theorem never_inertia (h : Reachable nc ni l o) (hn : ∀ op ∈ l, op.inertia? = none) : o.inertia = some (1, 0) := by
  obtain ⟨o0, h0, h1⟩ := h
  have e := inputs_construct h0
  exact (kept_run (·.inertia) (fun q => q.inertia? = none) (fun p p' op hq e => (kept_inertia hq e).1) l o0 o hn h1).trans (congrArg Inputs.inertia e)

/-- **C110** fails for the first centre of mass: whatever was called before, if no centre of mass was given, `setCenterOfMass(com)` stops on an assertion. -/
theorem C110_first_false (h : Reachable nc ni l o) (hn : ∀ op ∈ l, op.com? = none) (c : V3) : o.setCenterOfMass c = .assertFail := by
  unfold setCenterOfMass
  dsimp only
  rw [show o.startNewIteration.com = o.com from congrArg Inputs.com (start_inputs o), (never_com h hn).1]
  rfl

/-- **C110** fails for the first values of the other inputs: they are differentiated with values that nobody gave, zero for the angular momentum and the velocity
of the centre of mass, the identity for the inertia, taken as those of the iteration 0. A constant momentum, velocity or inertia gets a derivative that is not
zero. -/
theorem C110_constant_false (h : Reachable nc ni l o) (hdt : o.dt ≠ 0) :
    (∀ s, (∀ op ∈ l, op.momentum? = none) → ∃ o', o.setAngularMomentum s = .ok o' ∧ ∃ i, o'.sigmad = some ((1 / (o.dt * (iteration (l ++ [.setAngularMomentum s]) : ℝ))) • s, i)) ∧
    (∀ I, (∀ op ∈ l, op.inertia? = none) → ∃ o', o.setInertiaMatrix I = .ok o' ∧ ∃ i, o'.inertiad = some ((1 / (o.dt * (iteration (l ++ [.setInertiaMatrix I]) : ℝ))) • (I - 1), i)) ∧
    (∀ c d, (∀ op ∈ l, op.com? = none) → ∃ o', o.setCenterOfMass2 c d = .ok o' ∧ ∃ i, o'.comdd = some ((1 / (o.dt * (iteration (l ++ [.setCenterOfMass2 c d]) : ℝ))) • d, i)) := by
  have e := start_inputs o
  have hpos : ∀ op : Op, op.BringsData → 0 < iteration (l ++ [op]) := fun op hb => by rw [iteration_data op hb]; omega
  refine ⟨fun s hn => ?_, fun I hn => ?_, fun c d hn => ?_⟩
  · have := derived_new (o := o.startNewIteration) (d := o.startNewIteration.sigmad) (v := s) (k := 0) ((congrArg Inputs.sigma e).trans (never_momentum h hn))
      (start_iteration h (.setAngularMomentum s) trivial) (hpos (.setAngularMomentum s) trivial) (by rw [start_dt]; exact hdt)
    rw [start_dt] at this
    simp only [Nat.cast_zero, _root_.sub_zero] at this
    exact ⟨_, Res.bind_eq_ok.2 ⟨_, this, rfl⟩, ⟨_, rfl⟩⟩
  · have := derived_new (o := o.startNewIteration) (d := o.startNewIteration.inertiad) (v := I) (k := 0) ((congrArg Inputs.inertia e).trans (never_inertia h hn))
      (start_iteration h (.setInertiaMatrix I) trivial) (hpos (.setInertiaMatrix I) trivial) (by rw [start_dt]; exact hdt)
    rw [start_dt] at this
    simp only [Nat.cast_zero, _root_.sub_zero] at this
    exact ⟨_, Res.bind_eq_ok.2 ⟨_, this, rfl⟩, ⟨_, rfl⟩⟩
  · have := derived_new (o := o.startNewIteration) (d := o.startNewIteration.comdd) (v := d) (k := 0) ((congrArg Inputs.comd e).trans (never_com h hn).2.1)
      (start_iteration h (.setCenterOfMass2 c d) trivial) (hpos (.setCenterOfMass2 c d) trivial) (by rw [start_dt]; exact hdt)
    rw [start_dt] at this
    simp only [Nat.cast_zero, _root_.sub_zero] at this
    exact ⟨_, Res.bind_eq_ok.2 ⟨_, this, rfl⟩, ⟨_, rfl⟩⟩

/-- **C110** fails for a value corrected in the same iteration: the value is replaced and the derivative is left, still computed with the value that was replaced. -/
theorem C110_corrected_false (h : Reachable nc ni l o) :
    (∀ s s0, GivenLast Op.momentum? l s0 (iteration (l ++ [.setAngularMomentum s])) →
      ∃ o', o.setAngularMomentum s = .ok o' ∧ (∃ i, o'.sigma = some (s, i)) ∧ o'.sigmad = o.sigmad) ∧
    (∀ I I0, GivenLast Op.inertia? l I0 (iteration (l ++ [.setInertiaMatrix I])) →
      ∃ o', o.setInertiaMatrix I = .ok o' ∧ (∃ i, o'.inertia = some (I, i)) ∧ o'.inertiad = o.inertiad) ∧
    (∀ c c0, GivenLast Op.com? l c0 (iteration (l ++ [.setCenterOfMass c])) →
      ∃ o', o.setCenterOfMass c = .ok o' ∧ (∃ i, o'.com = some (c, i)) ∧ o'.comd = o.comd ∧ o'.comdd = o.comdd) := by
  have e := start_inputs o
  refine ⟨fun s s0 hg => ?_, fun I I0 hg => ?_, fun c c0 hg => ?_⟩
  · have := derived_old (o := o.startNewIteration) (d := o.startNewIteration.sigmad) (v := s) ((congrArg Inputs.sigma e).trans (given_momentum h hg))
      (start_iteration h (.setAngularMomentum s) trivial)
    exact ⟨_, Res.bind_eq_ok.2 ⟨_, this, rfl⟩, ⟨_, rfl⟩, congrArg Inputs.sigmad e⟩
  · have := derived_old (o := o.startNewIteration) (d := o.startNewIteration.inertiad) (v := I) ((congrArg Inputs.inertia e).trans (given_inertia h hg))
      (start_iteration h (.setInertiaMatrix I) trivial)
    exact ⟨_, Res.bind_eq_ok.2 ⟨_, this, rfl⟩, ⟨_, rfl⟩, congrArg Inputs.inertiad e⟩
  · refine ⟨{ o.startNewIteration with com := some (c, o.startNewIteration.kData) }, Res.bind_eq_ok.2 ⟨(c0, ((iteration (l ++ [.setCenterOfMass c]) : ℕ) : Int)), ?_, ?_⟩,
      ⟨_, rfl⟩, congrArg Inputs.comd e, congrArg Inputs.comdd e⟩
    · rw [show o.startNewIteration.com = o.com from congrArg Inputs.com e, given_com h hg]; rfl
    · dsimp only
      rw [if_neg (by rw [start_iteration h (.setCenterOfMass c) trivial]; simp)]

/-! ## A client -/

theorem last_of_none {α : Type} (f : Op → Option α) (a : α) (l : List Op) (h : ∀ q ∈ l, f q = none) : last f a l = a := by
  induction l with
  | nil => rfl
  | cons q l ih => rw [last, h q (.head _)]; exact ih fun q hq => h q (.tail _ hq)

/-- The hypotheses are met: after any number `T > 0` of iterations of the client of C84, which gave the centre of mass once, before the first. The velocity and the
acceleration computed then. -/
theorem C110_example (hnc : 0 < nc) (hni : 0 < ni) (T : ℕ) (hT : 0 < T) (c : V3) :
    ∃ l o o', Reachable nc ni l o ∧ GivenLast Op.com? l 0 1 ∧ iteration (l ++ [.setCenterOfMass c]) = T + 1 ∧ o.dt = 1e-6 ∧ o.setCenterOfMass c = .ok o' ∧
      (∃ i, o'.comd = some ((1 / (1e-6 * (T : ℝ))) • c, i)) ∧ ∃ i, o'.comdd = some ((1 / (1e-6 * (T : ℝ))) • (1 / (1e-6 * (T : ℝ))) • c, i) := by
  obtain ⟨o0, o, h0, h1, ht⟩ := C84_estimates hnc hni T
  have hr : Reachable nc ni (exampleStart nc ni ++ (List.replicate T exampleIteration).flatten) o := ⟨o0, h0, h1⟩
  obtain ⟨l, hl⟩ : ∃ l, l = exampleStart nc ni ++ (List.replicate T exampleIteration).flatten := ⟨_, rfl⟩
  have hmem : ∀ q ∈ (List.replicate T exampleIteration).flatten, q ∈ exampleIteration := by
    intro q hq
    obtain ⟨m, hm, hq⟩ := List.mem_flatten.1 hq
    rwa [List.eq_of_mem_replicate hm] at hq
  have hl' : l = [] ++ .setCenterOfMass3 0 0 0 :: l.tail := by rw [hl]; rfl
  have hn : ∀ q ∈ l.tail, q.com? = none := by
    intro q hq
    rw [hl] at hq
    simp only [exampleStart, List.cons_append, List.nil_append, List.tail_cons, List.mem_cons] at hq
    rcases hq with rfl | rfl | hq
    · rfl
    · rfl
    · have := hmem q hq
      simp only [exampleIteration, List.mem_cons, List.not_mem_nil, or_false] at this
      rcases this with rfl | rfl | rfl <;> rfl
  have hg : GivenLast Op.com? l 0 1 := ⟨[], .setCenterOfMass3 0 0 0, l.tail, hl', rfl, hn, iteration_data (.setCenterOfMass3 0 0 0) trivial []⟩
  rw [← hl] at hr
  have hit : iteration (l ++ [.setCenterOfMass c]) = T + 1 := by
    rw [iteration_data (.setCenterOfMass c) trivial]
    have h2 := (C58_clock hr).2
    rw [ht] at h2
    have h3 := (clock_reachable hr).1
    have : (T : Int) = o.kEst := Res.ok.inj h2
    omega
  have hq : ∀ q ∈ l, ∀ dt, q ≠ .setSamplingTime dt := by
    intro q hq dt
    rw [hl, List.mem_append] at hq
    rcases hq with hq | hq
    · simp only [exampleStart, List.mem_cons, List.not_mem_nil, or_false] at hq
      rcases hq with rfl | rfl | rfl <;> simp
    · have := hmem q hq
      simp only [exampleIteration, List.mem_cons, List.not_mem_nil, or_false] at this
      rcases this with rfl | rfl | rfl <;> simp
  have hdt : o.dt = 1e-6 := by
    rw [(C105_settings hr).1]
    refine last_of_none _ _ _ fun q hq' => ?_
    cases q <;> first | rfl | exact absurd rfl (hq _ hq' _)
  obtain ⟨o', v0, v, e1, ⟨i, e2⟩, e3, -, e4, e5⟩ := C110_com_partial hr (c := c) hg (by omega) (by rw [hdt]; norm_num)
  have hv0 : v0 = 0 := by
    rw [hl'] at hr
    obtain ⟨o1, o2, -, e6, -, e7⟩ := reachable_cut hr
    have := kept_run (·.comd) (fun q => q.com? = none) (fun p p' op hq e => (kept_com hq e).2.1) l.tail o2 o hn e7
    rw [e2] at this
    cases e6
    exact (Prod.mk.inj (Option.some.inj this)).1
  subst e3 hv0
  rw [hit, hdt] at e4 e5
  simp only [Nat.cast_add, Nat.cast_one, add_sub_cancel_right, _root_.sub_zero] at e4 e5
  exact ⟨l, o, o', hr, hg, hit, hdt, e1, e4, e5⟩

end StateObs.KO
