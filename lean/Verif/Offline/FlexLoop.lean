import Verif.Offline.FlexSpec
import Verif.Flex.PredictProps
/-! # The loop of the offline estimation of a flexibility -/

namespace StateObs.Offline
open StateObs KF Flex Matrix Imu EKF KFSpec Rot Kine

/-- The values `w` added to an array from time `i` on. -/
def app (i : Int) (w : List DVec) (a : IArr DVec) : IArr DVec := if w = [] then a else ⟨if a.v = [] then i else a.k, a.v ++ w⟩

theorem setValue_ready {a : IArr DVec} {i : Int} (h : Ready a i) (v : DVec) : a.setValue v i = .ok (app i [v] a) := by
  have h1 : a.checkIndex i = false := by
    rcases h with h | h
    · simp [IArr.checkIndex, h]
    · simp only [IArr.getNextIndex] at h
      simp [IArr.checkIndex, h]
  have h2 : a.checkNext i = true := by
    rcases h with h | h
    · simp [IArr.checkNext, h]
    · simp only [IArr.getNextIndex] at h
      simp [IArr.checkNext, h]
  simp [IArr.setValue, h1, h2, app]

theorem app_app (i : Int) (v : DVec) (w : List DVec) (a : IArr DVec) : app (i + 1) w (app i [v] a) = app i (v :: w) a := by
  by_cases h : w = [] <;> simp [app, h]

theorem ready_app {a : IArr DVec} {i : Int} (h : Ready a i) (v : DVec) : Ready (app i [v] a) (i + 1) := by
  refine Or.inr ?_
  simp only [app, IArr.getNextIndex]
  by_cases h0 : a.v = []
  · simp [h0]
  · have := h.resolve_left h0
    simp only [IArr.getNextIndex] at this
    simp [h0]
    omega

theorem holds_app {a : IArr DVec} {i : Int} (h : Ready a i) (w : List DVec) : Holds (app i w a) i w := by
  intro j hj
  have hw : w ≠ [] := by rintro rfl; simp at hj
  simp only [app, if_neg hw, IArr.get, IArr.checkIndex]
  by_cases h0 : a.v = []
  · simp [h0, hj]
    rw [show decide (0 < w.length) = true from decide_eq_true (by omega)]
    rfl
  · have := h.resolve_left h0
    simp only [IArr.getNextIndex] at this
    have e : (i + (j : Int) - a.k).toNat = a.v.length + j := by omega
    have hg : (a.v ++ w)[a.v.length + j]? = some w[j] := by simp [hj]
    simp only [if_neg h0, e, hg]
    have hl : a.v.length ≠ 0 := by simpa using h0
    have : (decide ((a.v ++ w).length > 0) && decide (a.k ≤ i + (j : Int)) && decide (a.k + ((a.v ++ w).length : ℕ) > i + (j : Int))) = true := by
      simp only [List.length_append, Bool.and_eq_true, decide_eq_true_eq]
      push_cast
      omega
    rw [this]
    rfl

/-- A pointer is null or can be written from time `i` on. -/
def OptReady (p : Option (IArr DVec)) (i : Int) : Prop := ∀ a, p = some a → Ready a i

theorem record_ok {p : Option (IArr DVec)} {i : Int} (h : OptReady p i) (v : DVec) : record p (.ok v) i = .ok (p.map (app i [v])) := by
  cases p with
  | none => rfl
  | some a =>
    simp only [record, Res.ok_bind, setValue_ready (h a rfl), Option.map_some]

theorem optReady_map {p : Option (IArr DVec)} {i : Int} (h : OptReady p i) (v : DVec) : OptReady (p.map (app i [v])) (i + 1) := by
  intro a ha
  cases p with
  | none => cases ha
  | some b =>
    cases ha
    exact ready_app (h b rfl) v

theorem map_app (i : Int) (v : DVec) (w : List DVec) (p : Option (IArr DVec)) : (p.map (app i [v])).map (app (i + 1) w) = p.map (app i (v :: w)) := by
  cases p with
  | none => rfl
  | some a => simp [app_app]

/-- The state of the estimator between two iterations. -/
structure Live (dt : ℝ) (c : List V3) (Q : Matrix (Fin 18) (Fin 18) ℝ) (R : Matrix (Fin (6 + 3 * c.length)) (Fin (6 + 3 * c.length)) ℝ)
    (x : Fin 18 → ℝ) (P : Matrix (Fin 18) (Fin 18) ℝ) (s : Fixed) : Prop where
  inv : Inv s
  fresh : Fresh s
  cov : Cov s
  dt : s.dtF = dt
  contacts : s.contacts = c
  q : s.ekf.st.q = ⟨18, 18, Q⟩
  r : s.ekf.st.r = ⟨_, _, R⟩
  x : s.ekf.x = some (⟨18, x⟩, s.k)
  pr : s.ekf.st.pr = ⟨18, 18, P⟩

theorem iteration {dt : ℝ} {c : List V3} {Q : Matrix (Fin 18) (Fin 18) ℝ} {R : Matrix (Fin (6 + 3 * c.length)) (Fin (6 + 3 * c.length)) ℝ}
    {x : Fin 18 → ℝ} {P : Matrix (Fin 18) (Fin 18) ℝ} {s : Fixed} (h : Live dt c Q R x P s) (u : Fin 15 → ℝ) (y : Fin 6 → ℝ) :
    let F := fun x => nextState .fixed dt (rotationVectorToQuaternion (seg 3 x iOri)) x 0
    let H := fun x => reading c x u
    let A := forwardDiff F fdStep x
    let C := forwardDiff H fdStep (F x)
    let d := gain C R (predCov A Q P) *ᵥ (padded (6 + 3 * c.length) y - H (F x))
    let z := F x + d
    ∃ s1 s2, exec s (.setMeasurement ⟨6, y⟩) = .ok s1 ∧ exec s1 (.setMeasurementInput ⟨15, u⟩) = .ok s2 ∧
      (∀ o, regulateOrientationVector (seg 3 z 3) = .ok o → ∃ s3, exec s2 .getFlexibilityVector = .ok s3 ∧
        Live dt c Q R (setSeg z 3 o) (posterior C R (predCov A Q P)) s3 ∧ s3.lastX = ⟨18, setSeg z 3 o⟩ ∧ s3.ekf.st.innovation = ⟨18, d⟩ ∧
        val s3.ekf.st.ybar = .ok ⟨_, H (F x)⟩) ∧
      (regulateOrientationVector (seg 3 z 3) = .ub → exec s2 .getFlexibilityVector = .ub) := by
  obtain ⟨hi, hf, hc, rfl, rfl, hq, hr, hx, hP⟩ := h
  intro F H A C d z
  have e1 := setMeas_live hi y
  have hi1 := inv_exec hi _ e1
  have hf1 := fresh_exec hi hf _ (by simp [Op.Predicts]) e1
  have hc1 := cov_exec hi hc _ (by simp [Op.Admissible]) e1
  obtain ⟨a, e2⟩ := setMeasInput_live hi1 u
  have hi2 := inv_exec hi1 _ e2
  have hf2 := fresh_exec hi1 hf1 _ (by simp [Op.Predicts]) e2
  have hc2 := cov_exec hi1 hc1 _ (by simp [Op.Admissible]) e2
  have hP' : P.PosSemidef := by
    obtain ⟨P0, h0, h1⟩ := hc.pr
    rw [h0] at hP
    cases hP
    exact h1
  have hQ' : Q.PosSemidef := by
    have := hc.q
    rw [← hi.q, hq, isPSD_mk] at this
    exact this
  have hR' : R.PosDef := by have := hc.r hi; rw [hr, isPD_mk] at this; exact this
  have hv := getVector_live hi2 hf2 x P Q R hx hP hq hr hP' hQ' hR' a u rfl _ rfl
  refine ⟨_, _, e1, e2, fun o ho => ?_, fun ho => ?_⟩
  · have e3 := hv.trans (congrArg (fun r => Res.bind r _) ho)
    refine ⟨_, e3, ⟨inv_exec hi2 _ e3, fresh_exec hi2 hf2 _ (by simp [Op.Predicts]) e3, cov_exec hi2 hc2 _ (by simp [Op.Admissible]) e3, rfl, rfl, hq, hr,
      rfl, rfl⟩, rfl, rfl, rfl⟩
  · rw [hv]
    erw [ho]
    rfl

/-- The outputs after the reports `q`. -/
def Out.after {m : ℕ} (o : Out) (i : Int) (q : List (Report m)) : Out :=
  ⟨⟨o.xh.k, o.xh.v ++ q.map fun e => ⟨18, e.estimate⟩⟩, o.ino.map (app i (q.map fun e => ⟨18, e.correction⟩)),
    o.premea.map (app i (q.map fun e => ⟨m, e.predicted⟩))⟩

theorem map_app_nil (i : Int) (p : Option (IArr DVec)) : p.map (app i []) = p := by cases p <;> simp [app]

theorem loop_spec (ys us : IArr DVec) (dt : ℝ) (c : List V3) (Q : Matrix (Fin 18) (Fin 18) ℝ)
    (R : Matrix (Fin (6 + 3 * c.length)) (Fin (6 + 3 * c.length)) ℝ) : ∀ (l : List ((Fin 15 → ℝ) × (Fin 6 → ℝ))) (i : Int) (s : Fixed) (o : Out) (x) (P),
    Live dt c Q R x P s → (∀ j (h : j < l.length), ys.get (i + j) = .ok ⟨6, l[j].2⟩ ∧ us.get (i + j) = .ok ⟨15, l[j].1⟩) →
    OptReady o.ino i → OptReady o.premea i →
    ∃ r, FlexRun dt c Q R x P l r ∧ flexLoop ys us l.length i s o = (r >>= fun q => .ok (o.after i q))
  | [], i, s, o, x, P, _, _, _, _ => ⟨.ok [], .done x P, by simp [flexLoop, Out.after, map_app_nil]⟩
  | (u, y) :: l, i, s, o, x, P, hl, hg, h1, h2 => by
    obtain ⟨s1, s2, e1, e2, hok, hub⟩ := iteration hl u y
    have g0 := hg 0 (by simp)
    simp only [Nat.cast_zero, add_zero, List.getElem_cons_zero] at g0
    have hgt : ∀ j (h : j < l.length), ys.get (i + 1 + j) = .ok ⟨6, l[j].2⟩ ∧ us.get (i + 1 + j) = .ok ⟨15, l[j].1⟩ := by
      intro j h
      have := hg (j + 1) (by simpa using h)
      simp only [List.getElem_cons_succ, Nat.cast_add, Nat.cast_one] at this
      rwa [show i + 1 + (j : Int) = i + ((j : Int) + 1) by ring]
    set F := fun x => nextState .fixed dt (rotationVectorToQuaternion (seg 3 x iOri)) x 0 with hF
    set H := fun x => reading c x u with hH
    set z := F x + gain (forwardDiff H fdStep (F x)) R (predCov (forwardDiff F fdStep x) Q P) *ᵥ (padded (6 + 3 * c.length) y - H (F x)) with hz
    rcases le_or_gt (nrm (seg 3 z 3)) (Real.pi * (2 ^ 33 - 1)) with hn | hn
    · obtain ⟨w, hw, p1, p2, -⟩ := C42_partial _ hn
      obtain ⟨s3, e3, hl3, q1, q2, q3⟩ := hok w hw
      obtain ⟨r, hr, er⟩ := loop_spec ys us dt c Q R l (i + 1) s3
        ⟨o.xh.pushBack s3.lastX, o.ino.map (app i [s3.ekf.st.innovation]), o.premea.map (app i [⟨_, H (F x)⟩])⟩ _ _ hl3 hgt
        (optReady_map h1 _) (optReady_map h2 _)
      refine ⟨_, .step x P u y l r F H _ _ _ _ (setSeg z 3 w) (next_spec dt) (fun x => reading_spec c x u) rfl rfl rfl rfl ?_ ?_ ?_ hr, ?_⟩
      · intro j hj
        simp only [setSeg]
        rw [dif_neg (by omega)]
        rfl
      · rw [seg_setSeg_same _ _ _ (by decide)]; exact p1
      · rw [seg_setSeg_same _ _ _ (by decide)]; exact p2
      · simp only [List.length_cons, flexLoop, g0.1, g0.2, e1, e2, e3, Res.ok_bind, record_ok h1, q3, record_ok h2]
        rw [er]
        cases r with
        | ok q => simp [Out.after, IArr.pushBack, q1, q2, app_app, Function.comp_def]
        | assertFail => rfl
        | ub => rfl
        | exn => rfl
    · have ho : regulateOrientationVector (seg 3 z 3) = .ub := C42_false _ hn
      refine ⟨_, .tooLong x P u y l F H _ _ _ _ (next_spec dt) (fun x => reading_spec c x u) rfl rfl rfl rfl hn, ?_⟩
      simp only [List.length_cons, flexLoop, g0.1, g0.2, e1, e2, Res.ok_bind, hub ho]
      rfl

end StateObs.Offline
