import Verif.Elastic.JacLemmas
/-! # C92: the Jacobians of the robot on elastic contacts -/

namespace StateObs.Elastic
open StateObs Matrix Rot Kine Imu
open StateObs.KO (Robot at3)

variable {G : Type}

/-- The parts of the state that the system estimates: the motion and the contact wrenches (0 to 23), and, only if the user asks for them, the forces that are not modelled
(24 to 29), the bias of the centre of mass (30, 31) and the drift (32 to 34). -/
def Estimated (s : Sys G) (i : ℕ) : Prop :=
  i < 24 ∨ (24 ≤ i ∧ i < 30 ∧ s.withUnmodeled = true) ∨ (30 ≤ i ∧ i < 32 ∧ s.withBias = true) ∨ (32 ≤ i ∧ s.withAbs = true)

theorem active_iff (s : Sys G) (i : ℕ) : s.active i = true ↔ Estimated s i := by
  unfold Sys.active Estimated
  split_ifs with h1 h2 h3
  · simp [h1]
  · constructor
    · intro h; right; left; exact ⟨by omega, h2, h⟩
    · rintro (h | h | h | h)
      · omega
      · exact h.2.2
      · omega
      · omega
  · constructor
    · intro h; right; right; left; exact ⟨by omega, h3, h⟩
    · rintro (h | h | h | h)
      · omega
      · omega
      · exact h.2.2
      · omega
  · constructor
    · intro h; right; right; right; exact ⟨by omega, h⟩
    · rintro (h | h | h | h)
      · omega
      · omega
      · omega
      · exact h.2

theorem forall₂_finRange {α : Type} {P : Fin 35 → α → Prop} {J : List α} (h : List.Forall₂ P (List.finRange 35) J) : J.length = 35 ∧ ∀ i : Fin 35, ∃ c, J[i.val]? = some c ∧ P i c := by
  have hl := h.length_eq
  rw [List.length_finRange] at hl
  refine ⟨hl.symm, fun i => ⟨J[i.val]'(by omega), List.getElem?_eq_getElem _, ?_⟩⟩
  have := List.forall₂_iff_get.1 h
  have h2 := this.2 i.val (by simp) (by omega)
  simpa using h2

/-- What a call of `stateDynamicsJacobian` after a call of `stateDynamics` does. -/
theorem stateJac_ok {s s1 s2 : Sys G} {x u y : DVec} {g g2 : G} {J} (hi : Inv s) (hn : s.noise = none) (h : s.stateDynamics x u g = .ok (y, s1, g))
    (hJ : s1.stateDynamicsJacobian g = .ok (J, s2, g2)) :
    List.Forall₂ (StateColumn s x u y g) (List.finRange 35) J ∧ g2 = g ∧ Same s2 s ∧ RotOK s2.rot ∧ s2.uk = u ∧ s2.xk = x ∧ s2.xk1 = y := by
  obtain ⟨hx, hu⟩ := stateDynamics_sizes h
  obtain ⟨-, s1', e, a1, a2, a3, a4, a5, -⟩ := step_congr (Same.refl s) hi.rot hi.rot hn h g
  rw [h] at e
  cases e
  unfold Sys.stateDynamicsJacobian at hJ
  split_ifs at hJ with hk
  simp only [Res.bind_eq_ok] at hJ
  obtain ⟨⟨J', t, g'⟩, e1, e2⟩ := hJ
  cases e2
  have ex : (s1.xk.val ∘ Fin.cast hk.symm : Fin 35 → ℝ) = cast x 35 hx := by
    subst a4
    rfl
  subst a5
  rw [ex] at e1
  have hS : Same { s1 with opXk1 := s1.xk1 } s := by
    have := a1
    cases this
    constructor <;> assumption
  obtain ⟨b1, rfl, b2, b3, b4, b5, -⟩ := stateColumns_ok (g := g) hi.rot hn _ hS (by exact a2) (by exact a3) e1
  refine ⟨b1, rfl, ?_, b3, b4, a4, b5⟩
  have := b2
  cases this
  constructor <;> assumption

/-- **C92**, dynamics: without process noise, the Jacobian asked after a call of `stateDynamics` has 35 columns. The column of a part of the state that is estimated is the
difference between what `stateDynamics` returns for the state with the step added to this part and what it has returned, divided by the step; the other columns are those of the
identity matrix. -/
theorem C92_state (dt : ℝ) (g g1 g2 : G) (ops : List (Op G)) (s s1 s2 : Sys G) (x u y : DVec) (J) (hr : run dt g ops = .ok (s, g1)) (hn : s.noise = none)
    (h : s.stateDynamics x u g1 = .ok (y, s1, g1)) (hJ : s1.stateDynamicsJacobian g1 = .ok (J, s2, g2)) :
    J.length = 35 ∧ ∀ i : Fin 35, ∃ c, J[i.val]? = some c ∧
      (Estimated s i → at1 s.dx i ≠ 0 ∧ ∃ z s', s.stateDynamics (bump x i (at1 s.dx i)) u g1 = .ok (z, s', g1) ∧ ∀ j : Fin 35, c j = (at1 z j - at1 y j) / at1 s.dx i) ∧
      (¬ Estimated s i → ∀ j, c j = if j = i then 1 else 0) := by
  obtain ⟨h1, -⟩ := stateJac_ok (run_inv hr) hn h hJ
  obtain ⟨hl, hc⟩ := forall₂_finRange h1
  refine ⟨hl, fun i => ?_⟩
  obtain ⟨c, e, hc⟩ := hc i
  refine ⟨c, e, fun hE => ?_, fun hE j => ?_⟩
  · unfold StateColumn at hc
    rw [if_pos ((active_iff s i).2 hE)] at hc
    obtain ⟨-, hd, -, z, s', e, -, hc⟩ := hc
    exact ⟨hd, z, s', e, hc⟩
  · unfold StateColumn at hc
    rw [if_neg (fun h => hE ((active_iff s i).1 h))] at hc
    rw [hc, Pi.single_apply]

/-- **C92**, again: asked again, the Jacobian of the dynamics is the same, and the state and the input that it is about have not changed. -/
theorem C92_state_again (dt : ℝ) (g g1 g2 : G) (ops : List (Op G)) (s s1 s2 : Sys G) (x u y : DVec) (J) (hr : run dt g ops = .ok (s, g1)) (hn : s.noise = none)
    (h : s.stateDynamics x u g1 = .ok (y, s1, g1)) (hJ : s1.stateDynamicsJacobian g1 = .ok (J, s2, g2)) :
    g2 = g1 ∧ ∃ s3, s2.stateDynamicsJacobian g2 = .ok (J, s3, g2) := by
  have hi := run_inv hr
  obtain ⟨hx, hu⟩ := stateDynamics_sizes h
  obtain ⟨h1, rfl, hS, hR, a1, a2, a3⟩ := stateJac_ok hi hn h hJ
  refine ⟨rfl, ?_⟩
  subst a3
  have hS' : Same { s2 with opXk1 := s2.xk1 } s := by
    have := hS
    cases this
    constructor <;> assumption
  obtain ⟨t, ht⟩ := stateColumns_live (hx := hx) hi.rot hn _ _ hS' (by exact hR) (by exact a1) h1 g2
  have hk : s2.xk.size = 35 := by rw [a2]; exact hx
  have ex : (s2.xk.val ∘ Fin.cast hk.symm : Fin 35 → ℝ) = cast x 35 hx := by
    subst a2
    rfl
  unfold Sys.stateDynamicsJacobian
  rw [dif_pos hk]
  simp only [ex, ht, Res.ok_bind]
  exact ⟨_, rfl⟩

/-- **C92**, return: the Jacobian of the dynamics is computed if the steps are not null and each perturbed state has a next one. -/
theorem C92_state_return (dt : ℝ) (g g1 : G) (ops : List (Op G)) (s s1 : Sys G) (x u y : DVec) (hr : run dt g ops = .ok (s, g1)) (hn : s.noise = none)
    (h : s.stateDynamics x u g1 = .ok (y, s1, g1)) (hd : s.dx.size = 35) (h0 : ∀ i : Fin 35, Estimated s i → at1 s.dx i ≠ 0)
    (hz : ∀ i : Fin 35, Estimated s i → ∃ z s', s.stateDynamics (bump x i (at1 s.dx i)) u g1 = .ok (z, s', g1)) : ∃ J s2, s1.stateDynamicsJacobian g1 = .ok (J, s2, g1) := by
  have hi := run_inv hr
  obtain ⟨hx, hu⟩ := stateDynamics_sizes h
  obtain ⟨-, s1', e, a1, a2, a3, a4, a5, -⟩ := step_congr (Same.refl s) hi.rot hi.rot hn h g1
  rw [h] at e
  cases e
  have size : ∀ {x y s'}, s.stateDynamics x u g1 = .ok (y, s', g1) → y.size = 35 := by
    intro x y s' h
    obtain ⟨a, α, t, w, R, -, -, -, -, rfl⟩ := step_ok hi hn h
    rfl
  have hc : ∀ i : Fin 35, ∃ c, StateColumn s x u y g1 i c := by
    intro i
    unfold StateColumn
    by_cases ha : s.active i = true
    · have hE := (active_iff s i).1 ha
      obtain ⟨z, s', e⟩ := hz i hE
      simp only [if_pos ha]
      exact ⟨fun j => (at1 z j - at1 y j) / at1 s.dx i, by rw [hd]; exact i.2, h0 i hE, size h, z, s', e, size e, fun j => rfl⟩
    · simp only [if_neg ha]
      exact ⟨_, rfl⟩
  choose c hc using hc
  have hF : List.Forall₂ (StateColumn s x u y g1) (List.finRange 35) ((List.finRange 35).map c) := by
    rw [List.forall₂_map_right_iff]
    exact List.forall₂_same.2 fun i _ => hc i
  subst a5
  have hS' : Same { s1 with opXk1 := s1.xk1 } s := by
    have := a1
    cases this
    constructor <;> assumption
  obtain ⟨t, ht⟩ := stateColumns_live (hx := hx) hi.rot hn _ _ hS' (by exact a2) (by exact a3) hF g1
  have hk : s1.xk.size = 35 := by rw [a4]; exact hx
  have ex : (s1.xk.val ∘ Fin.cast hk.symm : Fin 35 → ℝ) = cast x 35 hx := by
    subst a4
    rfl
  unfold Sys.stateDynamicsJacobian
  rw [dif_pos hk]
  simp only [ex, ht, Res.ok_bind]
  exact ⟨_, _, rfl⟩

/-! ## Parts that are not estimated -/

theorem setSeg_agree {n N : ℕ} {x x' : Fin N → ℝ} {k : Fin N} (h : x k = x' k) (i : ℕ) (v : Fin n → ℝ) : setSeg x i v k = setSeg x' i v k := by
  unfold setSeg
  split_ifs
  · rfl
  · exact h

theorem seg_bump (x : DVec) (hx : x.size = 35) (i : ℕ) (d : ℝ) (n j : ℕ) (h : j + n ≤ i ∨ i < j) : seg n (cast (bump x i d) 35 hx) j = seg n (cast x 35 hx) j := by
  funext a
  have ha := a.isLt
  unfold seg
  split_ifs with hj
  · show (if _ = i then _ else _) = _
    rw [if_neg]
    · rfl
    · show ¬ (j + a.val = i)
      omega
  · rfl

/-- The next state, when a part of the state that acts on nothing changes. -/
theorem step_bump {s s' : Sys G} {x u y : DVec} {g g' : G} {i : ℕ} (hi : Inv s) (hn : s.noise = none) (h : s.stateDynamics x u g = .ok (y, s', g'))
    (h30 : 30 ≤ i) (hb : i < 32 → s.withBias = false) (d : ℝ) : ∃ s'', s.stateDynamics (bump x i d) u g = .ok (bump y i d, s'', g) := by
  obtain ⟨hx, hu⟩ := stateDynamics_sizes h
  have hx' : (bump x i d).size = 35 := hx
  obtain ⟨rt, -, e⟩ := stateDynamics_eq hi.rot x u g hx hu
  obtain ⟨rt', -, e'⟩ := stateDynamics_eq hi.rot (bump x i d) u g hx' hu
  rw [e] at h
  obtain ⟨w, hw, h⟩ := Res.bind_eq_ok.1 h
  unfold Sys.finish at h
  rw [hn] at h
  cases h
  have hbias : s.biased (cast (bump x i d) 35 hx') (readInput s.nb (cast u _ hu)) = s.biased (cast x 35 hx) (readInput s.nb (cast u _ hu)) := by
    rw [biased_eq, biased_eq]
    have : bias s (bump x i d) = bias s x := by
      unfold bias
      split_ifs with hB
      · have h32 : 32 ≤ i := by
          by_contra hc
          rw [hb (by omega)] at hB
          cases hB
        have e1 : ∀ j, j < 32 → at1 (bump x i d) j = at1 x j := fun j hj => by
          unfold at1
          have hj' : j < x.size := by rw [hx]; omega
          rw [dif_pos hj', dif_pos (show j < (bump x i d).size from hj')]
          show (if j = i then _ else _) = _
          rw [if_neg (by omega)]
          rfl
        rw [e1 30 (by norm_num), e1 31 (by norm_num)]
      · rfl
    rw [this]
  have hE : s.readEfforts (cast (bump x i d) 35 hx') = s.readEfforts (cast x 35 hx) := by
    unfold Sys.readEfforts
    have : ∀ j : Fin 2, seg 3 (cast (bump x i d) 35 hx') (iFc + 6 * j.val) = seg 3 (cast x 35 hx) (iFc + 6 * j.val) ∧
        seg 3 (cast (bump x i d) 35 hx') (iFc + 6 * j.val + 3) = seg 3 (cast x 35 hx) (iFc + 6 * j.val + 3) := fun j => by
      have := j.isLt
      have : iFc = 12 := rfl
      exact ⟨seg_bump x hx i d 3 _ (by omega), seg_bump x hx i d 3 _ (by omega)⟩
    simp only [this]
  have hseg : ∀ j, j + 3 ≤ 30 → seg 3 (cast (bump x i d) 35 hx') j = seg 3 (cast x 35 hx) j := fun j hj => seg_bump x hx i d 3 _ (by omega)
  unfold Sys.stepPure at hw
  obtain ⟨v, hv, hw⟩ := Res.bind_eq_ok.1 hw
  have hp : s.stepPure (cast (bump x i d) 35 hx') (s.biased (cast (bump x i d) 35 hx') (readInput s.nb (cast u _ hu))) =
      .ok (nextVector s.withUnmodeled (cast (bump x i d) 35 hx') v.1.1 v.1.2.1 v.1.2.2.1 v.1.2.2.2 v.2.1 v.2.2, v.2.1, v.2.2) := by
    unfold Sys.stepPure
    rw [hbias, hE, hseg iPos (by norm_num [iPos]), hseg iOri (by norm_num [iOri]), hseg iLinVel (by norm_num [iLinVel]), hseg iAngVel (by norm_num [iAngVel]),
      hseg iUnmodeled (by norm_num [iUnmodeled]), hseg (iUnmodeled + 3) (by norm_num [iUnmodeled])]
    exact (congrArg (fun r => Res.bind r _) hv).trans rfl
  cases hw
  rw [e', hp]
  simp only [Res.bind, Sys.finish]
  rw [hn]
  have hvec : (⟨35, nextVector s.withUnmodeled (cast (bump x i d) 35 hx') v.1.1 v.1.2.1 v.1.2.2.1 v.1.2.2.2 v.2.1 v.2.2⟩ : DVec) =
      bump ⟨35, nextVector s.withUnmodeled (cast x 35 hx) v.1.1 v.1.2.1 v.1.2.2.1 v.1.2.2.2 v.2.1 v.2.2⟩ i d := by
    refine congrArg (fun v : Fin 35 → ℝ => (⟨35, v⟩ : DVec)) (funext fun j => ?_)
    by_cases hj : j.val = i
    · show _ = if j.val = i then _ else _
      rw [if_pos hj]
      have n1 := (next_parts s.withUnmodeled (cast (bump x i d) 35 hx') v.1.1 v.1.2.1 v.1.2.2.1 v.1.2.2.2 v.2.1 v.2.2).2.2.2.2.2.2.2.2.2.2 j (by omega)
      have n2 := (next_parts s.withUnmodeled (cast x 35 hx) v.1.1 v.1.2.1 v.1.2.2.1 v.1.2.2.2 v.2.1 v.2.2).2.2.2.2.2.2.2.2.2.2 j (by omega)
      rw [n1]
      show _ = nextVector _ _ _ _ _ _ _ _ j + d
      rw [n2]
      show (if j.val = i then _ else _) = _
      rw [if_pos hj]
      rfl
    · show _ = if j.val = i then _ else _
      rw [if_neg hj]
      have hxj : cast (bump x i d) 35 hx' j = cast x 35 hx j := by
        show (if j.val = i then _ else _) = _
        rw [if_neg hj]
        rfl
      unfold nextVector
      simp only [hseg iUnmodeled (by norm_num [iUnmodeled]), hseg (iUnmodeled + 3) (by norm_num [iUnmodeled])]
      split_ifs <;> (repeat apply setSeg_agree) <;> exact hxj
  rw [← hvec]
  exact ⟨_, rfl⟩

/-- **C92**, exact: the columns of the identity matrix for the bias and the drift that are not estimated are exact: changing these parts changes the same parts of the next
state by as much, and nothing else. (The drift in any case.) -/
theorem C92_state_exact (dt : ℝ) (g g1 g2 : G) (ops : List (Op G)) (s s1 : Sys G) (x u y : DVec) (hr : run dt g ops = .ok (s, g1)) (hn : s.noise = none)
    (h : s.stateDynamics x u g1 = .ok (y, s1, g2)) (i : ℕ) (h30 : 30 ≤ i) (hb : i < 32 → s.withBias = false) (d : ℝ) :
    ∃ s', s.stateDynamics (bump x i d) u g1 = .ok (bump y i d, s', g1) := step_bump (run_inv hr) hn h h30 hb d

/-- **C92**, forces that are not modelled: their columns are those of the identity matrix when they are not estimated, although the next state does not keep them: the true
finite difference on the diagonal is null, whatever the step. -/
theorem C92_unmodeled_false (dt : ℝ) (g g1 g2 g3 : G) (ops : List (Op G)) (s s1 s2 s' : Sys G) (x u y z : DVec) (J) (hr : run dt g ops = .ok (s, g1)) (hn : s.noise = none)
    (h : s.stateDynamics x u g1 = .ok (y, s1, g1)) (hJ : s1.stateDynamicsJacobian g1 = .ok (J, s2, g2)) (hw : s.withUnmodeled = false) (i : Fin 35) (h24 : 24 ≤ i.val) (h30 : i.val < 30)
    (d : ℝ) (hz : s.stateDynamics (bump x i d) u g1 = .ok (z, s', g3)) : ∃ c, J[i.val]? = some c ∧ c i = 1 ∧ (at1 z i - at1 y i) / d = 0 := by
  have hi := run_inv hr
  obtain ⟨-, hc⟩ := C92_state dt g g1 g2 ops s s1 s2 x u y J hr hn h hJ
  obtain ⟨c, e, -, hc⟩ := hc i
  refine ⟨c, e, ?_, ?_⟩
  · rw [hc (by rintro (h | h | h | h) <;> [omega; (rw [hw] at h; cases h.2.2); omega; omega]), if_pos rfl]
  · have e0 : ∀ {x y t k}, s.stateDynamics x u g1 = .ok (y, t, k) → at1 y i = 0 := by
      intro x y t k h
      obtain ⟨a, α, t, w, R, -, -, -, hx, rfl⟩ := step_ok hi hn h
      rw [at1_eq, hw]
      unfold nextVector
      simp only [Bool.false_eq_true, if_false]
      unfold setSeg
      rw [dif_pos ⟨h24, by show i.val < 24 + 6; omega⟩]
      rfl
    rw [e0 h, e0 hz]
    simp

/-! ## Measurement -/

theorem measJac_ok {s s1 s2 : Sys G} {x u y : DVec} {k : Int} {g g2 : G} {J} (hi : Inv s) (hn : s.sensor.noise = none) (h : s.measureDynamics x u k g = .ok (y, s1, g))
    (hJ : s1.measureDynamicsJacobian g = .ok (J, s2, g2)) :
    List.Forall₂ (MeasColumn s x u y k g) (List.finRange 35) J ∧ g2 = g ∧ Same s2 s ∧ Inv s2 ∧ s2.efforts = true ∧ s2.ukY = u ∧ s2.opK = k ∧ s2.xkY = x ∧ s2.yk = y := by
  obtain ⟨hx, hu, he⟩ := measureDynamics_sizes h
  obtain ⟨-, s1', e, a1, a2, a3, a4, a5, a6, a7⟩ := meas_congr (Same.refl s) hi hi he hn h k g
  rw [h] at e
  cases e
  unfold Sys.measureDynamicsJacobian at hJ
  split_ifs at hJ with hk
  simp only [Res.bind_eq_ok] at hJ
  obtain ⟨⟨J', t, g'⟩, e1, e2⟩ := hJ
  cases e2
  have ex : (s1.xkY.val ∘ Fin.cast hk.symm : Fin 35 → ℝ) = cast x 35 hx := by
    subst a4
    rfl
  subst a7
  rw [ex] at e1
  obtain ⟨b1, rfl, b2, b3, b4, b5, b6⟩ := measureColumns_ok (g := g) hi he hn _ a1 a2 a3 a5 a6 e1
  refine ⟨b1, rfl, ?_, ?_, b4, b5, b6, a4, rfl⟩
  · have := b2
    cases this
    constructor <;> assumption
  · have := b3
    cases this
    constructor <;> assumption

/-- **C92**, measurement: without noise on the sensor, the Jacobian asked after a call of `measureDynamics` has 35 columns of the size of the measurement. The column of a part of
the state that is estimated is the difference between the measurements for the state with the step added to this part and for the state, divided by the step; the other columns are
null. -/
theorem C92_measure (dt : ℝ) (g g1 g2 : G) (ops : List (Op G)) (s s1 s2 : Sys G) (x u y : DVec) (k : Int) (J) (hr : run dt g ops = .ok (s, g1)) (hn : s.sensor.noise = none)
    (h : s.measureDynamics x u k g1 = .ok (y, s1, g1)) (hJ : s1.measureDynamicsJacobian g1 = .ok (J, s2, g2)) :
    J.length = 35 ∧ ∀ i : Fin 35, ∃ c, J[i.val]? = some c ∧ c.size = y.size ∧
      (Estimated s i → at1 s.dx i ≠ 0 ∧ ∃ z s', s.measureDynamics (bump x i (at1 s.dx i)) u k g1 = .ok (z, s', g1) ∧
        ∀ j, j < y.size → at1 c j = (at1 z j - at1 y j) / at1 s.dx i) ∧
      (¬ Estimated s i → ∀ j, at1 c j = 0) := by
  obtain ⟨h1, -⟩ := measJac_ok (run_inv hr) hn h hJ
  obtain ⟨hl, hc⟩ := forall₂_finRange h1
  have hy := (C91_size dt g g1 g1 ops s s1 x u y k hr hn h).2
  refine ⟨hl, fun i => ?_⟩
  obtain ⟨c, e, hs, hc⟩ := hc i
  refine ⟨c, e, hs.trans hy.symm, fun hE => ?_, fun hE j => ?_⟩
  · rw [if_pos ((active_iff s i).2 hE)] at hc
    obtain ⟨-, hd, -, z, s', e, -, hc⟩ := hc
    exact ⟨hd, z, s', e, fun j hj => hc j (by rw [← hy]; exact hj)⟩
  · rw [if_neg (fun h => hE ((active_iff s i).1 h))] at hc
    exact hc j

/-- **C92**, again: asked again, the Jacobian of the measurement is the same. -/
theorem C92_measure_again (dt : ℝ) (g g1 g2 : G) (ops : List (Op G)) (s s1 s2 : Sys G) (x u y : DVec) (k : Int) (J) (hr : run dt g ops = .ok (s, g1))
    (hn : s.sensor.noise = none) (h : s.measureDynamics x u k g1 = .ok (y, s1, g1)) (hJ : s1.measureDynamicsJacobian g1 = .ok (J, s2, g2)) :
    g2 = g1 ∧ ∃ s3, s2.measureDynamicsJacobian g2 = .ok (J, s3, g2) := by
  have hi := run_inv hr
  obtain ⟨hx, hu, he⟩ := measureDynamics_sizes h
  obtain ⟨h1, rfl, hS, hI, a0, a1, a2, a3, a4⟩ := measJac_ok hi hn h hJ
  refine ⟨rfl, ?_⟩
  subst a4
  obtain ⟨t, ht⟩ := measureColumns_live (hx := hx) hi he hn _ _ h1 s2 hS hI a0 a1 a2 g2
  have hk : s2.xkY.size = 35 := by rw [a3]; exact hx
  have ex : (s2.xkY.val ∘ Fin.cast hk.symm : Fin 35 → ℝ) = cast x 35 hx := by
    subst a3
    rfl
  unfold Sys.measureDynamicsJacobian
  rw [dif_pos hk]
  simp only [ex, ht, Res.ok_bind]
  exact ⟨_, rfl⟩

/-- **C92**, return: the Jacobian of the measurement is computed if the steps are not null and each perturbed state has a measurement. -/
theorem C92_measure_return (dt : ℝ) (g g1 : G) (ops : List (Op G)) (s s1 : Sys G) (x u y : DVec) (k : Int) (hr : run dt g ops = .ok (s, g1)) (hn : s.sensor.noise = none)
    (h : s.measureDynamics x u k g1 = .ok (y, s1, g1)) (hd : s.dx.size = 35) (h0 : ∀ i : Fin 35, Estimated s i → at1 s.dx i ≠ 0)
    (hz : ∀ i : Fin 35, Estimated s i → ∃ z s', s.measureDynamics (bump x i (at1 s.dx i)) u k g1 = .ok (z, s', g1)) : ∃ J s2, s1.measureDynamicsJacobian g1 = .ok (J, s2, g1) := by
  have hi := run_inv hr
  obtain ⟨hx, hu, he⟩ := measureDynamics_sizes h
  obtain ⟨-, s1', e, a1, a2, a3, a4, a5, a6, a7⟩ := meas_congr (Same.refl s) hi hi he hn h k g1
  rw [h] at e
  cases e
  have size : ∀ {x y s'}, s.measureDynamics x u k g1 = .ok (y, s', g1) → y.size = s.measSize := fun h => (C91_size dt g g1 g1 ops s _ _ u _ k hr hn h).2
  have hc : ∀ i : Fin 35, ∃ c, MeasColumn s x u y k g1 i c := by
    intro i
    unfold MeasColumn
    by_cases ha : s.active i = true
    · have hE := (active_iff s i).1 ha
      obtain ⟨z, s', e⟩ := hz i hE
      simp only [if_pos ha]
      exact ⟨⟨s.measSize, fun j => (at1 z j - at1 y j) / at1 s.dx i⟩, rfl, by rw [hd]; exact i.2, h0 i hE, size h, z, s', e, size e, fun j hj => at1_mk _ _ hj⟩
    · simp only [if_neg ha]
      exact ⟨⟨s.measSize, 0⟩, rfl, fun j => at1_zero _ _⟩
  choose c hc using hc
  have hF : List.Forall₂ (MeasColumn s x u y k g1) (List.finRange 35) ((List.finRange 35).map c) := by
    rw [List.forall₂_map_right_iff]
    exact List.forall₂_same.2 fun i _ => hc i
  subst a7
  obtain ⟨t, ht⟩ := measureColumns_live (hx := hx) hi he hn _ _ hF s1 a1 a2 a3 a5 a6 g1
  have hk : s1.xkY.size = 35 := by rw [a4]; exact hx
  have ex : (s1.xkY.val ∘ Fin.cast hk.symm : Fin 35 → ℝ) = cast x 35 hx := by
    subst a4
    rfl
  unfold Sys.measureDynamicsJacobian
  rw [dif_pos hk]
  simp only [ex, ht, Res.ok_bind]
  exact ⟨_, _, rfl⟩

theorem bump_null (x : DVec) (i : ℕ) : bump x i 0 = x := by
  unfold bump
  simp only [add_zero, ite_self]

/-- The robot of the examples with steps. -/
noncomputable def exJacOps : List (Op G) := exOps ++ [.setFDstep ⟨35, fun _ => 1 / 1000⟩]

noncomputable def exJacSys (dt : ℝ) : Sys G := { (exSys dt : Sys G) with dx := ⟨35, fun _ => 1 / 1000⟩ }

theorem exJac_run (dt : ℝ) (g : G) : run dt g exJacOps = .ok (exJacSys dt, g) := rfl

theorem exJac_step (dt : ℝ) (g : G) (i : ℕ) (d : ℝ) : ∃ y s', (exJacSys dt : Sys G).stateDynamics (bump exState i d) exInput g = .ok (y, s', g) :=
  C90_return dt g g exJacOps (exJacSys dt) (bump exState i d) exInput (exJac_run dt g) rfl rfl rfl (by show (2 : ℝ) ≠ 0; norm_num) rfl (by show 1 ≤ 2; norm_num) (ex_posDef (G := G) dt)

/-- **C92**, a case: the robot that an elastic contact pushes upwards; the Jacobian of the dynamics is computed. -/
theorem C92_state_example (dt : ℝ) (g : G) : ∃ s y s1 J s2, run dt g exJacOps = .ok (s, g) ∧ s.noise = none ∧ s.stateDynamics exState exInput g = .ok (y, s1, g) ∧
    s1.stateDynamicsJacobian g = .ok (J, s2, g) := by
  have hb : bump exState 0 0 = exState := bump_null _ _
  obtain ⟨y, s1, h⟩ := exJac_step dt g 0 0
  rw [hb] at h
  obtain ⟨J, s2, hJ⟩ := C92_state_return dt g g exJacOps (exJacSys dt) s1 exState exInput y (exJac_run dt g) rfl h rfl
    (fun i _ => by
      have : at1 (exJacSys dt : Sys G).dx i = 1 / 1000 := at1_mk _ _ i.2
      rw [this]
      norm_num) fun i _ => exJac_step dt g i _
  exact ⟨_, y, s1, J, s2, exJac_run dt g, rfl, h, hJ⟩

/-- **C92**, a case: and, after a call of `stateDynamics`, the Jacobian of the measurement. -/
theorem C92_measure_example (dt : ℝ) (g : G) (k : Int) : ∃ s y s1 J s2, run dt g (exJacOps ++ [.stateDynamics exState exInput]) = .ok (s, g) ∧ s.sensor.noise = none ∧
    s.measureDynamics exState exInput k g = .ok (y, s1, g) ∧ s1.measureDynamicsJacobian g = .ok (J, s2, g) := by
  have hb : bump exState 0 0 = exState := bump_null _ _
  obtain ⟨y, s1, h⟩ := exJac_step dt g 0 0
  rw [hb] at h
  have hi := run_inv (exJac_run (G := G) dt g)
  obtain ⟨-, t, e, hS, hR, -, -, -, -, he⟩ := step_congr (Same.refl _) hi.rot hi.rot rfl h g
  rw [h] at e
  cases e
  have hr : run dt g (exJacOps ++ [.stateDynamics exState exInput]) = .ok (s1, g) := by
    unfold run
    rw [List.foldlM_append]
    have := exJac_run (G := G) dt g
    unfold run at this
    rw [this]
    simp only [List.foldlM_cons, List.foldlM_nil, exec, Res.ok_bind, h]
    rfl
  have hI := run_inv hr
  have hn : s1.sensor.noise = none := hS.snoise
  have meas : ∀ i d, ∃ z s', s1.measureDynamics (bump exState i d) exInput k g = .ok (z, s', g) := by
    intro i d
    have hb : bias s1 (bump exState i d) = 0 := by unfold bias; rw [hS.withBias]; rfl
    obtain ⟨a, α, s', h⟩ := C87_return dt g g _ s1 (bump exState i d) exInput hr rfl (by rw [hS.nb]; rfl) (by rw [hS.mass]; show (2 : ℝ) ≠ 0; norm_num)
      (fun _ => by rw [hS.nb]; show 1 ≤ 2; norm_num) (by rw [hb, hS.mass]; exact ex_posDef (G := G) dt)
    obtain ⟨rt, -, e⟩ := computeAccelerations_eq hI.rot (bump exState i d) exInput rfl (by rw [hS.nb]; rfl)
    rw [e] at h
    obtain ⟨w, hw, -⟩ := Res.bind_eq_ok.1 h
    exact measure_live hI hn rfl (by rw [hS.nb]; rfl) he hw fun hf => by rw [hS.nb]; show 1 ≤ 3; norm_num
  obtain ⟨z, s2, hz⟩ := meas 0 0
  rw [hb] at hz
  obtain ⟨J, s3, hJ⟩ := C92_measure_return dt g g _ s1 s2 exState exInput z k hr hn hz (by rw [hS.dx]; rfl)
    (fun i _ => by
      have : at1 s1.dx i = 1 / 1000 := by rw [hS.dx]; exact at1_mk _ _ i.2
      rw [this]
      norm_num) fun i _ => meas i _
  exact ⟨s1, z, s2, J, s3, hr, hn, hz, hJ⟩

end StateObs.Elastic
