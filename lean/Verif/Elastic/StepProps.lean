import Verif.Elastic.ForceProps
import Verif.Elastic.NewtonLive
import Verif.Rot.Props
/-! # C90: one step of the robot on elastic contacts -/

namespace StateObs.Elastic
open StateObs Matrix Rot Kine Imu
open StateObs.KO (Robot at3)

variable {G : Type}

theorem at3_mk (N : ℕ) (v : Fin N → ℝ) (i : ℕ) : at3 ⟨N, v⟩ i = seg 3 v i := rfl

theorem setSeg_out {n N : ℕ} (x : Fin N → ℝ) (i : ℕ) (v : Fin n → ℝ) (k : Fin N) (h : i + n ≤ k.val) : setSeg x i v k = x k := by
  unfold setSeg
  rw [dif_neg (by omega)]

/-- The parts of the new state vector. -/
theorem next_parts (b : Bool) (x : Fin 35 → ℝ) (p θ v ω : V3) (fc tc : Fin 2 → V3) :
    seg 3 (nextVector b x p θ v ω fc tc) 0 = p ∧ seg 3 (nextVector b x p θ v ω fc tc) 3 = θ ∧ seg 3 (nextVector b x p θ v ω fc tc) 6 = v ∧
    seg 3 (nextVector b x p θ v ω fc tc) 9 = ω ∧ seg 3 (nextVector b x p θ v ω fc tc) 12 = fc 0 ∧ seg 3 (nextVector b x p θ v ω fc tc) 15 = tc 0 ∧
    seg 3 (nextVector b x p θ v ω fc tc) 18 = fc 1 ∧ seg 3 (nextVector b x p θ v ω fc tc) 21 = tc 1 ∧
    seg 3 (nextVector b x p θ v ω fc tc) 24 = (if b then (0.9999 : ℝ) • seg 3 x 24 else 0) ∧
    seg 3 (nextVector b x p θ v ω fc tc) 27 = (if b then (0.9999 : ℝ) • seg 3 x 27 else 0) ∧
    ∀ i : Fin 35, 30 ≤ i.val → nextVector b x p θ v ω fc tc i = x i := by
  have z : ∀ (y : Fin 35 → ℝ) i, 24 ≤ i → i + 3 ≤ 30 → seg 3 (setSeg y 24 (0 : Fin 6 → ℝ)) i = 0 := fun y i h1 h2 => by
    funext j
    have := j.isLt
    simp only [seg, setSeg]
    rw [dif_pos (by omega), dif_pos ⟨by omega, by omega⟩]
    rfl
  cases b
  · refine ⟨?_, ?_, ?_, ?_, ?_, ?_, ?_, ?_, ?_, ?_, ?_⟩ <;> simp only [nextVector, Bool.false_eq_true, if_false]
    on_goal 11 =>
      intro i hi
      repeat rw [setSeg_out _ _ _ _ (le_trans (by norm_num) hi)]
    on_goal 9 => exact z _ _ (by omega) (by omega)
    on_goal 9 => exact z _ _ (by omega) (by omega)
    all_goals
      repeat first
        | rw [seg_setSeg_same _ _ _ (by norm_num)]
        | rw [seg_setSeg_ne _ _ _ _ (by norm_num)]
  · refine ⟨?_, ?_, ?_, ?_, ?_, ?_, ?_, ?_, ?_, ?_, ?_⟩ <;> simp only [nextVector, if_true]
    on_goal 11 =>
      intro i hi
      repeat rw [setSeg_out _ _ _ _ (le_trans (by norm_num) hi)]
    all_goals
      repeat first
        | rw [seg_setSeg_same _ _ _ (by norm_num)]
        | rw [seg_setSeg_ne _ _ _ _ (by norm_num)]
      try rfl

theorem at1_eq (v : Fin 35 → ℝ) (i : Fin 35) : at1 ⟨35, v⟩ i = v i := by
  unfold at1
  rw [dif_pos i.2]

theorem stateDynamics_sizes {s s' : Sys G} {x u y : DVec} {g g' : G} (e : s.stateDynamics x u g = .ok (y, s', g')) : x.size = 35 ∧ u.size = 48 + 12 * s.nb := by
  unfold Sys.stateDynamics at e
  split_ifs at e with hx hu
  exact ⟨hx, hu⟩

/-- What a call of `stateDynamics` without noise computes. -/
theorem step_ok {s s' : Sys G} {x u y : DVec} {g g' : G} (hi : Inv s) (hn : s.noise = none) (h : s.stateDynamics x u g = .ok (y, s', g')) :
    ∃ a α s'' w, ∃ R : M3, s.computeAccelerations x u = .ok ((a, α), s'') ∧
      R = rotationVectorToRotationMatrix (s.dt • at3 x 9 + (0.5 * s.dt * s.dt) • α) * rotationVectorToRotationMatrix (at3 x 3) ∧
      s.forcesPure ((List.range s.nb).map (contactIn u)) (at3 x 0 + (s.dt • at3 x 6 + (0.5 * s.dt * s.dt) • a)) (at3 x 6 + s.dt • a)
        (rotationMatrixToRotationVector R) R (at3 x 9 + s.dt • α) = .ok w ∧
      ∃ hx : x.size = 35, y = ⟨35, nextVector s.withUnmodeled (cast x 35 hx) (at3 x 0 + (s.dt • at3 x 6 + (0.5 * s.dt * s.dt) • a)) (rotationMatrixToRotationVector R)
        (at3 x 6 + s.dt • a) (at3 x 9 + s.dt • α) w.1 w.2⟩ := by
  obtain ⟨hx, hu⟩ := stateDynamics_sizes h
  obtain ⟨rt, -, e⟩ := stateDynamics_eq hi.rot x u g hx hu
  obtain ⟨rt', -, e'⟩ := computeAccelerations_eq hi.rot x u hx hu
  rw [e] at h
  obtain ⟨w, hw, h⟩ := Res.bind_eq_ok.1 h
  unfold Sys.finish at h
  simp only [hn] at h
  unfold Sys.stepPure Sys.eulerPure at hw
  simp only [Res.bind_eq_ok] at hw
  obtain ⟨⟨⟨p, θ, v, ω⟩, fc, tc⟩, ⟨⟨a, α⟩, ha, w', hf, hw'⟩, hw⟩ := hw
  have hco : (s.biased (cast x 35 hx) (readInput s.nb (cast u _ hu))).contacts = (List.range s.nb).map (contactIn u) := by
    rw [biased_eq]
    rfl
  have hfp : ∀ cs p v θ R ω, Sys.forcesPure (s.readEfforts (cast x 35 hx)) cs p v θ R ω = s.forcesPure cs p v θ R ω :=
    fun _ _ _ _ _ _ => forcesPure_congr (by constructor <;> rfl) _ _ _ _ _ _
  rw [hfp, hco] at hf
  simp only [seg3_cast] at hf hw' ha
  simp only [Res.ok.injEq, Prod.mk.injEq] at hw'
  obtain ⟨⟨rfl, rfl, rfl, rfl⟩, rfl, rfl⟩ := hw'
  refine ⟨a, α, Sys.readEfforts { s with rot := rt' } (cast x 35 hx), w', _, ?_, rfl, hf, hx, ?_⟩
  · rw [e']
    unfold Sys.accelPure
    simp only [seg3_cast]
    rw [ha]
    rfl
  · cases hw
    simp only [Res.ok.injEq, Prod.mk.injEq] at h
    rw [← h.1]
    rfl

/-- **C90**, motion: without process noise, one step integrates the accelerations of `computeAccelerations` over the sampling period: position and velocity as for a constant
acceleration, orientation by the rotation of `dt ω + dt²/2 α`. -/
theorem C90_motion (dt : ℝ) (g g1 g2 : G) (ops : List (Op G)) (s s' : Sys G) (x u y : DVec) (hr : run dt g ops = .ok (s, g1)) (hn : s.noise = none)
    (h : s.stateDynamics x u g1 = .ok (y, s', g2)) : ∃ a α s'', s.computeAccelerations x u = .ok ((a, α), s'') ∧ y.size = 35 ∧
      at3 y 0 = at3 x 0 + s.dt • at3 x 6 + (s.dt ^ 2 / 2) • a ∧ at3 y 6 = at3 x 6 + s.dt • a ∧ at3 y 9 = at3 x 9 + s.dt • α ∧
      NormedSpace.exp (hat (at3 y 3)) = rotationVectorToRotationMatrix (s.dt • at3 x 9 + (s.dt ^ 2 / 2) • α) * rotationVectorToRotationMatrix (at3 x 3) ∧
      nrm (at3 y 3) ≤ Real.pi := by
  obtain ⟨a, α, s'', w, R, h1, hR, -, hx, rfl⟩ := step_ok (run_inv hr) hn h
  obtain ⟨e0, e3, e6, e9, -⟩ := next_parts s.withUnmodeled (cast x 35 hx) (at3 x 0 + (s.dt • at3 x 6 + (0.5 * s.dt * s.dt) • a)) (rotationMatrixToRotationVector R)
        (at3 x 6 + s.dt • a) (at3 x 9 + s.dt • α) w.1 w.2
  have hd : 0.5 * s.dt * s.dt = s.dt ^ 2 / 2 := by ring
  have hrot : IsRot R := by rw [hR]; exact (rv_isRot _).mul (rv_isRot _)
  obtain ⟨c1, c2, -⟩ := C35_matrix R hrot
  refine ⟨a, α, s'', h1, rfl, ?_, ?_, ?_, ?_, ?_⟩
  · rw [at3_mk, e0, hd, add_assoc]
  · rw [at3_mk, e6]
  · rw [at3_mk, e9]
  · rw [at3_mk, e3, c1, hR, hd]
  · rw [at3_mk, e3]; exact c2

/-- **C90**, forces: the wrenches in the new state are those that `getForcesAndMoments` gives for the new state. (The orientation vector must not be shorter than 1e-16, unless it is
null: such vectors have no rotation of their own.) -/
theorem C90_forces (dt : ℝ) (g g1 g2 : G) (ops : List (Op G)) (s s' : Sys G) (x u y : DVec) (hr : run dt g ops = .ok (s, g1)) (hn : s.noise = none)
    (h : s.stateDynamics x u g1 = .ok (y, s', g2)) (hc : s.nb ≤ 2) (hy : 1e-16 < nrm (at3 y 3) ∨ at3 y 3 = 0) : ∃ l s'', s.forcesAndMoments y u = .ok (l, s'') ∧
      ∀ i < s.nb, l[i]? = some (at3 y (12 + 6 * i), at3 y (12 + 6 * i + 3)) := by
  have hu := (stateDynamics_sizes h).2
  obtain ⟨a, α, s'', w, R, h1, hR, hf, hx, rfl⟩ := step_ok (run_inv hr) hn h
  obtain ⟨e0, e3, e6, e9, e12, e15, e18, e21, -⟩ := next_parts s.withUnmodeled (cast x 35 hx) (at3 x 0 + (s.dt • at3 x 6 + (0.5 * s.dt * s.dt) • a)) (rotationMatrixToRotationVector R)
        (at3 x 6 + s.dt • a) (at3 x 9 + s.dt • α) w.1 w.2
  have hrot : IsRot R := by rw [hR]; exact (rv_isRot _).mul (rv_isRot _)
  obtain ⟨c1, -, c2⟩ := C35_matrix R hrot
  rw [at3_mk, e3] at hy
  have hRR : rotationVectorToRotationMatrix (rotationMatrixToRotationVector R) = R := by
    rcases hy with hy | hy
    · exact c2 hy
    · rw [hy] at c1 ⊢
      rw [rv_zero, ← c1]
      have : hat (0 : V3) = 0 := by ext i j; fin_cases i <;> fin_cases j <;> simp [hat]
      rw [this, NormedSpace.exp_zero]
  obtain ⟨l, s3, hl⟩ := forcesAndMoments_live (s := s) (x := ⟨35, _⟩) (u := u) (run_inv hr) rfl hu hc ⟨w, by
    simp only [at3_mk]
    rw [e0, e3, e6, e9, hRR]
    exact hf⟩
  refine ⟨l, s3, hl, fun i hi => ?_⟩
  obtain ⟨w', hw', -, rfl⟩ := forcesAndMoments_ok (run_inv hr) hl
  simp only [at3_mk] at hw' ⊢
  rw [e0, e3, e6, e9, hRR, hf] at hw'
  cases hw'
  rw [List.getElem?_map, List.getElem?_range hi]
  have hi2 : i < 2 := by omega
  interval_cases i
  · simp only [Option.map_some]
    show some (w.1 0, w.2 0) = some (seg 3 _ 12, seg 3 _ 15)
    rw [e12, e15]
  · simp only [Option.map_some]
    show some (w.1 1, w.2 1) = some (seg 3 _ 18, seg 3 _ 21)
    rw [e18, e21]

/-- **C90**, the rest: the forces that are not modelled fade slowly if they are part of the state, and are null otherwise; the bias of the centre of mass and the drift stay. -/
theorem C90_rest (dt : ℝ) (g g1 g2 : G) (ops : List (Op G)) (s s' : Sys G) (x u y : DVec) (hr : run dt g ops = .ok (s, g1)) (hn : s.noise = none)
    (h : s.stateDynamics x u g1 = .ok (y, s', g2)) :
    (∀ i, 24 ≤ i → i < 30 → at1 y i = if s.withUnmodeled then 0.9999 * at1 x i else 0) ∧ ∀ i, 30 ≤ i → i < 35 → at1 y i = at1 x i := by
  obtain ⟨a, α, s'', w, R, h1, hR, -, hx, rfl⟩ := step_ok (run_inv hr) hn h
  obtain ⟨-, -, -, -, -, -, -, -, e24, e27, e30⟩ := next_parts s.withUnmodeled (cast x 35 hx) (at3 x 0 + (s.dt • at3 x 6 + (0.5 * s.dt * s.dt) • a)) (rotationMatrixToRotationVector R)
        (at3 x 6 + s.dt • a) (at3 x 9 + s.dt • α) w.1 w.2
  generalize nextVector s.withUnmodeled (cast x 35 hx) _ _ _ _ w.1 w.2 = y at *
  have hy : ∀ (k j : ℕ) (hj : j < 3), k + j < 35 → at1 ⟨35, y⟩ (k + j) = seg 3 y k ⟨j, hj⟩ := fun k j hj hk => by
    unfold at1 seg
    simp only
  have hxx : ∀ (k j : ℕ) (hj : j < 3), k + j < 35 → at1 x (k + j) = seg 3 (cast x 35 hx) k ⟨j, hj⟩ := fun k j hj hk => by
    rw [seg3_cast]
    rfl
  refine ⟨fun i h1 h2 => ?_, fun i h1 h2 => ?_⟩
  · by_cases h3 : i < 27
    · obtain ⟨j, rfl⟩ : ∃ j, i = 24 + j := ⟨i - 24, by omega⟩
      rw [hy 24 j (by omega) (by omega), hxx 24 j (by omega) (by omega), e24]
      split_ifs <;> rfl
    · obtain ⟨j, rfl⟩ : ∃ j, i = 27 + j := ⟨i - 27, by omega⟩
      rw [hy 27 j (by omega) (by omega), hxx 27 j (by omega) (by omega), e27]
      split_ifs <;> rfl
  · have := e30 ⟨i, h2⟩ h1
    rw [cast_at] at this
    rw [← this]
    exact at1_eq y ⟨i, h2⟩

theorem step_live {dt : ℝ} {g g1 : G} {ops : List (Op G)} {s : Sys G} {x u : DVec} (hr : run dt g ops = .ok (s, g1)) (hx : x.size = 35)
    (hu : u.size = 48 + 12 * s.nb) (hm : s.mass ≠ 0) (hc : s.model = 1) (hb : s.nb ≤ 2) (hI : (sym u 9 + s.mass • skewSymmetric2 (at3 u 0 - bias s x)).PosDef) :
    ∃ w, s.stepPure (cast x 35 hx) (s.biased (cast x 35 hx) (readInput s.nb (cast u _ hu))) = .ok w := by
  have hi := run_inv hr
  obtain ⟨a, α, s1, h1⟩ := C87_return dt g g1 ops s x u hr hx hu hm (fun _ => hb) hI
  obtain ⟨rt', -, e'⟩ := computeAccelerations_eq hi.rot x u hx hu
  rw [e'] at h1
  obtain ⟨w, hw, -⟩ := Res.bind_eq_ok.1 h1
  unfold Sys.stepPure Sys.eulerPure
  unfold Sys.accelPure at hw
  simp only [hw, Res.ok_bind]
  have hfp : ∀ cs p v θ R ω, Sys.forcesPure (s.readEfforts (cast x 35 hx)) cs p v θ R ω = s.forcesPure cs p v θ R ω :=
    fun _ _ _ _ _ _ => forcesPure_congr (by constructor <;> rfl) _ _ _ _ _ _
  rw [hfp]
  have hco : (s.biased (cast x 35 hx) (readInput s.nb (cast u _ hu))).contacts = (List.range s.nb).map (contactIn u) := by
    rw [biased_eq]
    rfl
  rw [hco]
  unfold Sys.forcesPure
  rw [if_pos hc]
  obtain ⟨f, hf⟩ := elasticPure_live (s := s) (p := (integratePosVel (seg 3 (cast x 35 hx) iPos) (seg 3 (cast x 35 hx) iLinVel) w.1 s.dt).1)
    (v := (integratePosVel (seg 3 (cast x 35 hx) iPos) (seg 3 (cast x 35 hx) iLinVel) w.1 s.dt).2)
    (R := (integrateMatVel (rotationVectorToRotationMatrix (seg 3 (cast x 35 hx) iOri)) (seg 3 (cast x 35 hx) iAngVel) w.2 s.dt).1)
    (ω := (integrateMatVel (rotationVectorToRotationMatrix (seg 3 (cast x 35 hx) iOri)) (seg 3 (cast x 35 hx) iAngVel) w.2 s.dt).2)
    (θ := (AngleAxis.ofMat (integrateMatVel (rotationVectorToRotationMatrix (seg 3 (cast x 35 hx) iOri)) (seg 3 (cast x 35 hx) iAngVel) w.2 s.dt).1).angle •
      (AngleAxis.ofMat (integrateMatVel (rotationVectorToRotationMatrix (seg 3 (cast x 35 hx) iOri)) (seg 3 (cast x 35 hx) iAngVel) w.2 s.dt).1).axis)
    ((List.range s.nb).map (contactIn u)) 0 0 0 (by simpa using hb)
  simp only [hf, Res.ok_bind]
  exact ⟨_, rfl⟩

/-- **C90**, return: with a mass, a positive definite inertia about the centre of mass and at most two elastic contacts, the step is computed. -/
theorem C90_return (dt : ℝ) (g g1 : G) (ops : List (Op G)) (s : Sys G) (x u : DVec) (hr : run dt g ops = .ok (s, g1)) (hn : s.noise = none) (hx : x.size = 35)
    (hu : u.size = 48 + 12 * s.nb) (hm : s.mass ≠ 0) (hc : s.model = 1) (hb : s.nb ≤ 2) (hI : (sym u 9 + s.mass • skewSymmetric2 (at3 u 0 - bias s x)).PosDef) :
    ∃ y s', s.stateDynamics x u g1 = .ok (y, s', g1) := by
  obtain ⟨rt, -, e⟩ := stateDynamics_eq (run_inv hr).rot x u g1 hx hu
  obtain ⟨w, hw⟩ := step_live hr hx hu hm hc hb hI
  rw [e, hw]
  unfold Sys.finish
  simp only [Res.bind, hn]
  exact ⟨_, _, rfl⟩

/-- **C90**, no contact model: an exception, if the accelerations can be computed. -/
theorem C90_no_model (dt : ℝ) (g g1 : G) (ops : List (Op G)) (s : Sys G) (x u : DVec) (hr : run dt g ops = .ok (s, g1)) (h1 : s.model ≠ 1) (h2 : s.model ≠ 2) (a α : V3) (s' : Sys G)
    (h : s.computeAccelerations x u = .ok ((a, α), s')) : s.stateDynamics x u g1 = .exn := by
  have hi := run_inv hr
  obtain ⟨hx, hu⟩ := computeAccelerations_sizes h
  obtain ⟨rt, -, e⟩ := stateDynamics_eq hi.rot x u g1 hx hu
  obtain ⟨rt', -, e'⟩ := computeAccelerations_eq hi.rot x u hx hu
  rw [e'] at h
  obtain ⟨w, hw, -⟩ := Res.bind_eq_ok.1 h
  rw [e]
  unfold Sys.stepPure Sys.eulerPure
  unfold Sys.accelPure at hw
  simp only [hw, Res.ok_bind]
  have hfp : ∀ cs p v θ R ω, Sys.forcesPure (s.readEfforts (cast x 35 hx)) cs p v θ R ω = .exn := fun _ _ _ _ _ _ => by
    unfold Sys.forcesPure
    rw [if_neg (show (s.readEfforts (cast x 35 hx)).model ≠ 1 from h1), if_neg (show (s.readEfforts (cast x 35 hx)).model ≠ 2 from h2)]
  rw [hfp]
  rfl

/-- **C90**, process noise: with a process noise, even one that adds nothing, the vector returned depends neither on the state nor on the input. -/
theorem C90_noise_false (dt : ℝ) (g g1 : G) (ops : List (Op G)) (s : Sys G) (hr : run dt g ops = .ok (s, g1)) (hn : s.noise = some fun g v => .ok (v, g))
    (x u x' u' y y' : DVec) (s1 s2 : Sys G) (g2 g3 : G) (h : s.stateDynamics x u g1 = .ok (y, s1, g2)) (h' : s.stateDynamics x' u' g1 = .ok (y', s2, g3)) : y = y' := by
  have key : ∀ x u y s1 g2, s.stateDynamics x u g1 = .ok (y, s1, g2) → y = s.opXk1 := fun x u y s1 g2 h => by
    obtain ⟨hx, hu⟩ := stateDynamics_sizes h
    obtain ⟨rt, -, e⟩ := stateDynamics_eq (run_inv hr).rot x u g1 hx hu
    rw [e] at h
    obtain ⟨w, -, h⟩ := Res.bind_eq_ok.1 h
    unfold Sys.finish at h
    simp only [hn, Res.ok_bind, Res.ok.injEq, Prod.mk.injEq] at h
    exact h.1.symm
  rw [key x u y s1 g2 h, key x' u' y' s2 g3 h']

/-- **C90**, process noise: and the first call returns the empty vector. -/
theorem C90_noise_empty_false (dt : ℝ) (g : G) : ∃ s s' y, run dt g (exOps ++ [.setProcessNoise (some fun g v => .ok (v, g))]) = .ok (s, g) ∧
    s.stateDynamics exState exInput g = .ok (y, s', g) ∧ y.size = 0 := by
  have hr : run dt g (exOps ++ [.setProcessNoise (some fun g v => .ok (v, g))]) = .ok ({ (exSys dt : Sys G) with noise := some fun g v => .ok (v, g) }, g) := rfl
  obtain ⟨rt, -, e⟩ := stateDynamics_eq (run_inv hr).rot exState exInput g rfl rfl
  obtain ⟨w, hw⟩ := step_live hr (x := exState) (u := exInput) rfl rfl (by show (2 : ℝ) ≠ 0; norm_num) rfl (by show 1 ≤ 2; norm_num) (ex_posDef (G := G) dt)
  rw [hw] at e
  exact ⟨_, _, _, hr, e, rfl⟩

/-- **C90**, a case: the robot that an elastic contact pushes upwards; a step returns. -/
theorem C90_example (dt : ℝ) (g : G) : ∃ s y s', run dt g exOps = .ok (s, g) ∧ s.noise = none ∧ s.stateDynamics exState exInput g = .ok (y, s', g) := by
  obtain ⟨y, s', h⟩ := C90_return dt g g exOps (exSys dt) exState exInput (ex_run dt g) rfl rfl rfl (by show (2 : ℝ) ≠ 0; norm_num) rfl (by show 1 ≤ 2; norm_num) (ex_posDef (G := G) dt)
  exact ⟨_, _, _, ex_run dt g, rfl, h⟩

end StateObs.Elastic
