import Verif.Elastic.NewtonLive
/-! # C88: the rates of the momenta -/

namespace StateObs.Elastic
open StateObs Matrix Rot Kine Imu
open StateObs.KO (Robot at3 skew2_mulVec comVel comAcc)

variable {G : Type}

theorem forces_facts {dt : ℝ} {g g' : G} {ops : List (Op G)} {s s' : Sys G} {x u : DVec} {l k : V3} (hr : run dt g ops = .ok (s, g'))
    (h : s.momentaDotFromForces x u = .ok ((l, k), s')) :
    l = totalForce s x u (rotationVectorToRotationMatrix (at3 x 3)) - hrp2m • KO.g ∧
    k = totalMoment s x u (at3 x 0) (rotationVectorToRotationMatrix (at3 x 3)) -
      (at3 x 0 + rotationVectorToRotationMatrix (at3 x 3) *ᵥ (at3 u 0 - bias s x)) ⨯₃ (hrp2m • KO.g) := by
  have hi := run_inv hr
  obtain ⟨hx, hu⟩ := momentaForces_sizes h
  obtain ⟨rt, -, e⟩ := momentaForces_eq hi.rot x u hx hu
  rw [e] at h
  obtain ⟨⟨f, τ⟩, h1, h⟩ := Res.bind_eq_ok.1 h
  rw [biased_eq] at h1 h
  simp only [seg3_cast] at h1 h
  have h3 := contactWrench_ok (s := s) (x := x) (fun i => ⟨seg3_cast x 35 hx _, seg3_cast x 35 hx _⟩) h1
  simp only [Prod.mk.injEq] at h3
  obtain ⟨rfl, rfl⟩ := h3
  simp only [Res.ok.injEq, Prod.mk.injEq] at h
  obtain ⟨⟨rfl, rfl⟩, -⟩ := h
  refine ⟨rfl, ?_⟩
  rw [(C37_skew _ _).1, add_comm (at3 x 0)]
  rfl

theorem kine_facts {dt : ℝ} {g g' : G} {ops : List (Op G)} {s s' : Sys G} {x u : DVec} {l k : V3} (hr : run dt g ops = .ok (s, g'))
    (h : s.momentaDotFromKinematics x u = .ok ((l, k), s')) : ∃ a α : V3, ∃ R : M3, R = rotationVectorToRotationMatrix (at3 x 3) ∧
    s.mass ≠ 0 ∧
    a + α ⨯₃ (R *ᵥ (at3 u 0 - bias s x)) + at3 x 6 ⨯₃ (at3 x 6 ⨯₃ (R *ᵥ (at3 u 0 - bias s x))) + (2 : ℝ) • (at3 x 6 ⨯₃ (R *ᵥ at3 u 3)) + R *ᵥ at3 u 6 =
      (1 / s.mass) • totalForce s x u R - KO.g ∧
    R *ᵥ (sym u 9 *ᵥ (Rᵀ *ᵥ α)) + R *ᵥ (sym u 18 *ᵥ (Rᵀ *ᵥ at3 x 6)) + R *ᵥ at3 u 24 + at3 x 6 ⨯₃ (R *ᵥ (sym u 9 *ᵥ (Rᵀ *ᵥ at3 x 6)) + R *ᵥ at3 u 15) +
      s.mass • ((R *ᵥ (at3 u 0 - bias s x)) ⨯₃ a) + at3 x 0 ⨯₃ (totalForce s x u R - s.mass • KO.g) =
        totalMoment s x u (at3 x 0) R - (at3 x 0 + R *ᵥ (at3 u 0 - bias s x)) ⨯₃ (s.mass • KO.g) ∧
    l = hrp2m • (α ⨯₃ (R *ᵥ (at3 u 0 - bias s x)) + at3 x 9 ⨯₃ (at3 x 9 ⨯₃ (R *ᵥ (at3 u 0 - bias s x))) + (2 : ℝ) • (at3 x 9 ⨯₃ (R *ᵥ at3 u 3)) + R *ᵥ at3 u 6 + a) ∧
    k = at3 x 9 ⨯₃ (R *ᵥ (sym u 9 *ᵥ (Rᵀ *ᵥ at3 x 9))) + R *ᵥ (sym u 18 *ᵥ (Rᵀ *ᵥ at3 x 9)) + R *ᵥ (sym u 9 *ᵥ (Rᵀ *ᵥ α)) + at3 x 9 ⨯₃ (R *ᵥ at3 u 15) +
      R *ᵥ at3 u 24 + at3 x 0 ⨯₃ l + hrp2m • ((R *ᵥ (at3 u 0 - bias s x)) ⨯₃ a) := by
  have hi := run_inv hr
  obtain ⟨hx, hu⟩ := momentaKine_sizes h
  obtain ⟨rt, -, e⟩ := momentaKine_eq hi.rot x u hx hu
  rw [e] at h
  obtain ⟨⟨a, α⟩, hw, h⟩ := Res.bind_eq_ok.1 h
  unfold Sys.accelPure Sys.accel at hw
  rw [biased_eq] at hw h
  simp only [Res.bind_eq_ok, seg3_cast] at hw h
  obtain ⟨⟨f, τ⟩, h1, h2⟩ := hw
  have h3 := contactWrench_ok (s := s) (x := x) (fun i => ⟨seg3_cast x 35 hx _, seg3_cast x 35 hx _⟩) h1
  simp only [Prod.mk.injEq] at h3
  obtain ⟨rfl, rfl⟩ := h3
  have hm : (s.readEfforts (cast x 35 hx)).massInv = 1 / (s.readEfforts (cast x 35 hx)).mass := hi.mass
  rw [hm] at h2
  obtain ⟨h4, h5, h6⟩ := accelerations_ok (sym_symm u 9) h2
  simp only [Res.ok.injEq, Prod.mk.injEq, momentaDot] at h
  obtain ⟨⟨rfl, rfl⟩, -⟩ := h
  refine ⟨a, α, _, rfl, h4, h5, h6, ?_, ?_⟩
  · simp only [(C37_skew _ _).1, skew2_mulVec]
  · simp only [(C37_skew _ _).1, skew2_mulVec]

/-- **C88**, from the forces: for a robot of 56.8 kg, `getMomentaDotFromForces` returns the total force with the weight, and the total moment about the origin of the world with
the one of the weight at the centre of mass. -/
theorem C88_forces_partial (dt : ℝ) (g g' : G) (ops : List (Op G)) (s s' : Sys G) (x u : DVec) (l k : V3) (hr : run dt g ops = .ok (s, g')) (hm : s.mass = 56.8)
    (h : s.momentaDotFromForces x u = .ok ((l, k), s')) (R : M3) (hR : R = rotationVectorToRotationMatrix (at3 x 3)) :
    l = totalForce s x u R - s.mass • KO.g ∧ k = totalMoment s x u (at3 x 0) R - (at3 x 0 + R *ᵥ (at3 u 0 - bias s x)) ⨯₃ (s.mass • KO.g) := by
  rw [hR, hm]
  exact forces_facts hr h

/-- **C88**, from the kinematics: `getMomentaDotFromKinematics` returns the same, for a robot of 56.8 kg whose linear and angular velocities are equal vectors. -/
theorem C88_kinematics_partial (dt : ℝ) (g g' : G) (ops : List (Op G)) (s s' : Sys G) (x u : DVec) (l k : V3) (hr : run dt g ops = .ok (s, g')) (hm : s.mass = 56.8)
    (hv : at3 x 6 = at3 x 9) (h : s.momentaDotFromKinematics x u = .ok ((l, k), s')) (R : M3) (hR : R = rotationVectorToRotationMatrix (at3 x 3)) :
    l = totalForce s x u R - s.mass • KO.g ∧ k = totalMoment s x u (at3 x 0) R - (at3 x 0 + R *ᵥ (at3 u 0 - bias s x)) ⨯₃ (s.mass • KO.g) := by
  obtain ⟨a, α, R', hR', h0, h1, h2, hl, hk⟩ := kine_facts hr h
  rw [← hR] at hR'
  subst hR'
  have hm' : hrp2m = s.mass := hm.symm
  rw [hm', ← hv] at hl hk
  have e : l = totalForce s x u R' - s.mass • KO.g := by
    have : totalForce s x u R' - s.mass • KO.g = s.mass • ((1 / s.mass) • totalForce s x u R' - KO.g) := by
      rw [smul_sub, smul_smul, mul_one_div_cancel h0, one_smul]
    rw [this, ← h1, hl]
    congr 1
    abel
  refine ⟨e, ?_⟩
  rw [← h2, hk, e, cross_add]
  abel

/-- **C88**, the two agree for such robots. -/
theorem C88_agree_partial (dt : ℝ) (g g' : G) (ops : List (Op G)) (s s1 s2 : Sys G) (x u : DVec) (w1 w2 : V3 × V3) (hr : run dt g ops = .ok (s, g')) (hm : s.mass = 56.8)
    (hv : at3 x 6 = at3 x 9) (h1 : s.momentaDotFromForces x u = .ok (w1, s1)) (h2 : s.momentaDotFromKinematics x u = .ok (w2, s2)) : w1 = w2 := by
  obtain ⟨a, b⟩ := C88_forces_partial dt g g' ops s s1 x u w1.1 w1.2 hr hm h1 _ rfl
  obtain ⟨c, d⟩ := C88_kinematics_partial dt g g' ops s s2 x u w2.1 w2.2 hr hm hv h2 _ rfl
  exact Prod.ext (a.trans c.symm) (b.trans d.symm)

/-- **C88**, rates: for a robot of 56.8 kg with the accelerations of `computeAccelerations`, what `getMomentaDotFromForces` returns are the derivatives of its linear momentum and of
its angular momentum about the origin of the world. -/
theorem C88_rates_partial (dt : ℝ) (g g' : G) (ops : List (Op G)) (s s1 s2 : Sys G) (x u : DVec) (l k a α : V3) (hr : run dt g ops = .ok (s, g')) (hm : s.mass = 56.8)
    (h : s.momentaDotFromForces x u = .ok ((l, k), s1)) (hc : s.computeAccelerations x u = .ok ((a, α), s2)) (r : Robot) (t : ℝ) (hd : Describes s x u r t)
    (ha : r.frame.a t = a) (hα : r.frame.α t = α) (V : ℝ → V3) (hV : Deriv r.com V) :
    HasDerivAt (fun t => s.mass • V t) l t ∧ HasDerivAt (worldMomentum s.mass r) k t := by
  obtain ⟨e1, e2⟩ := C88_forces_partial dt g g' ops s s1 x u l k hr hm h _ rfl
  have hV' : V = fun t => r.frame.v t + (r.frame.ω t ⨯₃ (r.frame.R t *ᵥ r.c t) + r.frame.R t *ᵥ r.c' t) := by
    funext t
    exact (hV t).unique (comVel r t)
  constructor
  · have hA := comAcc r t
    rw [← hV'] at hA
    have n := C87_newton dt g g' ops s s2 x u a α hr hc r t hd ha hα V _ hV hA
    have := hA.const_smul s.mass
    rw [n, hd.orientation, ← e1] at this
    exact this
  · have := C87_euler dt g g' ops s s2 x u a α hr hc r t hd ha hα
    have ec : r.com t = r.frame.p t + r.frame.R t *ᵥ r.c t := rfl
    rw [ec, hd.position, hd.orientation, hd.com, ← e2] at this
    exact this

/-- **C88**, mass: for another mass, what the forces give is not the rate of the momentum. -/
theorem C88_mass_false (dt : ℝ) (g g' : G) (ops : List (Op G)) (s s' : Sys G) (x u : DVec) (l k : V3) (hr : run dt g ops = .ok (s, g')) (hm : s.mass ≠ 56.8)
    (h : s.momentaDotFromForces x u = .ok ((l, k), s')) : l ≠ totalForce s x u (rotationVectorToRotationMatrix (at3 x 3)) - s.mass • KO.g := by
  rw [(forces_facts hr h).1]
  intro e
  have := congrFun e 2
  simp only [KO.g, Pi.sub_apply, Pi.smul_apply, smul_eq_mul, sub_right_inj] at this
  have h2 : hrp2m = s.mass := mul_right_cancel₀ (by simp; norm_num : (![0, 0, 9.8] : V3) 2 ≠ 0) this
  exact hm h2.symm

theorem kine_live {dt : ℝ} {g g' : G} {ops : List (Op G)} {s : Sys G} {x u : DVec} (hr : run dt g ops = .ok (s, g')) (hx : x.size = 35)
    (hu : u.size = 48 + 12 * s.nb) (hm : s.mass ≠ 0) (hn : s.model = 1 → s.nb ≤ 2)
    (hI : (sym u 9 + s.mass • skewSymmetric2 (at3 u 0 - bias s x)).PosDef) : ∃ w s', s.momentaDotFromKinematics x u = .ok (w, s') := by
  have hi := run_inv hr
  obtain ⟨rt, -, e⟩ := momentaKine_eq hi.rot x u hx hu
  rw [e]
  unfold Sys.accelPure Sys.accel
  rw [biased_eq]
  simp only
  obtain ⟨w, hw⟩ := contactWrench_live (model := (s.readEfforts (cast x 35 hx)).model) (R := rotationVectorToRotationMatrix (seg 3 (cast x 35 hx) iOri))
    (p := seg 3 (cast x 35 hx) iPos)
    (cs := (List.range s.nb).map fun i => ⟨at3 u (48 + 12 * i), at3 u (48 + 12 * i + 3), at3 u (48 + 12 * i + 6), at3 u (48 + 12 * i + 9)⟩)
    (fc := (s.readEfforts (cast x 35 hx)).fc) (tc := (s.readEfforts (cast x 35 hx)).tc)
    (fm := seg 3 (cast x 35 hx) iUnmodeled) (tm := seg 3 (cast x 35 hx) (iUnmodeled + 3)) (a := at3 u 42) (b := at3 u 45) (fun h => by simpa using hn h)
  rw [hw]
  simp only [Res.ok_bind]
  have hS := comInertia_posDef (m := s.mass) (i := ⟨at3 u 0 - bias s x, at3 u 3, at3 u 6, sym u 9, at3 u 15, sym u 18, at3 u 24, at3 u 27, at3 u 30, at3 u 33, at3 u 36, at3 u 39,
    at3 u 42, at3 u 45, (List.range s.nb).map fun i => ⟨at3 u (48 + 12 * i), at3 u (48 + 12 * i + 3), at3 u (48 + 12 * i + 6), at3 u (48 + 12 * i + 9)⟩⟩)
    (rv_isRot (seg 3 (cast x 35 hx) iOri)) hI
  obtain ⟨r, h⟩ := accelerations_live (mi := (s.readEfforts (cast x 35 hx)).massInv) (p := seg 3 (cast x 35 hx) iPos) (ω := seg 3 (cast x 35 hx) iLinVel) (f := w.1) (t := w.2) hm hS
  refine ⟨_, _, (congrArg (fun q => Res.bind q _) h).trans rfl⟩

theorem forces_live {dt : ℝ} {g g' : G} {ops : List (Op G)} {s : Sys G} {x u : DVec} (hr : run dt g ops = .ok (s, g')) (hx : x.size = 35)
    (hu : u.size = 48 + 12 * s.nb) (hn : s.model = 1 → s.nb ≤ 2) : ∃ w s', s.momentaDotFromForces x u = .ok (w, s') := by
  have hi := run_inv hr
  obtain ⟨rt, -, e⟩ := momentaForces_eq hi.rot x u hx hu
  rw [e, biased_eq]
  obtain ⟨w, hw⟩ := contactWrench_live (model := s.model) (R := rotationVectorToRotationMatrix (seg 3 (cast x 35 hx) iOri))
    (p := seg 3 (cast x 35 hx) iPos)
    (cs := (List.range s.nb).map fun i => ⟨at3 u (48 + 12 * i), at3 u (48 + 12 * i + 3), at3 u (48 + 12 * i + 6), at3 u (48 + 12 * i + 9)⟩)
    (fc := (s.readEfforts (cast x 35 hx)).fc) (tc := (s.readEfforts (cast x 35 hx)).tc)
    (fm := seg 3 (cast x 35 hx) iUnmodeled) (tm := seg 3 (cast x 35 hx) (iUnmodeled + 3)) (a := at3 u 42) (b := at3 u 45) (fun h => by simpa using hn h)
  rw [hw]
  exact ⟨_, _, rfl⟩

/-- A robot going upwards without turning. -/
noncomputable def riseState : DVec := ⟨35, fun i => if i.1 = 8 then 1 else 0⟩

/-- Its centre of mass is in front of the frame. -/
noncomputable def riseInput : DVec := ⟨48, fun i => if i.1 = 0 then 1 else if i.1 = 9 ∨ i.1 = 10 ∨ i.1 = 11 then 100 else 0⟩

/-- **C88**, velocity: for a new system and a robot going upwards without turning, the two rates of the linear momentum differ. -/
theorem C88_velocity_false (dt : ℝ) (g : G) : ∃ w1 w2 s1 s2, (ctor dt : Sys G).momentaDotFromForces riseState riseInput = .ok (w1, s1) ∧
    (ctor dt : Sys G).momentaDotFromKinematics riseState riseInput = .ok (w2, s2) ∧ w1.1 ≠ w2.1 := by
  have hr : run dt g [] = .ok ((ctor dt : Sys G), g) := rfl
  have hm : (ctor dt : Sys G).mass = 56.8 := rfl
  have hb : bias (ctor dt : Sys G) riseState = 0 := rfl
  have z : (![0, 0, 0] : V3) = 0 := by ext i; fin_cases i <;> rfl
  have hc : at3 riseInput 0 = ![1, 0, 0] := by ext i; fin_cases i <;> simp [at3, riseInput]
  have hI : (sym riseInput 9 + (ctor dt : Sys G).mass • skewSymmetric2 (at3 riseInput 0 - bias (ctor dt : Sys G) riseState)).PosDef := by
    rw [hb, hm, hc, _root_.sub_zero]
    have e : sym riseInput 9 + (56.8 : ℝ) • skewSymmetric2 ![1, 0, 0] = diagonal ![100, 43.2, 43.2] := by
      ext i j
      fin_cases i <;> fin_cases j <;> simp [sym, at1, riseInput, skewSymmetric2, vecMulVec_apply, Matrix.trace, Fin.sum_univ_three] <;> norm_num
    rw [e]
    refine PosDef.diagonal fun i => ?_
    fin_cases i <;> norm_num
  obtain ⟨w1, s1, h1⟩ := forces_live (s := (ctor dt : Sys G)) (x := riseState) (u := riseInput) hr rfl rfl (fun h => by cases h)
  obtain ⟨w2, s2, h2⟩ := kine_live hr rfl rfl (by rw [hm]; norm_num) (fun h => by cases h) hI
  refine ⟨w1, w2, s1, s2, h1, h2, ?_⟩
  obtain ⟨f1, -⟩ := forces_facts (l := w1.1) (k := w1.2) hr h1
  obtain ⟨a, α, R, hR, -, e1, -, e3, -⟩ := kine_facts (l := w2.1) (k := w2.2) hr h2
  have x3 : at3 riseState 3 = 0 := by ext i; fin_cases i <;> simp [at3, riseState]
  have x6 : at3 riseState 6 = ![0, 0, 1] := by ext i; fin_cases i <;> simp [at3, riseState]
  have x9 : at3 riseState 9 = 0 := by ext i; fin_cases i <;> simp [at3, riseState]
  have u3 : at3 riseInput 3 = 0 := by ext i; fin_cases i <;> simp [at3, riseInput]
  have u6 : at3 riseInput 6 = 0 := by ext i; fin_cases i <;> simp [at3, riseInput]
  rw [x3, rv_zero] at f1 hR
  subst hR
  rw [hb, hc, x6, u3, u6, hm, _root_.sub_zero] at e1
  rw [hb, hc, x9, u3, u6, _root_.sub_zero] at e3
  rw [f1, e3]
  intro e
  have a0 := congrFun e1 0
  have b0 := congrFun e 0
  simp [cross0, cross1, cross2, KO.g, hrp2m] at a0 b0
  linarith

/-- **C88**, a case: a new system, whose mass is 56.8 kg, at rest with the centre of mass in front of the frame: every call returns. -/
theorem C88_example (dt : ℝ) (g : G) : run dt g [] = .ok ((ctor dt : Sys G), g) ∧ (ctor dt : Sys G).mass = 56.8 ∧ at3 ⟨35, 0⟩ 6 = at3 ⟨35, 0⟩ 9 ∧
    (∃ w s', (ctor dt : Sys G).momentaDotFromForces ⟨35, 0⟩ riseInput = .ok (w, s')) ∧
    (∃ w s', (ctor dt : Sys G).momentaDotFromKinematics ⟨35, 0⟩ riseInput = .ok (w, s')) ∧
    ∃ a α s', (ctor dt : Sys G).computeAccelerations ⟨35, 0⟩ riseInput = .ok ((a, α), s') := by
  have hb : bias (ctor dt : Sys G) ⟨35, 0⟩ = 0 := rfl
  have hm : (ctor dt : Sys G).mass = 56.8 := rfl
  have hc : at3 riseInput 0 = ![1, 0, 0] := by ext i; fin_cases i <;> simp [at3, riseInput]
  have hp : (sym riseInput 9 + (ctor dt : Sys G).mass • skewSymmetric2 (at3 riseInput 0 - bias (ctor dt : Sys G) ⟨35, 0⟩)).PosDef := by
    rw [hb, hm, hc, _root_.sub_zero]
    have e : sym riseInput 9 + (56.8 : ℝ) • skewSymmetric2 ![1, 0, 0] = diagonal ![100, 43.2, 43.2] := by
      ext i j
      fin_cases i <;> fin_cases j <;> simp [sym, at1, riseInput, skewSymmetric2, vecMulVec_apply, Matrix.trace, Fin.sum_univ_three] <;> norm_num
    rw [e]
    refine PosDef.diagonal fun i => ?_
    fin_cases i <;> norm_num
  refine ⟨rfl, hm, ?_, ?_, ?_, ?_⟩
  · ext i; fin_cases i <;> simp [at3]
  · exact forces_live (ops := []) (g := g) (g' := g) rfl rfl rfl (fun h => by cases h)
  · exact kine_live (ops := []) (g := g) (g' := g) rfl rfl rfl (by rw [hm]; norm_num) (fun h => by cases h) hp
  · exact C87_return dt g g [] (ctor dt) ⟨35, 0⟩ riseInput rfl rfl rfl (by rw [hm]; norm_num) (fun h => by cases h) hp

end StateObs.Elastic
