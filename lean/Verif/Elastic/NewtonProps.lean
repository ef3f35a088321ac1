import Verif.Elastic.Lemmas
/-! # C87: the accelerations of the robot on elastic contacts obey the equations of Newton and Euler -/

namespace StateObs.Elastic
open StateObs Matrix Rot Kine Imu
open StateObs.KO (Robot at3 skew2_mulVec comVel comAcc)

variable {G : Type}

theorem sym_symm (u : DVec) (i : ℕ) : (sym u i)ᵀ = sym u i := by
  ext a b
  fin_cases a <;> fin_cases b <;> rfl

theorem comInertia_symm (m : ℝ) (i : Input) (R : M3) (h : i.inertiaᵀ = i.inertia) : ∀ a b, comInertia m i R a b = comInertia m i R b a := by
  intro a b
  have h1 : (comInertia m i R)ᵀ = comInertia m i R := by
    unfold comInertia
    rw [transpose_add, transpose_mul, transpose_mul, transpose_transpose, h, ← Matrix.mul_assoc, transpose_smul]
    congr 2
    ext a b
    fin_cases a <;> fin_cases b <;> simp [skewSymmetric2, vecMulVec_apply] <;> ring
  conv_lhs => rw [← h1]
  rfl

/-- The equations that the accelerations solve. -/
theorem accelerations_ok {m : ℝ} {i : Input} {R : M3} {p ω f t a α : V3} (hi : i.inertiaᵀ = i.inertia) (h : accelerations m (1 / m) i R p ω f t = .ok (a, α)) :
    m ≠ 0 ∧
    a + α ⨯₃ (R *ᵥ i.com) + ω ⨯₃ (ω ⨯₃ (R *ᵥ i.com)) + (2 : ℝ) • (ω ⨯₃ (R *ᵥ i.comd)) + R *ᵥ i.comdd = (1 / m) • f - Sensor.gravity ∧
    R *ᵥ (i.inertia *ᵥ (Rᵀ *ᵥ α)) + R *ᵥ (i.inertiad *ᵥ (Rᵀ *ᵥ ω)) + R *ᵥ i.sigmad + ω ⨯₃ (R *ᵥ (i.inertia *ᵥ (Rᵀ *ᵥ ω)) + R *ᵥ i.sigma) +
      m • ((R *ᵥ i.com) ⨯₃ a) + p ⨯₃ (f - m • Sensor.gravity) = t - (p + R *ᵥ i.com) ⨯₃ (m • Sensor.gravity) := by
  unfold accelerations at h
  split_ifs at h with hm
  simp only [Res.bind_eq_ok] at h
  obtain ⟨β, hβ, h⟩ := h
  have hs := lltSolve_ok (comInertia_symm m i R hi) hβ
  simp only [Res.ok.injEq, Prod.mk.injEq] at h
  obtain ⟨ha, rfl⟩ := h
  refine ⟨hm, ?_, ?_⟩
  · rw [← ha]
    simp only [(C37_skew _ _).1, skew2_mulVec]
    rw [← cross_anticomm (R *ᵥ i.com) β]
    abel
  · simp only [(C37_skew _ _).1, skew2_mulVec, comInertia, add_mulVec, smul_mulVec, ← mulVec_mulVec] at hs ha
    have hf : m • ((1 / m) • f) = f := by rw [smul_smul, mul_one_div_cancel hm, one_smul]
    generalize (1 / m) • f = f' at *
    generalize R *ᵥ i.com = c at *
    generalize R *ᵥ i.comd = c' at *
    generalize R *ᵥ i.comdd = c'' at *
    generalize R *ᵥ i.sigma = σ at *
    rw [mulVec_add] at hs
    generalize R *ᵥ (i.inertia *ᵥ (Rᵀ *ᵥ β)) = A at *
    generalize R *ᵥ (i.inertia *ᵥ (Rᵀ *ᵥ ω)) = B at *
    generalize R *ᵥ (i.inertiad *ᵥ (Rᵀ *ᵥ ω)) = C at *
    generalize R *ᵥ i.sigmad = D at *
    have hA : A = (t - ω ⨯₃ B - (C + D) - ω ⨯₃ σ - m • p ⨯₃ (ω ⨯₃ (ω ⨯₃ c) + (2 : ℝ) • ω ⨯₃ c' + c'') - m • (c + p) ⨯₃ Sensor.gravity -
      m • (c + p) ⨯₃ (f' - c'' - (2 : ℝ) • ω ⨯₃ c' - ω ⨯₃ (ω ⨯₃ c) - Sensor.gravity)) - m • c ⨯₃ (c ⨯₃ β) := eq_sub_of_add_eq hs
    rw [hA, ← ha, ← hf]
    generalize ω ⨯₃ (ω ⨯₃ c) = X
    generalize ω ⨯₃ c' = Y
    generalize c ⨯₃ β = Z
    have e1 : ∀ a b c : V3, (a + b) ⨯₃ c = a ⨯₃ c + b ⨯₃ c := fun a b c => by rw [map_add]; rfl
    simp only [e1, cross_add, cross_smul, smul_add, smul_sub, map_sub]
    module

/-- The rate of the angular momentum about the origin of the frame. -/
theorem momentum_rate (r : Robot) (t : ℝ) : HasDerivAt r.momentum (r.frame.ω t ⨯₃ (r.frame.R t *ᵥ (r.I t *ᵥ ((r.frame.R t)ᵀ *ᵥ r.frame.ω t) + r.σ t)) +
    r.frame.R t *ᵥ (r.I' t *ᵥ ((r.frame.R t)ᵀ *ᵥ r.frame.ω t) + r.I t *ᵥ ((r.frame.R t)ᵀ *ᵥ r.frame.α t) + r.σ' t)) t := by
  have hΩ : HasDerivAt (fun t => (r.frame.R t)ᵀ *ᵥ r.frame.ω t) ((r.frame.R t)ᵀ *ᵥ r.frame.α t) t := by
    have := r.frame.turns.transpose_mulVec (r.frame.dω t)
    convert! this using 1
    simp
  have hI : HasDerivAt (fun t => r.I t *ᵥ ((r.frame.R t)ᵀ *ᵥ r.frame.ω t))
      (r.I' t *ᵥ ((r.frame.R t)ᵀ *ᵥ r.frame.ω t) + r.I t *ᵥ ((r.frame.R t)ᵀ *ᵥ r.frame.α t)) t := by
    obtain ⟨x0, x1, x2⟩ := hasDerivAt3.1 hΩ
    have hs : (fun t => r.I t *ᵥ ((r.frame.R t)ᵀ *ᵥ r.frame.ω t)) = fun t => ((r.frame.R t)ᵀ *ᵥ r.frame.ω t) 0 • (r.I t *ᵥ ![1, 0, 0]) +
        ((r.frame.R t)ᵀ *ᵥ r.frame.ω t) 1 • (r.I t *ᵥ ![0, 1, 0]) + ((r.frame.R t)ᵀ *ᵥ r.frame.ω t) 2 • (r.I t *ᵥ ![0, 0, 1]) := by
      funext t; exact Rot.mulVec_sum _ _
    rw [hs]
    have := ((x0.smul (r.dI t ![1, 0, 0])).add (x1.smul (r.dI t ![0, 1, 0]))).add (x2.smul (r.dI t ![0, 0, 1]))
    convert! this using 1
    rw [Rot.mulVec_sum (r.I' t), Rot.mulVec_sum (r.I t) ((r.frame.R t)ᵀ *ᵥ r.frame.α t)]
    abel
  exact r.frame.turns.mulVec (hI.add (r.dσ t))

/-- What is known from a call of `computeAccelerations`. -/
theorem compute_facts {dt : ℝ} {g g' : G} {ops : List (Op G)} {s s' : Sys G} {x u : DVec} {a α : V3} (hr : run dt g ops = .ok (s, g'))
    (h : s.computeAccelerations x u = .ok ((a, α), s')) {r : Robot} {t : ℝ} (hd : Describes s x u r t) :
    s.mass ≠ 0 ∧
    a + α ⨯₃ (r.frame.R t *ᵥ r.c t) + r.frame.ω t ⨯₃ (r.frame.ω t ⨯₃ (r.frame.R t *ᵥ r.c t)) + (2 : ℝ) • (r.frame.ω t ⨯₃ (r.frame.R t *ᵥ r.c' t)) +
      r.frame.R t *ᵥ r.c'' t = (1 / s.mass) • totalForce s x u (r.frame.R t) - KO.g ∧
    r.frame.R t *ᵥ (r.I t *ᵥ ((r.frame.R t)ᵀ *ᵥ α)) + r.frame.R t *ᵥ (r.I' t *ᵥ ((r.frame.R t)ᵀ *ᵥ r.frame.ω t)) + r.frame.R t *ᵥ r.σ' t +
      r.frame.ω t ⨯₃ (r.frame.R t *ᵥ (r.I t *ᵥ ((r.frame.R t)ᵀ *ᵥ r.frame.ω t)) + r.frame.R t *ᵥ r.σ t) +
      s.mass • ((r.frame.R t *ᵥ r.c t) ⨯₃ a) + r.frame.p t ⨯₃ (totalForce s x u (r.frame.R t) - s.mass • KO.g) =
        totalMoment s x u (r.frame.p t) (r.frame.R t) - (r.frame.p t + r.frame.R t *ᵥ r.c t) ⨯₃ (s.mass • KO.g) := by
  have hi := run_inv hr
  obtain ⟨hx, hu⟩ := computeAccelerations_sizes h
  obtain ⟨rt, -, e⟩ := computeAccelerations_eq hi.rot x u hx hu
  rw [e] at h
  obtain ⟨w, hw, h⟩ := Res.bind_eq_ok.1 h
  cases h
  unfold Sys.accelPure Sys.accel at hw
  rw [biased_eq] at hw
  simp only [Res.bind_eq_ok, seg3_cast] at hw
  obtain ⟨⟨f, τ⟩, h1, h2⟩ := hw
  have h3 := contactWrench_ok (s := s) (x := x) (fun i => ⟨seg3_cast x 35 hx _, seg3_cast x 35 hx _⟩) h1
  simp only [Prod.mk.injEq] at h3
  obtain ⟨rfl, rfl⟩ := h3
  have hm : (s.readEfforts (cast x 35 hx)).massInv = 1 / (s.readEfforts (cast x 35 hx)).mass := hi.mass
  rw [hm] at h2
  have h4 := accelerations_ok (sym_symm u 9) h2
  rw [hd.position, hd.orientation, hd.angularVelocity, hd.com, hd.comd, hd.comdd, hd.inertia, hd.sigma, hd.inertiad, hd.sigmad]
  exact h4

/-- **C87**, Newton: if the robot that the state and the input describe has the accelerations that `computeAccelerations` returns, its centre of mass obeys Newton's second law
with the total force and the weight. -/
theorem C87_newton (dt : ℝ) (g g' : G) (ops : List (Op G)) (s s' : Sys G) (x u : DVec) (a α : V3) (hr : run dt g ops = .ok (s, g'))
    (h : s.computeAccelerations x u = .ok ((a, α), s')) (r : Robot) (t : ℝ) (hd : Describes s x u r t) (ha : r.frame.a t = a) (hα : r.frame.α t = α)
    (V : ℝ → V3) (A : V3) (hV : Deriv r.com V) (hA : HasDerivAt V A t) : s.mass • A = totalForce s x u (r.frame.R t) - s.mass • KO.g := by
  obtain ⟨hm, h1, -⟩ := compute_facts hr h hd
  obtain rfl : V = fun t => r.frame.v t + (r.frame.ω t ⨯₃ (r.frame.R t *ᵥ r.c t) + r.frame.R t *ᵥ r.c' t) := by
    funext t
    exact (hV t).unique (comVel r t)
  have e : A = (1 / s.mass) • totalForce s x u (r.frame.R t) - KO.g := by
    rw [hA.unique (comAcc r t), ← h1, ha, hα, cross_add, two_smul]
    abel
  rw [e, smul_sub, smul_smul, mul_one_div_cancel hm, one_smul]

/-- **C87**, Euler: and the rate of its angular momentum about the origin of the world is the total moment, with the one of the weight at the centre of mass. -/
theorem C87_euler (dt : ℝ) (g g' : G) (ops : List (Op G)) (s s' : Sys G) (x u : DVec) (a α : V3) (hr : run dt g ops = .ok (s, g'))
    (h : s.computeAccelerations x u = .ok ((a, α), s')) (r : Robot) (t : ℝ) (hd : Describes s x u r t) (ha : r.frame.a t = a) (hα : r.frame.α t = α) :
    HasDerivAt (worldMomentum s.mass r) (totalMoment s x u (r.frame.p t) (r.frame.R t) - r.com t ⨯₃ (s.mass • KO.g)) t := by
  obtain ⟨hm, h1, h2⟩ := compute_facts hr h hd
  have d1 := momentum_rate r t
  have d2 := (hasDerivAt_cross (r.frame.turns.mulVec (r.dc t)) (r.frame.dv t)).const_smul s.mass
  have d3 := (hasDerivAt_cross (r.frame.dp t) (comAcc r t)).const_smul s.mass
  have := (d1.add d2).add d3
  convert! this using 1
  have e : (r.frame.a t + (r.frame.α t ⨯₃ (r.frame.R t *ᵥ r.c t) + r.frame.ω t ⨯₃ (r.frame.ω t ⨯₃ (r.frame.R t *ᵥ r.c t) + r.frame.R t *ᵥ r.c' t) +
      (r.frame.ω t ⨯₃ (r.frame.R t *ᵥ r.c' t) + r.frame.R t *ᵥ r.c'' t))) = (1 / s.mass) • totalForce s x u (r.frame.R t) - KO.g := by
    rw [← h1, ha, hα, cross_add, two_smul]
    abel
  rw [e]
  have e2 : r.com t = r.frame.p t + r.frame.R t *ᵥ r.c t := rfl
  rw [e2, ← h2, ← ha, ← hα]
  have e3 : totalForce s x u (r.frame.R t) - s.mass • KO.g = s.mass • ((1 / s.mass) • totalForce s x u (r.frame.R t) - KO.g) := by
    rw [smul_sub, smul_smul, mul_one_div_cancel hm, one_smul]
  rw [e3]
  generalize (1 / s.mass) • totalForce s x u (r.frame.R t) - KO.g = F
  have e4 : ∀ a b c : V3, (a + b) ⨯₃ c = a ⨯₃ c + b ⨯₃ c := fun a b c => by rw [map_add]; rfl
  have e5 : r.frame.v t ⨯₃ r.frame.v t = 0 := cross_self _
  rw [cross_add (r.frame.v t), e5, zero_add, ← cross_anticomm (r.frame.v t)]
  simp only [mulVec_add, cross_add, cross_smul, smul_add, smul_neg]
  abel

end StateObs.Elastic
