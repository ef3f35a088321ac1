import Verif.KO.NewtonSpec
import Verif.KO.Fresh
import Verif.KO.PsdProps
import Verif.Kin.IntProps
import Verif.Kin.Lemmas
/-! # C61: Newton-Euler equations -/

namespace StateObs.KO
open StateObs Matrix Rot Kine KF
open Observer

theorem skew2_mulVec (c x : V3) : skewSymmetric2 c *ᵥ x = c ⨯₃ (c ⨯₃ x) := by
  apply ext3 <;> simp [skewSymmetric2, mulVec3, cross0, cross1, cross2, vecMulVec_apply, Matrix.trace, Fin.sum_univ_three] <;> ring

/-- The result of `computeAccelerations_`. -/
theorem computeAccelerations_ok {o : Observer} {k k' : Kin} {F M a α : V3} {p v x y : Option V3} {R : M3} {ω : V3}
    (hk : k.Has ⟨p, some R, v, some ω, x, y⟩) (h : o.computeAccelerations k F M = .ok (a, α, k')) :
    ∃ b, o.body = .ok b ∧ o.mass ≠ 0 ∧ (inertiaAtOrigin b o.mass).det ≠ 0 ∧ α = R *ᵥ localAngAcc b o.mass (Rᵀ *ᵥ ω) F M ∧
      a = R *ᵥ ((1 / o.mass) • F - b.comdd - corioCentri b (Rᵀ *ᵥ ω) + b.com ⨯₃ (Rᵀ *ᵥ α)) - gravity := by
  unfold computeAccelerations at h
  obtain ⟨o1, h1, r1⟩ := hk.ori.toMatrix3
  rw [h1] at h
  simp only [Res.ok_bind, hk.angVel.read] at h
  obtain ⟨b, hb, h⟩ := Res.bind_eq_ok.1 h
  split_ifs at h with hc
  obtain ⟨o2, h2, r2⟩ := r1.rotate (localAngAcc b o.mass (Rᵀ *ᵥ ω) F M)
  rw [h2] at h
  simp only [Res.ok_bind] at h
  obtain ⟨o3, h3, r3⟩ := r2.rotate ((1 / o.mass) • F - b.comdd - corioCentri b (Rᵀ *ᵥ ω) + b.com ⨯₃ (Rᵀ *ᵥ (R *ᵥ localAngAcc b o.mass (Rᵀ *ᵥ ω) F M)))
  rw [h3] at h
  simp only [Res.ok_bind, Res.ok.injEq, Prod.mk.injEq] at h
  push Not at hc
  obtain ⟨rfl, rfl, -⟩ := h
  exact ⟨b, hb, hc.1, hc.2, rfl, rfl⟩

theorem computeAccelerations_live {o : Observer} {k : Kin} {F M : V3} {p v x y : Option V3} {R : M3} {ω : V3} {b : Body}
    (hk : k.Has ⟨p, some R, v, some ω, x, y⟩) (hb : o.body = .ok b) (hm : o.mass ≠ 0) (hd : (inertiaAtOrigin b o.mass).det ≠ 0) :
    ∃ a α k', o.computeAccelerations k F M = .ok (a, α, k') ∧ k'.Has ⟨p, some R, v, some ω, x, y⟩ := by
  unfold computeAccelerations
  obtain ⟨o1, h1, r1⟩ := hk.ori.toMatrix3
  rw [h1]
  simp only [Res.ok_bind, hk.angVel.read, hb]
  rw [if_neg (by push Not; exact ⟨hm, hd⟩)]
  obtain ⟨o2, h2, r2⟩ := r1.rotate (localAngAcc b o.mass (Rᵀ *ᵥ ω) F M)
  rw [h2]
  simp only [Res.ok_bind]
  obtain ⟨o3, h3, r3⟩ := r2.rotate ((1 / o.mass) • F - b.comdd - corioCentri b (Rᵀ *ᵥ ω) + b.com ⨯₃ (Rᵀ *ᵥ (R *ᵥ localAngAcc b o.mass (Rᵀ *ᵥ ω) F M)))
  rw [h3]
  exact ⟨_, _, _, rfl, hk.setOri rfl r3⟩

/-- Euler's equation in the frame. -/
theorem euler_local {b : Body} {m : ℝ} (hd : (inertiaAtOrigin b m).det ≠ 0) (hm : m ≠ 0) (Ω F M : V3) :
    let α := localAngAcc b m Ω F M
    let A := (1 / m) • F - b.comdd - corioCentri b Ω + b.com ⨯₃ α
    b.inertia *ᵥ α + b.inertiad *ᵥ Ω + b.sigmad + Ω ⨯₃ (b.inertia *ᵥ Ω + b.sigma) + m • (b.com ⨯₃ A) = M := by
  intro α A
  have h1 : inertiaAtOrigin b m *ᵥ α = M - b.inertiad *ᵥ Ω - b.sigmad - Ω ⨯₃ (b.inertia *ᵥ Ω + b.sigma) - b.com ⨯₃ (F - m • (b.comdd + corioCentri b Ω)) := by
    show inertiaAtOrigin b m *ᵥ ((inertiaAtOrigin b m)⁻¹ *ᵥ _) = _
    rw [mulVec_mulVec, Matrix.mul_nonsing_inv _ (isUnit_iff_ne_zero.2 hd), one_mulVec]
  have h2 : inertiaAtOrigin b m *ᵥ α = b.inertia *ᵥ α + m • (b.com ⨯₃ (b.com ⨯₃ α)) := by
    rw [inertiaAtOrigin, add_mulVec, smul_mulVec, skew2_mulVec]
  have h3 : m • (b.com ⨯₃ A) = b.com ⨯₃ (F - m • (b.comdd + corioCentri b Ω)) + m • (b.com ⨯₃ (b.com ⨯₃ α)) := by
    have : m • A = (F - m • (b.comdd + corioCentri b Ω)) + m • (b.com ⨯₃ α) := by
      simp only [A, smul_add, smul_sub, smul_smul, mul_one_div_cancel hm, one_smul]
      abel
    rw [← cross_smul, this, cross_add, cross_smul]
  rw [h3]
  rw [h2] at h1
  have : b.inertia *ᵥ α = M - b.inertiad *ᵥ Ω - b.sigmad - Ω ⨯₃ (b.inertia *ᵥ Ω + b.sigma) - b.com ⨯₃ (F - m • (b.comdd + corioCentri b Ω))
      - m • (b.com ⨯₃ (b.com ⨯₃ α)) := by rw [← h1]; abel
  rw [this]
  abel

/-! ## The total wrench -/

theorem seg3_eq {x : DVec} {i : ℕ} {w : Fin 3 → ℝ} (h : x.seg 3 i = .ok w) : w = at3 x i := by
  unfold DVec.seg at h
  split_ifs at h with hi
  cases h
  funext j
  rw [at3, dif_pos (by have := j.2; omega)]

theorem addContactWrench_eq {x : DVec} {c : Contact} {w w' t : V3 × V3} (hc : Contact.Applies c x t) (h : addContactWrench x w c = .ok w') :
    w' = w + t := by
  unfold addContactWrench at h
  unfold Contact.Applies at hc
  split_ifs at h hc with hs
  · obtain ⟨p, R, v, ω, a, b, hk, rfl⟩ := hc
    simp only [Res.bind_eq_ok, Contact.index] at h
    obtain ⟨i, ⟨-, -, hi⟩, f, hf, lf, hlf, τ, hτ, lt, hlt, q, hq, h⟩ := h
    cases hi
    rw [seg3_eq hf] at hlf
    rw [seg3_eq hτ] at hlt
    have hp := hk.pos.read
    rw [hp] at hq
    cases hq
    obtain ⟨o1, h1, -⟩ := hk.ori.rotate (at3 x (c.stateIndex.toNat + 7))
    obtain ⟨o2, h2, -⟩ := hk.ori.rotate (at3 x (c.stateIndex.toNat + 7 + 3))
    rw [Contact.rotate, h1] at hlf
    rw [Contact.rotate, h2] at hlt
    cases hlf
    cases hlt
    cases h
    rfl
  · cases h
    rw [hc]
    simp

theorem foldl_wrench {x : DVec} : ∀ {l : List Contact} {ws : List (V3 × V3)} {w w' : V3 × V3}, List.Forall₂ (fun c w => Contact.Applies c x w) l ws →
    l.foldlM (addContactWrench x) w = .ok w' → w' = w + ((ws.map Prod.fst).sum, (ws.map Prod.snd).sum)
  | [], _, w, w', .nil, h => by cases h; simp
  | c :: l, t :: ws, w, w', .cons h1 h2, h => by
    simp only [List.foldlM_cons, Res.bind_eq_ok] at h
    obtain ⟨w1, e1, e2⟩ := h
    rw [foldl_wrench h2 e2, addContactWrench_eq h1 e1]
    simp only [List.map_cons, List.sum_cons]
    ext i <;> simp [add_assoc]

theorem wrench_eq {o : Observer} {F M : V3} {w : V3 × V3} (h : TotalWrench o F M) (e : o.addUnmodeledAndContactWrench o.x (o.addForce, o.addTorque) = .ok w) :
    w = (F, M) := by
  obtain ⟨ws, h1, rfl, rfl⟩ := h
  unfold addUnmodeledAndContactWrench at e
  simp only [Res.bind_eq_ok, unmodeledTorqueIndex, unmodeledWrenchIndex] at e
  obtain ⟨i, ⟨i0, hi0, hi⟩, f, hf, j, ⟨i1, ⟨i2, hi2, hi1⟩, hj⟩, τ, hτ, e⟩ := e
  rw [gyroBiasIndex_eq] at hi0 hi2
  cases hi
  cases hi1
  cases hj
  obtain ⟨-, rfl⟩ := hi0
  obtain ⟨-, rfl⟩ := hi2
  rw [foldl_wrench h1 e, seg3_eq hf, seg3_eq hτ]
  have : (13 + 3 * 0 + 3 * o.maxIMU) = 13 + 3 * o.maxIMU := by omega
  have h2 : (13 + 3 * 0 + 3 * o.maxIMU + 3) = 16 + 3 * o.maxIMU := by omega
  rw [h2, this]
  rfl

/-! ## The equations -/

/-- What is known of the observer after `estimateAccelerations`. -/
theorem estimate_facts {o o' : Observer} {r : Robot} {t : ℝ} {F M : V3} (hd : Describes o r t) (hw : TotalWrench o F M) (h : o.estimateAccelerations = .ok o')
    (hm : r.Moves o' t) :
    let R := r.frame.R t
    let Ω := Rᵀ *ᵥ r.frame.ω t
    let b : Body := ⟨r.c t, r.c' t, r.c'' t, r.σ t, r.σ' t, r.I t, r.I' t⟩
    IsRot R ∧ o.mass ≠ 0 ∧ (inertiaAtOrigin b o.mass).det ≠ 0 ∧ Rᵀ *ᵥ r.frame.α t = localAngAcc b o.mass Ω F M ∧
      Rᵀ *ᵥ (r.frame.a t + g) = (1 / o.mass) • F - b.comdd - corioCentri b Ω + b.com ⨯₃ localAngAcc b o.mass Ω F M := by
  intro R Ω b
  obtain ⟨⟨p, v, x, y, hk⟩, ⟨_, h1⟩, ⟨_, h2⟩, ⟨_, h3⟩, ⟨_, h4⟩, ⟨_, h5⟩, ⟨_, h6⟩, ⟨_, h7⟩⟩ := hd
  have hb : o.body = .ok b := by
    simp only [body, h1, h2, h3, h4, h5, h6, h7, ix, Res.ok_bind, b]
  unfold estimateAccelerations at h
  simp only [Res.bind_eq_ok] at h
  obtain ⟨w, ew, ⟨a, α, k'⟩, ec, h⟩ := h
  obtain rfl := wrench_eq hw ew
  obtain ⟨b', hb', m0, d0, eα, ea⟩ := computeAccelerations_ok hk ec
  rw [hb] at hb'
  cases hb'
  cases h
  have e1 : a = r.frame.a t := by have := hm.1; simp only [CItem.assign, Item, CItem.mk.injEq, true_and, Option.some.injEq] at this; exact this
  have e2 : α = r.frame.α t := by have := hm.2; simp only [CItem.assign, Item, CItem.mk.injEq, true_and, Option.some.injEq] at this; exact this
  have hR : IsRot R := r.frame.rot t
  rw [e1] at ea
  rw [e2] at eα ea
  have eα' : Rᵀ *ᵥ r.frame.α t = localAngAcc b o.mass Ω F M := by rw [eα, hR.cancel]
  refine ⟨hR, m0, d0, eα', ?_⟩
  rw [ea, eα', show g = gravity from rfl, sub_add_cancel]
  exact hR.cancel _

/-- **C61**, Euler's equation: if the robot that the observer describes has the accelerations given by `estimateAccelerations`, the rate of its angular momentum
about the origin of its frame is the total torque, minus what the acceleration and the weight of the origin give. -/
theorem C61_euler (o o' : Observer) (r : Robot) (t : ℝ) (F M : V3) (hd : Describes o r t) (hw : TotalWrench o F M) (h : o.estimateAccelerations = .ok o')
    (hm : r.Moves o' t) :
    HasDerivAt r.momentum (r.frame.R t *ᵥ M - (r.frame.R t *ᵥ r.c t) ⨯₃ (o.mass • (r.frame.a t + g))) t := by
  obtain ⟨hR, m0, d0, eα, ea⟩ := estimate_facts hd hw h hm
  have he := euler_local d0 m0 ((r.frame.R t)ᵀ *ᵥ r.frame.ω t) F M
  simp only at he eα ea
  rw [← ea, ← eα] at he
  have hΩ : HasDerivAt (fun t => (r.frame.R t)ᵀ *ᵥ r.frame.ω t) ((r.frame.R t)ᵀ *ᵥ r.frame.α t) t := by
    have := r.frame.turns.transpose_mulVec (r.frame.dω t)
    convert! this using 1
    simp
  have hI : HasDerivAt (fun t => r.I t *ᵥ ((r.frame.R t)ᵀ *ᵥ r.frame.ω t))
      (r.I' t *ᵥ ((r.frame.R t)ᵀ *ᵥ r.frame.ω t) + r.I t *ᵥ ((r.frame.R t)ᵀ *ᵥ r.frame.α t)) t := by
    obtain ⟨x0, x1, x2⟩ := hasDerivAt3.1 hΩ
    have hs : (fun t => r.I t *ᵥ ((r.frame.R t)ᵀ *ᵥ r.frame.ω t)) = fun t => ((r.frame.R t)ᵀ *ᵥ r.frame.ω t) 0 • (r.I t *ᵥ ![1, 0, 0]) +
        ((r.frame.R t)ᵀ *ᵥ r.frame.ω t) 1 • (r.I t *ᵥ ![0, 1, 0]) + ((r.frame.R t)ᵀ *ᵥ r.frame.ω t) 2 • (r.I t *ᵥ ![0, 0, 1]) := by
      funext t; exact Rot.mulVec_sum _ _
    rw [hs]
    have := ((x0.smul (r.dI t ![1, 0, 0])).add (x1.smul (r.dI t ![0, 1, 0]))).add (x2.smul (r.dI t ![0, 0, 1]))
    convert! this using 1
    rw [Rot.mulVec_sum (r.I' t), Rot.mulVec_sum (r.I t) ((r.frame.R t)ᵀ *ᵥ r.frame.α t)]
    abel
  have := r.frame.turns.mulVec (hI.add (r.dσ t))
  convert! this using 1
  simp only [Pi.add_apply]
  conv_lhs => rw [← he]
  have e1 : r.frame.ω t = r.frame.R t *ᵥ ((r.frame.R t)ᵀ *ᵥ r.frame.ω t) := (hR.cancel' _).symm
  have e2 : r.frame.a t + g = r.frame.R t *ᵥ ((r.frame.R t)ᵀ *ᵥ (r.frame.a t + g)) := (hR.cancel' _).symm
  conv_lhs => rw [e2]
  generalize (r.frame.R t)ᵀ *ᵥ (r.frame.a t + g) = A
  conv_rhs => rw [e1]
  generalize (r.frame.R t)ᵀ *ᵥ r.frame.ω t = Ω
  generalize (r.frame.R t)ᵀ *ᵥ r.frame.α t = α
  simp only [hR.cancel, mulVec_add, mulVec_smul, hR.cross, cross_smul, cross_add, Pi.add_apply]
  abel

theorem comVel (r : Robot) : Deriv r.com fun t => r.frame.v t + (r.frame.ω t ⨯₃ (r.frame.R t *ᵥ r.c t) + r.frame.R t *ᵥ r.c' t) :=
  fun t => (r.frame.dp t).add (r.frame.turns.mulVec (r.dc t))

theorem comAcc (r : Robot) (t : ℝ) : HasDerivAt (fun t => r.frame.v t + (r.frame.ω t ⨯₃ (r.frame.R t *ᵥ r.c t) + r.frame.R t *ᵥ r.c' t))
    (r.frame.a t + (r.frame.α t ⨯₃ (r.frame.R t *ᵥ r.c t) + r.frame.ω t ⨯₃ (r.frame.ω t ⨯₃ (r.frame.R t *ᵥ r.c t) + r.frame.R t *ᵥ r.c' t) +
      (r.frame.ω t ⨯₃ (r.frame.R t *ᵥ r.c' t) + r.frame.R t *ᵥ r.c'' t))) t :=
  (r.frame.dv t).add ((hasDerivAt_cross (r.frame.dω t) (r.frame.turns.mulVec (r.dc t))).add (r.frame.turns.mulVec (r.dc' t)))

/-- **C61**, what Newton's second law becomes: the acceleration of the centre of mass is wrong by the centrifugal term, which is counted twice. -/
theorem C61_newton_defect (o o' : Observer) (r : Robot) (t : ℝ) (F M : V3) (hd : Describes o r t) (hw : TotalWrench o F M)
    (h : o.estimateAccelerations = .ok o') (hm : r.Moves o' t) (V : ℝ → V3) (A : V3) (hV : Deriv r.com V) (hA : HasDerivAt V A t) :
    o.mass • (A + g) = r.frame.R t *ᵥ F - o.mass • (r.frame.ω t ⨯₃ (r.frame.ω t ⨯₃ (r.frame.R t *ᵥ r.c t))) := by
  obtain ⟨hR, m0, d0, eα, ea⟩ := estimate_facts hd hw h hm
  simp only at eα ea
  obtain rfl : V = fun t => r.frame.v t + (r.frame.ω t ⨯₃ (r.frame.R t *ᵥ r.c t) + r.frame.R t *ᵥ r.c' t) := by
    funext t
    exact (hV t).unique (comVel r t)
  rw [hA.unique (comAcc r t)]
  rw [← eα] at ea
  have e1 : r.frame.ω t = r.frame.R t *ᵥ ((r.frame.R t)ᵀ *ᵥ r.frame.ω t) := (hR.cancel' _).symm
  have e2 : r.frame.a t = r.frame.R t *ᵥ ((r.frame.R t)ᵀ *ᵥ (r.frame.a t + g)) - g := by rw [hR.cancel', add_sub_cancel_right]
  have e3 : r.frame.α t = r.frame.R t *ᵥ ((r.frame.R t)ᵀ *ᵥ r.frame.α t) := (hR.cancel' _).symm
  rw [ea] at e2
  have e4 : F = o.mass • ((1 / o.mass) • F) := by rw [smul_smul, mul_one_div_cancel m0, one_smul]
  conv_rhs => rw [e4]
  generalize (1 / o.mass) • F = f at *
  simp only [corioCentri] at e2
  rw [e2, e3, e1]
  simp only [hR.cancel]
  generalize (r.frame.R t)ᵀ *ᵥ r.frame.ω t = Ω
  generalize (r.frame.R t)ᵀ *ᵥ r.frame.α t = α
  rw [mulVec_smul, ← smul_sub]
  congr 1
  simp only [← hR.cross, ← mulVec_add, ← mulVec_sub]
  rw [sub_add_eq_add_sub, sub_add_cancel, ← mulVec_add]
  congr 1
  rw [← cross_anticomm α]
  simp only [cross_add, two_smul]
  abel

end StateObs.KO
