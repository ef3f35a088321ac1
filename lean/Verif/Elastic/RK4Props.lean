import Verif.Elastic.RK4Lemmas
import Verif.Elastic.NewtonLive
import Verif.Elastic.Reach
import Verif.Rot.Props
/-! # C114: the integration by the method of Runge and Kutta -/

namespace StateObs.Elastic
open StateObs Matrix Rot Kine Imu

variable {G : Type}

/-- **C114**: a call of `iterateDynamicsRK4` is one step of the method of Runge and Kutta of order four for the equations of Newton and Euler of the robot under the
given wrenches. The orientation vector that it gives is the one of the orientation reached, and not longer than π. -/
def C114_statement : Prop :=
  ∀ (dt0 : ℝ) (ops : List (Op Unit)) (s : Sys Unit) (i : Input) (fc tc fc' tc' : Fin 2 → V3) (p θ v ω fm tm p' θ' v' ω' : V3) (dt : ℝ),
    run dt0 () ops = .ok (s, ()) → i.inertiaᵀ = i.inertia → s.iterateRK4 i fc tc p θ v ω fm tm dt = .ok ((p', θ', v', ω'), fc', tc') →
    let law := Loaded.NewtonEuler ⟨s.mass, s.model, i, fc, tc, fm, tm⟩
    RungeKutta law law law law dt ⟨p, rotationVectorToRotationMatrix θ, v, ω⟩ ⟨p', NormedSpace.exp (hat θ'), v', ω'⟩ ∧ nrm θ' ≤ Real.pi

/-- **C114**, what the call does: at the third stage the forces and the moments of the contacts are exchanged. -/
theorem C114_stages (dt0 : ℝ) (g g' : G) (ops : List (Op G)) (s : Sys G) (i : Input) (fc tc fc' tc' : Fin 2 → V3) (p θ v ω fm tm p' θ' v' ω' : V3) (dt : ℝ)
    (hr : run dt0 g ops = .ok (s, g')) (hI : i.inertiaᵀ = i.inertia) (h : s.iterateRK4 i fc tc p θ v ω fm tm dt = .ok ((p', θ', v', ω'), fc', tc')) :
    let robot : Loaded := ⟨s.mass, s.model, i, fc, tc, fm, tm⟩
    RungeKutta robot.NewtonEuler robot.NewtonEuler robot.exchanged.NewtonEuler robot.NewtonEuler dt
      ⟨p, rotationVectorToRotationMatrix θ, v, ω⟩ ⟨p', NormedSpace.exp (hat θ'), v', ω'⟩ ∧ nrm θ' ≤ Real.pi := by
  obtain ⟨R', hR, rfl, hk, -⟩ := iterateRK4_ok (run_inv hr) hI h
  obtain ⟨c1, c2, -⟩ := C35_matrix R' hR
  rw [c1]
  exact ⟨hk, c2⟩

/-- **C114** with the missing hypothesis: the forces and the moments of the contacts have the same components (no contact, for instance, or none that acts). -/
theorem C114_partial (dt0 : ℝ) (g g' : G) (ops : List (Op G)) (s : Sys G) (i : Input) (fc tc fc' tc' : Fin 2 → V3) (p θ v ω fm tm p' θ' v' ω' : V3) (dt : ℝ)
    (hr : run dt0 g ops = .ok (s, g')) (hI : i.inertiaᵀ = i.inertia) (h : s.iterateRK4 i fc tc p θ v ω fm tm dt = .ok ((p', θ', v', ω'), fc', tc'))
    (hc : if s.model = 1 then ∀ k : Fin 2, k.1 < i.contacts.length → fc k = tc k else fc 0 = tc 0) :
    let law := Loaded.NewtonEuler ⟨s.mass, s.model, i, fc, tc, fm, tm⟩
    RungeKutta law law law law dt ⟨p, rotationVectorToRotationMatrix θ, v, ω⟩ ⟨p', NormedSpace.exp (hat θ'), v', ω'⟩ ∧ nrm θ' ≤ Real.pi := by
  have hs := C114_stages dt0 g g' ops s i fc tc fc' tc' p θ v ω fm tm p' θ' v' ω' dt hr hI h
  simp only at hs ⊢
  have e : (Loaded.exchanged ⟨s.mass, s.model, i, fc, tc, fm, tm⟩).NewtonEuler = Loaded.NewtonEuler ⟨s.mass, s.model, i, fc, tc, fm, tm⟩ := by
    funext x a α
    have hk : s.model = 1 → ∀ k : Fin 2, (i.contacts[k.1]?) = none ∨ fc k = tc k := fun hm k => by
      rw [if_pos hm] at hc
      by_cases hl : k.1 < i.contacts.length
      · exact .inr (hc k hl)
      · exact .inl (List.getElem?_eq_none (not_lt.1 hl))
    have hf : s.model = 1 → ∀ k, (Loaded.exchanged ⟨s.mass, s.model, i, fc, tc, fm, tm⟩).contactForce x k = Loaded.contactForce ⟨s.mass, s.model, i, fc, tc, fm, tm⟩ x k := fun hm k => by
      rcases hk hm k with e | e <;> simp [Loaded.contactForce, Loaded.exchanged, e]
    have ht : s.model = 1 → ∀ k, (Loaded.exchanged ⟨s.mass, s.model, i, fc, tc, fm, tm⟩).contactMoment x k = Loaded.contactMoment ⟨s.mass, s.model, i, fc, tc, fm, tm⟩ x k := fun hm k => by
      unfold Loaded.contactMoment
      rw [hf hm]
      rcases hk hm k with e | e <;> simp [Loaded.exchanged, e]
    have hF : (Loaded.exchanged ⟨s.mass, s.model, i, fc, tc, fm, tm⟩).force x = Loaded.force ⟨s.mass, s.model, i, fc, tc, fm, tm⟩ x := by
      unfold Loaded.force
      by_cases hm : s.model = 1
      · rw [hf hm, hf hm, if_pos hm, if_pos (show (Loaded.exchanged ⟨s.mass, s.model, i, fc, tc, fm, tm⟩).model = 1 from hm)]; rfl
      · rw [if_neg hm] at hc
        simp [Loaded.exchanged, hm, hc]
    have hM : (Loaded.exchanged ⟨s.mass, s.model, i, fc, tc, fm, tm⟩).moment x = Loaded.moment ⟨s.mass, s.model, i, fc, tc, fm, tm⟩ x := by
      unfold Loaded.moment
      by_cases hm : s.model = 1
      · rw [ht hm, ht hm, if_pos hm, if_pos (show (Loaded.exchanged ⟨s.mass, s.model, i, fc, tc, fm, tm⟩).model = 1 from hm)]; rfl
      · rw [if_neg hm] at hc
        simp [Loaded.exchanged, hm, hc]
    unfold Loaded.NewtonEuler
    rw [hF, hM]
    rfl
  rw [e] at hs
  exact hs

/-- **C114**, wrenches: the wrenches of the elastic contacts that the call gives are those of the springs and the dampers in the state reached; there is none where there is no
contact. -/
theorem C114_wrenches (dt0 : ℝ) (g g' : G) (ops : List (Op G)) (s : Sys G) (i : Input) (fc tc fc' tc' : Fin 2 → V3) (p θ v ω fm tm p' θ' v' ω' : V3) (dt : ℝ)
    (hr : run dt0 g ops = .ok (s, g')) (hI : i.inertiaᵀ = i.inertia) (hm : s.model = 1)
    (h : s.iterateRK4 i fc tc p θ v ω fm tm dt = .ok ((p', θ', v', ω'), fc', tc')) :
    i.contacts.length ≤ 2 ∧ ∀ k : Fin 2, (i.contacts[k.1]? = none → fc' k = 0 ∧ tc' k = 0) ∧
      ∀ c, i.contacts[k.1]? = some c → let R := rotationVectorToRotationMatrix θ'; let Q := R * rotationVectorToRotationMatrix c.ori
        fc' k = -(s.Kfe *ᵥ (Qᵀ *ᵥ (p' + R *ᵥ c.pos - c.pos))) - s.Kfv *ᵥ (Qᵀ *ᵥ (v' + ω' ⨯₃ (R *ᵥ c.pos) + R *ᵥ c.vel)) ∧
        tc' k = -(s.Kte *ᵥ (Qᵀ *ᵥ θ')) - s.Ktv *ᵥ (Qᵀ *ᵥ ω') := by
  obtain ⟨R', hR, hθ, hk, hf⟩ := iterateRK4_ok (run_inv hr) hI h
  unfold Sys.forcesPure at hf
  rw [if_pos hm] at hf
  refine ⟨?_, fun k => ⟨fun hn => ?_, fun c hc => ?_⟩⟩
  · by_contra hl
    match i.contacts, hl, hf with
    | [], hl, _ => simp at hl
    | [_], hl, _ => simp at hl
    | [_, _], hl, _ => simp at hl
    | c :: d :: e :: cs, _, hf => cases hf
  · have := elastic_list hf k
    rw [hn] at this
    simpa using this
  · have := elastic_list hf k
    rw [hc] at this
    simp only [Option.elim_some, Sys.contactForce, Prod.mk.injEq, (C37_skew _ _).1] at this
    simp only [this, transpose_mul, ← mulVec_mulVec, sub_eq_add_neg, and_true]
    rw [add_comm v']

/-- **C114**, return: the call returns if there is a mass, if the inertia about the centre of mass is positive definite, and if there are at most two elastic contacts. -/
theorem C114_return (dt0 : ℝ) (g g' : G) (ops : List (Op G)) (s : Sys G) (i : Input) (fc tc : Fin 2 → V3) (p θ v ω fm tm : V3) (dt : ℝ)
    (hr : run dt0 g ops = .ok (s, g')) (hM : s.mass ≠ 0) (hI : (i.inertia + s.mass • skewSymmetric2 i.com).PosDef) (hm : s.model = 1) (hc : i.contacts.length ≤ 2) :
    ∃ p' θ' v' ω' fc' tc', s.iterateRK4 i fc tc p θ v ω fm tm dt = .ok ((p', θ', v', ω'), fc', tc') := by
  have hi := run_inv hr
  have hacc : ∀ (fc tc : Fin 2 → V3) (rt : Fin 4 → V3 × M3) (R : M3) (p ω : V3), IsRot R → ∃ r, Sys.accel { s with fc := fc, tc := tc, rot := rt } i R p ω fm tm = .ok r :=
      fun fc tc rt R p ω hR => by
    unfold Sys.accel
    obtain ⟨w, hw⟩ := contactWrench_live (model := s.model) (R := R) (p := p) (cs := i.contacts) (fc := fc) (tc := tc) (fm := fm) (tm := tm) (a := i.addForce) (b := i.addMoment) fun _ => hc
    simp only
    rw [hw]
    exact accelerations_live hM (comInertia_posDef hR hI)
  have hmul : ∀ (R : M3) (ω : V3) (h : ℝ), IsRot R → IsRot (integrateMat R ω h) := fun R ω h hR => (rv_isRot _).mul hR
  obtain ⟨rt, e, hrt⟩ := rotation_eq (s := { s with fc := fc, tc := tc }) hi.rot θ 0
  have h0 := rv_isRot θ
  unfold Sys.iterateRK4
  simp only [e]
  obtain ⟨⟨a1, α1⟩, h1⟩ := hacc fc tc rt _ p ω h0
  rw [h1]
  simp only [Res.ok_bind]
  obtain ⟨⟨a2, α2⟩, h2⟩ := hacc fc tc rt _ (integratePos p v (dt / 2)) (ω + (dt / 2) • α1) (hmul _ ω (dt / 2) h0)
  rw [h2]
  simp only [Res.ok_bind]
  obtain ⟨⟨a3, α3⟩, h3⟩ := hacc tc fc rt _ (integratePos p (v + (dt / 2) • a1) (dt / 2)) (ω + (dt / 2) • α2) (hmul _ (ω + (dt / 2) • α1) (dt / 2) h0)
  rw [h3]
  simp only [Res.ok_bind]
  obtain ⟨⟨a4, α4⟩, h4⟩ := hacc fc tc rt _ (integratePos p (v + (dt / 2) • a2) dt) (ω + dt • α3) (hmul _ (ω + (dt / 2) • α2) dt h0)
  rw [h4]
  simp only [Res.ok_bind]
  generalize ((AngleAxis.ofMat _).angle • (AngleAxis.ofMat _).axis : V3) = θ'
  obtain ⟨rt', e', hr'⟩ := rotation_eq (s := { s with fc := fc, tc := tc, rot := rt }) hrt θ' 0
  simp only [e']
  obtain ⟨rt2, -, e2⟩ := forces_eq (s := { s with fc := fc, tc := tc, rot := rt' }) hr' i.contacts
      (integratePos (integratePos (integratePos (integratePos p v (dt / 6)) (v + (dt / 2) • a1) (dt / 3)) (v + (dt / 2) • a2) (dt / 3)) (v + dt • a3) (dt / 6))
      (v + (dt / 6) • (a1 + (2 : ℝ) • a2 + (2 : ℝ) • a3 + a4)) θ' (rotationVectorToRotationMatrix θ') (ω + (dt / 6) • (α1 + (2 : ℝ) • α2 + (2 : ℝ) • α3 + α4))
  rw [e2]
  unfold Sys.forcesPure
  rw [if_pos (show (_ : Sys G).model = 1 from hm)]
  obtain ⟨w, hw⟩ := elastic_live (s := { s with fc := fc, tc := tc, rot := rt' })
    (p := integratePos (integratePos (integratePos (integratePos p v (dt / 6)) (v + (dt / 2) • a1) (dt / 3)) (v + (dt / 2) • a2) (dt / 3)) (v + dt • a3) (dt / 6))
    (v := v + (dt / 6) • (a1 + (2 : ℝ) • a2 + (2 : ℝ) • a3 + a4)) (θ := θ') (R := rotationVectorToRotationMatrix θ')
    (ω := ω + (dt / 6) • (α1 + (2 : ℝ) • α2 + (2 : ℝ) • α3 + α4)) hc
  rw [hw]
  exact ⟨_, _, _, _, _, _, rfl⟩

/-- **C114**, exact: for a robot without contacts whose centre of mass is the origin of the frame, the position and the velocity reached are those of a
constant force, whatever the duration. -/
theorem C114_exact (dt0 : ℝ) (g g' : G) (ops : List (Op G)) (s : Sys G) (i : Input) (fc tc fc' tc' : Fin 2 → V3) (p θ v ω fm tm p' θ' v' ω' : V3) (dt : ℝ)
    (hr : run dt0 g ops = .ok (s, g')) (hI : i.inertiaᵀ = i.inertia) (hM : s.mass ≠ 0) (hm : s.model = 1) (hc : i.contacts = [])
    (hcom : i.com = 0 ∧ i.comd = 0 ∧ i.comdd = 0) (hadd : i.addForce = 0)
    (h : s.iterateRK4 i fc tc p θ v ω fm tm dt = .ok ((p', θ', v', ω'), fc', tc')) :
    v' = v + dt • ((1 / s.mass) • fm - ![0, 0, 9.8]) ∧ p' = p + dt • v + (dt ^ 2 / 2) • ((1 / s.mass) • fm - ![0, 0, 9.8]) := by
  obtain ⟨hk, -⟩ := C114_partial dt0 g g' ops s i fc tc fc' tc' p θ v ω fm tm p' θ' v' ω' dt hr hI h (by rw [if_pos hm, hc]; simp)
  have key : ∀ x a α, Loaded.NewtonEuler ⟨s.mass, s.model, i, fc, tc, fm, tm⟩ x a α → a = (1 / s.mass) • fm - ![0, 0, 9.8] := fun x a α hx => by
    have := hx.1
    simp only [Loaded.comAcc, Loaded.force, Loaded.contactForce, hcom, hadd, hc, hm, mulVec_zero] at this
    simp only [map_zero, add_zero, smul_zero, List.getElem?_nil, Option.elim_none, if_true, zero_add] at this
    rw [show (![0, 0, 9.8] : V3) = gravityUp from rfl, ← one_smul ℝ a, ← one_div_mul_cancel hM, mul_smul, this, smul_sub, smul_smul, one_div_mul_cancel hM, one_smul]
  obtain ⟨a1, α1, a2, α2, a3, α3, a4, α4, x2, x3, x4, n1, rfl, n2, rfl, n3, rfl, n4, hp, hv, -⟩ := hk
  rw [key _ _ _ n1, key _ _ _ n2, key _ _ _ n3, key _ _ _ n4] at hv
  simp only [Body.move, key _ _ _ n1, key _ _ _ n2, key _ _ _ n3] at hp
  simp only at hv
  generalize (1 / s.mass) • fm - ![0, 0, 9.8] = a at *
  constructor
  · rw [hv]; module
  · rw [hp]; module

/-! ## A case: a robot that a contact holds -/

/-- Centre of mass at the origin, unit inertia, one contact at the origin. -/
def heldInput : Input :=
  { com := 0, comd := 0, comdd := 0, inertia := 1, sigma := 0, inertiad := 0, sigmad := 0, posIMU := 0, oriIMU := 0, velIMU := 0, angVelIMU := 0, accIMU := 0,
    addForce := 0, addMoment := 0, contacts := [⟨0, 0, 0, 0⟩] }

/-- The weight of two kilograms. -/
noncomputable def heldForce : Fin 2 → V3 := ![![0, 0, 19.6], 0]

theorem held_law {fc tc : Fin 2 → V3} {x : Body} {a α : V3} (hR : IsRot x.R) (h : Loaded.NewtonEuler ⟨2, 1, heldInput, fc, tc, 0, 0⟩ x a α) :
    a = (1 / 2 : ℝ) • (x.R *ᵥ fc 0) - gravityUp ∧ α = x.R *ᵥ tc 0 := by
  obtain ⟨h1, h2⟩ := h
  have hrv : rotationVectorToRotationMatrix 0 = 1 := rv_zero
  unfold Loaded.momentumRate at h2
  rw [h1] at h2
  simp [Loaded.comAcc, Loaded.force, Loaded.moment, Loaded.contactForce, Loaded.contactMoment, heldInput, hrv] at h1 h2
  constructor
  · have : a = (1 / 2 : ℝ) • ((2 : ℝ) • a) := by rw [smul_smul]; norm_num
    rw [this, h1, smul_sub, smul_smul]
    norm_num
  · rw [← mulVec_mulVec, ← mulVec_mulVec, hR.cancel', hR.cancel', cross_self, add_zero, add_sub_assoc] at h2
    exact add_right_cancel h2

theorem held_posDef : (heldInput.inertia + (2 : ℝ) • skewSymmetric2 heldInput.com).PosDef := by
  have : heldInput.inertia + (2 : ℝ) • skewSymmetric2 heldInput.com = 1 := by
    ext i j
    fin_cases i <;> fin_cases j <;> simp [heldInput, skewSymmetric2, vecMulVec_apply, Matrix.trace, Fin.sum_univ_three]
  rw [this]
  exact PosDef.one

theorem held_zero {x : Body} (hR : x.R = 1) : (1 / 2 : ℝ) • (x.R *ᵥ heldForce 0) - gravityUp = 0 := by
  rw [hR, one_mulVec]
  ext i
  fin_cases i <;> norm_num [heldForce, gravityUp]

/-- **C114** fails: a robot of two kilograms that is held by its contact, which pushes with its weight, must stay at rest; after a second it falls. -/
theorem C114_false : ¬ C114_statement := by
  intro hst
  have hrun := ex_run (G := Unit) 0 ()
  obtain ⟨p', θ', v', ω', fc', tc', h⟩ := C114_return 0 () () exOps (exSys 0) heldInput heldForce 0 0 0 0 0 0 0 1 hrun (by show (2 : ℝ) ≠ 0; norm_num) held_posDef rfl (by simp [heldInput])
  have hI : heldInput.inertiaᵀ = heldInput.inertia := transpose_one
  obtain ⟨h1, -⟩ := hst 0 exOps (exSys 0) heldInput heldForce 0 fc' tc' 0 0 0 0 0 0 p' θ' v' ω' 1 hrun hI h
  obtain ⟨h2, -⟩ := C114_stages 0 () () exOps (exSys 0) heldInput heldForce 0 fc' tc' 0 0 0 0 0 0 p' θ' v' ω' 1 hrun hI h
  rw [show (exSys 0 : Sys Unit).mass = 2 from rfl, show (exSys 0 : Sys Unit).model = 1 from rfl] at h1 h2
  have hrv : rotationVectorToRotationMatrix 0 = 1 := rv_zero
  have one : IsRot (1 : M3) := by rw [← hrv]; exact rv_isRot 0
  rw [hrv] at h1 h2
  have hv1 : v' = 0 := by
    obtain ⟨a1, α1, a2, α2, a3, α3, a4, α4, x2, x3, x4, n1, rfl, n2, rfl, n3, rfl, n4, -, hv, -⟩ := h1
    obtain ⟨rfl, rfl⟩ := held_law one n1
    simp only [Body.move, hrv, Pi.zero_apply, mulVec_zero, smul_zero, add_zero, mul_one, one_mul] at n2 n3 n4 hv
    obtain ⟨rfl, rfl⟩ := held_law one n2
    simp only [hrv, Pi.zero_apply, mulVec_zero, smul_zero, add_zero, mul_one, one_mul] at n3 n4 hv
    obtain ⟨rfl, rfl⟩ := held_law one n3
    simp only [hrv, Pi.zero_apply, mulVec_zero, smul_zero, add_zero, mul_one, one_mul] at n4 hv
    obtain ⟨rfl, rfl⟩ := held_law one n4
    have z := held_zero (x := ⟨0, 1, 0, 0⟩) rfl
    simp only at z
    rw [z] at hv
    simpa using hv
  have hv2 : v' = (1 / 3 : ℝ) • -gravityUp := by
    obtain ⟨a1, α1, a2, α2, a3, α3, a4, α4, x2, x3, x4, n1, rfl, n2, rfl, n3, rfl, n4, -, hv, -⟩ := h2
    have z := held_zero (x := ⟨0, 1, 0, 0⟩) rfl
    simp only at z
    obtain ⟨rfl, rfl⟩ := held_law one n1
    simp only [Body.move, hrv, Pi.zero_apply, mulVec_zero, smul_zero, add_zero, mul_one, one_mul] at n2 n3 n4 hv
    obtain ⟨rfl, rfl⟩ := held_law one n2
    simp only [hrv, Pi.zero_apply, mulVec_zero, smul_zero, add_zero, mul_one, one_mul] at n3 n4 hv
    obtain ⟨rfl, rfl⟩ := held_law one n3
    simp only [hrv, Pi.zero_apply, mulVec_zero, smul_zero, add_zero, mul_one, one_mul] at n4 hv
    obtain ⟨rfl, rfl⟩ := held_law one n4
    rw [z] at hv
    simp only [Pi.zero_apply, mulVec_zero, smul_zero, zero_add, add_zero, zero_sub] at hv
    rw [hv, smul_smul]
    norm_num
  have := congrFun (hv1.symm.trans hv2) 2
  simp only [gravityUp, Pi.zero_apply, Pi.smul_apply, Pi.neg_apply, cons_val, smul_eq_mul] at this
  norm_num at this

/-- The hypotheses of `C114_partial` and `C114_exact` are met: the same robot without contacts. -/
example : ∃ p' θ' v' ω' fc' tc', (exSys 0 : Sys Unit).iterateRK4 { heldInput with contacts := [] } 0 0 0 ![0, 0, 1] ![1, 0, 0] ![0, 1, 1] 0 0 1 = .ok ((p', θ', v', ω'), fc', tc') :=
  C114_return 0 () () exOps (exSys 0) _ 0 0 0 ![0, 0, 1] ![1, 0, 0] ![0, 1, 1] 0 0 1 (ex_run 0 ()) (by show (2 : ℝ) ≠ 0; norm_num) held_posDef rfl (by simp)

end StateObs.Elastic
