import Verif.Elastic.ForceLemmas
/-! # C89: the contacts are springs and dampers -/

namespace StateObs.Elastic
open StateObs Matrix Rot Kine Imu
open StateObs.KO (Robot at3)

variable {G : Type}

/-- The point of the frame that touches the ground moves. -/
theorem point_deriv {m : Motion} {c : ℝ → V3} {c' : V3} {t : ℝ} (hc : HasDerivAt c c' t) :
    HasDerivAt (fun t => m.p t + m.R t *ᵥ c t) (m.v t + (m.ω t ⨯₃ (m.R t *ᵥ c t) + m.R t *ᵥ c')) t := (m.dp t).add (m.turns.mulVec hc)

/-- **C89**, springs: the wrench of an elastic contact, in the frame of the contact. The force is the one of a spring pulling the contact back where it is at rest and of a damper
slowing the contact point down; the moment comes from the orientation and the angular velocity. -/
theorem C89_spring (dt : ℝ) (g g' : G) (ops : List (Op G)) (s s' : Sys G) (x u : DVec) (l : List (V3 × V3)) (hr : run dt g ops = .ok (s, g')) (hm : s.model = 1)
    (h : s.forcesAndMoments x u = .ok (l, s')) (m : Motion) (t : ℝ) (hx : Moves x m t) (i : ℕ) (hi : i < s.nb) (c : ℝ → V3) (hc : c t = contactPos u i)
    (hc' : HasDerivAt c (contactVel u i) t) (V : V3) (hV : HasDerivAt (fun t => m.p t + m.R t *ᵥ c t) V t) :
    l.length = s.nb ∧ l[i]? = some
      (-(s.Kfe *ᵥ ((m.R t * contactOri u i)ᵀ *ᵥ (m.p t + m.R t *ᵥ c t - c t))) - s.Kfv *ᵥ ((m.R t * contactOri u i)ᵀ *ᵥ V),
       -(s.Kte *ᵥ ((m.R t * contactOri u i)ᵀ *ᵥ at3 x 3)) - s.Ktv *ᵥ ((m.R t * contactOri u i)ᵀ *ᵥ m.ω t)) := by
  obtain ⟨w, hw, hn, rfl⟩ := forcesAndMoments_ok (run_inv hr) h
  unfold Sys.forcesPure at hw
  rw [if_pos hm, List.range_eq_range'] at hw
  refine ⟨by simp, ?_⟩
  rw [List.getElem?_map, List.getElem?_range hi]
  have hi2 : i < 2 := by omega
  simp only [Option.map_some, dif_pos hi2]
  have e := elasticPure_ok s.nb 0 hw ⟨i, hi2⟩
  rw [if_pos (by show 0 ≤ i ∧ i < 0 + s.nb; omega)] at e
  rw [e, hV.unique (point_deriv hc'), hc, hx.position, hx.orientation, hx.velocity, hx.angularVelocity, transpose_mul]
  unfold Sys.contactForce
  simp only [(C37_skew _ _).1, ← mulVec_mulVec]
  congr 2
  · rw [sub_eq_add_neg]
    congr 4
    show _ = _
    unfold contactPos contactVel
    simp only [contactIn]
    abel

/-- **C89**, isotropic: if the stiffness and the damping are the same in all directions (as they are by default), the force in the world pulls the contact back and slows it down. -/
theorem C89_isotropic (dt : ℝ) (g g' : G) (ops : List (Op G)) (s s' : Sys G) (x u : DVec) (l : List (V3 × V3)) (hr : run dt g ops = .ok (s, g')) (hm : s.model = 1)
    (h : s.forcesAndMoments x u = .ok (l, s')) (m : Motion) (t : ℝ) (hx : Moves x m t) (i : ℕ) (hi : i < s.nb) (c : ℝ → V3) (hc : c t = contactPos u i)
    (hc' : HasDerivAt c (contactVel u i) t) (V : V3) (hV : HasDerivAt (fun t => m.p t + m.R t *ᵥ c t) V t) (k kv κ κv : ℝ) (hk : s.Kfe = k • 1) (hkv : s.Kfv = kv • 1)
    (hκ : s.Kte = κ • 1) (hκv : s.Ktv = κv • 1) : ∃ f τ, l[i]? = some (f, τ) ∧
      (m.R t * contactOri u i) *ᵥ f = -(k • (m.p t + m.R t *ᵥ c t - c t)) - kv • V ∧ (m.R t * contactOri u i) *ᵥ τ = -(κ • at3 x 3) - κv • m.ω t := by
  obtain ⟨-, e⟩ := C89_spring dt g g' ops s s' x u l hr hm h m t hx i hi c hc hc' V hV
  refine ⟨_, _, e, ?_, ?_⟩
  · have hQ : IsRot (m.R t * contactOri u i) := (m.rot t).mul (rv_isRot _)
    rw [hk, hkv]
    generalize m.p t + m.R t *ᵥ c t - c t = d
    simp only [smul_mulVec, one_mulVec, mulVec_sub, mulVec_neg, mulVec_smul, hQ.cancel']
  · have hQ : IsRot (m.R t * contactOri u i) := (m.rot t).mul (rv_isRot _)
    rw [hκ, hκv]
    simp only [smul_mulVec, one_mulVec, mulVec_sub, mulVec_neg, mulVec_smul, hQ.cancel']

/-- **C89**, passive: with a stiffness that is the same in all directions and a damping matrix without negative directions, a contact that does not move in the frame of the robot
gives to the robot no more power than its spring loses energy. -/
theorem C89_passive (dt : ℝ) (g g' : G) (ops : List (Op G)) (s s' : Sys G) (x u : DVec) (l : List (V3 × V3)) (hr : run dt g ops = .ok (s, g')) (hm : s.model = 1)
    (h : s.forcesAndMoments x u = .ok (l, s')) (m : Motion) (t : ℝ) (hx : Moves x m t) (i : ℕ) (hi : i < s.nb) (hc : contactVel u i = 0) (V : V3)
    (hV : HasDerivAt (fun t => m.p t + m.R t *ᵥ contactPos u i) V t) (k : ℝ) (hk : s.Kfe = k • 1) (hkv : ∀ w, 0 ≤ w ⬝ᵥ (s.Kfv *ᵥ w)) : ∃ f τ E', l[i]? = some (f, τ) ∧
      HasDerivAt (fun t => k / 2 * ((m.p t + m.R t *ᵥ contactPos u i - contactPos u i) ⬝ᵥ (m.p t + m.R t *ᵥ contactPos u i - contactPos u i))) E' t ∧
      ((m.R t * contactOri u i) *ᵥ f) ⬝ᵥ V ≤ -E' := by
  obtain ⟨-, e⟩ := C89_spring dt g g' ops s s' x u l hr hm h m t hx i hi (fun _ => contactPos u i) rfl (by rw [hc]; exact hasDerivAt_const _ _) V hV
  have hQ : IsRot (m.R t * contactOri u i) := (m.rot t).mul (rv_isRot _)
  have hd : HasDerivAt (fun t => m.p t + m.R t *ᵥ contactPos u i - contactPos u i) V t := hV.sub_const _
  generalize hD : (fun t => m.p t + m.R t *ᵥ contactPos u i - contactPos u i) = D at hd
  have hDt : m.p t + m.R t *ᵥ contactPos u i - contactPos u i = D t := by rw [← hD]
  have hE : HasDerivAt (fun t => k / 2 * (D t ⬝ᵥ D t)) (k * (D t ⬝ᵥ V)) t := by
    obtain ⟨x0, x1, x2⟩ := hasDerivAt3.1 hd
    have := ((((x0.mul x0).add (x1.mul x1)).add (x2.mul x2))).const_mul (k / 2)
    convert! this using 1
    · funext t
      simp [dotProduct, Fin.sum_univ_three]
    · simp [dotProduct, Fin.sum_univ_three]
      ring
  refine ⟨_, _, k * (D t ⬝ᵥ V), e, ?_, ?_⟩
  · subst hD
    exact hE
  · simp only [hDt]
    have e1 : (m.R t * contactOri u i) *ᵥ (-(s.Kfe *ᵥ ((m.R t * contactOri u i)ᵀ *ᵥ D t)) - s.Kfv *ᵥ ((m.R t * contactOri u i)ᵀ *ᵥ V)) =
        -(k • D t) - (m.R t * contactOri u i) *ᵥ (s.Kfv *ᵥ ((m.R t * contactOri u i)ᵀ *ᵥ V)) := by
      rw [hk]
      simp only [smul_mulVec, one_mulVec, mulVec_sub, mulVec_neg, mulVec_smul, hQ.cancel']
    rw [e1]
    have e2 : ((m.R t * contactOri u i) *ᵥ (s.Kfv *ᵥ ((m.R t * contactOri u i)ᵀ *ᵥ V))) ⬝ᵥ V = ((m.R t * contactOri u i)ᵀ *ᵥ V) ⬝ᵥ (s.Kfv *ᵥ ((m.R t * contactOri u i)ᵀ *ᵥ V)) := by
      rw [dotProduct_comm, dotProduct_mulVec, ← mulVec_transpose]
    rw [sub_dotProduct, e2, neg_dotProduct, smul_dotProduct, smul_eq_mul]
    have := hkv ((m.R t * contactOri u i)ᵀ *ᵥ V)
    linarith

/-- **C89**, ropes: the first force is the sum of the forces of the ropes, each along its rope and proportional to its elongation (the stiffness being the same in all directions), and of
the damping; the other one is null. -/
theorem C89_ropes (dt : ℝ) (g g' : G) (ops : List (Op G)) (s s' : Sys G) (x u : DVec) (l : List (V3 × V3)) (hr : run dt g ops = .ok (s, g')) (hm : s.model = 2)
    (h : s.forcesAndMoments x u = .ok (l, s')) (k : ℝ) (hk : s.KfeRopes = k • 1) (q : ℕ → V3)
    (hq : ∀ i, q i = at3 x 0 + rotationVectorToRotationMatrix (at3 x 3) *ᵥ contactPos u i) :
    l.length = s.nb ∧ (∀ w, l[0]? = some w → w =
      (∑ i ∈ Finset.range s.nb, -((k * (nrm (q i - s.pe) - nrm (contactPos u i - s.pe)) / nrm (q i - s.pe)) • (q i - s.pe)) - s.KfvRopes *ᵥ at3 x 6,
       ![0, 0, -(s.KteRopes 2 2 * at1 x 5)] - s.KtvRopes *ᵥ at3 x 9)) ∧ ∀ w, l[1]? = some w → w = 0 := by
  have hx := (forcesAndMoments_sizes h).1
  obtain ⟨w, hw, hn, rfl⟩ := forcesAndMoments_ok (run_inv hr) h
  unfold Sys.forcesPure at hw
  rw [if_neg (by omega), if_pos hm] at hw
  obtain ⟨f, hf, hw⟩ := Res.bind_eq_ok.1 hw
  cases hw
  obtain ⟨h0, hf⟩ := ropeForces_ok _ hf
  refine ⟨by simp, fun w hw => ?_, fun w hw => ?_⟩
  · rw [List.getElem?_map, Option.map_eq_some_iff] at hw
    obtain ⟨i, hi, rfl⟩ := hw
    obtain ⟨hi0, rfl⟩ := List.getElem?_eq_some_iff.1 hi
    simp only [List.getElem_range, Nat.zero_lt_two, dif_pos]
    show (f + -_, _ + -_) = _
    rw [hf, zero_add, List.map_map, sum_range_eq, ← sub_eq_add_neg, ← sub_eq_add_neg]
    congr 2
    refine Finset.sum_congr rfl fun i _ => ?_
    simp only [Function.comp, contactIn, hk, smul_mulVec, one_mulVec, smul_smul]
    have hqi : at3 x 0 + rotationVectorToRotationMatrix (at3 x 3) *ᵥ at3 u (48 + 12 * i) = q i := (hq i).symm
    rw [hqi]
    congr 2
    unfold contactPos
    ring
  · rw [List.getElem?_map, Option.map_eq_some_iff] at hw
    obtain ⟨i, hi, rfl⟩ := hw
    obtain ⟨hi0, rfl⟩ := List.getElem?_eq_some_iff.1 hi
    simp only [List.getElem_range, Nat.one_lt_two, dif_pos]
    rfl

/-- **C89**, rest: at rest there are no forces and no moments. -/
theorem C89_rest (dt : ℝ) (g g' : G) (ops : List (Op G)) (s s' : Sys G) (x u : DVec) (l : List (V3 × V3)) (hr : run dt g ops = .ok (s, g'))
    (h : s.forcesAndMoments x u = .ok (l, s')) (h0 : at3 x 0 = 0) (h3 : at3 x 3 = 0) (h6 : at3 x 6 = 0) (h9 : at3 x 9 = 0) (hc : ∀ i < s.nb, contactVel u i = 0) :
    ∀ w ∈ l, w = 0 := by
  obtain ⟨w, hw, hn, rfl⟩ := forcesAndMoments_ok (run_inv hr) h
  rw [h0, h3, h6, h9, rv_zero] at hw
  intro a ha
  obtain ⟨i, hi, rfl⟩ := List.mem_map.1 ha
  have hi' := List.mem_range.1 hi
  have hi2 : i < 2 := by omega
  rw [dif_pos hi2]
  unfold Sys.forcesPure at hw
  split_ifs at hw with m1 m2
  · rw [List.range_eq_range'] at hw
    have e := elasticPure_ok s.nb 0 hw ⟨i, hi2⟩
    rw [if_pos (by show 0 ≤ i ∧ i < 0 + s.nb; omega)] at e
    rw [e]
    have hv : (contactIn u i).vel = 0 := hc i hi'
    unfold Sys.contactForce
    simp [hv, (C37_skew _ _).1]
  · obtain ⟨f, hf, hw⟩ := Res.bind_eq_ok.1 hw
    cases hw
    obtain ⟨-, hf⟩ := ropeForces_ok _ hf
    have hf0 : f = 0 := by
      rw [hf, zero_add]
      apply List.sum_eq_zero
      intro v hv
      obtain ⟨c, -, rfl⟩ := List.mem_map.1 hv
      simp
    subst hf0
    have z : (![0, 0, 0] : V3) = 0 := by ext i; fin_cases i <;> rfl
    interval_cases i <;> simp [z]

/-- **C89**, return: with at most two contacts, the forces of elastic contacts are computed, and those of ropes too if no rope has lost its length. -/
theorem C89_return (dt : ℝ) (g g' : G) (ops : List (Op G)) (s : Sys G) (x u : DVec) (hr : run dt g ops = .ok (s, g')) (hx : x.size = 35) (hu : u.size = 48 + 12 * s.nb)
    (hn : s.nb ≤ 2) (hm : s.model = 1 ∨ s.model = 2 ∧ ∀ i < s.nb, at3 x 0 + rotationVectorToRotationMatrix (at3 x 3) *ᵥ contactPos u i ≠ s.pe) :
    ∃ l s', s.forcesAndMoments x u = .ok (l, s') := by
  apply forcesAndMoments_live (run_inv hr) hx hu hn
  unfold Sys.forcesPure
  rcases hm with hm | ⟨hm, hp⟩
  · rw [if_pos hm]
    exact elasticPure_live _ _ _ _ (by simpa using hn)
  · rw [if_neg (by omega), if_pos hm]
    obtain ⟨f, hf⟩ := ropeForces_live (s := s) (p := at3 x 0) (R := rotationVectorToRotationMatrix (at3 x 3)) ((List.range s.nb).map (contactIn u)) 0 (by
      intro c hc h0
      obtain ⟨i, hi, rfl⟩ := List.mem_map.1 hc
      exact hp i (List.mem_range.1 hi) (sub_eq_zero.1 (nrm_eq_zero.1 h0)))
    rw [hf]
    exact ⟨_, rfl⟩

/-- **C89**, model: until a contact model is chosen, an exception. -/
theorem C89_no_model (dt : ℝ) (g g' : G) (ops : List (Op G)) (s : Sys G) (x u : DVec) (hr : run dt g ops = .ok (s, g')) (hx : x.size = 35) (hu : u.size = 48 + 12 * s.nb)
    (h1 : s.model ≠ 1) (h2 : s.model ≠ 2) : s.forcesAndMoments x u = .exn := by
  obtain ⟨rt, -, e⟩ := forcesAndMoments_eq (run_inv hr).rot x u hx hu
  rw [e]
  unfold Sys.forcesPure
  rw [if_neg h1, if_neg h2]
  rfl

/-- **C89**, more contacts: with three contacts or more, never a result. -/
theorem C89_three_contacts_false (dt : ℝ) (g g' : G) (ops : List (Op G)) (s : Sys G) (x u : DVec) (hr : run dt g ops = .ok (s, g')) (hn : 3 ≤ s.nb) :
    ∀ r, s.forcesAndMoments x u ≠ .ok r := by
  intro r h
  obtain ⟨w, -, h2, -⟩ := forcesAndMoments_ok (l := r.1) (s' := r.2) (run_inv hr) h
  omega

/-! ## The moment of the ropes -/

/-- One rope, fixed at the height 4. -/
noncomputable def ropeOps : List (Op G) := [.setContactModel 2, .setContactsNumber 1, .setPe ![0, 0, 4]]

noncomputable def ropeSys (dt : ℝ) : Sys G := { Sys.updateMeasurementSize { (ctor dt : Sys G) with model := 2, nb := 1 } with pe := ![0, 0, 4] }

theorem rope_run (dt : ℝ) (g : G) : run dt g ropeOps = .ok (ropeSys dt, g) := rfl

/-- The robot is lifted by 4. -/
noncomputable def ropeState : DVec := ⟨35, fun i => if i.1 = 2 then 4 else 0⟩

/-- The rope is attached at 3 in front of the frame. -/
noncomputable def ropeInput : DVec := ⟨60, fun i => if i.1 = 48 then 3 else 0⟩

/-- **C89**, moment: the rope pushes the robot with a force whose moment about the origin of the world is not null (in `ropeState`, 80000 N at the height 4), but the moment
returned, which `computeAccelerations` uses as the moment of the contacts about this origin, is null. -/
theorem C89_rope_moment_false (dt : ℝ) (g : G) : ∃ s', run dt g ropeOps = .ok ((ropeSys dt : Sys G), g) ∧
    (ropeSys dt : Sys G).forcesAndMoments ropeState ropeInput = .ok ([(![80000, 0, 0], 0)], s') ∧
    (at3 ropeState 0 + rotationVectorToRotationMatrix (at3 ropeState 3) *ᵥ contactPos ropeInput 0) ⨯₃ ![80000, 0, 0] = ![0, 320000, 0] := by
  have x0 : at3 ropeState 0 = ![0, 0, 4] := by ext i; fin_cases i <;> simp [at3, ropeState]
  have x3 : at3 ropeState 3 = 0 := by ext i; fin_cases i <;> simp [at3, ropeState]
  have x6 : at3 ropeState 6 = 0 := by ext i; fin_cases i <;> simp [at3, ropeState]
  have x9 : at3 ropeState 9 = 0 := by ext i; fin_cases i <;> simp [at3, ropeState]
  have x5 : at1 ropeState 5 = 0 := by simp [at1, ropeState]
  have c0 : contactPos ropeInput 0 = ![3, 0, 0] := by ext i; fin_cases i <;> simp [contactPos, at3, ropeInput]
  have hm : (ropeSys dt : Sys G).model = 2 := rfl
  have hn : (ropeSys dt : Sys G).nb = 1 := rfl
  have hp : (ropeSys dt : Sys G).pe = ![0, 0, 4] := rfl
  have hk : (ropeSys dt : Sys G).KfeRopes = (40000 : ℝ) • 1 := rfl
  have eq : at3 ropeState 0 + rotationVectorToRotationMatrix (at3 ropeState 3) *ᵥ contactPos ropeInput 0 = ![3, 0, 4] := by
    rw [x0, x3, c0, rv_zero, one_mulVec]
    simp
  have n3 : nrm ![3, 0, 0] = 3 := by
    rw [show (![3, 0, 0] : V3) = (3 : ℝ) • ![1, 0, 0] by simp, nrm_smul, nrm_eq_one.2 (by simp)]
    norm_num
  have n5 : nrm ![3, 0, -4] = 5 := by
    unfold nrm
    rw [show (![3, 0, -4] : V3) ⬝ᵥ ![3, 0, -4] = 5 ^ 2 by simp [dotProduct, Fin.sum_univ_three]; norm_num]
    exact Real.sqrt_sq (by norm_num)
  obtain ⟨l, s', h⟩ := C89_return dt g g ropeOps (ropeSys dt) ropeState ropeInput (rope_run dt g) rfl rfl (by rw [hn]; norm_num) (Or.inr ⟨hm, fun i hi => by
    rw [hn] at hi
    obtain rfl : i = 0 := by omega
    rw [eq, hp]
    intro e
    have := congrFun e 0
    norm_num at this⟩)
  obtain ⟨h1, h2, -⟩ := C89_ropes dt g g ropeOps (ropeSys dt) s' ropeState ropeInput l (rope_run dt g) hm h 40000 hk _ fun _ => rfl
  rw [hn] at h1
  obtain ⟨w, rfl⟩ := List.length_eq_one_iff.1 h1
  refine ⟨s', rope_run dt g, ?_, ?_⟩
  · rw [h]
    have hw := h2 w rfl
    rw [hn, Finset.sum_range_one, eq, hp, c0, x5, x6, x9] at hw
    have d1 : (![3, 0, 4] : V3) - ![0, 0, 4] = ![3, 0, 0] := by ext i; fin_cases i <;> simp
    have d2 : (![3, 0, 0] : V3) - ![0, 0, 4] = ![3, 0, -4] := by simp
    have z : (![0, 0, 0] : V3) = 0 := by ext i; fin_cases i <;> rfl
    rw [d1, d2, n3, n5] at hw
    rw [hw]
    congr 3
    refine Prod.ext ?_ ?_
    · simp
      norm_num
    · simp [z]
  · rw [eq]
    apply ext3
    · simp [cross0]
    · simp [cross1]; norm_num
    · simp [cross2]

/-- **C89**, a case: one elastic contact, the frame lifted by one centimetre: the contact pulls it down with 400 N. -/
theorem C89_example (dt : ℝ) (g : G) : ∃ s s', run dt g [.setContactModel 1, .setContactsNumber 1] = .ok (s, g) ∧
    s.forcesAndMoments ⟨35, fun i => if i.1 = 2 then 0.01 else 0⟩ ⟨60, 0⟩ = .ok ([(![0, 0, -400], 0)], s') := by
  refine ⟨Sys.updateMeasurementSize { (ctor dt : Sys G) with model := 1, nb := 1 }, ?_⟩
  have hr : run dt g [.setContactModel 1, .setContactsNumber 1] = .ok (Sys.updateMeasurementSize { (ctor dt : Sys G) with model := 1, nb := 1 }, g) := rfl
  obtain ⟨l, s', h⟩ := C89_return dt g g _ _ ⟨35, fun i => if i.1 = 2 then 0.01 else 0⟩ ⟨60, 0⟩ hr rfl rfl (by show 1 ≤ 2; norm_num) (Or.inl rfl)
  refine ⟨s', hr, ?_⟩
  obtain ⟨w, hw, -, hl⟩ := forcesAndMoments_ok (run_inv hr) h
  rw [h, hl]
  have x0 : at3 (⟨35, fun i => if i.1 = 2 then 0.01 else 0⟩ : DVec) 0 = ![0, 0, 0.01] := by ext i; fin_cases i <;> simp [at3]
  have x3 : at3 (⟨35, fun i => if i.1 = 2 then 0.01 else 0⟩ : DVec) 3 = 0 := by ext i; fin_cases i <;> simp [at3]
  have x6 : at3 (⟨35, fun i => if i.1 = 2 then 0.01 else 0⟩ : DVec) 6 = 0 := by ext i; fin_cases i <;> simp [at3]
  have x9 : at3 (⟨35, fun i => if i.1 = 2 then 0.01 else 0⟩ : DVec) 9 = 0 := by ext i; fin_cases i <;> simp [at3]
  rw [x0, x3, x6, x9, rv_zero] at hw
  have u0 : ∀ i, at3 (⟨60, 0⟩ : DVec) i = 0 := fun i => by ext j; simp [at3]
  cases hw
  show Res.ok ([_], s') = _
  congr 3
  have z : (![0, 0, 0] : V3) = 0 := by ext i; fin_cases i <;> rfl
  simp [Sys.contactForce, contactIn, u0, (C37_skew _ _).1, rv_zero, Sys.updateMeasurementSize, ctor, z, smul_mulVec]
  norm_num

end StateObs.Elastic
