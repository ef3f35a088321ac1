import Verif.KO.PsdInv
/-!
# C54: the covariances in every reachable state, and the state setters that also reset a covariance
-/

namespace StateObs.KO
open StateObs Matrix Rot Kine KF

variable {nc ni : ℕ} {o o' : Observer}

/-- **C54**: whatever is done with an observer (`update()` included), if all the covariances given to it are symmetric positive semidefinite, then the
covariances of the state and of the process noise are, at all times. -/
theorem C54_reachable_psd {l : List Op} (hg : ∀ op ∈ l, op.GoodCov) (h : Reachable nc ni l o) :
    ∃ P Q : Matrix (Fin (18 + ni * 3 + 12 * nc)) (Fin (18 + ni * 3 + 12 * nc)) ℝ,
      o.getStateCovarianceMat = ⟨_, _, P⟩ ∧ P.PosSemidef ∧ o.ekf.st.q = ⟨_, _, Q⟩ ∧ Q.PosSemidef := by
  have hi := Observer.inv_reachable h
  have hc := Observer.covInv_reachable hg h
  obtain ⟨P, hP⟩ := (DMat.hasSize_iff _ _ _).1 hi.2.ekf.pr
  obtain ⟨Q, hQ⟩ := (DMat.hasSize_iff _ _ _).1 hi.2.ekf.q
  exact ⟨P, Q, hP, isPSD_mk.1 (hP ▸ hc.pr), hQ, isPSD_mk.1 (hQ ▸ hc.q)⟩

/-! ## The state setters -/

/-- What a reset of the covariance should do: in the covariance of the state, the rows and columns of the `n` entries from the component `c` are replaced. -/
def CovReplaced (o o' : Observer) (c : Comp) (n : ℕ) (B : Matrix (Fin n) (Fin n) ℝ) : Prop :=
  ∃ (i N : ℕ) (P P' : Matrix (Fin N) (Fin N) ℝ), c.startTangent o = .ok i ∧ o.getStateCovarianceMat = ⟨_, _, P⟩ ∧ o'.getStateCovarianceMat = ⟨_, _, P'⟩ ∧
    Replaced P P' i B

theorem pushState_ok (h : o.pushState = .ok o') : ∃ x y u, o' = { o with ekf := { o.ekf with x := x, y := y, u := u } } := by
  simp only [Observer.pushState, Res.bind_eq_ok, Obs.setState] at h
  obtain ⟨e1, ⟨_, -, t, -, h1⟩, h2⟩ := h
  split_ifs at h1 <;> cases h1 <;> cases h2 <;> exact ⟨_, _, _, rfl⟩

theorem pushState_some (hi : Inv nc ni o) {x : DVec} (hx : x.size = 19 + ni * 3 + nc * 13) (k : Kin) :
    ∃ o', Observer.pushState { o with stateKin := k, x := x } = .ok o' := by
  simp only [Observer.pushState, Obs.setState, KF.cfg, hi.2.ekf.n, DVec.hasSize, hx, decide_true, Res.assert_true, Res.ok_bind, Obs.getCurrentTime]
  split_ifs <;> exact ⟨_, rfl⟩

/-- `setGyroBias` with the reset of the covariance writes one entry after the segment of the bias. -/
theorem setGyroBias_cov (hi : Inv nc ni o) {b : V3} {i : ℕ} (h : o.setGyroBias b i true = .ok o') :
    ∃ P P' : Matrix (Fin o.tangentSize) (Fin o.tangentSize) ℝ, o.getStateCovarianceMat = ⟨_, _, P⟩ ∧ o'.getStateCovarianceMat = ⟨_, _, P'⟩ ∧ i < ni ∧
      Replaced P P' (12 + 3 * i + 1) o.gyroBiasInit := by
  simp only [Observer.setGyroBias, Res.bind_eq_ok] at h
  obtain ⟨j, hj, x, hx, o1, h1, h2⟩ := h
  have hi1 := Observer.inv_pushState' hi h1
  obtain ⟨xx, y, u, rfl⟩ := pushState_ok h1
  rw [if_pos trivial, withP_block hi1] at h2
  obtain ⟨i', B, hi', -, hB, P, P', hP, rfl, hr⟩ := h2
  have e := (gyroBiasIndex_eq _ _).1 hi'
  obtain rfl : i' = 13 + 3 * i := e.2
  obtain rfl : o.gyroBiasInit = B := DMat.mk_eq.1 hB
  cases hr with
  | cons h1 h2 =>
    cases h2
    refine ⟨P, P', hP, rfl, ?_, ?_⟩
    · rw [← hi.1.2]; exact e.1
    · have : 12 + 3 * i + 1 = 13 + 3 * i := by omega
      rw [this]; exact h1

theorem unmodeled_fresh (h : Observer.construct nc ni = .ok o) (P : Matrix (Fin o.tangentSize) (Fin o.tangentSize) ℝ) (hP : o.getStateCovarianceMat = ⟨_, _, P⟩)
    (r : Fin 6) (hr : 12 + 3 * ni + r < o.tangentSize) : P ⟨12 + 3 * ni + r, hr⟩ ⟨12 + 3 * ni + r, hr⟩ = 1e100 := by
  have hni := Observer.construct_pos h
  obtain ⟨o0, o1, o2, k, h0, rfl, hs, hq⟩ := construct_spec (nc := nc) hni
  obtain rfl := Res.ok.inj (h0.symm.trans h)
  obtain ⟨P0, P1, -, rfl, hrep⟩ := hs
  obtain ⟨Q0, Q1, -, rfl, -⟩ := hq
  have e : contactBlocks (base nc ni) ni (base nc ni).contactInit = [] := by
    simp only [contactBlocks, List.flatMap_eq_nil_iff, List.mem_range]
    intro n hn
    have : (base nc ni).contacts[n]? = some Contact.new := by
      simp only [base, Observer.init, List.getElem?_replicate, List.length_replicate] at hn ⊢
      rw [if_pos hn]
    simp [this, Contact.new]
  rw [e, List.append_nil] at hrep
  obtain ⟨hl, h1, -, -⟩ := hrep.last (by simp)
  obtain rfl : P1 = P := DMat.mk_eq.1 hP
  have := h1 r r
  simp only [base, Observer.init] at this
  refine this.trans ?_
  simp

/-- **C54** fails for `setGyroBias` with the reset of the covariance (it uses the index in the state vector, one more than in the tangent vector): in a new
observer, the bias of the last IMU reset in this way changes the covariance of the unmodeled force. -/
theorem C54_setGyroBias_false (nc : ℕ) (h : 0 < ni) : ∃ o o' : Observer, ∃ b, Reachable nc ni [] o ∧ o.setGyroBias b (ni - 1) true = .ok o' ∧
    ¬ CovReplaced o o' (.gyroBias (ni - 1)) 3 o.gyroBiasInit := by
  obtain ⟨o, hc⟩ := (C53_constructible nc ni).2 h
  have hr := reachable_construct hc
  have hi := Observer.inv_reachable hr
  have hex : ∃ o', o.setGyroBias 0 (ni - 1) true = .ok o' := by
    have hj : o.gyroBiasIndex (ni - 1) = .ok (13 + 3 * (ni - 1)) := (gyroBiasIndex_eq _ _).2 ⟨by rw [hi.1.2]; omega, rfl⟩
    have hx : 13 + 3 * (ni - 1) + 3 ≤ o.x.size := by rw [hi.2.xSize]; omega
    obtain ⟨o1, h1⟩ := pushState_some hi (x := ⟨o.x.size, fun j => if h : 13 + 3 * (ni - 1) ≤ j.1 ∧ j.1 < 13 + 3 * (ni - 1) + 3 then (0 : V3) ⟨j.1 - (13 + 3 * (ni - 1)), by omega⟩ else o.x.val j⟩) (by
      exact hi.2.xSize) o.stateKin
    have hi1 := Observer.inv_pushState hi h1
    obtain ⟨P, hP⟩ := (DMat.hasSize_iff o1.ekf.st.pr o1.tangentSize o1.tangentSize).1 (by rw [inv_tangentSize hi1]; exact hi1.2.ekf.pr)
    have hr' : 13 + 3 * (ni - 1) + 3 ≤ o1.tangentSize := by rw [inv_tangentSize hi1]; omega
    obtain ⟨o2, ho2⟩ : ∃ o2 : Observer, o2 = { o1 with ekf := { o1.ekf with st := { o1.ekf.st with pr := ⟨_, _, replaceBlock P (13 + 3 * (ni - 1)) o1.gyroBiasInit⟩ } } } := ⟨_, rfl⟩
    have h2 := (withP_block (o' := o2)
      (n := 3) (j := o1.gyroBiasIndex (ni - 1)) (B := dm o1.gyroBiasInit) hi1).2 ⟨13 + 3 * (ni - 1), o1.gyroBiasInit,
        (gyroBiasIndex_eq _ _).2 ⟨by rw [hi1.1.2]; omega, rfl⟩, hr', rfl, P, _, hP, ho2, .cons (replaceBlock_replaced P _ _ hr') (.nil _)⟩
    refine ⟨o2, ?_⟩
    simp only [Observer.setGyroBias, hj, Res.ok_bind, DVec.setSeg, hx, if_true]
    erw [h1]
    exact h2
  obtain ⟨o', ho'⟩ := hex
  refine ⟨o, o', 0, hr, ho', ?_⟩
  rintro ⟨i, N, P, P', hs, hP, hP', hR⟩
  obtain ⟨P1, P1', hP1, hP1', -, hR1⟩ := setGyroBias_cov hi ho'
  have hN : N = o.tangentSize := by
    have := hP.symm.trans hP1
    exact congrArg DMat.rows this
  subst hN
  obtain rfl : P = P1 := DMat.mk_eq.1 (hP.symm.trans hP1)
  obtain rfl : P' = P1' := DMat.mk_eq.1 (hP'.symm.trans hP1')
  obtain ⟨-, rfl⟩ := (gyroBiasIndexTangent_eq _ _).1 hs
  have hlt : 12 + 3 * ni + (0 : Fin 6).1 < o.tangentSize := by rw [inv_tangentSize hi]; simp; omega
  have e1 := unmodeled_fresh hc P hP 0 hlt
  have hout : ¬ InSeg (12 + 3 * (ni - 1)) 3 (12 + 3 * ni + (0 : Fin 6).1) := by unfold InSeg; simp; omega
  have e2 := hR.outside ⟨_, hlt⟩ ⟨_, hlt⟩ hout hout
  have e3 := hR1.inside 2 2
  have key : (⟨12 + 3 * (ni - 1) + 1 + (2 : Fin 3).1, by have := hR1.range; omega⟩ : Fin o.tangentSize) = ⟨12 + 3 * ni + (0 : Fin 6).1, hlt⟩ := by
    apply Fin.ext; simp; omega
  rw [key, e2, e1] at e3
  have e4 : o.gyroBiasInit = Observer.iso 1e-10 := by
    obtain ⟨o0, o1, o2, k, h0, ho, hs0, hq0⟩ := construct_spec (nc := nc) h
    rw [Res.ok.inj (hc.symm.trans h0), ho]
    obtain ⟨P0, P1, -, rfl, -⟩ := hs0
    obtain ⟨Q0, Q1, -, rfl, -⟩ := hq0
    rfl
  rw [e4, iso_apply, if_pos rfl] at e3
  norm_num at e3

/-- **C54** fails for `setStateUnmodeledWrench` with the reset of the covariance, for the same reason: with no contact, the block lies outside the matrix and the
call never returns. -/
theorem C54_setStateUnmodeledWrench_false {l : List Op} (h : Reachable 0 ni l o) (w : V6) : ∀ o', o.setStateUnmodeledWrench w true ≠ .ok o' := by
  intro o' h'
  have hi := Observer.inv_reachable h
  simp only [Observer.setStateUnmodeledWrench, Res.bind_eq_ok] at h'
  obtain ⟨j, hj, x, hx, o1, h1, h2⟩ := h'
  have hi1 := Observer.inv_pushState' hi h1
  rw [if_pos trivial, withP_block hi1] at h2
  obtain ⟨i', B, hi', hr, -⟩ := h2
  have := (start_eq hi1 .unmodeledForce i').1 hi'
  rw [inv_tangentSize hi1] at hr
  have e : i' = 13 + 3 * ni := this.2
  omega

/-- The reset of the kinematics with the forces never returns when a contact is set: it writes a 12×12 matrix in a block of 13×13. -/
theorem C54_setStateKinematics_false {l : List Op} (h : Reachable nc ni l o) (hs : ∃ n, IsSet o n) (k : Kin) : ∀ o', o.setStateKinematics k true true ≠ .ok o' := by
  intro o' h'
  have hi := Observer.inv_reachable h
  simp only [Observer.setStateKinematics, Res.bind_eq_ok] at h'
  obtain ⟨_, -, r, -, x, -, x2, -, o1, h1, h2⟩ := h'
  have hi1 := Observer.inv_pushState hi h1
  obtain ⟨xx, y, u, rfl⟩ := pushState_ok h1
  obtain ⟨n, c, hc, hset⟩ := hs
  rw [if_pos trivial] at h2
  simp only [Observer.resetKineCov, Observer.withP, Res.bind_eq_ok, if_true] at h2
  obtain ⟨P, ⟨P1, hP1, hP⟩, -⟩ := h2
  obtain ⟨PP, hPP⟩ := (DMat.hasSize_iff o.ekf.st.pr _ _).1 hi.2.ekf.pr
  rw [hPP] at hP1
  obtain ⟨B', -, -, rfl⟩ := (setBlockStateCovariance_iff _ _ _ _).1 hP1
  have key : ∀ (L : List Contact), c ∈ L → ∀ {N} (M : Matrix (Fin N) (Fin N) ℝ) R, L.foldlM (Observer.resetContactBlock { o with stateKin := r.2, x := x2, ekf := { o.ekf with x := xx, y := y, u := u } }) ⟨N, N, M⟩ ≠ .ok R := by
    intro L
    induction L with
    | nil => simp
    | cons d L ih =>
      intro hm N M R hR
      rw [List.foldlM_cons, Res.bind_eq_ok] at hR
      obtain ⟨M1, h1, h2⟩ := hR
      unfold Observer.resetContactBlock at h1
      split_ifs at h1 with hd
      · rw [Res.bind_eq_ok] at h1
        obtain ⟨i, -, h1⟩ := h1
        obtain ⟨B', hB, -⟩ := (setBlockStateCovariance_iff _ _ _ _).1 h1
        have := congrArg DMat.rows hB
        simp [dm] at this
      · cases h1
        rcases List.mem_cons.1 hm with rfl | hm
        · exact hd hset
        · exact ih hm M R h2
  exact key _ (List.mem_of_getElem? hc) _ _ hP

/-- **C54** for `setStateKinematics` with the reset of the covariance, if it returns: the block of the kinematics is replaced. -/
theorem C54_setStateKinematics_partial {l : List Op} (h : Reachable nc ni l o) (k : Kin) (f : Bool) (hk : o.setStateKinematics k f true = .ok o') :
    CovReplaced o o' .position 12 o.kineInit := by
  have hi := Observer.inv_reachable h
  have hf : f = false ∨ ∀ n, ¬ IsSet o n := by
    by_contra hc
    push Not at hc
    have : f = true := by simpa using hc.1
    subst this
    exact C54_setStateKinematics_false h hc.2 k o' hk
  simp only [Observer.setStateKinematics, Res.bind_eq_ok] at hk
  obtain ⟨_, -, r, -, x, -, x2, -, o1, h1, h2⟩ := hk
  obtain ⟨xx, y, u, rfl⟩ := pushState_ok h1
  rw [if_pos trivial] at h2
  simp only [Observer.resetKineCov, Observer.withP, Res.bind_eq_ok, KF.setStateCovariance] at h2
  obtain ⟨P, ⟨P1, hP1, hP⟩, e, ⟨_, -, he⟩, h3⟩ := h2
  cases he; cases h3
  obtain ⟨PP, hPP⟩ := (DMat.hasSize_iff o.ekf.st.pr _ _).1 hi.2.ekf.pr
  rw [hPP] at hP1
  obtain ⟨B', hB, hr, rfl⟩ := (setBlockStateCovariance_iff _ _ _ _).1 hP1
  obtain rfl : o.kineInit = B' := DMat.mk_eq.1 hB
  have hfin : P = ⟨_, _, replaceBlock PP Observer.kineIndex o.kineInit⟩ := by
    split_ifs at hP with hff
    · rcases hf with rfl | hf
      · cases hff
      · have : ∀ (L : List Contact), (∀ c ∈ L, c.isSet = false) → ∀ M R, L.foldlM (Observer.resetContactBlock { o with stateKin := r.2, x := x2, ekf := { o.ekf with x := xx, y := y, u := u } }) M = .ok R → R = M := by
          intro L
          induction L with
          | nil => intro _ M R h; exact (Res.ok.inj h).symm
          | cons d L ih =>
            intro hL M R h
            rw [List.foldlM_cons, Res.bind_eq_ok] at h
            obtain ⟨M1, h1, h2⟩ := h
            rw [Observer.resetContactBlock, if_neg (by simp [hL d List.mem_cons_self])] at h1
            cases h1
            exact ih (fun c hc => hL c (List.mem_cons_of_mem _ hc)) M R h2
        refine this _ (fun c hc => ?_) _ _ hP
        obtain ⟨n, hn⟩ := List.mem_iff_getElem?.1 hc
        by_contra hcs
        exact hf n ⟨c, hn, by simpa using hcs⟩
    · cases hP; rfl
  exact ⟨0, _, PP, _, rfl, hPP, hfin, replaceBlock_replaced PP _ _ hr⟩

end StateObs.KO
