import Verif.Offline.MltpSpec
import Verif.Offline.AttLoop
/-! # The loop of the offline attitude estimation with a quaternion -/

namespace StateObs.Offline
open StateObs KF Flex Matrix Imu EKF KFSpec Rot Kine Mltp Sensor

theorem sized_mk {α : Type} (n : ℕ) (x : Fin n → ℝ) (f : (Fin n → ℝ) → Res α) : sized n ⟨n, x⟩ f = f x := by
  simp [sized]

theorem mltpNext_spec (dt : ℝ) (x : Fin 19 → ℝ) (hx : Unit4 x) (u : Fin 6 → ℝ) : MltpNext dt x u (Mltp.nextState dt x u) := by
  have hq : (integrateQuatVel (quatOf (seg 4 x qOri)) (seg 3 x qAngVel) (seg 3 x qAngAcc) dt).1.normSq = 1 := by
    rw [integrateQuatVel, Quat.normSq_mul, rvq_unit, one_mul]
    exact hx
  have e : (0.5 * dt * dt : ℝ) = dt ^ 2 / 2 := by ring
  refine ⟨?_, ?_, ?_, ?_, ?_, next_linAcc dt x u, next_angAcc dt x u⟩
  · show (quatOf _).normSq = 1
    rw [next_ori, quatOf_coeffs, renormalize_unit hq]
    exact hq
  · refine (next_pos dt x u).trans ?_
    rw [integratePosVel, e]
    exact (add_assoc _ _ _).symm
  · show (quatOf (seg 4 _ qOri)).toMat = _
    rw [next_ori, quatOf_coeffs, renormalize_unit hq, integrateQuatVel, Quat.toMat_mul (rvq_unit _) hx, rvq_toMat, turn_eq, rotationDuring, e]
    rfl
  · exact next_linVel dt x u
  · exact next_angVel dt x u

/-- The measurement. -/
noncomputable def mltpReading (x : Fin 19 → ℝ) : Fin 6 → ℝ := fun i =>
  (toL ((quatOf (seg 4 x qOri)).toMatᵀ *ᵥ (seg 3 x qLinAcc + gravity)) ++ toL ((quatOf (seg 4 x qOri)).toMatᵀ *ᵥ seg 3 x qAngVel)).get i

theorem mltpReading_spec (x : Fin 19 → ℝ) (hx : Unit4 x) : MltpReading x (mltpReading x) := by
  have hR : ∀ v, rotOf x *ᵥ ((quatOf (seg 4 x qOri)).toMatᵀ *ᵥ v) = v := by
    intro v
    rw [rotOf, mulVec_mulVec, (Quat.toMat_isRot hx).orth', one_mulVec]
  have e1 : seg 3 (mltpReading x) 0 = (quatOf (seg 4 x qOri)).toMatᵀ *ᵥ (seg 3 x qLinAcc + gravity) := by
    funext i; fin_cases i <;> rfl
  have e2 : seg 3 (mltpReading x) 3 = (quatOf (seg 4 x qOri)).toMatᵀ *ᵥ seg 3 x qAngVel := by
    funext i; fin_cases i <;> rfl
  refine ⟨by rw [e1, hR]; rfl, by rw [e2, hR]⟩

theorem mltp_run (dt : ℝ) : Mltp.run (Mltp.ctor : Mltp.Sys Unit) () [.setSamplingPeriod dt] = .ok ({ (Mltp.ctor : Mltp.Sys Unit) with dt := dt }, ()) := rfl

theorem mltpFunctor_state (dt : ℝ) (x : Fin 19 → ℝ) (u : Fin 6 → ℝ) (k : Int) :
    (mltpFunctor dt).stateDynamics ⟨19, x⟩ ⟨6, u⟩ k = .ok ⟨19, Mltp.nextState dt x u⟩ := by
  simp only [mltpFunctor, sized_mk]
  rfl

theorem good_dt (dt : ℝ) : Mltp.Good ({ (Mltp.ctor : Mltp.Sys Unit) with dt := dt }) := run_good good_ctor () () _ (mltp_run dt)

theorem mltpFunctor_measure (dt : ℝ) (x : Fin 19 → ℝ) (u : DVec) (k : Int) :
    (mltpFunctor dt).measureDynamics ⟨19, x⟩ u k = .ok ⟨6, mltpReading x⟩ := by
  simp only [mltpFunctor, sized_mk]
  obtain ⟨s', h⟩ := measure_value (good_dt dt) rfl x k ()
  rw [h]
  rfl

theorem stateJac_spec (dt : ℝ) (x : Fin 19 → ℝ) (u : Fin 6 → ℝ) : StateJac dt (fun x => Mltp.nextState dt x u) x (writeA aJac0 dt x) := by
  have e2 : dt * dt / 2 = dt ^ 2 / 2 := by ring
  constructor
  · rintro hb X ξ rfl hU hX
    obtain ⟨x', h1, -, h3⟩ := C74_state [.setSamplingPeriod dt] () () () _ (mltp_run dt) rfl X u ξ 0 hX hU (by rw [e2]; exact hb)
    have e : x' = fun τ => Mltp.nextState dt (X τ) u := by
      funext τ
      have := h1 τ
      simp only [Mltp.stateDynamics] at this
      exact (Prod.mk.inj (Res.ok.inj this)).1.symm
    rw [← e]
    exact h3
  · intro hb ξ
    obtain ⟨m1, m2, m3, m4, m5, m6⟩ := writeA_mulVec dt x ξ _ rfl
    have hj : derivateRotationMultiplicative (dt • seg 3 x qAngVel + (dt * dt / 2) • seg 3 x qAngAcc) = (1, 1) := by
      rw [derivateRotationMultiplicative, e2]
      have hb' : nrm (dt • seg 3 x qAngVel + (dt ^ 2 / 2) • seg 3 x qAngAcc) < epsilonAngle := hb
      rw [if_pos hb', rv_below hb'.le]
    rw [hj, one_mulVec, one_mulVec, ← add_assoc, e2] at m2
    refine ⟨?_, m2, m3, m4, m5, m6⟩
    rw [show dt ^ 2 / 2 = dt * dt * 0.5 by ring]
    exact m1

theorem measJac_spec (x : Fin 19 → ℝ) : MeasJac mltpReading x (writeC 0 x) := by
  rintro X ξ rfl hX
  obtain ⟨y, h1, h2⟩ := C45_measurement (R := Unit) [] () () () _ rfl rfl X ξ 0 0 hX
  have e : (fun τ => mltpReading (X τ)) = y := by
    funext τ
    obtain ⟨s', h⟩ := h1 τ
    obtain ⟨s'', h'⟩ := measure_value (good_ctor (R := Unit)) rfl (X τ) 0 ()
    rw [h'] at h
    have := (Prod.mk.inj (Res.ok.inj h)).1
    apply List.ofFn_injective
    rw [← this]
    rfl
  rw [e]
  exact h2

theorem corrected_spec (x : Fin 19 → ℝ) (d : Fin 18 → ℝ) (hx : Unit4 x) : Corrected x d (Mltp.stateSum x d) := by
  refine ⟨?_, sum_pos x d, ?_, sum_linVel x d, sum_angVel x d, sum_linAcc x d, sum_angAcc x d⟩
  · show (quatOf _).normSq = 1
    rw [sum_ori, quatOf_coeffs, Quat.normSq_mul, rvq_unit, one_mul]
    exact hx
  · show (quatOf (seg 4 _ qOri)).toMat = _
    rw [sum_ori, quatOf_coeffs, Quat.toMat_mul (rvq_unit _) hx, rvq_toMat, turn_eq]
    rfl

/-- The filter between two iterations. -/
abbrev MltpLive (dt : ℝ) (Q : Matrix (Fin 18) (Fin 18) ℝ) (R : Matrix (Fin 6) (Fin 6) ℝ) (x : Fin 19 → ℝ) (P : Matrix (Fin 18) (Fin 18) ℝ) (k : Int)
    (s : KFilter Ext) : Prop := Ticking 19 18 6 6 (mltpFunctor dt) mltpArith Q R x P k s

theorem mltp_iteration {dt : ℝ} {Q : Matrix (Fin 18) (Fin 18) ℝ} {R : Matrix (Fin 6) (Fin 6) ℝ} {x : Fin 19 → ℝ} {P : Matrix (Fin 18) (Fin 18) ℝ} {k : Int}
    {s : KFilter Ext} (h : MltpLive dt Q R x P k s) (hQ : Q.PosSemidef) (hP : P.PosSemidef) (hR : R.PosDef) (u : Fin 6 → ℝ) (y : Fin 6 → ℝ)
    (ws : List DVec) (hw : ws = [] ∨ ∃ u1 : Fin 6 → ℝ, ws = [⟨6, u1⟩]) (A : Matrix (Fin 18) (Fin 18) ℝ) (C : Matrix (Fin 6) (Fin 18) ℝ) :
    let F := fun x => Mltp.nextState dt x u
    let z := Mltp.stateSum (F x) (gain C R (predCov A Q P) *ᵥ (y - mltpReading (F x)))
    ∃ f1 f3 f4 f5 f6, updateStatePrediction { s with y := ⟨k + 1, [⟨6, y⟩]⟩, u := ⟨k, ⟨6, u⟩ :: ws⟩ } = .ok f1 ∧ val f1.st.xbar = .ok ⟨19, F x⟩ ∧
      setA f1 ⟨18, 18, A⟩ = .ok f3 ∧ setC f3 ⟨6, 18, C⟩ = .ok f4 ∧ EKF.getEstimatedState f4 (k + 1) = .ok f5 ∧ val f5.x = .ok ⟨19, z⟩ ∧
      Obs.setState (cfg f5) f5 ⟨19, z⟩ (k + 1) = .ok f6 ∧ MltpLive dt Q R z (posterior C R (predCov A Q P)) (k + 1) f6 ∧ f6.u = ⟨k + 1, ws⟩ := by
  intro F z
  obtain ⟨s2, hs2⟩ : ∃ s2 : KFilter Ext, s2 = { s with y := ⟨k + 1, [⟨6, y⟩]⟩, u := ⟨k, ⟨6, u⟩ :: ws⟩ } := ⟨_, rfl⟩
  obtain ⟨u1, hsen⟩ := sensorInput_some (k := k) s2 (by rw [hs2]; exact h.hp) (by norm_num) (by rw [hs2]; exact h.hdirOut) ⟨6, u⟩ ws hw (by rw [hs2])
  have hd : Driven s2 x k (mltpFunctor dt) F mltpReading u u1 :=
    ⟨by rw [hs2]; exact h.hn, by rw [hs2]; exact h.hm, by rw [hs2]; exact h.hmt, by rw [hs2]; exact h.hp, by norm_num, by rw [hs2]; exact h.hx,
      by rw [hs2]; simp [IArr.get, IArr.checkIndex], hsen, by rw [hs2]; exact h.hf, by rw [hs2]; exact h.hdirState,
      fun z => mltpFunctor_state dt z u k, fun z => mltpFunctor_measure dt z _ _⟩
  have hnt : s2.st.nt = 18 := by rw [hs2]; exact h.hnt
  have hcx : notCached s2.st.xbar (k + 1) = true := notCached_of_lt fun v t e => by have := h.cx v t (by rw [hs2] at e; exact e); omega
  have hcy : notCached s2.st.ybar (k + 1) = true := notCached_of_lt fun v t e => by have := h.cy v t (by rw [hs2] at e; exact e); omega
  obtain ⟨f1, hf1⟩ : ∃ f1 : KFilter Ext, f1 = { s2 with st := { s2.st with xbar := some (⟨19, F x⟩, k + 1), ext := { s2.st.ext with optU := ⟨6, u⟩ } } } := ⟨_, rfl⟩
  have e1 : updateStatePrediction s2 = .ok f1 := by
    rw [updateStatePrediction, Obs.getCurrentTime, hd.hx, hf1]
    exact hd.predict hcx
  have e3 := setA_ok f1 (nt := 18) (by rw [hf1]; exact hnt) A
  obtain ⟨f3, hf3⟩ : ∃ f3 : KFilter Ext, f3 = { f1 with st := { f1.st with a := ⟨18, 18, A⟩ } } := ⟨_, rfl⟩
  rw [← hf3] at e3
  have e4 := setC_ok f3 (nt := 18) (m := 6) (by rw [hf3, hf1]; exact hnt) (by rw [hf3, hf1]; exact hd.hmt) C
  obtain ⟨f4, hf4⟩ : ∃ f4 : KFilter Ext, f4 = { f3 with st := { f3.st with c := ⟨6, 18, C⟩ } } := ⟨_, rfl⟩
  rw [← hf4] at e4
  have hst : f4.st = { s.st with
      a := ⟨18, 18, A⟩, c := ⟨6, 18, C⟩, xbar := some (⟨19, F x⟩, k + 1), ext := { s.st.ext with optU := ⟨6, u⟩ } } := by
    rw [hf4, hf3, hf1, hs2]
  have hx4 : f4.x = some (⟨19, x⟩, k) := by rw [hf4, hf3, hf1]; exact hd.hx
  have hy4 : f4.y = ⟨k + 1, [⟨6, y⟩]⟩ := by rw [hf4, hf3, hf1, hs2]
  have hu4 : f4.u = ⟨k, ⟨6, u⟩ :: ws⟩ := by rw [hf4, hf3, hf1, hs2]
  have hd4 : Driven f4 x k (mltpFunctor dt) F mltpReading u u1 := by
    refine ⟨?_, ?_, ?_, ?_, by norm_num, hx4, ?_, ?_, ?_, ?_, hd.hF, hd.hH⟩
    any_goals rw [hst]
    · exact h.hn
    · exact h.hm
    · exact h.hmt
    · exact h.hp
    · rw [hu4]; simp [IArr.get, IArr.checkIndex]
    · rw [← hsen]
      exact sensorInput_congr _ _ _ (by rw [hd.hp]; norm_num) (by rw [hst, hs2]) (by rw [hst, hs2]) (by rw [hu4, hs2])
    · exact h.hf
    · exact h.hdirState
  have hps := hd4.sense (F x) (by rw [hst]) (by rw [hst]; rw [hs2] at hcy; exact hcy)
  obtain ⟨f4', hf4'⟩ : ∃ f : KFilter Ext, f = { f4 with st := { f4.st with ybar := some (⟨6, mltpReading (F x)⟩, k + 1), ext := { f4.st.ext with optU := ⟨6, u1⟩ } } } :=
    ⟨_, rfl⟩
  rw [← hf4'] at hps
  have hst' : f4'.st = { s.st with
      a := ⟨18, 18, A⟩, c := ⟨6, 18, C⟩, xbar := some (⟨19, F x⟩, k + 1), ybar := some (⟨6, mltpReading (F x)⟩, k + 1), ext := { s.st.ext with optU := ⟨6, u1⟩ } } := by
    rw [hf4']; simp only [hst]
  have hmats : HasMats f4.st 18 6 A Q P C R := by
    rw [hst]
    exact ⟨h.hnt, h.hmt, rfl, h.hq, h.hpr, rfl, h.hr⟩
  have hmats' : HasMats f4'.st 18 6 A Q P C R := by
    rw [hst']
    exact ⟨h.hnt, h.hmt, rfl, h.hq, h.hpr, rfl, h.hr⟩
  have ha4 : f4'.st.arith = mltpArith := by rw [hst']; exact h.har
  have e5 := estimate_one (n := 19) hmats hmats' hQ hP hR ⟨19, x⟩ k hx4 (F x) (mltpReading (F x)) y (by rw [hst]) hps (by rw [hst']) (by rw [hst'])
    (by rw [hst]; show 0 < s.st.p; rw [h.hp]; norm_num) hy4 (by rw [hf4']) ⟨6, u⟩ ws (by rw [hf4']; exact hu4) z (by rw [ha4]; simp [mltpArith, DVec.sub_mk])
    (by rw [ha4]; simp only [mltpArith, sized_mk]; rfl)
  obtain ⟨f5, hf5⟩ : ∃ f5 : KFilter Ext, f5 = { f4' with
      x := some (⟨19, z⟩, k + 1)
      u := ⟨k + 1, ws⟩
      st := { f4'.st with
        pr := ⟨18, 18, posterior C R (predCov A Q P)⟩
        innovation := ⟨18, gain C R (predCov A Q P) *ᵥ (y - mltpReading (F x))⟩
        kGain := ⟨18, 6, gain C R (predCov A Q P)⟩ } } := ⟨_, rfl⟩
  rw [← hf5] at e5
  have hn5 : f5.st.n = 19 := by rw [hf5]; show f4'.st.n = 19; rw [hst']; exact h.hn
  have hp5 : f5.st.p = 6 := by rw [hf5]; show f4'.st.p = 6; rw [hst']; exact h.hp
  have hu5 : f5.u = ⟨k + 1, ws⟩ := by rw [hf5]
  have hy5 : f5.y = ⟨k + 1, [⟨6, y⟩]⟩ := by rw [hf5, hf4']; exact hy4
  rw [← hs2]
  refine ⟨f1, f3, f4, f5, _, e1, by rw [hf1]; rfl, e3, e4, e5, by rw [hf5]; rfl, setState_now f5 z k hn5 (by rw [hp5]; norm_num) _ hy5 ws hu5, ?_, hu5⟩
  refine ⟨hn5, ?_, ?_, ?_, hp5, ?_, ?_, ?_, ?_, rfl, rfl, ?_, ?_, ?_, ?_, ?_⟩
  all_goals simp only [hf5]
  all_goals try rw [hst']
  · exact h.hnt
  · exact h.hm
  · exact h.hmt
  · exact h.har
  · exact h.hf
  · exact h.hdirOut
  · exact h.hdirState
  · exact h.hq
  · exact h.hr
  · intro v t e; cases e; exact le_rfl
  · intro v t e; cases e; exact le_rfl

theorem mltp_loop (ys us : IArr DVec) (dt : ℝ) (Q : Matrix (Fin 18) (Fin 18) ℝ) (R : Matrix (Fin 6) (Fin 6) ℝ) (hQ : Q.PosSemidef) (hR : R.PosDef) :
    ∀ (l : List ((Fin 6 → ℝ) × (Fin 6 → ℝ))) (k : Int) (s : KFilter Ext) (sys : Mltp.Sys Unit) (xh : IArr DVec) (x) (P),
    MltpLive dt Q R x P k s → Mltp.Good sys → sys.dt = dt → Unit4 x → P.PosSemidef → (∀ e ∈ l.head?, s.u = ⟨k, [⟨6, e.1⟩]⟩) → k + 1 + l.length = ys.getNextIndex →
    (∀ j (h : j < l.length), ys.get (k + 1 + j) = .ok ⟨6, l[j].2⟩ ∧ us.get (k + j) = .ok ⟨6, l[j].1⟩) → Ready xh (k + 1) →
    ∃ r, MltpRun dt Q R x P l r ∧
      mltpLoop ys us l.length (k + 1) s sys ⟨19, x⟩ xh = .ok (app (k + 1) (r.map fun v => ⟨19, v⟩) xh)
  | [], k, s, sys, xh, x, P, _, _, _, _, _, _, _, _, _ => ⟨[], .done x P, by simp [mltpLoop, app]⟩
  | (u, y) :: l, k, s, sys, xh, x, P, hs, hgd, hdt, hx, hP, hu, hlen, hg, hr => by
    have hu := hu (u, y) rfl
    have g0 := hg 0 (by simp)
    simp only [Nat.cast_zero, add_zero, List.getElem_cons_zero] at g0
    have hgt : ∀ j (h : j < l.length), ys.get (k + 1 + 1 + j) = .ok ⟨6, l[j].2⟩ ∧ us.get (k + 1 + j) = .ok ⟨6, l[j].1⟩ := by
      intro j h
      have := hg (j + 1) (by simpa using h)
      simp only [List.getElem_cons_succ, Nat.cast_add, Nat.cast_one] at this
      rwa [show k + 1 + 1 + (j : Int) = k + 1 + ((j : Int) + 1) by ring, show k + 1 + (j : Int) = k + ((j : Int) + 1) by ring]
    have hlast : k + 1 < ys.getLastIndex ↔ l ≠ [] := by
      simp only [IArr.getNextIndex, List.length_cons] at hlen
      simp only [IArr.getLastIndex]
      rw [← List.length_pos_iff]
      push_cast at hlen
      omega
    have hlu : k + 1 < ys.getLastIndex → ∃ u1, us.get (k + 1) = .ok ⟨6, u1⟩ := by
      intro h
      have h0 : 0 < l.length := List.length_pos_iff.2 (hlast.1 h)
      have := (hgt 0 h0).2
      simp only [Nat.cast_zero, add_zero] at this
      exact ⟨_, this⟩
    obtain ⟨ws, ew, hw, hw1⟩ := giveInput_ok hs ys us ⟨k + 1, [⟨6, y⟩]⟩ u hu hlu
    have hF := mltpNext_spec dt x hx u
    have hA : Mltp.getAMatrix sys x = (writeA aJac0 dt x, { sys with aJac := writeA aJac0 dt x }) := by
      rw [Mltp.getAMatrix, hgd.a, hdt]
    have hC : Mltp.getCMatrix { sys with aJac := writeA aJac0 dt x } (Mltp.nextState dt x u) =
        (writeC 0 (Mltp.nextState dt x u), { sys with aJac := writeA aJac0 dt x, cJac := writeC 0 (Mltp.nextState dt x u) }) := by
      rw [Mltp.getCMatrix]
      simp only [hgd.c]
    have hgd' : Mltp.Good { sys with aJac := writeA aJac0 dt x, cJac := writeC 0 (Mltp.nextState dt x u) } :=
      ⟨fun dt y => by simp only [writeA_writeA], fun y => by simp only [writeC_writeC], hgd.concat, hgd.mode⟩
    obtain ⟨f1, f3, f4, f5, f6, e1, e2, e3, e4, e5, e6, e7, hl6, hu6⟩ := mltp_iteration hs hQ hP hR u y ws hw (writeA aJac0 dt x) (writeC 0 (Mltp.nextState dt x u))
    set z := Mltp.stateSum (Mltp.nextState dt x u) (gain (writeC 0 (Mltp.nextState dt x u)) R (predCov (writeA aJac0 dt x) Q P) *ᵥ (y - mltpReading (Mltp.nextState dt x u))) with hz
    have hc := corrected_spec (Mltp.nextState dt x u) (gain (writeC 0 (Mltp.nextState dt x u)) R (predCov (writeA aJac0 dt x) Q P) *ᵥ (y - mltpReading (Mltp.nextState dt x u)))
      hF.unit
    rw [← hz] at hc
    obtain ⟨r, hrun, er⟩ := mltp_loop ys us dt Q R hQ hR l (k + 1) f6 _ (app (k + 1) [⟨19, z⟩] xh) _ _ hl6 hgd' hdt hc.unit (posterior_psd hR (predCov_psd hQ hP))
        (fun e he => by
          cases l with
          | nil => simp at he
          | cons a l =>
            simp only [List.head?_cons, Option.mem_def, Option.some.injEq] at he
            subst he
            rw [hu6, hw1 a.1 (hlast.2 (by simp))]
            have := (hgt 0 (by simp)).2
            simpa using this)
        (by simp only [List.length_cons] at hlen; push_cast at hlen; omega) hgt (ready_app hr _)
    refine ⟨z :: r, .step x P u y l r (fun x => Mltp.nextState dt x u) mltpReading _ _ _ _ z (fun x hx => mltpNext_spec dt x hx u) mltpReading_spec
      (stateJac_spec dt x u) (measJac_spec _) rfl rfl hc hrun, ?_⟩
    simp only [List.length_cons, mltpLoop, g0.1, hs.setMeasurement y, ew, sized_mk, hA, hC, e1, e2, e3, e4, e5, e6, e7, setValue_ready hr, Res.ok_bind, er, app_app, List.map_cons]

end StateObs.Offline
