import Verif.Offline.AttFunctor
import Verif.Offline.FlexLoop
import Verif.Offline.Drive
/-! # The loop of the offline attitude estimation -/

namespace StateObs.EKF
open StateObs KF KFSpec Matrix Obs

/-- The filter between two iterations: at time `k` in state `x` with covariance `P`, with no measurement kept, nothing predicted for later. -/
structure Ticking (n nt m p : ℕ) (f : Functor) (ar : Arith) (Q : Matrix (Fin nt) (Fin nt) ℝ) (R : Matrix (Fin m) (Fin m) ℝ)
    (x : Fin n → ℝ) (P : Matrix (Fin nt) (Fin nt) ℝ) (k : Int) (s : KFilter Ext) : Prop where
  hn : s.st.n = n
  hnt : s.st.nt = nt
  hm : s.st.m = m
  hmt : s.st.mt = m
  hp : s.st.p = p
  har : s.st.arith = ar
  hf : s.st.ext.f = some f
  hdirOut : s.st.ext.dirOut = false
  hdirState : s.st.ext.dirState = true
  hx : s.x = some (⟨n, x⟩, k)
  hy : s.y.v = []
  hpr : s.st.pr = ⟨nt, nt, P⟩
  hq : s.st.q = ⟨nt, nt, Q⟩
  hr : s.st.r = ⟨m, m, R⟩
  cx : ∀ v t, s.st.xbar = some (v, t) → t ≤ k
  cy : ∀ v t, s.st.ybar = some (v, t) → t ≤ k

variable {n nt m p : ℕ} {f : Functor} {ar : Arith} {Q : Matrix (Fin nt) (Fin nt) ℝ} {R : Matrix (Fin m) (Fin m) ℝ}
    {x : Fin n → ℝ} {P : Matrix (Fin nt) (Fin nt) ℝ} {k : Int} {s : KFilter Ext}

theorem Ticking.setMeasurement (h : Ticking n nt m p f ar Q R x P k s) (y : Fin m → ℝ) :
    Obs.setMeasurement (cfg s) s ⟨m, y⟩ (k + 1) = .ok { s with y := ⟨k + 1, [⟨m, y⟩]⟩ } := by
  have h1 : (cfg s).okY ⟨m, y⟩ = true := by show DVec.hasSize ⟨m, y⟩ s.st.m = true; rw [h.hm, DVec.hasSize_mk]
  simp [Obs.setMeasurement, h1, IArr.size, h.hy, h.hx, IArr.setValue, IArr.checkIndex, IArr.checkNext]

theorem Ticking.setInput (h : Ticking n nt m p f ar Q R x P k s) (hp : 0 < p) (y : IArr DVec) (u0 u1 : Fin p → ℝ) (hu : s.u = ⟨k, [⟨p, u0⟩]⟩) :
    Obs.setInput (cfg { s with y := y }) { s with y := y } ⟨p, u1⟩ (k + 1) = .ok { s with y := y, u := ⟨k, [⟨p, u0⟩, ⟨p, u1⟩]⟩ } := by
  have h1 : (cfg s).okU ⟨p, u1⟩ = true := by show DVec.hasSize ⟨p, u1⟩ s.st.p = true; rw [h.hp, DVec.hasSize_mk]
  have h1' : (cfg { s with y := y }).okU ⟨p, u1⟩ = true := h1
  have hpp : (cfg { s with y := y }).p > 0 := by show 0 < s.st.p; rw [h.hp]; exact hp
  simp only [Obs.setInput, if_pos hpp, h1', Res.assert_true, Res.ok_bind]
  rw [hu]
  simp [IArr.size, IArr.setValue, IArr.checkIndex, IArr.checkNext, IArr.getNextIndex]

/-- The input used by the sensors, when at most the next one is given. -/
theorem sensorInput_some (s : KFilter Ext) (hp : s.st.p = p) (hp0 : 0 < p) (hd : s.st.ext.dirOut = false) (u0 : DVec) (ws : List DVec)
    (hw : ws = [] ∨ ∃ u1 : Fin p → ℝ, ws = [⟨p, u1⟩]) (hu : s.u = ⟨k, u0 :: ws⟩) : ∃ u1 : Fin p → ℝ, EKF.sensorInput s (k + 1) = .ok ⟨p, u1⟩ := by
  unfold EKF.sensorInput
  rw [if_pos (by rw [hp]; exact hp0), hd, hu, hp]
  rcases hw with rfl | ⟨u1, rfl⟩
  · exact ⟨0, by simp [IArr.checkIndex, DVec.zero]⟩
  · exact ⟨u1, by simp [IArr.checkIndex, IArr.get]⟩

theorem setA_ok (s : KFilter Ext) (h : s.st.nt = nt) (A : Matrix (Fin nt) (Fin nt) ℝ) :
    setA s ⟨nt, nt, A⟩ = .ok { s with st := { s.st with a := ⟨nt, nt, A⟩ } } := by
  simp only [setA, KData.checkA, h, DMat.hasSize_mk, Res.assert_true, Res.ok_bind]

theorem setC_ok (s : KFilter Ext) (h : s.st.nt = nt) (h' : s.st.mt = m) (C : Matrix (Fin m) (Fin nt) ℝ) :
    setC s ⟨m, nt, C⟩ = .ok { s with st := { s.st with c := ⟨m, nt, C⟩ } } := by
  simp only [setC, KData.checkC, h, h', DMat.hasSize_mk, Res.assert_true, Res.ok_bind]

/-- The estimation when the predictions and the Jacobians are stored. -/
theorem estimate_stored {s : KFilter Ext} {A Q P : Matrix (Fin nt) (Fin nt) ℝ} {C : Matrix (Fin m) (Fin nt) ℝ} {R : Matrix (Fin m) (Fin m) ℝ}
    (h : HasMats s.st nt m A Q P C R) (hQ : Q.PosSemidef) (hP : P.PosSemidef) (hR : R.PosDef)
    (x : DVec) (k : Int) (hx : s.x = some (x, k)) (xb : Fin n → ℝ) (yb y : Fin m → ℝ) (hxb : s.st.xbar = some (⟨n, xb⟩, k + 1))
    (hyb : s.st.ybar = some (⟨m, yb⟩, k + 1)) (hpp : 0 < s.st.p) (hy : s.y = ⟨k + 1, [⟨m, y⟩]⟩) (u0 : DVec) (ws : List DVec) (hu : s.u = ⟨k, u0 :: ws⟩)
    (z : Fin n → ℝ) (hmd : s.st.arith.measurementDifference ⟨m, y⟩ ⟨m, yb⟩ = .ok ⟨m, y - yb⟩)
    (hsum : s.st.arith.stateSum ⟨n, xb⟩ ⟨nt, gain C R (predCov A Q P) *ᵥ (y - yb)⟩ = .ok ⟨n, z⟩) :
    EKF.getEstimatedState s (k + 1) = .ok { s with
      x := some (⟨n, z⟩, k + 1)
      u := ⟨k + 1, ws⟩
      st := { s.st with
        pr := ⟨nt, nt, posterior C R (predCov A Q P)⟩
        innovation := ⟨nt, gain C R (predCov A Q P) *ᵥ (y - yb)⟩
        kGain := ⟨nt, m, gain C R (predCov A Q P)⟩ } } :=
  estimate_one h h hQ hP hR x k hx xb yb y hxb (by simp [predictSensor, hyb]) hxb hyb hpp hy rfl u0 ws hu z hmd hsum

end StateObs.EKF

namespace StateObs.Offline
open StateObs KF Flex Matrix Imu EKF KFSpec Rot Kine

/-- The state between two iterations. -/
abbrev AttLive (dt : ℝ) (Q : Matrix (Fin 18) (Fin 18) ℝ) (R : Matrix (Fin 6) (Fin 6) ℝ) (x : Fin 18 → ℝ) (P : Matrix (Fin 18) (Fin 18) ℝ) (k : Int)
    (s : KFilter Ext) : Prop := Ticking 18 18 6 6 (imuFunctor dt) Arith.default Q R x P k s

theorem att_iteration {dt : ℝ} {Q : Matrix (Fin 18) (Fin 18) ℝ} {R : Matrix (Fin 6) (Fin 6) ℝ} {x : Fin 18 → ℝ} {P : Matrix (Fin 18) (Fin 18) ℝ} {k : Int}
    {s : KFilter Ext} (h : AttLive dt Q R x P k s) (hQ : Q.PosSemidef) (hP : P.PosSemidef) (hR : R.PosDef) (u : Fin 6 → ℝ) (y : Fin 6 → ℝ)
    (ws : List DVec) (hw : ws = [] ∨ ∃ u1 : Fin 6 → ℝ, ws = [⟨6, u1⟩]) (dx : Fin 18 → ℝ) :
    let F := fun x => nextState .imu dt (rotationVectorToQuaternion (seg 3 x iOri)) x u
    let A := forwardDiff F dx x
    let C := forwardDiff imuReading dx (F x)
    let z := F x + gain C R (predCov A Q P) *ᵥ (y - imuReading (F x))
    ∃ f1 f2 f3 f4 f5, getAMatrixFD { s with y := ⟨k + 1, [⟨6, y⟩]⟩, u := ⟨k, ⟨6, u⟩ :: ws⟩ } ⟨18, dx⟩ = .ok (⟨18, 18, A⟩, f1) ∧
      getCMatrixFD f1 ⟨18, dx⟩ = .ok (⟨6, 18, C⟩, f2) ∧ setA f2 ⟨18, 18, A⟩ = .ok f3 ∧ setC f3 ⟨6, 18, C⟩ = .ok f4 ∧
      EKF.getEstimatedState f4 (k + 1) = .ok f5 ∧ val f5.x = .ok ⟨18, z⟩ ∧
      ∀ v, ∃ f6, Obs.setState (cfg f5) f5 ⟨18, v⟩ (k + 1) = .ok f6 ∧ AttLive dt Q R v (posterior C R (predCov A Q P)) (k + 1) f6 ∧ f6.u = ⟨k + 1, ws⟩ := by
  intro F A C z
  obtain ⟨s2, hs2⟩ : ∃ s2 : KFilter Ext, s2 = { s with y := ⟨k + 1, [⟨6, y⟩]⟩, u := ⟨k, ⟨6, u⟩ :: ws⟩ } := ⟨_, rfl⟩
  obtain ⟨u1, hsen⟩ := sensorInput_some (k := k) s2 (by rw [hs2]; exact h.hp) (by norm_num) (by rw [hs2]; exact h.hdirOut) ⟨6, u⟩ ws hw (by rw [hs2])
  have hd : Driven s2 x k (imuFunctor dt) F imuReading u u1 :=
    ⟨by rw [hs2]; exact h.hn, by rw [hs2]; exact h.hm, by rw [hs2]; exact h.hmt, by rw [hs2]; exact h.hp, by norm_num, by rw [hs2]; exact h.hx,
      by rw [hs2]; simp [IArr.get, IArr.checkIndex], hsen, by rw [hs2]; exact h.hf, by rw [hs2]; exact h.hdirState,
      fun z => imuFunctor_state dt z u k, fun z => imuFunctor_measure dt z _ _⟩
  have hnt : s2.st.nt = 18 := by rw [hs2]; exact h.hnt
  have har : s2.st.arith = Arith.default := by rw [hs2]; exact h.har
  have hcx : notCached s2.st.xbar (k + 1) = true := notCached_of_lt fun v t e => by have := h.cx v t (by rw [hs2] at e; exact e); omega
  have hcy : notCached s2.st.ybar (k + 1) = true := notCached_of_lt fun v t e => by have := h.cy v t (by rw [hs2] at e; exact e); omega
  have e1 := hd.getA hnt har hcx dx
  obtain ⟨f1, hf1⟩ : ∃ f1 : KFilter Ext, f1 = { s2 with st := { s2.st with xbar := some (⟨18, F x⟩, k + 1), ext := { s2.st.ext with optU := ⟨6, u⟩ } } } := ⟨_, rfl⟩
  rw [← hf1] at e1
  have hd1 : Driven f1 x k (imuFunctor dt) F imuReading u u1 := by
    rw [hf1]
    exact ⟨hd.hn, hd.hm, hd.hmt, hd.hp, hd.pos, hd.hx, hd.hu, by rw [← hsen]; exact sensorInput_congr _ _ _ (by rw [hd.hp]; norm_num) rfl rfl rfl, hd.hf, hd.dir, hd.hF, hd.hH⟩
  have e2 := hd1.getC (by rw [hf1]; exact hnt) (by rw [hf1]; exact har) (F x) (by rw [hf1]) (by rw [hf1]; exact hcy) (by norm_num) dx
  obtain ⟨f2, hf2⟩ : ∃ f2 : KFilter Ext, f2 = { f1 with st := { f1.st with ybar := some (⟨6, imuReading (F x)⟩, k + 1), ext := { f1.st.ext with optU := ⟨6, u1⟩ } } } :=
    ⟨_, rfl⟩
  rw [← hf2] at e2
  have e3 := setA_ok f2 (nt := 18) (by rw [hf2, hf1]; exact hnt) A
  obtain ⟨f3, hf3⟩ : ∃ f3 : KFilter Ext, f3 = { f2 with st := { f2.st with a := ⟨18, 18, A⟩ } } := ⟨_, rfl⟩
  rw [← hf3] at e3
  have e4 := setC_ok f3 (nt := 18) (m := 6) (by rw [hf3, hf2, hf1]; exact hnt) (by rw [hf3, hf2, hf1]; exact hd.hmt) C
  obtain ⟨f4, hf4⟩ : ∃ f4 : KFilter Ext, f4 = { f3 with st := { f3.st with c := ⟨6, 18, C⟩ } } := ⟨_, rfl⟩
  rw [← hf4] at e4
  have hst : f4.st = { s.st with
      a := ⟨18, 18, A⟩, c := ⟨6, 18, C⟩, xbar := some (⟨18, F x⟩, k + 1), ybar := some (⟨6, imuReading (F x)⟩, k + 1), ext := { s.st.ext with optU := ⟨6, u1⟩ } } := by
    rw [hf4, hf3, hf2, hf1, hs2]
  have hmats : HasMats f4.st 18 6 A Q P C R := by
    rw [hst]
    exact ⟨h.hnt, h.hmt, rfl, h.hq, h.hpr, rfl, h.hr⟩
  have hx4 : f4.x = some (⟨18, x⟩, k) := by rw [hf4, hf3, hf2, hf1]; exact hd.hx
  have hy4 : f4.y = ⟨k + 1, [⟨6, y⟩]⟩ := by rw [hf4, hf3, hf2, hf1, hs2]
  have hu4 : f4.u = ⟨k, ⟨6, u⟩ :: ws⟩ := by rw [hf4, hf3, hf2, hf1, hs2]
  have ha4 : f4.st.arith = Arith.default := by rw [hst]; exact h.har
  have e5 := estimate_stored (n := 18) hmats hQ hP hR ⟨18, x⟩ k hx4 (F x) (imuReading (F x)) y (by rw [hst]) (by rw [hst])
    (by rw [hst]; show 0 < s.st.p; rw [h.hp]; norm_num) hy4 ⟨6, u⟩ ws hu4 z (by rw [ha4]; simp [Arith.default, DVec.sub_mk]) (by rw [ha4]; simp [Arith.default, DVec.add_mk, z])
  obtain ⟨f5, hf5⟩ : ∃ f5 : KFilter Ext, f5 = { f4 with
      x := some (⟨18, z⟩, k + 1)
      u := ⟨k + 1, ws⟩
      st := { f4.st with
        pr := ⟨18, 18, posterior C R (predCov A Q P)⟩
        innovation := ⟨18, gain C R (predCov A Q P) *ᵥ (y - imuReading (F x))⟩
        kGain := ⟨18, 6, gain C R (predCov A Q P)⟩ } } := ⟨_, rfl⟩
  rw [← hf5] at e5
  have hn5 : f5.st.n = 18 := by rw [hf5]; show f4.st.n = 18; rw [hst]; exact h.hn
  have hp5 : f5.st.p = 6 := by rw [hf5]; show f4.st.p = 6; rw [hst]; exact h.hp
  have hu5 : f5.u = ⟨k + 1, ws⟩ := by rw [hf5]
  have hy5 : f5.y = ⟨k + 1, [⟨6, y⟩]⟩ := by rw [hf5]; exact hy4
  rw [← hs2]
  refine ⟨f1, f2, f3, f4, f5, e1, e2, e3, e4, e5, by rw [hf5]; rfl, fun v => ?_⟩
  refine ⟨_, setState_now f5 v k hn5 (by rw [hp5]; norm_num) _ hy5 ws hu5, ?_, hu5⟩
  refine ⟨hn5, ?_, ?_, ?_, hp5, ?_, ?_, ?_, ?_, rfl, rfl, ?_, ?_, ?_, ?_, ?_⟩
  all_goals simp only [hf5]
  all_goals try rw [hst]
  · exact h.hnt
  · exact h.hm
  · exact h.hmt
  · exact h.har
  · exact h.hf
  · exact h.hdirOut
  · exact h.hdirState
  · exact h.hq
  · exact h.hr
  · intro v t e; cases e; exact le_rfl
  · intro v t e; cases e; exact le_rfl

theorem giveInput_ok {n nt : ℕ} {f : EKF.Functor} {ar : Arith} {Q : Matrix (Fin nt) (Fin nt) ℝ} {R : Matrix (Fin 6) (Fin 6) ℝ} {x : Fin n → ℝ} {P : Matrix (Fin nt) (Fin nt) ℝ}
    {k : Int} {s : KFilter Ext} (h : Ticking n nt 6 6 f ar Q R x P k s) (ys us y : IArr DVec) (u0 : Fin 6 → ℝ) (hu : s.u = ⟨k, [⟨6, u0⟩]⟩)
    (hg : k + 1 < ys.getLastIndex → ∃ u1, us.get (k + 1) = .ok ⟨6, u1⟩) :
    ∃ ws, giveInput ys us (k + 1) { s with y := y } = .ok { s with y := y, u := ⟨k, ⟨6, u0⟩ :: ws⟩ } ∧ (ws = [] ∨ ∃ u1 : Fin 6 → ℝ, ws = [⟨6, u1⟩]) ∧
      ∀ u1, k + 1 < ys.getLastIndex → us.get (k + 1) = .ok ⟨6, u1⟩ → ws = [⟨6, u1⟩] := by
  by_cases hl : k + 1 < ys.getLastIndex
  · obtain ⟨u1, h1⟩ := hg hl
    refine ⟨[⟨6, u1⟩], ?_, Or.inr ⟨u1, rfl⟩, fun w _ e => ?_⟩
    · rw [giveInput, if_pos hl, h1, Res.ok_bind, h.setInput (by norm_num) y u0 u1 hu]
    · rw [h1] at e; cases e; rfl
  · refine ⟨[], ?_, Or.inl rfl, fun _ e => absurd e hl⟩
    rw [giveInput, if_neg hl, ← hu]

theorem att_loop (ys us : IArr DVec) (dt : ℝ) (Q : Matrix (Fin 18) (Fin 18) ℝ) (R : Matrix (Fin 6) (Fin 6) ℝ) (hQ : Q.PosSemidef) (hR : R.PosDef) :
    ∀ (l : List ((Fin 6 → ℝ) × (Fin 6 → ℝ))) (k : Int) (s : KFilter Ext) (xh : IArr DVec) (x) (P),
    AttLive dt Q R x P k s → P.PosSemidef → (∀ e ∈ l.head?, s.u = ⟨k, [⟨6, e.1⟩]⟩) → k + 1 + l.length = ys.getNextIndex →
    (∀ j (h : j < l.length), ys.get (k + 1 + j) = .ok ⟨6, l[j].2⟩ ∧ us.get (k + j) = .ok ⟨6, l[j].1⟩) → Ready xh (k + 1) →
    ∃ r, AttRun dt Q R x P l r ∧
      attLoop ys us ⟨18, fun _ => 1e-8⟩ l.length (k + 1) s xh = (r >>= fun q => .ok (app (k + 1) (q.map fun v => ⟨18, v⟩) xh))
  | [], k, s, xh, x, P, _, _, _, _, _, _ => ⟨.ok [], .done x P, by simp [attLoop, app]⟩
  | (u, y) :: l, k, s, xh, x, P, hs, hP, hu, hlen, hg, hr => by
    have hu := hu (u, y) rfl
    have g0 := hg 0 (by simp)
    simp only [Nat.cast_zero, add_zero, List.getElem_cons_zero] at g0
    have hgt : ∀ j (h : j < l.length), ys.get (k + 1 + 1 + j) = .ok ⟨6, l[j].2⟩ ∧ us.get (k + 1 + j) = .ok ⟨6, l[j].1⟩ := by
      intro j h
      have := hg (j + 1) (by simpa using h)
      simp only [List.getElem_cons_succ, Nat.cast_add, Nat.cast_one] at this
      rwa [show k + 1 + 1 + (j : Int) = k + 1 + ((j : Int) + 1) by ring, show k + 1 + (j : Int) = k + ((j : Int) + 1) by ring]
    have hlast : k + 1 < ys.getLastIndex ↔ l ≠ [] := by
      simp only [IArr.getNextIndex, List.length_cons] at hlen
      simp only [IArr.getLastIndex]
      rw [← List.length_pos_iff]
      push_cast at hlen
      omega
    have hlu : k + 1 < ys.getLastIndex → ∃ u1, us.get (k + 1) = .ok ⟨6, u1⟩ := by
      intro h
      have h0 : 0 < l.length := List.length_pos_iff.2 (hlast.1 h)
      have := (hgt 0 h0).2
      simp only [Nat.cast_zero, add_zero] at this
      exact ⟨_, this⟩
    obtain ⟨ws, ew, hw, hw1⟩ := giveInput_ok hs ys us ⟨k + 1, [⟨6, y⟩]⟩ u hu hlu
    obtain ⟨f1, f2, f3, f4, f5, e1, e2, e3, e4, e5, e6, e7⟩ := att_iteration hs hQ hP hR u y ws hw (fun _ => 1e-8)
    set F := fun x => nextState .imu dt (rotationVectorToQuaternion (seg 3 x iOri)) x u with hF
    set z := F x + gain (forwardDiff imuReading (fun _ => 1e-8) (F x)) R (predCov (forwardDiff F (fun _ => 1e-8) x) Q P) *ᵥ (y - imuReading (F x)) with hz
    have hP' : (posterior (forwardDiff imuReading (fun _ => 1e-8) (F x)) R (predCov (forwardDiff F (fun _ => 1e-8) x) Q P)).PosSemidef :=
      posterior_psd hR (predCov_psd hQ hP)
    rcases le_or_gt (nrm (seg 3 z 3)) (Real.pi * (2 ^ 33 - 1)) with hn | hn
    · obtain ⟨w, hw', p1, p2, -⟩ := C42_partial _ hn
      obtain ⟨f6, e8, hl6, hu6⟩ := e7 (setSeg z 3 w)
      obtain ⟨r, hrun, er⟩ := att_loop ys us dt Q R hQ hR l (k + 1) f6 (app (k + 1) [⟨18, setSeg z 3 w⟩] xh) _ _ hl6 hP'
        (fun e he => by
          cases l with
          | nil => simp at he
          | cons a l =>
            simp only [List.head?_cons, Option.mem_def, Option.some.injEq] at he
            subst he
            rw [hu6, hw1 a.1 (hlast.2 (by simp))]
            have := (hgt 0 (by simp)).2
            simpa using this)
        (by simp only [List.length_cons] at hlen; push_cast at hlen; omega) hgt (ready_app hr _)
      refine ⟨_, .step x P u y l r F imuReading _ _ _ _ (setSeg z 3 w) (fun x => imuNext_spec dt x u) imuReading_spec rfl rfl rfl rfl ?_ ?_ ?_ hrun, ?_⟩
      · intro j hj
        simp only [setSeg]
        rw [dif_neg (by omega)]
        rfl
      · rw [seg_setSeg_same _ _ _ (by decide)]; exact p1
      · rw [seg_setSeg_same _ _ _ (by decide)]; exact p2
      · have hreg : regulated ⟨18, z⟩ = .ok ⟨18, setSeg z 3 w⟩ := by
          simp only [regulated, dif_pos, Fin.cast_eq_self]
          have : regulateOrientationVector (seg 3 z iOri) = .ok w := hw'
          rw [this]
          rfl
        simp only [List.length_cons, attLoop, g0.1, hs.setMeasurement y, ew, e1, e2, e3, e4, e5, e6, hreg, e8, setValue_ready hr, Res.ok_bind]
        rw [er]
        cases r with
        | ok q => simp [app_app]
        | assertFail => rfl
        | ub => rfl
        | exn => rfl
    · have ho : regulateOrientationVector (seg 3 z iOri) = .ub := C42_false _ hn
      refine ⟨_, .tooLong x P u y l F imuReading _ _ _ _ (fun x => imuNext_spec dt x u) imuReading_spec rfl rfl rfl rfl hn, ?_⟩
      have hreg : regulated ⟨18, z⟩ = .ub := by
        simp only [regulated, dif_pos, Fin.cast_eq_self]
        rw [ho]
        rfl
      simp only [List.length_cons, attLoop, g0.1, hs.setMeasurement y, ew, e1, e2, e3, e4, e5, e6, hreg, Res.ok_bind]
      rfl

end StateObs.Offline
