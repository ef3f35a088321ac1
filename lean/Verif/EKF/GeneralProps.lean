import Verif.EKF.AffineProps
import Verif.Kalman.CoordProps
/-!
# Property C127: the recursion of the extended Kalman filter, and its coordinates
-/

namespace StateObs.EKF
open StateObs KF Matrix KFSpec
variable {n n' m p : ℕ}

/-- A nonlinear system: `F k x u` is the state at time `k+1` from the state and the input at time `k`, `H k x u` the measurement of the state at
time `k+1`, with the input at time `k+1`. -/
structure System (n m p : ℕ) where
  F : Int → (Fin n → ℝ) → (Fin p → ℝ) → Fin n → ℝ
  H : Int → (Fin n → ℝ) → (Fin p → ℝ) → Fin m → ℝ

/-- The functor given to the filter computes the system. -/
def Computes (f : Functor) (y : System n m p) : Prop :=
  (∀ x u k, f.stateDynamics ⟨n, x⟩ ⟨p, u⟩ k = .ok ⟨n, y.F k x u⟩) ∧ (∀ x u k, f.measureDynamics ⟨n, x⟩ ⟨p, u⟩ (k + 1) = .ok ⟨m, y.H k x u⟩)

/-- The matrices given to the filter at a sampling time. -/
structure Mats (n m : ℕ) where
  A : Matrix (Fin n) (Fin n) ℝ
  C : Matrix (Fin m) (Fin n) ℝ
  Q : Matrix (Fin n) (Fin n) ℝ
  R : Matrix (Fin m) (Fin m) ℝ

/-- Covariances. -/
def Mats.Ok (M : Mats n m) : Prop := M.Q.PosSemidef ∧ M.R.PosDef

/-- What a user does between two sampling times: give the matrices, the inputs, the measurement, ask for the estimate. -/
noncomputable def cycleU (M : Mats n m) (i : StepIn m p) (s : KFilter Ext) : Res (KFilter Ext) := do
  let k ← s.getCurrentTime
  let s ← setA s ⟨n, n, M.A⟩
  let s ← setC s ⟨m, n, M.C⟩
  let s ← setQ s ⟨n, n, M.Q⟩
  let s ← setR s ⟨m, m, M.R⟩
  let s ← Obs.setInput (cfg s) s ⟨p, i.u⟩ k
  let s ← Obs.setInput (cfg s) s ⟨p, i.u'⟩ (k + 1)
  let s ← Obs.setMeasurement (cfg s) s ⟨m, i.y⟩ (k + 1)
  getEstimatedState s (k + 1)

/-- `N` sampling times. -/
noncomputable def cyclesU (M : ℕ → Mats n m) (i : ℕ → StepIn m p) (s : KFilter Ext) : ℕ → Res (KFilter Ext)
  | 0 => .ok s
  | N + 1 => do
    let s ← cyclesU M i s N
    cycleU (M N) (i N) s

/-- The textbook step of the extended Kalman filter, from time `k`: the state is predicted by the system, its covariance with `A` and `Q`; the
gain `K` is the one of `C`, `R` and the predicted covariance. -/
noncomputable def ekfStep (y : System n m p) (k : Int) (M : Mats n m) (i : StepIn m p) (z : (Fin n → ℝ) × Matrix (Fin n) (Fin n) ℝ) :
    (Fin n → ℝ) × Matrix (Fin n) (Fin n) ℝ :=
  let P' := M.A * z.2 * M.Aᵀ + M.Q
  let K := P' * M.Cᵀ * (M.C * P' * M.Cᵀ + M.R)⁻¹
  let x' := y.F k z.1 i.u
  (x' + K *ᵥ (i.y - y.H k x' i.u'), (1 - K * M.C) * P')

/-- `N` textbook steps. -/
noncomputable def ekfRun (y : System n m p) (k : Int) (M : ℕ → Mats n m) (i : ℕ → StepIn m p) (z : (Fin n → ℝ) × Matrix (Fin n) (Fin n) ℝ) :
    ℕ → (Fin n → ℝ) × Matrix (Fin n) (Fin n) ℝ
  | 0 => z
  | N + 1 => ekfStep y (k + N) (M N) (i N) (ekfRun y k M i z N)

/-- The system and the matrices in other coordinates: `T` for the state, `U` for the measurement. -/
structure MapsE (T : Matrix (Fin n') (Fin n) ℝ) (U : Matrix (Fin m) (Fin m) ℝ) (y : System n m p) (y' : System n' m p) : Prop where
  F : ∀ k x u, y'.F k (T *ᵥ x) u = T *ᵥ y.F k x u
  H : ∀ k x u, y'.H k (T *ᵥ x) u = U *ᵥ y.H k x u

/-- See `MapsE`. -/
structure MapsM (T : Matrix (Fin n') (Fin n) ℝ) (U : Matrix (Fin m) (Fin m) ℝ) (M : Mats n m) (M' : Mats n' m) : Prop where
  A : M'.A * T = T * M.A
  C : M'.C * T = U * M.C
  Q : M'.Q = T * M.Q * Tᵀ
  R : M'.R = U * M.R * Uᵀ

/-! ## Lemmas -/

theorem prediction_gen {s : KFilter Ext} {f : Functor} {x : Fin n → ℝ} {k : Int} {i : StepIn m p} (h : Ready s n m p f x k i)
    (y : System n m p) (hf : Computes f y) (hc : notCached s.st.xbar (k + 1) = true) :
    prediction s (k + 1) = .ok { s with st := { s.st with
      xbar := some (⟨n, y.F k x i.u⟩, k + 1)
      ext := { s.st.ext with optU := ⟨p, i.u⟩ } } } := by
  unfold prediction
  rw [if_pos hc]
  have : (if s.st.p > 0 ∧ s.st.ext.dirState = true then do
        Res.assert (decide (s.u.size > 0) && s.u.checkIndex (k + 1 - 1))
        s.u.get (k + 1 - 1)
      else .ok (DVec.zero s.st.p)) = .ok (⟨p, i.u⟩ : DVec) := by
    by_cases hp : p = 0
    · rw [if_neg (by rw [h.hp]; omega), h.hp, vec0 hp]
    · have hd := h.dir.resolve_left hp
      have hu := h.u.resolve_left hp
      rw [if_pos ⟨by rw [h.hp]; omega, hd⟩, show k + 1 - 1 = k by omega, hu, get_fst]
      simp [IArr.size, IArr.checkIndex]
  rw [this]
  simp only [Res.ok_bind, h.f, h.x, hf.1]

theorem predictSensor_gen {s : KFilter Ext} {f : Functor} {x xb : Fin n → ℝ} {k : Int} {i : StepIn m p} (h : Ready s n m p f x k i)
    (y : System n m p) (hf : Computes f y) (hx : s.st.xbar = some (⟨n, xb⟩, k + 1)) (ho : s.st.ext.optU = ⟨p, i.u⟩)
    (hc : notCached s.st.ybar (k + 1) = true) :
    predictSensor s (k + 1) = .ok { s with st := { s.st with
      ybar := some (⟨m, y.H k xb i.u'⟩, k + 1)
      ext := { s.st.ext with optU := ⟨p, i.u'⟩ } } } := by
  have hs := sensorInput_aff h fun _ => ho
  unfold predictSensor
  rw [if_pos hc]
  simp only [hx, val, Res.ok_bind, simulateSensor, h.f, hs, hf.2]

/-- A step with predictions that are not stored yet. -/
theorem oneStep_gen {s : KFilter Ext} {f : Functor} {x : Fin n → ℝ} {k : Int} {i : StepIn m p} (h : Ready s n m p f x k i)
    (y : System n m p) (hf : Computes f y) {A Q P : Matrix (Fin n) (Fin n) ℝ} {C R} (hm : HasMats s.st n m A Q P C R)
    (hQ : Q.PosSemidef) (hP : P.PosSemidef) (hR : R.PosDef) (hcx : notCached s.st.xbar (k + 1) = true)
    (hcy : notCached s.st.ybar (k + 1) = true) (hy : s.y.get (k + 1) = .ok ⟨m, i.y⟩) :
    oneStep virt s = .ok { s with
      x := some (⟨n, y.F k x i.u + gain C R (predCov A Q P) *ᵥ (i.y - y.H k (y.F k x i.u) i.u')⟩, k + 1)
      st := { s.st with
        xbar := some (⟨n, y.F k x i.u⟩, k + 1)
        ybar := some (⟨m, y.H k (y.F k x i.u) i.u'⟩, k + 1)
        ext := { s.st.ext with optU := ⟨p, i.u'⟩ }
        pr := ⟨n, n, posterior C R (predCov A Q P)⟩
        innovation := ⟨n, gain C R (predCov A Q P) *ᵥ (i.y - y.H k (y.F k x i.u) i.u')⟩
        kGain := ⟨n, m, gain C R (predCov A Q P)⟩ } } := by
  obtain ⟨h1, h2, h3, h4, h5⟩ := hm.checks
  have hc : (decide (s.y.size > 0) && s.y.checkIndex (k + 1)) = true := by
    have h0 : s.y.checkIndex (k + 1) = true := by
      simp only [IArr.get] at hy
      cases hci : s.y.checkIndex (k + 1) with
      | false => rw [hci] at hy; simp at hy
      | true => rfl
    have : s.y.size > 0 := by
      simp only [IArr.checkIndex, Bool.and_eq_true, decide_eq_true_eq] at h0
      exact h0.1.1
    simp [this, h0]
  have e1 := prediction_gen h y hf hcx
  set s1 : KFilter Ext := { s with st := { s.st with
      xbar := some (⟨n, y.F k x i.u⟩, k + 1), ext := { s.st.ext with optU := ⟨p, i.u⟩ } } } with hs1
  have r1 : Ready s1 n m p f x k i := ⟨h.hn, h.hnt, h.hm, h.hmt, h.hp, h.ar, h.x, h.u, h.f, h.dir⟩
  have e2 := predictSensor_gen (xb := y.F k x i.u) r1 y hf rfl rfl hcy
  have m2 : HasMats ({ s1.st with ybar := some (⟨m, y.H k (y.F k x i.u) i.u'⟩, k + 1), ext := { s1.st.ext with optU := ⟨p, i.u'⟩ } } : KData Ext)
    n m A Q P C R := ⟨hm.1, hm.2, hm.3, hm.4, hm.5, hm.6, hm.7⟩
  unfold oneStep
  rw [h.x]
  simp only [hc, h1, h2, h3, h4, h5, Res.assert_true, Res.ok_bind, virt, e1, e2]
  simp only [hs1, val, Res.ok_bind, hy]
  rw [correct_eq m2 hQ hP hR]
  simp only [hs1, h.ar, Arith.default, DVec.sub_mk, Res.ok_bind, DMat.mulVec_mk, DVec.add_mk]

theorem ekfStep_eq (y : System n m p) (k : Int) (M : Mats n m) (i : StepIn m p) (z : (Fin n → ℝ) × Matrix (Fin n) (Fin n) ℝ) :
    ekfStep y k M i z = (y.F k z.1 i.u + gain M.C M.R (predCov M.A M.Q z.2) *ᵥ (i.y - y.H k (y.F k z.1 i.u) i.u'),
      posterior M.C M.R (predCov M.A M.Q z.2)) := rfl

theorem ekfStep_psd (y : System n m p) (k : Int) {M : Mats n m} (hM : M.Ok) (i : StepIn m p) {z : (Fin n → ℝ) × Matrix (Fin n) (Fin n) ℝ}
    (hz : z.2.PosSemidef) : (ekfStep y k M i z).2.PosSemidef := posterior_psd hM.2 (predCov_psd hM.1 hz)

theorem ekfRun_psd (y : System n m p) (k : Int) (M : ℕ → Mats n m) (hM : ∀ N, (M N).Ok) (i : ℕ → StepIn m p)
    {z : (Fin n → ℝ) × Matrix (Fin n) (Fin n) ℝ} (hz : z.2.PosSemidef) (N : ℕ) : (ekfRun y k M i z N).2.PosSemidef := by
  induction N with
  | zero => exact hz
  | succ N ih => exact ekfStep_psd y _ (hM N) (i N) ih

theorem cycleU_eq (s : KFilter Ext) (f : Functor) (y : System n m p) (hf : Computes f y) (x : Fin n → ℝ)
    (P : Matrix (Fin n) (Fin n) ℝ) (k : Int) (hs : InUse s n m p f x P k) (hP : P.PosSemidef) (M : Mats n m) (hM : M.Ok) (i : StepIn m p) :
    ∃ s', cycleU M i s = .ok s' ∧ InUse s' n m p f (ekfStep y k M i (x, P)).1 (ekfStep y k M i (x, P)).2 (k + 1) := by
  set s1 : KFilter Ext := { s with st := { s.st with a := ⟨n, n, M.A⟩, c := ⟨m, n, M.C⟩, q := ⟨n, n, M.Q⟩, r := ⟨m, m, M.R⟩ } } with hs1
  have hx1 : s1.x = some (⟨n, x⟩, k) := hs.x
  have hin : ∃ u', (do
      let s ← Obs.setInput (cfg s1) s1 ⟨p, i.u⟩ k
      Obs.setInput (cfg s) s ⟨p, i.u'⟩ (k + 1)) = .ok { s1 with u := u' } ∧
      (p = 0 ∨ u' = ⟨k, [⟨p, i.u⟩, ⟨p, i.u'⟩]⟩) := by
    by_cases hp : p = 0
    · have hp1 : ¬ (cfg s1).p > 0 := by simp [cfg, hs1, hs.hp, hp]
      refine ⟨s.u, ?_, Or.inl hp⟩
      simp only [Obs.setInput, hp1, if_false, Res.ok_bind]
      rfl
    · have hp1 : (cfg s1).p > 0 := by simp [cfg, hs1, hs.hp]; omega
      obtain ⟨s2, h2, h3⟩ := LKF.setInput_two (cfg s1) s1 _ k hx1 (hs.u.resolve_left hp) (⟨p, i.u⟩ : DVec) ⟨p, i.u'⟩
        (by simp [cfg, hs1, hs.hp]) (by simp [cfg, hs1, hs.hp]) hp1
      refine ⟨⟨k, [⟨p, i.u⟩, ⟨p, i.u'⟩]⟩, ?_, Or.inr rfl⟩
      rw [h2, Res.ok_bind, ← h3]
      have : cfg s2 = cfg s1 := by
        have := obs_setInput_st h2
        simp only [cfg, this]
      rw [this]
  obtain ⟨u', hin, hu'⟩ := hin
  obtain ⟨y', hm, hget, hpop⟩ := LKF.setMeasurement_next (cfg { s1 with u := u' }) { s1 with u := u' } _ k hx1 hs.y
    (⟨m, i.y⟩ : DVec) (by simp [cfg, hs1, hs.hm])
  set s2 : KFilter Ext := { s1 with u := u', y := y' } with hs2
  have r2 : Ready s2 n m p f x k i := ⟨hs.hn, hs.hnt, hs.hm, hs.hmt, hs.hp, hs.ar, hx1, hu', hs.f, hs.dir⟩
  have hcx : notCached s2.st.xbar (k + 1) = true := notCached_of_lt fun v t h => by have := hs.cx v t h; omega
  have hcy : notCached s2.st.ybar (k + 1) = true := notCached_of_lt fun v t h => by have := hs.cy v t h; omega
  have m2 : HasMats s2.st n m M.A M.Q P M.C M.R := ⟨hs.hnt, hs.hmt, rfl, rfl, hs.pr, rfl, rfl⟩
  have hstep := oneStep_gen r2 y hf m2 hM.1 hP hM.2 hcx hcy hget
  have hc : cycleU M i s = getEstimatedState s2 (k + 1) := by
    have c1 : cycleU M i s = (do
        let s ← (do
          let s ← Obs.setInput (cfg s1) s1 ⟨p, i.u⟩ k
          Obs.setInput (cfg s) s ⟨p, i.u'⟩ (k + 1))
        let s ← Obs.setMeasurement (cfg s) s ⟨m, i.y⟩ (k + 1)
        getEstimatedState s (k + 1)) := by
      unfold cycleU
      have h1 := hs.hnt
      have h2 := hs.hmt
      have hsz : ∀ {a b : ℕ} (X : Matrix (Fin a) (Fin b) ℝ), (⟨a, b, X⟩ : DMat).hasSize a b = true := by simp [DMat.hasSize]
      simp only [Obs.getCurrentTime, hs.x, setA, setC, setQ, setR, KData.checkA, KData.checkC, KData.checkQ, KData.checkR, h1, h2,
        hsz, Res.assert_true, Res.ok_bind, Res.bind_assoc, hs1]
    rw [c1, hin, Res.ok_bind, hm, Res.ok_bind]
  have hest : getEstimatedState s2 (k + 1) = Obs.loopBody (cfg s2) (oneStep virt) (k + 1) s2 := by
    have hx4 : s2.x = some (⟨n, x⟩, k) := hx1
    have h1 : k ≤ k + 1 := by omega
    simp only [getEstimatedState, KF.getEstimatedState, Obs.getEstimatedState, Obs.getCurrentTime, hx4, Res.ok_bind, h1, decide_true,
      Res.assert_true]
    rw [show (k + 1 - k).toNat = 1 by omega]
    simp only [Obs.loop]
    cases Obs.loopBody (cfg s2) (oneStep virt) (k + 1) s2 <;> rfl
  rw [hc, hest, Obs.loopBody, hstep]
  have hpop' : Obs.popIf (k + 1) s2.y = .ok ⟨k + 1, [⟨m, i.y⟩]⟩ := hpop
  simp only [Res.ok_bind, hpop']
  have hcx' : ∀ v t, (some ((⟨n, y.F k x i.u⟩ : DVec), k + 1)) = some (v, t) → t ≤ k + 1 := by
    intro v t h; cases h; exact le_refl _
  have hcy' : ∀ v t, (some ((⟨m, y.H k (y.F k x i.u) i.u'⟩ : DVec), k + 1)) = some (v, t) → t ≤ k + 1 := by
    intro v t h; cases h; exact le_refl _
  by_cases hp : p = 0
  · have hp1 : ¬ (cfg s2).p > 0 := by show ¬ s.st.p > 0; rw [hs.hp]; omega
    rw [if_neg hp1]
    exact ⟨_, rfl, hs.hn, hs.hnt, hs.hm, hs.hmt, hs.hp, hs.ar, rfl, rfl, Or.inr ⟨rfl, rfl⟩, Or.inl hp, hs.f, hs.dir, hcx', hcy'⟩
  · have hp1 : (cfg s2).p > 0 := by show s.st.p > 0; rw [hs.hp]; omega
    have hu2 : s2.u = ⟨k, [⟨p, i.u⟩, ⟨p, i.u'⟩]⟩ := hu'.resolve_left hp
    rw [if_pos hp1, hu2]
    have : Obs.popIf (k + 1) (⟨k, [⟨p, i.u⟩, ⟨p, i.u'⟩]⟩ : IArr DVec) = .ok ⟨k + 1, [⟨p, i.u'⟩]⟩ := by
      simp [Obs.popIf, IArr.getFirstIndex, IArr.popFront]
    rw [this]
    exact ⟨_, rfl, hs.hn, hs.hnt, hs.hm, hs.hmt, hs.hp, hs.ar, rfl, rfl, Or.inr ⟨rfl, rfl⟩, Or.inr (Or.inr ⟨rfl, rfl⟩), hs.f, hs.dir,
      hcx', hcy'⟩

theorem ekfStep_maps {T : Matrix (Fin n') (Fin n) ℝ} {U : Matrix (Fin m) (Fin m) ℝ} {y : System n m p} {y' : System n' m p}
    (h : MapsE T U y y') (hU : IsUnit U.det) {M : Mats n m} {M' : Mats n' m} (hm : MapsM T U M M') (hM : M.Ok) (hM' : M'.Ok) (k : Int)
    (i : StepIn m p) (x : Fin n → ℝ) {P : Matrix (Fin n) (Fin n) ℝ} (hP : P.PosSemidef) :
    ekfStep y' k M' ⟨i.u, i.u', U *ᵥ i.y⟩ (T *ᵥ x, T * P * Tᵀ) =
      (T *ᵥ (ekfStep y k M i (x, P)).1, T * (ekfStep y k M i (x, P)).2 * Tᵀ) := by
  have key := step_maps (p := p) (d := ⟨M.A, 0, M.C, 0, M.Q, M.R⟩) (d' := ⟨M'.A, 0, M'.C, 0, M'.Q, M'.R⟩) (T := T) (T' := T) (U := U)
    ⟨hm.A, by simp, hm.C, by simp, hm.Q, hm.R⟩ hU hM hM' ⟨i.u, i.u', i.y - y.H k (y.F k x i.u) i.u'⟩ 0 hP
  simp only [linStep, predState, predMeas, mulVec_zero, zero_mulVec, add_zero, zero_add, sub_zero, Prod.mk.injEq] at key
  rw [ekfStep_eq, ekfStep_eq]
  simp only [h.F, h.H, ← mulVec_sub]
  rw [key.1, key.2, ← mulVec_add]

theorem ekfRun_maps {T : Matrix (Fin n') (Fin n) ℝ} {U : Matrix (Fin m) (Fin m) ℝ} {y : System n m p} {y' : System n' m p}
    (h : MapsE T U y y') (hU : IsUnit U.det) {M : ℕ → Mats n m} {M' : ℕ → Mats n' m} (hm : ∀ N, MapsM T U (M N) (M' N)) (hM : ∀ N, (M N).Ok)
    (hM' : ∀ N, (M' N).Ok) (k : Int) (i : ℕ → StepIn m p) (x : Fin n → ℝ) {P : Matrix (Fin n) (Fin n) ℝ} (hP : P.PosSemidef) (N : ℕ) :
    ekfRun y' k M' (fun N => ⟨(i N).u, (i N).u', U *ᵥ (i N).y⟩) (T *ᵥ x, T * P * Tᵀ) N =
      (T *ᵥ (ekfRun y k M i (x, P) N).1, T * (ekfRun y k M i (x, P) N).2 * Tᵀ) := by
  induction N with
  | zero => rfl
  | succ N ih =>
    rw [ekfRun, ih, ekfRun]
    exact ekfStep_maps h hU (hm N) (hM N) (hM' N) _ (i N) _ (ekfRun_psd y k M hM i (z := (x, P)) hP N)

/-- The matrix whose column `j` is the difference quotient of `g` at `x`, for a step `h j` of the component `j`. -/
noncomputable def quotients {r c : ℕ} (g : (Fin c → ℝ) → Fin r → ℝ) (x h : Fin c → ℝ) : Matrix (Fin r) (Fin c) ℝ :=
  Matrix.of fun a j => (g (x + fun l => if l = j then h j else 0) a - g x a) / h j

/-- The matrices of a step: `A` and `C` are the difference quotients of the system, at the estimate `x` and at the state predicted from it. -/
noncomputable def fdMats (y : System n m p) (k : Int) (Q : Matrix (Fin n) (Fin n) ℝ) (R : Matrix (Fin m) (Fin m) ℝ) (dA dC : Fin n → ℝ)
    (i : StepIn m p) (x : Fin n → ℝ) : Mats n m :=
  ⟨quotients (fun z => y.F k z i.u) x dA, quotients (fun z => y.H k z i.u') (y.F k x i.u) dC, Q, R⟩

/-- `N` steps with difference quotients. -/
noncomputable def fdRun (y : System n m p) (k : Int) (Q : ℕ → Matrix (Fin n) (Fin n) ℝ) (R : ℕ → Matrix (Fin m) (Fin m) ℝ)
    (dA dC : ℕ → Fin n → ℝ) (i : ℕ → StepIn m p) (z : (Fin n → ℝ) × Matrix (Fin n) (Fin n) ℝ) : ℕ → (Fin n → ℝ) × Matrix (Fin n) (Fin n) ℝ
  | 0 => z
  | N + 1 =>
    let w := fdRun y k Q R dA dC i z N
    ekfStep y (k + N) (fdMats y (k + N) (Q N) (R N) (dA N) (dC N) (i N) w.1) (i N) w

theorem fdRun_psd (y : System n m p) (k : Int) (Q : ℕ → Matrix (Fin n) (Fin n) ℝ) (R : ℕ → Matrix (Fin m) (Fin m) ℝ)
    (hQ : ∀ N, (Q N).PosSemidef) (hR : ∀ N, (R N).PosDef) (dA dC : ℕ → Fin n → ℝ) (i : ℕ → StepIn m p)
    {z : (Fin n → ℝ) × Matrix (Fin n) (Fin n) ℝ} (hz : z.2.PosSemidef) (N : ℕ) : (fdRun y k Q R dA dC i z N).2.PosSemidef := by
  induction N with
  | zero => exact hz
  | succ N ih => exact ekfStep_psd y _ ⟨hQ N, hR N⟩ (i N) ih

theorem getAMatrixFD_gen {s : KFilter Ext} {f : Functor} {x : Fin n → ℝ} {k : Int} {i : StepIn m p} (h : Ready s n m p f x k i)
    (y : System n m p) (hf : Computes f y) (hc : notCached s.st.xbar (k + 1) = true) (dA : Fin n → ℝ) :
    getAMatrixFD s ⟨n, dA⟩ = .ok (⟨n, n, quotients (fun z => y.F k z i.u) x dA⟩, { s with st := { s.st with
      xbar := some (⟨n, y.F k x i.u⟩, k + 1)
      ext := { s.st.ext with optU := ⟨p, i.u⟩ } } }) := by
  obtain ⟨sx, sy, su, ⟨sn, snt, sm, smt, sp, sa, sc, sq, sr, spr, sxb, syb, sin, skg, sar, ⟨sf, sdo, sds, sou⟩⟩⟩ := s
  have hp0 := prediction_gen h y hf hc
  obtain ⟨h1, h2, h3, h4, h5, h6, h7, hu, h8, hdir⟩ := h
  simp only at h1 h2 h3 h4 h5 h6 h7 h8
  subst h1 h2 h3 h4 h5 h6 h7 h8
  simp only at hu hdir hc hp0
  simp only [getAMatrixFD, updateStatePrediction, Obs.getCurrentTime, Res.ok_bind, hp0, val]
  have : (if sp > 0 then if sds = true then su.get k else .ok (DVec.zero sp) else Res.ok (⟨sp, i.u⟩ : DVec)) = .ok ⟨sp, i.u⟩ := by
    by_cases hp : sp = 0
    · rw [if_neg (by omega)]
    · rw [if_pos (by omega), if_pos (hdir.resolve_left hp), hu.resolve_left hp, get_fst]
  rw [this]
  simp only [Res.ok_bind]
  rw [cols_ok snt _ (fun j r => quotients (fun z => y.F k z i.u) x dA r j)]
  · rfl
  · intro j
    simp only [colA, DVec.at, j.2, dif_pos, Res.ok_bind, unitVec, Arith.default, DVec.add_mk, hf.1, val, DVec.sub_mk, DVec.divBy, asCol_mk]
    rfl

theorem getCMatrixFD_gen {s : KFilter Ext} {f : Functor} {x xb : Fin n → ℝ} {k : Int} {i : StepIn m p} (h : Ready s n m p f x k i)
    (y : System n m p) (hf : Computes f y) (hx : s.st.xbar = some (⟨n, xb⟩, k + 1)) (ho : p = 0 → s.st.ext.optU = ⟨p, i.u⟩)
    (hc : notCached s.st.ybar (k + 1) = true) (dC : Fin n → ℝ) :
    getCMatrixFD s ⟨n, dC⟩ = .ok (⟨m, n, quotients (fun z => y.H k z i.u') xb dC⟩, { s with st := { s.st with
      ybar := some (⟨m, y.H k xb i.u'⟩, k + 1)
      ext := { s.st.ext with optU := ⟨p, i.u'⟩ } } }) := by
  obtain ⟨sx, sy, su, ⟨sn, snt, sm, smt, sp, sa, sc, sq, sr, spr, sxb, syb, sin, skg, sar, ⟨sf, sdo, sds, sou⟩⟩⟩ := s
  have hs0 := sensorInput_aff h ho
  obtain ⟨h1, h2, h3, h4, h5, h6, h7, hu, h8, hdir⟩ := h
  simp only at h1 h2 h3 h4 h5 h6 h7 h8
  subst h1 h2 h3 h4 h5 h6 h7 h8
  simp only at hu hdir hc ho hx
  subst hx
  have hs1 : ∀ (yb : Option (DVec × Int)), sensorInput (⟨some (⟨snt, x⟩, k), sy, su, ⟨snt, snt, smt, smt, sp, sa, sc, sq, sr, spr,
      some (⟨snt, xb⟩, k + 1), yb, sin, skg, Arith.default, ⟨some f, sdo, sds, ⟨sp, i.u'⟩⟩⟩⟩ : KFilter Ext) (k + 1) = .ok ⟨sp, i.u'⟩ := by
    intro yb
    have := hs0
    unfold sensorInput at this ⊢
    by_cases hp : sp > 0
    · simp only [hp, if_true] at this ⊢; exact this
    · simp only [hp, if_false]
  have hp1 : ∀ (yb : Option (DVec × Int)) (o : DVec), prediction (⟨some (⟨snt, x⟩, k), sy, su, ⟨snt, snt, smt, smt, sp, sa, sc, sq, sr, spr,
      some (⟨snt, xb⟩, k + 1), yb, sin, skg, Arith.default, ⟨some f, sdo, sds, o⟩⟩⟩ : KFilter Ext) (k + 1) = .ok ⟨some (⟨snt, x⟩, k), sy, su, ⟨snt, snt, smt, smt, sp, sa, sc, sq, sr, spr,
      some (⟨snt, xb⟩, k + 1), yb, sin, skg, Arith.default, ⟨some f, sdo, sds, o⟩⟩⟩ := by
    intro yb o
    simp only [prediction, notCached_self, Bool.false_eq_true, if_false]
  simp only [getCMatrixFD, updateStateAndMeasurementPrediction, updateStatePrediction, Obs.getCurrentTime, Res.ok_bind, hp1,
    predictSensor, hc, if_true, val, simulateSensor, hs0, hf.2]
  rw [cols_ok snt _ (fun j r => quotients (fun z => y.H k z i.u') xb dC r j)]
  · by_cases hn : snt > 0
    · simp only [hn, if_true, Res.ok_bind, hs1]
    · simp only [hn, if_false, Res.ok_bind]
  · intro j
    simp only [colC, DVec.at, j.2, dif_pos, Res.ok_bind, val, unitVec, Arith.default, DVec.add_mk, simulateSensor]
    have hs2 := hs1 (some (⟨smt, y.H k xb i.u'⟩, k + 1))
    simp only [Arith.default] at hs2
    rw [hs2]
    simp only [Res.ok_bind, hf.2, DVec.sub_mk, DVec.divBy, asCol_mk]
    rfl

theorem cycle_gen (s : KFilter Ext) (f : Functor) (y : System n m p) (hf : Computes f y) (x : Fin n → ℝ)
    (P : Matrix (Fin n) (Fin n) ℝ) (k : Int) (hs : InUse s n m p f x P k) (hP : P.PosSemidef) (Q : Matrix (Fin n) (Fin n) ℝ)
    (R : Matrix (Fin m) (Fin m) ℝ) (hQ : Q.PosSemidef) (hR : R.PosDef) (dA dC : Fin n → ℝ) (i : StepIn m p) :
    ∃ s', cycle Q R dA dC i s = .ok s' ∧ InUse s' n m p f (ekfStep y k (fdMats y k Q R dA dC i x) i (x, P)).1
      (ekfStep y k (fdMats y k Q R dA dC i x) i (x, P)).2 (k + 1) := by
  set qA := quotients (fun z => y.F k z i.u) x dA with hqA
  set qC := quotients (fun z => y.H k z i.u') (y.F k x i.u) dC with hqC
  set s1 : KFilter Ext := { s with st := { s.st with q := ⟨n, n, Q⟩, r := ⟨m, m, R⟩ } } with hs1
  have hx1 : s1.x = some (⟨n, x⟩, k) := hs.x
  have hin : ∃ u', (do
      let s ← Obs.setInput (cfg s1) s1 ⟨p, i.u⟩ k
      Obs.setInput (cfg s) s ⟨p, i.u'⟩ (k + 1)) = .ok { s1 with u := u' } ∧
      (p = 0 ∨ u' = ⟨k, [⟨p, i.u⟩, ⟨p, i.u'⟩]⟩) := by
    by_cases hp : p = 0
    · have hp1 : ¬ (cfg s1).p > 0 := by simp [cfg, hs1, hs.hp, hp]
      refine ⟨s.u, ?_, Or.inl hp⟩
      simp only [Obs.setInput, hp1, if_false, Res.ok_bind]
      rfl
    · have hp1 : (cfg s1).p > 0 := by simp [cfg, hs1, hs.hp]; omega
      obtain ⟨s2, h2, h3⟩ := LKF.setInput_two (cfg s1) s1 _ k hx1 (hs.u.resolve_left hp) (⟨p, i.u⟩ : DVec) ⟨p, i.u'⟩
        (by simp [cfg, hs1, hs.hp]) (by simp [cfg, hs1, hs.hp]) hp1
      refine ⟨⟨k, [⟨p, i.u⟩, ⟨p, i.u'⟩]⟩, ?_, Or.inr rfl⟩
      rw [h2, Res.ok_bind, ← h3]
      have : cfg s2 = cfg s1 := by
        have := obs_setInput_st h2
        simp only [cfg, this]
      rw [this]
  obtain ⟨u', hin, hu'⟩ := hin
  obtain ⟨y', hm, hget, hpop⟩ := LKF.setMeasurement_next (cfg { s1 with u := u' }) { s1 with u := u' } _ k hx1 hs.y
    (⟨m, i.y⟩ : DVec) (by simp [cfg, hs1, hs.hm])
  set s2 : KFilter Ext := { s1 with u := u', y := y' } with hs2
  have r2 : Ready s2 n m p f x k i := ⟨hs.hn, hs.hnt, hs.hm, hs.hmt, hs.hp, hs.ar, hx1, hu', hs.f, hs.dir⟩
  have hcx : notCached s2.st.xbar (k + 1) = true := notCached_of_lt fun v t h => by have := hs.cx v t h; omega
  have hcy : notCached s2.st.ybar (k + 1) = true := notCached_of_lt fun v t h => by have := hs.cy v t h; omega
  have eA := getAMatrixFD_gen r2 y hf hcx dA
  set xb := y.F k x i.u with hxb
  set s3 : KFilter Ext := { s2 with st := { s2.st with
      a := ⟨n, n, qA⟩, xbar := some (⟨n, xb⟩, k + 1), ext := { s2.st.ext with optU := ⟨p, i.u⟩ } } } with hs3
  have r3 : Ready s3 n m p f x k i := ⟨hs.hn, hs.hnt, hs.hm, hs.hmt, hs.hp, hs.ar, hx1, hu', hs.f, hs.dir⟩
  have eC := getCMatrixFD_gen (xb := xb) r3 y hf rfl (fun _ => rfl) hcy dC
  set yb := y.H k xb i.u' with hyb
  set s4 : KFilter Ext := { s3 with st := { s3.st with
      c := ⟨m, n, qC⟩, ybar := some (⟨m, yb⟩, k + 1), ext := { s3.st.ext with optU := ⟨p, i.u'⟩ } } } with hs4
  have m4 : HasMats s4.st n m qA Q P qC R := ⟨hs.hnt, hs.hmt, rfl, rfl, hs.pr, rfl, rfl⟩
  have hstep := oneStep_cached m4 hQ hP hR hs.ar ⟨n, x⟩ k hx1 xb yb i.y rfl rfl hget
  have hq : s.st.checkQ ⟨n, n, Q⟩ = true := by simp [KData.checkQ, hs.hnt]
  have hr : s.st.checkR ⟨m, m, R⟩ = true := by simp [KData.checkR, hs.hmt]
  have hc : cycle Q R dA dC i s = getEstimatedState s4 (k + 1) := by
    have c1 : cycle Q R dA dC i s = (do
        let s ← (do
          let s ← Obs.setInput (cfg s1) s1 ⟨p, i.u⟩ k
          Obs.setInput (cfg s) s ⟨p, i.u'⟩ (k + 1))
        let s ← Obs.setMeasurement (cfg s) s ⟨m, i.y⟩ (k + 1)
        let (A, s) ← getAMatrixFD s ⟨n, dA⟩
        let s ← setA s A
        let (C, s) ← getCMatrixFD s ⟨n, dC⟩
        let s ← setC s C
        getEstimatedState s (k + 1)) := by
      unfold cycle
      simp only [Obs.getCurrentTime, hs.x, setQ, setR, hq, Res.assert_true, Res.ok_bind, Res.bind_assoc]
      have : ({ s.st with q := ⟨n, n, Q⟩ } : KData Ext).checkR ⟨m, m, R⟩ = true := hr
      simp only [this, Res.assert_true, Res.ok_bind]
      rw [← hs.x]
    rw [c1, hin, Res.ok_bind, hm, Res.ok_bind]
    have eA' : getAMatrixFD { s1 with u := u', y := y' } ⟨n, dA⟩ = _ := eA
    rw [eA', Res.ok_bind]
    have ha : s2.st.checkA ⟨n, n, qA⟩ = true := by
      have : s2.st.nt = n := hs.hnt
      simp [KData.checkA, this]
    have ha' : setA ({ s2 with st := { s2.st with
      xbar := some (⟨n, xb⟩, k + 1), ext := { s2.st.ext with optU := ⟨p, i.u⟩ } } } : KFilter Ext) ⟨n, n, qA⟩ = .ok s3 := by
      unfold setA
      have : ({ s2.st with xbar := some (⟨n, xb⟩, k + 1), ext := { s2.st.ext with optU := ⟨p, i.u⟩ } } : KData Ext).checkA
        ⟨n, n, qA⟩ = true := ha
      rw [this]; rfl
    simp only []
    rw [ha', Res.ok_bind, eC, Res.ok_bind]
    simp only []
    have hc : s3.st.checkC ⟨m, n, qC⟩ = true := by
      have e1 : s3.st.nt = n := hs.hnt
      have e2 : s3.st.mt = m := hs.hmt
      simp [KData.checkC, e1, e2]
    have hc' : setC ({ s3 with st := { s3.st with
      ybar := some (⟨m, yb⟩, k + 1), ext := { s3.st.ext with optU := ⟨p, i.u'⟩ } } } : KFilter Ext) ⟨m, n, qC⟩ = .ok s4 := by
      unfold setC
      have : ({ s3.st with ybar := some (⟨m, yb⟩, k + 1), ext := { s3.st.ext with optU := ⟨p, i.u'⟩ } } : KData Ext).checkC
        ⟨m, n, qC⟩ = true := hc
      rw [this]; rfl
    rw [hc', Res.ok_bind]
  have hest : getEstimatedState s4 (k + 1) = Obs.loopBody (cfg s4) (oneStep virt) (k + 1) s4 := by
    have hx4 : s4.x = some (⟨n, x⟩, k) := hx1
    have h1 : k ≤ k + 1 := by omega
    simp only [getEstimatedState, KF.getEstimatedState, Obs.getEstimatedState, Obs.getCurrentTime, hx4, Res.ok_bind, h1, decide_true,
      Res.assert_true]
    rw [show (k + 1 - k).toNat = 1 by omega]
    simp only [Obs.loop]
    cases Obs.loopBody (cfg s4) (oneStep virt) (k + 1) s4 <;> rfl
  rw [hc, hest, Obs.loopBody, hstep]
  have hpop' : Obs.popIf (k + 1) s4.y = .ok ⟨k + 1, [⟨m, i.y⟩]⟩ := hpop
  simp only [Res.ok_bind, hpop']
  have hcx' : ∀ v t, (some ((⟨n, xb⟩ : DVec), k + 1)) = some (v, t) → t ≤ k + 1 := by
    intro v t h; cases h; exact le_refl _
  have hcy' : ∀ v t, (some ((⟨m, yb⟩ : DVec), k + 1)) = some (v, t) → t ≤ k + 1 := by
    intro v t h; cases h; exact le_refl _
  by_cases hp : p = 0
  · have hp1 : ¬ (cfg s4).p > 0 := by show ¬ s.st.p > 0; rw [hs.hp]; omega
    rw [if_neg hp1]
    exact ⟨_, rfl, hs.hn, hs.hnt, hs.hm, hs.hmt, hs.hp, hs.ar, rfl, rfl, Or.inr ⟨rfl, rfl⟩, Or.inl hp, hs.f, hs.dir, hcx', hcy'⟩
  · have hp1 : (cfg s4).p > 0 := by show s.st.p > 0; rw [hs.hp]; omega
    have hu2 : s4.u = ⟨k, [⟨p, i.u⟩, ⟨p, i.u'⟩]⟩ := hu'.resolve_left hp
    rw [if_pos hp1, hu2]
    have : Obs.popIf (k + 1) (⟨k, [⟨p, i.u⟩, ⟨p, i.u'⟩]⟩ : IArr DVec) = .ok ⟨k + 1, [⟨p, i.u'⟩]⟩ := by
      simp [Obs.popIf, IArr.getFirstIndex, IArr.popFront]
    rw [this]
    exact ⟨_, rfl, hs.hn, hs.hnt, hs.hm, hs.hmt, hs.hp, hs.ar, rfl, rfl, Or.inr ⟨rfl, rfl⟩, Or.inr (Or.inr ⟨rfl, rfl⟩), hs.f, hs.dir,
      hcx', hcy'⟩

/-! ## Theorems -/

/-- **C127**. The extended Kalman filter with any functor: with the matrices `A`, `C`, `Q`, `R` given at each sampling time (whatever they are,
they need not be the derivatives of the system), the inputs and the measurements, it succeeds at every time, and its estimate and covariance are
those of the textbook recursion. -/
theorem C127_recursion (s : KFilter Ext) (f : Functor) (y : System n m p) (hf : Computes f y) (x : Fin n → ℝ)
    (P : Matrix (Fin n) (Fin n) ℝ) (k : Int) (hs : InUse s n m p f x P k) (hP : P.PosSemidef) (M : ℕ → Mats n m) (hM : ∀ N, (M N).Ok)
    (i : ℕ → StepIn m p) (N : ℕ) :
    ∃ s', cyclesU M i s N = .ok s' ∧ InUse s' n m p f (ekfRun y k M i (x, P) N).1 (ekfRun y k M i (x, P) N).2 (k + N) := by
  induction N with
  | zero => exact ⟨s, rfl, by simpa [ekfRun] using hs⟩
  | succ N ih =>
    obtain ⟨s1, h1, h2⟩ := ih
    obtain ⟨s2, h3, h4⟩ := cycleU_eq s1 f y hf _ _ _ h2 (ekfRun_psd y k M hM i (z := (x, P)) hP N) (M N) (hM N) (i N)
    refine ⟨s2, ?_, ?_⟩
    · rw [cyclesU, h1]; exact h3
    · have : k + ((N + 1 : ℕ) : Int) = k + N + 1 := by push_cast; ring
      rw [this]; exact h4

/-- **C127**, Jacobians by finite differences. With `getAMatrixFD` and `getCMatrixFD`, any functor and any nonzero steps of the differences, the filter
performs the textbook recursion whose matrices are the difference quotients of the dynamics at the last estimate, and of the measurement at the
predicted state. -/
theorem C127_differences (s : KFilter Ext) (f : Functor) (y : System n m p) (hf : Computes f y) (x : Fin n → ℝ)
    (P : Matrix (Fin n) (Fin n) ℝ) (k : Int) (hs : InUse s n m p f x P k) (hP : P.PosSemidef) (Q : ℕ → Matrix (Fin n) (Fin n) ℝ)
    (R : ℕ → Matrix (Fin m) (Fin m) ℝ) (hQ : ∀ N, (Q N).PosSemidef) (hR : ∀ N, (R N).PosDef) (dA dC : ℕ → Fin n → ℝ)
    (_hA : ∀ N j, dA N j ≠ 0) (_hC : ∀ N j, dC N j ≠ 0) (i : ℕ → StepIn m p) (N : ℕ) :
    ∃ s', cycles Q R dA dC i s N = .ok s' ∧
      InUse s' n m p f (fdRun y k Q R dA dC i (x, P) N).1 (fdRun y k Q R dA dC i (x, P) N).2 (k + N) := by
  induction N with
  | zero => exact ⟨s, rfl, by simpa [fdRun] using hs⟩
  | succ N ih =>
    obtain ⟨s1, h1, h2⟩ := ih
    obtain ⟨s2, h3, h4⟩ := cycle_gen s1 f y hf _ _ _ h2 (fdRun_psd y k Q R hQ hR dA dC i (z := (x, P)) hP N) (Q N) (R N) (hQ N) (hR N) (dA N)
      (dC N) (i N)
    refine ⟨s2, ?_, ?_⟩
    · rw [cycles, h1]; exact h3
    · have : k + ((N + 1 : ℕ) : Int) = k + N + 1 := by push_cast; ring
      rw [this]; exact h4

/-- **C127**. Two extended Kalman filters, of one system in two sets of coordinates (`T` for the state, which need not be invertible: the second
filter may have more components than the first; `U` for the measurement): at every time both succeed, the estimate and the covariance of the
second are those of the first in its coordinates. -/
theorem C127_coordinates (s s' : KFilter Ext) (f f' : Functor) (y : System n m p) (y' : System n' m p) (hf : Computes f y) (hf' : Computes f' y')
    (x : Fin n → ℝ) (P : Matrix (Fin n) (Fin n) ℝ) (k : Int) (T : Matrix (Fin n') (Fin n) ℝ) (U : Matrix (Fin m) (Fin m) ℝ)
    (hs : InUse s n m p f x P k) (hs' : InUse s' n' m p f' (T *ᵥ x) (T * P * Tᵀ) k) (hP : P.PosSemidef)
    (h : MapsE T U y y') (hU : IsUnit U.det) (M : ℕ → Mats n m) (M' : ℕ → Mats n' m) (hm : ∀ N, MapsM T U (M N) (M' N)) (hM : ∀ N, (M N).Ok)
    (hM' : ∀ N, (M' N).Ok) (i : ℕ → StepIn m p) (N : ℕ) :
    ∃ z z' e V, cyclesU M i s N = .ok z ∧ cyclesU M' (fun N => ⟨(i N).u, (i N).u', U *ᵥ (i N).y⟩) s' N = .ok z' ∧
      z.x = some (⟨n, e⟩, k + N) ∧ z.st.pr = ⟨n, n, V⟩ ∧ z'.x = some (⟨n', T *ᵥ e⟩, k + N) ∧ z'.st.pr = ⟨n', n', T * V * Tᵀ⟩ := by
  obtain ⟨z, h1, h2⟩ := C127_recursion s f y hf x P k hs hP M hM i N
  have hP' : (T * P * Tᵀ).PosSemidef := by
    have := hP.mul_mul_conjTranspose_same T
    rwa [conjTranspose_eq_transpose_of_trivial] at this
  obtain ⟨z', h3, h4⟩ := C127_recursion s' f' y' hf' _ _ k hs' hP' M' hM' (fun N => ⟨(i N).u, (i N).u', U *ᵥ (i N).y⟩) N
  rw [ekfRun_maps h hU hm hM hM' k i x hP N] at h4
  exact ⟨z, z', _, _, h1, h3, h2.x, h2.pr, h4.x, h4.pr⟩

/-- **C127**, order of the sensors. Reordering the components of the measurements, with those of the measurement function, the rows of `C`, the rows
and columns of `R`, changes neither the estimates nor the covariances. -/
theorem C127_order (s s' : KFilter Ext) (f f' : Functor) (y : System n m p) (σ : Equiv.Perm (Fin m)) (hf : Computes f y)
    (hf' : Computes f' (⟨y.F, fun k x u r => y.H k x u (σ r)⟩ : System n m p)) (x : Fin n → ℝ) (P : Matrix (Fin n) (Fin n) ℝ) (k : Int)
    (hs : InUse s n m p f x P k) (hs' : InUse s' n m p f' x P k) (hP : P.PosSemidef) (M : ℕ → Mats n m) (hM : ∀ N, (M N).Ok)
    (i : ℕ → StepIn m p) (N : ℕ) :
    ∃ z z', cyclesU M i s N = .ok z ∧
      cyclesU (fun N => ⟨(M N).A, (M N).C.submatrix σ id, (M N).Q, (M N).R.submatrix σ σ⟩)
        (fun N => ⟨(i N).u, (i N).u', fun r => (i N).y (σ r)⟩) s' N = .ok z' ∧
      z'.x = z.x ∧ z'.st.pr = z.st.pr ∧ z.x.isSome := by
  have hσ : IsUnit (σ.permMatrix ℝ).det := by
    rw [det_permutation]
    rcases Int.units_eq_one_or (Equiv.Perm.sign σ) with h | h <;> simp [h]
  have hm : ∀ {q : ℕ} (M : Matrix (Fin m) (Fin q) ℝ), σ.permMatrix ℝ * M = M.submatrix σ id := fun M => PEquiv.toMatrix_toPEquiv_mul σ M
  have hmt : ∀ (M : Matrix (Fin m) (Fin m) ℝ), M * (σ.permMatrix ℝ)ᵀ = M.submatrix id σ := fun M => by
    rw [← Matrix.transpose_transpose M, ← Matrix.transpose_mul, hm]
    rfl
  have hv : ∀ v : Fin m → ℝ, σ.permMatrix ℝ *ᵥ v = fun r => v (σ r) := fun v => by rw [permMatrix_mulVec]; rfl
  obtain ⟨z, z', e, V, h1, h2, h3, h4, h5, h6⟩ := C127_coordinates s s' f f' y _ hf hf' x P k 1 (σ.permMatrix ℝ) hs (by simpa using hs') hP
    ⟨fun k x u => by simp, fun k x u => by rw [hv, one_mulVec]⟩ hσ M
    (fun N => ⟨(M N).A, (M N).C.submatrix σ id, (M N).Q, (M N).R.submatrix σ σ⟩)
    (fun N => ⟨by simp, by rw [hm, Matrix.mul_one], by simp, by rw [hm, hmt, submatrix_submatrix]; rfl⟩) hM
    (fun N => ⟨(hM N).1, (hM N).2.submatrix σ.injective⟩) i N
  simp only [hv] at h2
  refine ⟨z, z', h1, h2, ?_, ?_, ?_⟩
  · rw [h5, h3]; simp
  · rw [h6, h4]; simp
  · rw [h3]; rfl

/-- A functor of one state, one input and one measurement that computes `a`, `b`. -/
noncomputable def scalar (a b : ℝ → ℝ → ℝ) : Functor :=
  ⟨fun x u _ => if h : x.size = 1 ∧ u.size = 1 then .ok ⟨1, fun _ => a (x.val ⟨0, by omega⟩) (u.val ⟨0, by omega⟩)⟩ else .ok x,
    fun x u _ => if h : x.size = 1 ∧ u.size = 1 then .ok ⟨1, fun _ => b (x.val ⟨0, by omega⟩) (u.val ⟨0, by omega⟩)⟩ else .ok x⟩

theorem scalar_computes (a b : ℝ → ℝ → ℝ) :
    Computes (scalar a b) (⟨fun _ x u _ => a (x 0) (u 0), fun _ x u _ => b (x 0) (u 0)⟩ : System 1 1 1) := by
  refine ⟨fun x u k => ?_, fun x u k => ?_⟩ <;> simp only [scalar, and_self, dif_pos] <;> rfl

/-- The hypotheses of C127 are met: `x⁺ = x² + u`, `y = x³ + u`, in other units of `x` and `y`, with the derivatives as matrices. -/
example : ∃ (f f' : Functor) (y y' : System 1 1 1) (M M' : Mats 1 1) (s s' : KFilter Ext), Computes f y ∧ Computes f' y' ∧
    MapsE !![2] !![3] y y' ∧ MapsM !![2] !![3] M M' ∧ M.Ok ∧ M'.Ok ∧ InUse s 1 1 1 f (fun _ => 5) 1 0 ∧
    InUse s' 1 1 1 f' (!![2] *ᵥ fun _ => 5) (!![2] * 1 * !![2]ᵀ) 0 ∧ IsUnit (!![3] : Matrix (Fin 1) (Fin 1) ℝ).det := by
  obtain ⟨s, -, hs⟩ := init_inUse 1 1 1 true (scalar (fun x u => x ^ 2 + u) (fun x u => x ^ 3 + u)) (fun _ => 5) 1 0
  obtain ⟨s', -, hs'⟩ := init_inUse 1 1 1 true (scalar (fun x u => x ^ 2 / 2 + 2 * u) (fun x u => 3 * (x / 2) ^ 3 + 3 * u))
    (!![2] *ᵥ fun _ => 5) (!![2] * 1 * !![2]ᵀ) 0
  refine ⟨_, _, _, _, ⟨!![10], !![75], 1, 1⟩, ⟨!![10], !![225 / 2], !![4], !![9]⟩, s, s', scalar_computes _ _, scalar_computes _ _, ⟨?_, ?_⟩,
    ⟨?_, ?_, ?_, ?_⟩, ⟨.one, .one⟩, ⟨?_, ?_⟩, hs, hs', ?_⟩
  · intro k x u; ext i; fin_cases i; simp [Matrix.mulVec, dotProduct]; ring
  · intro k x u; ext i; fin_cases i; simp [Matrix.mulVec, dotProduct]; ring
  · ext i j; fin_cases i; fin_cases j; simp [Matrix.vecMul, dotProduct]; norm_num
  · ext i j; fin_cases i; fin_cases j; simp [Matrix.vecMul, dotProduct]; norm_num
  · ext i j; fin_cases i; fin_cases j; simp [Matrix.vecMul, dotProduct]; norm_num
  · ext i j; fin_cases i; fin_cases j; simp [Matrix.vecMul, dotProduct]; norm_num
  · rw [show (!![4] : Matrix (Fin 1) (Fin 1) ℝ) = (4 : ℝ) • 1 by ext i j; fin_cases i; fin_cases j; simp]
    exact PosSemidef.one.smul (by norm_num)
  · rw [show (!![9] : Matrix (Fin 1) (Fin 1) ℝ) = (9 : ℝ) • 1 by ext i j; fin_cases i; fin_cases j; simp]
    exact PosDef.one.smul (by norm_num)
  · simp

end StateObs.EKF
