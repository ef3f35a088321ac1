import Verif.KO.CovLemmas
/-!
# C54: what the setters and the resets of the covariances do
-/

namespace StateObs.KO
open StateObs Matrix Rot Kine KF

variable {nc ni : ℕ} {o o' : Observer}

theorem StateCov.inv {l : List Block} (hi : Inv nc ni o) (h : StateCov o o' l) : Inv nc ni o' := by
  obtain ⟨P, P', -, rfl, -⟩ := h
  refine ⟨hi.1, { hi.2 with ekf := { hi.2.ekf with pr := ?_ } }⟩
  simp [DMat.hasSize, inv_tangentSize hi]

theorem ProcessCov.inv {l : List Block} (hi : Inv nc ni o) (h : ProcessCov o o' l) : Inv nc ni o' := by
  obtain ⟨P, P', -, rfl, -⟩ := h
  refine ⟨hi.1, { hi.2 with ekf := { hi.2.ekf with q := ?_ } }⟩
  simp [DMat.hasSize, inv_tangentSize hi]

/-- A block of `n` entries from the start of the component `c`: the call succeeds exactly if the component exists, and then replaces this block. -/
theorem withP_comp (hi : Inv nc ni o) (c : Comp) {n : ℕ} (hr : c.Valid nc ni → offT ni c + n ≤ 18 + ni * 3 + 12 * nc) (B : Matrix (Fin n) (Fin n) ℝ) :
    ((o.withP fun P => c.startTangent o >>= fun i => setBlockStateCovariance n P (dm B) i) = .ok o' ↔
      ∃ i, c.startTangent o = .ok i ∧ StateCov o o' [⟨i, n, B⟩]) ∧
    ((∃ i, c.startTangent o = .ok i) → ∃ o', (o.withP fun P => c.startTangent o >>= fun i => setBlockStateCovariance n P (dm B) i) = .ok o') := by
  constructor
  · rw [withP_block hi]
    constructor
    · rintro ⟨i, B', h1, -, h3, h4⟩
      obtain rfl : B = B' := DMat.mk_eq.1 h3
      exact ⟨i, h1, h4⟩
    · rintro ⟨i, h1, h2⟩
      refine ⟨i, B, h1, ?_, rfl, h2⟩
      obtain ⟨he, rfl⟩ := (startTangent_eq hi c i).1 h1
      rw [inv_tangentSize hi]
      exact hr (he.valid hi)
  · rintro ⟨i, h1⟩
    obtain ⟨P, P', hP, -, -⟩ := StateCov.refl hi
    obtain ⟨he, rfl⟩ := (startTangent_eq hi c i).1 h1
    have hr' : offT ni c + n ≤ o.tangentSize := by rw [inv_tangentSize hi]; exact hr (he.valid hi)
    exact ⟨_, (withP_block hi).2 ⟨_, B, h1, hr', rfl, P, _, hP, rfl, .cons (replaceBlock_replaced P _ B hr') (.nil _)⟩⟩

theorem withQ_comp (hi : Inv nc ni o) (c : Comp) {n : ℕ} (hr : c.Valid nc ni → offT ni c + n ≤ 18 + ni * 3 + 12 * nc) (B : Matrix (Fin n) (Fin n) ℝ) :
    ((o.withQ fun P => c.startTangent o >>= fun i => setBlockStateCovariance n P (dm B) i) = .ok o' ↔
      ∃ i, c.startTangent o = .ok i ∧ ProcessCov o o' [⟨i, n, B⟩]) ∧
    ((∃ i, c.startTangent o = .ok i) → ∃ o', (o.withQ fun P => c.startTangent o >>= fun i => setBlockStateCovariance n P (dm B) i) = .ok o') := by
  constructor
  · rw [withQ_block hi]
    constructor
    · rintro ⟨i, B', h1, -, h3, h4⟩
      obtain rfl : B = B' := DMat.mk_eq.1 h3
      exact ⟨i, h1, h4⟩
    · rintro ⟨i, h1, h2⟩
      refine ⟨i, B, h1, ?_, rfl, h2⟩
      obtain ⟨he, rfl⟩ := (startTangent_eq hi c i).1 h1
      rw [inv_tangentSize hi]
      exact hr (he.valid hi)
  · rintro ⟨i, h1⟩
    obtain ⟨P, P', hP, -, -⟩ := ProcessCov.refl hi
    obtain ⟨he, rfl⟩ := (startTangent_eq hi c i).1 h1
    have hr' : offT ni c + n ≤ o.tangentSize := by rw [inv_tangentSize hi]; exact hr (he.valid hi)
    exact ⟨_, (withQ_block hi).2 ⟨_, B, h1, hr', rfl, P, _, hP, rfl, .cons (replaceBlock_replaced P _ B hr') (.nil _)⟩⟩

/-- The blocks: the kinematics are 12 entries from the position, the unmodeled wrench is 6, a contact 12. -/
theorem range_kine : Comp.position.Valid nc ni → offT ni .position + 12 ≤ 18 + ni * 3 + 12 * nc := by simp [offT]; omega
theorem range_gyro (i : ℕ) : (Comp.gyroBias i).Valid nc ni → offT ni (.gyroBias i) + 3 ≤ 18 + ni * 3 + 12 * nc := offT_range
theorem range_wrench : Comp.unmodeledForce.Valid nc ni → offT ni .unmodeledForce + 6 ≤ 18 + ni * 3 + 12 * nc := by simp [offT]; omega
theorem range_contact (n : ℕ) : (Comp.contactPosition n).Valid nc ni → offT ni (.contactPosition n) + 12 ≤ 18 + ni * 3 + 12 * nc := by
  simp [offT, Comp.Valid]; omega

/-- A setter `f` for the block of `n` entries at the component `c`: it returns exactly if the component exists, and replaces the rows and columns of its
segment of the covariance of the state. -/
def Sets (o : Observer) (f : Res Observer) (c : Comp) (n : ℕ) (B : Matrix (Fin n) (Fin n) ℝ) : Prop :=
  (∀ o', f = .ok o' ↔ ∃ i, c.startTangent o = .ok i ∧ StateCov o o' [⟨i, n, B⟩]) ∧ ((∃ o', f = .ok o') ↔ ∃ i, c.startTangent o = .ok i)

/-- The same for the covariance of the process noise. -/
def SetsQ (o : Observer) (f : Res Observer) (c : Comp) (n : ℕ) (B : Matrix (Fin n) (Fin n) ℝ) : Prop :=
  (∀ o', f = .ok o' ↔ ∃ i, c.startTangent o = .ok i ∧ ProcessCov o o' [⟨i, n, B⟩]) ∧ ((∃ o', f = .ok o') ↔ ∃ i, c.startTangent o = .ok i)

theorem sets_comp (hi : Inv nc ni o) (c : Comp) {n : ℕ} (hr : c.Valid nc ni → offT ni c + n ≤ 18 + ni * 3 + 12 * nc) (B : Matrix (Fin n) (Fin n) ℝ) :
    Sets o (o.withP fun P => c.startTangent o >>= fun i => setBlockStateCovariance n P (dm B) i) c n B :=
  ⟨fun o' => (withP_comp (o' := o') hi c hr B).1,
    ⟨fun ⟨o', h⟩ => let ⟨i, hi', _⟩ := (withP_comp (o' := o') hi c hr B).1.1 h; ⟨i, hi'⟩, (withP_comp (o' := o) hi c hr B).2⟩⟩

theorem setsQ_comp (hi : Inv nc ni o) (c : Comp) {n : ℕ} (hr : c.Valid nc ni → offT ni c + n ≤ 18 + ni * 3 + 12 * nc) (B : Matrix (Fin n) (Fin n) ℝ) :
    SetsQ o (o.withQ fun P => c.startTangent o >>= fun i => setBlockStateCovariance n P (dm B) i) c n B :=
  ⟨fun o' => (withQ_comp (o' := o') hi c hr B).1,
    ⟨fun ⟨o', h⟩ => let ⟨i, hi', _⟩ := (withQ_comp (o' := o') hi c hr B).1.1 h; ⟨i, hi'⟩, (withQ_comp (o' := o) hi c hr B).2⟩⟩

theorem sets_contact (hi : Inv nc ni o) (n : ℕ) :
    Sets o (o.resetStateContactCovMat n) (.contactPosition n) 12 o.contactInit := by
  have key := sets_comp hi (.contactPosition n) (range_contact n) o.contactInit
  have e : (∃ i, (Comp.contactPosition n).startTangent o = .ok i) →
      o.resetStateContactCovMat n = o.withP fun P => (Comp.contactPosition n).startTangent o >>= fun i => setBlockStateCovariance 12 P (dm o.contactInit) i := by
    rintro ⟨i, h⟩
    obtain ⟨⟨c, hc, hs⟩, rfl⟩ := (startTangent_eq hi _ i).1 h
    rw [h]
    simp only [Observer.resetStateContactCovMat, hc, hs, Res.assert_true, Res.ok_bind]
    rw [(hi.2.conIdx n c hc hs).2.1]
    congr 2; funext P; congr 1; simp only [offT, Int.toNat_natCast]; omega
  have e' : (∃ o', o.resetStateContactCovMat n = .ok o') → ∃ i, (Comp.contactPosition n).startTangent o = .ok i := by
    rintro ⟨o', h⟩
    unfold Observer.resetStateContactCovMat at h
    split at h
    · cases h
    · next c hc =>
      rw [Res.bind_eq_ok] at h
      obtain ⟨_, h1, -⟩ := h
      exact ⟨_, (startTangent_eq hi _ _).2 ⟨⟨c, hc, Res.assert_ok h1⟩, rfl⟩⟩
  by_cases hx : ∃ i, (Comp.contactPosition n).startTangent o = .ok i
  · rw [e hx]; exact key
  · refine ⟨fun o' => ⟨fun h => absurd (e' ⟨o', h⟩) hx, fun ⟨i, h, _⟩ => absurd ⟨i, h⟩ hx⟩, ⟨e', fun h => absurd h hx⟩⟩

theorem setsQ_contact (hi : Inv nc ni o) (n : ℕ) :
    SetsQ o (o.resetProcessContactCovMat n) (.contactPosition n) 12 o.contactProc := by
  have key := setsQ_comp hi (.contactPosition n) (range_contact n) o.contactProc
  have e : (∃ i, (Comp.contactPosition n).startTangent o = .ok i) →
      o.resetProcessContactCovMat n = o.withQ fun P => (Comp.contactPosition n).startTangent o >>= fun i => setBlockStateCovariance 12 P (dm o.contactProc) i := by
    rintro ⟨i, h⟩
    obtain ⟨hs', rfl⟩ := (startTangent_eq hi _ i).1 h
    have hlt : n < o.maxContacts := by rw [hi.1.1]; exact isSet_lt hi hs'
    obtain ⟨c, hc, hs⟩ := hs'
    rw [h]
    simp only [Observer.resetProcessContactCovMat, hlt, decide_true, hc, hs, rd, Res.assert_true, Res.ok_bind]
    rw [(hi.2.conIdx n c hc hs).2.1]
    congr 2; funext P; congr 1; simp only [offT, Int.toNat_natCast]; omega
  have e' : (∃ o', o.resetProcessContactCovMat n = .ok o') → ∃ i, (Comp.contactPosition n).startTangent o = .ok i := by
    rintro ⟨o', h⟩
    simp only [Observer.resetProcessContactCovMat, Res.bind_eq_ok] at h
    obtain ⟨_, -, c, hc, _, h1, -⟩ := h
    exact ⟨_, (startTangent_eq hi _ _).2 ⟨⟨c, Observer.rd_ok hc, Res.assert_ok h1⟩, rfl⟩⟩
  by_cases hx : ∃ i, (Comp.contactPosition n).startTangent o = .ok i
  · rw [e hx]; exact key
  · refine ⟨fun o' => ⟨fun h => absurd (e' ⟨o', h⟩) hx, fun ⟨i, h, _⟩ => absurd ⟨i, h⟩ hx⟩, ⟨e', fun h => absurd h hx⟩⟩

/-- **C54**: the setters of a part of the covariance of the state. In every reachable state, each returns exactly if the component exists (always for the
kinematics and the unmodeled wrench, for the IMU numbers of the observer, for the contacts that are set), and then replaces exactly the rows and columns of the
component. -/
theorem C54_stateSetters {l : List Op} (h : Reachable nc ni l o) :
    (∀ B, Sets o (o.setKinematicsStateCovariance (dm B)) .position 12 B) ∧
    (∀ B i, Sets o (o.setGyroBiasStateCovariance B i) (.gyroBias i) 3 B) ∧
    (∀ B, Sets o (o.setUnmodeledWrenchStateCovMat B) .unmodeledForce 6 B) ∧
    (∀ (n : ℕ) B, Sets o (o.setContactStateCovMat n B) (.contactPosition n) 12 B) := by
  have hi := Observer.inv_reachable h
  exact ⟨fun B => sets_comp hi .position range_kine B, fun B i => sets_comp hi (.gyroBias i) (range_gyro i) B,
    fun B => sets_comp hi .unmodeledForce range_wrench B, fun n B => sets_comp hi (.contactPosition n) (range_contact n) B⟩

/-- **C54**: the resets of a part of the covariance of the state write the initial covariances. -/
theorem C54_stateResets {l : List Op} (h : Reachable nc ni l o) :
    Sets o o.resetStateKinematicsCovMat .position 12 o.kineInit ∧
    (∀ i, Sets o (o.resetStateGyroBiasCovMat i) (.gyroBias i) 3 o.gyroBiasInit) ∧
    Sets o o.resetStateUnmodeledWrenchCovMat .unmodeledForce 6 o.unmodeledInit ∧
    ∀ n : ℕ, Sets o (o.resetStateContactCovMat n) (.contactPosition n) 12 o.contactInit := by
  have hi := Observer.inv_reachable h
  exact ⟨sets_comp hi .position range_kine _, fun i => sets_comp hi (.gyroBias i) (range_gyro i) _,
    sets_comp hi .unmodeledForce range_wrench _, fun n => sets_contact hi n⟩

/-- **C54**: the setters and resets of the covariance of the process noise. (The declared function `setKinematicsProcessCovariance` has no definition.) -/
theorem C54_process {l : List Op} (h : Reachable nc ni l o) :
    (∀ B i, SetsQ o (o.setGyroBiasProcessCovariance B i) (.gyroBias i) 3 B) ∧
    (∀ B, SetsQ o (o.setUnmodeledWrenchProcessCovMat B) .unmodeledForce 6 B) ∧
    (∀ (n : ℕ) B, SetsQ o (o.setContactProcessCovMat n B) (.contactPosition n) 12 B) ∧
    SetsQ o o.resetProcessKinematicsCovMat .position 12 o.kineProc ∧
    (∀ i, SetsQ o (o.resetProcessGyroBiasCovMat i) (.gyroBias i) 3 o.gyroBiasProc) ∧
    SetsQ o o.resetProcessUnmodeledWrenchCovMat .unmodeledForce 6 o.unmodeledProc ∧
    ∀ n : ℕ, SetsQ o (o.resetProcessContactCovMat n) (.contactPosition n) 12 o.contactProc := by
  have hi := Observer.inv_reachable h
  exact ⟨fun B i => setsQ_comp hi (.gyroBias i) (range_gyro i) B, fun B => setsQ_comp hi .unmodeledForce range_wrench B,
    fun n B => setsQ_comp hi (.contactPosition n) (range_contact n) B, setsQ_comp hi .position range_kine _,
    fun i => setsQ_comp hi (.gyroBias i) (range_gyro i) _, setsQ_comp hi .unmodeledForce range_wrench _, fun n => setsQ_contact hi n⟩

/-- **C54**: a matrix that is positive semidefinite stays so when blocks are replaced by positive semidefinite ones. -/
theorem C54_psd {l : List Block} {P : Matrix (Fin o.tangentSize) (Fin o.tangentSize) ℝ} (h : StateCov o o' l) (hP : o.getStateCovarianceMat = ⟨_, _, P⟩)
    (hpsd : P.PosSemidef) (hl : ∀ b ∈ l, b.val.PosSemidef) :
    ∃ P' : Matrix (Fin o.tangentSize) (Fin o.tangentSize) ℝ, o'.getStateCovarianceMat = ⟨_, _, P'⟩ ∧ P'.PosSemidef := by
  obtain ⟨P0, P', h0, rfl, hr⟩ := h
  obtain rfl : P = P0 := DMat.mk_eq.1 (hP.symm.trans h0)
  exact ⟨P', rfl, hr.psd hpsd hl⟩

end StateObs.KO
