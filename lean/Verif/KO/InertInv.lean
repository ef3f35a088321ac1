import Verif.KO.InertSpec
import Verif.KO.PsdInv
import Verif.KO.SumLemmas
/-!
# The covariances do not relate the components `inert` to the others: invariant
-/

namespace StateObs.KO
open StateObs Matrix Rot Kine KF

/-- The invariant, as a function of the members it is about. -/
structure ApartF (ni : ℕ) (P Q : DMat) (gI : M3) (uI : M6) (cI cP : M12) : Prop where
  pr : NoCross (InertRow ni) P
  q : NoCross (InertRow ni) Q
  gI : Diag gI
  uI : Diag uI
  cI : PoseApart cI
  cP : PoseApart cP

def ApartInv (ni : ℕ) (o : Observer) : Prop := ApartF ni o.ekf.st.pr o.ekf.st.q o.gyroBiasInit o.unmodeledInit o.contactInit o.contactProc

variable {nc ni : ℕ} {o o' : Observer}

/-- Does the block `B` at `i` keep the rows apart? -/
def BlockApart (ni : ℕ) {n : ℕ} (i : ℕ) (B : Matrix (Fin n) (Fin n) ℝ) : Prop := ∀ r c : Fin n, (InertRow ni (i + r) ↔ ¬ InertRow ni (i + c)) → B r c = 0

theorem blockApart_kine (B : M12) : BlockApart ni 0 B := fun r c h => by
  exfalso
  have := r.2; have := c.2
  unfold InertRow at h
  omega

theorem blockApart_gyro {i : ℕ} (hi : i < ni) (B : M3) : BlockApart ni (12 + 3 * i) B := fun r c h => by
  exfalso
  have := r.2; have := c.2
  unfold InertRow at h
  omega

theorem blockApart_wrench (B : M6) : BlockApart ni (12 + 3 * ni) B := fun r c h => by
  exfalso
  have := r.2; have := c.2
  unfold InertRow at h
  omega

theorem blockApart_diag {n i : ℕ} {B : Matrix (Fin n) (Fin n) ℝ} (hB : Diag B) : BlockApart ni i B := fun r c h => by
  refine hB r c fun e => ?_
  subst e
  tauto

theorem inertRow_contact {n r : ℕ} (hr : r < 12) : InertRow ni (18 + 3 * ni + 12 * n + r) ↔ r < 6 := by
  unfold InertRow
  omega

theorem blockApart_contact {n : ℕ} {B : M12} (hB : PoseApart B) : BlockApart ni (18 + 3 * ni + 12 * n) B := fun r c h => by
  rw [inertRow_contact r.2, inertRow_contact c.2] at h
  exact hB r c h

theorem Replaced.apart {N n i : ℕ} {P P' : Matrix (Fin N) (Fin N) ℝ} {B : Matrix (Fin n) (Fin n) ℝ} (h : Replaced P P' i B) (hB : BlockApart ni i B)
    (hP : NoCross (InertRow ni) ⟨N, N, P⟩) : NoCross (InertRow ni) ⟨N, N, P'⟩ := by
  intro r c hrc
  by_cases hr : InSeg i n r.1 <;> by_cases hc : InSeg i n c.1
  · obtain ⟨a, ha⟩ : ∃ a, r.1 = i + a := ⟨r.1 - i, by have := hr.1; omega⟩
    obtain ⟨b, hb⟩ : ∃ b, c.1 = i + b := ⟨c.1 - i, by have := hc.1; omega⟩
    have ha' : a < n := by have := hr.2; omega
    have hb' : b < n := by have := hc.2; omega
    have e := h.inside ⟨a, ha'⟩ ⟨b, hb'⟩
    have er : (⟨i + a, by have := h.range; omega⟩ : Fin N) = r := Fin.ext ha.symm
    have ec : (⟨i + b, by have := h.range; omega⟩ : Fin N) = c := Fin.ext hb.symm
    simp only [er, ec] at e
    show P' r c = 0
    rw [e]
    refine hB ⟨a, ha'⟩ ⟨b, hb'⟩ ?_
    simp only [← ha, ← hb]
    exact hrc
  · exact h.right r c hr hc
  · exact h.left r c hr hc
  · exact (h.outside r c hr hc).trans (hP r c hrc)

theorem block_apart {n N : ℕ} {P B M : DMat} {i : ℕ} (hs : P.hasSize N N = true) (hP : NoCross (InertRow ni) P)
    (hB : ∀ B', B = ⟨n, n, B'⟩ → BlockApart ni i B') (h : setBlockStateCovariance n P B i = .ok M) : NoCross (InertRow ni) M := by
  obtain ⟨r, c, P⟩ := P
  simp only [DMat.hasSize, Bool.and_eq_true, decide_eq_true_eq] at hs
  obtain ⟨rfl, rfl⟩ := hs
  obtain ⟨B', rfl, hr, rfl⟩ := (setBlockStateCovariance_iff P i B M).1 h
  exact (replaceBlock_replaced P i B' hr).apart (hB B' rfl) hP

theorem block_apart' {n N : ℕ} {P M : DMat} {B : Matrix (Fin n) (Fin n) ℝ} {i : ℕ} (hs : P.hasSize N N = true) (hP : NoCross (InertRow ni) P)
    (hB : BlockApart ni i B) (h : setBlockStateCovariance n P (dm B) i = .ok M) : NoCross (InertRow ni) M :=
  block_apart hs hP (fun B' e => by
    have : B = B' := by simpa [dm] using e
    exact this ▸ hB) h

namespace Observer

theorem apart_withP {f : DMat → Res DMat}
    (hf : ∀ P', NoCross (InertRow ni) o.ekf.st.pr → f o.ekf.st.pr = .ok P' → NoCross (InertRow ni) P') (hc : ApartInv ni o) (h : o.withP f = .ok o') : ApartInv ni o' := by
  simp only [withP, Res.bind_eq_ok, KF.setStateCovariance] at h
  obtain ⟨P, h0, e1, ⟨a, ha, h1⟩, h2⟩ := h
  cases h1; cases h2
  exact ⟨hf _ hc.pr h0, hc.q, hc.gI, hc.uI, hc.cI, hc.cP⟩

theorem apart_withQ {f : DMat → Res DMat}
    (hf : ∀ P', NoCross (InertRow ni) o.ekf.st.q → f o.ekf.st.q = .ok P' → NoCross (InertRow ni) P') (hc : ApartInv ni o) (h : o.withQ f = .ok o') : ApartInv ni o' := by
  simp only [withQ, Res.bind_eq_ok, KF.setQ] at h
  obtain ⟨P, h0, e1, ⟨a, ha, h1⟩, h2⟩ := h
  cases h1; cases h2
  exact ⟨hc.pr, hf _ hc.q h0, hc.gI, hc.uI, hc.cI, hc.cP⟩

/-- `withP` with one block. -/
theorem apart_P {n : ℕ} {B : Matrix (Fin n) (Fin n) ℝ} {i : ℕ} (hi : Inv nc ni o) (hB : BlockApart ni i B) (hc : ApartInv ni o)
    (h : (o.withP fun P => setBlockStateCovariance n P (dm B) i) = .ok o') : ApartInv ni o' :=
  apart_withP (fun _ hP e => block_apart' hi.2.ekf.pr hP hB e) hc h

theorem apart_Pj {n : ℕ} {B : Matrix (Fin n) (Fin n) ℝ} {j : Res ℕ} (hi : Inv nc ni o) (hB : ∀ i, j = .ok i → BlockApart ni i B) (hc : ApartInv ni o)
    (h : (o.withP fun P => j >>= fun i => setBlockStateCovariance n P (dm B) i) = .ok o') : ApartInv ni o' :=
  apart_withP (fun _ hP e => by
    rw [Res.bind_eq_ok] at e
    obtain ⟨i, hj, e⟩ := e
    exact block_apart' hi.2.ekf.pr hP (hB i hj) e) hc h

theorem apart_Q {n : ℕ} {B : Matrix (Fin n) (Fin n) ℝ} {i : ℕ} (hi : Inv nc ni o) (hB : BlockApart ni i B) (hc : ApartInv ni o)
    (h : (o.withQ fun P => setBlockStateCovariance n P (dm B) i) = .ok o') : ApartInv ni o' :=
  apart_withQ (fun _ hP e => block_apart' hi.2.ekf.q hP hB e) hc h

theorem apart_Qj {n : ℕ} {B : Matrix (Fin n) (Fin n) ℝ} {j : Res ℕ} (hi : Inv nc ni o) (hB : ∀ i, j = .ok i → BlockApart ni i B) (hc : ApartInv ni o)
    (h : (o.withQ fun P => j >>= fun i => setBlockStateCovariance n P (dm B) i) = .ok o') : ApartInv ni o' :=
  apart_withQ (fun _ hP e => by
    rw [Res.bind_eq_ok] at e
    obtain ⟨i, hj, e⟩ := e
    exact block_apart' hi.2.ekf.q hP (hB i hj) e) hc h

theorem gyro_apart (hi : Inv nc ni o) {i : ℕ} {B : M3} (j : ℕ) (h : o.gyroBiasIndexTangent i = .ok j) : BlockApart ni j B := by
  obtain ⟨h1, rfl⟩ := (startTangent_eq hi (.gyroBias i) j).1 h
  exact blockApart_gyro h1 B

theorem wrench_apart (hi : Inv nc ni o) {B : M6} (j : ℕ) (h : o.unmodeledWrenchIndexTangent = .ok j) : BlockApart ni j B := by
  obtain ⟨h1, rfl⟩ := (startTangent_eq hi .unmodeledForce j).1 h
  exact blockApart_wrench B

theorem contact_apart (hi : Inv nc ni o) {n : Int} {B : M12} (hB : PoseApart B) (j : ℕ) (h : o.contactIndexTangent n = .ok j) : BlockApart ni j B := by
  simp only [contactIndexTangent, Res.bind_eq_ok] at h
  obtain ⟨_, -, c, hc, _, hs, h⟩ := h
  have h2 := (hi.2.conIdx _ c (rd_ok hc) (Res.assert_ok hs)).2.1
  cases h
  have e : c.stateIndexTangent.toNat = 18 + 3 * ni + 12 * n.toNat := by omega
  rw [e]
  exact blockApart_contact hB

theorem apart_pushState {x : DVec} {k : Kin} (hc : ApartInv ni o) (e : pushState { o with stateKin := k, x := x } = .ok o') : ApartInv ni o' := by
  simp only [pushState, Res.bind_eq_ok, Obs.setState] at e
  obtain ⟨e1, ⟨_, -, t, -, h1⟩, h2⟩ := e
  split_ifs at h1 <;> cases h1 <;> cases h2 <;> exact hc

theorem apart_pushState' {x : DVec} (hc : ApartInv ni o) (e : pushState { o with x := x } = .ok o') : ApartInv ni o' :=
  apart_pushState (k := o.stateKin) hc e

theorem apart_updateKine (hc : ApartInv ni o) (e : o.updateKine = .ok o') : ApartInv ni o' := by
  simp only [updateKine, Res.bind_eq_ok] at e
  obtain ⟨s, -, k, -, h2⟩ := e
  cases h2; exact hc

theorem apart_start (hc : ApartInv ni o) : ApartInv ni o.startNewIteration := by
  unfold startNewIteration
  split_ifs
  · exact hc
  · exact hc

theorem apart_resetStateContactCovMat {n : ℕ} (hi : Inv nc ni o) (hc : ApartInv ni o) (h : o.resetStateContactCovMat n = .ok o') : ApartInv ni o' := by
  unfold resetStateContactCovMat at h
  split at h
  · cases h
  · next c hcc =>
    simp only [Res.bind_eq_ok] at h
    obtain ⟨_, hs, h⟩ := h
    have h2 := (hi.2.conIdx _ c hcc (Res.assert_ok hs)).2.1
    have e : c.stateIndexTangent.toNat = 18 + 3 * ni + 12 * n := by omega
    rw [e] at h
    exact apart_P hi (blockApart_contact hc.cI) hc h

/-- Both invariants. -/
def Both (nc ni : ℕ) (o : Observer) : Prop := Inv nc ni o ∧ ApartInv ni o

theorem both_resetStateContactsCovMat (hc : Both nc ni o) (h : o.resetStateContactsCovMat = .ok o') : Both nc ni o' := by
  refine Res.foldlM_inv (Both nc ni) (fun b a b' hb e => ?_) _ _ _ h hc
  have e0 := e
  simp only [resetStateContactIfSet, Res.bind_eq_ok] at e
  obtain ⟨c, -, e⟩ := e
  split_ifs at e
  · exact ⟨inv_exec (.resetStateContactCovMat a) hb.1 e, apart_resetStateContactCovMat hb.1 hb.2 e⟩
  · cases e; exact hb

theorem both_resetStateCovarianceMat (hc : Both nc ni o) (h : o.resetStateCovarianceMat = .ok o') : Both nc ni o' := by
  simp only [resetStateCovarianceMat, Res.bind_eq_ok] at h
  obtain ⟨o1, h1, o2, h2, o3, h3, h4⟩ := h
  have c1 : Both nc ni o1 := ⟨inv_withP hc.1 h1, apart_P hc.1 (blockApart_kine _) hc.2 h1⟩
  have c2 : Both nc ni o2 := by
    refine Res.foldlM_inv (Both nc ni) (fun b a b' hb e => ?_) _ _ _ h2 c1
    simp only [resetStateGyroBiasIfTime, Res.bind_eq_ok] at e
    obtain ⟨c, -, e⟩ := e
    split_ifs at e
    · exact ⟨inv_withP hb.1 e, apart_Pj hb.1 (gyro_apart hb.1) hb.2 e⟩
    · cases e; exact hb
  exact both_resetStateContactsCovMat ⟨inv_withP c2.1 h3, apart_Pj c2.1 (wrench_apart c2.1) c2.2 h3⟩ h4

theorem apart_resetProcessContactCovMat {n : ℕ} (hi : Inv nc ni o) (hc : ApartInv ni o) (h : o.resetProcessContactCovMat n = .ok o') : ApartInv ni o' := by
  simp only [resetProcessContactCovMat, Res.bind_eq_ok] at h
  obtain ⟨_, -, c, hcc, _, hs, h⟩ := h
  have h2 := (hi.2.conIdx _ c (rd_ok hcc) (Res.assert_ok hs)).2.1
  have e : c.stateIndexTangent.toNat = 18 + 3 * ni + 12 * n := by omega
  rw [e] at h
  exact apart_Q hi (blockApart_contact hc.cP) hc h

theorem both_resetProcessContactsCovMat (hc : Both nc ni o) (h : o.resetProcessContactsCovMat = .ok o') : Both nc ni o' := by
  refine Res.foldlM_inv (Both nc ni) (fun b a b' hb e => ?_) _ _ _ h hc
  simp only [resetProcessContactIfSet, Res.bind_eq_ok] at e
  obtain ⟨c, -, e⟩ := e
  split_ifs at e
  · exact ⟨inv_exec (.resetProcessContactCovMat a) hb.1 e, apart_resetProcessContactCovMat hb.1 hb.2 e⟩
  · cases e; exact hb

theorem both_resetProcessCovarianceMat (hc : Both nc ni o) (h : o.resetProcessCovarianceMat = .ok o') : Both nc ni o' := by
  simp only [resetProcessCovarianceMat, Res.bind_eq_ok] at h
  obtain ⟨o1, h1, o2, h2, o3, h3, h4⟩ := h
  have c1 : Both nc ni o1 := ⟨inv_withQ hc.1 h1, apart_Q hc.1 (blockApart_kine _) hc.2 h1⟩
  have c2 : Both nc ni o2 := Res.foldlM_inv (Both nc ni) (fun b a b' hb e => ⟨inv_withQ hb.1 e, apart_Qj hb.1 (gyro_apart hb.1) hb.2 e⟩) _ _ _ h2 c1
  exact both_resetProcessContactsCovMat ⟨inv_withQ c2.1 h3, apart_Qj c2.1 (wrench_apart c2.1) c2.2 h3⟩ h4

theorem apart_setStateKinematics {k : Kin} {f c : Bool} (hi : Inv nc ni o) (hc : ApartInv ni o) (h : o.setStateKinematics k f c = .ok o') : ApartInv ni o' := by
  simp only [setStateKinematics, Res.bind_eq_ok] at h
  obtain ⟨_, -, r, -, x, -, x2, -, o1, h1, h2⟩ := h
  have c1 := apart_pushState hc h1
  have i1 := inv_pushState hi h1
  split_ifs at h2
  · refine apart_withP (fun P' hP e => ?_) c1 h2
    rw [Res.bind_eq_ok] at e
    obtain ⟨P1, e1, e2⟩ := e
    have p1 := block_apart' i1.2.ekf.pr hP (blockApart_kine _) e1
    split_ifs at e2
    · refine Res.foldlM_inv (NoCross (InertRow ni)) (fun b a b' hb e => ?_) _ _ _ e2 p1
      unfold resetContactBlock at e
      split_ifs at e
      · rw [Res.bind_eq_ok] at e
        obtain ⟨i, -, e⟩ := e
        exfalso
        simp only [setBlockStateCovariance, Res.bind_eq_ok, DMat.setBlock, dm] at e
        obtain ⟨_, e, -⟩ := e
        split_ifs at e <;> first | omega | cases e
      · cases e; exact hb
    · cases e2; exact p1
  · cases h2; exact c1

theorem apart_setGyroBias {b : V3} {i : ℕ} {c : Bool} (hi : Inv nc ni o) (hc : ApartInv ni o) (h : o.setGyroBias b i c = .ok o') : ApartInv ni o' := by
  simp only [setGyroBias, Res.bind_eq_ok] at h
  obtain ⟨_, -, x, -, o1, h1, h2⟩ := h
  have c1 := apart_pushState' hc h1
  split_ifs at h2
  · exact apart_Pj (inv_pushState' hi h1) (fun _ _ => blockApart_diag c1.gI) c1 h2
  · cases h2; exact c1

theorem apart_setStateUnmodeledWrench {w : V6} {c : Bool} (hi : Inv nc ni o) (hc : ApartInv ni o) (h : o.setStateUnmodeledWrench w c = .ok o') : ApartInv ni o' := by
  simp only [setStateUnmodeledWrench, Res.bind_eq_ok] at h
  obtain ⟨_, -, x, -, o1, h1, h2⟩ := h
  have c1 := apart_pushState' hc h1
  split_ifs at h2
  · exact apart_Pj (inv_pushState' hi h1) (fun _ _ => blockApart_diag c1.uI) c1 h2
  · cases h2; exact c1

theorem apart_setStateVector {w : DVec} {c : Bool} (hi : Inv nc ni o) (hc : ApartInv ni o) (h : o.setStateVector w c = .ok o') : ApartInv ni o' := by
  simp only [setStateVector, Res.bind_eq_ok] at h
  obtain ⟨o1, h1, o2, h2, h3⟩ := h
  have c1 := apart_updateKine (apart_pushState' hc h1) h2
  split_ifs at h3
  · exact (both_resetStateCovarianceMat ⟨inv_updateKine (inv_pushState' hi h1) h2, c1⟩ h3).2
  · cases h3; exact c1

theorem apart_setIMU {a g : V3} {cov : Option (M3 × M3)} {k : Kin} {num : Int} {n : ℕ} (hc : ApartInv ni o)
    (h : o.setIMU a g cov k num = .ok (n, o')) : ApartInv ni o' := by
  simp only [setIMU, Res.bind_eq_ok] at h
  obtain ⟨n', h1, m, h2, kin, h3, h4⟩ := h
  cases h4
  exact apart_start hc

theorem apart_updateContactWithWrenchSensor {w : V6} {cov : Option M6} {k : Kin} {n : ℕ} (hc : ApartInv ni o)
    (h : o.updateContactWithWrenchSensor w cov k n = .ok o') : ApartInv ni o' := by
  simp only [updateContactWithWrenchSensor, Res.bind_eq_ok] at h
  obtain ⟨c, h1, kin, h2, h3⟩ := h
  cases h3
  exact apart_start hc

theorem apart_updateContactWithNoSensor {k : Kin} {n : ℕ} (hc : ApartInv ni o) (h : o.updateContactWithNoSensor k n = .ok o') : ApartInv ni o' := by
  simp only [updateContactWithNoSensor, Res.bind_eq_ok] at h
  obtain ⟨c, h1, kin, h2, h3⟩ := h
  cases h3
  exact apart_start hc

theorem apart_setInertiaVector {I : V6} (hc : ApartInv ni o) (h : o.setInertiaVector I = .ok o') : ApartInv ni o' := by
  simp only [setInertiaVector, Res.bind_eq_ok] at h
  obtain ⟨old, -, h⟩ := h
  split_ifs at h
  · simp only [Res.bind_eq_ok] at h
    obtain ⟨_, -, h⟩ := h
    cases h; exact apart_start hc
  · cases h; exact apart_start hc

theorem apart_setCenterOfMass {c : V3} (hc : ApartInv ni o) (h : o.setCenterOfMass c = .ok o') : ApartInv ni o' := by
  simp only [setCenterOfMass, Res.bind_eq_ok] at h
  obtain ⟨old, -, h⟩ := h
  split_ifs at h
  · simp only [Res.bind_eq_ok] at h
    obtain ⟨_, -, _, -, _, -, h⟩ := h
    cases h; exact apart_start hc
  · cases h; exact apart_start hc

theorem apart_addContact {pose : Kin} {cov : Option (M12 × M12)} {num : Int} {v : Visco} {n : ℕ} (hg : ∀ p ∈ cov, PoseApart p.1 ∧ PoseApart p.2)
    (hi : Inv nc ni o) (hc : ApartInv ni o) (h : o.addContact pose cov num v = .ok (n, o')) : ApartInv ni o' := by
  simp only [addContact, Res.bind_eq_ok] at h
  obtain ⟨_, -, n', -, _, -, c, hcc, _, hs, si, h1, st, h2, r, -, x, hx, o1, h3, o2, h4, h5⟩ := h
  cases h5
  have hp : PoseApart (cov.getD (o.contactInit, o.contactProc)).1 ∧ PoseApart (cov.getD (o.contactInit, o.contactProc)).2 := by
    cases cov with
    | none => exact ⟨hc.cI, hc.cP⟩
    | some p => exact hg p rfl
  have hst : st = 18 + 3 * ni := by
    have := (contactsIndexTangent_ok h2).2
    have := hi.1.2
    omega
  subst hst
  have hB : ∀ {B : M12}, PoseApart B → BlockApart ni (18 + 3 * ni + n * 12) B := fun hB => by rw [mul_comm n 12]; exact blockApart_contact hB
  have c1 : ApartInv ni o1 := by
    refine apart_withP ?_ ?_ h3
    · exact fun P' hP e => block_apart' hi.2.ekf.pr hP (hB hp.1) e
    · exact ⟨hc.pr, hc.q, hc.gI, hc.uI, hc.cI, hc.cP⟩
  have hq : o1.ekf.st.q = o.ekf.st.q := by
    simp only [withP, Res.bind_eq_ok, KF.setStateCovariance] at h3
    obtain ⟨P, h0, e1, ⟨a, ha, h1⟩, h2⟩ := h3
    cases h1; cases h2; rfl
  exact apart_withQ (fun P' hP e => block_apart' (by rw [hq]; exact hi.2.ekf.q) hP (hB hp.2) e) c1 h4

theorem apart_removeContact {n : Int} (hc : ApartInv ni o) (h : o.removeContact n = .ok o') : ApartInv ni o' := by
  simp only [removeContact, Res.bind_eq_ok] at h
  obtain ⟨c, hcc, _, -, h⟩ := h
  cases h
  exact hc

theorem apart_getMeasurementVector {y : DVec} (hc : ApartInv ni o) (h : o.getMeasurementVector = .ok (y, o')) : ApartInv ni o' := by
  simp only [getMeasurementVector, Res.bind_eq_ok] at h
  obtain ⟨n, -, h⟩ := h
  split_ifs at h
  · simp only [Res.bind_eq_ok] at h
    obtain ⟨_, -, _, -, _, -, _, -, h⟩ := h
    cases h
    exact hc
  · cases h; exact hc

theorem apart_estimateAccelerations (hc : ApartInv ni o) (h : o.estimateAccelerations = .ok o') : ApartInv ni o' := by
  simp only [estimateAccelerations, Res.bind_eq_ok] at h
  obtain ⟨_, -, _, -, h⟩ := h
  cases h
  exact hc

/-- Every call but `update` keeps the invariant. -/
theorem apart_exec (op : Op) (hu : op ≠ .update) (hg : op.Apart ni) (hi : Inv nc ni o) (hc : ApartInv ni o) (h : Op.exec o op = .ok o') : ApartInv ni o' := by
  cases op <;> simp only [Op.exec, Res.bind_eq_ok] at h
  case setSamplingTime => cases h; exact hc
  case setMass => cases h; exact hc
  case update => exact absurd rfl hu
  case estimateAccelerations => exact apart_estimateAccelerations hc h
  case setStateKinematics => exact apart_setStateKinematics hi hc h
  case setGyroBias => exact apart_setGyroBias hi hc h
  case setStateUnmodeledWrench => exact apart_setStateUnmodeledWrench hi hc h
  case setStateVector => exact apart_setStateVector hi hc h
  case setAdditionalWrench => cases h; exact hc
  case setWithUnmodeledWrench => cases h; exact hc
  case setWithAccelerationEstimation => cases h; exact hc
  case setWithGyroBias => cases h; exact hc
  case setIMU => obtain ⟨r, h1, h2⟩ := h; cases h2; exact apart_setIMU hc h1
  case setIMUDefaultCovarianceMatrix => cases h; exact hc
  case updateContactWithWrenchSensor => exact apart_updateContactWithWrenchSensor hc h
  case setContactWrenchSensorDefaultCovarianceMatrix => cases h; exact hc
  case updateContactWithNoSensor => exact apart_updateContactWithNoSensor hc h
  case setAbsolutePoseSensor => cases h; exact apart_start hc
  case setAbsolutePoseSensorDefaultCovarianceMatrix => cases h; exact hc
  case setInertiaMatrix2 => cases h; exact apart_start hc
  case setInertiaMatrix =>
    simp only [setInertiaMatrix, Res.bind_eq_ok] at h
    obtain ⟨_, -, h⟩ := h
    cases h; exact apart_start hc
  case setInertiaVector2 => cases h; exact apart_start hc
  case setInertiaVector => exact apart_setInertiaVector hc h
  case setCenterOfMass3 => cases h; exact apart_start hc
  case setCenterOfMass2 =>
    simp only [setCenterOfMass2, Res.bind_eq_ok] at h
    obtain ⟨_, -, h⟩ := h
    cases h; exact apart_start hc
  case setCenterOfMass => exact apart_setCenterOfMass hc h
  case setAngularMomentum2 => cases h; exact apart_start hc
  case setAngularMomentum =>
    simp only [setAngularMomentum, Res.bind_eq_ok] at h
    obtain ⟨_, -, h⟩ := h
    cases h; exact apart_start hc
  case addContact => obtain ⟨r, h1, h2⟩ := h; cases h2; exact apart_addContact hg hi hc h1
  case removeContact => exact apart_removeContact hc h
  case clearContacts => cases h; exact hc
  case setStateCovarianceMat => exact apart_withP (fun P' _ e => by cases e; exact hg) hc h
  case setKinematicsStateCovariance => exact apart_withP (fun P' hP e => block_apart hi.2.ekf.pr hP (fun B' _ => blockApart_kine B') e) hc h
  case setKinematicsInitCovarianceDefault B =>
    unfold setKinematicsInitCovarianceDefault at h
    split_ifs at h with hs
    cases h
    exact hc
  case setGyroBiasStateCovariance => exact apart_Pj hi (gyro_apart hi) hc h
  case setGyroBiasInitCovarianceDefault => cases h; exact ⟨hc.pr, hc.q, hg, hc.uI, hc.cI, hc.cP⟩
  case setGyroBiasProcessCovariance => exact apart_Qj hi (gyro_apart hi) hc h
  case setUnmodeledWrenchStateCovMat => exact apart_Pj hi (wrench_apart hi) hc h
  case setUnmodeledWrenchInitCovMatDefault => cases h; exact ⟨hc.pr, hc.q, hc.gI, hg, hc.cI, hc.cP⟩
  case setUnmodeledWrenchProcessCovMat => exact apart_Qj hi (wrench_apart hi) hc h
  case setContactStateCovMat => exact apart_Pj hi (contact_apart hi hg) hc h
  case setContactInitCovMatDefault => cases h; exact ⟨hc.pr, hc.q, hc.gI, hc.uI, hg, hc.cP⟩
  case setContactProcessCovMat => exact apart_Qj hi (contact_apart hi hg) hc h
  case setProcessNoiseCovarianceMat => exact apart_withQ (fun P' _ e => by cases e; exact hg) hc h
  case resetStateCovarianceMat => exact (both_resetStateCovarianceMat ⟨hi, hc⟩ h).2
  case resetStateKinematicsCovMat => exact apart_P hi (blockApart_kine _) hc h
  case resetStateGyroBiasCovMat => exact apart_Pj hi (gyro_apart hi) hc h
  case resetStateUnmodeledWrenchCovMat => exact apart_Pj hi (wrench_apart hi) hc h
  case resetStateContactsCovMat => exact (both_resetStateContactsCovMat ⟨hi, hc⟩ h).2
  case resetStateContactCovMat => exact apart_resetStateContactCovMat hi hc h
  case resetProcessCovarianceMat => exact (both_resetProcessCovarianceMat ⟨hi, hc⟩ h).2
  case resetProcessKinematicsCovMat => exact apart_Q hi (blockApart_kine _) hc h
  case resetProcessGyroBiasCovMat => exact apart_Qj hi (gyro_apart hi) hc h
  case resetProcessUnmodeledWrenchCovMat => exact apart_Qj hi (wrench_apart hi) hc h
  case resetProcessContactsCovMat => exact (both_resetProcessContactsCovMat ⟨hi, hc⟩ h).2
  case resetProcessContactCovMat => exact apart_resetProcessContactCovMat hi hc h
  case resetSensorsDefaultCovMat => cases h; exact hc
  case resetInputs => cases h; exact hc
  case setFiniteDifferenceStep => cases h; exact hc
  case useFiniteDifferencesJacobians => cases h; exact hc
  case getMeasurementVector => obtain ⟨r, h1, h2⟩ := h; cases h2; exact apart_getMeasurementVector hc h1

theorem diag_smul {n : ℕ} (d : ℝ) : Diag (d • (1 : Matrix (Fin n) (Fin n) ℝ)) := fun i j h => by simp [Matrix.smul_apply, Matrix.one_apply_ne h]

theorem poseApart_diag12 (a b c d : M3) : PoseApart (diag12 a b c d) := by
  intro i j h
  unfold diag12
  split_ifs
  all_goals first
    | rfl
    | (exfalso; have := i.2; have := j.2; omega)

theorem apart_base (nc ni : ℕ) : ApartInv ni (base nc ni) :=
  ⟨fun _ _ _ => rfl, fun _ _ _ => rfl, diag_smul _, diag_smul _, poseApart_diag12 _ _ _ _, poseApart_diag12 _ _ _ _⟩

theorem both_construct (h : construct nc ni = .ok o) : Both nc ni o := by
  refine ⟨inv_construct h, ?_⟩
  have hni := construct_pos h
  rw [construct_eq] at h
  simp only [Res.bind_eq_ok] at h
  obtain ⟨o1, h1, o2, h2, h3⟩ := h
  exact apart_updateKine (both_resetProcessCovarianceMat (both_resetStateCovarianceMat ⟨inv_base hni, apart_base nc ni⟩ h1) h2).2 h3

end Observer
end StateObs.KO
