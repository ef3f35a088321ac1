import Verif.KO.StateLemmas
/-!
# The effect of the state setters on the state vector, and the kinematics kept beside it
-/

namespace StateObs.KO
open StateObs Matrix Rot Kine KF
open Observer

variable {nc ni : ℕ} {o o' : Observer}

/-! ## Orientations with a quaternion -/

/-- The object holds the quaternion `q`, and its matrix if it holds one. -/
def OriShows (k : Ori) (q : Quat) : Prop := k.q = ⟨true, some q⟩ ∧ (k.m.flag = true → k.m.v = some q.toMat)

theorem OriShows.fill {k : Ori} {q : Quat} (h : OriShows k q) : ∃ k', k.fillMatrix = .ok k' ∧ k'.q = ⟨true, some q⟩ ∧ k'.m = ⟨true, some q.toMat⟩ := by
  obtain ⟨⟨qf, qv⟩, ⟨mf, mv⟩⟩ := k
  obtain ⟨h1, h2⟩ := h
  injection h1 with h3 h4
  subst h3 h4
  cases mf
  · exact ⟨⟨⟨true, some q⟩, ⟨true, some q.toMat⟩⟩, rfl, rfl, rfl⟩
  · simp only [forall_const] at h2
    subst h2
    exact ⟨⟨⟨true, some q⟩, ⟨true, some q.toMat⟩⟩, rfl, rfl, rfl⟩

theorem OriShows.check {k : Ori} {q : Quat} (h : OriShows k q) : k.check = .ok () := by
  obtain ⟨kq, km⟩ := k
  obtain ⟨h1, -⟩ := h
  subst h1
  rfl

theorem OriShows.toMatrix3 {k : Ori} {q : Quat} (h : OriShows k q) : ∃ k', k.toMatrix3 = .ok (q.toMat, k') ∧ OriShows k' q := by
  obtain ⟨k', e, h1, h2⟩ := h.fill
  exact ⟨k', by rw [Ori.toMatrix3, h.check, Res.ok_bind, e, Res.ok_bind, h2]; rfl, h1, fun _ => by rw [h2]⟩

theorem OriShows.rotate {k : Ori} {q : Quat} (h : OriShows k q) (v : V3) : ∃ k', k.rotate v = .ok (q.toMat *ᵥ v, k') ∧ OriShows k' q := by
  obtain ⟨k', e, h1, h2⟩ := h.fill
  exact ⟨k', by rw [Ori.rotate, h.check, Res.ok_bind, e, Res.ok_bind, h2]; rfl, h1, fun _ => by rw [h2]⟩

theorem OriShows.toQuaternion {k : Ori} {q : Quat} (h : OriShows k q) : k.toQuaternion = .ok (q, k) := by
  obtain ⟨kq, km⟩ := k
  obtain ⟨h1, -⟩ := h
  subst h1
  rfl

theorem OriShows.rep {k : Ori} {q : Quat} (h : OriShows k q) (hu : q.normSq = 1) : k.Rep q.toMat := by
  obtain ⟨⟨f, qv⟩, m, mv⟩ := k
  obtain ⟨h1, h2⟩ := h
  cases h1
  cases m
  · exact Ori.rep_q hu rfl
  · cases h2 rfl
    exact Ori.rep_qm hu rfl

theorem rep_toVector4 {k : Ori} {R : M3} (h : k.Rep R) : ∃ q k', k.toVector4 = .ok (![q.x, q.y, q.z, q.w], k') ∧ k'.Rep R ∧ OriShows k' q ∧ q.normSq = 1 ∧ q.toMat = R := by
  obtain ⟨k', q, e, r, hq, h1, h2⟩ := h.fillQuaternion
  refine ⟨q, k', ?_, r, ⟨hq, fun hm => ?_⟩, h1, h2⟩
  · simp [Ori.toVector4, Ori.toQuaternion, h.check, e, hq, Ori.read_true]
  · rw [r.mat hm, h2]

/-- The kinematics show the first thirteen numbers of the vector. -/
structure Shows (k : Kin) (x : DVec) : Prop where
  pos : k.pos = ⟨true, some (at3 x 0)⟩
  ori : OriShows k.ori ⟨at1 x 6, at1 x 3, at1 x 4, at1 x 5⟩
  linVel : k.linVel = ⟨true, some (at3 x 7)⟩
  angVel : k.angVel = ⟨true, some (at3 x 10)⟩

theorem at3_eq (x : DVec) (i : ℕ) : at3 x i = ![at1 x i, at1 x (i + 1), at1 x (i + 2)] := by apply ext3 <;> rfl

theorem Shows.congr {k : Kin} {x y : DVec} (h : Shows k x) (e : ∀ j, j < 13 → at1 y j = at1 x j) : Shows k y := by
  have e3 : ∀ i, i + 2 < 13 → at3 y i = at3 x i := fun i hi => by rw [at3_eq, at3_eq, e _ (by omega), e _ (by omega), e _ (by omega)]
  exact ⟨by rw [e3 0 (by omega)]; exact h.pos, by rw [e 6 (by omega), e 3 (by omega), e 4 (by omega), e 5 (by omega)]; exact h.ori,
    by rw [e3 7 (by omega)]; exact h.linVel, by rw [e3 10 (by omega)]; exact h.angVel⟩

theorem shows_loaded (k : Kin) (x : DVec) : Shows (loaded k x) x := ⟨rfl, ⟨rfl, fun h => by cases h⟩, rfl, rfl⟩

theorem updateKine_shows (h : o.updateKine = .ok o') : o' = { o with stateKin := loaded o.stateKin o.x } := by
  simp only [updateKine, Res.bind_eq_ok] at h
  obtain ⟨s, hs, k, hk, h2⟩ := h
  rw [fromVector_loaded _ hs] at hk
  cases hk; cases h2; rfl

theorem estimateAccelerations_shows (hs : Shows o.stateKin o.x) (h : o.estimateAccelerations = .ok o') :
    o' = { o with stateKin := o'.stateKin } ∧ Shows o'.stateKin o.x := by
  simp only [estimateAccelerations, Res.bind_eq_ok] at h
  obtain ⟨w, -, r, hr, h2⟩ := h
  cases h2
  refine ⟨rfl, ?_⟩
  rw [computeAccelerations] at hr
  obtain ⟨k1, e1, s1⟩ := hs.ori.toMatrix3
  rw [e1] at hr
  simp only [Res.ok_bind, Res.bind_eq_ok] at hr
  obtain ⟨w1, -, b, -, hr⟩ := hr
  split_ifs at hr
  obtain ⟨k2, e2, s2⟩ := s1.rotate (localAngAcc b o.mass ((Quat.toMat ⟨at1 o.x 6, at1 o.x 3, at1 o.x 4, at1 o.x 5⟩)ᵀ *ᵥ w1) w.1 w.2)
  rw [e2] at hr
  simp only [Res.ok_bind, Res.bind_eq_ok] at hr
  obtain ⟨⟨c, k3⟩, e3, hr⟩ := hr
  obtain ⟨k4, e4, s4⟩ := s2.rotate ((1 / o.mass) • w.1 - b.comdd - corioCentri b ((Quat.toMat ⟨at1 o.x 6, at1 o.x 3, at1 o.x 4, at1 o.x 5⟩)ᵀ *ᵥ w1) +
    b.com ⨯₃ ((Quat.toMat ⟨at1 o.x 6, at1 o.x 3, at1 o.x 4, at1 o.x 5⟩)ᵀ *ᵥ
      ((Quat.toMat ⟨at1 o.x 6, at1 o.x 3, at1 o.x 4, at1 o.x 5⟩) *ᵥ localAngAcc b o.mass ((Quat.toMat ⟨at1 o.x 6, at1 o.x 3, at1 o.x 4, at1 o.x 5⟩)ᵀ *ᵥ w1) w.1 w.2)))
  rw [e4] at e3
  cases e3; cases hr
  exact ⟨hs.pos, s4, hs.linVel, hs.angVel⟩

theorem update_shows (h : o.update = .ok o') (hk : o.kEst ≠ o.kData) : Shows o'.stateKin o'.x ∧ ∃ t, o'.ekf.x = some (o'.x, t) := by
  rw [update, if_pos hk] at h
  simp only [Res.bind_eq_ok] at h
  obtain ⟨⟨o1, y, cov⟩, h1, e, -, h3⟩ := h
  simp only [afterFilter, Res.bind_eq_ok] at h3
  obtain ⟨x, hx, o2, h4, h5⟩ := h3
  have e2 := updateKine_shows h4
  have hx2 : ∃ t, e.x = some (x, t) := by
    cases he : e.x with
    | none => rw [he] at hx; cases hx
    | some a => rw [he] at hx; cases hx; exact ⟨a.2, rfl⟩
  have s2 : Shows o2.stateKin o2.x := by rw [e2]; exact shows_loaded _ _
  have f2 : ∃ t, o2.ekf.x = some (o2.x, t) := by rw [e2]; exact hx2
  split_ifs at h5
  · obtain ⟨e3, s3⟩ := estimateAccelerations_shows s2 h5
    have ex : o'.x = o2.x := by rw [e3]
    have ee : o'.ekf = o2.ekf := by rw [e3]
    rw [ex, ee]
    exact ⟨s3, f2⟩
  · cases h5
    exact ⟨s2, f2⟩

/-! ## The setters -/

/-- The state vector is in the filter. -/
def Synced (o : Observer) : Prop := ∃ t, o.ekf.x = some (o.x, t)

theorem Synced.shown (h : Synced o) (e : o'.shown = o.shown) : Synced o' := by
  injection e with e1 e2
  injection e2 with e2 e3
  obtain ⟨t, h⟩ := h
  exact ⟨t, by rw [e3, e1, h]⟩

theorem Shows.shown (h : Shows o.stateKin o.x) (e : o'.shown = o.shown) : Shows o'.stateKin o'.x := by
  injection e with e1 e2
  injection e2 with e2 e3
  rw [e1, e2]; exact h

theorem withP_rest {f : DMat → Res DMat} (e : o.withP f = .ok o') : o'.shown = o.shown ∧ o'.contacts = o.contacts := by
  refine ⟨shown_withP e, ?_⟩
  rw [withP_eq e]

theorem setGyroBias_ok (hi : Inv nc ni o) {b : V3} {i : ℕ} {r : Bool} (h : o.setGyroBias b i r = .ok o') :
    i < ni ∧ o'.contacts = o.contacts ∧ o'.stateKin = o.stateKin ∧ Synced o' ∧
      (∀ j, j < 13 + 3 * i ∨ 13 + 3 * i + 3 ≤ j → at1 o'.x j = at1 o.x j) ∧ ∀ j (hj : j < 3), at1 o'.x (13 + 3 * i + j) = b ⟨j, hj⟩ := by
  simp only [setGyroBias, Res.bind_eq_ok] at h
  obtain ⟨j, hj, x, hx, o1, h1, h2⟩ := h
  obtain ⟨hlt, rfl⟩ := (gyroBiasIndex_eq i j).1 hj
  rw [hi.1.2] at hlt
  obtain ⟨-, a1, a2⟩ := setSeg_at1 hx
  obtain ⟨e1, s1, -⟩ := pushState_x h1
  have key : o1.contacts = o.contacts ∧ o1.stateKin = o.stateKin ∧ Synced o1 ∧ o1.x = x := by
    have ex : o1.x = x := by rw [e1]
    exact ⟨by rw [e1], by rw [e1], ⟨_, s1.trans (by rw [ex])⟩, ex⟩
  obtain ⟨k1, k2, k3, k4⟩ := key
  have key2 : o'.contacts = o1.contacts ∧ o'.shown = o1.shown := by
    split_ifs at h2
    · exact (withP_rest h2).symm
    · cases h2; exact ⟨rfl, rfl⟩
  obtain ⟨m1, m2⟩ := key2
  have m3 := k3.shown m2
  injection m2 with m4 m5
  injection m5 with m5 m6
  exact ⟨hlt, m1.trans k1, m5.trans k2, m3, by rw [m4, k4]; exact a1, by rw [m4, k4]; exact a2⟩

theorem unmodeledWrenchIndex_eq (hi : Inv nc ni o) {j : ℕ} (h : o.unmodeledWrenchIndex = .ok j) : j = 13 + 3 * ni :=
  ((start_eq hi .unmodeledForce j).1 h).2

theorem setStateUnmodeledWrench_ok (hi : Inv nc ni o) {w : V6} {r : Bool} (h : o.setStateUnmodeledWrench w r = .ok o') :
    o'.contacts = o.contacts ∧ o'.stateKin = o.stateKin ∧ Synced o' ∧
      (∀ j, j < 13 + 3 * ni ∨ 13 + 3 * ni + 6 ≤ j → at1 o'.x j = at1 o.x j) ∧ ∀ j (hj : j < 6), at1 o'.x (13 + 3 * ni + j) = w ⟨j, hj⟩ := by
  simp only [setStateUnmodeledWrench, Res.bind_eq_ok] at h
  obtain ⟨j, hj, x, hx, o1, h1, h2⟩ := h
  obtain rfl := unmodeledWrenchIndex_eq hi hj
  obtain ⟨-, a1, a2⟩ := setSeg_at1 hx
  obtain ⟨e1, s1, -⟩ := pushState_x h1
  have key : o1.contacts = o.contacts ∧ o1.stateKin = o.stateKin ∧ Synced o1 ∧ o1.x = x := by
    have ex : o1.x = x := by rw [e1]
    exact ⟨by rw [e1], by rw [e1], ⟨_, s1.trans (by rw [ex])⟩, ex⟩
  obtain ⟨k1, k2, k3, k4⟩ := key
  have key2 : o'.contacts = o1.contacts ∧ o'.shown = o1.shown := by
    split_ifs at h2
    · exact (withP_rest h2).symm
    · cases h2; exact ⟨rfl, rfl⟩
  obtain ⟨m1, m2⟩ := key2
  have m3 := k3.shown m2
  injection m2 with m4 m5
  injection m5 with m5 m6
  exact ⟨m1.trans k1, m5.trans k2, m3, by rw [m4, k4]; exact a1, by rw [m4, k4]; exact a2⟩

theorem setStateVector_ok {v : DVec} {r : Bool} (h : o.setStateVector v r = .ok o') :
    o'.x = v ∧ o'.stateKin = loaded o.stateKin v ∧ Synced o' := by
  simp only [setStateVector, Res.bind_eq_ok] at h
  obtain ⟨o1, h1, o2, h2, h3⟩ := h
  obtain ⟨e1, s1, -⟩ := pushState_x h1
  have e2 := updateKine_shows h2
  have k1 : o1.x = v := by rw [e1]
  have k2 : o1.stateKin = o.stateKin := by rw [e1]
  have m1 : o2.x = v := by rw [e2]; exact k1
  have m2 : o2.stateKin = loaded o.stateKin v := by rw [e2, ← k1, ← k2]
  have m3 : Synced o2 := ⟨o.kEst, by rw [m1, e2]; exact s1⟩
  have key2 : o'.shown = o2.shown := by
    split_ifs at h3
    · exact shown_resetStateCovarianceMat h3
    · cases h3; rfl
  refine ⟨?_, ?_, m3.shown key2⟩
  · injection key2 with a b
    exact a.trans m1
  · injection key2 with a b
    injection b with b c
    exact b.trans m2

open Classical in
theorem zeroWrench_fold : ∀ (cs : List Contact) (x x' : DVec), cs.foldlM zeroWrench x = .ok x' →
    x'.size = x.size ∧ ∀ j, at1 x' j = if ∃ c ∈ cs, c.isSet = true ∧ c.stateIndex.toNat + 7 ≤ j ∧ j < c.stateIndex.toNat + 13 then 0 else at1 x j
  | [], x, x', h => by
    cases h
    simp
  | c :: cs, x, x', h => by
    rw [List.foldlM_cons, Res.bind_eq_ok] at h
    obtain ⟨x1, h1, h2⟩ := h
    obtain ⟨g1, g2⟩ := zeroWrench_fold cs x1 x' h2
    rw [zeroWrench] at h1
    split_ifs at h1 with hs
    · rw [Res.bind_eq_ok] at h1
      obtain ⟨i, hi, h1⟩ := h1
      simp only [Contact.index, Res.bind_eq_ok] at hi
      obtain ⟨_, -, hi⟩ := hi
      cases hi
      obtain ⟨a0, a1, a2⟩ := setSeg_at1 h1
      refine ⟨g1.trans a0, fun j => ?_⟩
      rw [g2 j]
      by_cases hj : c.stateIndex.toNat + 7 ≤ j ∧ j < c.stateIndex.toNat + 13
      · have : at1 x1 j = 0 := by
          have := a2 (j - (c.stateIndex.toNat + 7)) (by omega)
          rwa [show c.stateIndex.toNat + 7 + (j - (c.stateIndex.toNat + 7)) = j by omega] at this
        rw [this, ite_self, if_pos ⟨c, by simp, hs, hj.1, hj.2⟩]
      · rw [a1 j (by omega)]
        refine if_congr ?_ rfl rfl
        constructor
        · rintro ⟨d, hd, hd2⟩
          exact ⟨d, by simp [hd], hd2⟩
        · rintro ⟨d, hd, hd2⟩
          rcases List.mem_cons.1 hd with rfl | hd
          · exact absurd hd2.2 hj
          · exact ⟨d, hd, hd2⟩
    · cases h1
      refine ⟨g1, fun j => ?_⟩
      rw [g2 j]
      refine if_congr ?_ rfl rfl
      constructor
      · rintro ⟨d, hd, hd2⟩
        exact ⟨d, by simp [hd], hd2⟩
      · rintro ⟨d, hd, hd2⟩
        rcases List.mem_cons.1 hd with rfl | hd
        · exact absurd hd2.1 hs
        · exact ⟨d, hd, hd2⟩

/-- `toVector` with the flags of the state. -/
theorem toVector_state {k : Kin} {p v w : V3} {R : M3} {x y : Option V3} (h : k.Has ⟨some p, some R, some v, some w, x, y⟩) : ∃ (q : Quat) (k' : Ori),
    k.toVector flagsStateKine = .ok ([p 0, p 1, p 2, q.x, q.y, q.z, q.w, v 0, v 1, v 2, w 0, w 1, w 2], { k with ori := k' }) ∧ k'.Rep R ∧ OriShows k' q ∧
      q.normSq = 1 ∧ q.toMat = R := by
  obtain ⟨q, k', e, r, s, h1, h2⟩ := rep_toVector4 h.ori
  refine ⟨q, k', ?_, r, s, h1, h2⟩
  simp only [Kin.toVector, flagsStateKine, Kin.storeItem, Kin.storeOri, if_true, e, Res.ok_bind, h.pos.read, h.linVel.read, h.angVel.read]
  rfl

theorem toVector_pose {k : Kin} {p : V3} {R : M3} {v w x y : Option V3} (h : k.Has ⟨some p, some R, v, w, x, y⟩) : ∃ (q : Quat) (k' : Ori),
    k.toVector flagsPoseKine = .ok ([p 0, p 1, p 2, q.x, q.y, q.z, q.w], { k with ori := k' }) ∧ q.normSq = 1 ∧ q.toMat = R := by
  obtain ⟨q, k', e, r, s, h1, h2⟩ := rep_toVector4 h.ori
  refine ⟨q, k', ?_, h1, h2⟩
  simp only [Kin.toVector, flagsPoseKine, Kin.storeItem, Kin.storeOri, if_true, e, Res.ok_bind, h.pos.read]
  rfl

/-- An entry of the vector is in the wrench of a set contact. -/
def InWrench (o : Observer) (j : ℕ) : Prop := ∃ c ∈ o.contacts, c.isSet = true ∧ c.stateIndex.toNat + 7 ≤ j ∧ j < c.stateIndex.toNat + 13

theorem inWrench_iff (hi : Inv nc ni o) (j : ℕ) : InWrench o j ↔ ∃ n, IsSet o n ∧ 19 + 3 * ni + 13 * n + 7 ≤ j ∧ j < 19 + 3 * ni + 13 * n + 13 := by
  constructor
  · rintro ⟨c, hc, hs, h1, h2⟩
    obtain ⟨n, hn⟩ := List.mem_iff_getElem?.1 hc
    have := (hi.2.conIdx n c hn hs).1
    rw [this] at h1 h2
    exact ⟨n, ⟨c, hn, hs⟩, by omega, by omega⟩
  · rintro ⟨n, ⟨c, hn, hs⟩, h1, h2⟩
    have := (hi.2.conIdx n c hn hs).1
    exact ⟨c, List.mem_iff_getElem?.2 ⟨n, hn⟩, hs, by rw [this]; omega, by rw [this]; omega⟩

open Classical in
theorem setStateKinematics_ok (hi : Inv nc ni o) {k : Kin} {p v w : V3} {R : M3} {x y : Option V3} (hk : k.Has ⟨some p, some R, some v, some w, x, y⟩) {f r : Bool}
    (h : o.setStateKinematics k f r = .ok o') : ∃ (q : Quat) (k' : Ori), q.normSq = 1 ∧ q.toMat = R ∧ k'.Rep R ∧ o'.contacts = o.contacts ∧
      o'.stateKin = { k with ori := k' } ∧ Shows o'.stateKin o'.x ∧ Synced o' ∧
      (∀ j, j < 13 → at1 o'.x j = [p 0, p 1, p 2, q.x, q.y, q.z, q.w, v 0, v 1, v 2, w 0, w 1, w 2].getD j 0) ∧
      ∀ j, 13 ≤ j → at1 o'.x j = if f = true ∧ InWrench o j then 0 else at1 o.x j := by
  obtain ⟨q, k', e, r1, s, h1, h2⟩ := toVector_state hk
  simp only [setStateKinematics, Res.bind_eq_ok, e] at h
  obtain ⟨_, -, r0, hr0, x1, hx1, x2, hx2, o1, h3, h4⟩ := h
  cases hr0
  obtain ⟨-, -, -, a1, a2⟩ := setList_at1 hx1
  have a3 : ∀ j, at1 x2 j = if f = true ∧ InWrench o j then 0 else at1 x1 j := by
    cases f
    · cases hx2; simp
    · simp only [true_and]
      intro j
      rw [(zeroWrench_fold o.contacts x1 x2 hx2).2 j]
      exact if_congr Iff.rfl rfl rfl
  have a4 : ∀ j, j < 13 → at1 x2 j = [p 0, p 1, p 2, q.x, q.y, q.z, q.w, v 0, v 1, v 2, w 0, w 1, w 2].getD j 0 := by
    intro j hj
    rw [a3, if_neg, ← a2 j hj, kineIndex, zero_add]
    rintro ⟨-, hw⟩
    obtain ⟨n, -, hn, -⟩ := (inWrench_iff hi j).1 hw
    omega
  obtain ⟨e1, s1, -⟩ := pushState_x h3
  have k0 : o1.contacts = o.contacts := by rw [e1]
  have k1 : o1.x = x2 := by rw [e1]
  have k2 : o1.stateKin = { k with ori := k' } := by rw [e1]
  have k3 : Synced o1 := ⟨_, s1.trans (by rw [k1])⟩
  have key2 : o'.contacts = o1.contacts ∧ o'.shown = o1.shown := by
    split_ifs at h4
    · exact (withP_rest h4).symm
    · cases h4; exact ⟨rfl, rfl⟩
  obtain ⟨m1, m2⟩ := key2
  have m3 := k3.shown m2
  injection m2 with m4 m5
  injection m5 with m5 m6
  refine ⟨q, k', h1, h2, r1, m1.trans k0, m5.trans k2, ?_, m3, by rw [m4, k1]; exact a4, fun j hj => ?_⟩
  · rw [m5, k2, m4, k1]
    have g : ∀ i (hi : i < 13), at1 x2 i = _ := fun i hi => a4 i hi
    refine ⟨?_, ?_, ?_, ?_⟩
    · rw [at3_eq, g 0 (by omega), g 1 (by omega), g 2 (by omega)]
      exact (show k.pos = _ from hk.pos).trans (congrArg (fun z => (⟨true, some z⟩ : CItem V3)) (by apply ext3 <;> rfl))
    · rw [g 6 (by omega), g 3 (by omega), g 4 (by omega), g 5 (by omega)]
      exact s
    · rw [at3_eq, g 7 (by omega), g 8 (by omega), g 9 (by omega)]
      exact (show k.linVel = _ from hk.linVel).trans (congrArg (fun z => (⟨true, some z⟩ : CItem V3)) (by apply ext3 <;> rfl))
    · rw [at3_eq, g 10 (by omega), g 11 (by omega), g 12 (by omega)]
      exact (show k.angVel = _ from hk.angVel).trans (congrArg (fun z => (⟨true, some z⟩ : CItem V3)) (by apply ext3 <;> rfl))
  · rw [m4, k1, a3, a1 j (Or.inr (by rw [kineIndex]; omega))]

theorem addContact_ok (hi : Inv nc ni o) {pose : Kin} {p : V3} {R : M3} {v w x y : Option V3} (hp : pose.Has ⟨some p, some R, v, w, x, y⟩)
    {cov : Option (M12 × M12)} {num : Int} {vi : Visco} {n : ℕ} (h : o.addContact pose cov num vi = .ok (n, o')) :
    ∃ (q : Quat) (c : Contact) , q.normSq = 1 ∧ q.toMat = R ∧ o.contacts[n]? = some c ∧ c.isSet = false ∧
      (∃ c', c'.isSet = true ∧ o'.contacts = o.contacts.set n c') ∧ o'.stateKin = o.stateKin ∧ o'.ekf.x = o.ekf.x ∧
      (∀ j, j < 19 + 3 * ni + 13 * n ∨ 19 + 3 * ni + 13 * n + 13 ≤ j → at1 o'.x j = at1 o.x j) ∧
      ∀ j, j < 13 → at1 o'.x (19 + 3 * ni + 13 * n + j) = [p 0, p 1, p 2, q.x, q.y, q.z, q.w, 0, 0, 0, 0, 0, 0].getD j 0 := by
  obtain ⟨q, k', e, h1, h2⟩ := toVector_pose hp
  simp only [addContact, Res.bind_eq_ok, e] at h
  obtain ⟨_, -, m, hm, _, -, c, hc, _, hs, si, hsi, st, -, r0, hr0, x1, hx1, o1, ho1, o2, ho2, h⟩ := h
  cases hr0
  cases h
  have hsi2 : si = 19 + 3 * ni := by
    simp only [contactsIndex, Res.bind_eq_ok] at hsi
    obtain ⟨i, hi2, hsi⟩ := hsi
    cases hsi
    have := unmodeledWrenchIndex_eq hi hi2
    omega
  subst hsi2
  obtain ⟨-, -, -, a1, a2⟩ := setList_at1 hx1
  have g1 := shown_withP ho1
  have g2 := shown_withQ ho2
  have c1 : ∃ c', c'.isSet = true ∧ o1.contacts = o.contacts.set n c' := by
    rw [withP_eq ho1]
    exact ⟨{ c with isSet := true, stateIndex := (19 + 3 * ni + n * 13 : ℕ), stateIndexTangent := (st + n * 12 : ℕ), absPose := pose, visco := some (newVisco o vi) }, rfl, rfl⟩
  have c2 : o'.contacts = o1.contacts := by rw [withQ_eq ho2]
  obtain ⟨c', c3, c4⟩ := c1
  have g3 := g2.trans g1
  injection g3 with g4 g5
  injection g5 with g5 g6
  refine ⟨q, c, h1, h2, rd_ok hc, ?_, ⟨c', c3, c2.trans c4⟩, g5, g6, ?_, ?_⟩
  · have := Res.assert_ok hs
    simpa using this
  · intro j hj
    rw [g4]
    exact a1 j (by omega)
  · intro j hj
    rw [g4, show 19 + 3 * ni + 13 * n + j = 19 + 3 * ni + n * 13 + j by omega]
    exact a2 j hj

theorem addContact_frame (hi : Inv nc ni o) {pose : Kin} {cov : Option (M12 × M12)} {num : Int} {vi : Visco} {n : ℕ}
    (h : o.addContact pose cov num vi = .ok (n, o')) : o'.stateKin = o.stateKin ∧ ∀ j, j < 13 → at1 o'.x j = at1 o.x j := by
  simp only [addContact, Res.bind_eq_ok] at h
  obtain ⟨_, -, m, hm, _, -, c, hc, _, hs, si, hsi, st, -, r0, hr0, x1, hx1, o1, ho1, o2, ho2, h⟩ := h
  cases h
  have hsi2 : si = 19 + 3 * ni := by
    simp only [contactsIndex, Res.bind_eq_ok] at hsi
    obtain ⟨i, hi2, hsi⟩ := hsi
    cases hsi
    have := unmodeledWrenchIndex_eq hi hi2
    omega
  subst hsi2
  obtain ⟨-, -, -, a1, -⟩ := setList_at1 hx1
  have g3 := (shown_withQ ho2).trans (shown_withP ho1)
  injection g3 with g4 g5
  injection g5 with g5 g6
  exact ⟨g5, fun j hj => by rw [g4]; exact a1 j (by omega)⟩

theorem has_of_assert {k : Kin} {a : Value} (h : k.Has a) (hs : (k.pos.isSet dbg && k.ori.isSet && k.linVel.isSet dbg && k.angVel.isSet dbg) = true) :
    ∃ p R v w, k.Has ⟨some p, some R, some v, some w, a.linAcc, a.angAcc⟩ := by
  simp only [Bool.and_eq_true] at hs
  obtain ⟨⟨⟨h1, h2⟩, h3⟩, h4⟩ := hs
  obtain ⟨p, R, v, w, x, y⟩ := a
  cases p with
  | none => rw [show k.pos.isSet dbg = k.pos.flag from rfl, show k.pos.flag = false from h.pos] at h1; cases h1
  | some p =>
  cases v with
  | none => rw [show k.linVel.isSet dbg = k.linVel.flag from rfl, show k.linVel.flag = false from h.linVel] at h3; cases h3
  | some v =>
  cases w with
  | none => rw [show k.angVel.isSet dbg = k.angVel.flag from rfl, show k.angVel.flag = false from h.angVel] at h4; cases h4
  | some w =>
  cases R with
  | none => 
    obtain ⟨g1, g2⟩ : k.ori.q.flag = false ∧ k.ori.m.flag = false := h.ori
    rw [show k.ori.isSet = (k.ori.m.flag || k.ori.q.flag) from rfl, g1, g2] at h2; cases h2
  | some R => exact ⟨p, R, v, w, h⟩

theorem construct_shows (h : 0 < ni) (e : Observer.construct nc ni = .ok o) : Shows o.stateKin o.x := by
  have hi := inv_base (nc := nc) h
  obtain ⟨o1, h1, c1⟩ := resetState_all hi
  have i1 := c1.inv hi
  obtain ⟨o2, h2, c2⟩ := resetProcess_all i1
  rw [construct_eq, h1, Res.ok_bind, h2, Res.ok_bind] at e
  rw [updateKine_shows e]
  exact shows_loaded _ _

theorem shows_exec (hi : Inv nc ni o) (hs : Shows o.stateKin o.x) (op : Op) (hc : op.Coherent) (h : Op.exec o op = .ok o') : Shows o'.stateKin o'.x := by
  by_cases h1 : op.setsState = false
  · by_cases h2 : op = .estimateAccelerations
    · subst h2
      obtain ⟨g1, g2⟩ := estimateAccelerations_shows hs h
      have : o'.x = o.x := by rw [g1]
      rw [this]; exact g2
    · exact hs.shown (shown_other op h1 h2 h)
  · cases op <;> simp only [Op.setsState, not_true_eq_false] at h1 <;> simp only [Op.exec] at h
    case update =>
      by_cases hk : o.kEst ≠ o.kData
      · exact (update_shows h hk).1
      · rw [update, if_neg hk] at h
        cases h; exact hs
    case setStateKinematics k f r =>
      obtain ⟨a, ha⟩ := hc
      have ht : (k.pos.isSet dbg && k.ori.isSet && k.linVel.isSet dbg && k.angVel.isSet dbg) = true := by
        have h2 := h
        simp only [setStateKinematics, Res.bind_eq_ok] at h2
        obtain ⟨_, h2, -⟩ := h2
        exact Res.assert_ok h2
      obtain ⟨p, R, v, w, hh⟩ := has_of_assert ha ht
      obtain ⟨q, k', -, -, -, -, -, g, -⟩ := setStateKinematics_ok hi hh h
      exact g
    case setGyroBias b i r =>
      obtain ⟨-, -, g1, -, g2, -⟩ := setGyroBias_ok hi h
      rw [g1]
      exact hs.congr fun j hj => g2 j (Or.inl (by omega))
    case setStateUnmodeledWrench w r =>
      obtain ⟨-, g1, -, g2, -⟩ := setStateUnmodeledWrench_ok hi h
      rw [g1]
      exact hs.congr fun j hj => g2 j (Or.inl (by omega))
    case setStateVector v r =>
      obtain ⟨g1, g2, -⟩ := setStateVector_ok h
      rw [g1, g2]
      exact shows_loaded _ _
    case addContact p c n v =>
      rw [Res.bind_eq_ok] at h
      obtain ⟨⟨m, o1⟩, h, h2⟩ := h
      cases h2
      obtain ⟨g1, g2⟩ := addContact_frame hi h
      rw [g1]
      exact hs.congr g2

theorem shows_reachable {l : List Op} (h : Reachable nc ni l o) (hc : ∀ op ∈ l, op.Coherent) : Shows o.stateKin o.x := by
  obtain ⟨o0, h0, h1⟩ := h
  have key : ∀ (l : List Op) (a : Observer), Inv nc ni a → Shows a.stateKin a.x → (∀ op ∈ l, op.Coherent) → Op.run a l = .ok o → Shows o.stateKin o.x := by
    intro l
    induction l with
    | nil => intro a _ hs _ e; cases e; exact hs
    | cons op l ih =>
      intro a ha hs hc e
      simp only [Op.run, List.foldlM_cons, Res.bind_eq_ok] at e
      obtain ⟨b, e1, e2⟩ := e
      exact ih b (inv_exec op ha e1) (shows_exec ha hs op (hc op (by simp)) e1) (fun x hx => hc x (by simp [hx])) e2
  exact key l o0 (inv_construct h0) (construct_shows (construct_pos h0) h0) hc h1

end StateObs.KO
