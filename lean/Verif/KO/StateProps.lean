import Verif.KO.StateAcc
/-!
# C103: the estimate is what has been set, the getters give it
-/

namespace StateObs.KO
open StateObs Matrix Rot Kine KF
open Observer

variable {nc ni : ℕ} {o o' : Observer}

theorem split6 (x : DVec) (b : ℕ) (w : V6) : (∀ j (hj : j < 6), at1 x (b + j) = w ⟨j, hj⟩) ↔
    (∀ j (hj : j < 3), at1 x (b + j) = (![w 0, w 1, w 2] : V3) ⟨j, hj⟩) ∧ ∀ j (hj : j < 3), at1 x (b + 3 + j) = (![w 3, w 4, w 5] : V3) ⟨j, hj⟩ := by
  constructor
  · intro h
    refine ⟨fun j hj => ?_, fun j hj => ?_⟩
    · rw [h j (by omega)]
      interval_cases j <;> rfl
    · rw [add_assoc, h (3 + j) (by omega)]
      interval_cases j <;> rfl
  · rintro ⟨h1, h2⟩ j hj
    by_cases h3 : j < 3
    · rw [h1 j h3]
      interval_cases j <;> rfl
    · obtain ⟨i, rfl⟩ : ∃ i, j = 3 + i := ⟨j - 3, by omega⟩
      rw [← add_assoc, h2 i (by omega)]
      have : i < 3 := by omega
      interval_cases i <;> rfl

theorem size_pos (c : Comp) : 0 < c.size := by cases c <;> simp [Comp.size]

/-- **C103** `setGyroBias(b, i)` sets the bias `i` of the estimate, keeps every other component, and the kinematics. -/
theorem C103_setGyroBias {l : List Op} (h : Reachable nc ni l o) {b : V3} {i : ℕ} {r : Bool} (e : o.setGyroBias b i r = .ok o') :
    (Comp.gyroBias i).Is o' (coords b) ∧ (∀ c : Comp, c ≠ .gyroBias i → c.Kept o o') ∧ o'.getKinematics = o.getKinematics := by
  have hi := inv_reachable h
  have hi' := inv_setGyroBias hi e
  obtain ⟨hlt, hc, hk, -, a1, a2⟩ := setGyroBias_ok hi e
  refine ⟨(is3 (c := .gyroBias i) hi' rfl b).2 ⟨hlt, a2⟩, fun c hne => kept_of hi hi' c (exists_contacts hc c) fun he j h1 h2 => a1 j ?_, hk⟩
  have := off_disjoint (he.valid hi) (d := .gyroBias i) hlt hne
  simp only [show off ni (.gyroBias i) = 13 + 3 * i from rfl, show (Comp.gyroBias i).size = 3 from rfl] at this
  omega

/-- **C103** `getUnmodeledWrench()` gives the unmodeled force and torque of the estimate. -/
theorem C103_getUnmodeledWrench {l : List Op} (h : Reachable nc ni l o) (w : V6) :
    o.getUnmodeledWrench = .ok w ↔ Comp.unmodeledForce.Is o [w 0, w 1, w 2] ∧ Comp.unmodeledTorque.Is o [w 3, w 4, w 5] := by
  have hi := inv_reachable h
  obtain ⟨j, hj⟩ : ∃ j, o.unmodeledWrenchIndex = .ok j := ⟨_, (start_eq hi .unmodeledForce _).2 ⟨trivial, rfl⟩⟩
  obtain rfl := unmodeledWrenchIndex_eq hi hj
  have e1 := is3 (c := .unmodeledForce) hi rfl ![w 0, w 1, w 2]
  have e2 := is3 (c := .unmodeledTorque) hi rfl ![w 3, w 4, w 5]
  rw [getUnmodeledWrench, hj, Res.ok_bind, seg_iff (by rw [hi.2.xSize]; omega)]
  refine Iff.trans ?_ (and_congr e1 e2).symm
  simp only [Exists, true_and, off, show 16 + 3 * ni = 13 + 3 * ni + 3 by omega]
  rw [← split6]
  exact ⟨fun h j hj => h ⟨j, hj⟩, fun h j => h j j.2⟩

/-- **C103** `setStateUnmodeledWrench(w)` sets the unmodeled force and torque of the estimate, keeps every other component, and the kinematics. -/
theorem C103_setStateUnmodeledWrench {l : List Op} (h : Reachable nc ni l o) {w : V6} {r : Bool} (e : o.setStateUnmodeledWrench w r = .ok o') :
    Comp.unmodeledForce.Is o' [w 0, w 1, w 2] ∧ Comp.unmodeledTorque.Is o' [w 3, w 4, w 5] ∧
    (∀ c : Comp, c ≠ .unmodeledForce → c ≠ .unmodeledTorque → c.Kept o o') ∧ o'.getKinematics = o.getKinematics := by
  have hi := inv_reachable h
  have hi' := inv_setStateUnmodeledWrench hi e
  obtain ⟨hc, hk, -, a1, a2⟩ := setStateUnmodeledWrench_ok hi e
  obtain ⟨b1, b2⟩ := (split6 _ _ w).1 a2
  have e1 := (is3 (c := .unmodeledForce) hi' rfl ![w 0, w 1, w 2]).2 ⟨trivial, b1⟩
  have e2 := (is3 (c := .unmodeledTorque) hi' rfl ![w 3, w 4, w 5]).2 ⟨trivial, by
    simp only [off, show 16 + 3 * ni = 13 + 3 * ni + 3 by omega]; exact b2⟩
  refine ⟨e1, e2, fun c n1 n2 => kept_of hi hi' c (exists_contacts hc c) fun he j h1 h2 => a1 j ?_, hk⟩
  have d1 := off_disjoint (nc := nc) (he.valid hi) (d := .unmodeledForce) trivial n1
  have d2 := off_disjoint (nc := nc) (he.valid hi) (d := .unmodeledTorque) trivial n2
  have s0 := size_pos c
  simp only [show off ni .unmodeledForce = 13 + 3 * ni from rfl, show off ni .unmodeledTorque = 16 + 3 * ni from rfl,
    show Comp.unmodeledForce.size = 3 from rfl, show Comp.unmodeledTorque.size = 3 from rfl] at d1 d2
  omega

/-- **C103** `setStateVector(v)`: `v` is the new estimate. -/
theorem C103_setStateVector {v : DVec} {r : Bool} (e : o.setStateVector v r = .ok o') : o'.getCurrentStateVector = v := (setStateVector_ok e).1

/-- The components of the kinematics. -/
def Comp.isKine : Comp → Bool
  | .position | .orientation | .linVel | .angVel => true
  | _ => false

/-- The components of the wrenches of the contacts. -/
def Comp.isContactWrench : Comp → Bool
  | .contactForce _ | .contactTorque _ => true
  | _ => false

/-- **C103** `setStateKinematics(k, resetForces)` sets position, orientation and velocities of the estimate to those of `k`, whatever the representation of its
orientation; with `resetForces` the wrenches of the contacts are set to zero; every other component is kept. `getKinematics()` then gives `k`. -/
theorem C103_setStateKinematics {l : List Op} (h : Reachable nc ni l o) {k : Kin} {p v w : V3} {R : M3} {x y : Option V3}
    (hk : k.Has ⟨some p, some R, some v, some w, x, y⟩) {f r : Bool} (e : o.setStateKinematics k f r = .ok o') :
    Comp.position.Is o' (coords p) ∧ (∃ q : Quat, q.normSq = 1 ∧ q.toMat = R ∧ Comp.orientation.Is o' (coeffs q)) ∧ Comp.linVel.Is o' (coords v) ∧
    Comp.angVel.Is o' (coords w) ∧ o'.getKinematics.Has ⟨some p, some R, some v, some w, x, y⟩ ∧
    (f = true → ∀ n, IsSet o n → (Comp.contactForce n).Is o' [0, 0, 0] ∧ (Comp.contactTorque n).Is o' [0, 0, 0]) ∧
    ∀ c : Comp, c.isKine = false → (f = false ∨ c.isContactWrench = false) → c.Kept o o' := by
  classical
  have hi := inv_reachable h
  have hi' := inv_setStateKinematics hi e
  obtain ⟨q, k', h1, h2, r1, hc, hkin, -, -, a1, a2⟩ := setStateKinematics_ok hi hk e
  refine ⟨(is3 (c := .position) hi' rfl p).2 ⟨trivial, fun j hj => ?_⟩, ⟨q, h1, h2, (is4 (c := .orientation) hi' rfl q).2 ⟨trivial, ?_⟩⟩,
    (is3 (c := .linVel) hi' rfl v).2 ⟨trivial, fun j hj => ?_⟩, (is3 (c := .angVel) hi' rfl w).2 ⟨trivial, fun j hj => ?_⟩, ?_, ?_, ?_⟩
  · simp only [off, zero_add]
    rw [a1 j (by omega)]
    interval_cases j <;> rfl
  · simp only [off]
    exact ⟨a1 3 (by omega), a1 4 (by omega), a1 5 (by omega), a1 6 (by omega)⟩
  · simp only [off]
    rw [a1 (7 + j) (by omega)]
    interval_cases j <;> rfl
  · simp only [off]
    rw [a1 (10 + j) (by omega)]
    interval_cases j <;> rfl
  · rw [getKinematics, hkin]
    exact ⟨hk.pos, r1, hk.linVel, hk.angVel, hk.linAcc, hk.angAcc⟩
  · intro hf n hn
    have key : ∀ j, 7 ≤ j → j < 13 → at1 o'.x (19 + 3 * ni + 13 * n + j) = 0 := fun j g1 g2 => by
      rw [a2 _ (by omega), if_pos ⟨hf, (inWrench_iff hi _).2 ⟨n, hn, by omega, by omega⟩⟩]
    have z : ∀ j (hj : j < 3), (0 : V3) ⟨j, hj⟩ = 0 := fun j hj => rfl
    refine ⟨(is3 (c := .contactForce n) hi' rfl 0).2 ⟨(isSet_contacts hc n).2 hn, fun j hj => ?_⟩,
      (is3 (c := .contactTorque n) hi' rfl 0).2 ⟨(isSet_contacts hc n).2 hn, fun j hj => ?_⟩⟩
    · simp only [off]
      rw [add_assoc, key _ (by omega) (by omega)]; rfl
    · simp only [off]
      rw [add_assoc, key _ (by omega) (by omega)]; rfl
  · intro c g1 g2
    refine kept_of hi hi' c (exists_contacts hc c) fun he j j1 j2 => ?_
    have j13 : 13 ≤ j := by
      cases c <;> simp only [Comp.isKine, reduceCtorEq] at g1 <;> simp only [off] at j1 <;> omega
    rw [a2 j j13, if_neg]
    rintro ⟨rfl, hw⟩
    obtain ⟨n, hn, n1, n2⟩ := (inWrench_iff hi j).1 hw
    simp only [Bool.true_eq_false, false_or] at g2
    have hv := he.valid hi
    have hn' := isSet_lt hi hn
    have d1 := off_disjoint hv (d := .contactForce n) hn' (by rintro rfl; cases g2)
    have d2 := off_disjoint hv (d := .contactTorque n) hn' (by rintro rfl; cases g2)
    simp only [show off ni (.contactForce n) = 19 + 3 * ni + 13 * n + 7 from rfl, show off ni (.contactTorque n) = 19 + 3 * ni + 13 * n + 10 from rfl,
      show (Comp.contactForce n).size = 3 from rfl, show (Comp.contactTorque n).size = 3 from rfl] at d1 d2
    omega

/-- The components of the contact `n`. -/
def Comp.ofContact (n : ℕ) : Comp → Bool
  | .contactPosition m | .contactOrientation m | .contactForce m | .contactTorque m => decide (m = n)
  | _ => false

/-- **C103** `addContact(pose)` puts the pose of the new contact `n` into the estimate, with no wrench, keeps every other component, and the kinematics. -/
theorem C103_addContact {l : List Op} (h : Reachable nc ni l o) {pose : Kin} {p : V3} {R : M3} {v w x y : Option V3}
    (hp : pose.Has ⟨some p, some R, v, w, x, y⟩) {cov : Option (M12 × M12)} {num : Int} {vi : Visco} {n : ℕ}
    (e : o.addContact pose cov num vi = .ok (n, o')) :
    (Comp.contactPosition n).Is o' (coords p) ∧ (∃ q : Quat, q.normSq = 1 ∧ q.toMat = R ∧ (Comp.contactOrientation n).Is o' (coeffs q)) ∧
    (Comp.contactForce n).Is o' [0, 0, 0] ∧ (Comp.contactTorque n).Is o' [0, 0, 0] ∧
    (∀ c : Comp, c.ofContact n = false → c.Kept o o') ∧ o'.getKinematics = o.getKinematics := by
  have hi := inv_reachable h
  have hi' : Inv nc ni o' := inv_exec (.addContact pose cov num vi) hi (by simp only [Op.exec, e]; rfl)
  obtain ⟨q, c0, h1, h2, hc0, hs0, ⟨c1, hs1, hc1⟩, hkin, -, a1, a2⟩ := addContact_ok hi hp e
  have hlen : n < o.contacts.length := (List.getElem?_eq_some_iff.1 hc0).1
  have hset : IsSet o' n := ⟨c1, by rw [hc1, List.getElem?_set_self hlen], hs1⟩
  have hoth : ∀ m, m ≠ n → (IsSet o' m ↔ IsSet o m) := fun m hm => by rw [IsSet, IsSet, hc1, List.getElem?_set_ne (Ne.symm hm)]
  refine ⟨(is3 (c := .contactPosition n) hi' rfl p).2 ⟨hset, fun j hj => ?_⟩, ⟨q, h1, h2, (is4 (c := .contactOrientation n) hi' rfl q).2 ⟨hset, ?_⟩⟩,
    (is3 (c := .contactForce n) hi' rfl 0).2 ⟨hset, fun j hj => ?_⟩, (is3 (c := .contactTorque n) hi' rfl 0).2 ⟨hset, fun j hj => ?_⟩, ?_, hkin⟩
  · simp only [off]
    rw [a2 j (by omega)]
    interval_cases j <;> rfl
  · simp only [off, add_assoc]
    simp only [add_assoc] at a2
    exact ⟨a2 3 (by omega), a2 4 (by omega), a2 5 (by omega), a2 6 (by omega)⟩
  · simp only [off]
    rw [add_assoc, a2 (7 + j) (by omega)]
    interval_cases j <;> rfl
  · simp only [off]
    rw [add_assoc, a2 (10 + j) (by omega)]
    interval_cases j <;> rfl
  · intro c hc
    have hex : Exists o' ni c ↔ Exists o ni c := by
      cases c <;> first | exact Iff.rfl | exact hoth _ (by simpa [Comp.ofContact] using hc)
    refine kept_of hi hi' c hex fun he j j1 j2 => a1 j ?_
    have hn : n < nc := isSet_lt hi' hset
    have hv := he.valid hi
    have key : ∀ m, m ≠ n → 13 * m + 13 ≤ 13 * n ∨ 13 * n + 13 ≤ 13 * m := fun m hm => by omega
    cases c <;> simp only [Comp.ofContact, decide_eq_false_iff_not, off, Comp.size, Comp.Valid] at hc j1 j2 hv
    any_goals (have := key _ hc)
    all_goals omega

/-- **C103** `getContactWrench(n)` gives the force and the torque of the contact `n` of the estimate, when it has been added, and only then. -/
theorem C103_getContactWrench {l : List Op} (h : Reachable nc ni l o) (n : ℕ) (w : V6) :
    o.getContactWrench n = .ok w ↔ (Comp.contactForce n).Is o [w 0, w 1, w 2] ∧ (Comp.contactTorque n).Is o [w 3, w 4, w 5] := by
  have hi := inv_reachable h
  have e1 := is3 (c := .contactForce n) hi rfl ![w 0, w 1, w 2]
  have e2 := is3 (c := .contactTorque n) hi rfl ![w 3, w 4, w 5]
  refine Iff.trans ?_ (and_congr e1 e2).symm
  simp only [getContactWrench, Res.bind_eq_ok]
  have key : (∃ i, o.contactWrenchIndex n = .ok i ∧ o.x.seg 6 i = .ok w) ↔
      IsSet o n ∧ ∀ j (hj : j < 6), at1 o.x (19 + 3 * ni + 13 * n + 7 + j) = w ⟨j, hj⟩ := by
    constructor
    · rintro ⟨i, g1, g2⟩
      obtain ⟨hs, rfl⟩ := (start_eq hi (.contactForce n) i).1 g1
      refine ⟨hs, fun j hj => ?_⟩
      have := isSet_lt hi hs
      exact (seg_iff (by rw [hi.2.xSize]; simp only [off]; omega)).1 g2 ⟨j, hj⟩
    · rintro ⟨hs, g⟩
      have := isSet_lt hi hs
      refine ⟨_, (start_eq hi (.contactForce n) _).2 ⟨hs, rfl⟩, (seg_iff (by rw [hi.2.xSize]; simp only [off]; omega)).2 fun j => g j j.2⟩
  rw [key, split6]
  simp only [Exists, off, show 19 + 3 * ni + 13 * n + 10 = 19 + 3 * ni + 13 * n + 7 + 3 by omega]
  tauto

/-- **C103** `getContactPosition(n)` gives the pose of the contact `n` of the estimate, and no other field. -/
theorem C103_getContactPosition {l : List Op} (h : Reachable nc ni l o) {n : ℕ} {p : V3} {q : Quat} (hp : (Comp.contactPosition n).Is o (coords p))
    (hq : (Comp.contactOrientation n).Is o (coeffs q)) :
    ∃ k, o.getContactPosition n = .ok k ∧ k.pos.read dbg = .ok p ∧ (∃ k', k.ori.toQuaternion = .ok (q, k')) ∧ (∃ k', k.ori.toMatrix3 = .ok (q.toMat, k')) ∧
      k.linVel.isSet dbg = false ∧ k.angVel.isSet dbg = false ∧ k.linAcc.isSet dbg = false ∧ k.angAcc.isSet dbg = false := by
  have hi := inv_reachable h
  obtain ⟨hs, g1⟩ := (is3 (c := .contactPosition n) hi rfl p).1 hp
  obtain ⟨-, g2, g3, g4, g5⟩ := (is4 (c := .contactOrientation n) hi rfl q).1 hq
  have hn := isSet_lt hi hs
  have ei : o.contactIndex n = .ok (19 + 3 * ni + 13 * n) := (start_eq hi (.contactPosition n) _).2 ⟨hs, rfl⟩
  have hsz : 19 + 3 * ni + 13 * n + 13 ≤ o.x.size := by rw [hi.2.xSize]; omega
  simp only [off] at g1 g2 g3 g4 g5
  have key : ∀ i < 13, (List.ofFn fun j : Fin 13 => o.x.val ⟨19 + 3 * ni + 13 * n + j, by omega⟩).getD i 0 = at1 o.x (19 + 3 * ni + 13 * n + i) := by
    intro i hi
    rw [getD_ofFn _ hi, at1, dif_pos (by omega)]
  have e3 : Kin.seg3 (List.ofFn fun j : Fin 13 => o.x.val ⟨19 + 3 * ni + 13 * n + j, by omega⟩) 0 = p := by
    rw [Kin.seg3, key _ (by omega), key _ (by omega), key _ (by omega), g1 0 (by omega), g1 1 (by omega), g1 2 (by omega)]
    apply ext3 <;> rfl
  have e4 : Kin.seg4 (List.ofFn fun j : Fin 13 => o.x.val ⟨19 + 3 * ni + 13 * n + j, by omega⟩) 3 = ![q.x, q.y, q.z, q.w] := by
    rw [Kin.seg4, key _ (by omega), key _ (by omega), key _ (by omega), key _ (by omega), ← g2, ← g3, ← g4, ← g5]
  have sh : OriShows (Kin.new.ori.fromVector4 ![q.x, q.y, q.z, q.w]) q := ⟨rfl, fun hh => by cases hh⟩
  obtain ⟨k1, hk1, -⟩ := sh.toMatrix3
  refine ⟨⟨Kin.new.pos.assign p, Kin.new.ori.fromVector4 ![q.x, q.y, q.z, q.w], Kin.new.linVel, Kin.new.angVel, Kin.new.linAcc, Kin.new.angAcc⟩,
    ?_, rfl, ⟨_, sh.toQuaternion⟩, ⟨k1, hk1⟩, rfl, rfl, rfl, rfl⟩
  rw [getContactPosition, ei, Res.ok_bind, DVec.seg, dif_pos hsz]
  simp only [Res.ok_bind, Kin.fromVector, flagsPoseKine, Kin.loadItem, Kin.loadOri, List.length_ofFn, if_true, Nat.reduceAdd, Nat.reduceLeDiff, zero_add,
    Bool.false_eq_true, if_false, e3, e4]

/-- **C103** For a contact that has not been added (or has been removed) nothing is given. -/
theorem C103_getContactPosition_only {l : List Op} (h : Reachable nc ni l o) {n : ℕ} {k : Kin} (e : o.getContactPosition n = .ok k) :
    ∃ v, (Comp.contactPosition n).Is o v := by
  have hi := inv_reachable h
  simp only [getContactPosition, Res.bind_eq_ok] at e
  obtain ⟨i, h1, s, h2, -⟩ := e
  obtain ⟨hs, rfl⟩ := (start_eq hi (.contactPosition n) i).1 h1
  exact ⟨_, (is3 (c := .contactPosition n) hi rfl fun j => at1 o.x (off ni (.contactPosition n) + j)).2 ⟨hs, fun j hj => rfl⟩⟩

/-- **C103** The calls that are not made to change the estimate keep its vector, and all but `estimateAccelerations()` the kinematics. -/
theorem C103_others {l : List Op} (h : Reachable nc ni l o) (hc : ∀ op ∈ l, op.Coherent) (op : Op) (hs : op.setsState = false) (e : op.exec o = .ok o') :
    o'.getCurrentStateVector = o.getCurrentStateVector ∧ (op ≠ .estimateAccelerations → o'.getKinematics = o.getKinematics) := by
  by_cases ha : op = .estimateAccelerations
  · subst ha
    refine ⟨?_, fun hh => absurd rfl hh⟩
    have := (estimateAccelerations_shows (shows_reachable h hc) e).1
    rw [getCurrentStateVector, this, getCurrentStateVector]
  · have := shown_other op hs ha e
    injection this with e1 e2
    injection e2 with e2 e3
    exact ⟨e1, fun _ => e2⟩

/-- **C103** In every state of the observer, `getKinematics()` agrees with the state vector. -/
theorem C103_kinematics {l : List Op} (h : Reachable nc ni l o) (hc : ∀ op ∈ l, op.Coherent) : KineShown o := by
  have hi := inv_reachable h
  have hs := shows_reachable h hc
  have r3 : ∀ {i : CItem V3} {v : V3}, i = ⟨true, some v⟩ → i.read dbg = .ok v := fun e => by rw [e]; rfl
  have f3 : ∀ (j : ℕ) (hj : j < 3) (b : ℕ), at1 o.x (b + j) = at3 o.x b ⟨j, hj⟩ := fun j hj b => by interval_cases j <;> rfl
  obtain ⟨k1, hk1, -⟩ := hs.ori.toMatrix3
  exact ⟨⟨_, r3 hs.pos, (is3 (c := .position) hi rfl _).2 ⟨trivial, fun j hj => f3 j hj _⟩⟩,
    ⟨_, _, _, hs.ori.toQuaternion, hk1, (is4 (c := .orientation) hi rfl _).2 ⟨trivial, rfl, rfl, rfl, rfl⟩⟩,
    ⟨_, r3 hs.linVel, (is3 (c := .linVel) hi rfl _).2 ⟨trivial, fun j hj => f3 j hj _⟩⟩,
    ⟨_, r3 hs.angVel, (is3 (c := .angVel) hi rfl _).2 ⟨trivial, fun j hj => f3 j hj _⟩⟩⟩

/-- **C103** `getKinematicsOf(k)` gives the kinematics, in the world, of a frame whose kinematics in the frame of the robot are `k`: when the estimate has the
position `p`, the unit quaternion `q` and the velocities `v`, `w`. -/
theorem C103_getKinematicsOf {l : List Op} (h : Reachable nc ni l o) (hc : ∀ op ∈ l, op.Coherent) {p v w : V3} {q : Quat} (hp : Comp.position.Is o (coords p))
    (hq : Comp.orientation.Is o (coeffs q)) (hv : Comp.linVel.Is o (coords v)) (hw : Comp.angVel.Is o (coords w)) (hu : q.normSq = 1)
    {k : Kin} {p' v' w' : V3} {R' : M3} {x y : Option V3} (hk : k.Has ⟨some p', some R', some v', some w', x, y⟩) :
    ∃ r a b, o.getKinematicsOf k = .ok r ∧
      r.Has ⟨some (p + q.toMat *ᵥ p'), some (q.toMat * R'), some (v + w ⨯₃ (q.toMat *ᵥ p') + q.toMat *ᵥ v'), some (w + q.toMat *ᵥ w'), a, b⟩ := by
  have hi := inv_reachable h
  have hs := shows_reachable h hc
  obtain ⟨-, g1⟩ := (is3 (c := .position) hi rfl p).1 hp
  obtain ⟨-, g2, g3, g4, g5⟩ := (is4 (c := .orientation) hi rfl q).1 hq
  obtain ⟨-, g6⟩ := (is3 (c := .linVel) hi rfl v).1 hv
  obtain ⟨-, g7⟩ := (is3 (c := .angVel) hi rfl w).1 hw
  obtain ⟨a, b, ha, hb⟩ := accs_reachable h hc
  have e1 : at3 o.x 0 = p := by apply ext3 <;> [exact g1 0 (by omega); exact g1 1 (by omega); exact g1 2 (by omega)]
  have e6 : at3 o.x 7 = v := by apply ext3 <;> [exact g6 0 (by omega); exact g6 1 (by omega); exact g6 2 (by omega)]
  have e7 : at3 o.x 10 = w := by apply ext3 <;> [exact g7 0 (by omega); exact g7 1 (by omega); exact g7 2 (by omega)]
  have e2 : (⟨at1 o.x 6, at1 o.x 3, at1 o.x 4, at1 o.x 5⟩ : Quat) = q := by
    simp only [off, Nat.reduceAdd] at g2 g3 g4 g5
    rw [g2, g3, g4, g5]
  have s1 := hs.pos
  have s2 := hs.ori
  have s3 := hs.linVel
  have s4 := hs.angVel
  rw [e1] at s1
  rw [e2] at s2
  rw [e6] at s3
  rw [e7] at s4
  have hh : o.stateKin.Has ⟨some p, some q.toMat, some v, some w, a, b⟩ := ⟨s1, s2.rep hu, s3, s4, ha, hb⟩
  obtain ⟨r, k1, k2, e, hr, -, -⟩ := Kin.product_spec (k := Kin.new) hh hk rfl (Or.inl rfl)
  have : Kin.mulValue ⟨some p, some q.toMat, some v, some w, a, b⟩ ⟨some p', some R', some v', some w', x, y⟩ =
      ⟨some (p + q.toMat *ᵥ p'), some (q.toMat * R'), some (v + w ⨯₃ (q.toMat *ᵥ p') + q.toMat *ᵥ v'), some (w + q.toMat *ᵥ w'),
        (Kin.mulValue ⟨some p, some q.toMat, some v, some w, a, b⟩ ⟨some p', some R', some v', some w', x, y⟩).linAcc,
        (Kin.mulValue ⟨some p, some q.toMat, some v, some w, a, b⟩ ⟨some p', some R', some v', some w', x, y⟩).angAcc⟩ := by
    ext1
    · exact congrArg some (add_comm _ _)
    · rfl
    · exact congrArg some (by abel)
    · exact congrArg some (add_comm _ _)
    · rfl
    · rfl
  rw [this] at hr
  refine ⟨r, (Kin.mulValue ⟨some p, some q.toMat, some v, some w, a, b⟩ ⟨some p', some R', some v', some w', x, y⟩).linAcc,
    (Kin.mulValue ⟨some p, some q.toMat, some v, some w, a, b⟩ ⟨some p', some R', some v', some w', x, y⟩).angAcc, ?_, hr⟩
  rw [getKinematicsOf, Kin.product, e]; rfl

end StateObs.KO
