import Verif.KO.SensorSpec
import Verif.KO.InertLemmas
/-!
# The predicted measurements (lemmas for C108)
-/

namespace StateObs.KO
open StateObs Matrix Rot Kine KF
open Observer

variable {nc ni : ℕ} {o o' : Observer}

/-- The value of mounted kinematics (helper). -/
def Mounted.value (l : Mounted) (y : Option V3) : Value := ⟨some l.p, some l.R, some l.v, some l.w, some l.a, y⟩
/-- The value of the kinematics of the robot (helper). -/
def Moving6.value (r : Moving6) : Value := ⟨some r.p, some r.R, some r.v, some r.w, some r.a, some r.α⟩

theorem gravity_eq : gravity = ![0, 0, 9.8] := rfl

theorem measureIMU_value {m : IMU} {b b' : Buf} {k k' : Kin} {L : List ℝ} {r : Moving6} {l : Mounted} (hb : b.Holds L) (hk : k.Has r.value) (ht : m.time = o.kData)
    (hi : m.measIndex = some L.length) (hm : m.MountedAt l) (h : measureIMU o (b, k) m = .ok (b', k')) :
    b'.Holds (L ++ (List.ofFn (accelerometer r l) ++ List.ofFn (gyrometer r l))) ∧ b'.size = b.size ∧ k'.Has r.value := by
  obtain ⟨y', hm⟩ := hm
  obtain ⟨g, g1, g2, eg, hg, hg1, -⟩ := Kin.product_spec (k := Kin.new) hk hm rfl (Or.inl rfl)
  obtain ⟨og, eS, -⟩ := Ori.Rep.toMatrix3 (R := r.R * l.R) hg.ori
  have e1 : g.linAcc.read dbg = .ok (r.R *ᵥ l.a + r.α ⨯₃ (r.R *ᵥ l.p) + r.w ⨯₃ (r.w ⨯₃ (r.R *ᵥ l.p) + r.R *ᵥ l.v + r.R *ᵥ l.v) + r.a) := hg.linAcc.read
  have e2 : g.angVel.read dbg = .ok (r.R *ᵥ l.w + r.w) := hg.angVel.read
  unfold measureIMU at h
  rw [if_pos ht, Kin.product, eg] at h
  simp only [Res.ok_bind, eS, hi, rd, e1, e2, Res.bind_eq_ok] at h
  obtain ⟨b1, q1, b2, q2, h⟩ := h
  cases h
  have p1 := hb.setSeg q1
  have l1 : ∀ v : V3, (L ++ List.ofFn v).length = L.length + 3 := fun v => by simp
  have p2 := p1.1.setSeg (by rw [l1]; exact q2)
  refine ⟨?_, p2.2.trans p1.2, hg1⟩
  have a1 : accelerometer r l = (r.R * l.R)ᵀ *ᵥ (r.R *ᵥ l.a + r.α ⨯₃ (r.R *ᵥ l.p) + r.w ⨯₃ (r.w ⨯₃ (r.R *ᵥ l.p) + r.R *ᵥ l.v + r.R *ᵥ l.v) + r.a + gravity) := by
    rw [accelerometer, originAcc, gravity_eq]
    congr 2
    rw [two_smul]
    simp only [cross_add]
    abel
  have a2 : gyrometer r l = (r.R * l.R)ᵀ *ᵥ (r.R *ᵥ l.w + r.w) := by rw [gyrometer, add_comm]
  rw [a1, a2, ← List.append_assoc]
  exact p2.1

theorem measureIMUs_value {r : Moving6} {l : ℕ → Mounted} : ∀ {L : List IMU} {n : ℕ} {b b' : Buf} {k k' : Kin} {q : List ℝ} {e : ℕ}, b.Holds q → k.Has r.value →
    TiledI o.kData L q.length e → (∀ (i : ℕ) (m : IMU), L[i]? = some m → m.time = o.kData → m.MountedAt (l (n + i))) → L.foldlM (measureIMU o) (b, k) = .ok (b', k') →
    b'.Holds (q ++ imuReadings (fun i => List.ofFn (accelerometer r (l i)) ++ List.ofFn (gyrometer r (l i))) o.kData n L) ∧
      (q ++ imuReadings (fun i => List.ofFn (accelerometer r (l i)) ++ List.ofFn (gyrometer r (l i))) o.kData n L).length = e ∧ b'.size = b.size
  | [], n, b, b', k, k', q, e, hb, _, ht, _, h => by
    cases h
    rw [imuReadings, List.append_nil]
    exact ⟨hb, ht, rfl⟩
  | m :: L, n, b, b', k, k', q, e, hb, hk, ht, hm, h => by
    rw [List.foldlM_cons, Res.bind_eq_ok] at h
    obtain ⟨⟨b1, k1⟩, h1, h2⟩ := h
    have hm' : ∀ (i : ℕ) (m : IMU), L[i]? = some m → m.time = o.kData → m.MountedAt (l (n + 1 + i)) := fun i m h3 h4 => by
      rw [add_assoc, add_comm 1 i]
      exact hm (i + 1) m (by simpa using h3) h4
    unfold TiledI at ht
    unfold imuReadings
    split_ifs at ht ⊢ with htm
    · obtain ⟨p1, p2, p3⟩ := measureIMU_value hb hk htm ht.1 (hm 0 m rfl htm) h1
      rw [Nat.add_zero] at p1
      obtain ⟨p4, p5, p6⟩ := measureIMUs_value p1 p3 (by simpa [add_assoc] using ht.2) hm' h2
      rw [← List.append_assoc]
      exact ⟨p4, p5, p6.trans p2⟩
    · rw [measureIMU, if_neg htm] at h1
      cases h1
      exact measureIMUs_value hb hk ht hm' h2

theorem contact_wrench {x : DVec} {a : ℕ} {w : Fin 6 → ℝ} (h : x.seg 6 (a + 7) = .ok w) : List.ofFn w = List.ofFn (at3 x (a + 7)) ++ List.ofFn (at3 x (a + 10)) := by
  obtain ⟨hs, hw⟩ := DVec.seg_ok h
  have e : ∀ (i : ℕ) (hi : i < 6), w ⟨i, hi⟩ = at1 x (a + 7 + i) := fun i hi => by
    rw [hw, at1, dif_pos (by omega)]
  rw [at3_eq, at3_eq]
  rw [show w = ![at1 x (a + 7), at1 x (a + 7 + 1), at1 x (a + 7 + 2), at1 x (a + 10), at1 x (a + 10 + 1), at1 x (a + 10 + 2)] by
    funext i
    fin_cases i
    · exact e 0 (by omega)
    · exact e 1 (by omega)
    · exact e 2 (by omega)
    · exact e 3 (by omega)
    · exact e 4 (by omega)
    · exact e 5 (by omega)]
  rfl

theorem measureContacts_value {x : DVec} : ∀ {L : List Contact} {n : ℕ} {b b' : Buf} {q : List ℝ} {e : ℕ}, b.Holds q → TiledC L q.length e →
    (∀ (i : ℕ) (c : Contact), L[i]? = some c → c.withRealSensor = true → c.isSet = true ∧ c.time = o.kData ∧ c.index = .ok (19 + 3 * ni + 13 * (n + i))) →
    L.foldlM (measureContact o x) b = .ok b' →
    b'.Holds (q ++ contactReadings (fun n => List.ofFn (contactForce ni n x) ++ List.ofFn (contactTorque ni n x)) n L) ∧ b'.size = b.size
  | [], n, b, b', q, e, hb, _, _, h => by
    cases h
    rw [contactReadings, List.append_nil]
    exact ⟨hb, rfl⟩
  | c :: L, n, b, b', q, e, hb, ht, hc, h => by
    rw [List.foldlM_cons, Res.bind_eq_ok] at h
    obtain ⟨b1, h1, h2⟩ := h
    have hc' : ∀ (i : ℕ) (c : Contact), L[i]? = some c → c.withRealSensor = true → c.isSet = true ∧ c.time = o.kData ∧ c.index = .ok (19 + 3 * ni + 13 * (n + 1 + i)) := fun i m h3 h4 => by
      rw [add_assoc n, add_comm 1 i]
      exact hc (i + 1) m (by simpa using h3) h4
    unfold TiledC at ht
    unfold contactReadings
    split_ifs at ht ⊢ with htm
    · obtain ⟨c1, c2, c3⟩ := hc 0 c rfl htm
      rw [measureContact, if_pos ⟨c1, c2, htm⟩, c3, Res.ok_bind, Res.bind_eq_ok] at h1
      obtain ⟨w, ew, h1⟩ := h1
      rw [ht.1, rd, Res.ok_bind] at h1
      have p1 := hb.setSeg h1
      rw [contact_wrench ew, Nat.add_zero] at p1
      obtain ⟨p4, p6⟩ := measureContacts_value p1.1 (by simpa [add_assoc] using ht.2) hc' h2
      rw [← List.append_assoc]
      exact ⟨p4, p6.trans p1.2⟩
    · rw [measureContact, if_neg (by tauto)] at h1
      cases h1
      exact measureContacts_value hb ht hc' h2

theorem addWrench_congr {x : DVec} : ∀ {L L' : List Contact} {w : V3 × V3}, List.Forall₂ (fun c c' => ∃ j, c' = { c with measIndex := j }) L L' →
    L'.foldlM (addContactWrench x) w = L.foldlM (addContactWrench x) w
  | _, _, _, .nil => rfl
  | _, _, w, .cons (a := c) (b := c') (l₁ := L) (l₂ := L') ⟨j, hj⟩ t => by
    have e : addContactWrench x w c' = addContactWrench x w c := by subst hj; rfl
    rw [List.foldlM_cons, List.foldlM_cons, e]
    cases h : addContactWrench x w c
    · exact addWrench_congr t
    all_goals rfl

/-- The accelerations do not depend on the ones that the kinematics have. -/
theorem computeAccelerations_given {k k' : Kin} {F M a α : V3} {R : M3} {ω : V3} (ho : k.ori.Rep R) (hw : k.angVel = ⟨true, some ω⟩)
    (h : o.computeAccelerations k F M = .ok (a, α, k')) :
    ∃ b, o.body = .ok b ∧ α = R *ᵥ localAngAcc b o.mass (Rᵀ *ᵥ ω) F M ∧
      a = R *ᵥ ((1 / o.mass) • F - b.comdd - corioCentri b (Rᵀ *ᵥ ω) + b.com ⨯₃ (Rᵀ *ᵥ α)) - gravity ∧ ∃ q, k' = { k with ori := q } ∧ q.Rep R := by
  unfold computeAccelerations at h
  obtain ⟨o1, h1, r1⟩ := ho.toMatrix3
  have ew : k.angVel.read dbg = .ok ω := by rw [hw]; exact (show Item ⟨true, some ω⟩ (some ω) from rfl).read
  rw [h1] at h
  simp only [Res.ok_bind, ew] at h
  obtain ⟨b, hb, h⟩ := Res.bind_eq_ok.1 h
  split_ifs at h with hc
  obtain ⟨o2, h2, r2⟩ := r1.rotate (localAngAcc b o.mass (Rᵀ *ᵥ ω) F M)
  rw [h2] at h
  simp only [Res.ok_bind] at h
  obtain ⟨o3, h3, r3⟩ := r2.rotate ((1 / o.mass) • F - b.comdd - corioCentri b (Rᵀ *ᵥ ω) + b.com ⨯₃ (Rᵀ *ᵥ (R *ᵥ localAngAcc b o.mass (Rᵀ *ᵥ ω) F M)))
  rw [h3] at h
  simp only [Res.ok_bind, Res.ok.injEq, Prod.mk.injEq] at h
  obtain ⟨rfl, rfl, rfl⟩ := h
  exact ⟨b, hb, rfl, rfl, o3, rfl, r3⟩

/-- The kinematics from which the measurements are predicted are the ones of `RobotIn`. -/
theorem stateKine_value {x : DVec} {r : Moving6} {k : Kin} {oy : Observer} (hq : (stateOri x).normSq = 1) (hr : RobotIn o x r)
    (hw : ∀ w, oy.addUnmodeledAndContactWrench x w = o.addUnmodeledAndContactWrench x w) (hf : oy.addForce = o.addForce) (ht : oy.addTorque = o.addTorque)
    (hbd : oy.body = o.body) (hms : oy.mass = o.mass) (h : oy.stateKine x = .ok k) : k.Has r.value := by
  obtain ⟨o1, o2, e1, e2, hk⟩ := hr
  simp only [setStateVector, Res.bind_eq_ok, Bool.false_eq_true, if_false] at e1
  obtain ⟨o3, h1, o4, h2, h3⟩ := e1
  cases h3
  obtain ⟨e3, -⟩ := pushState_x h1
  have e4 := updateKine_shows h2
  obtain ⟨ekf, e5⟩ : ∃ e, o1 = { o with x := x, ekf := e, stateKin := loaded o.stateKin x } := ⟨o3.ekf, by rw [e4, e3]⟩
  clear h1 h2 e3 e4
  subst e5
  simp only [estimateAccelerations, Res.bind_eq_ok] at e2
  obtain ⟨W, ew, ⟨a, α, k1⟩, ec, e2⟩ := e2
  cases e2
  have ew' : o.addUnmodeledAndContactWrench x (o.addForce, o.addTorque) = .ok W := ew
  have ec' : o.computeAccelerations (loaded o.stateKin x) W.1 W.2 = .ok (a, α, k1) := ec
  have l0 : ∀ k : Kin, (loaded k x).ori.Rep (stateOri x).toMat := fun k => Ori.rep_q (q := stateOri x) hq rfl
  obtain ⟨b, g1, g2, g3, q, rfl, g4⟩ := computeAccelerations_given (l0 _) rfl ec'
  simp only [stateKine, hw, hf, ht, ew', Res.ok_bind, Res.bind_eq_ok] at h
  obtain ⟨s, es, k2, ek, ⟨a', α', k3⟩, ec2, h⟩ := h
  cases h
  rw [fromVector_loaded _ es] at ek
  cases ek
  obtain ⟨b', g1', g2', g3', q', rfl, g4'⟩ := computeAccelerations_given (l0 _) rfl ec2
  rw [hbd] at g1'
  obtain rfl := Res.ok.inj (g1.symm.trans g1')
  rw [hms] at g2' g3'
  obtain rfl : α' = α := by rw [g2, g2']
  obtain rfl : a' = a := by rw [g3, g3']
  have hv := hk.inj (a := r.value) (b := ⟨some (at3 x 0), some (stateOri x).toMat, some (at3 x 7), some (at3 x 10), some a', some α'⟩) ⟨rfl, g4, rfl, rfl, rfl, rfl⟩
  rw [hv]
  exact ⟨rfl, g4', rfl, rfl, rfl, rfl⟩

end StateObs.KO
