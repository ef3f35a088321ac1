import Verif.KO.ClientProps
import Mathlib.Data.List.Nodup
/-!
# Property C130: the order in which the data of an iteration are given to the kinetics observer
-/

namespace StateObs.KO
open StateObs Matrix Rot Kine KF

/-- What a call gives data for. -/
inductive Item where
  | imu (n : Int)
  | contact (n : ℕ)
  | pose
  | inertia
  | com
  | momentum
  deriving DecidableEq

/-- The calls that give data of the current iteration (sensors with an explicit number, and inputs), and what they give data for. -/
inductive Gives : Op → Item → Prop where
  | imu (a g c k) (n : Int) (hn : 0 ≤ n) : Gives (.setIMU a g c k n) (.imu n)
  | wrench (w c k n) : Gives (.updateContactWithWrenchSensor w c k n) (.contact n)
  | contact (k n) : Gives (.updateContactWithNoSensor k n) (.contact n)
  | pose (k c) : Gives (.setAbsolutePoseSensor k c) .pose
  | inertia2 (I d) : Gives (.setInertiaMatrix2 I d) .inertia
  | inertia (I) : Gives (.setInertiaMatrix I) .inertia
  | inertiaVector2 (I d) : Gives (.setInertiaVector2 I d) .inertia
  | inertiaVector (I) : Gives (.setInertiaVector I) .inertia
  | com3 (c d e) : Gives (.setCenterOfMass3 c d e) .com
  | com2 (c d) : Gives (.setCenterOfMass2 c d) .com
  | com (c) : Gives (.setCenterOfMass c) .com
  | momentum2 (s d) : Gives (.setAngularMomentum2 s d) .momentum
  | momentum (s) : Gives (.setAngularMomentum s) .momentum

/-- A list of such calls, and what they give data for. -/
inductive AllGive : List Op → List Item → Prop where
  | nil : AllGive [] []
  | cons {a i l is} (h : Gives a i) (t : AllGive l is) : AllGive (a :: l) (i :: is)

/-! ## The part of the observer that a call reads and writes -/

/-- What the calls read and do not write. -/
structure Env where
  kData : Int
  dt : ℝ
  maxIMU : ℕ
  maxContacts : ℕ
  accCov : M3
  gyroCov : M3
  wrenchCov : M6
  absCov : M6

def Observer.env (o : Observer) : Env := ⟨o.kData, o.dt, o.maxIMU, o.maxContacts, o.accCov, o.gyroCov, o.wrenchCov, o.absCov⟩

/-- The effect of a call. -/
inductive Act where
  | imu (n : ℕ) (f : Env → Option IMU → Res IMU)
  | contact (n : ℕ) (f : Env → Option Contact → Res (Contact × Int))
  | pose (f : Env → AbsPose → AbsPose)
  | inertia (f : Env → Option (M3 × Int) → Option (M3 × Int) → Res (Option (M3 × Int) × Option (M3 × Int)))
  | com (f : Env → Option (V3 × Int) → Option (V3 × Int) → Option (V3 × Int) → Res (Option (V3 × Int) × Option (V3 × Int) × Option (V3 × Int)))
  | momentum (f : Env → Option (V3 × Int) → Option (V3 × Int) → Res (Option (V3 × Int) × Option (V3 × Int)))

namespace Act

def item : Act → Item
  | imu n _ => .imu n
  | contact n _ => .contact n
  | pose _ => .pose
  | inertia _ => .inertia
  | com _ => .com
  | momentum _ => .momentum

def run : Act → Observer → Res Observer
  | imu n f, o => do
    let m ← f o.env o.imus[n]?
    .ok { o with imus := o.imus.set n m, nIMU := o.nIMU + 1 }
  | contact n f, o => do
    let c ← f o.env o.contacts[n]?
    .ok { o with contacts := o.contacts.set n c.1, nReal := o.nReal + c.2 }
  | pose f, o => .ok { o with abs := f o.env o.abs }
  | inertia f, o => do
    let r ← f o.env o.inertia o.inertiad
    .ok { o with inertia := r.1, inertiad := r.2 }
  | com f, o => do
    let r ← f o.env o.com o.comd o.comdd
    .ok { o with com := r.1, comd := r.2.1, comdd := r.2.2 }
  | momentum f, o => do
    let r ← f o.env o.sigma o.sigmad
    .ok { o with sigma := r.1, sigmad := r.2 }

theorem run_keeps {a : Act} {o o' : Observer} (h : a.run o = .ok o') : o'.kEst = o.kEst ∧ o'.kData = o.kData := by
  cases a <;> simp only [run, Res.bind_eq_ok, Res.ok.injEq] at h
  case pose f => subst h; exact ⟨rfl, rfl⟩
  all_goals
    obtain ⟨x, -, rfl⟩ := h
    exact ⟨rfl, rfl⟩

theorem comm {a b : Act} (hab : a.item ≠ b.item) {o o1 o2 : Observer} (h1 : a.run o = .ok o1) (h2 : b.run o1 = .ok o2) :
    ∃ o1', b.run o = .ok o1' ∧ a.run o1' = .ok o2 := by
  cases a <;> cases b <;> simp only [item, ne_eq, not_true_eq_false, Item.imu.injEq, Item.contact.injEq, Nat.cast_inj] at hab <;>
    simp only [run, Res.bind_eq_ok, Res.ok.injEq] at h1 h2 ⊢
  case imu.imu n f n' g =>
    obtain ⟨x, hx, rfl⟩ := h1
    obtain ⟨y, hy, rfl⟩ := h2
    simp only [List.getElem?_set_ne hab] at hy
    refine ⟨_, ⟨y, hy, rfl⟩, x, ?_, ?_⟩
    · simp only [List.getElem?_set_ne (Ne.symm hab)]
      exact hx
    · simp only [List.set_comm _ _ hab]
  case contact.contact n f n' g =>
    obtain ⟨x, hx, rfl⟩ := h1
    obtain ⟨y, hy, rfl⟩ := h2
    simp only [List.getElem?_set_ne hab] at hy
    refine ⟨_, ⟨y, hy, rfl⟩, x, ?_, ?_⟩
    · simp only [List.getElem?_set_ne (Ne.symm hab)]
      exact hx
    · simp only [List.set_comm _ _ hab, add_right_comm]
  all_goals first
    | exact ⟨_, rfl, by subst h1; obtain ⟨y, hy, rfl⟩ := h2; exact ⟨y, hy, rfl⟩⟩
    | (obtain ⟨x, hx, rfl⟩ := h1
       obtain ⟨y, hy, rfl⟩ := h2
       exact ⟨_, ⟨y, hy, rfl⟩, x, hx, rfl⟩)
    | (obtain ⟨x, hx, rfl⟩ := h1
       subst h2
       exact ⟨_, rfl, x, hx, rfl⟩)
    | (subst h1
       obtain ⟨y, hy, rfl⟩ := h2
       exact ⟨_, ⟨y, hy, rfl⟩, rfl⟩)

end Act

theorem bind_same {α β : Type} {r : Res α} {k k' : α → Res β} (h : ∀ a, k a = k' a) : (r >>= k) = (r >>= k') := by rw [funext h]

theorem start_of {o o' : Observer} (hk : o'.kEst = o.startNewIteration.kEst ∧ o'.kData = o.startNewIteration.kData) : o'.startNewIteration = o' := by
  have h : o.startNewIteration.kEst ≠ o.startNewIteration.kData := by
    unfold Observer.startNewIteration
    split_ifs with h
    · simp [h]
    · exact h
  rw [Observer.startNewIteration, if_neg (by rw [hk.1, hk.2]; exact h)]

open Observer in
/-- The effect of every call. -/
theorem Gives.act {op : Op} {i : Item} (h : Gives op i) : ∃ a : Act, a.item = i ∧ ∀ o, Op.exec o op = a.run o.startNewIteration := by
  cases h with
  | imu a g c k n hn =>
    obtain ⟨n, rfl⟩ := Int.eq_ofNat_of_zero_le hn
    refine ⟨.imu n fun e x => do
      Res.assert (decide (n < e.maxIMU))
      let m ← rd x
      Res.assert (decide (m.time < e.kData))
      let kin ← ite (m.time = 0) (firstIMUKin k) (updateKin m.kin k (e.dt * ((e.kData - e.kData : Int) : ℝ)) flagsIMUKine)
      .ok { m with
        signal := some (signal6 a g)
        covAcc := match c with
          | some (a, _) => some a
          | none => if m.time = 0 then some e.accCov else m.covAcc
        covGyro := match c with
          | some (_, g) => some g
          | none => if m.time = 0 then some e.gyroCov else m.covGyro
        kin := kin
        time := e.kData }, rfl, fun o => ?_⟩
    simp only [Op.exec, setIMU, imuNumber, selectIMU, newIMUKin, Act.run, env]
    generalize o.startNewIteration = o1
    rw [if_neg (by omega)]
    simp only [Res.ok_bind, Res.bind_assoc, Int.toNat_natCast, Int.ofNat_eq_natCast]
    refine bind_same fun _ => bind_same fun m => bind_same fun _ => bind_same fun kin => ?_
    rcases c with _ | ⟨ca, cg⟩
    · dsimp only
      split_ifs <;> rfl
    · rfl
  | wrench w c k n =>
    refine ⟨.contact n fun e x => do
      Res.assert (decide (n < e.maxContacts))
      let m ← rd x
      Res.assert m.isSet
      let kin ← ite (m.time = e.kData - 1) (updateKin m.localKine k e.dt localKineFlags) (.ok k)
      .ok ({ m with
        localKine := kin
        wrench := some w
        time := e.kData
        sensorCov := match c with
          | some M => m.sensorCov.assign M
          | none => if m.sensorCov.isSet dbg then m.sensorCov else m.sensorCov.assign e.wrenchCov
        withRealSensor := true }, if m.withRealSensor then 0 else 1), rfl, fun o => ?_⟩
    simp only [Op.exec, updateContactWithWrenchSensor, selectContact, newContactKin, Act.run, env]
    generalize o.startNewIteration = o1
    simp only [Res.ok_bind, Res.bind_assoc]
    refine bind_same fun _ => bind_same fun m => bind_same fun _ => bind_same fun kin => ?_
    cases m.withRealSensor <;> simp <;> rfl
  | contact k n =>
    refine ⟨.contact n fun e x => do
      Res.assert (decide (n < e.maxContacts))
      let m ← rd x
      Res.assert m.isSet
      let kin ← ite (m.time = e.kData - 1) (updateKin m.localKine k e.dt localKineFlags) (.ok k)
      .ok ({ m with localKine := kin, time := e.kData, withRealSensor := false }, if m.withRealSensor then -1 else 0), rfl, fun o => ?_⟩
    simp only [Op.exec, updateContactWithNoSensor, selectContact, newContactKin, Act.run, env]
    generalize o.startNewIteration = o1
    simp only [Res.ok_bind, Res.bind_assoc]
    refine bind_same fun _ => bind_same fun m => bind_same fun _ => bind_same fun kin => ?_
    cases m.withRealSensor <;> simp [sub_eq_add_neg]
  | pose k c =>
    exact ⟨.pose fun e a => { a with
      time := e.kData
      pose := k
      cov := match c with
        | some M => a.cov.assign M
        | none => if a.cov.isSet dbg then a.cov else a.cov.assign e.absCov }, rfl, fun o => rfl⟩
  | inertia2 I d => exact ⟨.inertia fun e _ _ => .ok (some (I, e.kData), some (d, e.kData)), rfl, fun o => rfl⟩
  | inertiaVector2 I d => exact ⟨.inertia fun e _ _ => .ok (some (sym6 I, e.kData), some (sym6 d, e.kData)), rfl, fun o => rfl⟩
  | inertia I =>
    refine ⟨.inertia fun e i d => do
      let old ← ix i
      let d ← ite (old.2 < e.kData) (derivate old.1 I (e.dt * ((e.kData - old.2 : Int) : ℝ)) >>= fun v => .ok (some (v, e.kData))) (.ok d)
      .ok (some (I, e.kData), d), rfl, fun o => ?_⟩
    simp only [Op.exec, setInertiaMatrix, derived, Act.run, Res.bind_assoc, Res.ok_bind]
    rfl
  | inertiaVector I =>
    refine ⟨.inertia fun e i d => do
      let old ← ix i
      if old.2 < e.kData then do
        let v ← derivate (lower6 old.1) I (e.dt * ((e.kData - old.2 : Int) : ℝ))
        .ok (some (sym6 I, e.kData), some (sym6 v, e.kData))
      else .ok (some (sym6 I, e.kData), d), rfl, fun o => ?_⟩
    simp only [Op.exec, setInertiaVector, Act.run, Res.bind_assoc]
    refine bind_same fun old => ?_
    by_cases h : old.2 < o.startNewIteration.kData
    · rw [if_pos h, if_pos (show old.2 < o.startNewIteration.env.kData from h)]
      simp only [Res.bind_assoc, Res.ok_bind]
      rfl
    · rw [if_neg h, if_neg (show ¬ old.2 < o.startNewIteration.env.kData from h)]
      rfl
  | com3 c d e => exact ⟨.com fun v _ _ _ => .ok (some (c, v.kData), some (d, v.kData), some (e, v.kData)), rfl, fun o => rfl⟩
  | com2 c d =>
    refine ⟨.com fun e _ i a => do
      let old ← ix i
      let a ← ite (old.2 < e.kData) (derivate old.1 d (e.dt * ((e.kData - old.2 : Int) : ℝ)) >>= fun v => .ok (some (v, e.kData))) (.ok a)
      .ok (some (c, e.kData), some (d, e.kData), a), rfl, fun o => ?_⟩
    simp only [Op.exec, setCenterOfMass2, derived, Act.run, Res.bind_assoc, Res.ok_bind]
    rfl
  | com c =>
    refine ⟨.com fun e p v a => do
      let old ← ix p
      if old.2 < e.kData then do
        let d ← derivate old.1 c (e.dt * ((e.kData - old.2 : Int) : ℝ))
        let oldd ← ix v
        let b ← derivate oldd.1 d (e.dt * ((e.kData - old.2 : Int) : ℝ))
        .ok (some (c, e.kData), some (d, e.kData), some (b, e.kData))
      else .ok (some (c, e.kData), v, a), rfl, fun o => ?_⟩
    simp only [Op.exec, setCenterOfMass, Act.run, Res.bind_assoc]
    refine bind_same fun old => ?_
    by_cases h : old.2 < o.startNewIteration.kData
    · rw [if_pos h, if_pos (show old.2 < o.startNewIteration.env.kData from h)]
      simp only [Res.bind_assoc, Res.ok_bind]
      rfl
    · rw [if_neg h, if_neg (show ¬ old.2 < o.startNewIteration.env.kData from h)]
      rfl
  | momentum2 s d => exact ⟨.momentum fun e _ _ => .ok (some (s, e.kData), some (d, e.kData)), rfl, fun o => rfl⟩
  | momentum s =>
    refine ⟨.momentum fun e i d => do
      let old ← ix i
      let d ← ite (old.2 < e.kData) (derivate old.1 s (e.dt * ((e.kData - old.2 : Int) : ℝ)) >>= fun v => .ok (some (v, e.kData))) (.ok d)
      .ok (some (s, e.kData), d), rfl, fun o => ?_⟩
    simp only [Op.exec, setAngularMomentum, derived, Act.run, Res.bind_assoc, Res.ok_bind]
    rfl

theorem exec_comm {a b : Op} {i j : Item} (ha : Gives a i) (hb : Gives b j) (hij : i ≠ j) {o o1 o2 : Observer} (h1 : Op.exec o a = .ok o1)
    (h2 : Op.exec o1 b = .ok o2) : ∃ o1', Op.exec o b = .ok o1' ∧ Op.exec o1' a = .ok o2 := by
  obtain ⟨A, rfl, hA⟩ := ha.act
  obtain ⟨B, rfl, hB⟩ := hb.act
  rw [hA] at h1
  rw [hB, start_of (Act.run_keeps h1)] at h2
  obtain ⟨o1', h3, h4⟩ := Act.comm hij h1 h2
  exact ⟨o1', by rw [hB]; exact h3, by rw [hA, start_of (Act.run_keeps h3)]; exact h4⟩

/-- What a list of calls gives data for does not depend on their order. -/
theorem AllGive.perm {l l' : List Op} (hp : l.Perm l') : ∀ {is}, AllGive l is → ∃ is', AllGive l' is' ∧ is.Perm is' := by
  induction hp with
  | nil => intro is h; exact ⟨is, h, .refl _⟩
  | cons x _ ih =>
    rintro is (_ | ⟨h, t⟩)
    obtain ⟨is', h', hp⟩ := ih t
    exact ⟨_, .cons h h', hp.cons _⟩
  | swap x y l =>
    rintro is (_ | ⟨h, t⟩)
    rcases t with _ | ⟨h', t⟩
    exact ⟨_, .cons h' (.cons h t), .swap ..⟩
  | trans _ _ ih1 ih2 =>
    intro is h
    obtain ⟨is1, h1, p1⟩ := ih1 h
    obtain ⟨is2, h2, p2⟩ := ih2 h1
    exact ⟨is2, h2, p1.trans p2⟩

/-! ## Property -/

/-- **C130**. Calls that give data for different sensors and inputs can be made in any order: in another order they succeed as well, and the observer is the same
one afterwards. -/
theorem C130_order (o o' : Observer) (l l' : List Op) (is : List Item) (hl : AllGive l is) (hd : is.Nodup) (hp : l.Perm l') (h : Op.run o l = .ok o') :
    Op.run o l' = .ok o' := by
  induction hp generalizing o is with
  | nil => exact h
  | cons x _ ih =>
    obtain _ | ⟨h1, t⟩ := hl
    simp only [Op.run, List.foldlM_cons, Res.bind_eq_ok] at h ⊢
    obtain ⟨o1, h2, h3⟩ := h
    exact ⟨o1, h2, ih o1 _ t (List.nodup_cons.1 hd).2 h3⟩
  | swap x y l =>
    obtain _ | ⟨h1, t⟩ := hl
    obtain _ | ⟨h2, t⟩ := t
    simp only [Op.run, List.foldlM_cons, Res.bind_eq_ok] at h ⊢
    obtain ⟨o1, h3, o2, h4, h5⟩ := h
    obtain ⟨o3, h6, h7⟩ := exec_comm h1 h2 (fun e => by simp [e] at hd) h3 h4
    exact ⟨o3, h6, o2, h7, h5⟩
  | trans hp1 _ ih1 ih2 =>
    obtain ⟨is1, h1, p1⟩ := hl.perm hp1
    exact ih2 o is1 h1 (p1.nodup_iff.1 hd) (ih1 o is hl hd h)

/-- **C130**, a history: exchanging calls within the iterations changes nothing to what follows, in particular to the estimates. -/
theorem C130_history (o o' : Observer) (before after l l' : List Op) (is : List Item) (hl : AllGive l is) (hd : is.Nodup) (hp : l.Perm l')
    (h : Op.run o (before ++ l ++ .update :: after) = .ok o') : Op.run o (before ++ l' ++ .update :: after) = .ok o' := by
  simp only [Op.run, List.foldlM_append, Res.bind_eq_ok] at h ⊢
  obtain ⟨o2, ⟨o1, h1, h2⟩, h3⟩ := h
  exact ⟨o2, ⟨o1, h1, C130_order o1 o2 l l' is hl hd hp h2⟩, h3⟩

/-- The client of `C84_estimates` may give the kinematics of the contact before the data of the IMU. -/
example (nc ni : ℕ) (hnc : 0 < nc) (hni : 0 < ni) : ∃ o o', Observer.construct nc ni = .ok o ∧
    Op.run o (exampleStart nc ni ++ [.updateContactWithNoSensor atRest 0, .setIMU ![0, 0, 9.8] 0 none atRest 0, .update]) = .ok o' ∧
    o'.getStateVectorTimeIndex = .ok 1 := by
  obtain ⟨o, o', h1, h2, h3⟩ := C84_estimates (nc := nc) (ni := ni) hnc hni 1
  refine ⟨o, o', h1, ?_, h3⟩
  exact C130_history o o' _ [] [.setIMU ![0, 0, 9.8] 0 none atRest 0, .updateContactWithNoSensor atRest 0] _ [.imu 0, .contact 0]
    (.cons (.imu _ _ _ _ 0 le_rfl) (.cons (.contact _ _) .nil)) (by simp) (.swap ..) (by simpa [exampleIteration] using h2)

end StateObs.KO
