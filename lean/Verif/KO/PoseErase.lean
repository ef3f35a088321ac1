import Verif.KO.StateSet
import Verif.OutcomeLaws
/-!
# What an estimation reads (helpers for C104)
-/

namespace StateObs.KO
open StateObs Matrix Rot Kine KF
open Observer

/-- The contact without its pose. -/
def strip (c : Contact) : Contact := { c with absPose := Kin.new }

/-- The observer without the poses of its contacts. -/
def bare (o : Observer) : Observer := { o with contacts := o.contacts.map strip }

/-- The observer without the poses of its contacts and its state vector. -/
def core (o : Observer) : Observer := { o with contacts := o.contacts.map strip, x := DVec.zero 0 }

theorem strip_strip (c : Contact) : strip (strip c) = strip c := rfl

theorem map_strip_strip (l : List Contact) : (l.map strip).map strip = l.map strip := by rw [List.map_map]; rfl

theorem foldlM_strip {β : Type} (f : β → Contact → Res β) (hf : ∀ b c, f b (strip c) = f b c) (l : List Contact) (b : β) :
    (l.map strip).foldlM f b = l.foldlM f b := by
  rw [List.foldlM_map]
  congr 1
  funext b c
  exact hf b c

variable {o : Observer}

theorem stateSum_core (o : Observer) : (core o).stateSum = o.stateSum := by
  funext x t
  unfold stateSum
  simp only [show (core o).contacts = o.contacts.map strip from rfl, foldlM_strip (sumContact x t) (fun b c => rfl)]
  rfl

theorem stateDifference_core (o : Observer) : (core o).stateDifference = o.stateDifference := by
  funext x t z
  unfold stateDifference
  simp only [show (core o).contacts = o.contacts.map strip from rfl, foldlM_strip (diffContact t z) (fun b c => rfl)]
  rfl

theorem arith_core (o : Observer) : (core o).arith = o.arith := by
  rw [arith, stateSum_core, stateDifference_core]; rfl

theorem addWrench_core (o : Observer) (x : DVec) (w : V3 × V3) : (core o).addUnmodeledAndContactWrench x w = o.addUnmodeledAndContactWrench x w := by
  unfold addUnmodeledAndContactWrench
  simp only [show (core o).contacts = o.contacts.map strip from rfl, foldlM_strip (addContactWrench x) (fun b c => rfl)]
  rfl

theorem stateKine_core (o : Observer) (x : DVec) : (core o).stateKine x = o.stateKine x := by
  unfold stateKine
  rw [addWrench_core]
  rfl

theorem stateDynamics_core (o : Observer) (x : DVec) : (core o).stateDynamics x = o.stateDynamics x := by
  unfold stateDynamics
  rw [stateKine_core]
  simp only [show (core o).contacts = o.contacts.map strip from rfl, foldlM_strip contactDynamics (fun b c => rfl)]
  rfl

theorem measureDynamics_core (o : Observer) (x : DVec) (k : Int) : (core o).measureDynamics x k = o.measureDynamics x k := by
  unfold measureDynamics
  rw [stateKine_core]
  simp only [show (core o).contacts = o.contacts.map strip from rfl, foldlM_strip (measureContact (core o) x) (fun b c => rfl)]
  rfl

theorem functor_core (o : Observer) : (core o).functor = o.functor := by
  unfold functor
  simp only [stateDynamics_core, measureDynamics_core]

theorem bound_core (o : Observer) (e : KFilter EKF.Ext) : (core o).bound e = o.bound e := by
  rw [bound, arith_core, functor_core]; rfl

theorem runFilter_core (o : Observer) (y : DVec) (cov : DMat) : (core o).runFilter y cov = o.runFilter y cov := by
  unfold runFilter
  simp only [bound_core]
  rfl

theorem packContacts_strip : ∀ (l : List Contact) (p : Pack), packContacts (l.map strip) p = (fun r => (r.1.map strip, r.2)) <$> packContacts l p := by
  intro l
  induction l with
  | nil => intro p; rfl
  | cons c l ih =>
    intro p
    rw [List.map_cons, packContacts, packContacts]
    by_cases h : c.withRealSensor
    · rw [if_pos h, if_pos (show (strip c).withRealSensor from h)]
      simp only [map_bind, ih, bind_map_left]
      rfl
    · rw [if_neg h, if_neg (show ¬ (strip c).withRealSensor from h)]
      simp only [map_bind, ih, bind_map_left]
      rfl

theorem checkContacts_core (o : Observer) : (core o).checkContacts = o.checkContacts := by
  unfold checkContacts
  rw [show (core o).contacts = o.contacts.map strip from rfl, List.all_map]
  rfl

theorem buildMeasurement_core (o : Observer) : (core o).buildMeasurement = (fun r => (core r.1, r.2)) <$> o.buildMeasurement := by
  unfold buildMeasurement
  rw [checkContacts_core]
  simp only [show (core o).contacts = o.contacts.map strip from rfl, packContacts_strip, map_bind, bind_map_left]
  rfl

theorem estimateAccelerations_bare (o : Observer) : (bare o).estimateAccelerations = bare <$> o.estimateAccelerations := by
  unfold estimateAccelerations
  have h : (bare o).addUnmodeledAndContactWrench = o.addUnmodeledAndContactWrench := by
    funext x w
    exact addWrench_core o x w
  simp only [map_bind]
  rw [h]
  rfl

theorem updateKine_bare (o : Observer) : (bare o).updateKine = bare <$> o.updateKine := by
  unfold updateKine
  simp only [map_bind]
  rfl

theorem afterFilter_core (o : Observer) (e : KFilter EKF.Ext) : (core o).afterFilter e = bare <$> o.afterFilter e := by
  unfold afterFilter
  simp only [map_bind]
  refine bind_congr fun x => ?_
  have h := updateKine_bare { o with ekf := e, x := x, kEst := o.kEst + 1, stateKin := o.stateKin.reset }
  refine (congrArg (· >>= _) h).trans ?_
  rw [bind_map_left]
  refine bind_congr fun a => ?_
  rw [apply_ite (fun r => bare <$> r), estimateAccelerations_bare]
  rfl

/-- An estimation reads neither the poses of the contacts nor the state vector of the observer. -/
theorem update_core (o : Observer) (hk : o.kEst ≠ o.kData) : (core o).update = bare <$> o.update := by
  rw [update, update, if_pos hk, if_pos (show (core o).kEst ≠ (core o).kData from hk), buildMeasurement_core]
  simp only [map_bind, bind_map_left, runFilter_core, afterFilter_core]

/-! ## The calls that bring data -/

theorem core_start (o : Observer) : (core o).startNewIteration = core o.startNewIteration := by
  unfold startNewIteration
  split_ifs with h1 h2
  · rfl
  · exact absurd h1 h2
  · exact absurd (by assumption) h1
  · rfl

theorem map_set_strip (l : List Contact) (n : ℕ) (c : Contact) : (l.set n c).map strip = (l.map strip).set n (strip c) := List.map_set

theorem selectContact_core (o : Observer) (n : ℕ) : (core o).selectContact n = strip <$> o.selectContact n := by
  unfold selectContact
  simp only [map_bind, show (core o).contacts = o.contacts.map strip from rfl, List.getElem?_map]
  refine bind_congr fun _ => ?_
  cases o.contacts[n]? <;> rfl

/-- The calls that bring measurements or data of the robot. -/
def Op.brings : Op → Bool
  | .setIMU .. | .updateContactWithWrenchSensor .. | .updateContactWithNoSensor .. | .setAbsolutePoseSensor .. => true
  | .setInertiaMatrix2 .. | .setInertiaMatrix .. | .setInertiaVector2 .. | .setInertiaVector .. | .setCenterOfMass3 .. | .setCenterOfMass2 .. |
    .setCenterOfMass .. | .setAngularMomentum2 .. | .setAngularMomentum .. => true
  | .setSamplingTime _ | .setMass _ | .setAdditionalWrench .. => true
  | _ => false

theorem exec_core (o : Observer) (op : Op) (hb : op.brings = true) : Op.exec (core o) op = core <$> Op.exec o op := by
  cases op <;> simp only [Op.brings, Bool.false_eq_true] at hb <;> clear hb <;> simp only [Op.exec]
  case setIMU a g c k n =>
    unfold setIMU
    simp only [core_start, map_bind, Res.bind_assoc]
    generalize o.startNewIteration = p
    refine bind_congr fun _ => bind_congr fun _ => bind_congr fun _ => ?_
    rfl
  case updateContactWithWrenchSensor w c k n =>
    unfold updateContactWithWrenchSensor
    simp only [core_start, selectContact_core, map_bind, bind_map_left]
    generalize o.startNewIteration = p
    refine bind_congr fun _ => bind_congr fun _ => ?_
    simp only [core, map_pure, ← Res.pure_eq, map_set_strip]
    rfl
  case updateContactWithNoSensor k n =>
    unfold updateContactWithNoSensor
    simp only [core_start, selectContact_core, map_bind, bind_map_left]
    generalize o.startNewIteration = p
    refine bind_congr fun _ => bind_congr fun _ => ?_
    simp only [core, map_pure, ← Res.pure_eq, map_set_strip]
    rfl
  case setInertiaVector I =>
    unfold setInertiaVector
    simp only [core_start, map_bind]
    generalize o.startNewIteration = p
    refine bind_congr fun _ => ?_
    rw [apply_ite (fun r => core <$> r)]
    simp only [map_bind]
    rfl
  case setCenterOfMass c =>
    unfold setCenterOfMass
    simp only [core_start, map_bind]
    generalize o.startNewIteration = p
    refine bind_congr fun _ => ?_
    rw [apply_ite (fun r => core <$> r)]
    simp only [map_bind]
    rfl
  case setInertiaMatrix I =>
    unfold setInertiaMatrix
    simp only [core_start, map_bind]
    rfl
  case setCenterOfMass2 c d =>
    unfold setCenterOfMass2
    simp only [core_start, map_bind]
    rfl
  case setAngularMomentum c =>
    unfold setAngularMomentum
    simp only [core_start, map_bind]
    rfl
  case setInertiaMatrix2 =>
    unfold setInertiaMatrix2
    simp only [core_start]
    rfl
  case setInertiaVector2 =>
    unfold setInertiaVector2 setInertiaMatrix2
    simp only [core_start]
    rfl
  case setCenterOfMass3 =>
    unfold setCenterOfMass3
    simp only [core_start]
    rfl
  case setAngularMomentum2 =>
    unfold setAngularMomentum2
    simp only [core_start]
    rfl
  case setAbsolutePoseSensor =>
    unfold setAbsolutePoseSensor
    simp only [core_start]
    rfl
  all_goals rfl

theorem run_core : ∀ (l : List Op) (o : Observer), (∀ op ∈ l, op.brings = true) → Op.run (core o) l = core <$> Op.run o l := by
  intro l
  induction l with
  | nil => intro o _; rfl
  | cons op l ih =>
    intro o h
    have h1 : ∀ q : Observer, Op.run q (op :: l) = (Op.exec q op >>= fun q => Op.run q l) := fun q => List.foldlM_cons
    rw [h1, h1, exec_core o op (h op (by simp)), bind_map_left, map_bind]
    exact bind_congr fun q => ih q fun x hx => h x (by simp [hx])

end StateObs.KO
