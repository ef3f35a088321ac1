import Verif.Kin.DepModel
import Verif.Kin.UpdLemmas
/-!
# Helper lemmas for the previous version of the update of kinematics
-/

namespace StateObs.Kine
open StateObs Matrix Rot

namespace Kin

noncomputable def dPos (fp : Bool) (P V A NP : Option V3) (dt : ℝ) : Option V3 :=
  if fp then (match NP with
    | some q => some q
    | none => some ((P.map (· + gain V A dt)).getD 0)) else P

noncomputable def dOri (fp : Bool) (P : Option M3) (V A : Option V3) (NP : Option M3) (dt : ℝ) : Option M3 :=
  if fp then (match NP with
    | some q => some q
    | none => some ((P.map (vecRot (gain V A dt) * ·)).getD 1)) else P

/-- `D` is the increment between the poses. -/
noncomputable def dVel (fv : Bool) (V A NV : Option V3) (D : Option V3) (dt : ℝ) : Option V3 :=
  if fv then (match NV with
    | some u => some u
    | none => match D with
      | some d => some ((1 / dt) • d)
      | none => some ((velAfter V A dt).getD 0)) else V

noncomputable def dAcc (fa : Bool) (V A NV NA : Option V3) (dt : ℝ) : Option V3 :=
  if fa then (match NA with
    | some u => some u
    | none => match V, NV with
      | some v, some u => some ((1 / dt) • (u - v))
      | _, _ => some (A.getD 0)) else A

def incr : Option V3 → Option V3 → Option V3
  | some p, some q => some (q - p)
  | _, _ => none

theorem depSave_item (c : Bool) {x : CItem V3} {X : Option V3} (h : Item x X) : Item (depSave c x) (if c then X else none) := by
  cases c
  · exact Item.new
  · exact Item.copy h

theorem depPos_spec (fp : Bool) {p v a np : CItem V3} {P V A NP : Option V3} (hp : Item p P) (hv : Item v V) (ha : Item a A) (hnp : Item np NP) (dt : ℝ) :
    ∃ p1, depPos fp p v a np dt = .ok p1 ∧ Item p1 (dPos fp P V A NP dt) := by
  cases fp
  · exact ⟨p, rfl, hp⟩
  cases NP with
  | some q => exact ⟨_, by simp [depPos, hnp.isSet]; rfl, Item.copy hnp⟩
  | none =>
    cases P with
    | none => exact ⟨_, by simp [depPos, hnp.isSet, hp.isSet]; rfl, Item.assign _ _⟩
    | some x =>
      cases V with
      | none => exact ⟨p, by simp [depPos, hnp.isSet, hp.isSet, hv.isSet], by simpa [dPos, gain] using hp⟩
      | some y =>
        cases A with
        | none => exact ⟨_, by simp [depPos, hnp.isSet, hp.isSet, hv.isSet, ha.isSet, hp.read, hv.read]; rfl, Item.assign _ _⟩
        | some z =>
          refine ⟨_, by simp [depPos, hnp.isSet, hp.isSet, hv.isSet, ha.isSet, hp.read, hv.read, ha.read, (Item.assign p (x + dt • y)).read]; rfl, ?_⟩
          have := Item.assign (p.assign (x + dt • y)) (x + dt • y + (dt * dt / 2) • z)
          simpa [dPos, gain, add_assoc] using this

theorem depVelKeep_spec {v a : CItem V3} {V A : Option V3} (hv : Item v V) (ha : Item a A) (dt : ℝ) :
    ∃ v1, depVelKeep v a dt = .ok v1 ∧ Item v1 (some ((velAfter V A dt).getD 0)) := by
  cases V with
  | none => exact ⟨_, by simp [depVelKeep, hv.isSet]; rfl, by cases A <;> exact Item.assign _ _⟩
  | some y =>
    cases A with
    | none => exact ⟨v, by simp [depVelKeep, hv.isSet, ha.isSet], hv⟩
    | some z => exact ⟨_, by simp [depVelKeep, hv.isSet, ha.isSet, hv.read, ha.read]; rfl, Item.assign _ _⟩

theorem depDiff_saved {p cp np : CItem V3} {y x : V3} (hc : Item cp (some y)) (hn : Item np (some x)) : depDiff p cp np = .ok (x - y) := by
  simp [depDiff, hc.isSet, hc.read, hn.read]
theorem depDiff_present {p cp np : CItem V3} {y x : V3} (hc : Item cp none) (hp : Item p (some y)) (hn : Item np (some x)) :
    depDiff p cp np = .ok (x - y) := by
  simp [depDiff, hc.isSet, hp.read, hn.read]

theorem depLinVel_spec (fp fv : Bool) {p p1 v a np nv : CItem V3} {P V A NP NV : Option V3} (hp : Item p P) (hv : Item v V) (ha : Item a A)
    (hnp : Item np NP) (hnv : Item nv NV) (dt : ℝ) (hp1 : Item p1 (dPos fp P V A NP dt)) :
    ∃ v1, depLinVel fp fv p1 v a (depSave (fp && fv && !nv.isSet dbg && p.isSet dbg && np.isSet dbg) p) np nv dt = .ok v1 ∧
      Item v1 (dVel fv V A NV (incr P NP) dt) := by
  cases fv
  · exact ⟨v, rfl, hv⟩
  cases NV with
  | some u => exact ⟨_, by simp [depLinVel, hnv.isSet]; rfl, Item.copy hnv⟩
  | none =>
    have hs := depSave_item (fp && true && !nv.isSet dbg && p.isSet dbg && np.isSet dbg) hp
    rw [hnv.isSet, hp.isSet, hnp.isSet] at hs ⊢
    cases NP with
    | none =>
      obtain ⟨v1, e, h1⟩ := depVelKeep_spec hv ha dt
      exact ⟨v1, by simp [depLinVel, hnv.isSet, hnp.isSet, e], by cases P <;> exact h1⟩
    | some q =>
      cases P with
      | none =>
        obtain ⟨v1, e, h1⟩ := depVelKeep_spec hv ha dt
        have hb : (p1.isSet dbg && !fp) = false := by
          rw [hp1.isSet]; cases fp <;> rfl
        simp only [Option.isSome_none, Bool.and_false, Bool.false_and, Bool.false_eq_true, if_false] at hs
        refine ⟨v1, ?_, h1⟩
        simp [depLinVel, hnv.isSet, hs.isSet, hb, e]
      | some x =>
        cases fp
        · simp only [Option.isSome_none, Bool.false_and, Bool.false_eq_true, if_false] at hs
          have hp' : Item p1 (some x) := hp1
          have e := depDiff_present hs hp' hnp
          refine ⟨v.assign ((1 / dt) • (q - x)), ?_, Item.assign _ _⟩
          simp only [Option.isSome_none, Bool.false_and]
          simp [depLinVel, hnv.isSet, hnp.isSet, hp'.isSet, e]
        · simp only [Option.isSome_none, Option.isSome_some, Bool.and_true, Bool.not_false, if_true] at hs
          have e := depDiff_saved (p := p1) hs hnp
          refine ⟨v.assign ((1 / dt) • (q - x)), ?_, Item.assign _ _⟩
          simp only [Option.isSome_none, Option.isSome_some, Bool.and_true, Bool.not_false]
          simp [depLinVel, hnv.isSet, hnp.isSet, hs.isSet, e]

theorem depAcc_spec (fv fa : Bool) {v v1 a nv na : CItem V3} {V V1 A NV NA : Option V3} (hv : Item v V) (ha : Item a A)
    (hnv : Item nv NV) (hna : Item na NA) (dt : ℝ) (hv1 : Item v1 V1) (hk : fv = false → V1 = V) :
    ∃ a1, depAcc fv fa v1 a (depSave (fv && fa && !na.isSet dbg && nv.isSet dbg) v) nv na dt = .ok a1 ∧ Item a1 (dAcc fa V A NV NA dt) := by
  cases fa
  · exact ⟨a, rfl, ha⟩
  cases NA with
  | some u => exact ⟨_, by simp [depAcc, hna.isSet]; rfl, Item.copy hna⟩
  | none =>
    have keep : ∃ a1, (if a.isSet dbg then Res.ok a else .ok (a.assign 0)) = .ok a1 ∧ Item a1 (some (A.getD 0)) := by
      cases A with
      | none => exact ⟨_, by simp [ha.isSet]; rfl, Item.assign _ _⟩
      | some z => exact ⟨a, by simp [ha.isSet], ha⟩
    have hs := depSave_item (fv && true && !na.isSet dbg && nv.isSet dbg) hv
    rw [hna.isSet, hnv.isSet] at hs ⊢
    cases NV with
    | none =>
      obtain ⟨a1, e, h1⟩ := keep
      exact ⟨a1, by simpa [depAcc, hna.isSet, hnv.isSet] using e, by cases V <;> exact h1⟩
    | some u =>
      cases V with
      | none =>
        obtain ⟨a1, e, h1⟩ := keep
        have hb : (v1.isSet dbg && !fv) = false := by
          rw [hv1.isSet]
          cases fv
          · rw [hk rfl]; rfl
          · simp
        have hs' : Item (depSave fv v) none := by simpa using hs
        refine ⟨a1, ?_, h1⟩
        simpa [depAcc, hna.isSet, hs'.isSet, hb] using e
      | some x =>
        cases fv
        · obtain rfl := hk rfl
          simp only [Option.isSome_none, Bool.false_and, Bool.false_eq_true, if_false] at hs
          have e := depDiff_present hs hv1 hnv
          refine ⟨a.assign ((1 / dt) • (u - x)), ?_, Item.assign _ _⟩
          simp only [Option.isSome_none, Bool.false_and]
          simp [depAcc, hna.isSet, hnv.isSet, hv1.isSet, e]
        · simp only [Option.isSome_none, Option.isSome_some, Bool.and_true, Bool.not_false, if_true] at hs
          have e := depDiff_saved (p := v1) hs hnv
          refine ⟨a.assign ((1 / dt) • (u - x)), ?_, Item.assign _ _⟩
          simp only [Option.isSome_none, Option.isSome_some, Bool.and_true, Bool.not_false]
          simp [depAcc, hna.isSet, hnv.isSet, hs.isSet, e]

theorem depLin_spec (fp fv fa : Bool) {p v a np nv na : CItem V3} {P V A NP NV NA : Option V3} (hp : Item p P) (hv : Item v V) (ha : Item a A)
    (hnp : Item np NP) (hnv : Item nv NV) (hna : Item na NA) (dt : ℝ) :
    ∃ r, depLin fp fv fa p v a np nv na dt = .ok r ∧ Item r.1 (dPos fp P V A NP dt) ∧ Item r.2.1 (dVel fv V A NV (incr P NP) dt) ∧
      Item r.2.2 (dAcc fa V A NV NA dt) := by
  obtain ⟨p1, e1, h1⟩ := depPos_spec fp hp hv ha hnp dt
  obtain ⟨v1, e2, h2⟩ := depLinVel_spec fp fv hp hv ha hnp hnv dt h1
  obtain ⟨a1, e3, h3⟩ := depAcc_spec fv fa hv ha hnv hna dt h2 (by rintro rfl; rfl)
  exact ⟨(p1, v1, a1), by simp [depLin, e1, e2, e3], h1, h2, h3⟩

theorem Holds.new : (Ori.new true).Holds none := by
  simp [Ori.Holds, Ori.new, CItem.new]

theorem depSaveOri_holds (c : Bool) {x : Ori} {X : Option M3} (h : x.Holds X) : (depSaveOri c x).Holds (if c then X else none) := by
  cases c
  · exact Holds.new
  · exact Holds.copy h

theorem Holds.one (o : Ori) : (o.assignQuat 1).Holds (some 1) := Ori.rep_q Quat.normSq_one Quat.toMat_one

theorem depOri_spec (fp : Bool) {p : Ori} {v a : CItem V3} {np : Ori} {P : Option M3} {V A : Option V3} {NP : Option M3} (hp : p.Holds P) (hv : Item v V)
    (ha : Item a A) (hnp : np.Holds NP) (dt : ℝ) :
    ∃ p1, depOri fp p v a np dt = .ok p1 ∧ p1.Holds (dOri fp P V A NP dt) := by
  cases fp
  · exact ⟨p, rfl, hp⟩
  cases NP with
  | some q => exact ⟨_, by simp [depOri, Holds.isSet hnp]; rfl, Holds.copy hnp⟩
  | none =>
    cases P with
    | none => exact ⟨_, by simp [depOri, Holds.isSet hnp, Holds.isSet hp]; rfl, Holds.one _⟩
    | some x =>
      cases V with
      | none => exact ⟨p, by simp [depOri, Holds.isSet hnp, Holds.isSet hp, hv.isSet], by simpa [dOri, gain, vecRot_zero] using hp⟩
      | some y =>
        cases A with
        | none =>
          obtain ⟨o', e, h'⟩ := Ori.Rep.integrate hp (dt • y)
          exact ⟨o', by simp [depOri, Holds.isSet hnp, Holds.isSet hp, hv.isSet, ha.isSet, hv.read, e], h'⟩
        | some z =>
          obtain ⟨o', e, h'⟩ := Ori.Rep.integrate hp (dt • y + (dt * dt / 2) • z)
          exact ⟨o', by simp [depOri, Holds.isSet hnp, Holds.isSet hp, hv.isSet, ha.isSet, hv.read, ha.read, e], h'⟩

/-- The increment between two orientations. -/
def IncrOri (P NP : Option M3) (D : Option V3) : Prop :=
  match P, NP with
  | some R, some S => ∃ d, D = some d ∧ NormedSpace.exp (hat d) * R = S ∧ nrm d ≤ Real.pi
  | _, _ => D = none

theorem depAngVel_spec (fp fv : Bool) {p p1 : Ori} {v a : CItem V3} {np : Ori} {nv : CItem V3} {P : Option M3} {V A : Option V3} {NP : Option M3}
    {NV : Option V3} (hp : p.Holds P) (hv : Item v V) (ha : Item a A) (hnp : np.Holds NP) (hnv : Item nv NV) (dt : ℝ)
    (hp1 : p1.Holds (dOri fp P V A NP dt)) (hk : fp = false → p1 = p) (D : Option V3)
    (hD : ∀ d, D = some d → p.differentiate np = .ok d) (hDn : D.isSome = (P.isSome && NP.isSome)) :
    ∃ v1, depAngVel fp fv p1 v a (depSaveOri (fp && fv && !nv.isSet dbg && p.isSet && np.isSet) p) np nv dt = .ok v1 ∧
      Item v1 (dVel fv V A NV D dt) := by
  cases fv
  · exact ⟨v, rfl, hv⟩
  cases NV with
  | some u => exact ⟨_, by simp [depAngVel, hnv.isSet]; rfl, Item.copy hnv⟩
  | none =>
    have hs := depSaveOri_holds (fp && true && !nv.isSet dbg && p.isSet && np.isSet) hp
    rw [hnv.isSet, Holds.isSet hp, Holds.isSet hnp] at hs ⊢
    cases NP with
    | none =>
      obtain ⟨v1, e, h1⟩ := depVelKeep_spec hv ha dt
      obtain rfl : D = none := by simpa using hDn
      exact ⟨v1, by simp [depAngVel, hnv.isSet, Holds.isSet hnp, e], h1⟩
    | some q =>
      cases P with
      | none =>
        obtain ⟨v1, e, h1⟩ := depVelKeep_spec hv ha dt
        obtain rfl : D = none := by simpa using hDn
        have hb : (p1.isSet && !fp) = false := by
          rw [Holds.isSet hp1]; cases fp <;> rfl
        simp only [Option.isSome_none, Bool.and_false, Bool.false_and, Bool.false_eq_true, if_false] at hs
        refine ⟨v1, ?_, h1⟩
        simp [depAngVel, hnv.isSet, Holds.isSet hs, hb, e]
      | some x =>
        obtain ⟨d, rfl⟩ : ∃ d, D = some d := Option.isSome_iff_exists.1 (by simpa using hDn)
        have e := hD d rfl
        cases fp
        · obtain rfl := hk rfl
          simp only [Option.isSome_none, Bool.false_and, Bool.false_eq_true, if_false] at hs
          refine ⟨v.assign ((1 / dt) • d), ?_, Item.assign _ _⟩
          simp only [Option.isSome_none, Bool.false_and]
          simp [depAngVel, hnv.isSet, Holds.isSet hnp, Holds.isSet hp, Holds.isSet hs, e]
        · simp only [Option.isSome_none, Option.isSome_some, Bool.and_true, Bool.not_false, if_true] at hs
          refine ⟨v.assign ((1 / dt) • d), ?_, Item.assign _ _⟩
          have hc : depSaveOri true p = p := by
            obtain ⟨⟨f, w⟩, ⟨g, x⟩⟩ := p
            simp [depSaveOri, Ori.copyFrom, CItem.copyFrom, dbg, CheckCfg.doCheck]
          simp only [Option.isSome_none, Option.isSome_some, Bool.and_true, Bool.not_false]
          simp [depAngVel, hnv.isSet, Holds.isSet hnp, hc, Holds.isSet hp, e]

theorem depAng_spec (fp fv fa : Bool) {p : Ori} {v a : CItem V3} {np : Ori} {nv na : CItem V3} {P : Option M3} {V A : Option V3} {NP : Option M3}
    {NV NA : Option V3} (hp : p.Holds P) (hv : Item v V) (ha : Item a A)
    (hnp : np.Holds NP) (hnv : Item nv NV) (hna : Item na NA) (dt : ℝ) :
    ∃ r D, depAng fp fv fa p v a np nv na dt = .ok r ∧ IncrOri P NP D ∧ r.1.Holds (dOri fp P V A NP dt) ∧ Item r.2.1 (dVel fv V A NV D dt) ∧
      Item r.2.2 (dAcc fa V A NV NA dt) := by
  obtain ⟨D, hD, hD1, hD2⟩ : ∃ D : Option V3, IncrOri P NP D ∧ (∀ d, D = some d → p.differentiate np = .ok d) ∧ D.isSome = (P.isSome && NP.isSome) := by
    cases P with
    | none => exact ⟨none, rfl, by simp, rfl⟩
    | some R =>
      cases NP with
      | none => exact ⟨none, rfl, by simp, rfl⟩
      | some S =>
        obtain ⟨d, e, h1, h2⟩ := Ori.Rep.differentiate hp hnp
        exact ⟨some d, ⟨d, rfl, h1, h2⟩, by rintro _ ⟨⟩; exact e, rfl⟩
  obtain ⟨p1, e1, h1⟩ := depOri_spec fp hp hv ha hnp dt
  obtain ⟨v1, e2, h2⟩ := depAngVel_spec fp fv hp hv ha hnp hnv dt h1 (by rintro rfl; cases e1; rfl) D hD1 hD2
  obtain ⟨a1, e3, h3⟩ := depAcc_spec fv fa hv ha hnv hna dt h2 (by rintro rfl; rfl)
  exact ⟨(p1, v1, a1), D, by simp [depAng, e1, e2, e3], hD, h1, h2, h3⟩

/-- The value after the update. -/
noncomputable def depValue (f : KFlags) (a b : Value) (dt : ℝ) (D : Option V3) : Value where
  pos := dPos f.pos a.pos a.linVel a.linAcc b.pos dt
  ori := dOri f.ori a.ori a.angVel a.angAcc b.ori dt
  linVel := dVel f.linVel a.linVel a.linAcc b.linVel (incr a.pos b.pos) dt
  angVel := dVel f.angVel a.angVel a.angAcc b.angVel D dt
  linAcc := dAcc f.linAcc a.linVel a.linAcc b.linVel b.linAcc dt
  angAcc := dAcc f.angAcc a.angVel a.angAcc b.angVel b.angAcc dt

theorem dep_spec {k n : Kin} {a b : Value} (h : k.Has a) (hn : n.Has b) (f : KFlags) (dt : ℝ) :
    ∃ k' D, k.updateDeprecated n dt f = .ok k' ∧ IncrOri a.ori b.ori D ∧ k'.Has (depValue f a b dt D) := by
  obtain ⟨l, e1, h1, h2, h3⟩ := depLin_spec f.pos f.linVel f.linAcc h.pos h.linVel h.linAcc hn.pos hn.linVel hn.linAcc dt
  obtain ⟨r, D, e2, hD, g1, g2, g3⟩ := depAng_spec f.ori f.angVel f.angAcc h.ori h.angVel h.angAcc hn.ori hn.angVel hn.angAcc dt
  exact ⟨_, D, by simp [updateDeprecated, e1, e2]; rfl, hD, h1, g1, h2, g2, h3, g3⟩

theorem dep_val {k n k' : Kin} {a b c : Value} (h : k.Has a) (hn : n.Has b) {f : KFlags} {dt : ℝ} (e : k.updateDeprecated n dt f = .ok k') (hc : k'.Has c) :
    ∃ D, IncrOri a.ori b.ori D ∧ c = depValue f a b dt D := by
  obtain ⟨k'', D, e', hD, h'⟩ := dep_spec h hn f dt
  rw [e] at e'; cases e'
  exact ⟨D, hD, hc.inj h'⟩

end Kin
end StateObs.Kine
