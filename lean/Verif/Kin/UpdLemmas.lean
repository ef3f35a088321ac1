import Verif.Kin.Lemmas
/-!
# Helper lemmas on `Kinematics::update`
-/

namespace StateObs.Kine
open StateObs Matrix Rot

namespace Kin

section
variable (P V A NP NV NA : Option V3) (dt : ℝ)

noncomputable def vAcc1 (am : Meth) : Option V3 :=
  match am with
  | .useVelocity => do
    let x ← NV
    let y ← V
    some ((1 / dt) • (x - y))
  | .usePosition => do
    let x ← NP
    let y ← P
    some ((2 / (dt * dt)) • (x - y))
  | _ => A

noncomputable def vVel1 (vm : Meth) : Option V3 :=
  match vm with
  | .usePosition => do
    let x ← NP
    let y ← P
    some ((1 / dt) • (x - y))
  | _ => V

noncomputable def vAcc2 (vm am : Meth) : Option V3 :=
  match vm with
  | .usePosition =>
    if am = .usePosAndVel then do
      let x ← NP
      let y ← P
      let v0 ← V
      some ((1 / dt) • (-v0 + (1 / dt) • (x - y)))
    else vAcc1 P V A NP NV dt am
  | _ => vAcc1 P V A NP NV dt am

noncomputable def vPos (pm vm am : Meth) : Option V3 :=
  match pm with
  | .usePosition => NP
  | .useVelocity => do
    let x ← P
    let y ← vVel1 P V NP dt vm
    some (x + dt • y)
  | .useVelAndAcc => do
    let x ← P
    let y ← vVel1 P V NP dt vm
    let z ← vAcc2 P V A NP NV dt vm am
    some (x + (dt • y + (dt * dt / 2) • z))
  | .useAcceleration => do
    let x ← P
    let z ← vAcc2 P V A NP NV dt vm am
    some (x + (dt * dt / 0.5) • z)
  | _ => P

noncomputable def vVel2 (vm am : Meth) : Option V3 :=
  match vm with
  | .useVelocity => NV
  | .useAcceleration => do
    let y ← V
    let z ← vAcc2 P V A NP NV dt vm am
    some (y + dt • z)
  | m => vVel1 P V NP dt m

noncomputable def vAcc3 (vm am : Meth) : Option V3 :=
  match am with
  | .useAcceleration => NA
  | _ => vAcc2 P V A NP NV dt vm am

end

theorem _root_.StateObs.Kine.Item.copy {i c : CItem V3} {x : Option V3} (h : Item c x) : Item (i.copyFrom dbg c) x := by
  cases x with
  | none =>
    have : c.flag = false := h
    simp [Item, CItem.copyFrom, dbg, CheckCfg.doCheck, this]
  | some x => rw [show c = _ from h]; rfl

theorem _root_.StateObs.Kine.Item.keep {i : CItem V3} {x : Option V3} (h : Item i x) (f : Bool) : Item (Kin.keep f i) (if f then x else none) := by
  cases f
  · rfl
  · exact h

theorem posMethod_ok {f p v a np : Bool} {pm : Meth} (h : posMethod f p v a np = .ok pm) :
    (pm = .usePosition → np = true) ∧ (pm = .useVelocity → p = true ∧ v = true ∧ a = false ∧ np = false) ∧
      (pm = .useVelAndAcc → p = true ∧ v = true ∧ a = true ∧ np = false) ∧
      (pm = .useAcceleration → p = true ∧ v = false ∧ a = true ∧ np = false) ∧ (pm = .noUpdate → f = true → p = true ∧ np = false) := by
  unfold posMethod at h; split_ifs at h <;> simp_all <;> subst h <;> simp_all

theorem velMethod_ok {f p v a np nv : Bool} {vm : Meth} (h : velMethod f p v a np nv = .ok vm) :
    (vm = .useVelocity → nv = true) ∧ (vm = .usePosition → p = true ∧ np = true) ∧ (vm = .useAcceleration → v = true ∧ a = true) := by
  unfold velMethod at h; split_ifs at h <;> simp_all <;> subst h <;> simp_all

theorem accMethod_ok {f p v a np nv na : Bool} {vm am : Meth} (h : accMethod f p v a np nv na vm = .ok am) :
    (am = .useAcceleration → na = true) ∧ (am = .useVelocity → v = true ∧ nv = true) ∧ (am = .usePosition → p = true ∧ np = true) ∧
      (am = .usePosAndVel → v = true) ∧ am ≠ .useVelAndAcc := by
  unfold accMethod at h; split_ifs at h <;> simp_all <;> subst h <;> simp_all

theorem updateLin_spec {fp fv fa : Bool} {p v a np nv na : CItem V3} {P V A NP NV NA : Option V3} {dt : ℝ} {pm vm am : Meth}
    (hp : Item p P) (hv : Item v V) (ha : Item a A) (hnp : Item np NP) (hnv : Item nv NV) (hna : Item na NA)
    (e1 : posMethod fp P.isSome V.isSome A.isSome NP.isSome = .ok pm)
    (e2 : velMethod fv P.isSome V.isSome A.isSome NP.isSome NV.isSome = .ok vm)
    (e3 : accMethod fa P.isSome V.isSome A.isSome NP.isSome NV.isSome NA.isSome vm = .ok am) :
    ∃ p' v' a', updateLin fp fv fa p v a np nv na dt = .ok (p', v', a') ∧ Item p' (if fp then vPos P V A NP NV dt pm vm am else none) ∧
      Item v' (if fv then vVel2 P V A NP NV dt vm am else none) ∧ Item a' (if fa then vAcc3 P V A NP NV NA dt vm am else none) := by
  obtain ⟨c1, c2, c3, c4, -⟩ := posMethod_ok e1
  obtain ⟨d1, d2, d3⟩ := velMethod_ok e2
  obtain ⟨f1, f2, f3, f4, -⟩ := accMethod_ok e3
  have s1 : ∃ a1, linAccFirst am p v a np nv dt = .ok a1 ∧ Item a1 (vAcc1 P V A NP NV dt am) := by
    cases am
    case useVelocity =>
      obtain ⟨g1, g2⟩ := f2 rfl
      obtain ⟨x, rfl⟩ := Option.isSome_iff_exists.1 g1
      obtain ⟨y, rfl⟩ := Option.isSome_iff_exists.1 g2
      exact ⟨_, by simp [linAccFirst, hv.read, hnv.read]; rfl, Item.assign _ _⟩
    case usePosition =>
      obtain ⟨g1, g2⟩ := f3 rfl
      obtain ⟨x, rfl⟩ := Option.isSome_iff_exists.1 g1
      obtain ⟨y, rfl⟩ := Option.isSome_iff_exists.1 g2
      exact ⟨_, by simp [linAccFirst, hp.read, hnp.read]; rfl, Item.assign _ _⟩
    all_goals exact ⟨a, rfl, ha⟩
  obtain ⟨a1, q1, i1⟩ := s1
  have s2 : ∃ v1 a2, linVelFirst vm am p v a1 np dt = .ok (v1, a2) ∧ Item v1 (vVel1 P V NP dt vm) ∧ Item a2 (vAcc2 P V A NP NV dt vm am) := by
    cases vm
    case usePosition =>
      obtain ⟨g1, g2⟩ := d2 rfl
      obtain ⟨x, rfl⟩ := Option.isSome_iff_exists.1 g1
      obtain ⟨y, rfl⟩ := Option.isSome_iff_exists.1 g2
      by_cases ham : am = .usePosAndVel
      · obtain ⟨z, rfl⟩ := Option.isSome_iff_exists.1 (f4 ham)
        subst ham
        exact ⟨_, _, by simp [linVelFirst, hp.read, hnp.read, hv.read]; exact ⟨rfl, rfl⟩, Item.assign _ _, Item.assign _ _⟩
      · exact ⟨_, a1, by simp [linVelFirst, hp.read, hnp.read, ham]; rfl, Item.assign _ _, by simpa [vAcc2, ham] using i1⟩
    all_goals exact ⟨v, a1, rfl, hv, i1⟩
  obtain ⟨v1, a2, q2, i2, i3⟩ := s2
  have s3 : ∃ p1, linPos pm p v1 a2 np dt = .ok p1 ∧ Item p1 (vPos P V A NP NV dt pm vm am) := by
    have hv1 : vm ≠ .usePosition → Item v1 V := by
      intro h; cases vm <;> first | exact i2 | exact absurd rfl h
    have ha2 : A.isSome = true → (vAcc2 P V A NP NV dt vm am).isSome = true := by
      intro hA
      obtain ⟨z, rfl⟩ := Option.isSome_iff_exists.1 hA
      have h1 : (vAcc1 P V (some z) NP NV dt am).isSome = true := by
        cases am
        case useVelocity =>
          obtain ⟨g1, g2⟩ := f2 rfl
          obtain ⟨x, rfl⟩ := Option.isSome_iff_exists.1 g1
          obtain ⟨y, rfl⟩ := Option.isSome_iff_exists.1 g2
          rfl
        case usePosition =>
          obtain ⟨g1, g2⟩ := f3 rfl
          obtain ⟨x, rfl⟩ := Option.isSome_iff_exists.1 g1
          obtain ⟨y, rfl⟩ := Option.isSome_iff_exists.1 g2
          rfl
        all_goals rfl
      cases vm
      case usePosition =>
        obtain ⟨g1, g2⟩ := d2 rfl
        obtain ⟨x, rfl⟩ := Option.isSome_iff_exists.1 g1
        obtain ⟨y, rfl⟩ := Option.isSome_iff_exists.1 g2
        by_cases ham : am = .usePosAndVel
        · obtain ⟨z, rfl⟩ := Option.isSome_iff_exists.1 (f4 ham)
          subst ham
          rfl
        · simpa [vAcc2, ham] using h1
      all_goals exact h1
    have hvm : NP.isSome = false → vm ≠ .usePosition := by
      intro h h'
      rw [(d2 h').2] at h; cases h
    cases pm
    case usePosition => exact ⟨_, rfl, hnp.copy⟩
    case useVelocity =>
      obtain ⟨g1, g2, -, g3⟩ := c2 rfl
      obtain ⟨x, rfl⟩ := Option.isSome_iff_exists.1 g1
      obtain ⟨y, rfl⟩ := Option.isSome_iff_exists.1 g2
      have i2' := hv1 (hvm g3)
      have e := Item.inj i2 i2'
      refine ⟨_, by simp [linPos, hp.read, i2'.read]; rfl, ?_⟩
      simp only [vPos, e]; exact Item.assign _ _
    case useAcceleration =>
      obtain ⟨g1, -, g2, g3⟩ := c4 rfl
      obtain ⟨x, rfl⟩ := Option.isSome_iff_exists.1 g1
      obtain ⟨z, hz⟩ := Option.isSome_iff_exists.1 (ha2 g2)
      have i3' := i3; rw [hz] at i3'
      refine ⟨_, by simp [linPos, hp.read, i3'.read]; rfl, ?_⟩
      simp only [vPos, hz]; exact Item.assign _ _
    case useVelAndAcc =>
      obtain ⟨g1, g2, g4, g3⟩ := c3 rfl
      obtain ⟨x, rfl⟩ := Option.isSome_iff_exists.1 g1
      obtain ⟨y, rfl⟩ := Option.isSome_iff_exists.1 g2
      have i2' := hv1 (hvm g3)
      have e := Item.inj i2 i2'
      obtain ⟨z, hz⟩ := Option.isSome_iff_exists.1 (ha2 g4)
      have i3' := i3; rw [hz] at i3'
      refine ⟨_, by simp [linPos, hp.read, i2'.read, i3'.read]; rfl, ?_⟩
      simp only [vPos, e, hz]; exact Item.assign _ _
    all_goals exact ⟨p, rfl, hp⟩
  obtain ⟨p1, q3, i4⟩ := s3
  have s4 : ∃ v2, velSecond vm v1 a2 nv dt = .ok v2 ∧ Item v2 (vVel2 P V A NP NV dt vm am) := by
    cases vm
    case useVelocity => exact ⟨_, rfl, hnv.copy⟩
    case useAcceleration =>
      obtain ⟨g1, g2⟩ := d3 rfl
      obtain ⟨y, rfl⟩ := Option.isSome_iff_exists.1 g1
      obtain ⟨z, rfl⟩ := Option.isSome_iff_exists.1 g2
      have h1 : (vAcc2 P (some y) (some z) NP NV dt .useAcceleration am).isSome = true := by
        cases am
        case useVelocity =>
          obtain ⟨g1, g2⟩ := f2 rfl
          obtain ⟨y, rfl⟩ := Option.isSome_iff_exists.1 g2
          rfl
        case usePosition =>
          obtain ⟨g1, g2⟩ := f3 rfl
          obtain ⟨x, rfl⟩ := Option.isSome_iff_exists.1 g1
          obtain ⟨y, rfl⟩ := Option.isSome_iff_exists.1 g2
          rfl
        all_goals rfl
      obtain ⟨w, hw⟩ := Option.isSome_iff_exists.1 h1
      have i3' := i3; rw [hw] at i3'
      have i2' : Item v1 (some y) := i2
      refine ⟨_, by simp [velSecond, i2'.read, i3'.read]; rfl, ?_⟩
      simp only [vVel2, hw]; exact Item.assign _ _
    all_goals exact ⟨v1, rfl, i2⟩
  obtain ⟨v2, q4, i5⟩ := s4
  have s5 : ∃ a3, accSecond am a2 na = .ok a3 ∧ Item a3 (vAcc3 P V A NP NV NA dt vm am) := by
    cases am
    case useAcceleration =>
      obtain ⟨z, rfl⟩ := Option.isSome_iff_exists.1 (f1 rfl)
      exact ⟨_, by simp [accSecond, hna.read]; rfl, Item.assign _ _⟩
    all_goals exact ⟨a2, rfl, i3⟩
  obtain ⟨a3, q5, i6⟩ := s5
  refine ⟨_, _, _, ?_, i4.keep fp, i5.keep fv, i6.keep fa⟩
  simp only [updateLin, hp.isSet, hv.isSet, ha.isSet, hnp.isSet, hnv.isSet, hna.isSet, e1, e2, e3, q1, q2, q3, q4, q5, Res.ok_bind]


section
variable (O NO : Option M3) (V A NV NA : Option V3) (D D' : V3) (dt : ℝ)

noncomputable def wAcc1 (am : Meth) : Option V3 :=
  match am with
  | .useVelocity => do
    let x ← NV
    let y ← V
    some ((1 / dt) • (x - y))
  | .usePosition => some ((2 / (dt * dt)) • D')
  | _ => A

noncomputable def wVel1 (vm : Meth) : Option V3 :=
  match vm with
  | .usePosition => some ((1 / dt) • D)
  | _ => V

noncomputable def wOri (pm am : Meth) : Option M3 :=
  match pm with
  | .usePosition => NO
  | .useVelocity => do
    let x ← O
    let y ← V
    some (vecRot (dt • y) * x)
  | .useVelAndAcc => do
    let x ← O
    let y ← V
    let z ← wAcc1 V A NV D' dt am
    some (vecRot (dt • y + (dt * dt / 2) • z) * x)
  | .useAcceleration => do
    let x ← O
    let z ← wAcc1 V A NV D' dt am
    some (vecRot ((dt * dt / 0.5) • z) * x)
  | _ => O

noncomputable def wVel2 (vm am : Meth) : Option V3 :=
  match vm with
  | .useVelocity => NV
  | .useAcceleration => do
    let y ← V
    let z ← wAcc1 V A NV D' dt am
    some (y + dt • z)
  | m => wVel1 V D dt m

noncomputable def wAcc3 (am : Meth) : Option V3 :=
  match am with
  | .useAcceleration => NA
  | _ => wAcc1 V A NV D' dt am

end

theorem Holds.copy {o c : Ori} {R : Option M3} (h : c.Holds R) : (o.copyFrom c).Holds R := by
  have e : o.copyFrom c = c := by
    obtain ⟨⟨f, v⟩, ⟨g, w⟩⟩ := c
    simp [Ori.copyFrom, CItem.copyFrom, dbg, CheckCfg.doCheck]
  rwa [e]

theorem updateAng_spec {fo fv fa : Bool} {o no : Ori} {v a nv na : CItem V3} {O NO : Option M3} {V A NV NA : Option V3} {D D' : V3} {dt : ℝ} {pm vm am : Meth}
    (ho : o.Holds O) (hv : Item v V) (ha : Item a A) (hno : no.Holds NO) (hnv : Item nv NV) (hna : Item na NA)
    (hD : O.isSome = true → NO.isSome = true → o.differentiate no = .ok D ∧ no.differentiate o = .ok D')
    (e1 : posMethod fo O.isSome V.isSome A.isSome NO.isSome = .ok pm)
    (e2 : velMethod fv O.isSome V.isSome A.isSome NO.isSome NV.isSome = .ok vm)
    (e3 : accMethod fa O.isSome V.isSome A.isSome NO.isSome NV.isSome NA.isSome vm = .ok am) :
    ∃ o' v' a', updateAng fo fv fa o v a no nv na dt = .ok (o', v', a') ∧ o'.Holds (if fo then wOri O NO V A NV D' dt pm am else none) ∧
      Item v' (if fv then wVel2 V A NV D D' dt vm am else none) ∧ Item a' (if fa then wAcc3 V A NV NA D' dt am else none) := by
  obtain ⟨c1, c2, c3, c4, -⟩ := posMethod_ok e1
  obtain ⟨d1, d2, d3⟩ := velMethod_ok e2
  obtain ⟨f1, f2, f3, f4, f5⟩ := accMethod_ok e3
  have s1 : ∃ a1, angAccFirst am o v a no nv dt = .ok a1 ∧ Item a1 (wAcc1 V A NV D' dt am) := by
    cases am
    case useVelocity =>
      obtain ⟨g1, g2⟩ := f2 rfl
      obtain ⟨x, rfl⟩ := Option.isSome_iff_exists.1 g1
      obtain ⟨y, rfl⟩ := Option.isSome_iff_exists.1 g2
      exact ⟨_, by simp [angAccFirst, hv.read, hnv.read]; rfl, Item.assign _ _⟩
    case usePosition =>
      obtain ⟨g1, g2⟩ := f3 rfl
      exact ⟨_, by simp [angAccFirst, (hD g1 g2).2]; rfl, Item.assign _ _⟩
    all_goals exact ⟨a, rfl, ha⟩
  obtain ⟨a1, q1, i1⟩ := s1
  have hA : A.isSome = true → (wAcc1 V A NV D' dt am).isSome = true := by
    intro hA
    obtain ⟨z, rfl⟩ := Option.isSome_iff_exists.1 hA
    cases am
    case useVelocity =>
      obtain ⟨g1, g2⟩ := f2 rfl
      obtain ⟨x, rfl⟩ := Option.isSome_iff_exists.1 g1
      obtain ⟨y, rfl⟩ := Option.isSome_iff_exists.1 g2
      rfl
    all_goals rfl
  have s2 : ∃ v1, angVelFirst vm am o v a1 no dt = .ok (v1, a1) ∧ Item v1 (wVel1 V D dt vm) := by
    cases vm
    case usePosition =>
      obtain ⟨g1, g2⟩ := d2 rfl
      exact ⟨_, by simp [angVelFirst, f5, (hD g1 g2).1]; rfl, Item.assign _ _⟩
    all_goals exact ⟨v, rfl, hv⟩
  obtain ⟨v1, q2, i2⟩ := s2
  have s3 : ∃ o1, angOri pm o v1 a1 no dt = .ok o1 ∧ o1.Holds (wOri O NO V A NV D' dt pm am) := by
    have hv1 : NO.isSome = false → Item v1 V := by
      intro h
      have : vm ≠ .usePosition := by
        intro h'
        rw [(d2 h').2] at h; cases h
      cases vm <;> first | exact i2 | exact absurd rfl this
    cases pm
    case usePosition => exact ⟨_, rfl, Holds.copy hno⟩
    case useVelocity =>
      obtain ⟨g1, g2, -, g3⟩ := c2 rfl
      obtain ⟨x, rfl⟩ := Option.isSome_iff_exists.1 g1
      obtain ⟨y, rfl⟩ := Option.isSome_iff_exists.1 g2
      obtain ⟨o', e, h'⟩ := Ori.Rep.integrate ho (dt • y)
      exact ⟨o', by simp [angOri, (hv1 g3).read, e], h'⟩
    case useAcceleration =>
      obtain ⟨g1, -, g2, g3⟩ := c4 rfl
      obtain ⟨x, rfl⟩ := Option.isSome_iff_exists.1 g1
      obtain ⟨z, hz⟩ := Option.isSome_iff_exists.1 (hA g2)
      have i1' := i1; rw [hz] at i1'
      obtain ⟨o', e, h'⟩ := Ori.Rep.integrate ho ((dt * dt / 0.5) • z)
      exact ⟨o', by simp only [angOri, i1'.read, e, Res.ok_bind], by simp only [wOri, hz]; exact h'⟩
    case useVelAndAcc =>
      obtain ⟨g1, g2, g4, g3⟩ := c3 rfl
      obtain ⟨x, rfl⟩ := Option.isSome_iff_exists.1 g1
      obtain ⟨y, rfl⟩ := Option.isSome_iff_exists.1 g2
      obtain ⟨z, hz⟩ := Option.isSome_iff_exists.1 (hA g4)
      have i1' := i1; rw [hz] at i1'
      obtain ⟨o', e, h'⟩ := Ori.Rep.integrate ho (dt • y + (dt * dt / 2) • z)
      exact ⟨o', by simp only [angOri, (hv1 g3).read, i1'.read, e, Res.ok_bind], by simp only [wOri, hz]; exact h'⟩
    all_goals exact ⟨o, rfl, ho⟩
  obtain ⟨o1, q3, i4⟩ := s3
  have s4 : ∃ v2, velSecond vm v1 a1 nv dt = .ok v2 ∧ Item v2 (wVel2 V A NV D D' dt vm am) := by
    cases vm
    case useVelocity => exact ⟨_, rfl, hnv.copy⟩
    case useAcceleration =>
      obtain ⟨g1, g2⟩ := d3 rfl
      obtain ⟨y, rfl⟩ := Option.isSome_iff_exists.1 g1
      obtain ⟨w, hw⟩ := Option.isSome_iff_exists.1 (hA g2)
      have i3' := i1; rw [hw] at i3'
      have i2' : Item v1 (some y) := i2
      refine ⟨_, by simp [velSecond, i2'.read, i3'.read]; rfl, ?_⟩
      simp only [wVel2, hw]; exact Item.assign _ _
    all_goals exact ⟨v1, rfl, i2⟩
  obtain ⟨v2, q4, i5⟩ := s4
  have s5 : ∃ a3, accSecond am a1 na = .ok a3 ∧ Item a3 (wAcc3 V A NV NA D' dt am) := by
    cases am
    case useAcceleration =>
      obtain ⟨z, rfl⟩ := Option.isSome_iff_exists.1 (f1 rfl)
      exact ⟨_, by simp [accSecond, hna.read]; rfl, Item.assign _ _⟩
    all_goals exact ⟨a1, rfl, i1⟩
  obtain ⟨a3, q5, i6⟩ := s5
  refine ⟨if fo then o1 else o1.reset, _, _, ?_, ?_, i5.keep fv, i6.keep fa⟩
  · simp only [updateAng, Holds.isSet ho, hv.isSet, ha.isSet, Holds.isSet hno, hnv.isSet, hna.isSet, e1, e2, e3, q1, q2, q3, q4, q5, Res.ok_bind]
  · cases fo
    · exact ⟨rfl, rfl⟩
    · exact i4

theorem pos_total (f p v a np : Bool) : ((f → DeduciblePos p np) ∧ ∃ pm, posMethod f p v a np = .ok pm) ∨
    (¬ (f → DeduciblePos p np) ∧ posMethod f p v a np = .assertFail) := by
  cases f <;> cases p <;> cases v <;> cases a <;> cases np <;> simp [posMethod, DeduciblePos]

theorem vel_total (f p v a np nv : Bool) : ((f → DeducibleVel p v np nv) ∧ ∃ pm, velMethod f p v a np nv = .ok pm) ∨
    (¬ (f → DeducibleVel p v np nv) ∧ velMethod f p v a np nv = .assertFail) := by
  cases f <;> cases p <;> cases v <;> cases np <;> cases nv <;> simp [velMethod, DeducibleVel]

theorem acc_total (g f p v a np nv na : Bool) (vm : Meth) (h : velMethod g p v a np nv = .ok vm) :
    ((f → DeducibleAcc p v a np nv na) ∧ ∃ pm, accMethod f p v a np nv na vm = .ok pm) ∨
    (¬ (f → DeducibleAcc p v a np nv na) ∧ accMethod f p v a np nv na vm = .assertFail) := by
  have h2 := (velMethod_ok h).2.1
  by_cases hvm : vm = .usePosition
  · obtain ⟨rfl, rfl⟩ := h2 hvm
    cases f <;> cases v <;> cases a <;> cases nv <;> cases na <;> simp [accMethod, DeducibleAcc, hvm]
  · cases f <;> cases p <;> cases v <;> cases a <;> cases np <;> cases nv <;> cases na <;> simp [accMethod, DeducibleAcc, hvm]

/-- The methods chosen by `update` for one of the two triples (helper). -/
structure Chosen (fp fv fa p v a np nv na : Bool) (pm vm am : Meth) : Prop where
  pos : posMethod fp p v a np = .ok pm
  vel : velMethod fv p v a np nv = .ok vm
  acc : accMethod fa p v a np nv na vm = .ok am

/-- The value after `update` (helper). -/
noncomputable def updValue (f : KFlags) (a b : Value) (dt : ℝ) (D D' : V3) (pm vm am pm' vm' am' : Meth) : Value where
  pos := if f.pos then vPos a.pos a.linVel a.linAcc b.pos b.linVel dt pm vm am else none
  ori := if f.ori then wOri a.ori b.ori a.angVel a.angAcc b.angVel D' dt pm' am' else none
  linVel := if f.linVel then vVel2 a.pos a.linVel a.linAcc b.pos b.linVel dt vm am else none
  angVel := if f.angVel then wVel2 a.angVel a.angAcc b.angVel D D' dt vm' am' else none
  linAcc := if f.linAcc then vAcc3 a.pos a.linVel a.linAcc b.pos b.linVel b.linAcc dt vm am else none
  angAcc := if f.angAcc then wAcc3 a.angVel a.angAcc b.angVel b.angAcc D' dt am' else none

theorem update_spec {k n : Kin} {a b : Value} (h : k.Has a) (hn : n.Has b) (f : KFlags) (dt : ℝ) :
    (¬ Value.Deducible f a b ∧ k.update n dt f = .assertFail) ∨
    (Value.Deducible f a b ∧ ∃ D D' pm vm am pm' vm' am',
      Chosen f.pos f.linVel f.linAcc a.pos.isSome a.linVel.isSome a.linAcc.isSome b.pos.isSome b.linVel.isSome b.linAcc.isSome pm vm am ∧
      Chosen f.ori f.angVel f.angAcc a.ori.isSome a.angVel.isSome a.angAcc.isSome b.ori.isSome b.angVel.isSome b.angAcc.isSome pm' vm' am' ∧
      (∀ R S, a.ori = some R → b.ori = some S → NormedSpace.exp (hat D) * R = S ∧ nrm D ≤ Real.pi ∧ NormedSpace.exp (hat D') * S = R ∧ nrm D' ≤ Real.pi) ∧
      ∃ k', k.update n dt f = .ok k' ∧ k'.Has (updValue f a b dt D D' pm vm am pm' vm' am')) := by
  rw [update]
  rcases pos_total f.pos a.pos.isSome a.linVel.isSome a.linAcc.isSome b.pos.isSome with ⟨c1, pm, e1⟩ | ⟨c1, e1⟩
  rotate_left
  · exact .inl ⟨fun hc => c1 hc.1, by simp [updateLin, h.pos.isSet, h.linVel.isSet, h.linAcc.isSet, hn.pos.isSet, e1]⟩
  rcases vel_total f.linVel a.pos.isSome a.linVel.isSome a.linAcc.isSome b.pos.isSome b.linVel.isSome with ⟨c2, vm, e2⟩ | ⟨c2, e2⟩
  rotate_left
  · exact .inl ⟨fun hc => c2 hc.2.1, by simp [updateLin, h.pos.isSet, h.linVel.isSet, h.linAcc.isSet, hn.pos.isSet, hn.linVel.isSet, e1, e2]⟩
  rcases acc_total _ f.linAcc a.pos.isSome a.linVel.isSome a.linAcc.isSome b.pos.isSome b.linVel.isSome b.linAcc.isSome vm e2 with ⟨c3, am, e3⟩ | ⟨c3, e3⟩
  rotate_left
  · exact .inl ⟨fun hc => c3 hc.2.2.1, by simp [updateLin, h.pos.isSet, h.linVel.isSet, h.linAcc.isSet, hn.pos.isSet, hn.linVel.isSet, hn.linAcc.isSet, e1, e2, e3]⟩
  obtain ⟨p', v', a', q, i1, i2, i3⟩ := updateLin_spec (dt := dt) h.pos h.linVel h.linAcc hn.pos hn.linVel hn.linAcc e1 e2 e3
  rw [q, Res.ok_bind]
  rcases pos_total f.ori a.ori.isSome a.angVel.isSome a.angAcc.isSome b.ori.isSome with ⟨d1, pm', g1⟩ | ⟨d1, g1⟩
  rotate_left
  · exact .inl ⟨fun hc => d1 hc.2.2.2.1, by simp [updateAng, Holds.isSet h.ori, h.angVel.isSet, h.angAcc.isSet, Holds.isSet hn.ori, g1]⟩
  rcases vel_total f.angVel a.ori.isSome a.angVel.isSome a.angAcc.isSome b.ori.isSome b.angVel.isSome with ⟨d2, vm', g2⟩ | ⟨d2, g2⟩
  rotate_left
  · exact .inl ⟨fun hc => d2 hc.2.2.2.2.1, by simp [updateAng, Holds.isSet h.ori, h.angVel.isSet, h.angAcc.isSet, Holds.isSet hn.ori, hn.angVel.isSet, g1, g2]⟩
  rcases acc_total _ f.angAcc a.ori.isSome a.angVel.isSome a.angAcc.isSome b.ori.isSome b.angVel.isSome b.angAcc.isSome vm' g2 with ⟨d3, am', g3⟩ | ⟨d3, g3⟩
  rotate_left
  · exact .inl ⟨fun hc => d3 hc.2.2.2.2.2, by simp [updateAng, Holds.isSet h.ori, h.angVel.isSet, h.angAcc.isSet, Holds.isSet hn.ori, hn.angVel.isSet, hn.angAcc.isSet, g1, g2, g3]⟩
  refine .inr ⟨⟨c1, c2, c3, d1, d2, d3⟩, ?_⟩
  have hD : ∃ D D', (a.ori.isSome = true → b.ori.isSome = true → k.ori.differentiate n.ori = .ok D ∧ n.ori.differentiate k.ori = .ok D') ∧
      (∀ R S, a.ori = some R → b.ori = some S → NormedSpace.exp (hat D) * R = S ∧ nrm D ≤ Real.pi ∧ NormedSpace.exp (hat D') * S = R ∧ nrm D' ≤ Real.pi) := by
    cases hR : a.ori with
    | none => exact ⟨0, 0, fun h => by simp at h, fun _ _ h => by cases h⟩
    | some R =>
      cases hS : b.ori with
      | none => exact ⟨0, 0, fun _ h => by simp at h, fun _ _ _ h => by cases h⟩
      | some S =>
        have r := h.ori; rw [hR] at r
        have s := hn.ori; rw [hS] at s
        obtain ⟨D, x1, x2, x3⟩ := Ori.Rep.differentiate r s
        obtain ⟨D', y1, y2, y3⟩ := Ori.Rep.differentiate s r
        refine ⟨D, D', fun _ _ => ⟨x1, y1⟩, fun R' S' h1 h2 => ?_⟩
        cases h1; cases h2
        exact ⟨x2, x3, y2, y3⟩
  obtain ⟨D, D', hD, hD'⟩ := hD
  obtain ⟨o', w', b', q', j1, j2, j3⟩ := updateAng_spec (dt := dt) h.ori h.angVel h.angAcc hn.ori hn.angVel hn.angAcc hD g1 g2 g3
  refine ⟨D, D', pm, vm, am, pm', vm', am', ⟨e1, e2, e3⟩, ⟨g1, g2, g3⟩, hD', ⟨p', o', v', w', a', b'⟩, ?_, ⟨i1, j1, i2, j2, i3, j3⟩⟩
  rw [q', Res.ok_bind]

end Kin
end StateObs.Kine
