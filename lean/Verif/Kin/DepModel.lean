import Verif.Kin.Model
/-!
# The previous version of the update of kinematics

Model of `Kinematics::update_deprecated`, include/state-observation/tools/rigid-body-kinematics.hxx 1891-2106. The fields are the same as in `Kin.update`. The
local copies (`curPos`, `curLinVel`, ...) are made with the default constructors, so they are not set until they are assigned. Aliasing (the same object given as
the new value) is not modelled.
-/

namespace StateObs.Kine
open StateObs Matrix Rot

namespace Kin

/-- The local copy of the previous value, if the condition holds (hxx 1901, 1905-1908, 1935-1938, 2006, 2042-2045). -/
def depSave (c : Bool) (x : CItem V3) : CItem V3 := if c then (CItem.new true).copyFrom dbg x else CItem.new true

/-- hxx 1903-1931: the position. -/
noncomputable def depPos (fp : Bool) (p v a np : CItem V3) (dt : ℝ) : Res (CItem V3) :=
  if fp then
    if np.isSet dbg then .ok (p.copyFrom dbg np)
    else if p.isSet dbg then
      if v.isSet dbg then do
        let x ← p.read dbg
        let y ← v.read dbg
        let p1 := p.assign (x + dt • y)
        if a.isSet dbg then do
          let x1 ← p1.read dbg
          let z ← a.read dbg
          .ok (p1.assign (x1 + (dt * dt / 2) • z))
        else .ok p1
      else .ok p
    else .ok (p.assign 0)
  else .ok p

/-- hxx 1945-1957, without the test of the new velocity: the increment of the position between the saved one (`cp`), or the present one (`p`) if `fp` is not
flagged, and the new one. -/
def depDiff (p cp np : CItem V3) : Res V3 :=
  if cp.isSet dbg then do
    let x ← np.read dbg
    let y ← cp.read dbg
    .ok (x - y)
  else do
    let x ← np.read dbg
    let y ← p.read dbg
    .ok (x - y)

/-- hxx 1958-1971, 2065-2078: the velocity if it cannot be obtained from the new values. -/
noncomputable def depVelKeep (v a : CItem V3) (dt : ℝ) : Res (CItem V3) :=
  if v.isSet dbg then
    if a.isSet dbg then do
      let y ← v.read dbg
      let z ← a.read dbg
      .ok (v.assign (y + dt • z))
    else .ok v
  else .ok (v.assign 0)

/-- hxx 1933-1972: the velocity. -/
noncomputable def depLinVel (fp fv : Bool) (p v a cp np nv : CItem V3) (dt : ℝ) : Res (CItem V3) :=
  if fv then
    if nv.isSet dbg then .ok (v.copyFrom dbg nv)
    else if np.isSet dbg && (cp.isSet dbg || (p.isSet dbg && !fp)) then do
      let d ← depDiff p cp np
      .ok (v.assign ((1 / dt) • d))
    else depVelKeep v a dt
  else .ok v

/-- hxx 1974-2002, 2081-2106: the acceleration (`v` is the velocity at this point, `cv` the saved one). -/
noncomputable def depAcc (fv fa : Bool) (v a cv nv na : CItem V3) (dt : ℝ) : Res (CItem V3) :=
  if fa then
    if na.isSet dbg then .ok (a.copyFrom dbg na)
    else if nv.isSet dbg && (cv.isSet dbg || (v.isSet dbg && !fv)) then do
      let d ← depDiff v cv nv
      .ok (a.assign ((1 / dt) • d))
    else if a.isSet dbg then .ok a
    else .ok (a.assign 0)
  else .ok a

/-- hxx 1900-2003: the linear part. -/
noncomputable def depLin (fp fv fa : Bool) (p v a np nv na : CItem V3) (dt : ℝ) : Res (CItem V3 × CItem V3 × CItem V3) := do
  let cp := depSave (fp && fv && !nv.isSet dbg && p.isSet dbg && np.isSet dbg) p
  let p1 ← depPos fp p v a np dt
  let cv := depSave (fv && fa && !na.isSet dbg && nv.isSet dbg) v
  let v1 ← depLinVel fp fv p1 v a cp np nv dt
  let a1 ← depAcc fv fa v1 a cv nv na dt
  .ok (p1, v1, a1)

/-- The local copy of the orientation (hxx 2005, 2010-2013). -/
def depSaveOri (c : Bool) (o : Ori) : Ori := if c then (Ori.new true).copyFrom o else Ori.new true

/-- hxx 2008-2038: the orientation. -/
noncomputable def depOri (fo : Bool) (o : Ori) (v a : CItem V3) (no : Ori) (dt : ℝ) : Res Ori :=
  if fo then
    if no.isSet then .ok (o.copyFrom no)
    else if o.isSet then
      if v.isSet dbg then do
        let y ← v.read dbg
        let i := 0 + dt • y
        if a.isSet dbg then do
          let z ← a.read dbg
          o.integrate (i + (dt * dt / 2) • z)
        else o.integrate i
      else .ok o
    else .ok (o.assignQuat 1)
  else .ok o

/-- hxx 2040-2079: the angular velocity. -/
noncomputable def depAngVel (fo fv : Bool) (o : Ori) (v a : CItem V3) (co no : Ori) (nv : CItem V3) (dt : ℝ) : Res (CItem V3) :=
  if fv then
    if nv.isSet dbg then .ok (v.copyFrom dbg nv)
    else if no.isSet && (co.isSet || (o.isSet && !fo)) then do
      let d ← if co.isSet then co.differentiate no else o.differentiate no
      .ok (v.assign ((1 / dt) • d))
    else depVelKeep v a dt
  else .ok v

/-- hxx 2004-2106: the angular part. -/
noncomputable def depAng (fo fv fa : Bool) (o : Ori) (v a : CItem V3) (no : Ori) (nv na : CItem V3) (dt : ℝ) : Res (Ori × CItem V3 × CItem V3) := do
  let co := depSaveOri (fo && fv && !nv.isSet dbg && o.isSet && no.isSet) o
  let o1 ← depOri fo o v a no dt
  let cv := depSave (fv && fa && !na.isSet dbg && nv.isSet dbg) v
  let v1 ← depAngVel fo fv o1 v a co no nv dt
  let a1 ← depAcc fv fa v1 a cv nv na dt
  .ok (o1, v1, a1)

/-- `update_deprecated`, hxx 1891-2106. -/
noncomputable def updateDeprecated (k n : Kin) (dt : ℝ) (f : KFlags) : Res Kin := do
  let l ← depLin f.pos f.linVel f.linAcc k.pos k.linVel k.linAcc n.pos n.linVel n.linAcc dt
  let r ← depAng f.ori f.angVel f.angAcc k.ori k.angVel k.angAcc n.ori n.angVel n.angAcc dt
  .ok ⟨l.1, r.1, l.2.1, r.2.1, l.2.2, r.2.2⟩

end Kin
end StateObs.Kine
