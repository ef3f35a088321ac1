import Verif.Kin.Orientation
/-!
# The structure `Kinematics`

include/state-observation/tools/rigid-body-kinematics.hpp 467-543, rigid-body-kinematics.hxx 1034-1889 (`update_deprecated` is in `DepModel`;
the stream operator is in `PrintModel`). The fields are checked items (debug build). The flags are six booleans instead of the bits of a byte. Vectors of
variable size are lists. `tempVec_` only holds intermediate results and is left out. Functions declared `const` that compute a matrix in an
`Orientation` return the modified object.
-/

namespace StateObs.Kine
open StateObs Matrix Rot

/-- Fields, rigid-body-kinematics.hpp 529-536. -/
structure Kin where
  pos : CItem V3
  ori : Ori
  linVel : CItem V3
  angVel : CItem V3
  linAcc : CItem V3
  angAcc : CItem V3

/-- `Kinematics::Flags`, hpp 469-482. -/
structure KFlags where
  pos : Bool
  ori : Bool
  linVel : Bool
  angVel : Bool
  linAcc : Bool
  angAcc : Bool
  deriving DecidableEq

/-- `Flags::all`. -/
def KFlags.all : KFlags := ⟨true, true, true, true, true, true⟩

namespace Kin

/-- `Kinematics()`, hpp 484: members constructed by default. -/
def new : Kin := ⟨CItem.new true, Ori.new true, CItem.new true, CItem.new true, CItem.new true, CItem.new true⟩

/-- `reset`, hxx 1881-1889. -/
def reset (k : Kin) : Kin := ⟨k.pos.reset, k.ori.reset, k.linVel.reset, k.angVel.reset, k.linAcc.reset, k.angAcc.reset⟩

/-- `item.set().setZero()` if the flag is set, `setZero` hxx 1129-1157. -/
def zeroItem (f : Bool) (i : CItem V3) : CItem V3 := if f then i.assign 0 else i

/-- `setZero(flags)` (quaternion), hxx 1118-1165. -/
def setZero (k : Kin) (f : KFlags) : Kin where
  pos := zeroItem f.pos k.pos
  ori := if f.ori then k.ori.setZeroQuat else k.ori
  linVel := zeroItem f.linVel k.linVel
  angVel := zeroItem f.angVel k.angVel
  linAcc := zeroItem f.linAcc k.linAcc
  angAcc := zeroItem f.angAcc k.angAcc

/-! ## Vectors -/

/-- The three numbers of a list from `i`. -/
def seg3 (l : List ℝ) (i : ℕ) : V3 := ![l.getD i 0, l.getD (i + 1) 0, l.getD (i + 2) 0]

/-- The four numbers of a list from `i`. -/
def seg4 (l : List ℝ) (i : ℕ) : Fin 4 → ℝ := ![l.getD i 0, l.getD (i + 1) 0, l.getD (i + 2) 0, l.getD (i + 3) 0]

/-- One of the blocks `if(flag){ BOOST_ASSERT(v.size() >= index + 3); … = v.segment<3>(index); index += 3; }` of `fromVector`, hxx 1055-1112. -/
def loadItem (f : Bool) (l : List ℝ) (index : ℕ) (i : CItem V3) : Res (CItem V3 × ℕ) :=
  if f then
    if index + 3 ≤ l.length then .ok (i.assign (seg3 l index), index + 3) else .assertFail
  else .ok (i, index)

/-- The block of the orientation, hxx 1065-1073. -/
def loadOri (f : Bool) (l : List ℝ) (index : ℕ) (o : Ori) : Res (Ori × ℕ) :=
  if f then
    if index + 4 ≤ l.length then .ok (o.fromVector4 (seg4 l index), index + 4) else .assertFail
  else .ok (o, index)

/-- `fromVector`, hxx 1044-1112. -/
def fromVector (k : Kin) (l : List ℝ) (f : KFlags) : Res Kin := do
  let p ← loadItem f.pos l 0 k.pos
  let o ← loadOri f.ori l p.2 k.ori
  let v ← loadItem f.linVel l o.2 k.linVel
  let w ← loadItem f.angVel l v.2 k.angVel
  let a ← loadItem f.linAcc l w.2 k.linAcc
  let b ← loadItem f.angAcc l a.2 k.angAcc
  .ok ⟨p.1, o.1, v.1, w.1, a.1, b.1⟩

/-- One of the blocks that write three numbers into the output, `toVector` hxx 1783-1812, 1848-1876. -/
def storeItem (f : Bool) (i : CItem V3) : Res (List ℝ) :=
  if f then do
    let x ← i.read dbg
    .ok [x 0, x 1, x 2]
  else .ok []

/-- The block of the orientation, hxx 1788-1792, 1853-1857. -/
noncomputable def storeOri (f : Bool) (o : Ori) : Res (List ℝ × Ori) :=
  if f then do
    let r ← o.toVector4
    .ok ([r.1 0, r.1 1, r.1 2, r.1 3], r.2)
  else .ok ([], o)

/-- `toVector(flags)`, hxx 1752-1815: the vector and the object, in which a quaternion may have been computed. The size of the output is the sum of the
sizes of the blocks. -/
noncomputable def toVector (k : Kin) (f : KFlags) : Res (List ℝ × Kin) := do
  let p ← storeItem f.pos k.pos
  let o ← storeOri f.ori k.ori
  let v ← storeItem f.linVel k.linVel
  let w ← storeItem f.angVel k.angVel
  let a ← storeItem f.linAcc k.linAcc
  let b ← storeItem f.angAcc k.angAcc
  .ok (p ++ o.1 ++ v ++ w ++ a ++ b, { k with ori := o.2 })

/-- The fields that are set. -/
def flags (k : Kin) : KFlags :=
  ⟨k.pos.isSet dbg, k.ori.isSet, k.linVel.isSet dbg, k.angVel.isSet dbg, k.linAcc.isSet dbg, k.angAcc.isSet dbg⟩

/-- `toVector()`, hxx 1817-1878: the same blocks, each guarded by `isSet` instead of a flag. -/
noncomputable def toVectorSet (k : Kin) : Res (List ℝ × Kin) := k.toVector k.flags

/-! ## Integration -/

/-- `if(orientation.isSet()) orientation.integrate(v);`, hxx 1173-1176 and 1181-1184. -/
noncomputable def integrateOri (o : Ori) (v : V3) : Res Ori := if o.isSet then o.integrate v else .ok o

/-- `if(position.isSet()) position() += v;`, hxx 1192-1195 and 1200-1203. -/
def integratePos (i : CItem V3) (v : V3) : Res (CItem V3) :=
  if i.isSet dbg then do
    let x ← i.read dbg
    .ok (i.assign (x + v))
  else .ok i

/-- The angular part of `integrate`, hxx 1169-1187. -/
noncomputable def integrateAng (k : Kin) (dt : ℝ) : Res Kin :=
  if k.angVel.isSet dbg then do
    let w ← k.angVel.read dbg
    if k.angAcc.isSet dbg then do
      let b ← k.angAcc.read dbg
      let o ← integrateOri k.ori (dt • w + (dt * dt / 2) • b)
      .ok { k with ori := o, angVel := k.angVel.assign (w + dt • b) }
    else do
      let o ← integrateOri k.ori (dt • w)
      .ok { k with ori := o }
  else .ok k

/-- The linear part of `integrate`, hxx 1188-1205. -/
noncomputable def integrateLin (k : Kin) (dt : ℝ) : Res Kin :=
  if k.linVel.isSet dbg then do
    let v ← k.linVel.read dbg
    if k.linAcc.isSet dbg then do
      let a ← k.linAcc.read dbg
      let p ← integratePos k.pos (dt • v + (dt * dt / 2) • a)
      .ok { k with pos := p, linVel := k.linVel.assign (v + dt • a) }
    else do
      let p ← integratePos k.pos (dt • v)
      .ok { k with pos := p }
  else .ok k

/-- `integrate`, hxx 1167-1208. -/
noncomputable def integrate (k : Kin) (dt : ℝ) : Res Kin := do
  let k ← k.integrateAng dt
  k.integrateLin dt

/-! ## Composition -/

/-- The accelerations in the position part of the product, hxx 1682-1693 (`x = R1 p2`, `xd = R1 p2'`, `s = ω1 × R1 p2 + R1 p2'`). -/
def productLinAcc (k k1 k2 : Kin) (x xd s : V3) : Res (Kin × Kin) :=
  if k2.linAcc.isSet dbg && k1.linAcc.isSet dbg && k1.angAcc.isSet dbg then do
    let a2 ← k2.linAcc.read dbg
    let r ← k1.ori.rotate a2
    let b1 ← k1.angAcc.read dbg
    let w1 ← k1.angVel.read dbg
    let a1 ← k1.linAcc.read dbg
    .ok ({ k with linAcc := k.linAcc.assign (r.1 + b1 ⨯₃ x + w1 ⨯₃ (s + xd) + a1) }, { k1 with ori := r.2 })
  else .ok ({ k with linAcc := k.linAcc.reset }, k1)

/-- The velocities in the position part of the product, hxx 1670-1701. -/
def productLinVel (k k1 k2 : Kin) (x : V3) : Res (Kin × Kin) :=
  if k2.linVel.isSet dbg && k1.linVel.isSet dbg && k1.angVel.isSet dbg then do
    let v2 ← k2.linVel.read dbg
    let r ← k1.ori.rotate v2
    let w1 ← k1.angVel.read dbg
    let s := w1 ⨯₃ x + r.1
    let c ← productLinAcc k { k1 with ori := r.2 } k2 x r.1 s
    let v1 ← k1.linVel.read dbg
    .ok ({ c.1 with linVel := c.1.linVel.assign (s + v1) }, c.2)
  else .ok ({ k with linVel := k.linVel.reset, linAcc := k.linAcc.reset }, k1)

/-- The position part of the product, hxx 1664-1710. -/
def productLin (k k1 k2 : Kin) : Res (Kin × Kin) :=
  if k2.pos.isSet dbg && k1.pos.isSet dbg then do
    let p2 ← k2.pos.read dbg
    let r ← k1.ori.rotate p2
    let c ← productLinVel k { k1 with ori := r.2 } k2 r.1
    let p1 ← k1.pos.read dbg
    .ok ({ c.1 with pos := c.1.pos.assign (r.1 + p1) }, c.2)
  else .ok ({ k with pos := k.pos.reset, linVel := k.linVel.reset, linAcc := k.linAcc.reset }, k1)

/-- The accelerations in the orientation part, hxx 1722-1732 (`y = R1 ω2`). -/
def productAngAcc (k k1 k2 : Kin) (y : V3) : Res (Kin × Kin) :=
  if k2.angAcc.isSet dbg && k1.angAcc.isSet dbg then do
    let b2 ← k2.angAcc.read dbg
    let r ← k1.ori.rotate b2
    let w1 ← k1.angVel.read dbg
    let b1 ← k1.angAcc.read dbg
    .ok ({ k with angAcc := k.angAcc.assign (r.1 + w1 ⨯₃ y + b1) }, { k1 with ori := r.2 })
  else .ok ({ k with angAcc := k.angAcc.reset }, k1)

/-- The velocities in the orientation part, hxx 1716-1741. -/
def productAngVel (k k1 k2 : Kin) : Res (Kin × Kin) :=
  if k2.angVel.isSet dbg && k1.angVel.isSet dbg then do
    let w2 ← k2.angVel.read dbg
    let r ← k1.ori.rotate w2
    let c ← productAngAcc k { k1 with ori := r.2 } k2 r.1
    let w1 ← k1.angVel.read dbg
    .ok ({ c.1 with angVel := c.1.angVel.assign (r.1 + w1) }, c.2)
  else .ok ({ k with angVel := k.angVel.reset, angAcc := k.angAcc.reset }, k1)

/-- The orientation part of the product, hxx 1712-1747. -/
def productAng (k k1 k2 : Kin) : Res (Kin × Kin × Kin) :=
  if k2.ori.isSet then do
    let r ← k.ori.setToProductNoAlias k1.ori k2.ori
    let c ← productAngVel { k with ori := r.1 } { k1 with ori := r.2.1 } { k2 with ori := r.2.2 }
    .ok (c.1, c.2, { k2 with ori := r.2.2 })
  else .ok ({ k with ori := k.ori.reset, angVel := k.angVel.reset, angAcc := k.angAcc.reset }, k1, k2)

/-- `setToProductNoAlias`, hxx 1656-1750: the new `*this` and both operands. `*this` is neither operand. If both operands are the same object, the code may
find in the second the matrix it has computed in the first, where the model does not: the result holds the same rotation, with or without its matrix. -/
def setToProductNoAlias (k k1 k2 : Kin) : Res (Kin × Kin × Kin) := do
  Res.assert k1.ori.isSet
  Res.assert (k2.pos.isSet dbg || k2.ori.isSet)
  let c ← productLin k k1 k2
  productAng c.1 c.2 k2

/-- `Kinematics(multiplier1, multiplier2)` and `operator*`, hxx 1039-1042, 1651-1654. -/
def product (k1 k2 : Kin) : Res (Kin × Kin × Kin) := setToProductNoAlias new k1 k2

/-- The angular accelerations of the inverse, hxx 1623-1626. -/
def inverseAngAcc (k i : Kin) (w : V3) : Res Kin :=
  if k.angAcc.isSet dbg then do
    let b ← k.angAcc.read dbg
    let r ← i.ori.rotate (w ⨯₃ w - b)
    .ok { i with angAcc := i.angAcc.assign r.1, ori := r.2 }
  else .ok i

/-- The angular velocities of the inverse, hxx 1619-1627. -/
def inverseAng (k i : Kin) : Res Kin :=
  if k.angVel.isSet dbg then do
    let w ← k.angVel.read dbg
    let r ← i.ori.rotate w
    inverseAngAcc k { i with angVel := i.angVel.assign (-r.1), ori := r.2 } w
  else .ok i

/-- The linear accelerations of the inverse, hxx 1638-1643. -/
def inverseLinAcc (k i : Kin) (p v w : V3) : Res Kin :=
  if k.linAcc.isSet dbg && k.angAcc.isSet dbg then do
    let a ← k.linAcc.read dbg
    let b ← k.angAcc.read dbg
    let r ← i.ori.rotate (w ⨯₃ ((2 : ℝ) • v - w ⨯₃ p) - a + b ⨯₃ p)
    .ok { i with linAcc := i.linAcc.assign r.1, ori := r.2 }
  else .ok i

/-- The linear velocities of the inverse, hxx 1633-1644. -/
def inverseLinVel (k i : Kin) (p : V3) : Res Kin :=
  if k.linVel.isSet dbg && k.angVel.isSet dbg then do
    let v ← k.linVel.read dbg
    let w ← k.angVel.read dbg
    let r ← i.ori.rotate (w ⨯₃ p - v)
    inverseLinAcc k { i with linVel := i.linVel.assign r.1, ori := r.2 } p v w
  else .ok i

/-- The position of the inverse, hxx 1629-1645. -/
def inverseLin (k i : Kin) : Res Kin :=
  if k.pos.isSet dbg then do
    let p ← k.pos.read dbg
    let r ← i.ori.rotate p
    inverseLinVel k { i with pos := i.pos.assign (-r.1), ori := r.2 } p
  else .ok i

/-- `getInverse`, hxx 1610-1647. -/
noncomputable def getInverse (k : Kin) : Res Kin := do
  Res.assert k.ori.isSet
  let o ← k.ori.inverse
  let i ← inverseAng k { new with ori := o }
  inverseLin k i

/-! ## Update -/

/-- `method` of `update`, hxx 1225-1233 and 1423-1431 (`useOrientation` is `usePosition`, `useOriAndVel` is `usePosAndVel`). -/
inductive Meth where
  | noUpdate
  | usePosition
  | useVelocity
  | useAcceleration
  | useVelAndAcc
  | usePosAndVel
  deriving DecidableEq

/-- `posMethod`, hxx 1239-1267 and 1437-1465 (`p v a`: which fields of `*this` are set, `np`: the new one). -/
def posMethod (f p v a np : Bool) : Res Meth :=
  if f then
    if np then .ok .usePosition
    else if !p then .assertFail
    else if v then .ok (if a then .useVelAndAcc else .useVelocity)
    else .ok (if a then .useAcceleration else .noUpdate)
  else .ok .noUpdate

/-- `velMethod`, hxx 1269-1290 and 1467-1489. -/
def velMethod (f p v a np nv : Bool) : Res Meth :=
  if f then
    if nv then .ok .useVelocity
    else if p && np then .ok .usePosition
    else if !v then .assertFail
    else .ok (if a then .useAcceleration else .noUpdate)
  else .ok .noUpdate

/-- `accMethod`, hxx 1292-1324 and 1491-1522. -/
def accMethod (f p v a np nv na : Bool) (vm : Meth) : Res Meth :=
  if f then
    if na then .ok .useAcceleration
    else if v && nv then .ok .useVelocity
    else if v && vm = .usePosition then .ok .usePosAndVel
    else if p && np then .ok .usePosition
    else if !a then .assertFail
    else .ok .noUpdate
  else .ok .noUpdate

/-- hxx 1326-1336: the acceleration computed before the velocity. -/
noncomputable def linAccFirst (am : Meth) (p v a np nv : CItem V3) (dt : ℝ) : Res (CItem V3) :=
  match am with
  | .useVelocity => do
    let x ← nv.read dbg
    let y ← v.read dbg
    .ok (a.assign ((1 / dt) • (x - y)))
  | .usePosition => do
    let x ← np.read dbg
    let y ← p.read dbg
    .ok (a.assign ((2 / (dt * dt)) • (x - y)))
  | _ => .ok a

/-- hxx 1338-1351: the velocity computed from the positions (velocity and acceleration). -/
noncomputable def linVelFirst (vm am : Meth) (p v a np : CItem V3) (dt : ℝ) : Res (CItem V3 × CItem V3) :=
  match vm with
  | .usePosition => do
    let x ← np.read dbg
    let y ← p.read dbg
    if am = .usePosAndVel then do
      let v0 ← v.read dbg
      .ok (v.assign ((1 / dt) • (x - y)), a.assign ((1 / dt) • (-v0 + (1 / dt) • (x - y))))
    else .ok (v.assign ((1 / dt) • (x - y)), a)
  | _ => .ok (v, a)

/-- hxx 1353-1377: the position. -/
noncomputable def linPos (pm : Meth) (p v a np : CItem V3) (dt : ℝ) : Res (CItem V3) :=
  match pm with
  | .usePosition => .ok (p.copyFrom dbg np)
  | .useVelocity => do
    let x ← p.read dbg
    let y ← v.read dbg
    .ok (p.assign (x + dt • y))
  | .useVelAndAcc => do
    let x ← p.read dbg
    let y ← v.read dbg
    let z ← a.read dbg
    .ok (p.assign (x + (dt • y + (dt * dt / 2) • z)))
  | .useAcceleration => do
    let x ← p.read dbg
    let z ← a.read dbg
    .ok (p.assign (x + (dt * dt / 0.5) • z))
  | _ => .ok p

/-- hxx 1379-1389 and 1577-1587: the velocity. -/
noncomputable def velSecond (vm : Meth) (v a nv : CItem V3) (dt : ℝ) : Res (CItem V3) :=
  match vm with
  | .useVelocity => .ok (v.copyFrom dbg nv)
  | .useAcceleration => do
    let y ← v.read dbg
    let z ← a.read dbg
    .ok (v.assign (y + dt • z))
  | _ => .ok v

/-- hxx 1391-1394 and 1589-1592: the acceleration. -/
def accSecond (am : Meth) (a na : CItem V3) : Res (CItem V3) :=
  match am with
  | .useAcceleration => do
    let z ← na.read dbg
    .ok (a.assign z)
  | _ => .ok a

/-- `if(!flag) item.reset();`, hxx 1396-1407, 1594-1605. -/
def keep {α : Type} (f : Bool) (i : CItem α) : CItem α := if f then i else i.reset

/-- The linear block of `update`, hxx 1212-1408: position, velocity, acceleration. -/
noncomputable def updateLin (fp fv fa : Bool) (p v a np nv na : CItem V3) (dt : ℝ) : Res (CItem V3 × CItem V3 × CItem V3) := do
  let pm ← posMethod fp (p.isSet dbg) (v.isSet dbg) (a.isSet dbg) (np.isSet dbg)
  let vm ← velMethod fv (p.isSet dbg) (v.isSet dbg) (a.isSet dbg) (np.isSet dbg) (nv.isSet dbg)
  let am ← accMethod fa (p.isSet dbg) (v.isSet dbg) (a.isSet dbg) (np.isSet dbg) (nv.isSet dbg) (na.isSet dbg) vm
  let a1 ← linAccFirst am p v a np nv dt
  let va ← linVelFirst vm am p v a1 np dt
  let p1 ← linPos pm p va.1 va.2 np dt
  let v1 ← velSecond vm va.1 va.2 nv dt
  let a2 ← accSecond am va.2 na
  .ok (keep fp p1, keep fv v1, keep fa a2)

/-- hxx 1524-1534: the acceleration computed before the velocity. -/
noncomputable def angAccFirst (am : Meth) (o : Ori) (v a : CItem V3) (no : Ori) (nv : CItem V3) (dt : ℝ) : Res (CItem V3) :=
  match am with
  | .useVelocity => do
    let x ← nv.read dbg
    let y ← v.read dbg
    .ok (a.assign ((1 / dt) • (x - y)))
  | .usePosition => do
    let d ← no.differentiate o
    .ok (a.assign ((2 / (dt * dt)) • d))
  | _ => .ok a

/-- hxx 1536-1549: the velocity computed from the orientations. The acceleration is computed if `accMethod` is `useVelAndAcc`, which it never is. -/
noncomputable def angVelFirst (vm am : Meth) (o : Ori) (v a : CItem V3) (no : Ori) (dt : ℝ) : Res (CItem V3 × CItem V3) :=
  match vm with
  | .usePosition => do
    if am = .useVelAndAcc then do
      let v0 ← v.read dbg
      let d ← o.differentiate no
      .ok (v.assign ((1 / dt) • d), a.assign ((1 / dt) • (-v0 + (1 / dt) • d)))
    else do
      let d ← o.differentiate no
      .ok (v.assign ((1 / dt) • d), a)
  | _ => .ok (v, a)

/-- hxx 1551-1575: the orientation. -/
noncomputable def angOri (pm : Meth) (o : Ori) (v a : CItem V3) (no : Ori) (dt : ℝ) : Res Ori :=
  match pm with
  | .usePosition => .ok (o.copyFrom no)
  | .useVelocity => do
    let y ← v.read dbg
    o.integrate (dt • y)
  | .useVelAndAcc => do
    let y ← v.read dbg
    let z ← a.read dbg
    o.integrate (dt • y + (dt * dt / 2) • z)
  | .useAcceleration => do
    let z ← a.read dbg
    o.integrate ((dt * dt / 0.5) • z)
  | _ => .ok o

/-- The angular block of `update`, hxx 1410-1606. -/
noncomputable def updateAng (fo fv fa : Bool) (o : Ori) (v a : CItem V3) (no : Ori) (nv na : CItem V3) (dt : ℝ) :
    Res (Ori × CItem V3 × CItem V3) := do
  let pm ← posMethod fo o.isSet (v.isSet dbg) (a.isSet dbg) no.isSet
  let vm ← velMethod fv o.isSet (v.isSet dbg) (a.isSet dbg) no.isSet (nv.isSet dbg)
  let am ← accMethod fa o.isSet (v.isSet dbg) (a.isSet dbg) no.isSet (nv.isSet dbg) (na.isSet dbg) vm
  let a1 ← angAccFirst am o v a no nv dt
  let va ← angVelFirst vm am o v a1 no dt
  let o1 ← angOri pm o va.1 va.2 no dt
  let v1 ← velSecond vm va.1 va.2 nv dt
  let a2 ← accSecond am va.2 na
  .ok (if fo then o1 else o1.reset, keep fv v1, keep fa a2)

/-- `update`, hxx 1210-1608. -/
noncomputable def update (k n : Kin) (dt : ℝ) (f : KFlags) : Res Kin := do
  let l ← updateLin f.pos f.linVel f.linAcc k.pos k.linVel k.linAcc n.pos n.linVel n.linAcc dt
  let r ← updateAng f.ori f.angVel f.angAcc k.ori k.angVel k.angAcc n.ori n.angVel n.angAcc dt
  .ok ⟨l.1, r.1, l.2.1, r.2.1, l.2.2, r.2.2⟩

end Kin
end StateObs.Kine
