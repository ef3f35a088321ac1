import Verif.Kalman.LLT
import Verif.ZeroDelay.Model
/-!
# KalmanFilterBase and LinearKalmanFilter

src/kalman-filter-base.cpp, src/linear-kalman-filter.cpp and the corresponding headers. All vectors and matrices are
dynamically sized as in the code. The linear/extended specific members are in the extension `E`.
-/

namespace StateObs.KF
open StateObs

/-- `StateVectorArithmetics` (state-vector-arithmetics.cpp 5-36): the customisable operations. `stateDifference` also gets the
previous content of its output argument (an implementation may leave part of it untouched). -/
structure Arith where
  stateSum : DVec → DVec → Res DVec
  stateDifference : DVec → DVec → DVec → Res DVec
  measurementDifference : DVec → DVec → Res DVec

/-- The default arithmetic, state-vector-arithmetics.cpp 5-36. -/
def Arith.default : Arith := ⟨DVec.add, fun _ a b => DVec.sub a b, DVec.sub⟩

/-- Data members of `KalmanFilterBase` besides `x_`, `y_`, `u_` (kalman-filter-base.hpp 330-380 and the sizes of
observer-base.hpp), and of the derived class (`ext`). -/
structure KData (E : Type) where
  n : Nat
  nt : Nat
  m : Nat
  mt : Nat
  p : Nat
  a : DMat
  c : DMat
  q : DMat
  r : DMat
  pr : DMat
  xbar : Option (DVec × Int)
  ybar : Option (DVec × Int)
  innovation : DVec
  kGain : DMat
  arith : Arith
  ext : E

/-- A filter: `x_`, `y_`, `u_` and the members above. -/
abbrev KFilter (E : Type) := Obs (KData E) DVec DVec DVec

variable {E : Type}

/-- `checkStateVector`, `checkMeasureVector`, `checkInputVector` (observer-base.cpp 28-71) for the current sizes. -/
def cfg (s : KFilter E) : ObsCfg DVec DVec DVec :=
  ⟨fun v => v.hasSize s.st.n, fun v => v.hasSize s.st.m, fun v => v.hasSize s.st.p, s.st.p⟩

/-- Value of an indexed vector (`IndexedMatrixT::operator()`, definitions.hpp): asserts that it is set. -/
def val (x : Option (DVec × Int)) : Res DVec :=
  match x with
  | none => .assertFail
  | some (v, _) => .ok v

/-- `checkAmatrix`, kalman-filter-base.cpp 205-208. -/
def KData.checkA (st : KData E) (a : DMat) : Bool := a.hasSize st.nt st.nt
/-- `checkCmatrix`, kalman-filter-base.cpp 225-228. -/
def KData.checkC (st : KData E) (c : DMat) : Bool := c.hasSize st.mt st.nt
/-- `checkQmatrix`, kalman-filter-base.cpp 250-253. -/
def KData.checkQ (st : KData E) (q : DMat) : Bool := q.hasSize st.nt st.nt
/-- `checkRmatrix`, kalman-filter-base.cpp 275-278. -/
def KData.checkR (st : KData E) (r : DMat) : Bool := r.hasSize st.mt st.mt
/-- `checkPmatrix`, kalman-filter-base.cpp 300-303. -/
def KData.checkP (st : KData E) (p : DMat) : Bool := p.hasSize st.nt st.nt

/-- `setA`, kalman-filter-base.cpp 27-31. -/
def setA (s : KFilter E) (a : DMat) : Res (KFilter E) := do
  Res.assert (s.st.checkA a)
  .ok { s with st := { s.st with a := a } }
/-- `setC`, kalman-filter-base.cpp 43-47. -/
def setC (s : KFilter E) (c : DMat) : Res (KFilter E) := do
  Res.assert (s.st.checkC c)
  .ok { s with st := { s.st with c := c } }
/-- `setR`, kalman-filter-base.cpp 59-63. -/
def setR (s : KFilter E) (r : DMat) : Res (KFilter E) := do
  Res.assert (s.st.checkR r)
  .ok { s with st := { s.st with r := r } }
/-- `setQ`, kalman-filter-base.cpp 75-79. -/
def setQ (s : KFilter E) (q : DMat) : Res (KFilter E) := do
  Res.assert (s.st.checkQ q)
  .ok { s with st := { s.st with q := q } }
/-- `setStateCovariance`, kalman-filter-base.cpp 97-101. -/
def setStateCovariance (s : KFilter E) (p : DMat) : Res (KFilter E) := do
  Res.assert (s.st.checkP p)
  .ok { s with st := { s.st with pr := p } }

/-- `clearA`, kalman-filter-base.cpp 38-41. -/
def clearA (s : KFilter E) : KFilter E := { s with st := { s.st with a := DMat.empty } }
/-- `clearC`, kalman-filter-base.cpp 49-52. -/
def clearC (s : KFilter E) : KFilter E := { s with st := { s.st with c := DMat.empty } }
/-- `clearR`, kalman-filter-base.cpp 70-73. -/
def clearR (s : KFilter E) : KFilter E := { s with st := { s.st with r := DMat.empty } }
/-- `clearQ`, kalman-filter-base.cpp 86-89. -/
def clearQ (s : KFilter E) : KFilter E := { s with st := { s.st with q := DMat.empty } }
/-- `clearStateCovariance`, kalman-filter-base.cpp 103-106. -/
def clearStateCovariance (s : KFilter E) : KFilter E := { s with st := { s.st with pr := DMat.empty } }
/-- `clearStates`, kalman-filter-base.cpp 91-95. -/
def clearStates (s : KFilter E) : KFilter E := clearStateCovariance (Obs.clearStates s)

/-- `reset`, kalman-filter-base.cpp 178-183 with observer-base.cpp 79-84 (`clearStates` is virtual). -/
def reset (s : KFilter E) : KFilter E :=
  clearStateCovariance (Obs.clearInputs (Obs.clearMeasurements (clearStates s)))

/-- The virtual functions `prediction_` and `predictSensor_` of the derived class; they store their result in `xbar_`, `ybar_`. -/
structure Virt (E : Type) where
  prediction : KFilter E → Int → Res (KFilter E)
  predictSensor : KFilter E → Int → Res (KFilter E)

/-- Inverse of the innovation covariance, kalman-filter-base.cpp 125-131. -/
noncomputable def lltInv (S : DMat) : Res DMat :=
  if h : S.rows = S.cols then do
    let M ← lltInverse (S.val.submatrix (Fin.cast rfl) (Fin.cast h))
    .ok ⟨S.rows, S.rows, M⟩
  else .assertFail

@[simp] theorem lltInv_mk {k : Nat} (S : Matrix (Fin k) (Fin k) ℝ) :
    lltInv ⟨k, k, S⟩ = (lltInverse S >>= fun M => .ok ⟨k, k, M⟩) := by
  simp only [lltInv, dif_pos]; rfl

/-- The correction of kalman-filter-base.cpp 121-168, from the stored matrices, the predictions and the measurement: new state,
new covariance, innovation and gain. -/
noncomputable def correct (st : KData E) (xb yb y : DVec) : Res (DVec × DMat × DVec × DMat) := do
  let pbar ← st.q.add (← st.a.mul (← st.pr.mul st.a.transpose))
  let ino ← st.arith.measurementDifference y yb
  let S ← st.r.add (← st.c.mul (← pbar.mul st.c.transpose))
  let Si ← lltInv S
  let K ← pbar.mul (← st.c.transpose.mul Si)
  let innovation ← K.mulVec ino
  let xhat ← st.arith.stateSum xb innovation
  let p1 ← K.neg.mul st.c
  let p2 ← p1.addDiagOne.mul pbar
  let p3 ← p2.add p2.transpose
  .ok (xhat, p3.smul 0.5, innovation, K)

/-- `oneStepEstimation_`, kalman-filter-base.cpp 108-171, with `updateStateAndMeasurementPrediction`
(kalman-filter-base.hpp 385-399). -/
noncomputable def oneStep (V : Virt E) (s : KFilter E) : Res (KFilter E) :=
  match s.x with
  | none => .assertFail
  | some (_, k) => do
    Res.assert (decide (s.y.size > 0) && s.y.checkIndex (k + 1))
    Res.assert (s.st.checkA s.st.a)
    Res.assert (s.st.checkC s.st.c)
    Res.assert (s.st.checkQ s.st.q)
    Res.assert (s.st.checkR s.st.r)
    Res.assert (s.st.checkP s.st.pr)
    let s ← V.prediction s (k + 1)
    let s ← V.predictSensor s (k + 1)
    let yb ← val s.st.ybar
    let y ← s.y.get (k + 1)
    let xb ← val s.st.xbar
    let (xhat, P, innovation, K) ← correct s.st xb yb y
    .ok { s with x := some (xhat, k + 1), st := { s.st with pr := P, innovation := innovation, kGain := K } }

/-- `getEstimatedState` of a Kalman filter. -/
noncomputable def getEstimatedState (V : Virt E) (s : KFilter E) (k : Int) : Res (KFilter E) :=
  Obs.getEstimatedState (cfg s) (oneStep V) s k

/-- `setStateSize(n, nt)`, kalman-filter-base.cpp 350-363, calling zero-delay-observer.cpp 210-217 (`clearStates` is virtual). -/
def setStateSize2 (s : KFilter E) (n nt : Nat) : KFilter E :=
  if n ≠ s.st.n ∨ s.st.nt ≠ nt then
    let s := if n ≠ s.st.n then clearStates { s with st := { s.st with n := n } } else s
    let s := { s with st := { s.st with nt := nt } }
    clearStateCovariance (clearQ (clearC (clearA s)))
  else s

/-- `setStateSize(n)`, kalman-filter-base.cpp 345-348. -/
def setStateSize (s : KFilter E) (n : Nat) : KFilter E := setStateSize2 s n n

/-- `setMeasureSize(m, mt)`, kalman-filter-base.cpp 370-379, calling zero-delay-observer.cpp 219-226. -/
def setMeasureSize2 (s : KFilter E) (m mt : Nat) : KFilter E :=
  if m ≠ s.st.m ∨ mt ≠ s.st.mt then
    let s := { s with st := { s.st with mt := mt } }
    let s := if m ≠ s.st.m then Obs.clearMeasurements { s with st := { s.st with m := m } } else s
    clearR (clearC s)
  else s

/-- `setMeasureSize(m)`, kalman-filter-base.cpp 365-368. -/
def setMeasureSize (s : KFilter E) (m : Nat) : KFilter E := setMeasureSize2 s m m

/-- `setInputSize(p)`, zero-delay-observer.cpp 228-235. -/
def setInputSize (s : KFilter E) (p : Nat) : KFilter E :=
  if p ≠ s.st.p then Obs.clearInputs { s with st := { s.st with p := p } } else s

/-- Default constructed and sized filter: `KalmanFilterBase(n, nt, m, mt, p)`, kalman-filter-base.cpp 22-25. -/
def mk (n nt m mt p : Nat) (ext : E) : KFilter E :=
  ⟨none, IArr.empty, IArr.empty,
    { n := n, nt := nt, m := m, mt := mt, p := p, a := .empty, c := .empty, q := .empty, r := .empty, pr := .empty,
      xbar := none, ybar := none, innovation := ⟨0, 0⟩, kGain := .empty, arith := Arith.default, ext := ext }⟩

end StateObs.KF

namespace StateObs.LKF
open StateObs.KF

/-- Members of `LinearKalmanFilter`: `b_`, `d_`. -/
structure Ext where
  b : DMat
  d : DMat

/-- `LinearKalmanFilter(n, m, p)`, linear-kalman-filter.hpp. -/
def mk (n m p : Nat) : KFilter Ext := KF.mk n n m m p ⟨.empty, .empty⟩

/-- `checkBmatrix`, linear-kalman-filter.cpp 88-91. -/
def checkB (st : KData Ext) (b : DMat) : Bool := b.hasSize st.n st.p
/-- `checkDmatrix`, linear-kalman-filter.cpp 108-111. -/
def checkD (st : KData Ext) (d : DMat) : Bool := d.hasSize st.m st.p

/-- `setB`, linear-kalman-filter.cpp 6-10. -/
def setB (s : KFilter Ext) (b : DMat) : Res (KFilter Ext) := do
  Res.assert (checkB s.st b)
  .ok { s with st := { s.st with ext := { s.st.ext with b := b } } }
/-- `setD`, linear-kalman-filter.cpp 17-22. -/
def setD (s : KFilter Ext) (d : DMat) : Res (KFilter Ext) := do
  Res.assert (checkD s.st d)
  .ok { s with st := { s.st with ext := { s.st.ext with d := d } } }
/-- `clearB`, linear-kalman-filter.cpp 12-15. -/
def clearB (s : KFilter Ext) : KFilter Ext := { s with st := { s.st with ext := { s.st.ext with b := .empty } } }
/-- `clearD`, linear-kalman-filter.cpp 24-27. -/
def clearD (s : KFilter Ext) : KFilter Ext := { s with st := { s.st with ext := { s.st.ext with d := .empty } } }

open Classical in
/-- `prediction_`, linear-kalman-filter.cpp 29-50. -/
noncomputable def prediction (s : KFilter Ext) (k : Int) : Res (KFilter Ext) := do
  Res.assert (s.st.checkA s.st.a)
  Res.assert (checkB s.st s.st.ext.b)
  Res.assert (s.st.checkC s.st.c)
  let x ← val s.x
  let xb ← s.st.a.mulVec x
  if s.st.p > 0 ∧ s.st.ext.b ≠ DMat.zero s.st.n s.st.p then do
    Res.assert (s.u.checkIndex (k - 1))
    let u ← s.u.get (k - 1)
    let xb ← xb.add (← s.st.ext.b.mulVec u)
    .ok { s with st := { s.st with xbar := some (xb, k) } }
  else .ok { s with st := { s.st with xbar := some (xb, k) } }

open Classical in
/-- `simulateSensor_`, linear-kalman-filter.cpp 52-71 (value; the code also stores it in `ybar_` at time `k`). -/
noncomputable def simulateSensor (s : KFilter Ext) (x : DVec) (k : Int) : Res DVec := do
  Res.assert (s.st.checkC s.st.c)
  if s.st.p > 0 ∧ checkD s.st s.st.ext.d = true ∧ s.st.ext.d ≠ DMat.zero s.st.m s.st.p then do
    Res.assert (s.u.checkIndex k)
    let cx ← s.st.c.mulVec x
    let u ← s.u.get k
    cx.add (← s.st.ext.d.mulVec u)
  else s.st.c.mulVec x

/-- `predictSensor_`, kalman-filter-base.cpp 406-409, with the `simulateSensor_` above. -/
noncomputable def predictSensor (s : KFilter Ext) (k : Int) : Res (KFilter Ext) := do
  let xb ← val s.st.xbar
  let y ← simulateSensor s xb k
  .ok { s with st := { s.st with ybar := some (y, k) } }

/-- The virtual functions of `LinearKalmanFilter`. -/
noncomputable def virt : Virt Ext := ⟨prediction, predictSensor⟩

/-- `getEstimatedState` of a `LinearKalmanFilter`. -/
noncomputable def getEstimatedState (s : KFilter Ext) (k : Int) : Res (KFilter Ext) := KF.getEstimatedState virt s k

/-- `setStateSize`, linear-kalman-filter.cpp 113-120. -/
def setStateSize (s : KFilter Ext) (n : Nat) : KFilter Ext :=
  if n ≠ s.st.n then clearB (KF.setStateSize s n) else s
/-- `setMeasureSize`, linear-kalman-filter.cpp 122-129. -/
def setMeasureSize (s : KFilter Ext) (m : Nat) : KFilter Ext :=
  if m ≠ s.st.m then clearD (KF.setMeasureSize s m) else s
/-- `setInputSize`, linear-kalman-filter.cpp 131-139. -/
def setInputSize (s : KFilter Ext) (p : Nat) : KFilter Ext :=
  if p ≠ s.st.p then clearD (clearB (KF.setInputSize s p)) else s

end StateObs.LKF
