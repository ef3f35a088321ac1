import Verif.IndexedArray.Model
/-!
# `ZeroDelayObserver`

`src/zero-delay-observer.cpp`, `src/observer-base.cpp`. State, measurement and input vectors are of arbitrary types `X`, `Y`,
`U`; the tests of their sizes are the predicates `okX`, `okY`, `okU` of the configuration. `σ` is whatever
else a derived filter stores (covariances, cached predictions, matrices). `p` is the input size.
-/

namespace StateObs

/-- Sizes: `checkStateVector`, `checkMeasureVector`, `checkInputVector` (observer-base.cpp 27-70) and `p_`. -/
structure ObsCfg (X Y U : Type) where
  okX : X → Bool
  okY : Y → Bool
  okU : U → Bool
  p : Nat

/-- Members `x_` (an `IndexedVector`: value, time, set flag), `y_`, `u_` (zero-delay-observer.hpp 190-205), and the members of
derived filters. -/
structure Obs (σ X Y U : Type) where
  x : Option (X × Int)
  y : IArr Y
  u : IArr U
  st : σ

namespace Obs
variable {σ X Y U : Type}

/-- `getCurrentTime`, zero-delay-observer.cpp 171-175. -/
def getCurrentTime (s : Obs σ X Y U) : Res Int :=
  match s.x with
  | some (_, k) => .ok k
  | none => .assertFail

/-- The loop `while(a.size()>0 && a.getFirstIndex() <= k) a.popFront()` (zero-delay-observer.cpp 19-22) on first index `i` and
content; lines 25-28 are the same with `<`, i.e. with `k-1`. -/
def dropUpTo {α : Type} (k : Int) : Int → List α → IArr α
  | i, [] => ⟨i, []⟩
  | i, a :: as => if i ≤ k then dropUpTo k (i + 1) as else ⟨i, a :: as⟩

/-- `setState`, zero-delay-observer.cpp 6-30. Note that `x_` is assigned before `getCurrentTime()` is called. -/
def setState (c : ObsCfg X Y U) (s : Obs σ X Y U) (x : X) (k : Int) : Res (Obs σ X Y U) := do
  Res.assert (c.okX x)
  let s := { s with x := some (x, k) }
  let now ← s.getCurrentTime
  if k < now then
    .ok { s with y := s.y.clear, u := s.u.clear }
  else
    let s := { s with y := dropUpTo k s.y.k s.y.v }
    .ok (if c.p > 0 then { s with u := dropUpTo (k - 1) s.u.k s.u.v } else s)

/-- `setCurrentState`, zero-delay-observer.cpp 32-38. -/
def setCurrentState (c : ObsCfg X Y U) (s : Obs σ X Y U) (x : X) : Res (Obs σ X Y U) :=
  match s.x with
  | none => .assertFail
  | some (_, k) => do
    Res.assert (c.okX x)
    .ok { s with x := some (x, k) }

/-- `clearStates`, zero-delay-observer.cpp 40-43. -/
def clearStates (s : Obs σ X Y U) : Obs σ X Y U := { s with x := none }

/-- `setMeasurement`, zero-delay-observer.cpp 50-62. -/
def setMeasurement (c : ObsCfg X Y U) (s : Obs σ X Y U) (y : Y) (k : Int) : Res (Obs σ X Y U) := do
  Res.assert (c.okY y)
  if s.y.size > 0 then
    Res.assert (decide (s.y.getNextIndex = k) || s.y.checkIndex k)
  else
    Res.assert (match s.x with | none => true | some (_, t) => decide (t = k - 1))
  let y' ← s.y.setValue y k
  .ok { s with y := y' }

/-- `pushMeasurement`, zero-delay-observer.cpp 64-79. -/
def pushMeasurement (c : ObsCfg X Y U) (s : Obs σ X Y U) (y : Y) : Res (Obs σ X Y U) := do
  Res.assert (c.okY y)
  if s.y.size > 0 then .ok { s with y := s.y.pushBack y }
  else match s.x with
    | none => .assertFail
    | some (_, t) => do
      let y' ← s.y.setValue y (t + 1)
      .ok { s with y := y' }

/-- `clearMeasurements`, zero-delay-observer.cpp 81-84. -/
def clearMeasurements (s : Obs σ X Y U) : Obs σ X Y U := { s with y := s.y.reset }

/-- `setInput`, zero-delay-observer.cpp 86-104. -/
def setInput (c : ObsCfg X Y U) (s : Obs σ X Y U) (u : U) (k : Int) : Res (Obs σ X Y U) :=
  if c.p > 0 then do
    Res.assert (c.okU u)
    if s.u.size > 0 then
      Res.assert (decide (s.u.getNextIndex = k) || s.u.checkIndex k)
    else
      Res.assert (match s.x with | none => true | some (_, t) => decide (t = k) || decide (t = k - 1))
    let u' ← s.u.setValue u k
    .ok { s with u := u' }
  else .ok s

/-- `pushInput`, zero-delay-observer.cpp 106-123. -/
def pushInput (c : ObsCfg X Y U) (s : Obs σ X Y U) (u : U) : Res (Obs σ X Y U) :=
  if c.p > 0 then do
    Res.assert (c.okU u)
    if s.u.size > 0 then .ok { s with u := s.u.pushBack u }
    else match s.x with
      | none => .assertFail
      | some (_, t) => do
        let u' ← s.u.setValue u t
        .ok { s with u := u' }
  else .ok s

/-- `clearInputs`, zero-delay-observer.cpp 125-128. -/
def clearInputs (s : Obs σ X Y U) : Obs σ X Y U := { s with u := s.u.reset }

/-- `clearInputsAndMeasurements`, zero-delay-observer.cpp 130-134. -/
def clearInputsAndMeasurements (s : Obs σ X Y U) : Obs σ X Y U := { s with u := s.u.reset, y := s.y.reset }

/-- `if(a.getFirstIndex() < k) a.popFront();`, zero-delay-observer.cpp 156 and 159. -/
def popIf {α : Type} (k : Int) (a : IArr α) : Res (IArr α) :=
  if a.getFirstIndex < k then a.popFront else .ok a

/-- The body of the loop of `getEstimatedState`, zero-delay-observer.cpp 155-159. `oneStep` is the virtual
`oneStepEstimation_`. -/
def loopBody (c : ObsCfg X Y U) (oneStep : Obs σ X Y U → Res (Obs σ X Y U)) (k : Int) (s : Obs σ X Y U) :
    Res (Obs σ X Y U) := do
  let s ← oneStep s
  let y ← popIf k s.y
  let s := { s with y := y }
  if c.p > 0 then do
    let u ← popIf k s.u
    .ok { s with u := u }
  else .ok s

/-- `n` iterations of the loop, zero-delay-observer.cpp 153-160. -/
def loop (c : ObsCfg X Y U) (oneStep : Obs σ X Y U → Res (Obs σ X Y U)) (k : Int) :
    Nat → Obs σ X Y U → Res (Obs σ X Y U)
  | 0, s => .ok s
  | n + 1, s => do
    let s ← loopBody c oneStep k s
    loop c oneStep k n s

/-- `getEstimatedState`, zero-delay-observer.cpp 145-163 (the returned vector is the value of `x_` in the new state). -/
def getEstimatedState (c : ObsCfg X Y U) (oneStep : Obs σ X Y U → Res (Obs σ X Y U)) (s : Obs σ X Y U) (k : Int) :
    Res (Obs σ X Y U) := do
  let k0 ← s.getCurrentTime
  Res.assert (decide (k0 ≤ k))
  loop c oneStep k (k - k0).toNat s

/-- `getMeasurementTime`, zero-delay-observer.cpp 199-203. -/
def getMeasurementTime (s : Obs σ X Y U) : Res Int := do
  Res.assert (decide (s.y.size > 0))
  .ok s.y.getLastIndex

/-- `getInputTime`, zero-delay-observer.cpp 187-192 (the assertion is on `y_`). -/
def getInputTime (s : Obs σ X Y U) : Res Int := do
  Res.assert (decide (s.y.size > 0))
  .ok s.u.getLastIndex

/-- `estimateState`, zero-delay-observer.cpp 136-143. -/
def estimateState (c : ObsCfg X Y U) (oneStep : Obs σ X Y U → Res (Obs σ X Y U)) (s : Obs σ X Y U) :
    Res (Obs σ X Y U × Int) := do
  let s ← if s.y.size > 0 then do
      let k ← s.getMeasurementTime
      getEstimatedState c oneStep s k
    else .ok s
  let t ← s.getCurrentTime
  .ok (s, t)

/-- The way Kalman filters use the buffers (kalman-filter-base.cpp 108-171 with the predictions of
linear-kalman-filter.cpp 29-71 and extended-kalman-filter.cpp 86-143): at current time `k` a step reads `y_{k+1}`, may read
`u_k` (dynamics) and `u_{k+1}` (measurement), replaces the state by one at time `k+1`, and leaves the buffers alone.
The look-ups of the inputs are passed as outcomes, since a filter without inputs does not perform them. -/
def kalmanStep (f : σ → X → Int → Y → Res U → Res U → Res (σ × X)) (s : Obs σ X Y U) : Res (Obs σ X Y U) :=
  match s.x with
  | none => .assertFail
  | some (x, k) => do
    let y ← s.y.get (k + 1)
    let (st, x') ← f s.st x k y (s.u.get k) (s.u.get (k + 1))
    .ok { s with x := some (x', k + 1), st := st }

end Obs
end StateObs
