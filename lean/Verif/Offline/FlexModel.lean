import Verif.Flex.Model
/-!
# Offline estimation of a flexibility with fixed contacts

`offlineEKFFlexibilityEstimation`, include/state-observation/examples/offline-ekf-flexibility-estimation.hxx. The estimator is the one of
`Verif/Flex/Model.lean`. Pointers to arrays are options.
-/

namespace StateObs.Offline
open StateObs KF Flex Matrix Imu

/-- The matrix `Q`, hxx 20-23. -/
noncomputable def flexQ : Matrix (Fin 18) (Fin 18) ℝ :=
  setBlock (setBlock ((1e-4 : ℝ) • (1 : Matrix (Fin 18) (Fin 18) ℝ)) 6 6 ((1e-8 : ℝ) • (1 : M3))) 15 15 ((1e-8 : ℝ) • (1 : M3))

/-- The matrix `R`, hxx 17-18 (the filter of a new estimator has measurements of size six). -/
noncomputable def flexR : Matrix (Fin 6) (Fin 6) ℝ := (1e-30 : ℝ) • 1

/-- The loop on the contacts, hxx 33-36, from `i` on: `contactsPositions[i]` outside of the vector is undefined behaviour. -/
noncomputable def setContacts (c : List V3) : ℕ → ℕ → Fixed → Res Fixed
  | 0, _, s => .ok s
  | n + 1, i, s => do
    let p ← (match c[i]? with
      | some p => .ok p
      | none => .ub)
    let s ← Flex.exec s (.setContactPosition i p)
    setContacts c n (i + 1) s

/-- `if(p != 0) p->setValue(v, i)`. -/
def record (p : Option (IArr DVec)) (v : Res DVec) (i : Int) : Res (Option (IArr DVec)) :=
  match p with
  | some a => do
    let v ← v
    let a ← a.setValue v i
    .ok (some a)
  | none => .ok none

/-- The array returned and those written through the pointers. -/
structure Out where
  xh : IArr DVec
  ino : Option (IArr DVec)
  premea : Option (IArr DVec)

/-- The loop, hxx 46-69: `n` iterations from time `i` on. `getInnovation` and `getLastPredictedMeasurement` read members of the filter
(kalman-filter-base.cpp 386-394). -/
noncomputable def flexLoop (y u : IArr DVec) : ℕ → Int → Fixed → Out → Res Out
  | 0, _, _, o => .ok o
  | n + 1, i, s, o => do
    let yi ← y.get i
    let s ← Flex.exec s (.setMeasurement yi)
    let ui ← u.get i
    let s ← Flex.exec s (.setMeasurementInput ui)
    let s ← Flex.exec s .getFlexibilityVector
    let ino ← record o.ino (.ok s.ekf.st.innovation) i
    let premea ← record o.premea (val s.ekf.st.ybar) i
    flexLoop y u n (i + 1) s ⟨o.xh.pushBack s.lastX, ino, premea⟩

/-- A vector as a matrix of one column. -/
def column (v : DVec) : DMat := ⟨v.size, 1, fun i _ => v.val i⟩

/-- `offlineEKFFlexibilityEstimation`, hxx 1-72. The default sampling period of the estimator is 0.005 (fixed-contact-ekf-flex-estimator-imu.hpp 41);
`dt` is not used (hxx 12). -/
noncomputable def offlineEKFFlexibilityEstimation (y u : IArr DVec) (xh0 : DVec) (numberOfContacts : ℕ) (contactsPositions : List V3) (_dt : ℝ)
    (ino premea : Option (IArr DVec)) : Res Out := do
  let s ← Flex.ctor 0.005
  let s ← Flex.exec s (.setFlexibilityCovariance ⟨18, 18, flexQ⟩)
  let s ← Flex.exec s (.setMeasurementNoiseCovariance ⟨6, 6, flexR⟩)
  let s ← Flex.exec s (.setProcessNoiseCovariance ⟨18, 18, flexQ⟩)
  let s ← Flex.exec s (.setContactsNumber numberOfContacts)
  let s ← setContacts contactsPositions numberOfContacts 0 s
  let s ← Flex.exec s (.setFlexibilityGuess (column xh0))
  let xh ← (IArr.empty : IArr DVec).setValue xh0 (y.getFirstIndex - 1)
  flexLoop y u y.size y.getFirstIndex s ⟨xh, ino, premea⟩

/-- The loop of hxx 86-89: `n` null inputs from time `k` on. -/
def zeroInputs (p : ℕ) : ℕ → Int → IArr DVec → Res (IArr DVec)
  | 0, _, u => .ok u
  | n + 1, k, u => do
    let u ← u.setValue (DVec.zero p) k
    zeroInputs p n (k + 1) u

/-- `offlineEKFFlexibilityEstimation` without inputs, hxx 75-93. -/
noncomputable def offlineEKFFlexibilityEstimation0 (y : IArr DVec) (xh0 : DVec) (numberOfContacts : ℕ) (contactsPositions : List V3) (dt : ℝ) : Res Out := do
  let u ← zeroInputs 15 (y.size + 1) (y.getFirstIndex - 1) IArr.empty
  offlineEKFFlexibilityEstimation y u xh0 numberOfContacts contactsPositions dt none none

end StateObs.Offline
