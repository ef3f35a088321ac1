import Verif.KO.Dyn
/-!
# `KineticsObserver`: the noise objects given by a derived class

src/kinetics-observer.cpp 97-98, 1297-1325, 1565-1570, 1625-1630. The setters are protected (kinetics-observer.hpp 912, 933-946): they are called by derived classes.
-/

namespace StateObs.KO
open StateObs KF

/-- `NoiseBase::getNoisy`, noise-base.hpp 35: any object that makes a vector of a vector, with the state `R` of its random numbers. -/
abbrev NoiseObj (R : Type) := R → DVec → Res (DVec × R)

/-- The observer with its members `processNoise_` and `measurementNoise_`; `none` is the null pointer. -/
structure Disturbed (R : Type) where
  obs : Observer
  process : Option (NoiseObj R)
  measurement : Option (NoiseObj R)

namespace Disturbed
variable {R : Type}

/-- cpp 97-98: no noise after the construction. -/
def ofNew (o : Observer) : Disturbed R := ⟨o, none, none⟩

/-- `setProcessNoise`, cpp 1297-1300. -/
def setProcessNoise (d : Disturbed R) (n : NoiseObj R) : Disturbed R := { d with process := some n }
/-- `resetProcessNoise`, cpp 1302-1305. -/
def resetProcessNoise (d : Disturbed R) : Disturbed R := { d with process := none }
/-- `getProcessNoise`, cpp 1307-1310. -/
def getProcessNoise (d : Disturbed R) : Option (NoiseObj R) := d.process
/-- `setMeasurementNoise`, cpp 1312-1315. -/
def setMeasurementNoise (d : Disturbed R) (n : NoiseObj R) : Disturbed R := { d with measurement := some n }
/-- `resetMeasurementNoise`, cpp 1317-1320. -/
def resetMeasurementNoise (d : Disturbed R) : Disturbed R := { d with measurement := none }
/-- `getMeasurementNoise`, cpp 1322-1325. -/
def getMeasurementNoise (d : Disturbed R) : Option (NoiseObj R) := d.measurement

/-- `if(noise != 0x0) { noise->getNoisy(x); } return x;`, cpp 1565-1570, 1625-1630: the vector that `getNoisy` returns is not used. -/
def disturb (n : Option (NoiseObj R)) (r : R) (x : DVec) : Res (DVec × R) :=
  match n with
  | some n => do
    let y ← n r x
    .ok (x, y.2)
  | none => .ok (x, r)

/-- `stateDynamics`, cpp 1511-1571. -/
noncomputable def stateDynamics (d : Disturbed R) (r : R) (x : DVec) : Res (DVec × R) := do
  let x' ← d.obs.stateDynamics x
  disturb d.process r x'

/-- `measureDynamics`, cpp 1573-1631. -/
noncomputable def measureDynamics (d : Disturbed R) (r : R) (x : DVec) (k : Int) : Res (DVec × R) := do
  let y ← d.obs.measureDynamics x k
  disturb d.measurement r y

end Disturbed
end StateObs.KO
