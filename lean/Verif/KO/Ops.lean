import Verif.KO.Dyn
/-!
# Histories of calls on a `KineticsObserver`

Every public function of kinetics-observer.hpp 43-841 that changes the observer, except the `getEKF()` that gives the filter itself away and
`setKinematicsProcessCovariance`, which is declared and not defined.
-/

namespace StateObs.KO
open StateObs Matrix Rot Kine KF

/-- A call. -/
inductive Op where
  | setSamplingTime (dt : ℝ)
  | setMass (m : ℝ)
  | update
  | estimateAccelerations
  | setStateKinematics (k : Kin) (resetForces resetCovariance : Bool)
  | setGyroBias (b : V3) (i : ℕ) (resetCovariance : Bool)
  | setStateUnmodeledWrench (w : V6) (resetCovariance : Bool)
  | setStateVector (v : DVec) (resetCovariance : Bool)
  | setAdditionalWrench (f t : V3)
  | setWithUnmodeledWrench (b : Bool)
  | setWithAccelerationEstimation (b : Bool)
  | setWithGyroBias (b : Bool)
  | setIMU (acc gyro : V3) (cov : Option (M3 × M3)) (k : Kin) (num : Int)
  | setIMUDefaultCovarianceMatrix (a g : M3)
  | updateContactWithWrenchSensor (w : V6) (cov : Option M6) (k : Kin) (n : ℕ)
  | setContactWrenchSensorDefaultCovarianceMatrix (c : M6)
  | updateContactWithNoSensor (k : Kin) (n : ℕ)
  | setAbsolutePoseSensor (k : Kin) (cov : Option M6)
  | setAbsolutePoseSensorDefaultCovarianceMatrix (c : M6)
  | setInertiaMatrix2 (I Id : M3)
  | setInertiaMatrix (I : M3)
  | setInertiaVector2 (I Id : V6)
  | setInertiaVector (I : V6)
  | setCenterOfMass3 (c d e : V3)
  | setCenterOfMass2 (c d : V3)
  | setCenterOfMass (c : V3)
  | setAngularMomentum2 (s d : V3)
  | setAngularMomentum (s : V3)
  | addContact (pose : Kin) (cov : Option (M12 × M12)) (num : Int) (v : Visco)
  | removeContact (n : Int)
  | clearContacts
  | setStateCovarianceMat (P : DMat)
  | setKinematicsStateCovariance (B : DMat)
  | setKinematicsInitCovarianceDefault (B : DMat)
  | setGyroBiasStateCovariance (B : M3) (i : ℕ)
  | setGyroBiasInitCovarianceDefault (B : M3)
  | setGyroBiasProcessCovariance (B : M3) (i : ℕ)
  | setUnmodeledWrenchStateCovMat (B : M6)
  | setUnmodeledWrenchInitCovMatDefault (B : M6)
  | setUnmodeledWrenchProcessCovMat (B : M6)
  | setContactStateCovMat (n : Int) (B : M12)
  | setContactInitCovMatDefault (B : M12)
  | setContactProcessCovMat (n : Int) (B : M12)
  | setProcessNoiseCovarianceMat (Q : DMat)
  | resetStateCovarianceMat
  | resetStateKinematicsCovMat
  | resetStateGyroBiasCovMat (i : ℕ)
  | resetStateUnmodeledWrenchCovMat
  | resetStateContactsCovMat
  | resetStateContactCovMat (n : ℕ)
  | resetProcessCovarianceMat
  | resetProcessKinematicsCovMat
  | resetProcessGyroBiasCovMat (i : ℕ)
  | resetProcessUnmodeledWrenchCovMat
  | resetProcessContactsCovMat
  | resetProcessContactCovMat (n : ℕ)
  | resetSensorsDefaultCovMat
  | resetInputs
  | setFiniteDifferenceStep (v : DVec)
  | useFiniteDifferencesJacobians (b : Bool)
  | getMeasurementVector

namespace Op

/-- One call. -/
noncomputable def exec (o : Observer) : Op → Res Observer
  | setSamplingTime dt => .ok (o.setSamplingTime dt)
  | setMass m => .ok (o.setMass m)
  | update => o.update
  | estimateAccelerations => o.estimateAccelerations
  | setStateKinematics k a b => o.setStateKinematics k a b
  | setGyroBias b i r => o.setGyroBias b i r
  | setStateUnmodeledWrench w r => o.setStateUnmodeledWrench w r
  | setStateVector v r => o.setStateVector v r
  | setAdditionalWrench f t => .ok (o.setAdditionalWrench f t)
  | setWithUnmodeledWrench b => .ok (o.setWithUnmodeledWrench b)
  | setWithAccelerationEstimation b => .ok (o.setWithAccelerationEstimation b)
  | setWithGyroBias b => .ok (o.setWithGyroBias b)
  | setIMU a g c k n => do
    let r ← o.setIMU a g c k n
    .ok r.2
  | setIMUDefaultCovarianceMatrix a g => .ok (o.setIMUDefaultCovarianceMatrix a g)
  | updateContactWithWrenchSensor w c k n => o.updateContactWithWrenchSensor w c k n
  | setContactWrenchSensorDefaultCovarianceMatrix c => .ok (o.setContactWrenchSensorDefaultCovarianceMatrix c)
  | updateContactWithNoSensor k n => o.updateContactWithNoSensor k n
  | setAbsolutePoseSensor k c => .ok (o.setAbsolutePoseSensor k c)
  | setAbsolutePoseSensorDefaultCovarianceMatrix c => .ok (o.setAbsolutePoseSensorDefaultCovarianceMatrix c)
  | setInertiaMatrix2 I Id => .ok (o.setInertiaMatrix2 I Id)
  | setInertiaMatrix I => o.setInertiaMatrix I
  | setInertiaVector2 I Id => .ok (o.setInertiaVector2 I Id)
  | setInertiaVector I => o.setInertiaVector I
  | setCenterOfMass3 c d e => .ok (o.setCenterOfMass3 c d e)
  | setCenterOfMass2 c d => o.setCenterOfMass2 c d
  | setCenterOfMass c => o.setCenterOfMass c
  | setAngularMomentum2 s d => .ok (o.setAngularMomentum2 s d)
  | setAngularMomentum s => o.setAngularMomentum s
  | addContact p c n v => do
    let r ← o.addContact p c n v
    .ok r.2
  | removeContact n => o.removeContact n
  | clearContacts => .ok o.clearContacts
  | setStateCovarianceMat P => o.setStateCovarianceMat P
  | setKinematicsStateCovariance B => o.setKinematicsStateCovariance B
  | setKinematicsInitCovarianceDefault B => o.setKinematicsInitCovarianceDefault B
  | setGyroBiasStateCovariance B i => o.setGyroBiasStateCovariance B i
  | setGyroBiasInitCovarianceDefault B => .ok (o.setGyroBiasInitCovarianceDefault B)
  | setGyroBiasProcessCovariance B i => o.setGyroBiasProcessCovariance B i
  | setUnmodeledWrenchStateCovMat B => o.setUnmodeledWrenchStateCovMat B
  | setUnmodeledWrenchInitCovMatDefault B => .ok (o.setUnmodeledWrenchInitCovMatDefault B)
  | setUnmodeledWrenchProcessCovMat B => o.setUnmodeledWrenchProcessCovMat B
  | setContactStateCovMat n B => o.setContactStateCovMat n B
  | setContactInitCovMatDefault B => .ok (o.setContactInitCovMatDefault B)
  | setContactProcessCovMat n B => o.setContactProcessCovMat n B
  | setProcessNoiseCovarianceMat Q => o.setProcessNoiseCovarianceMat Q
  | resetStateCovarianceMat => o.resetStateCovarianceMat
  | resetStateKinematicsCovMat => o.resetStateKinematicsCovMat
  | resetStateGyroBiasCovMat i => o.resetStateGyroBiasCovMat i
  | resetStateUnmodeledWrenchCovMat => o.resetStateUnmodeledWrenchCovMat
  | resetStateContactsCovMat => o.resetStateContactsCovMat
  | resetStateContactCovMat n => o.resetStateContactCovMat n
  | resetProcessCovarianceMat => o.resetProcessCovarianceMat
  | resetProcessKinematicsCovMat => o.resetProcessKinematicsCovMat
  | resetProcessGyroBiasCovMat i => o.resetProcessGyroBiasCovMat i
  | resetProcessUnmodeledWrenchCovMat => o.resetProcessUnmodeledWrenchCovMat
  | resetProcessContactsCovMat => o.resetProcessContactsCovMat
  | resetProcessContactCovMat n => o.resetProcessContactCovMat n
  | resetSensorsDefaultCovMat => .ok o.resetSensorsDefaultCovMat
  | resetInputs => .ok o.resetInputs
  | setFiniteDifferenceStep v => .ok (o.setFiniteDifferenceStep v)
  | useFiniteDifferencesJacobians b => .ok (o.useFiniteDifferencesJacobians b)
  | getMeasurementVector => do
    let r ← o.getMeasurementVector
    .ok r.2

/-- A sequence of calls. -/
noncomputable def run (o : Observer) (l : List Op) : Res Observer := l.foldlM exec o

end Op

/-- The state after the construction and a history of calls that all return normally. -/
def Reachable (nc ni : ℕ) (l : List Op) (o : Observer) : Prop := ∃ o0, Observer.construct nc ni = .ok o0 ∧ Op.run o0 l = .ok o

end StateObs.KO
