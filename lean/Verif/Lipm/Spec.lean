import Verif.Lipm.Model
/-!
# What the user of a LIPM estimator has configured and supplied

Functions of the list of method calls alone.
-/

namespace StateObs.Lipm
open StateObs Matrix

/-- The parameters of the estimator and the last data supplied. -/
structure Conf where
  dt : ℝ
  omega0 : ℝ
  driftStd : ℝ
  dcmStd : ℝ
  zmpStd : ℝ
  /-- the limit on the local bias -/
  limit : Fin 2 → ℝ
  /-- the last ZMP supplied -/
  zmp : Fin 2 → ℝ
  /-- the last orientation supplied -/
  ori : Matrix (Fin 2) (Fin 2) ℝ

/-- What a method call changes. -/
def Conf.after (c : Conf) : Op → Conf
  | .resetWithMeasurements _ zmp yaw _ _ _ => { c with zmp := zmp, ori := yaw }
  | .setLipmNaturalFrequency w => { c with omega0 := w }
  | .setSamplingTime dt => { c with dt := dt }
  | .setZmpMeasureErrorStd a => { c with zmpStd := a }
  | .setDcmMeasureErrorStd a => { c with dcmStd := a }
  | .setBiasDriftPerSecond a => { c with driftStd := a }
  | .setBiasLimit l => { c with limit := l }
  | .setInputs _ zmp R => { c with zmp := zmp, ori := R }
  | _ => c

/-- After a list of calls. -/
def Conf.afterAll (c : Conf) (ops : List Op) : Conf := ops.foldl Conf.after c

/-- The orientations of a call are rotations. -/
def Op.Rot : Op → Prop
  | .resetWithMeasurements _ _ yaw _ _ _ => yawᵀ * yaw = 1
  | .setInputs _ _ R => Rᵀ * R = 1
  | _ => True

/-- The call is not one of the two setters that do not work (see C27). -/
def Op.Sound : Op → Prop
  | .setDcmMeasureErrorStd _ => False
  | .setBiasDriftPerSecond _ => False
  | _ => True

/-- The five setters of the parameters. -/
def Op.Tuning : Op → Prop
  | .setLipmNaturalFrequency _ => True
  | .setSamplingTime _ => True
  | .setZmpMeasureErrorStd _ => True
  | .setDcmMeasureErrorStd _ => True
  | .setBiasDriftPerSecond _ => True
  | _ => False

/-- The same call with all positions moved by `t`. -/
def Op.translate (t : Fin 2 → ℝ) : Op → Op
  | .resetWithMeasurements dcm zmp yaw w b bu => .resetWithMeasurements (dcm + t) (zmp + t) yaw w b bu
  | .setUnbiasedDCM dcm => .setUnbiasedDCM (dcm + t)
  | .setUnbiasedDCM2 dcm u => .setUnbiasedDCM2 (dcm + t) u
  | .setInputs dcm zmp R => .setInputs (dcm + t) (zmp + t) R
  | o => o

/-- A new estimator with configuration `c` (the orientation of a new estimator is the identity). -/
noncomputable def create (c : Conf) (dcm bias dcmUnc biasUnc : Fin 2 → ℝ) : Res Est :=
  ctor c.dt c.omega0 c.driftStd c.dcmStd c.zmpStd c.limit c.zmp dcm bias dcmUnc biasUnc

/-- A new estimator followed by a list of calls. -/
noncomputable def createRun (c : Conf) (dcm bias dcmUnc biasUnc : Fin 2 → ℝ) (ops : List Op) : Res Est := do
  let s ← create c dcm bias dcmUnc biasUnc
  ops.foldlM exec s

end StateObs.Lipm
