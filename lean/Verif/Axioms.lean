import Verif.Outcome
import Verif.OutcomeLaws
import Verif.CheckedItem.Model
import Verif.CheckedItem.Props
import Verif.CheckedItem.SetProps
import Verif.EKF.AffineProps
import Verif.EKF.CacheProps
import Verif.EKF.CacheSpec
import Verif.EKF.FDGeneral
import Verif.EKF.FollowProps
import Verif.EKF.GeneralProps
import Verif.EKF.JacobianProps
import Verif.EKF.Lemmas
import Verif.EKF.Model
import Verif.EKF.ResetProps
import Verif.EKF.ShiftProps
import Verif.EKF.StepForm
import Verif.Elastic.ForceLemmas
import Verif.Elastic.ForceProps
import Verif.Elastic.Inv
import Verif.Elastic.JacLemmas
import Verif.Elastic.JacProps
import Verif.Elastic.Lemmas
import Verif.Elastic.MeasLemmas
import Verif.Elastic.MeasProps
import Verif.Elastic.Model
import Verif.Elastic.MomentaProps
import Verif.Elastic.NewtonLive
import Verif.Elastic.NewtonProps
import Verif.Elastic.RK4Lemmas
import Verif.Elastic.RK4Model
import Verif.Elastic.RK4Props
import Verif.Elastic.RK4Spec
import Verif.Elastic.Reach
import Verif.Elastic.SettingsProps
import Verif.Elastic.Spec
import Verif.Elastic.StepProps
import Verif.Flex.CovProps
import Verif.Flex.Functor
import Verif.Flex.Inv
import Verif.Flex.Lemmas
import Verif.Flex.Model
import Verif.Flex.PredictProps
import Verif.Flex.Props
import Verif.Flex.Spec
import Verif.Flex.StepProps
import Verif.Imu.CacheProps
import Verif.Imu.InertialProps
import Verif.Imu.Mltp
import Verif.Imu.MltpBackProps
import Verif.Imu.MltpLemmas
import Verif.Imu.MltpProps
import Verif.Imu.MltpStepProps
import Verif.Imu.Model
import Verif.Imu.MotionProps
import Verif.Imu.StepProps
import Verif.Imu.StepSpec
import Verif.Imu.Vec
import Verif.IndexedArray.File
import Verif.IndexedArray.FileProps
import Verif.IndexedArray.Lemmas
import Verif.IndexedArray.Model
import Verif.IndexedArray.Props
import Verif.IndexedArray.Spec
import Verif.KO.AgreeProps
import Verif.KO.Blocks
import Verif.KO.ClientAutoProps
import Verif.KO.ClientProps
import Verif.KO.ClientSim
import Verif.KO.ClientSpec
import Verif.KO.ClockProps
import Verif.KO.ContactProps
import Verif.KO.CovLemmas
import Verif.KO.CovProps
import Verif.KO.CovResetProps
import Verif.KO.CovSpec
import Verif.KO.CoverExample
import Verif.KO.Dyn
import Verif.KO.Filter
import Verif.KO.ForeverProps
import Verif.KO.Frame
import Verif.KO.Fresh
import Verif.KO.HelperModel
import Verif.KO.HelperNewProps
import Verif.KO.HelperProps
import Verif.KO.ImuLemmas
import Verif.KO.ImuProps
import Verif.KO.InertInv
import Verif.KO.InertLemmas
import Verif.KO.InertProps
import Verif.KO.InertSpec
import Verif.KO.InputLemmas
import Verif.KO.InputProps
import Verif.KO.InputSpec
import Verif.KO.Inv
import Verif.KO.InvLemmas
import Verif.KO.LayoutProps
import Verif.KO.Live
import Verif.KO.LiveFilter
import Verif.KO.LiveMeas
import Verif.KO.LiveOps
import Verif.KO.MeasLemmas
import Verif.KO.MeasProps
import Verif.KO.Model
import Verif.KO.MovedProps
import Verif.KO.NewtonFalse
import Verif.KO.NewtonProps
import Verif.KO.NewtonSpec
import Verif.KO.NoiseModel
import Verif.KO.NoiseProps
import Verif.KO.Ops
import Verif.KO.OrderProps
import Verif.KO.PackLemmas
import Verif.KO.PoseErase
import Verif.KO.PoseProps
import Verif.KO.Predict
import Verif.KO.PredictFalse
import Verif.KO.PredictProps
import Verif.KO.PredictSpec
import Verif.KO.PsdInv
import Verif.KO.PsdProps
import Verif.KO.SensorLemmas
import Verif.KO.SensorProps
import Verif.KO.SensorSpec
import Verif.KO.Settings
import Verif.KO.SettingsProps
import Verif.KO.SignLemmas
import Verif.KO.SignProps
import Verif.KO.SignSpec
import Verif.KO.StateAcc
import Verif.KO.StateExample
import Verif.KO.StateLemmas
import Verif.KO.StateLive
import Verif.KO.StateProps
import Verif.KO.StateSet
import Verif.KO.StateSpec
import Verif.KO.StepProps
import Verif.KO.StillProps
import Verif.KO.SumLemmas
import Verif.KO.SumProps
import Verif.KO.SumSpec
import Verif.KO.UpdLemmas
import Verif.Kalman.Algebra
import Verif.Kalman.CoordProps
import Verif.Kalman.DynMat
import Verif.Kalman.Examples
import Verif.Kalman.FactoryModel
import Verif.Kalman.FactoryProps
import Verif.Kalman.FactoryValues
import Verif.Kalman.Feed
import Verif.Kalman.GaussLemmas
import Verif.Kalman.LLT
import Verif.Kalman.Lemmas
import Verif.Kalman.LinLemmas
import Verif.Kalman.LinProps
import Verif.Kalman.Model
import Verif.Kalman.OptimalLemmas
import Verif.Kalman.OptimalProps
import Verif.Kalman.OptimalSpec
import Verif.Kalman.OutputModel
import Verif.Kalman.OutputProps
import Verif.Kalman.Props
import Verif.Kalman.ResetLemmas
import Verif.Kalman.SafeProps
import Verif.Kalman.Singular
import Verif.Kalman.SizeProps
import Verif.Kalman.Spec
import Verif.Kalman.StableBound
import Verif.Kalman.StableLemmas
import Verif.Kalman.StableProps
import Verif.Kalman.StableVarying
import Verif.Kalman.StepForm
import Verif.Kalman.SuperProps
import Verif.Kin.DepLemmas
import Verif.Kin.DepModel
import Verif.Kin.DepProps
import Verif.Kin.FreeIntegrate
import Verif.Kin.IntProps
import Verif.Kin.Lemmas
import Verif.Kin.Model
import Verif.Kin.MotionExists
import Verif.Kin.OriLemmas
import Verif.Kin.OriProps
import Verif.Kin.OriSpec
import Verif.Kin.Orientation
import Verif.Kin.PrintModel
import Verif.Kin.PrintProps
import Verif.Kin.PrintSpec
import Verif.Kin.ProdProps
import Verif.Kin.Spec
import Verif.Kin.UpdLemmas
import Verif.Kin.UpdProps
import Verif.Kin.VecProps
import Verif.Lipm.Blocks
import Verif.Lipm.ConvergeLemmas
import Verif.Lipm.ConvergeProps
import Verif.Lipm.Lemmas
import Verif.Lipm.LimitProps
import Verif.Lipm.Model
import Verif.Lipm.Props
import Verif.Lipm.Reach
import Verif.Lipm.RotateProps
import Verif.Lipm.Spec
import Verif.Lipm.Unidim
import Verif.Lipm.UnidimConverge
import Verif.Lipm.UnidimLemmas
import Verif.Lipm.UnidimProps
import Verif.Lipm.UnidimUnits
import Verif.Lipm.UnitProps
import Verif.Logger.Model
import Verif.Logger.Props
import Verif.Logger.Spec
import Verif.Misc.Model
import Verif.Misc.Props
import Verif.Misc.TimeModel
import Verif.Misc.TimeProps
import Verif.ModelFlex.Config
import Verif.ModelFlex.CovLemmas
import Verif.ModelFlex.CovProps
import Verif.ModelFlex.Fresh
import Verif.ModelFlex.GuessProps
import Verif.ModelFlex.Inv
import Verif.ModelFlex.Jac
import Verif.ModelFlex.LimitProps
import Verif.ModelFlex.Live
import Verif.ModelFlex.MatrixProps
import Verif.ModelFlex.Model
import Verif.ModelFlex.OnProps
import Verif.ModelFlex.QProps
import Verif.ModelFlex.Reach
import Verif.ModelFlex.SideProps
import Verif.ModelFlex.Step
import Verif.ModelFlex.StepExample
import Verif.ModelFlex.StepLemmas
import Verif.ModelFlex.StepProps
import Verif.ModelFlex.Stuck
import Verif.Noise.GaussianProps
import Verif.Noise.Model
import Verif.Noise.Props
import Verif.Noise.RandomLemmas
import Verif.Noise.RandomModel
import Verif.Noise.RandomProps
import Verif.Noise.RandomSpec
import Verif.Offline.AttExactProps
import Verif.Offline.AttFunctor
import Verif.Offline.AttLoop
import Verif.Offline.AttModel
import Verif.Offline.AttProps
import Verif.Offline.AttSpec
import Verif.Offline.Drive
import Verif.Offline.FlexLoop
import Verif.Offline.FlexModel
import Verif.Offline.FlexProps
import Verif.Offline.FlexSpec
import Verif.Offline.MltpArithProps
import Verif.Offline.MltpExactProps
import Verif.Offline.MltpLoop
import Verif.Offline.MltpModel
import Verif.Offline.MltpProps
import Verif.Offline.MltpSpec
import Verif.Offline.ModelBegin
import Verif.Offline.ModelExample
import Verif.Offline.ModelLoop
import Verif.Offline.ModelModel
import Verif.Offline.ModelProps
import Verif.Offline.ModelRunLemmas
import Verif.Offline.ModelRunLoop
import Verif.Offline.ModelRunSpec
import Verif.Offline.ModelSpec
import Verif.Pendulum.Model
import Verif.Pendulum.Props
import Verif.Rot.AngleAxis
import Verif.Rot.Basic
import Verif.Rot.Eigen
import Verif.Rot.Examples
import Verif.Rot.Exp
import Verif.Rot.FDProps
import Verif.Rot.Jacobian
import Verif.Rot.Lemmas
import Verif.Rot.Model
import Verif.Rot.Motion
import Verif.Rot.MotionProps
import Verif.Rot.Props
import Verif.Rot.Quat
import Verif.Rot.Spec
import Verif.Rot.YawProps
import Verif.Sensor.Model
import Verif.Sensor.Props
import Verif.Simulator.FunctorProps
import Verif.Simulator.Lemmas
import Verif.Simulator.Model
import Verif.Simulator.Props
import Verif.Simulator.Spec
import Verif.Text.Lemmas
import Verif.Text.Model
import Verif.Text.Props
import Verif.Text.Spec
import Verif.Tilt.ConvergeLemmas
import Verif.Tilt.ConvergeProps
import Verif.Tilt.ConvergeTilt
import Verif.Tilt.FrameProps
import Verif.Tilt.Model
import Verif.Tilt.Props
import Verif.Tilt.ShiftProps
import Verif.Tools.ReadModel
import Verif.Tools.ReadProps
import Verif.Tools.SplitModel
import Verif.Tools.SplitProps
import Verif.Tools.SplitSpec
import Verif.Tools.TrajProps
import Verif.Tools.ZmpModel
import Verif.Tools.ZmpProps
import Verif.Tools.ZmpSpec
import Verif.ZeroDelay.Lemmas
import Verif.ZeroDelay.Map
import Verif.ZeroDelay.Model
import Verif.ZeroDelay.Props
import Verif.ZeroDelay.PushProps
import Verif.ZeroDelay.ShiftProps
import Verif.ZeroDelay.ShiftSpec
import Verif.ZeroDelay.Spec
import Lean.Util.CollectAxioms
import Lean.Elab.Command
/-!
# Axioms

The build fails if any declaration of this development depends on an axiom other than `propext`, `Classical.choice` and
`Quot.sound`. The axioms of each property theorem are printed after that.
-/

open Lean Elab Command in
run_cmd do
  let env ← getEnv
  let ok := [``propext, ``Classical.choice, ``Quot.sound]
  for (n, ci) in env.constants.map₁.toList do
    if n.getRoot == `StateObs then
      if ci matches .axiomInfo _ then throwError "axiom {n}"
      if ci matches .thmInfo _ then
        for a in (← liftCoreM (collectAxioms n)) do
          unless ok.contains a do throwError "{n} depends on {a}"

#print axioms StateObs.IArrSpec.C01_array_refines_map
#print axioms StateObs.IArrSpec.C01_window
#print axioms StateObs.IArrSpec.C01_access
#print axioms StateObs.IArrSpec.C01_constructors
#print axioms StateObs.IArrSpec.C02_get
#print axioms StateObs.IArrSpec.C02_popFront
#print axioms StateObs.IArrSpec.C02_setValue
#print axioms StateObs.IArrSpec.C03_setFirstIndex
#print axioms StateObs.IArrSpec.C03_setLastIndex_off_by_two
#print axioms StateObs.IArrSpec.C03_setLastIndex_false
#print axioms StateObs.IArrSpec.C03_setLastIndex_partial
#print axioms StateObs.IArrSpec.C04_truncateAfter
#print axioms StateObs.IArrSpec.C04_truncateBefore_partial
#print axioms StateObs.IArrSpec.C04_truncateBefore_last_dropped
#print axioms StateObs.IArrSpec.C04_truncateBefore_early_shifts
#print axioms StateObs.IArrSpec.C04_truncateBefore_false
#print axioms StateObs.LogFile.C05_write_read
#print axioms StateObs.LogFile.C05_write_readVectors
#print axioms StateObs.LogFile.C05_append_session
#print axioms StateObs.LogFile.C05_noStamp_readVectors
#print axioms StateObs.LogFile.C05_noStamp_readFromFile_duplicates_last
#print axioms StateObs.LogFile.C05_noStamp_empty_file
#print axioms StateObs.LogFile.C05_write_unopenable
#print axioms StateObs.CheckedSpec.C06_read_debug
#print axioms StateObs.CheckedSpec.C06_read_release
#print axioms StateObs.CheckedSpec.C06_isSet
#print axioms StateObs.CheckedSpec.C06_release_stale
#print axioms StateObs.CheckedFlag.C06_set
#print axioms StateObs.EKF.C07_extended
#print axioms StateObs.LKF.C07_linear
#print axioms StateObs.Obs.C07_getEstimatedState
#print axioms StateObs.Obs.C07_fold
#print axioms StateObs.EKF.C08_extended
#print axioms StateObs.LKF.C08_linear
#print axioms StateObs.Obs.C08_split
#print axioms StateObs.Obs.C08_any_split
#print axioms StateObs.Obs.C08_feed
#print axioms StateObs.Obs.C09_buffers
#print axioms StateObs.Obs.C09_bounded
#print axioms StateObs.Obs.C10_setState_partial
#print axioms StateObs.Obs.C10_measurements_survive
#print axioms StateObs.Obs.C10_false
#print axioms StateObs.Obs.C11_no_inputs_fails
#print axioms StateObs.Obs.C11_partial
#print axioms StateObs.Obs.C12_setMeasurement
#print axioms StateObs.Obs.C12_setInput
#print axioms StateObs.Obs.C12_reachable
#print axioms StateObs.Obs.C12_pushMeasurement
#print axioms StateObs.Obs.C12_pushInput
#print axioms StateObs.Obs.C13_partial
#print axioms StateObs.Obs.C13_inputTime_fails
#print axioms StateObs.Obs.C13_false
#print axioms StateObs.KF.C14_setStateSize
#print axioms StateObs.KF.C14_setTangentSize
#print axioms StateObs.KF.C14_setStateSize_same
#print axioms StateObs.KF.C14_setMeasureSize
#print axioms StateObs.KF.C14_setTangentMeasureSize
#print axioms StateObs.KF.C14_setMeasureSize_same
#print axioms StateObs.KF.C14_setInputSize
#print axioms StateObs.KF.C14_setInputSize_same
#print axioms StateObs.KF.C14_no_step_without_matrices
#print axioms StateObs.LKF.C14_lkf_setStateSize
#print axioms StateObs.LKF.C14_lkf_setMeasureSize
#print axioms StateObs.LKF.C14_lkf_setInputSize
#print axioms StateObs.LKF.C14_lkf_same
#print axioms StateObs.KF.C15_step
#print axioms StateObs.KF.C15_history
#print axioms StateObs.KF.C15_innovation
#print axioms StateObs.KF.C15_step_singular
#print axioms StateObs.KF.C16_minimum_variance
#print axioms StateObs.LKF.C17_error
#print axioms StateObs.LKF.C18_scaling
#print axioms StateObs.KO.C19_kinetics
#print axioms StateObs.KO.C19_kinetics_alone
#print axioms StateObs.KO.C19_kinetics_example
#print axioms StateObs.KF.C19_zero_innovation
#print axioms StateObs.KF.C19_default
#print axioms StateObs.LKF.C20_step
#print axioms StateObs.LKF.C20_cycle
#print axioms StateObs.LKF.C20_run
#print axioms StateObs.EKF.C21_cycle
#print axioms StateObs.EKF.C21_affine
#print axioms StateObs.EKF.C21_linear
#print axioms StateObs.EKF.C22_partial
#print axioms StateObs.EKF.C22_stale_state
#print axioms StateObs.EKF.C22_false
#print axioms StateObs.LKF.C23_linear
#print axioms StateObs.EKF.C23_extended_partial
#print axioms StateObs.EKF.C23_extended_false
#print axioms StateObs.EKF.C24_dimensions
#print axioms StateObs.EKF.C24_partial
#print axioms StateObs.EKF.C24_false_dims
#print axioms StateObs.EKF.C24_false_arith
#print axioms StateObs.Lipm.C25_defined
#print axioms StateObs.Lipm.C25_partial
#print axioms StateObs.Lipm.C25_unlimited
#print axioms StateObs.Lipm.C25_false
#print axioms StateObs.Lipm.C26_exact
#print axioms StateObs.Lipm.C26_partial
#print axioms StateObs.Lipm.C26_false
#print axioms StateObs.Lipm.C27_partial
#print axioms StateObs.Lipm.C27_partial_tuning
#print axioms StateObs.Lipm.C27_dcmStd_ignored
#print axioms StateObs.Lipm.C27_drift_forgotten
#print axioms StateObs.Lipm.C27_false
#print axioms StateObs.Lipm.C27_false_drift
#print axioms StateObs.Unidim.C27_unidim_partial
#print axioms StateObs.Unidim.C27_unidim_false
#print axioms StateObs.Lipm.C28_partial
#print axioms StateObs.Lipm.C28_local_bias_partial
#print axioms StateObs.Lipm.C28_auto
#print axioms StateObs.Lipm.C28_false
#print axioms StateObs.Unidim.C28_unidim_update_defined
#print axioms StateObs.Unidim.C28_unidim
#print axioms StateObs.Unidim.C28_unidim_predict
#print axioms StateObs.Unidim.C28_unidim_batch
#print axioms StateObs.Lipm.C29_constructor
#print axioms StateObs.Lipm.C29_reset
#print axioms StateObs.Unidim.C29_unidim_constructor
#print axioms StateObs.Unidim.C29_unidim_reset
#print axioms StateObs.Lipm.C30_translation
#print axioms StateObs.Unidim.C30_unidim
#print axioms StateObs.Tilt.C31_no_division_by_zero
#print axioms StateObs.Tilt.C31_unit
#print axioms StateObs.Tilt.C32_one_at_a_time
#print axioms StateObs.Tilt.C32_partial
#print axioms StateObs.Tilt.C32_false
#print axioms StateObs.Tilt.C32_negation
#print axioms StateObs.Tilt.C33_exact
#print axioms StateObs.Tilt.C33_step
#print axioms StateObs.Tilt.C33_velocity
#print axioms StateObs.Tilt.C33_static
#print axioms StateObs.Kine.C34_rotation
#print axioms StateObs.Kine.C34_exp
#print axioms StateObs.Kine.C34_geometry
#print axioms StateObs.Kine.C35_vector
#print axioms StateObs.Kine.C35_vector_small
#print axioms StateObs.Kine.C35_quaternion
#print axioms StateObs.Kine.C35_log
#print axioms StateObs.Kine.C35_matrix
#print axioms StateObs.Kine.C35_vector_matrix
#print axioms StateObs.Kine.C36_product
#print axioms StateObs.Kine.C36_angles
#print axioms StateObs.Kine.C36_matrix
#print axioms StateObs.Kine.C37_skew
#print axioms StateObs.Kine.C38_rotation
#print axioms StateObs.Kine.C38_equal
#print axioms StateObs.Kine.C38_throws
#print axioms StateObs.Kine.C39_tilt
#print axioms StateObs.Kine.C39_optimal
#print axioms StateObs.Kine.C39_throws
#print axioms StateObs.Kine.C39_self
#print axioms StateObs.Kine.C39_agnostic
#print axioms StateObs.Kine.C39_agnostic_self
#print axioms StateObs.Kine.C40_pure
#print axioms StateObs.Kine.C40_add
#print axioms StateObs.Kine.C40_add_agnostic
#print axioms StateObs.Kine.C40_agnostic_meaning
#print axioms StateObs.Kine.C40_angle
#print axioms StateObs.Kine.C41_partial
#print axioms StateObs.Kine.C41_false
#print axioms StateObs.Kine.C41_negation
#print axioms StateObs.Kine.C42_partial
#print axioms StateObs.Kine.C42_matrix
#print axioms StateObs.Kine.C42_false
#print axioms StateObs.Kine.C42_negation
#print axioms StateObs.Kine.C43_homogeneous
#print axioms StateObs.Kine.C43_vector6
#print axioms StateObs.Kine.C43_vector6_back
#print axioms StateObs.Kine.C43_state_involution
#print axioms StateObs.Kine.C43_state_pose
#print axioms StateObs.Kine.C43_state_derivatives
#print axioms StateObs.Kine.C44_position
#print axioms StateObs.Kine.C44_motion
#print axioms StateObs.Kine.C44_stationary
#print axioms StateObs.Mltp.C45_stateSum
#print axioms StateObs.Mltp.C45_increment
#print axioms StateObs.Mltp.C45_measurement
#print axioms StateObs.Mltp.C45_rtv_partial
#print axioms StateObs.Mltp.C45_rtv_false
#print axioms StateObs.Kine.C46_refines
#print axioms StateObs.Kine.C46_history
#print axioms StateObs.Kine.C46_coherent
#print axioms StateObs.Kine.C47_integrate_differentiate
#print axioms StateObs.Kine.C47_differentiate_integrate
#print axioms StateObs.Kine.Kin.C48_product
#print axioms StateObs.Kine.Kin.C48_inverse
#print axioms StateObs.Kine.Kin.C48_associative
#print axioms StateObs.Kine.Kin.C48_identity
#print axioms StateObs.Kine.Kin.C48_inverse_product
#print axioms StateObs.Kine.Kin.C49_product_flags
#print axioms StateObs.Kine.Kin.C49_inverse_flags
#print axioms StateObs.Kine.Kin.C49_product_values
#print axioms StateObs.Kine.Kin.C49_inverse_values
#print axioms StateObs.Kine.Kin.C50_setZero
#print axioms StateObs.Kine.Kin.C50_round_trip
#print axioms StateObs.Kine.Kin.C50_set_fields
#print axioms StateObs.Kine.Kin.C50_layout
#print axioms StateObs.Kine.Kin.C50_vector_back
#print axioms StateObs.Kine.Kin.C51_flags
#print axioms StateObs.Kine.Kin.C51_linear_motion
#print axioms StateObs.Kine.Kin.C51_linear_steps
#print axioms StateObs.Kine.Kin.C51_angular_motion
#print axioms StateObs.Kine.Kin.C51_angular_steps
#print axioms StateObs.Kine.Kin.C52_defined
#print axioms StateObs.Kine.Kin.C52_flags_partial
#print axioms StateObs.Kine.Kin.C52_flags_linear
#print axioms StateObs.Kine.Kin.C52_provided
#print axioms StateObs.Kine.Kin.C52_nothing_new_partial
#print axioms StateObs.Kine.Kin.C52_velocity_from_positions
#print axioms StateObs.Kine.Kin.C52_acceleration_from_velocities
#print axioms StateObs.Kine.Kin.C52_acceleration_from_position_velocity
#print axioms StateObs.Kine.Kin.C52_acceleration_from_positions
#print axioms StateObs.Kine.Kin.C52_position
#print axioms StateObs.Kine.Kin.C52_kept
#print axioms StateObs.Kine.Kin.C52_angular_velocity_from_orientations
#print axioms StateObs.Kine.Kin.C52_angular_acceleration_from_velocities
#print axioms StateObs.Kine.Kin.C52_orientation
#print axioms StateObs.Kine.Kin.C52_angular_kept
#print axioms StateObs.Kine.Kin.C52_flags_false
#print axioms StateObs.Kine.Kin.C52_nothing_new_false
#print axioms StateObs.Kine.Kin.C52_acceleration_false
#print axioms StateObs.Kine.Kin.C52_angular_acceleration_false
#print axioms StateObs.KO.C53_constructible
#print axioms StateObs.KO.C53_disjoint
#print axioms StateObs.KO.C53_cover
#print axioms StateObs.KO.C53_defined
#print axioms StateObs.KO.C54_stateSetters
#print axioms StateObs.KO.C54_stateResets
#print axioms StateObs.KO.C54_process
#print axioms StateObs.KO.C54_psd
#print axioms StateObs.KO.C54_resetAll
#print axioms StateObs.KO.C54_reachable_psd
#print axioms StateObs.KO.C54_setGyroBias_false
#print axioms StateObs.KO.C54_setStateUnmodeledWrench_false
#print axioms StateObs.KO.C54_setStateKinematics_false
#print axioms StateObs.KO.C54_setStateKinematics_partial
#print axioms StateObs.KO.C55_list_partial
#print axioms StateObs.KO.C55_addContact
#print axioms StateObs.KO.C55_addContact_ok
#print axioms StateObs.KO.C55_removeContact_false
#print axioms StateObs.KO.C55_getNumberOfContacts_false
#print axioms StateObs.KO.C55_clearContacts_false
#print axioms StateObs.KO.C56_measurement_partial
#print axioms StateObs.KO.C56_pose_false
#print axioms StateObs.KO.C56_frozen_false
#print axioms StateObs.KO.C56_wrench_false
#print axioms StateObs.KO.C56_room_partial
#print axioms StateObs.KO.C56_example
#print axioms StateObs.KO.C57_setIMU_partial
#print axioms StateObs.KO.C57_false
#print axioms StateObs.KO.C58_clock
#print axioms StateObs.KO.C58_update
#print axioms StateObs.KO.C58_other
#print axioms StateObs.KO.C58_iterations
#print axioms StateObs.KO.C59_partial
#print axioms StateObs.KO.C59_setWithGyroBias_false
#print axioms StateObs.KO.C59_setWithGyroBias_other_false
#print axioms StateObs.Mltp.C60_imu_back
#print axioms StateObs.Mltp.C60_imu
#print axioms StateObs.Mltp.C60_imu_small
#print axioms StateObs.Mltp.C60_imu_zero
#print axioms StateObs.KO.C60_observer_sum
#print axioms StateObs.KO.C60_observer_difference
#print axioms StateObs.KO.C60_observer
#print axioms StateObs.KO.C60_observer_back
#print axioms StateObs.KO.C60_observer_zero
#print axioms StateObs.KO.C60_observer_new
#print axioms StateObs.KO.C60_observer_new_false
#print axioms StateObs.KO.C60_observer_example
#print axioms StateObs.Offline.C60_filter
#print axioms StateObs.Offline.C60_filter_sizes
#print axioms StateObs.KO.C61_newton_partial
#print axioms StateObs.KO.C61_false
#print axioms StateObs.KO.C61_euler
#print axioms StateObs.KO.C61_newton_defect
#print axioms StateObs.Simulator.C62_functor
#print axioms StateObs.Simulator.C62_getInput
#print axioms StateObs.Simulator.C62_simulateDynamicsTo
#print axioms StateObs.Simulator.C62_returns
#print axioms StateObs.Simulator.C63_getState_partial
#print axioms StateObs.Simulator.C63_getState_false
#print axioms StateObs.Simulator.C63_getMeasurement_partial
#print axioms StateObs.Simulator.C63_getMeasurement_false
#print axioms StateObs.Simulator.C63_first_measurement_false
#print axioms StateObs.Simulator.C63_stale_false
#print axioms StateObs.Simulator.C63_arrays_partial
#print axioms StateObs.Simulator.C64_setState
#print axioms StateObs.Simulator.C64_setInput_ignored
#print axioms StateObs.Simulator.C64_setInput_false
#print axioms StateObs.Simulator.C64_setInput_partial
#print axioms StateObs.Sensor.C65_same
#print axioms StateObs.Sensor.C65_succeeds_partial
#print axioms StateObs.Sensor.C65_sizes
#print axioms StateObs.Sensor.C65_succeeds_false
#print axioms StateObs.Sensor.C66_imu
#print axioms StateObs.Sensor.C66_magnetometer_partial
#print axioms StateObs.Sensor.C66_magnetometer_false
#print axioms StateObs.Sensor.C66_modes
#print axioms StateObs.Sensor.C66_matrix
#print axioms StateObs.Noise.C67_gaussian
#print axioms StateObs.Noise.C67_factor
#print axioms StateObs.Noise.C67_moments
#print axioms StateObs.Noise.C67_semidefinite_false
#print axioms StateObs.Logger.C68_partial
#print axioms StateObs.Logger.C68_push_address_false
#print axioms StateObs.Logger.C68_record_types
#print axioms StateObs.Logger.C68_updateAddress_loses
#print axioms StateObs.Logger.C68_updateAddress_same
#print axioms StateObs.Logger.C68_updateAddress_type
#print axioms StateObs.Logger.C68_false
#print axioms StateObs.Misc.C69_clampScalar
#print axioms StateObs.Misc.C69_derivate
#print axioms StateObs.Misc.C69_clampLimit
#print axioms StateObs.Misc.C69_signum
#print axioms StateObs.Misc.C69_normalizedLazy
#print axioms StateObs.Misc.C69_checkIfNormalized
#print axioms StateObs.Misc.C69_sqrt_ends
#print axioms StateObs.Misc.C69_sqrt_converges
#print axioms StateObs.Misc.C69_timeDiff
#print axioms StateObs.Misc.C70_away
#print axioms StateObs.Misc.C70_false
#print axioms StateObs.Misc.C70_partial
#print axioms StateObs.Misc.C70_at_zero
#print axioms StateObs.Misc.C70_opposite
#print axioms StateObs.Misc.C70_vector_partial
#print axioms StateObs.Misc.C70_vector_first
#print axioms StateObs.Misc.C70_vector_false
#print axioms StateObs.Flex.C71_covariance
#print axioms StateObs.Flex.C71_process
#print axioms StateObs.Flex.C71_psd
#print axioms StateObs.Flex.C71_setters
#print axioms StateObs.Imu.C72_transparent
#print axioms StateObs.Imu.C72_conversion
#print axioms StateObs.Imu.C73_contacts
#print axioms StateObs.Imu.C73_rotation_about_contact
#print axioms StateObs.Mltp.C74_state
#print axioms StateObs.Mltp.C74_history
#print axioms StateObs.Kine.C75_quaternion
#print axioms StateObs.Kine.C75_integrate
#print axioms StateObs.Kine.C75_vector
#print axioms StateObs.Kine.C75_homogeneous
#print axioms StateObs.KO.C76_false
#print axioms StateObs.KO.C76_complete_partial
#print axioms StateObs.KO.C76_first_partial
#print axioms StateObs.KO.C76_example
#print axioms StateObs.Simulator.C77_partial
#print axioms StateObs.Simulator.C77_next_false
#print axioms StateObs.Simulator.C77_false
#print axioms StateObs.Logger.C78_save
#print axioms StateObs.Logger.C78_save_returns
#print axioms StateObs.Logger.C78_path
#print axioms StateObs.Logger.C78_shared_file
#print axioms StateObs.Misc.C79_partial
#print axioms StateObs.Misc.C79_zero
#print axioms StateObs.Misc.C79_false
#print axioms StateObs.Misc.C79_meaning
#print axioms StateObs.Flex.C80_ignored
#print axioms StateObs.Flex.C80_false
#print axioms StateObs.Flex.C81_partial
#print axioms StateObs.Flex.C81_accepted
#print axioms StateObs.Flex.C81_unseen_false
#print axioms StateObs.Flex.C81_negation
#print axioms StateObs.Flex.C81_homogeneous_false
#print axioms StateObs.Flex.C82_estimation
#print axioms StateObs.Flex.C83_partial
#print axioms StateObs.Flex.C83_stale
#print axioms StateObs.Flex.C83_false
#print axioms StateObs.KO.C84_automatic
#print axioms StateObs.KO.C84_returns
#print axioms StateObs.KO.C84_example
#print axioms StateObs.KO.C84_estimates
#print axioms StateObs.KO.C85_step
#print axioms StateObs.KO.C85_example
#print axioms StateObs.Pendulum.C86_partial
#print axioms StateObs.Pendulum.C86_false
#print axioms StateObs.Pendulum.C86_elasticity_false
#print axioms StateObs.Pendulum.C86_example
#print axioms StateObs.Elastic.C87_return
#print axioms StateObs.Elastic.C87_three_contacts_false
#print axioms StateObs.Elastic.C87_example
#print axioms StateObs.Elastic.C87_newton
#print axioms StateObs.Elastic.C87_euler
#print axioms StateObs.Elastic.C88_forces_partial
#print axioms StateObs.Elastic.C88_kinematics_partial
#print axioms StateObs.Elastic.C88_agree_partial
#print axioms StateObs.Elastic.C88_rates_partial
#print axioms StateObs.Elastic.C88_mass_false
#print axioms StateObs.Elastic.C88_velocity_false
#print axioms StateObs.Elastic.C88_example
#print axioms StateObs.Elastic.C89_spring
#print axioms StateObs.Elastic.C89_isotropic
#print axioms StateObs.Elastic.C89_passive
#print axioms StateObs.Elastic.C89_ropes
#print axioms StateObs.Elastic.C89_rest
#print axioms StateObs.Elastic.C89_return
#print axioms StateObs.Elastic.C89_no_model
#print axioms StateObs.Elastic.C89_three_contacts_false
#print axioms StateObs.Elastic.C89_rope_moment_false
#print axioms StateObs.Elastic.C89_example
#print axioms StateObs.Elastic.C89_settings
#print axioms StateObs.Elastic.C89_settings_example
#print axioms StateObs.Elastic.C90_motion
#print axioms StateObs.Elastic.C90_forces
#print axioms StateObs.Elastic.C90_rest
#print axioms StateObs.Elastic.C90_return
#print axioms StateObs.Elastic.C90_no_model
#print axioms StateObs.Elastic.C90_noise_false
#print axioms StateObs.Elastic.C90_noise_empty_false
#print axioms StateObs.Elastic.C90_example
#print axioms StateObs.Elastic.C91_imu
#print axioms StateObs.Elastic.C91_size
#print axioms StateObs.Elastic.C91_forces
#print axioms StateObs.Elastic.C91_absolute
#print axioms StateObs.Elastic.C91_return
#print axioms StateObs.Elastic.C91_first_false
#print axioms StateObs.Elastic.C91_noise
#print axioms StateObs.Elastic.C91_noise_false
#print axioms StateObs.Elastic.C91_four_contacts_false
#print axioms StateObs.Elastic.C91_third_contact_false
#print axioms StateObs.Elastic.C91_example
#print axioms StateObs.Elastic.C92_state
#print axioms StateObs.Elastic.C92_state_again
#print axioms StateObs.Elastic.C92_state_return
#print axioms StateObs.Elastic.C92_state_exact
#print axioms StateObs.Elastic.C92_unmodeled_false
#print axioms StateObs.Elastic.C92_measure
#print axioms StateObs.Elastic.C92_measure_again
#print axioms StateObs.Elastic.C92_measure_return
#print axioms StateObs.Elastic.C92_state_example
#print axioms StateObs.Elastic.C92_measure_example
#print axioms StateObs.ModelFlex.C93_size
#print axioms StateObs.ModelFlex.C93_whole
#print axioms StateObs.ModelFlex.C93_imu_partial
#print axioms StateObs.ModelFlex.C93_imu
#print axioms StateObs.ModelFlex.C93_setVariance_false
#print axioms StateObs.ModelFlex.C93_reset_partial
#print axioms StateObs.ModelFlex.C93_default_false
#print axioms StateObs.ModelFlex.C93_contacts_false
#print axioms StateObs.ModelFlex.C93_pose_false
#print axioms StateObs.ModelFlex.C93_matrix3_false
#print axioms StateObs.ModelFlex.C94_size
#print axioms StateObs.ModelFlex.C94_reset
#print axioms StateObs.ModelFlex.C94_set
#print axioms StateObs.ModelFlex.C94_unmodeled
#print axioms StateObs.ModelFlex.C94_options_false
#print axioms StateObs.ModelFlex.C95_force
#print axioms StateObs.ModelFlex.C95_second_false
#print axioms StateObs.ModelFlex.C95_torque_false
#print axioms StateObs.ModelFlex.C96_covariance
#print axioms StateObs.ModelFlex.C96_information
#print axioms StateObs.ModelFlex.C96_dx_false
#print axioms StateObs.ModelFlex.C96_example
#print axioms StateObs.ModelFlex.C96_step
#print axioms StateObs.ModelFlex.C96_return
#print axioms StateObs.ModelFlex.C97_off
#print axioms StateObs.ModelFlex.C97_on
#print axioms StateObs.ModelFlex.C97_momenta
#print axioms StateObs.ModelFlex.C97_accelerations_false
#print axioms StateObs.ModelFlex.C98_guess
#print axioms StateObs.ModelFlex.C98_pose
#print axioms StateObs.ModelFlex.C98_matrix_false
#print axioms StateObs.ModelFlex.C98_return_false
#print axioms StateObs.ModelFlex.C98_bias_false
#print axioms StateObs.ModelFlex.C98_stale_false
#print axioms StateObs.ModelFlex.C98_forces_partial
#print axioms StateObs.ModelFlex.C98_forces_false
#print axioms StateObs.ModelFlex.C99_observation
#print axioms StateObs.ModelFlex.C99_observation_false
#print axioms StateObs.ModelFlex.C99_order
#print axioms StateObs.ModelFlex.C99_order_false
#print axioms StateObs.ModelFlex.C99_simulated
#print axioms StateObs.ModelFlex.C99_simulated_false
#print axioms StateObs.Offline.C100_partial
#print axioms StateObs.Offline.C100_noInput_partial
#print axioms StateObs.Offline.C100_false
#print axioms StateObs.Offline.C101_run
#print axioms StateObs.Offline.C101_noInput
#print axioms StateObs.Offline.C102_run
#print axioms StateObs.Offline.C102_noInput
#print axioms StateObs.Offline.C102_unit
#print axioms StateObs.KO.C103_example
#print axioms StateObs.KO.C103_setGyroBias
#print axioms StateObs.KO.C103_getUnmodeledWrench
#print axioms StateObs.KO.C103_setStateUnmodeledWrench
#print axioms StateObs.KO.C103_setStateVector
#print axioms StateObs.KO.C103_setStateKinematics
#print axioms StateObs.KO.C103_addContact
#print axioms StateObs.KO.C103_getContactWrench
#print axioms StateObs.KO.C103_getContactPosition
#print axioms StateObs.KO.C103_getContactPosition_only
#print axioms StateObs.KO.C103_others
#print axioms StateObs.KO.C103_kinematics
#print axioms StateObs.KO.C103_getKinematicsOf
#print axioms StateObs.KO.C104_pose_false
#print axioms StateObs.KO.C104_pose_partial
#print axioms StateObs.KO.C104_pose_pushed_partial
#print axioms StateObs.KO.C104_stiffness_false
#print axioms StateObs.KO.C104_gains_partial
#print axioms StateObs.KO.C104_pose_example
#print axioms StateObs.KO.C104_gains_example
#print axioms StateObs.KO.C105_settings
#print axioms StateObs.KO.C105_settings_example
#print axioms StateObs.KO.C106_false
#print axioms StateObs.KO.C106_example
#print axioms StateObs.KO.C106_returns
#print axioms StateObs.KO.C106_kinematics
#print axioms StateObs.KO.C106_kept
#print axioms StateObs.KO.C106_computed_partial
#print axioms StateObs.KO.C106_force_partial
#print axioms StateObs.KO.C106_spring_partial
#print axioms StateObs.C107_elastic
#print axioms StateObs.C107_fixed
#print axioms StateObs.C107_initial
#print axioms StateObs.KO.C108_computed_partial
#print axioms StateObs.KO.C108_physics
#print axioms StateObs.KO.C108_returns
#print axioms StateObs.KO.C108_example
#print axioms StateObs.KO.C108_false
#print axioms StateObs.KO.C109_update_false
#print axioms StateObs.KO.C109_bias_false
#print axioms StateObs.KO.C109_example
#print axioms StateObs.KO.C109_update_example
#print axioms StateObs.KO.C110_momentum_partial
#print axioms StateObs.KO.C110_inertia_partial
#print axioms StateObs.KO.C110_inertiaVector_partial
#print axioms StateObs.KO.C110_com_partial
#print axioms StateObs.KO.C110_comVelocity_partial
#print axioms StateObs.KO.C110_given
#print axioms StateObs.KO.C110_others
#print axioms StateObs.KO.C110_first_false
#print axioms StateObs.KO.C110_constant_false
#print axioms StateObs.KO.C110_corrected_false
#print axioms StateObs.KO.C110_example
#print axioms StateObs.Offline.C111_example
#print axioms StateObs.Offline.C111_run_example
#print axioms StateObs.Offline.C111_online
#print axioms StateObs.Offline.C111_returns
#print axioms StateObs.Offline.C111_times_partial
#print axioms StateObs.Offline.C111_times_false
#print axioms StateObs.Offline.C111_run_partial
#print axioms StateObs.Offline.C111_force_false
#print axioms StateObs.Text.C112_sizes
#print axioms StateObs.Text.C112_matrix
#print axioms StateObs.Text.C112_again
#print axioms StateObs.Text.C112_vector
#print axioms StateObs.Text.C112_vector_size
#print axioms StateObs.Text.C112_flat
#print axioms StateObs.Text.C112_unreadable_false
#print axioms StateObs.Text.C112_example
#print axioms StateObs.Kine.Kin.C113_defined
#print axioms StateObs.Kine.Kin.C113_flags
#print axioms StateObs.Kine.Kin.C113_others
#print axioms StateObs.Kine.Kin.C113_provided
#print axioms StateObs.Kine.Kin.C113_pose
#print axioms StateObs.Kine.Kin.C113_velocity
#print axioms StateObs.Kine.Kin.C113_velocity_kept
#print axioms StateObs.Kine.Kin.C113_acceleration
#print axioms StateObs.Kine.Kin.C113_nothing_new
#print axioms StateObs.Kine.Kin.C113_velocity_agrees
#print axioms StateObs.Kine.Kin.C113_acceleration_differs
#print axioms StateObs.Elastic.C114_stages
#print axioms StateObs.Elastic.C114_partial
#print axioms StateObs.Elastic.C114_wrenches
#print axioms StateObs.Elastic.C114_return
#print axioms StateObs.Elastic.C114_exact
#print axioms StateObs.Elastic.C114_false
#print axioms StateObs.Noise.C115_unit
#print axioms StateObs.Noise.C115_quaternion
#print axioms StateObs.Noise.C115_uniform
#print axioms StateObs.Noise.C115_unique
#print axioms StateObs.Noise.C115_scalar
#print axioms StateObs.Noise.C115_angle
#print axioms StateObs.Noise.C115_gaussian
#print axioms StateObs.Noise.C115_zero
#print axioms StateObs.LKF.C116_best
#print axioms StateObs.LKF.C116_gaussian
#print axioms StateObs.LKF.C117_converges
#print axioms StateObs.LKF.C117_forgets
#print axioms StateObs.LKF.C117_steady
#print axioms StateObs.Lipm.C118_converges
#print axioms StateObs.Unidim.C118_unidim
#print axioms StateObs.LKF.C119_conservative
#print axioms StateObs.LKF.C119_monotone
#print axioms StateObs.LKF.C119_sensors
#print axioms StateObs.Tilt.C120_defined
#print axioms StateObs.Tilt.C120_rate
#print axioms StateObs.Tilt.C120_converges
#print axioms StateObs.Tilt.C120_almost_global
#print axioms StateObs.Tilt.C120_gains
#print axioms StateObs.LKF.C121_coordinates
#print axioms StateObs.LKF.C121_sequential
#print axioms StateObs.LKF.C121_order
#print axioms StateObs.Lipm.C122_partial
#print axioms StateObs.Lipm.C122_false
#print axioms StateObs.Kine.C123_agree
#print axioms StateObs.Kine.C123_no_acceleration
#print axioms StateObs.Kine.C123_kinematics
#print axioms StateObs.Kine.C123_reversible
#print axioms StateObs.Kine.C123_motion
#print axioms StateObs.LKF.C124_outputs
#print axioms StateObs.LKF.C124_simulated_partial
#print axioms StateObs.LKF.C124_false
#print axioms StateObs.KO.C125_partial
#print axioms StateObs.KO.C125_measurement
#print axioms StateObs.KO.C125_force_partial
#print axioms StateObs.KO.C125_false
#print axioms StateObs.Tilt.C126_axes
#print axioms StateObs.EKF.C127_recursion
#print axioms StateObs.EKF.C127_differences
#print axioms StateObs.EKF.C127_coordinates
#print axioms StateObs.EKF.C127_order
#print axioms StateObs.KF.C128_matrices
#print axioms StateObs.KF.C128_vectors
#print axioms StateObs.LKF.C128_inputs
#print axioms StateObs.LKF.C128_neutral
#print axioms StateObs.KF.C128_values
#print axioms StateObs.LKF.C129_fails
#print axioms StateObs.LKF.C129_false
#print axioms StateObs.LKF.C129_partial
#print axioms StateObs.KO.C130_order
#print axioms StateObs.KO.C130_history
#print axioms StateObs.Unidim.C131_unidim_length
#print axioms StateObs.Unidim.C131_unidim_partial
#print axioms StateObs.Lipm.C131_length
#print axioms StateObs.Lipm.C131_partial
#print axioms StateObs.Lipm.C131_false
#print axioms StateObs.LKF.C132_superposition
#print axioms StateObs.LKF.C132_disturbance
#print axioms StateObs.KO.C133_new
#print axioms StateObs.KO.C133_ignored
#print axioms StateObs.KO.C133_partial
#print axioms StateObs.KO.C133_state_false
#print axioms StateObs.KO.C133_measurement_false
#print axioms StateObs.Kine.C134_print
#print axioms StateObs.KO.C135_second_partial
#print axioms StateObs.KO.C135_wrench_partial
#print axioms StateObs.KO.C135_extract_partial
#print axioms StateObs.KO.C135_extract_false
#print axioms StateObs.KO.C135_wrench_false
#print axioms StateObs.LKF.C136_linear_partial
#print axioms StateObs.LKF.C136_false
#print axioms StateObs.EKF.C136_extended_partial
#print axioms StateObs.Tilt.C136_tilt
#print axioms StateObs.Obs.C136_observer_partial
#print axioms StateObs.Tools.C137_partial
#print axioms StateObs.Tools.C137_ground_partial
#print axioms StateObs.Tools.C137_support
#print axioms StateObs.Tools.C137_none
#print axioms StateObs.Tools.C137_short
#print axioms StateObs.Tools.C137_frame
#print axioms StateObs.Tools.C137_false
#print axioms StateObs.Tools.C137_example
#print axioms StateObs.Tools.C138_states_partial
#print axioms StateObs.Tools.C138_states_false
#print axioms StateObs.Tools.C138_measurements
#print axioms StateObs.Tools.C138_gap_false
#print axioms StateObs.Tools.C138_inputs_partial
#print axioms StateObs.Tools.C138_inputs_short
#print axioms StateObs.Tools.C138_inputs_long_false
#print axioms StateObs.Tools.C138_inputs_false
#print axioms StateObs.Tools.C138_example
#print axioms StateObs.Tools.C139_partial
#print axioms StateObs.Tools.C139_gap
#print axioms StateObs.Tools.C139_short
#print axioms StateObs.Tools.C139_false
#print axioms StateObs.Tools.C139_example
#print axioms StateObs.Tools.C139_trajectory
#print axioms StateObs.Tools.C139_malformed_false
#print axioms StateObs.KO.C140_partial
#print axioms StateObs.KO.C140_sign
#print axioms StateObs.KO.C140_torque_partial
#print axioms StateObs.KO.C140_measurement
#print axioms StateObs.KO.C140_false
#print axioms StateObs.Imu.C141_carried
#print axioms StateObs.Imu.C141_body
#print axioms StateObs.Imu.C141_returns
#print axioms StateObs.Imu.C142_step
#print axioms StateObs.Imu.C142_noise
#print axioms StateObs.Imu.C143_stable_iff
#print axioms StateObs.Imu.C143_sequences
#print axioms StateObs.Mltp.C144_step
#print axioms StateObs.Mltp.C144_norm
#print axioms StateObs.Mltp.C144_measurement
#print axioms StateObs.Mltp.C144_noise
#print axioms StateObs.Mltp.C145_motion
#print axioms StateObs.Mltp.C145_sequences
#print axioms StateObs.Imu.C145_fixed
#print axioms StateObs.Imu.C145_fixed_sequences
#print axioms StateObs.Follow.C146_ekf
#print axioms StateObs.Follow.C146_differences
#print axioms StateObs.Follow.C146_linear
#print axioms StateObs.Follow.C146_data
#print axioms StateObs.Offline.C147_attitude
#print axioms StateObs.Offline.C147_attitude_noInput
#print axioms StateObs.Offline.C147_attitude_data
#print axioms StateObs.Offline.C147_exact
#print axioms StateObs.Offline.C147_noInput
#print axioms StateObs.Offline.C147_data
#print axioms StateObs.KO.C148_forever_partial
#print axioms StateObs.KO.C148_partial
#print axioms StateObs.KO.C148_false
