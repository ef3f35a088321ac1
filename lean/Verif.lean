import Verif.Outcome
import Verif.OutcomeLaws
import Verif.CheckedItem.Model
import Verif.CheckedItem.Props
import Verif.CheckedItem.SetProps
import Verif.EKF.AffineProps
import Verif.EKF.CacheProps
import Verif.EKF.CacheSpec
import Verif.EKF.FDGeneral
import Verif.EKF.FollowProps
import Verif.EKF.GeneralProps
import Verif.EKF.JacobianProps
import Verif.EKF.Lemmas
import Verif.EKF.Model
import Verif.EKF.ResetProps
import Verif.EKF.ShiftProps
import Verif.EKF.StepForm
import Verif.Elastic.ForceLemmas
import Verif.Elastic.ForceProps
import Verif.Elastic.Inv
import Verif.Elastic.JacLemmas
import Verif.Elastic.JacProps
import Verif.Elastic.Lemmas
import Verif.Elastic.MeasLemmas
import Verif.Elastic.MeasProps
import Verif.Elastic.Model
import Verif.Elastic.MomentaProps
import Verif.Elastic.NewtonLive
import Verif.Elastic.NewtonProps
import Verif.Elastic.RK4Lemmas
import Verif.Elastic.RK4Model
import Verif.Elastic.RK4Props
import Verif.Elastic.RK4Spec
import Verif.Elastic.Reach
import Verif.Elastic.SettingsProps
import Verif.Elastic.Spec
import Verif.Elastic.StepProps
import Verif.Flex.CovProps
import Verif.Flex.Functor
import Verif.Flex.Inv
import Verif.Flex.Lemmas
import Verif.Flex.Model
import Verif.Flex.PredictProps
import Verif.Flex.Props
import Verif.Flex.Spec
import Verif.Flex.StepProps
import Verif.Imu.CacheProps
import Verif.Imu.InertialProps
import Verif.Imu.Mltp
import Verif.Imu.MltpBackProps
import Verif.Imu.MltpLemmas
import Verif.Imu.MltpProps
import Verif.Imu.MltpStepProps
import Verif.Imu.Model
import Verif.Imu.MotionProps
import Verif.Imu.StepProps
import Verif.Imu.StepSpec
import Verif.Imu.Vec
import Verif.IndexedArray.File
import Verif.IndexedArray.FileProps
import Verif.IndexedArray.Lemmas
import Verif.IndexedArray.Model
import Verif.IndexedArray.Props
import Verif.IndexedArray.Spec
import Verif.KO.AgreeProps
import Verif.KO.Blocks
import Verif.KO.ClientAutoProps
import Verif.KO.ClientProps
import Verif.KO.ClientSim
import Verif.KO.ClientSpec
import Verif.KO.ClockProps
import Verif.KO.ContactProps
import Verif.KO.CovLemmas
import Verif.KO.CovProps
import Verif.KO.CovResetProps
import Verif.KO.CovSpec
import Verif.KO.CoverExample
import Verif.KO.Dyn
import Verif.KO.Filter
import Verif.KO.ForeverProps
import Verif.KO.Frame
import Verif.KO.Fresh
import Verif.KO.HelperModel
import Verif.KO.HelperNewProps
import Verif.KO.HelperProps
import Verif.KO.ImuLemmas
import Verif.KO.ImuProps
import Verif.KO.InertInv
import Verif.KO.InertLemmas
import Verif.KO.InertProps
import Verif.KO.InertSpec
import Verif.KO.InputLemmas
import Verif.KO.InputProps
import Verif.KO.InputSpec
import Verif.KO.Inv
import Verif.KO.InvLemmas
import Verif.KO.LayoutProps
import Verif.KO.Live
import Verif.KO.LiveFilter
import Verif.KO.LiveMeas
import Verif.KO.LiveOps
import Verif.KO.MeasLemmas
import Verif.KO.MeasProps
import Verif.KO.Model
import Verif.KO.MovedProps
import Verif.KO.NewtonFalse
import Verif.KO.NewtonProps
import Verif.KO.NewtonSpec
import Verif.KO.NoiseModel
import Verif.KO.NoiseProps
import Verif.KO.Ops
import Verif.KO.OrderProps
import Verif.KO.PackLemmas
import Verif.KO.PoseErase
import Verif.KO.PoseProps
import Verif.KO.Predict
import Verif.KO.PredictFalse
import Verif.KO.PredictProps
import Verif.KO.PredictSpec
import Verif.KO.PsdInv
import Verif.KO.PsdProps
import Verif.KO.SensorLemmas
import Verif.KO.SensorProps
import Verif.KO.SensorSpec
import Verif.KO.Settings
import Verif.KO.SettingsProps
import Verif.KO.SignLemmas
import Verif.KO.SignProps
import Verif.KO.SignSpec
import Verif.KO.StateAcc
import Verif.KO.StateExample
import Verif.KO.StateLemmas
import Verif.KO.StateLive
import Verif.KO.StateProps
import Verif.KO.StateSet
import Verif.KO.StateSpec
import Verif.KO.StepProps
import Verif.KO.StillProps
import Verif.KO.SumLemmas
import Verif.KO.SumProps
import Verif.KO.SumSpec
import Verif.KO.UpdLemmas
import Verif.Kalman.Algebra
import Verif.Kalman.CoordProps
import Verif.Kalman.DynMat
import Verif.Kalman.Examples
import Verif.Kalman.FactoryModel
import Verif.Kalman.FactoryProps
import Verif.Kalman.FactoryValues
import Verif.Kalman.Feed
import Verif.Kalman.GaussLemmas
import Verif.Kalman.LLT
import Verif.Kalman.Lemmas
import Verif.Kalman.LinLemmas
import Verif.Kalman.LinProps
import Verif.Kalman.Model
import Verif.Kalman.OptimalLemmas
import Verif.Kalman.OptimalProps
import Verif.Kalman.OptimalSpec
import Verif.Kalman.OutputModel
import Verif.Kalman.OutputProps
import Verif.Kalman.Props
import Verif.Kalman.ResetLemmas
import Verif.Kalman.SafeProps
import Verif.Kalman.Singular
import Verif.Kalman.SizeProps
import Verif.Kalman.Spec
import Verif.Kalman.StableBound
import Verif.Kalman.StableLemmas
import Verif.Kalman.StableProps
import Verif.Kalman.StableVarying
import Verif.Kalman.StepForm
import Verif.Kalman.SuperProps
import Verif.Kin.DepLemmas
import Verif.Kin.DepModel
import Verif.Kin.DepProps
import Verif.Kin.FreeIntegrate
import Verif.Kin.IntProps
import Verif.Kin.Lemmas
import Verif.Kin.Model
import Verif.Kin.MotionExists
import Verif.Kin.OriLemmas
import Verif.Kin.OriProps
import Verif.Kin.OriSpec
import Verif.Kin.Orientation
import Verif.Kin.PrintModel
import Verif.Kin.PrintProps
import Verif.Kin.PrintSpec
import Verif.Kin.ProdProps
import Verif.Kin.Spec
import Verif.Kin.UpdLemmas
import Verif.Kin.UpdProps
import Verif.Kin.VecProps
import Verif.Lipm.Blocks
import Verif.Lipm.ConvergeLemmas
import Verif.Lipm.ConvergeProps
import Verif.Lipm.Lemmas
import Verif.Lipm.LimitProps
import Verif.Lipm.Model
import Verif.Lipm.Props
import Verif.Lipm.Reach
import Verif.Lipm.RotateProps
import Verif.Lipm.Spec
import Verif.Lipm.Unidim
import Verif.Lipm.UnidimConverge
import Verif.Lipm.UnidimLemmas
import Verif.Lipm.UnidimProps
import Verif.Lipm.UnidimUnits
import Verif.Lipm.UnitProps
import Verif.Logger.Model
import Verif.Logger.Props
import Verif.Logger.Spec
import Verif.Misc.Model
import Verif.Misc.Props
import Verif.Misc.TimeModel
import Verif.Misc.TimeProps
import Verif.ModelFlex.Config
import Verif.ModelFlex.CovLemmas
import Verif.ModelFlex.CovProps
import Verif.ModelFlex.Fresh
import Verif.ModelFlex.GuessProps
import Verif.ModelFlex.Inv
import Verif.ModelFlex.Jac
import Verif.ModelFlex.LimitProps
import Verif.ModelFlex.Live
import Verif.ModelFlex.MatrixProps
import Verif.ModelFlex.Model
import Verif.ModelFlex.OnProps
import Verif.ModelFlex.QProps
import Verif.ModelFlex.Reach
import Verif.ModelFlex.SideProps
import Verif.ModelFlex.Step
import Verif.ModelFlex.StepExample
import Verif.ModelFlex.StepLemmas
import Verif.ModelFlex.StepProps
import Verif.ModelFlex.Stuck
import Verif.Noise.GaussianProps
import Verif.Noise.Model
import Verif.Noise.Props
import Verif.Noise.RandomLemmas
import Verif.Noise.RandomModel
import Verif.Noise.RandomProps
import Verif.Noise.RandomSpec
import Verif.Offline.AttExactProps
import Verif.Offline.AttFunctor
import Verif.Offline.AttLoop
import Verif.Offline.AttModel
import Verif.Offline.AttProps
import Verif.Offline.AttSpec
import Verif.Offline.Drive
import Verif.Offline.FlexLoop
import Verif.Offline.FlexModel
import Verif.Offline.FlexProps
import Verif.Offline.FlexSpec
import Verif.Offline.MltpArithProps
import Verif.Offline.MltpExactProps
import Verif.Offline.MltpLoop
import Verif.Offline.MltpModel
import Verif.Offline.MltpProps
import Verif.Offline.MltpSpec
import Verif.Offline.ModelBegin
import Verif.Offline.ModelExample
import Verif.Offline.ModelLoop
import Verif.Offline.ModelModel
import Verif.Offline.ModelProps
import Verif.Offline.ModelRunLemmas
import Verif.Offline.ModelRunLoop
import Verif.Offline.ModelRunSpec
import Verif.Offline.ModelSpec
import Verif.Pendulum.Model
import Verif.Pendulum.Props
import Verif.Rot.AngleAxis
import Verif.Rot.Basic
import Verif.Rot.Eigen
import Verif.Rot.Examples
import Verif.Rot.Exp
import Verif.Rot.FDProps
import Verif.Rot.Jacobian
import Verif.Rot.Lemmas
import Verif.Rot.Model
import Verif.Rot.Motion
import Verif.Rot.MotionProps
import Verif.Rot.Props
import Verif.Rot.Quat
import Verif.Rot.Spec
import Verif.Rot.YawProps
import Verif.Sensor.Model
import Verif.Sensor.Props
import Verif.Simulator.FunctorProps
import Verif.Simulator.Lemmas
import Verif.Simulator.Model
import Verif.Simulator.Props
import Verif.Simulator.Spec
import Verif.Text.Lemmas
import Verif.Text.Model
import Verif.Text.Props
import Verif.Text.Spec
import Verif.Tilt.ConvergeLemmas
import Verif.Tilt.ConvergeProps
import Verif.Tilt.ConvergeTilt
import Verif.Tilt.FrameProps
import Verif.Tilt.Model
import Verif.Tilt.Props
import Verif.Tilt.ShiftProps
import Verif.Tools.ReadModel
import Verif.Tools.ReadProps
import Verif.Tools.SplitModel
import Verif.Tools.SplitProps
import Verif.Tools.SplitSpec
import Verif.Tools.TrajProps
import Verif.Tools.ZmpModel
import Verif.Tools.ZmpProps
import Verif.Tools.ZmpSpec
import Verif.ZeroDelay.Lemmas
import Verif.ZeroDelay.Map
import Verif.ZeroDelay.Model
import Verif.ZeroDelay.Props
import Verif.ZeroDelay.PushProps
import Verif.ZeroDelay.ShiftProps
import Verif.ZeroDelay.ShiftSpec
import Verif.ZeroDelay.Spec
import Verif.Axioms
