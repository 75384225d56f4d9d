import Verif.Base.Fl
import Verif.Props.ScanProps
import Verif.Props.CellProps
import Verif.Props.NdtProps
import Verif.Props.MatcherProps
import Verif.Props.KdTreeProps
import Verif.Props.FilterProps
import Verif.Props.MotionProps
import Verif.Props.ConstraintProps
import Verif.Props.CostProps
import Verif.Props.SolverProps
import Verif.Props.GraphProps
import Verif.Props.GridProps
import Verif.Props.LaserProps
import Verif.Props.MapperProps
import Verif.Props.GraphStateProps
import Verif.Props.LoopProps
import Verif.Props.LocaliseProps
import Verif.Props.EndsProps
import Verif.Props.PublishProps
import Verif.Props.LockProps
import Verif.Props.LoadProps
import Verif.Props.RaceProps
import Verif.Props.TransformProps
import Verif.Props.ShutdownProps
import Verif.Props.RegionProps
import Verif.Props.NodeProps
import Verif.Props.OdometryProps
import Verif.Props.OverlapProps
import Verif.Props.RoundingProps
import Verif.UnitTests.NdtModel
import Verif.UnitTests.Graph
import Verif.Props.FilterModeProps
import Verif.Props.ProgressProps
import Verif.Props.ProgressLocalProps
import Verif.Props.EndingProps
import Verif.Props.FilesProps
import Verif.Props.OrientationProps
import Verif.Props.TimingProps
import Verif.Props.ChanceProps
import Verif.Props.ParameterProps
import Verif.Props.AnnounceProps
import Verif.Props.LocalisableProps
import Verif.Props.ScriptProps
import Verif.Props.RoundedCellProps
import Verif.Props.SymmetryProps
import Verif.Props.BeamProps
import Verif.Props.JetProps
import Verif.Props.FilterFProps
import Verif.Props.RealParamProps
import Verif.Props.ResampleProps
import Verif.Props.PlacementProps
import Verif.Props.MountProps
import Verif.Props.AgreeProps
import Verif.Props.SingleProps
import Verif.Props.RoundedPoseProps
import Verif.Props.RoundedFilterProps
import Verif.Props.FilterFrameProps
import Verif.Props.RayNearProps
import Verif.Props.ClosureProps
import Verif.Props.RolesProps
import Verif.Props.RoundedPointsProps
import Verif.Props.WorldProps
import Verif.Props.WallProps
import Verif.Props.KnowsProps
import Verif.Props.WindowProps
import Verif.Props.PlacedProps
import Verif.Props.RoundedGridProps
import Verif.Props.NearLoopProps
import Verif.Props.RoundedMatcherProps
import Verif.Props.RoundedEndsProps
import Verif.Props.RoundedWeighProps
import Verif.Props.RoundedHeadingProps
import Verif.Props.RoundedSolverProps
import Verif.Props.RoundedScanProps
import Verif.Props.DrawsProps
import Verif.Props.DiscreteProps
import Verif.Props.RoundedDiscreteProps
import Verif.Props.RoundedCovProps
import Verif.Props.RoundedMotionProps
import Verif.Props.RoundedTransformProps
import Verif.Props.RoundedResampleProps
import Verif.Props.RoundedTravelProps
import Verif.Props.RoundedControlProps
import Verif.Props.RoundedWorldProps
import Verif.Props.RoundedReaderProps
import Verif.Props.RoundedTrackProps
import Verif.Props.RoundedTypicalProps
import Verif.Props.RoundedInformationProps
import Verif.Props.RoundedWeightProps
import Verif.Props.RoundedGaussProps
import Verif.Props.RoundedBestProps
import Verif.Props.RoundedSharesProps
import Verif.Props.RoundedSquaresProps
import Verif.Props.RoundedOffsetsProps
import Verif.Props.RoundedBeyondProps
import Verif.Props.AnyWallProps
import Verif.Props.RoomProps
import Verif.Props.PutBackProps
import Verif.Props.DriftProps
import Verif.Props.SurveyProps
import Verif.Props.LifeProps
import Verif.Props.PauseProps
import Verif.Props.HushProps
import Verif.Props.IdleProps
import Verif.Props.LullProps
import Verif.Audit
