/- Fails the build if a property theorem `Ndt.cNN_*` depends on an axiom other than `propext`,
   `Classical.choice` and `Quot.sound`.  Imported last, from `Verif.lean`. -/
import Verif.Props.AgreeProps
import Verif.Props.AnnounceProps
import Verif.Props.AnyWallProps
import Verif.Props.BeamProps
import Verif.Props.CellProps
import Verif.Props.ChanceProps
import Verif.Props.ClosureProps
import Verif.Props.ConstraintProps
import Verif.Props.CostProps
import Verif.Props.DiscreteProps
import Verif.Props.DrawsProps
import Verif.Props.DriftProps
import Verif.Props.EndingProps
import Verif.Props.EndsProps
import Verif.Props.FilesProps
import Verif.Props.FilterFProps
import Verif.Props.FilterFrameProps
import Verif.Props.FilterModeProps
import Verif.Props.FilterProps
import Verif.Props.GraphProps
import Verif.Props.GraphStateProps
import Verif.Props.GridProps
import Verif.Props.HushProps
import Verif.Props.IdleProps
import Verif.Props.JetProps
import Verif.Props.KdTreeProps
import Verif.Props.KnowsProps
import Verif.Props.LaserProps
import Verif.Props.LifeProps
import Verif.Props.LoadProps
import Verif.Props.LocalisableProps
import Verif.Props.LocaliseProps
import Verif.Props.LockProps
import Verif.Props.LoopProps
import Verif.Props.LullProps
import Verif.Props.MapperProps
import Verif.Props.MatcherProps
import Verif.Props.MotionProps
import Verif.Props.MountProps
import Verif.Props.NdtProps
import Verif.Props.NearLoopProps
import Verif.Props.NodeProps
import Verif.Props.OdometryProps
import Verif.Props.OrientationProps
import Verif.Props.OverlapProps
import Verif.Props.ParameterProps
import Verif.Props.PauseProps
import Verif.Props.PlacedProps
import Verif.Props.PlacementProps
import Verif.Props.ProgressLocalProps
import Verif.Props.ProgressProps
import Verif.Props.PublishProps
import Verif.Props.PutBackProps
import Verif.Props.RaceProps
import Verif.Props.RayNearProps
import Verif.Props.RealParamProps
import Verif.Props.RegionProps
import Verif.Props.ResampleProps
import Verif.Props.RolesProps
import Verif.Props.RoomProps
import Verif.Props.RoundedBestProps
import Verif.Props.RoundedBeyondProps
import Verif.Props.RoundedCellProps
import Verif.Props.RoundedControlProps
import Verif.Props.RoundedCovProps
import Verif.Props.RoundedDiscreteProps
import Verif.Props.RoundedEndsProps
import Verif.Props.RoundedFilterProps
import Verif.Props.RoundedGaussProps
import Verif.Props.RoundedGridProps
import Verif.Props.RoundedHeadingProps
import Verif.Props.RoundedInformationProps
import Verif.Props.RoundedMatcherProps
import Verif.Props.RoundedMotionProps
import Verif.Props.RoundedOffsetsProps
import Verif.Props.RoundedPointsProps
import Verif.Props.RoundedPoseProps
import Verif.Props.RoundedReaderProps
import Verif.Props.RoundedResampleProps
import Verif.Props.RoundedScanProps
import Verif.Props.RoundedSharesProps
import Verif.Props.RoundedSolverProps
import Verif.Props.RoundedSquaresProps
import Verif.Props.RoundedTrackProps
import Verif.Props.RoundedTransformProps
import Verif.Props.RoundedTravelProps
import Verif.Props.RoundedTypicalProps
import Verif.Props.RoundedWeighProps
import Verif.Props.RoundedWeightProps
import Verif.Props.RoundedWorldProps
import Verif.Props.RoundingProps
import Verif.Props.ScanProps
import Verif.Props.ScriptProps
import Verif.Props.ShutdownProps
import Verif.Props.SingleProps
import Verif.Props.SolverProps
import Verif.Props.SurveyProps
import Verif.Props.SymmetryProps
import Verif.Props.TimingProps
import Verif.Props.TransformProps
import Verif.Props.WallProps
import Verif.Props.WindowProps
import Verif.Props.WorldProps
import Lean.Util.CollectAxioms
import Lean.Elab.Command

open Lean Elab Command in
run_cmd do
  let env ← getEnv
  let isProp (n : Name) : Bool :=
    match n with
    | .str (.str .anonymous "Ndt") s =>
        let cs := s.toList
        let ds := cs.tail.takeWhile Char.isDigit
        cs.head? == some 'c' && 2 ≤ ds.length && (cs.drop (ds.length + 1)).head? == some '_'
    | _ => false
  let names := env.constants.map₁.fold (init := #[]) fun acc n ci =>
    match ci with
    | .thmInfo _ => if isProp n then acc.push n else acc
    | _ => acc
  if names.size < 634 then
    throwError "only {names.size} property theorems found"
  for n in names do
    let axs ← collectAxioms n
    for a in axs do
      unless a == ``propext || a == ``Classical.choice || a == ``Quot.sound do
        throwError "{n} depends on {a}"
