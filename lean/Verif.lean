import Verif.Py
import Verif.StepSize.Model
import Verif.StepSize.Lemmas
import Verif.StepSize.SeriesLemmas
import Verif.StepSize.SeriesInv
import Verif.StepSize.Trace
import Verif.StepSize.Props
import Verif.Gsd.Model
import Verif.Gsd.Spec
import Verif.Gsd.Lemmas
import Verif.Gsd.Props
import Verif.Text
import Verif.TextLemmas
import Verif.Lammps.Model
import Verif.Lammps.Spec
import Verif.Lammps.Lemmas
import Verif.Lammps.Props
import Verif.Relax.Model
import Verif.Relax.Spec
import Verif.Relax.Lemmas
import Verif.Relax.Props
import Verif.Cache.Model
import Verif.Cache.Spec
import Verif.Cache.Lemmas
import Verif.Cache.Props
import Verif.Process.Model
import Verif.Process.Spec
import Verif.Process.Lemmas
import Verif.Process.RelaxEnv
import Verif.Process.Props
import Verif.Motion.Model
import Verif.Motion.Spec
import Verif.Motion.Lemmas
import Verif.Motion.Props
import Verif.Dynamics.Model
import Verif.Dynamics.Spec
import Verif.Dynamics.RowLemmas
import Verif.Dynamics.Lemmas
import Verif.Dynamics.StructLemmas
import Verif.Dynamics.RunLemmas
import Verif.Dynamics.Props
import Verif.Dynamics.Particles
import Verif.Dynamics.Overlap
import Verif.Dynamics.OverlapProps
import Verif.Dynamics.Symmetry
import Verif.Dynamics.EndToEnd
import Verif.RelaxTime.Lemmas
import Verif.RelaxTime.Model
import Verif.RelaxTime.Props
import Verif.RelaxTime.Spec
import Verif.StepSize.Spec
import Verif.Tables.JoinLemmas
import Verif.Tables.Lemmas
import Verif.Tables.Model
import Verif.Tables.Props
import Verif.Tables.Spec
import Verif.Names.Lemmas
import Verif.Names.Model
import Verif.Names.MoreLemmas
import Verif.Names.Props
import Verif.Names.Spec
import Verif.Frame.Lemmas
import Verif.Frame.Model
import Verif.Frame.Props
import Verif.Frame.Spec
import Verif.Order.FreudLemmas
import Verif.Order.Lemmas
import Verif.Order.Model
import Verif.Order.Props
import Verif.Order.Spec
import Verif.Molecule.Lemmas
import Verif.Molecule.Model
import Verif.Molecule.Props
import Verif.Molecule.Spec
import Verif.Angle.Lemmas
import Verif.Angle.Model
import Verif.Angle.Props
import Verif.Figures.Lemmas
import Verif.Figures.Model
import Verif.Figures.Props
import Verif.Figures.Spec
import Verif.Viewer.AlgorithmLemmas
import Verif.Viewer.AlgorithmProps
import Verif.Viewer.Algorithms
import Verif.Viewer.Lemmas
import Verif.Viewer.Model
import Verif.Viewer.Props
import Verif.Viewer.Spec
import Verif.Viewer.StateLemmas
import Verif.Cli.Model
import Verif.Cli.Props
import Verif.Pipeline.Example
import Verif.Pipeline.Lemmas
import Verif.Pipeline.Model
import Verif.Pipeline.Props
import Verif.Pipeline.RelaxLemmas
import Verif.Pipeline.ReturnLemmas
import Verif.Pipeline.RunLemmas
import Verif.Pipeline.Spec
import Verif.Pipeline.BoxProps
import Verif.Pipeline.ReaderLemmas
import Verif.Pipeline.ReaderProps
import Verif.StepSize.LengthLemmas
import Verif.StepSize.LengthProps
import Verif.Wave.Lemmas
import Verif.Wave.Model
import Verif.Wave.Props
import Verif.Wave.Spec
import Verif.Pipeline.SkipLemmas
import Verif.Pipeline.SkipProps
import Verif.Relax.StructModel
import Verif.Relax.StructProps
import Verif.Relax.StructSpec
import Verif.RelaxTime.NewtonLemmas
import Verif.RelaxTime.NewtonModel
import Verif.RelaxTime.NewtonSpec
import Verif.Pipeline.TwinProps
import Verif.RelaxTime.NewtonProps
import Verif.Pipeline.LammpsExample
import Verif.Pipeline.LammpsLemmas
import Verif.Pipeline.LammpsModel
import Verif.Pipeline.LammpsProps
import Verif.Pipeline.LammpsSpec
import Verif.Process.CrashLemmas
import Verif.Process.CrashProps
import Verif.Names.ParamModel
import Verif.Names.ParamProps
import Verif.Thermo.Model
import Verif.Thermo.Props
import Verif.Thermo.ReadModel
import Verif.Thermo.ReadProps
import Verif.Thermo.Spec
import Verif.Pipeline.ChainDynLemmas
import Verif.Pipeline.ChainDynProps
import Verif.Pipeline.ChainExample
import Verif.Pipeline.ChainLemmas
import Verif.Pipeline.ChainModel
import Verif.Pipeline.ChainProps
import Verif.Pipeline.ChainSpec
import Verif.Order.ModelProps
import Verif.Order.VoronoiModel
import Verif.Order.VoronoiProps
import Verif.Order.VoronoiSpec
import Verif.Rounding.FlLemmas
import Verif.Rounding.Lemmas
import Verif.Rounding.Model
import Verif.Rounding.ReadExample
import Verif.Rounding.ReadLemmas
import Verif.Rounding.ReadProps
import Verif.Rounding.Spec
import Verif.Rounding.StoreLemmas
import Verif.Rounding.StoreModel
import Verif.Rounding.StoreSpec
import Verif.Rounding.TrackExample
import Verif.Rounding.TrackProps
import Verif.Pipeline.UnsignedLemmas
import Verif.Pipeline.UnsignedModel
import Verif.Pipeline.UnsignedProps
import Verif.Process.UnsignedLemmas
import Verif.Process.UnsignedSpec
import Verif.Rounding.RotLemmas
import Verif.Rounding.RotModel
import Verif.Rounding.RotProps
import Verif.Rounding.RotSpec
import Verif.Rounding.TurnLemmas
import Verif.Rounding.AngleLemmas
import Verif.Rounding.AngleModel
import Verif.Rounding.AngleProps
import Verif.Rounding.OverlapLemmas
import Verif.Rounding.OverlapModel
import Verif.Rounding.OverlapProps
import Verif.Relax.LongProps
import Verif.Rounding.MomentLemmas
import Verif.Rounding.MomentModel
import Verif.Rounding.MomentProps
import Verif.Rounding.MomentSpec
import Verif.Figures.LegendLemmas
import Verif.Figures.LegendModel
import Verif.Figures.LegendProps
import Verif.Figures.LegendSpec
import Verif.Viewer.NameLemmas
import Verif.Viewer.NameProps
import Verif.Viewer.NameSpec
import Verif.Pipeline.ChainMsdExample
import Verif.Pipeline.ChainMsdLemmas
import Verif.Pipeline.ChainMsdProps
import Verif.Pipeline.ChainMsdSpec
import Verif.Rounding.NormLemmas
import Verif.Rounding.NormModel
import Verif.Rounding.NormProps
import Verif.Rounding.NormSpec
import Verif.Rounding.WholeLemmas
import Verif.Rounding.WholeProps
import Verif.Rounding.PassLemmas
import Verif.Rounding.PassModel
import Verif.Rounding.PassProps
import Verif.Rounding.PassSpec
import Verif.Dynamics.UnitsLemmas
import Verif.Dynamics.UnitsProps
import Verif.Dynamics.UnitsSpec
import Verif.RelaxTime.UnitsLemmas
import Verif.RelaxTime.UnitsProps
import Verif.RelaxTime.UnitsSpec
import Verif.Viewer.TitleLemmas
import Verif.Viewer.TitleProps
import Verif.Viewer.TitleSpec
import Verif.Pipeline.ChainLocalLemmas
import Verif.Pipeline.ChainLocalProps
import Verif.Pipeline.ChainLocalSpec
import Verif.Pipeline.ChainMaxLemmas
import Verif.Pipeline.ChainMaxProps
import Verif.Pipeline.ChainMaxSpec
import Verif.RelaxTime.StableLemmas
import Verif.RelaxTime.StableProps
import Verif.RelaxTime.StableSpec
import Verif.Rounding.TimesLemmas
import Verif.Rounding.TimesProps
import Verif.Figures.PlotLemmas
import Verif.Figures.PlotModel
import Verif.Figures.PlotProps
import Verif.Wave.CacheLemmas
import Verif.Wave.CacheModel
import Verif.Wave.CacheProps
import Verif.Wave.CacheSpec
import Verif.Dynamics.AxesLemmas
import Verif.Dynamics.AxesProps
import Verif.Dynamics.AxesSpec
import Verif.Dynamics.BoundsLemmas
import Verif.Dynamics.BoundsProps
import Verif.Dynamics.ReverseProps
import Verif.Pipeline.SharesLemmas
import Verif.Pipeline.SharesProps
import Verif.Pipeline.SharesSpec
import Verif.Angle.RotLemmas
import Verif.Angle.RotModel
import Verif.Angle.RotProps
import Verif.Angle.RotSpec
import Verif.Dynamics.WaveLemmas
import Verif.Pipeline.KeyframesLemmas
import Verif.Pipeline.KeyframesProps
import Verif.Pipeline.KeyframesSpec
import Verif.Pipeline.PartsLemmas
import Verif.Pipeline.PartsProps
import Verif.Pipeline.PartsRun
import Verif.Pipeline.PartsSpec
import Verif.Pipeline.WaveNumberLemmas
import Verif.Pipeline.WaveNumberProps
import Verif.Gsd.RepeatLemmas
import Verif.Gsd.RepeatSpec
import Verif.Pipeline.LaterLemmas
import Verif.Pipeline.LaterProps
import Verif.Pipeline.LaterSpec
import Verif.Pipeline.RepeatProps
import Verif.Process.MapLemmas
import Verif.Pipeline.LimitLemmas
import Verif.Pipeline.LimitProps
import Verif.Pipeline.LimitSpec
import Verif.Pipeline.SameLemmas
import Verif.Pipeline.SameProps
import Verif.StepSize.StableLemmas
import Verif.Lammps.NumberLemmas
import Verif.Lammps.NumberProps
import Verif.Lammps.NumberSpec
import Verif.Lammps.SpaceLemmas
import Verif.Lammps.SpaceProps
import Verif.Lammps.SpaceSpec
import Verif.Gsd.LazyLemmas
import Verif.Gsd.LazyModel
import Verif.Gsd.LazyProps
import Verif.Gsd.LazySpec
import Verif.StepSize.LazyLemmas
import Verif.StepSize.LazyModel
import Verif.StepSize.LazySpec
import Verif.Motion.AliasLemmas
import Verif.Motion.AliasModel
import Verif.Motion.AliasProps
import Verif.Motion.AliasSpec
import Verif.Viewer.SortLemmas
import Verif.Viewer.SortProps
import Verif.Viewer.SortSpec
import Verif.Gsd.LostLemmas
import Verif.Gsd.LostProps
import Verif.Gsd.LostSpec
import Verif.Pipeline.LostProps
import Verif.Gsd.ErrorLemmas
import Verif.Gsd.ErrorProps
import Verif.Gsd.ErrorSpec
import Verif.Pipeline.ErrorProps
import Verif.Pipeline.CommandLemmas
import Verif.Pipeline.CommandModel
import Verif.Pipeline.CommandProps
import Verif.Lammps.CountLemmas
import Verif.Lammps.CountProps
import Verif.Pipeline.WholeLemmas
import Verif.Pipeline.WholeProps
import Verif.Dynamics.CloseLemmas
import Verif.Dynamics.CloseModel
import Verif.Dynamics.CloseProps
import Verif.Pipeline.CommandLammpsLemmas
import Verif.Pipeline.CommandLammpsProps
import Verif.Lammps.TiltProps
import Verif.Wave.RadiusLemmas
import Verif.Wave.RadiusProps
import Verif.Cache.ExactProps
import Verif.Lammps.FilledLemmas
import Verif.Lammps.FilledProps
import Verif.Names.ExactProps
import Verif.StepSize.RegularProps
import Verif.Pipeline.CommandRefusedProps
import Verif.Gsd.KeptProps
import Verif.Lammps.IdsProps
import Verif.Pipeline.GrownLemmas
import Verif.Pipeline.GrownProps
import Verif.Pipeline.LammpsRelaxLemmas
import Verif.Pipeline.LammpsRelaxProps
import Verif.Pipeline.WholeLinearLemmas
import Verif.Pipeline.WholeLinearProps
import Verif.Gsd.LocalLemmas
import Verif.Gsd.LocalProps
import Verif.Names.HeapLemmas
import Verif.Names.HeapModel
import Verif.Names.HeapProps
import Verif.Names.HeapSpec
import Verif.Figures.ExactProps
import Verif.RelaxTime.SignProps
import Verif.Pipeline.ScatteringProps
import Verif.Wave.CircleLemmas
import Verif.Wave.CircleProps
import Verif.Wave.CircleSpec
import Verif.Wave.DirectionLemmas
import Verif.Cli.FigureLemmas
import Verif.Cli.FigureModel
import Verif.Cli.FigureProps
import Verif.Rounding.ScatterLemmas
import Verif.Rounding.ScatterModel
import Verif.Rounding.ScatterProps
import Verif.Rounding.ScatterSpec
import Verif.Molecule.ShapeLemmas
import Verif.Molecule.ShapeProps
import Verif.Molecule.ShapeSpec
import Verif.Rounding.ScatterTimesProps
import Verif.Pipeline.SessionLemmas
import Verif.Pipeline.SessionModel
import Verif.Pipeline.SessionProps
import Verif.Pipeline.SessionSpec
import Verif.Order.FrameModel
import Verif.Order.FrameProps
import Verif.Order.FrameSpec
import Verif.Molecule.ReprLemmas
import Verif.Molecule.ReprModel
import Verif.Molecule.ReprProps
import Verif.Molecule.ReprSpec
import Verif.Gsd.TimelineLemmas
import Verif.Gsd.TimelineProps
import Verif.Gsd.TimelineSpec
import Verif.Viewer.PlayLemmas
import Verif.Viewer.PlayProps
import Verif.Process.ExactProps
import Verif.Relax.KeepProps
import Verif.RelaxTime.EscapeProps
import Verif.Dynamics.RangeProps
import Verif.Names.RestoreProps
import Verif.Order.CountProps
import Verif.Pipeline.SizeProps
import Verif.Molecule.EqualProps
import Verif.Names.FieldProps
import Verif.Motion.ExactProps
import Verif.Names.AssignProps
import Verif.Dynamics.PairProps
import Verif.Figures.ShadeProps
import Verif.Molecule.MakeProps
import Verif.Order.LineProps
import Verif.Order.MissingProps
import Verif.Angle.ExactProps
import Verif.Rounding.RangeProps
import Verif.Rounding.MiscountProps
import Verif.Figures.AgainProps
import Verif.Molecule.SameProps
import Verif.Cli.LogProps
import Verif.Dynamics.ErrorProps
import Verif.Pipeline.OrderProps
import Verif.Pipeline.TimesExactProps
import Verif.Relax.LayoutProps
import Verif.Rounding.IdProps
import Verif.Order.CellProps
import Verif.Thermo.ChoiceProps
import Verif.Lammps.DictModel
import Verif.Lammps.ValueLemmas
import Verif.Lammps.ValueProps
import Verif.Process.CustomProps
import Verif.Viewer.SharedProps
import Verif.Figures.HueProps
import Verif.Lammps.RowProps
import Verif.Molecule.ReprExact
import Verif.Tables.StateProps
import Verif.Viewer.SliderProps
import Verif.Pipeline.RepeatExact
import Verif.Viewer.RestoreProps
import Verif.Cli.AcceptProps
import Verif.Pipeline.SharesExact
import Verif.Pipeline.SkipExact
import Verif.RelaxTime.GapProps
import Verif.Viewer.OpenProps
import Verif.Pipeline.LaterExact
import Verif.Viewer.SortExact
import Verif.Molecule.NamedProps
import Verif.Pipeline.DamageExact
import Verif.Tables.TimeExact
import Verif.Wave.KeptProps
import Verif.Pipeline.SameExact
import Verif.Names.PathProps
import Verif.Names.TiesProps
import Verif.Order.FrameExact
import Verif.Rounding.CountExact
import Verif.Pipeline.GrownExact
import Verif.Order.SignExact
import Verif.Frame.SignedProps
import Verif.Motion.AliasExact
import Verif.RelaxTime.SigmaProps
import Verif.RelaxTime.StableExact
import Verif.Pipeline.PartsExact
import Verif.RelaxTime.UnitsLine
import Verif.RelaxTime.PeakExact
import Verif.RelaxTime.DiffusionProps
import Verif.RelaxTime.RiseExact
import Verif.Pipeline.PartsGamma
import Verif.Pipeline.LimitExact
import Verif.RelaxTime.StartExact
import Verif.Pipeline.PartsRot
