import Verif.Base
import Verif.MArray.Model
import Verif.MArray.Heap
import Verif.MArray.Spec
import Verif.MArray.Lemmas
import Verif.MArray.Props
import Verif.MArray.Wide
import Verif.MArray.WideProps
import Verif.MArray.HeapLemmas
import Verif.MArray.HeapProps
import Verif.MArray.Arith
import Verif.MArray.ArithLemmas
import Verif.MArray.ArithProps
import Verif.MArray.Exc
import Verif.MArray.ExcLemmas
import Verif.MArray.ExcProps
import Verif.MArray.Own
import Verif.MArray.OwnLemmas
import Verif.MArray.OwnProps
import Verif.MArray.Iter
import Verif.MArray.IterProps
import Verif.ThreadPool.Model
import Verif.ThreadPool.Lemmas
import Verif.ThreadPool.Spec
import Verif.ThreadPool.Props
import Verif.Alloc.Model
import Verif.Alloc.Lemmas
import Verif.Alloc.Props
import Verif.Quad.Model
import Verif.Quad.Spec
import Verif.Quad.Lemmas
import Verif.Quad.Lemmas13
import Verif.Quad.Props
import Verif.Quad.Bounds
import Verif.Quad.BoundsProps
import Verif.Quad.Scale
import Verif.Quad.ScaleProps
import Verif.Quad.Ends
import Verif.Quad.EndsProps
import Verif.Interp.Akima
import Verif.Interp.AkimaLemmas
import Verif.Interp.AkimaProps
import Verif.Interp.AkimaExactProps
import Verif.Interp.BiCubic
import Verif.Interp.GridLemmas
import Verif.Interp.BiCubicProps
import Verif.Interp.TriCubic
import Verif.Interp.TriCubicCoeffs
import Verif.Interp.TriCubicProps
import Verif.Tools.Grid
import Verif.Tools.GridProps
import Verif.Tools.Text
import Verif.Tools.TextProps
import Verif.Tools.Chars
import Verif.Tools.CharsSpec
import Verif.Tools.CharsLemmas
import Verif.Tools.CharsProps
import Verif.Tools.Handles
import Verif.Tools.HandlesProps
import Verif.Tools.Attr
import Verif.Tools.AttrProps
import Verif.Tools.Chunk
import Verif.Tools.ChunkProps
import Verif.Tools.Basis
import Verif.Tools.BasisProps
import Verif.Body.Model
import Verif.Body.Serial
import Verif.Body.SerialProps
import Verif.Body.Legacy
import Verif.Body.LegacyProps
import Verif.Body.GeometryProps
import Verif.Body.ProfileProps
import Verif.Lifecycle.Model
import Verif.Lifecycle.Spec
import Verif.Lifecycle.Lemmas
import Verif.Lifecycle.GuardProps
import Verif.Lifecycle.Chain
import Verif.Lifecycle.ParamProps
import Verif.Lifecycle.EvolutionProps
import Verif.Lifecycle.TableProps
import Verif.Lifecycle.StructProps
import Verif.Lifecycle.MoveProps
import Verif.Lifecycle.Progress
import Verif.Lifecycle.ProgressProps
import Verif.Interact.Cache
import Verif.Interact.CacheProps
import Verif.Interact.Matter
import Verif.Interact.MatterProps
import Verif.Interact.Update
import Verif.Interact.UpdateLemmas
import Verif.Interact.RateProps
import Verif.Interact.PromiseProps
import Verif.Interact.UpdateProps
import Verif.Interact.Balance
import Verif.Density.Model
import Verif.Density.Off
import Verif.Density.Lemmas
import Verif.Density.Motion
import Verif.Density.Props
import Verif.Density.EvolProps
import Verif.Density.ShortcutProps
import Verif.Density.Average
import Verif.Density.AverageProps
import Verif.Density.Picture
import Verif.Density.PictureProps
import Verif.Density.Positive
import Verif.Density.Transport
import Verif.Density.TransportProps
import Verif.Density.Switch
import Verif.Density.SwitchProps
import Verif.Density.Source
import Verif.Density.SourceProps
import Verif.Density.Legs
import Verif.Density.LegsProps
import Verif.Density.BackProps
import Verif.Density.LegsLimits
import Verif.Density.Resume
import Verif.Density.ResumeProps
import Verif.Density.Stepwise
import Verif.Density.StepwiseProps
import Verif.Density.Exist
import Verif.Density.Layers
import Verif.Density.LayersProps
import Verif.Density.Filter
import Verif.Density.FilterProps
import Verif.StateIO.Model
import Verif.StateIO.Spec
import Verif.StateIO.LabelProps
import Verif.StateIO.Lemmas
import Verif.StateIO.Settled
import Verif.StateIO.ReadBack
import Verif.StateIO.Props
import Verif.StateIO.ViolationProps
import Verif.StateIO.Failed
import Verif.StateIO.FailedProps
import Verif.Atm.Failed
import Verif.Atm.FailedProps
import Verif.StateIO.TableIO
import Verif.StateIO.TableIOSpec
import Verif.StateIO.TableIOLemmas
import Verif.StateIO.TableIOProps
import Verif.Density.Rotation
import Verif.Density.MixingProps
import Verif.Atm.Eval
import Verif.Atm.EvalProps
import Verif.Atm.ValueProps
import Verif.Atm.Model
import Verif.Atm.ThreadProps
import Verif.Atm.SetterProps
import Verif.Atm.InitialProps
import Verif.Atm.GridProps
import Verif.Atm.EvalInitialProps
import Verif.Atm.Names
import Verif.Atm.NameProps
import Verif.Atm.StateFile
import Verif.Atm.StateFileLemmas
import Verif.Atm.StateFileProps
import Verif.Atm.StateFileViolationProps
import Verif.Atm.EarthModel
import Verif.Atm.EarthModelProps
import Verif.XS.Library
import Verif.XS.LibraryProps
import Verif.XS.Tables
import Verif.XS.TablesProps
import Verif.XS.TableValueProps
import Verif.XS.Files
import Verif.XS.FilesLemmas
import Verif.XS.FilesProps
import Verif.XS.FileViolationProps
import Verif.XS.ReaderProps
import Verif.XS.Legacy
import Verif.XS.LegacyProps
import Verif.XS.LegacyValueProps
import Verif.XS.LegacyFileProps
import Verif.XS.TauDecay
import Verif.XS.TauDecayProps
import Verif.XS.Glashow
import Verif.XS.GlashowProps
import Verif.XS.GlashowShapeProps
import Verif.XS.Validate
import Verif.XS.ValidateProps
import Verif.Py.Model
import Verif.Py.Lemmas
import Verif.Py.Props
import Verif.Py.Basis
import Verif.Py.BasisLemmas
import Verif.Py.BasisProps
import Verif.Py.Sequence
import Verif.Py.SequenceProps
import Verif.Py.Flags
import Verif.Py.FlagsProps
import Verif.Decoh.Model
import Verif.Decoh.Spec
import Verif.Decoh.Lemmas
import Verif.Decoh.Props
import Verif.Decoh.HistoryProps
import Verif.NewPhys.Model
import Verif.NewPhys.Props
import Verif.Example.Cross
import Verif.Example.CrossProps
import Verif.Example.Earth
import Verif.Example.EarthProps
import Verif.Solar.Model
import Verif.Solar.Lemmas
import Verif.Solar.Props
import Verif.Solar.FluxProps
import Verif.Density.Part
import Verif.Density.PartProps
import Verif.XS.TypesProps
import Verif.Decoh.Solver
import Verif.Decoh.SolverProps
import Verif.Decoh.Sky
import Verif.Decoh.SkyProps
import Verif.Atm.Integrator
import Verif.Atm.IntegratorProps
import Verif.Interp.Tame
import Verif.Interp.AkimaBound
import Verif.Body.DefaultData
import Verif.Body.DefaultTame
import Verif.Body.Default
import Verif.Body.DefaultLemmas
import Verif.Body.DefaultProps
import Verif.Density.Ratio
import Verif.Density.RatioProps
import Verif.Resource.Model
import Verif.Resource.Props
import Verif.Density.ErrorProps
import Verif.Runner.Model
import Verif.Runner.Props
import Verif.NewPhys.Motion
import Verif.NewPhys.MotionProps
import Verif.Decoh.Evolve
import Verif.Decoh.EvolveProps
import Verif.Configure.Model
import Verif.Configure.Spec
import Verif.Configure.Lemmas
import Verif.Configure.Props
import Verif.Configure.Boost
import Verif.Configure.BoostLemmas
import Verif.Configure.BoostProps
import Verif.Density.Reverse
import Verif.Density.ReverseProps
