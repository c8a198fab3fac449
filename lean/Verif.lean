import Verif.Base
import Verif.Intr.Lemmas
import Verif.Intr.Bulk
import Verif.Intr.Reach
import Verif.Intr.Props
import Verif.Bodies.Props
import Verif.Bodies.IterProps
import Verif.Forces.Props
import Verif.Step.Props
import Verif.Dispatch.Props
import Verif.Collide.Props
import Verif.Attr.Props
import Verif.Sched.Props
import Verif.Accu.Props
import Verif.Tree.Props
import Verif.Replace.Props
import Verif.Mech.NewtonProps
import Verif.Mech.MotionProps
import Verif.Mech.ClumpProps
import Verif.Mech.ContactProps
import Verif.Mech.BoxProps
import Verif.Peri.CellProps
import Verif.Peri.Props
import Verif.Loop.Props
import Verif.Grid.Props
import Verif.Stride.Examples
import Verif.Mpi.StatesProps
import Verif.Mpi.ExchangeExamples
import Verif.Mpi.VoteProps
import Verif.Mpi.MergeProps
import Verif.Mpi.SplitCollider
import Verif.Mpi.ResplitProps
import Verif.Mpi.EraseRemoteProps
import Verif.Mpi.WholeProps
import Verif.Drive.TableProps
import Verif.Drive.CombProps
import Verif.Drive.ServoProps
import Verif.Drive.PedalProps
import Verif.Drive.DispProps
import Verif.Drive.HarmProps
import Verif.Pack.Cloud
import Verif.Pack.CloudLemmas
import Verif.Pack.CloudRun
import Verif.Pack.CloudProps
import Verif.Pack.PlanLemmas
import Verif.Pack.CountProps
import Verif.Pack.SizeLemmas
import Verif.Pack.SizeProps
import Verif.Pack.PsdProps
import Verif.Pack.Pred
import Verif.Pack.PredLemmas
import Verif.Pack.PredProps
import Verif.Pack.PredBoxProps
import Verif.Pack.PadProps
import Verif.Pack.RegularProps
import Verif.Pack.Ops
import Verif.Pack.RepeatProps
import Verif.Pack.MoveProps
import Verif.Pack.ClumpListProps
import Verif.Pack.SimProps
import Verif.Pack.DensityProps
import Verif.Pack.PsdOfProps
import Verif.Pack.FilterProps
import Verif.Pack.ClumpCloud
import Verif.Pack.ClumpLemmas
import Verif.Pack.ClumpInv
import Verif.Pack.ClumpProps
import Verif.Pack.ClumpSafe
import Verif.Decomp.TileProps
import Verif.Decomp.CountProps
import Verif.Decomp.FindProps
import Verif.Decomp.CloudProps
import Verif.Dt.Model
import Verif.Dt.MatchProps
import Verif.Dt.Lemmas
import Verif.Dt.Loop
import Verif.Dt.StepProps
import Verif.Dt.Net
import Verif.Dt.NetProps
import Verif.Dt.ScaleProps
import Verif.Fac.Model
import Verif.Fac.ProbeProps
import Verif.Fac.Lemmas
import Verif.Fac.FacProps
import Verif.Fac.PsdLemmas
import Verif.Fac.PsdProps
import Verif.Fac.LimitProps
import Verif.Meas.Model
import Verif.Meas.Lemmas
import Verif.Meas.StressProps
import Verif.Meas.FlipProps
import Verif.Meas.FabricProps
import Verif.Meas.EnergyProps
import Verif.Meas.GrowProps
import Verif.Run.Model
import Verif.Run.Locks
import Verif.Run.Lemmas
import Verif.Run.Calm
import Verif.Run.Serial
import Verif.Run.Progress
import Verif.Run.Destroy
import Verif.Run.Props
import Verif.Dist.Model
import Verif.Dist.Spec
import Verif.Dist.View
import Verif.Dist.Exchange
import Verif.Dist.Step
import Verif.Dist.Start
import Verif.Dist.Serial
import Verif.Dist.Props
import Verif.Coh.Model
import Verif.Coh.Lemmas
import Verif.Coh.Ex
import Verif.Coh.Props
import Verif.Coh.More
import Verif.Coh.Frict
import Verif.Coh.Bond
import Verif.Ctl.Model
import Verif.Ctl.Lemmas
import Verif.Ctl.IsoProps
import Verif.Ctl.TriProps
import Verif.Ctl.TscProps
import Verif.Ctl.TscMore
import Verif.Ctl.Sense
import Verif.Uniax.Model
import Verif.Uniax.Lemmas
import Verif.Uniax.Init
import Verif.Uniax.Props
import Verif.Uniax.Stop
import Verif.Uniax.More
import Verif.Avg.Model
import Verif.Avg.Lemmas
import Verif.Avg.Poly
import Verif.Avg.Props
import Verif.Avg.More
import Verif.Avg.Units
import Verif.Interp.Model
import Verif.Interp.Lemmas
import Verif.Interp.Props
import Verif.Interp.More
import Verif.Plot.Model
import Verif.Plot.Lemmas
import Verif.Plot.Expand
import Verif.Plot.Props
import Verif.Plot.Img
import Verif.Plot.Save
import Verif.P3d.Model
import Verif.P3d.Lemmas
import Verif.P3d.Run
import Verif.P3d.Props
import Verif.P3d.Cell
import Verif.P3d.More
import Verif.P3d.Examples
import Verif.Visc.Model
import Verif.Visc.Luding
import Verif.Visc.Props
import Verif.Visc.Params
import Verif.Visc.Memory
import Verif.Visc.Bounce
import Verif.Visc.Hyst
import Verif.Text.Model
import Verif.Text.Lemmas
import Verif.Text.Props
import Verif.Text.Attrs
import Verif.Text.Clumps
import Verif.Wire.Model
import Verif.Wire.Props
import Verif.Wire.Params
import Verif.Wire.Twist
import Verif.Tester.Model
import Verif.Tester.Motion
import Verif.Tester.Props
import Verif.Bubble.Model
import Verif.Bubble.Props
import Verif.Bubble.Curve
import Verif.Mortar.Model
import Verif.Mortar.Props
import Verif.Cpm.Model
import Verif.Cpm.Lemmas
import Verif.Cpm.Props
import Verif.Cpm.Set
import Verif.Cpm.Update
import Verif.Cpm.UpdateProps
import Verif.Hertz.Model
import Verif.Hertz.Props
import Verif.Hertz.More
import Verif.Handle.Model
import Verif.Handle.Lemmas
import Verif.Handle.Props
import Verif.Handle.ModifyProps
import Verif.FVisc.Model
import Verif.FVisc.Props
import Verif.Inel.Model
import Verif.Inel.Lemmas
import Verif.Inel.Props
import Verif.Inel.More
import Verif.FVisc.More
import Verif.Lbm.Model
import Verif.Lbm.Props
import Verif.Elast.Model
import Verif.Elast.Props
