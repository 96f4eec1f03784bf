import Verif.BinStream.Model
import Verif.BinStream.Props
import Verif.Cgns.Model
import Verif.Cgns.Props
import Verif.Chain.AddLemmas
import Verif.Chain.ExecLemmas
import Verif.Chain.Lemmas
import Verif.Chain.Model
import Verif.Chain.Props
import Verif.Chain.Spec
import Verif.Check.Model
import Verif.Check.Props
import Verif.Create.CloudProps
import Verif.Create.CurveMeshProps
import Verif.Create.CurveProps
import Verif.Create.Model
import Verif.Create.RefineProps
import Verif.Create.Xml
import Verif.Csv.FieldProps
import Verif.Csv.Model
import Verif.Csv.Props
import Verif.Csv.SetProps
import Verif.Ffd.Basis
import Verif.Ffd.Build
import Verif.Ffd.Curves
import Verif.Ffd.Eval
import Verif.Ffd.Knots
import Verif.Ffd.LocalProps
import Verif.Ffd.Model
import Verif.Ffd.Move
import Verif.Ffd.MoveProps
import Verif.Ffd.NodeProps
import Verif.Ffd.PointProps
import Verif.Ffd.SeamProps
import Verif.Ffd.WeightProps
import Verif.Field.Interp
import Verif.Field.InterpProps
import Verif.Field.Model
import Verif.Field.Props
import Verif.Flow.Model
import Verif.Flow.Props
import Verif.Foam.CaseProps
import Verif.Foam.CellProps
import Verif.Foam.FaceProps
import Verif.Foam.Field
import Verif.Foam.FieldProps
import Verif.Foam.Model
import Verif.FvSel.BorderProps
import Verif.FvSel.Model
import Verif.FvSel.Props
import Verif.FvSel.SetProps
import Verif.Geo.Model
import Verif.Geo.PidProps
import Verif.Geo.XmlProps
import Verif.Grid.BuildProps
import Verif.Grid.DofProps
import Verif.Grid.InterpProps
import Verif.Grid.LoopProps
import Verif.Grid.MeshProps
import Verif.Grid.Model
import Verif.Grid.NumberProps
import Verif.Grid.SameProps
import Verif.Grid.StateProps
import Verif.Io.Cloud
import Verif.Io.CloudProps
import Verif.Io.CloudSetProps
import Verif.Io.CloudWriteProps
import Verif.Io.Displs
import Verif.Io.DisplsProps
import Verif.Io.DisplsSetProps
import Verif.Io.Stream
import Verif.Kern.Model
import Verif.Kern.Props
import Verif.Lapl.DampProps
import Verif.Lapl.FaceProps
import Verif.Lapl.GradProps
import Verif.Lapl.GraphProps
import Verif.Lapl.PropProps
import Verif.Lapl.Propagate
import Verif.Lapl.SetProps
import Verif.Lapl.Stencil
import Verif.Main.Args
import Verif.Main.ArgsProps
import Verif.Main.Workflow
import Verif.Main.WorkflowProps
import Verif.Manip.ApplyMain
import Verif.Manip.ApplyProps
import Verif.Manip.BendProps
import Verif.Manip.CopyProps
import Verif.Manip.FilterProps
import Verif.Manip.GivenProps
import Verif.Manip.Model
import Verif.Manip.TurnProps
import Verif.Mesh.DegrLemmas
import Verif.Mesh.DegrProps
import Verif.Mesh.Dump
import Verif.Mesh.DumpProps
import Verif.Mesh.EditProps
import Verif.Mesh.Elem
import Verif.Mesh.ElemProps
import Verif.Mesh.Fill
import Verif.Mesh.Graph
import Verif.Mesh.GraphProps
import Verif.Mesh.Model
import Verif.Mesh.Query
import Verif.Mesh.QueryProps
import Verif.Mesh.SyncProps
import Verif.Mesh.TriProps
import Verif.Nas.CoordProps
import Verif.Nas.FileProps
import Verif.Nas.Model
import Verif.Nas.NumProps
import Verif.Nas.TripProps
import Verif.Obj.AttrProps
import Verif.Obj.KeyProps
import Verif.Obj.Model
import Verif.Obj.ReadProps
import Verif.Obj.TotalProps
import Verif.Obj.Write
import Verif.Obj.WriteProps
import Verif.ObjData.Model
import Verif.ObjData.Props
import Verif.Pids.Model
import Verif.Pids.Props
import Verif.Pin.Lemmas
import Verif.Pin.Model
import Verif.Pin.Props
import Verif.Pin.RemoveLemmas
import Verif.Pin.Spec
import Verif.Prim.Model
import Verif.Prim.Props
import Verif.Prim.Select
import Verif.Prim.SelectProps
import Verif.Rbf.ApplyProps
import Verif.Rbf.BoxModel
import Verif.Rbf.BoxProps
import Verif.Rbf.CloudProps
import Verif.Rbf.DirectProps
import Verif.Rbf.InterpProps
import Verif.Rbf.Model
import Verif.Rbf.NodeProps
import Verif.Rbf.RadiusProps
import Verif.Rbf.RunProps
import Verif.Recon.Choose
import Verif.Recon.ChooseProps
import Verif.Recon.ChooseXml
import Verif.Recon.Extract
import Verif.Recon.ExtractProps
import Verif.Recon.InputProps
import Verif.Recon.Model
import Verif.Recon.ReconProps
import Verif.Refine.Basic
import Verif.Refine.Block
import Verif.Refine.BlockProps
import Verif.Refine.GreenProps
import Verif.Refine.Model
import Verif.Refine.MoreProps
import Verif.Refine.RedProps
import Verif.Refine.Smooth
import Verif.Refine.SmoothProps
import Verif.Refine.Split
import Verif.Refine.Spread
import Verif.Refine.TernProps
import Verif.Registry.Model
import Verif.Registry.Props
import Verif.Seeds.DecimateProps
import Verif.Seeds.EikonalProps
import Verif.Seeds.LevelProps
import Verif.Seeds.MarchProps
import Verif.Seeds.Model
import Verif.Seeds.SetProps
import Verif.Select.Clip
import Verif.Select.ClipProps
import Verif.Select.ListProps
import Verif.Select.Mapping
import Verif.Select.MappingProps
import Verif.Select.Model
import Verif.Select.PidProps
import Verif.Select.Stitch
import Verif.Select.StitchProps
import Verif.Select.SubProps
import Verif.Select.WithField
import Verif.Select.WithFieldProps
import Verif.Shape.BoxProps
import Verif.Shape.CloudProps
import Verif.Shape.FrameProps
import Verif.Shape.LimitProps
import Verif.Shape.LocalProps
import Verif.Shape.LostProps
import Verif.Shape.Model
import Verif.Shape.PointProps
import Verif.Shape.SelectProps
import Verif.SharedPtr.Lemmas
import Verif.SharedPtr.Model
import Verif.SharedPtr.Props
import Verif.SharedPtr.Spec
import Verif.Tree.Band
import Verif.Tree.BandProps
import Verif.Tree.ClosestProps
import Verif.Tree.Inside
import Verif.Tree.InsideProps
import Verif.Tree.Model
import Verif.Tree.Project
import Verif.Tree.ProjectProps
import Verif.Tree.SelectProps
import Verif.Triang.Model
import Verif.Triang.Props
import Verif.Utils.Aabb
import Verif.Utils.AabbProps
import Verif.Utils.Control
import Verif.Utils.ExtSurfProps
import Verif.Utils.MaxDistProps
import Verif.Utils.Mirror
import Verif.Utils.MirrorProps
import Verif.Utils.MirrorRunProps
import Verif.Utils.Obb
import Verif.Utils.ObbCov
import Verif.Utils.ObbMove
import Verif.Utils.ObbProps
import Verif.Utils.ObbSet
import Verif.Utils.Point
import Verif.Utils.PointProps
import Verif.Utils.ProjectProps
import Verif.Utils.Segment
import Verif.Utils.SegmentProps
import Verif.Utils.SegmentXmlProps
import Verif.Vprop.Model
import Verif.Vprop.Props
import Verif.Vtu.Lemmas
import Verif.Vtu.Model
import Verif.Vtu.ReadProps
import Verif.Vtu.RoundProps
import Verif.Xml.Model
import Verif.Xml.Props
