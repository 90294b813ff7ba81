import Verif.Lemmas.Accuracy
import Verif.Lemmas.Aging
import Verif.Lemmas.AgingAny
import Verif.Lemmas.Bdry
import Verif.Lemmas.Blocks
import Verif.Lemmas.Bounds
import Verif.Lemmas.Build
import Verif.Lemmas.Built
import Verif.Lemmas.Cell
import Verif.Lemmas.CellMat
import Verif.Lemmas.CgLoops
import Verif.Lemmas.CgRun
import Verif.Lemmas.Client
import Verif.Lemmas.Converge
import Verif.Lemmas.CtorRun
import Verif.Lemmas.Damage
import Verif.Lemmas.Descent
import Verif.Lemmas.ElemMat
import Verif.Lemmas.ElemVec
import Verif.Lemmas.EllAdd
import Verif.Lemmas.EllAsm
import Verif.Lemmas.EllBc
import Verif.Lemmas.EllBcOp
import Verif.Lemmas.EllIndex
import Verif.Lemmas.EllInit2D
import Verif.Lemmas.EllOps
import Verif.Lemmas.EllPattern
import Verif.Lemmas.EllStencil3D
import Verif.Lemmas.Ends
import Verif.Lemmas.FeEval
import Verif.Lemmas.FeEval2
import Verif.Lemmas.FeMat
import Verif.Lemmas.Fem
import Verif.Lemmas.FemGrid
import Verif.Lemmas.FemLaw
import Verif.Lemmas.FemLink
import Verif.Lemmas.Fields
import Verif.Lemmas.FileInfo
import Verif.Lemmas.FileOut
import Verif.Lemmas.FileRun
import Verif.Lemmas.FileVtu
import Verif.Lemmas.Flat
import Verif.Lemmas.Fp
import Verif.Lemmas.FpAnswer
import Verif.Lemmas.FpBinary
import Verif.Lemmas.FpCell
import Verif.Lemmas.FpDescent
import Verif.Lemmas.FpElem
import Verif.Lemmas.FpFe
import Verif.Lemmas.FpFlag
import Verif.Lemmas.FpLim
import Verif.Lemmas.FpMat
import Verif.Lemmas.FpNear
import Verif.Lemmas.FpNewton
import Verif.Lemmas.FpNorm
import Verif.Lemmas.FpPlastic
import Verif.Lemmas.FpPlasticCell
import Verif.Lemmas.GridMap
import Verif.Lemmas.Heap
import Verif.Lemmas.History
import Verif.Lemmas.InfStrain
import Verif.Lemmas.Info
import Verif.Lemmas.Int32
import Verif.Lemmas.Iso
import Verif.Lemmas.Jacobi
import Verif.Lemmas.Loop
import Verif.Lemmas.MainText
import Verif.Lemmas.Mirror
import Verif.Lemmas.MirrorGrid
import Verif.Lemmas.Nan
import Verif.Lemmas.NanRun
import Verif.Lemmas.Newton
import Verif.Lemmas.NewtonDescent
import Verif.Lemmas.NoYield
import Verif.Lemmas.ObjElem
import Verif.Lemmas.ObjGp
import Verif.Lemmas.ObjHomog
import Verif.Lemmas.ObjLin
import Verif.Lemmas.ObjList
import Verif.Lemmas.ObjNewton
import Verif.Lemmas.ObjRun
import Verif.Lemmas.ObjSolve
import Verif.Lemmas.OneMaterial
import Verif.Lemmas.OutputRun
import Verif.Lemmas.Passive
import Verif.Lemmas.PassiveCell
import Verif.Lemmas.Patch
import Verif.Lemmas.Pcg
import Verif.Lemmas.Plastic
import Verif.Lemmas.PlasticCell
import Verif.Lemmas.PlasticMore
import Verif.Lemmas.PlasticPot
import Verif.Lemmas.Potential
import Verif.Lemmas.Refine
import Verif.Lemmas.Safe
import Verif.Lemmas.SafeApi
import Verif.Lemmas.Same
import Verif.Lemmas.SameApi
import Verif.Lemmas.SameFe
import Verif.Lemmas.SameStep
import Verif.Lemmas.Site
import Verif.Lemmas.Soft
import Verif.Lemmas.Stab
import Verif.Lemmas.State
import Verif.Lemmas.Stress
import Verif.Lemmas.Terminate
import Verif.Lemmas.TextAsm
import Verif.Lemmas.TextBc
import Verif.Lemmas.TextBcRun
import Verif.Lemmas.TextDispl
import Verif.Lemmas.TextElem
import Verif.Lemmas.TextEll
import Verif.Lemmas.TextField
import Verif.Lemmas.TextInit
import Verif.Lemmas.TextInit3
import Verif.Lemmas.TextJacobi
import Verif.Lemmas.TextLaw
import Verif.Lemmas.TextLoops
import Verif.Lemmas.TextMat
import Verif.Lemmas.TextRhs
import Verif.Lemmas.TextRun
import Verif.Lemmas.TextStrain
import Verif.Lemmas.Thin
import Verif.Lemmas.ThinEx
import Verif.Lemmas.ThinRun
import Verif.Lemmas.Unused
import Verif.Lemmas.Void
import Verif.Lemmas.Vtu
import Verif.Lemmas.WholeText
import Verif.Lemmas.Wild
import Verif.Lemmas.Xml
import Verif.Lemmas.XmlRead
import Verif.Lemmas.XmlVtu
import Verif.Lemmas.Yield
import Verif.Lemmas.YieldApi
import Verif.Lemmas.YieldCtor
import Verif.Lemmas.Zero
import Verif.Model.Assembly
import Verif.Model.Blocks
import Verif.Model.Client
import Verif.Model.CtorText
import Verif.Model.Ell
import Verif.Model.EllInit3D
import Verif.Model.FileTable
import Verif.Model.FileText
import Verif.Model.Heap
import Verif.Model.HeapTable
import Verif.Model.Homogenize
import Verif.Model.Int32
import Verif.Model.Int32Table
import Verif.Model.MainTable
import Verif.Model.MainText
import Verif.Model.Mem
import Verif.Model.Micro
import Verif.Model.ObjTable
import Verif.Model.ObjText
import Verif.Model.Output
import Verif.Model.PrintTable
import Verif.Model.PrintText
import Verif.Model.ProgText
import Verif.Model.Program
import Verif.Model.Scalar
import Verif.Model.Site
import Verif.Model.SiteTable
import Verif.Model.Solve
import Verif.Model.Text
import Verif.Model.TextNames
import Verif.Model.TextTable
import Verif.Model.WholeText
import Verif.Model.WrapTable
import Verif.Model.WrapText
import Verif.Model.Wrapper
import Verif.Props.Blocks
import Verif.Props.Bounds
import Verif.Props.Cg
import Verif.Props.Client
import Verif.Props.Converge
import Verif.Props.Determinism
import Verif.Props.Fem
import Verif.Props.Fields
import Verif.Props.Flag
import Verif.Props.Flat
import Verif.Props.Footprint
import Verif.Props.Heap
import Verif.Props.History
import Verif.Props.Index
import Verif.Props.InfoText
import Verif.Props.Int32
import Verif.Props.Interface
import Verif.Props.InvMax
import Verif.Props.Invariants
import Verif.Props.Macro
import Verif.Props.Manual
import Verif.Props.Matrix
import Verif.Props.Micro
import Verif.Props.Nan
import Verif.Props.Newton
import Verif.Props.NoYield
import Verif.Props.OneMaterial
import Verif.Props.Passive
import Verif.Props.Plastic
import Verif.Props.PlasticCell
import Verif.Props.Program
import Verif.Props.Refine
import Verif.Props.Response
import Verif.Props.RoundedConverge
import Verif.Props.RoundedFlag
import Verif.Props.RoundedHardening
import Verif.Props.RoundedPlastic
import Verif.Props.Rounding
import Verif.Props.Safety
import Verif.Props.Sites
import Verif.Props.State
import Verif.Props.Symmetry
import Verif.Props.Text
import Verif.Props.TextCtor
import Verif.Props.TextFile
import Verif.Props.TextHomog
import Verif.Props.TextMain
import Verif.Props.TextRest
import Verif.Props.TextSolve
import Verif.Props.TextWhole
import Verif.Props.TextWrap
import Verif.Props.Unused
import Verif.Props.Void
import Verif.Props.Vtu
import Verif.Props.VtuText
import Verif.Props.Wild
import Verif.Props.Yield
import Verif.Spec.Cell
import Verif.Spec.Client
import Verif.Spec.Elastic
import Verif.Spec.EllPattern
import Verif.Spec.Fem
import Verif.Spec.Fp
import Verif.Spec.Grid
import Verif.Spec.Ieee
import Verif.Spec.InfoText
import Verif.Spec.Int32
import Verif.Spec.J2
import Verif.Spec.Manual
import Verif.Spec.Operator
import Verif.Spec.Pcg
import Verif.Spec.PlasticCell
import Verif.Spec.Refine
import Verif.Spec.Rounded
import Verif.Spec.Site
import Verif.Spec.Symmetry
import Verif.Spec.Vtu
import Verif.Spec.VtuText
import Verif.Spec.Work
import Verif.Spec.Xml
