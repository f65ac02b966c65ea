import Verif.Proofs.CodegenFall
import Verif.Props.LinearValues
import Verif.Props.SplineCalls
import Verif.Props.SplineSafety
import Verif.Props.SplineCalculus
import Verif.Props.CubicShape
import Verif.Props.CubicFilter
import Verif.Props.Hermite
import Verif.Props.BSplines
import Verif.Props.Grids
import Verif.Props.CompletePoly
import Verif.Props.CompleteFit
import Verif.Props.Mlinterp
import Verif.Props.SmolyakGrid
import Verif.Props.SmolyakClass
import Verif.Props.SmolyakInterp
import Verif.Props.CubicGradient
import Verif.Props.Legacy
import Verif.Props.ObjectHistory
import Verif.Props.Objects
import Verif.Props.Rounding
import Verif.Props.LinearError
import Verif.Props.CubicError
import Verif.Props.Chebyvalto
import Verif.Props.Symmetry
import Verif.Props.Errors
import Verif.Props.GeneratedText
import Verif.Spec.Templates
import Verif.Spec.TemplateTree
import Verif.Model.Looper
import Verif.Proofs.TemplateLex
import Verif.Proofs.TemplateParse
import Verif.Proofs.TemplateTrim
import Verif.Proofs.TemplateMeaning
import Verif.Props.Templates
import Verif.Props.Looper
import Verif.Props.Options
import Verif.Props.CompleteObject
import Verif.Props.Misuse
import Verif.Spec.PyLang
import Verif.Spec.PyEval
import Verif.Spec.PyCall
import Verif.Proofs.PyParse
import Verif.Proofs.PyLines
import Verif.Proofs.PyNames
import Verif.Proofs.PyProgram
import Verif.Proofs.PyStmts
import Verif.Proofs.PySim
import Verif.Proofs.PyDims
import Verif.Proofs.PyBlend
import Verif.Proofs.PyStores
import Verif.Proofs.PyRun
import Verif.Proofs.PyGood
import Verif.Props.GeneratedCode
import Verif.Model.FungenText
import Verif.Spec.PyFun
import Verif.Proofs.FunPrint
import Verif.Proofs.FungenRead
import Verif.Proofs.FungenEval
import Verif.Proofs.FunLines
import Verif.Proofs.ProjectCode
import Verif.Proofs.MlinterpRead
import Verif.Proofs.MlinterpEval
import Verif.Proofs.MlinterpPoint
import Verif.Props.FungenCode
import Verif.Spec.Curvature
import Verif.Proofs.MinCurvature
import Verif.Props.Curvature
import Verif.Proofs.HermiteError
import Verif.Props.HermiteError
import Verif.Proofs.FilterRounding
import Verif.Proofs.FilterRoundingNd
import Verif.Proofs.CubicRounding
import Verif.Proofs.CubicRoundingNd
import Verif.Props.CubicRounding
import Verif.Proofs.CubicLocal
import Verif.Props.CubicLocal
import Verif.Proofs.MlinterpRounding
import Verif.Props.MlinterpRounding
import Verif.Spec.PySrc
import Verif.Spec.PyRun
import Verif.Spec.SourceTexts
import Verif.Proofs.KernelRfl
import Verif.Proofs.SourceTrees
import Verif.Proofs.SrcAttr
import Verif.Proofs.SrcRun
import Verif.Proofs.SrcHermite
import Verif.Props.SourceHermite
import Verif.Spec.SrcValues
import Verif.Proofs.SrcView
import Verif.Proofs.SrcSolve
import Verif.Proofs.SrcFilter
import Verif.Props.SourceFilter
import Verif.Proofs.SrcBSplines
import Verif.Props.SourceBSplines
import Verif.Proofs.SrcFlow
import Verif.Proofs.SrcComplete
import Verif.Proofs.SrcCompleteDer
import Verif.Proofs.SrcCompleteTop
import Verif.Props.SourceComplete
import Verif.Spec.Lines
import Verif.Spec.NumbaTexts
import Verif.Proofs.NumbaTree
import Verif.Proofs.NumbaParse1
import Verif.Proofs.NumbaParse2
import Verif.Proofs.NumbaParse3
import Verif.Proofs.NumbaParse4
import Verif.Proofs.SrcNumba
import Verif.Proofs.SrcNumbaStages
import Verif.Proofs.SrcNumbaRun
import Verif.Proofs.SrcNumbaVec
import Verif.Proofs.SrcNumbaInit
import Verif.Props.SourceNumba
import Verif.Spec.MoreTexts
import Verif.Proofs.FilterTrees
import Verif.Proofs.SrcOldFind
import Verif.Proofs.SrcOldFilter
import Verif.Proofs.SrcOldTop
import Verif.Props.SourceOldFilter
import Verif.Proofs.CartesianTrees
import Verif.Proofs.SrcCartesian
import Verif.Props.SourceCartesian
import Verif.Proofs.SmolyakTrees
import Verif.Proofs.SrcPermute
import Verif.Proofs.SrcSmolyak
import Verif.Props.SourceSmolyak
import Verif.Props.SourceEndToEnd
import Verif.Model.Trig
import Verif.Proofs.TrigReal
import Verif.Proofs.SrcSmolInds
import Verif.Proofs.SrcProducts
import Verif.Proofs.SrcVectors
import Verif.Proofs.SrcChain
import Verif.Proofs.SrcGrid
import Verif.Props.SourceSmolyakGrid
import Verif.Proofs.SrcBuildB
import Verif.Props.SourceSmolyakB
import Verif.Proofs.SrcBuildD
import Verif.Props.SourceSmolyakD
import Verif.Props.SourceCurrent
import Verif.Props.SourceHermiteEnd
import Verif.Props.CompleteRounding
import Verif.Props.HermiteRounding
import Verif.Props.BSplineRounding
import Verif.Props.ChebRounding
import Verif.Props.NodesRounding
import Verif.Props.SmolRounding
import Verif.Props.CompleteCallRounding
import Verif.Props.SmolGradRounding
import Verif.Props.SmolReproRounding
import Verif.Props.SmolDomRounding
import Verif.Props.SmolyakAny
import Verif.Props.CubicSlopeRounding
import Verif.Props.RoundedError
import Verif.Tools.GenSrc
import Verif.Tools.GenTree
import Verif.Audit
