import Verif.F64
import Verif.Fl
import Verif.FlReal
import Verif.Lemmas.Cam
import Verif.Lemmas.Cell
import Verif.Lemmas.Chroma
import Verif.Lemmas.ChromaBlue
import Verif.Lemmas.ChromaGap
import Verif.Lemmas.Cover
import Verif.Lemmas.CoverA
import Verif.Lemmas.CoverB
import Verif.Lemmas.CoverC
import Verif.Lemmas.CoverD
import Verif.Lemmas.CoverE
import Verif.Lemmas.CoverFacts
import Verif.Lemmas.CoverSplit
import Verif.Lemmas.DynamicColor
import Verif.Lemmas.Elasticity
import Verif.Lemmas.Evaluate
import Verif.Lemmas.F64
import Verif.Lemmas.F64Accuracy
import Verif.Lemmas.F64Approx
import Verif.Lemmas.F64Back
import Verif.Lemmas.F64BackBlack
import Verif.Lemmas.F64BackPoint
import Verif.Lemmas.F64BackUcs
import Verif.Lemmas.F64BackXyz
import Verif.Lemmas.F64Backward
import Verif.Lemmas.F64Cam
import Verif.Lemmas.F64CamNear
import Verif.Lemmas.F64Channel
import Verif.Lemmas.F64Color
import Verif.Lemmas.F64ConesNear
import Verif.Lemmas.F64Core
import Verif.Lemmas.F64Cost
import Verif.Lemmas.F64Distance
import Verif.Lemmas.F64Drawn
import Verif.Lemmas.F64Find
import Verif.Lemmas.F64Fixed
import Verif.Lemmas.F64Forward
import Verif.Lemmas.F64HueBlack
import Verif.Lemmas.F64HueFar
import Verif.Lemmas.F64HueNear
import Verif.Lemmas.F64KMeans
import Verif.Lemmas.F64KMeansStates
import Verif.Lemmas.F64KMeansWitness
import Verif.Lemmas.F64Lab
import Verif.Lemmas.F64LabBack
import Verif.Lemmas.F64Limit
import Verif.Lemmas.F64Lines
import Verif.Lemmas.F64Material
import Verif.Lemmas.F64Matrix
import Verif.Lemmas.F64Near
import Verif.Lemmas.F64Newton
import Verif.Lemmas.F64Planes
import Verif.Lemmas.F64Ray
import Verif.Lemmas.F64Rel
import Verif.Lemmas.F64Relative
import Verif.Lemmas.F64Roles
import Verif.Lemmas.F64Rounds
import Verif.Lemmas.F64Score
import Verif.Lemmas.F64ScoreRank
import Verif.Lemmas.F64ScoreSelect
import Verif.Lemmas.F64ScoreZero
import Verif.Lemmas.F64Search
import Verif.Lemmas.F64SelfAim
import Verif.Lemmas.F64SelfAlgebra
import Verif.Lemmas.F64SelfHue
import Verif.Lemmas.F64SelfLoop
import Verif.Lemmas.F64SelfPoint
import Verif.Lemmas.F64SelfSolve
import Verif.Lemmas.F64SelfTerms
import Verif.Lemmas.F64SelfTone
import Verif.Lemmas.F64Setting
import Verif.Lemmas.F64Sharp
import Verif.Lemmas.F64SharpLin
import Verif.Lemmas.F64Stimuli
import Verif.Lemmas.F64Temperature
import Verif.Lemmas.F64Tone
import Verif.Lemmas.F64UcsKeep
import Verif.Lemmas.F64UcsNear
import Verif.Lemmas.F64Vertex
import Verif.Lemmas.F64Viewing
import Verif.Lemmas.F64ViewingNear
import Verif.Lemmas.F64Visit
import Verif.Lemmas.F64Wheel
import Verif.Lemmas.FirstGuess
import Verif.Lemmas.Gamut
import Verif.Lemmas.Growth
import Verif.Lemmas.Interval
import Verif.Lemmas.KMeans
import Verif.Lemmas.LogNewton
import Verif.Lemmas.Material
import Verif.Lemmas.Nearest
import Verif.Lemmas.Newton
import Verif.Lemmas.NewtonStart
import Verif.Lemmas.Numeric
import Verif.Lemmas.Opponent
import Verif.Lemmas.OpponentA
import Verif.Lemmas.OpponentB
import Verif.Lemmas.OpponentFar
import Verif.Lemmas.OpponentSign
import Verif.Lemmas.OutOfGamut
import Verif.Lemmas.Planes
import Verif.Lemmas.Precise
import Verif.Lemmas.RayCell
import Verif.Lemmas.RayPath
import Verif.Lemmas.Readable
import Verif.Lemmas.Real
import Verif.Lemmas.Rounding
import Verif.Lemmas.Score
import Verif.Lemmas.Search
import Verif.Lemmas.SelfBins
import Verif.Lemmas.SelfClose
import Verif.Lemmas.SelfColor
import Verif.Lemmas.SelfRay
import Verif.Lemmas.SelfRound
import Verif.Lemmas.SelfSearch
import Verif.Lemmas.Solver
import Verif.Lemmas.Srgb
import Verif.Lemmas.StandardColors
import Verif.Lemmas.Temperature
import Verif.Lemmas.TemperatureReal
import Verif.Lemmas.Tones
import Verif.Lemmas.Viewing
import Verif.Lemmas.Wcag
import Verif.Lemmas.Witness
import Verif.Lemmas.Wsmeans
import Verif.Lemmas.WuArith
import Verif.Lemmas.WuBoxes
import Verif.Lemmas.WuCut
import Verif.Lemmas.WuExact
import Verif.Lemmas.WuGreedy
import Verif.Lemmas.WuHistogram
import Verif.Lemmas.WuNear
import Verif.Lemmas.WuTables
import Verif.Model.Blend
import Verif.Model.Cam16
import Verif.Model.ColorUtils
import Verif.Model.Contrast
import Verif.Model.ContrastCurve
import Verif.Model.CorePalette
import Verif.Model.Dislike
import Verif.Model.DynamicColor
import Verif.Model.DynamicScheme
import Verif.Model.Hct
import Verif.Model.HctSolver
import Verif.Model.LegacyScheme
import Verif.Model.Material
import Verif.Model.MathUtils
import Verif.Model.QuantizerMap
import Verif.Model.QuantizerWsmeans
import Verif.Model.QuantizerWu
import Verif.Model.Schemes
import Verif.Model.Score
import Verif.Model.StringUtils
import Verif.Model.TemperatureCache
import Verif.Model.TonalPalette
import Verif.Model.ViewingConditions
import Verif.Props.Angles
import Verif.Props.Binary64
import Verif.Props.Binary64Angles
import Verif.Props.Binary64Blend
import Verif.Props.Binary64Cam
import Verif.Props.Binary64CamBack
import Verif.Props.Binary64Color
import Verif.Props.Binary64Contrast
import Verif.Props.Binary64Cost
import Verif.Props.Binary64Drawn
import Verif.Props.Binary64Fixed
import Verif.Props.Binary64Foreground
import Verif.Props.Binary64Hue
import Verif.Props.Binary64HueTurns
import Verif.Props.Binary64KMeans
import Verif.Props.Binary64Palettes
import Verif.Props.Binary64Roles
import Verif.Props.Binary64RoundTrip
import Verif.Props.Binary64Schemes
import Verif.Props.Binary64Score
import Verif.Props.Binary64Search
import Verif.Props.Binary64Solver
import Verif.Props.Binary64Temperature
import Verif.Props.Binary64Tone
import Verif.Props.Binary64Ucs
import Verif.Props.Binary64Variants
import Verif.Props.Binary64Viewing
import Verif.Props.Bits
import Verif.Props.Cam
import Verif.Props.Chroma
import Verif.Props.Color
import Verif.Props.Contrast
import Verif.Props.CorePalettes
import Verif.Props.DynamicCache
import Verif.Props.DynamicColor
import Verif.Props.Enclosed
import Verif.Props.Hex
import Verif.Props.KMeans
import Verif.Props.LegacyScheme
import Verif.Props.Material
import Verif.Props.Opaque
import Verif.Props.Palettes
import Verif.Props.QuantizerMap
import Verif.Props.Readable
import Verif.Props.RoundTrip
import Verif.Props.Schemes
import Verif.Props.Score
import Verif.Props.Solver
import Verif.Props.Surfaces
import Verif.Props.Temperature
import Verif.Props.Ucs
import Verif.Props.Wsmeans
import Verif.Props.Wu
import Verif.Props.WuBinary64
import Verif.Props.WuCut
import Verif.Props.WuGreedy
import Verif.Props.WuOverflow
import Verif.Rounding64
import Verif.Spec.Bits
import Verif.Spec.Cells
import Verif.Spec.DynamicColor
import Verif.Spec.ExactCam
import Verif.Spec.ExactPoint
import Verif.Spec.Hex
import Verif.Spec.KMeans
import Verif.Spec.LegacyScheme
import Verif.Spec.Libm
import Verif.Spec.LibmCam
import Verif.Spec.LibmExp
import Verif.Spec.LibmRange
import Verif.Spec.Luminance
import Verif.Spec.Near
import Verif.Spec.Opaque
import Verif.Spec.Pixels
import Verif.Spec.Schemes
import Verif.Spec.Score
import Verif.Spec.ScoreBy
import Verif.Spec.Spread
import Verif.Spec.Temperature
import Verif.Spec.Turn
import Verif.Spec.Wcag
