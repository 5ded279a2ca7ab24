import Verif.Float.Core
import Verif.Float.Round
import Verif.Float.Val
import Verif.Float.Ops
import Verif.Float.Bits
import Verif.Model.Float
import Verif.Model.Extras
import Verif.Model.Component
import Verif.Model.Vector
import Verif.Model.Quaternion
import Verif.Model.Statistics
import Verif.Float.Grid
import Verif.Float.Nearest
import Verif.Float.Consts
import Verif.Float.Err
import Verif.Float.Struct
import Verif.KernelRfl
import Verif.Spec.Basic
import Verif.Props.Sign
import Verif.Props.TruncFract
import Verif.Props.Rounding
import Verif.Props.Euclid
import Verif.Props.Roots
import Verif.Props.Recip
import Verif.Props.Powi
import Verif.Props.Basics
import Verif.Props.MachineInt
import Verif.Float.Eqv
import Verif.Props.Vectors
import Verif.Props.Quat
import Verif.Props.Stats
import Verif.Real.PolyPos
import Verif.Real.Arctan
import Verif.Props.Atan
import Verif.Props.Atan2
import Verif.Real.Trig
import Verif.Props.Trig
import Verif.Real.Arcsin
import Verif.Props.Asin
import Verif.Real.Exp
import Verif.Props.Exp
import Verif.Real.Log
import Verif.Props.Ln
import Verif.Props.Powf
import Verif.Props.VecNorm
import Verif.Props.QuatRot
import Verif.Real.QuatGeom
import Verif.Props.TwoVec
import Verif.Props.TwoVecThm
import Verif.Props.StatsErr
import Verif.Props.AxisAngle
import Verif.Props.Euler
import Verif.Props.AsinOut
import Verif.Props.TrigBig
import Verif.Props.AtanAll
import Verif.Props.RoundOrder
import Verif.Props.ExpMono
import Verif.Props.NormOrder
import Verif.Props.BitTricks
import Verif.Props.LogAll
import Verif.Props.VecErr
import Verif.Props.TrimCount
import Verif.Props.EuclidAll
import Verif.Props.RoundTrip
import Verif.Props.Scaling
import Verif.Props.StatScale
import Verif.Props.QuatScale
import Verif.Props.QuatComp
import Verif.Props.Consts
import Verif.Props.Rem
import Verif.Props.Ops
import Verif.Props.Agree
import Verif.Props.QuatIso
import Verif.Props.RecipWide
import Verif.Props.RecipEnds
import Verif.Props.FuncEq
import Verif.Props.TwoVecLaws
import Verif.Props.StatRange
import Verif.Props.StatNonFinite
import Verif.Props.NearMono
import Verif.Props.TrigSym
import Verif.Props.PowiLaws
import Verif.Props.EqLaws
import Verif.Props.AtanLaws
import Verif.Props.TanLaws
import Verif.Props.ExpOrder
import Verif.Props.Metric
import Verif.Props.QuatRing
import Verif.Props.StatSym
import Verif.Props.PowfLaws
import Verif.Props.Portable
import Verif.Model.Text
import Verif.Props.Text
import Verif.Props.Angles
import Verif.Props.VecLaws
import Verif.Props.Average
import Verif.Props.SmallestRot
import Verif.Props.Chain
import Verif.Props.Outlier
import Verif.Props.Renorm
import Verif.Props.Tiny
import Verif.Props.SmallAtan
import Verif.Props.LnNear
import Verif.Props.Pool
import Verif.Props.IntVec
import Verif.Props.IntDiv
import Verif.Tests.Float
import Verif.Tests.Powi
import Verif.Tests.Other
import Verif.Props.IntMag
import Verif.Props.IntStat
import Verif.Props.Wrap
import Verif.Props.Quantize
import Verif.Props.Hurwitz
import Verif.Props.Centroid
import Verif.Props.Lerp
import Verif.Props.Smooth
import Verif.Props.Horner
import Verif.Props.Turn
import Verif.Props.Newton
import Verif.Props.HypotFold
import Verif.Props.Reflect
import Verif.Props.FromIter
import Verif.Props.SignDot
