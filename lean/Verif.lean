import Verif.Model.Arith
import Verif.Model.Arr
import Verif.Model.Utils
import Verif.Spec
import Verif.Lemmas.Loops
import Verif.Lemmas.Utils
import Verif.Props.Utils
import Verif.Props.Floor
import Verif.Props.Asinh
import Verif.Lemmas.MapM
import Verif.Props.Basel
import Verif.Model.Interp
import Verif.Model.Template
import Verif.Model.Response
import Verif.Lemmas.Trap
import Verif.Lemmas.Sort
import Verif.Lemmas.Grid
import Verif.Lemmas.Project
import Verif.Lemmas.Demo
import Verif.Lemmas.Fwhm
import Verif.Props.Response
import Verif.Props.Response2
import Verif.Props.Shift
import Verif.Props.Sed
import Verif.Model.Registry
import Verif.Lemmas.Registry
import Verif.Lemmas.Threads
import Verif.Props.Registry
import Verif.Props.Threads
import Verif.Props.Flambda
import Verif.Model.Fits
import Verif.Props.Fits
import Verif.Model.Fitter
import Verif.Lemmas.AMat
import Verif.Lemmas.Build
import Verif.Props.Build
import Verif.Lemmas.Inputs
import Verif.Lemmas.Fit
import Verif.Props.Inputs
import Verif.Props.Fit
import Verif.Props.FitReal
import Verif.Model.Kcorrect
import Verif.Lemmas.Kcorrect
import Verif.Props.KInit
import Verif.Props.Kcorrect
import Verif.Lemmas.Absmag
import Verif.Props.Absmag
import Verif.Props.AbsmagMc
import Verif.Lemmas.Derived
import Verif.Props.Derived
import Verif.Props.KFiles
import Verif.Props.ToAb
import Verif.Model.Heap
import Verif.Props.Heap
import Verif.Props.Moved
import Verif.Model.Builders
import Verif.Props.Builders
import Verif.Props.Truth
import Verif.Lemmas.Local
import Verif.Props.Local
import Verif.Props.Basis
import Verif.Props.Order
import Verif.Lemmas.Spectrum
import Verif.Props.Spectrum
import Verif.Props.Optimum
import Verif.Props.MonteCarlo
import Verif.Props.Utils2
import Verif.Props.Response3
import Verif.Props.Saving
import Verif.Props.Rebuild
import Verif.Props.Lists
import Verif.Props.FloatGrid
import Verif.Props.FloatUtils
import Verif.Props.FloatRecon
import Verif.Props.FloatFalse
import Verif.Props.Stars
import Verif.Props.FloatMag
import Verif.Props.Accept
import Verif.Props.Plot
import Verif.Props.Ieee
import Verif.Props.Ieee2
import Verif.Props.Fittable
import Verif.Props.NoFlux
import Verif.Model.SedHeap
import Verif.Props.SedHeap
import Verif.Props.Inputs2
import Verif.Props.AbClasses
import Verif.Props.Pipeline
import Verif.Props.ZeroZ
import Verif.Props.Resave
import Verif.Props.Batches
import Verif.Props.Stable
import Verif.Props.Consistent
import Verif.Props.FloatDerived
import Verif.Model.Spline
import Verif.Lemmas.Spline
import Verif.Props.Spline
import Verif.Props.Build2
import Verif.Lemmas.Nnls
import Verif.Props.BestFit
import Verif.Props.HalfMax
import Verif.Props.Trapezoid
import Verif.Props.LambdaEff
import Verif.Props.Unloaded
import Verif.Props.SetInterp
import Verif.Props.McDrift
import Verif.Props.McTable
import Verif.Props.SolverChoice
import Verif.Model.CallThreads
import Verif.Props.CallThreads
import Verif.Props.BestFitAb
import Verif.Props.Monotone
import Verif.Props.AbArith
import Verif.Props.AbFloat
import Verif.Props.AbIeee
import Verif.Props.BandShift
import Verif.Props.ValidDir
import Verif.Props.Between
import Verif.Props.Reload
import Verif.Props.FloatAsinh
import Verif.Props.Repeated
import Verif.Props.Brighter
import Verif.Props.PowerOfTwo
import Verif.Props.Shipped
import Verif.Props.ShippedTemplates
import Verif.Model.Nnls
import Verif.Lemmas.LawsonHanson
import Verif.Props.LawsonHanson
import Verif.Model.StarFiles
import Verif.Lemmas.SplineCert
import Verif.Lemmas.InBand
import Verif.Lemmas.SplineData
import Verif.Lemmas.StarSplines
import Verif.Lemmas.StarMags
import Verif.Lemmas.StarCheckS
import Verif.Lemmas.StarCheckF
import Verif.Lemmas.StarCheckN
import Verif.Props.ShippedStars
import Verif.Model.TemplateWaves
import Verif.Lemmas.TemplateWaves
import Verif.Lemmas.TemplateEdge
import Verif.Props.Cubics
import Verif.Props.DefaultObject
import Verif.Lemmas.LogBounds
import Verif.Props.BandTable
import Verif.Props.AnyBatch
import Verif.Props.AnyBatch2
import Verif.Model.RespExt
import Verif.Props.RespExt
import Verif.Props.TrueMass
import Verif.Props.RespSave
import Verif.Model.Reread
import Verif.Props.Reread
import Verif.Props.Tables
import Verif.Props.Components
import Verif.Lemmas.ChiCont
import Verif.Props.ChiRedshift
import Verif.Lemmas.ArgCont
import Verif.Props.CoeffCont
import Verif.Props.CoeffMass
import Verif.Props.Sparse
import Verif.Props.LinearFit
import Verif.Props.AbsmagCont
import Verif.Props.BestRedshift
import Verif.Props.McErrors
import Verif.Props.FitTies
import Verif.Props.ProjectGrid
import Verif.Props.SmallErrors
import Verif.Props.NoisyFit
import Verif.Props.ChiTruth
import Verif.Props.PhotoZ
import Verif.Props.Undetected
import Verif.Model.Scripts
import Verif.Props.Scripts
import Verif.Props.ScriptValues
import Verif.Props.ScriptPoints
import Verif.Model.ScriptPlots
import Verif.Props.ScriptPlots
import Verif.Props.ScriptCurves
import Verif.Props.TrapezoidRatio
import Verif.Model.SampleErrors
import Verif.Props.SampleErrors
import Verif.Props.MatchedErrors
import Verif.Props.ErrorLimit
import Verif.Props.FitLimit
import Verif.Props.SampleLimit
import Verif.Props.SampleLaw
import Verif.Props.SampleMean
import Verif.Props.SampleOne
import Verif.Props.SampleOneMag
import Verif.Props.BandNames
import Verif.Props.SampleFinite
import Verif.Props.SampleCount
import Verif.Props.SamplePercentile
import Verif.Props.RereadLater
