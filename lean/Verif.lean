import Verif.Props.Params
import Verif.Props.Chisq
import Verif.Props.Masks
import Verif.Props.Trim
import Verif.Props.Weights
import Verif.Props.Geometry
import Verif.Props.Profiles
import Verif.Props.Collapse
import Verif.Props.Convolve
import Verif.Props.PSF
import Verif.Props.Grid
import Verif.Props.Aper
import Verif.Props.Upsample
import Verif.Props.Kernel
import Verif.Props.MCMC
import Verif.Props.Posterior
import Verif.Props.Lines
import Verif.Props.Objects
import Verif.Props.Fit1D
import Verif.Props.Aper1D
import Verif.Props.Aper1DModel
import Verif.Props.Continuum
import Verif.Props.Image
import Verif.Props.ImageForm
import Verif.Props.Moments
import Verif.Props.KinModel
import Verif.Props.RedChisq
import Verif.Props.Plot
import Verif.Props.PlotAngle
import Verif.Props.VertPos
import Verif.Props.YProfile
import Verif.Props.Cube3D
import Verif.Props.Sampler
import Verif.Props.Units
import Verif.Props.Fit2D
import Verif.Props.Floor
import Verif.Props.Peak
import Verif.Props.Prepare
import Verif.Props.Prepare1D
import Verif.Model.Fit1DObj
import Verif.Lemmas.Fit1DObj
import Verif.Props.Fit1DObj
import Verif.Props.Fit1DUse
import Verif.Props.Fit1DModel
import Verif.Props.Fit1DMC
import Verif.Lemmas.Mirror
import Verif.Lemmas.MirrorEval
import Verif.Props.Mirror
import Verif.Lemmas.Bright
import Verif.Props.Seeing
import Verif.Model.Mock
import Verif.Props.Mock
import Verif.Props.MockFit
import Verif.Props.SigmaE
import Verif.Props.Exact
import Verif.Model.GalaxyObj
import Verif.Props.GalaxyObj
import Verif.Lemmas.PrepUnits
import Verif.Props.PrepUnits
import Verif.Props.MaskedPixels
import Verif.Props.PrepFit
import Verif.Lemmas.AngleUnits
import Verif.Props.AngleRun
import Verif.Props.AngleUnits
import Verif.Lemmas.WaveUnits
import Verif.Props.WaveUnits
import Verif.Props.PrepLine
import Verif.Props.Continuous
import Verif.Props.PrepFail
import Verif.Props.Prep1DMask
import Verif.Props.PrepVert
import Verif.Props.Coverage
import Verif.Props.Missing1D
import Verif.Props.PlotFit
import Verif.Props.PlotLines
import Verif.Props.SlitPlot
import Verif.Model.PlotTrace
import Verif.Props.PlotTrace
import Verif.Props.Fit1DStale
import Verif.Model.RunLog
import Verif.Lemmas.RunLog
import Verif.Props.RunLog
import Verif.Model.Prune
import Verif.Lemmas.Prune
import Verif.Props.Prune
import Verif.Lemmas.RunFail
import Verif.Props.RunFail
import Verif.Props.Fit1DFail
import Verif.Model.Workers
import Verif.Lemmas.Workers
import Verif.Props.Workers
import Verif.Model.WholeFit
import Verif.Lemmas.WholeFit
import Verif.Props.WholeFit
import Verif.Model.Saved
import Verif.Lemmas.Saved
import Verif.Props.Saved
import Verif.Model.WaveShift
import Verif.Lemmas.WaveShift
import Verif.Props.WaveShift
import Verif.Props.BlurForm
import Verif.Props.ShiftBlur
import Verif.Props.PriorExact
import Verif.Props.Fit1DReuse
import Verif.Props.VelForm
import Verif.Props.NoAxis
import Verif.Props.RotAper
import Verif.Props.RotScale
import Verif.Props.DispAper
import Verif.Props.PrepAngle
import Verif.Props.Fit1DShape
import Verif.Props.ImageTurn
import Verif.Props.ImageSum
import Verif.Props.Plot1D
import Verif.Props.NoWindow
import Verif.Props.FitSession
import Verif.Props.SlitNoise
import Verif.Props.BestExists
import Verif.Props.Degenerate
import Verif.Props.SampleFactor
import Verif.Props.FitTurn
import Verif.Props.ErrScale
import Verif.Props.NoColumns
import Verif.Props.LineObj
import Verif.Props.Residual1D
import Verif.Props.Light
import Verif.Props.Rows
import Verif.Props.PlotPanels
import Verif.Props.LineSign
import Verif.Props.Reweigh
import Verif.Props.SamePost
import Verif.Props.FluxSign
import Verif.Props.FlipData
import Verif.Props.SameRun
import Verif.Props.MirrorRun
import Verif.Props.MoreRuns
