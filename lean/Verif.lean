import Verif.Lemmas.Arctan
import Verif.Lemmas.Bgm
import Verif.Lemmas.Bruns
import Verif.Lemmas.Calendar
import Verif.Lemmas.Columns
import Verif.Lemmas.Confocal
import Verif.Lemmas.Conv
import Verif.Lemmas.CoolingHalfspace
import Verif.Lemmas.CoolingSeries
import Verif.Lemmas.CoolingTail
import Verif.Lemmas.CoolingTheta
import Verif.Lemmas.CoolingUnique
import Verif.Lemmas.CoordFloat
import Verif.Lemmas.CrossCoupling
import Verif.Lemmas.Crust
import Verif.Lemmas.Decimal
import Verif.Lemmas.Despike
import Verif.Lemmas.Dgs
import Verif.Lemmas.EotvosFloat
import Verif.Lemmas.Erf
import Verif.Lemmas.Fft
import Verif.Lemmas.Float64
import Verif.Lemmas.FloatSum
import Verif.Lemmas.FloatTime
import Verif.Lemmas.Fmt
import Verif.Lemmas.Fwf
import Verif.Lemmas.Gaussian
import Verif.Lemmas.GaussianFloat
import Verif.Lemmas.HalfAngle
import Verif.Lemmas.Inertial
import Verif.Lemmas.Ini
import Verif.Lemmas.Interval
import Verif.Lemmas.Isostasy
import Verif.Lemmas.LatCorrFloat
import Verif.Lemmas.LevelExists
import Verif.Lemmas.LevelField
import Verif.Lemmas.LevelGravity
import Verif.Lemmas.LevelNumeric
import Verif.Lemmas.ListSum
import Verif.Lemmas.LowpassFloat
import Verif.Lemmas.LowpassWeights
import Verif.Lemmas.MapM
import Verif.Lemmas.MaxPrinciple
import Verif.Lemmas.Mode
import Verif.Lemmas.NavDate
import Verif.Lemmas.NavFiles
import Verif.Lemmas.NavFloat
import Verif.Lemmas.NavParse
import Verif.Lemmas.Newton
import Verif.Lemmas.Np
import Verif.Lemmas.Pandas
import Verif.Lemmas.Parker1d
import Verif.Lemmas.Parker1dFloat
import Verif.Lemmas.Parker2d
import Verif.Lemmas.Parker2dFloat
import Verif.Lemmas.Perturb
import Verif.Lemmas.ReadNav
import Verif.Lemmas.Relief
import Verif.Lemmas.ReliefGrid
import Verif.Lemmas.Repr
import Verif.Lemmas.Response
import Verif.Lemmas.ResponseDeep
import Verif.Lemmas.Signal
import Verif.Lemmas.Sine
import Verif.Lemmas.Smooth
import Verif.Lemmas.Status
import Verif.Lemmas.Str
import Verif.Lemmas.ThermalFloat
import Verif.Lemmas.Tide
import Verif.Lemmas.TideExact
import Verif.Lemmas.TideFloat
import Verif.Lemmas.TideFloatClose
import Verif.Lemmas.TideFloatMid
import Verif.Lemmas.TideNode
import Verif.Lemmas.TidePull
import Verif.Lemmas.TideValue
import Verif.Lemmas.Tilt
import Verif.Lemmas.TiltCoeffs
import Verif.Lemmas.TiltFloat
import Verif.Lemmas.Toml
import Verif.Lemmas.Truth
import Verif.Lemmas.Wave
import Verif.Model.Bgm
import Verif.Model.BgmFloat
import Verif.Model.Coherence
import Verif.Model.CoordFloat
import Verif.Model.CrossCoupling
import Verif.Model.Crust
import Verif.Model.Cursor
import Verif.Model.Database
import Verif.Model.DateLineFloat
import Verif.Model.Dgs
import Verif.Model.Envelope
import Verif.Model.Eotvos
import Verif.Model.EotvosFloat
import Verif.Model.FilesFloat
import Verif.Model.FreeAirFloat
import Verif.Model.Gaussian
import Verif.Model.GaussianFloat
import Verif.Model.Ini
import Verif.Model.Kinematics
import Verif.Model.LatCorr
import Verif.Model.LatCorrFloat
import Verif.Model.LayerFloat
import Verif.Model.Lowpass
import Verif.Model.LowpassFloat
import Verif.Model.Nav
import Verif.Model.NavFloat
import Verif.Model.NavParse
import Verif.Model.NavVelFloat
import Verif.Model.Other
import Verif.Model.Parker1d
import Verif.Model.Parker1dFloat
import Verif.Model.Parker2d
import Verif.Model.Parker2dFloat
import Verif.Model.Pipeline
import Verif.Model.ReadNav
import Verif.Model.Scripts
import Verif.Model.Serial
import Verif.Model.Status
import Verif.Model.SyncFloat
import Verif.Model.Thermal
import Verif.Model.ThermalFloat
import Verif.Model.Tide
import Verif.Model.TideAlt
import Verif.Model.TideFloat
import Verif.Model.Tilt
import Verif.Model.TiltFloat
import Verif.Model.Track
import Verif.Model.UpVecsFloat
import Verif.Props.Along
import Verif.Props.Bgm
import Verif.Props.BgmBlank
import Verif.Props.BgmFloat
import Verif.Props.Blank
import Verif.Props.Bouguer
import Verif.Props.Calendar
import Verif.Props.Coherence
import Verif.Props.Columns
import Verif.Props.CoolingCompare
import Verif.Props.CoolingHalfspace
import Verif.Props.CoolingIsotherm
import Verif.Props.CoolingPlate
import Verif.Props.CoordFloat
import Verif.Props.CrossCoupling
import Verif.Props.CrossCouplingGeology
import Verif.Props.Crust
import Verif.Props.Cursor
import Verif.Props.Database
import Verif.Props.DateLine
import Verif.Props.DateLineFloat
import Verif.Props.Datum
import Verif.Props.Despike
import Verif.Props.DgsLaptop
import Verif.Props.DgsRaw
import Verif.Props.DifferenceFloat
import Verif.Props.Envelope
import Verif.Props.Eotvos
import Verif.Props.EotvosFloat
import Verif.Props.FilesFloat
import Verif.Props.FreeAir
import Verif.Props.FreeAirFloat
import Verif.Props.Gaussian
import Verif.Props.GaussianFloat
import Verif.Props.Halfspace
import Verif.Props.Inertial
import Verif.Props.Ini
import Verif.Props.Isostasy
import Verif.Props.Kinematics
import Verif.Props.LatCorr
import Verif.Props.LatFloat
import Verif.Props.LatGradient
import Verif.Props.Layer
import Verif.Props.LayerFloat
import Verif.Props.LevelError
import Verif.Props.Lowpass
import Verif.Props.LowpassFloat
import Verif.Props.MeterFiles
import Verif.Props.Mode
import Verif.Props.Nav
import Verif.Props.NavBroken
import Verif.Props.NavDate
import Verif.Props.NavFiles
import Verif.Props.NavFloat
import Verif.Props.NavParse
import Verif.Props.NavStamp
import Verif.Props.NavVelFloat
import Verif.Props.Newton
import Verif.Props.NewtonRelief
import Verif.Props.NormalGradient
import Verif.Props.NormalGravity
import Verif.Props.Other
import Verif.Props.Parker1d
import Verif.Props.Parker1dFloat
import Verif.Props.Parker2d
import Verif.Props.Parker2dFloat
import Verif.Props.Pipeline
import Verif.Props.PipelineFloat
import Verif.Props.Plate
import Verif.Props.ReadNav
import Verif.Props.Segments
import Verif.Props.Sensitivity
import Verif.Props.Serial
import Verif.Props.SmallRelief
import Verif.Props.SmoothTrack
import Verif.Props.Status
import Verif.Props.Swell
import Verif.Props.Sync
import Verif.Props.SyncFloat
import Verif.Props.ThermZFloat
import Verif.Props.ThermalFloat
import Verif.Props.Tide
import Verif.Props.TideAlt
import Verif.Props.TideFloat
import Verif.Props.TideNewton
import Verif.Props.Tilt
import Verif.Props.TiltFloat
import Verif.Props.Toml
import Verif.Props.Track
import Verif.Props.Truth
import Verif.Props.TruthFiles
import Verif.Props.TruthFilter
import Verif.Props.TruthFloat
import Verif.Props.UpVecsFloat
import Verif.Props.Wave
import Verif.Py.Calendar
import Verif.Py.Core
import Verif.Py.Erf
import Verif.Py.Fft
import Verif.Py.Float64
import Verif.Py.Fmt
import Verif.Py.Np
import Verif.Py.Num
import Verif.Py.Pandas
import Verif.Py.Real
import Verif.Py.Repr
import Verif.Py.Signal
import Verif.Spec.Bgm
import Verif.Spec.BgmFloat
import Verif.Spec.Calendar
import Verif.Spec.Coherence
import Verif.Spec.Columns
import Verif.Spec.CoolingHalfspace
import Verif.Spec.CoolingPlate
import Verif.Spec.CrossCoupling
import Verif.Spec.Crust
import Verif.Spec.Cursor
import Verif.Spec.DateLine
import Verif.Spec.Decimal
import Verif.Spec.Dgs
import Verif.Spec.Ellipsoid
import Verif.Spec.Eotvos
import Verif.Spec.Files
import Verif.Spec.FilterLibm
import Verif.Spec.Float64
import Verif.Spec.FloatExp
import Verif.Spec.FloatLibm
import Verif.Spec.Gaussian
import Verif.Spec.Inertial
import Verif.Spec.Ini
import Verif.Spec.Isostasy
import Verif.Spec.LevelEllipsoid
import Verif.Spec.Nav
import Verif.Spec.NavDate
import Verif.Spec.NavLibm
import Verif.Spec.NavParse
import Verif.Spec.NavStamp
import Verif.Spec.Newton
import Verif.Spec.Other
import Verif.Spec.Parker
import Verif.Spec.Parker2Libm
import Verif.Spec.ParkerLibm
import Verif.Spec.ReadNav
import Verif.Spec.Regression
import Verif.Spec.Serial
import Verif.Spec.Signal
import Verif.Spec.Status
import Verif.Spec.ThermLibm
import Verif.Spec.Thermal
import Verif.Spec.Tide
import Verif.Spec.TideNewton
import Verif.Spec.Tilt
import Verif.Spec.Toml
import Verif.Spec.TomlTables
import Verif.Spec.Truth
import Verif.Spec.UpLibm
