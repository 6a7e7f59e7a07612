import Verif.Base.Calendar
import Verif.Base.Fl
import Verif.Base.Lemmas
import Verif.Base.Py
import Verif.Base.Series
import Verif.Model.Atmosphere
import Verif.Model.Bifacial
import Verif.Model.Clearsky
import Verif.Model.Decomposition
import Verif.Model.DirintTable
import Verif.Model.Fits
import Verif.Model.Iam
import Verif.Model.Inverter
import Verif.Model.IoIndex
import Verif.Model.IoRemote
import Verif.Model.IoRequests
import Verif.Model.IoServices
import Verif.Model.IoTables
import Verif.Model.Irradiance
import Verif.Model.IvUtils
import Verif.Model.Location
import Verif.Model.LocationMethods
import Verif.Model.Midc
import Verif.Model.ModelChain
import Verif.Model.Panond
import Verif.Model.PerezTables
import Verif.Model.Polling
import Verif.Model.PvArray
import Verif.Model.PvFunctions
import Verif.Model.PvSystem
import Verif.Model.Pvfactors
import Verif.Model.Reverse
import Verif.Model.Scaling
import Verif.Model.Sde
import Verif.Model.Sdm
import Verif.Model.SdmSandia
import Verif.Model.Shading
import Verif.Model.SingleDiode
import Verif.Model.Small
import Verif.Model.SnowSoiling
import Verif.Model.SolarDispatch
import Verif.Model.SolarPosition
import Verif.Model.Spa
import Verif.Model.SpaTables
import Verif.Model.SpectralResponse
import Verif.Model.Spectrl2
import Verif.Model.Spectrum
import Verif.Model.Store
import Verif.Model.Temperature
import Verif.Model.Times
import Verif.Model.Tools
import Verif.Model.ToolsMisc
import Verif.Proofs.Airmass
import Verif.Props.AirMass
import Verif.Props.Ants
import Verif.Props.ArrayClass
import Verif.Props.ArrayScaling
import Verif.Props.Astm
import Verif.Props.Atmosphere
import Verif.Props.BifacialFlip
import Verif.Props.BifacialGround
import Verif.Props.BifacialRow
import Verif.Props.BifacialShadow
import Verif.Props.BifacialStrings
import Verif.Props.BirdHaze
import Verif.Props.CalcParams
import Verif.Props.Cams
import Verif.Props.ChainArrays
import Verif.Props.ChainConfig
import Verif.Props.ChainDark
import Verif.Props.ChainDiode
import Verif.Props.ChainFacts
import Verif.Props.ChainGround
import Verif.Props.ChainLosses
import Verif.Props.ChainMono
import Verif.Props.ChainNight
import Verif.Props.ChainRows
import Verif.Props.ChainRun
import Verif.Props.ChainStrings
import Verif.Props.ChainTare
import Verif.Props.ChainTotal
import Verif.Props.ChainWarm
import Verif.Props.ChainWires
import Verif.Props.ChainWitness
import Verif.Props.ClearDay
import Verif.Props.Clearsky
import Verif.Props.ClearskyBird
import Verif.Props.ClearskyDetect
import Verif.Props.ClearskySolis
import Verif.Props.Cocontent
import Verif.Props.Continuation
import Verif.Props.DayCourse
import Verif.Props.Decomposition
import Verif.Props.DenseRows
import Verif.Props.DhiStable
import Verif.Props.Dirt
import Verif.Props.Ephemeris
import Verif.Props.ErbsShape
import Verif.Props.Files
import Verif.Props.FillFactor
import Verif.Props.Fits
import Verif.Props.Fuentes
import Verif.Props.Geometry
import Verif.Props.Golden
import Verif.Props.GtiDirint
import Verif.Props.GtiFull
import Verif.Props.Hemispheres
import Verif.Props.Huld
import Verif.Props.Iam
import Verif.Props.IamDiffuse
import Verif.Props.IamFit
import Verif.Props.IamMarion
import Verif.Props.IamPhysical
import Verif.Props.Inverter
import Verif.Props.InverterMono
import Verif.Props.IoTables
import Verif.Props.LambertCurve
import Verif.Props.LambertW
import Verif.Props.LambertWAcc
import Verif.Props.Linke
import Verif.Props.Location
import Verif.Props.LocationMethods
import Verif.Props.LockedTracker
import Verif.Props.Longitude
import Verif.Props.LstSq
import Verif.Props.Midc
import Verif.Props.Mountings
import Verif.Props.NewtonInputs
import Verif.Props.NumDiff
import Verif.Props.Overcast
import Verif.Props.Panond
import Verif.Props.PerezContinuity
import Verif.Props.Polling
import Verif.Props.Prilliman
import Verif.Props.PvArray
import Verif.Props.PvDiode
import Verif.Props.PvLosses
import Verif.Props.PvSystem
import Verif.Props.Pvfactors
import Verif.Props.Pvgis
import Verif.Props.PvsystLight
import Verif.Props.Rectify
import Verif.Props.Requests
import Verif.Props.RequestsMore
import Verif.Props.Reverse
import Verif.Props.SamTable
import Verif.Props.SandiaSimple
import Verif.Props.Sapm
import Verif.Props.SapmLight
import Verif.Props.Scaling
import Verif.Props.Schumaker
import Verif.Props.SdmCoeff
import Verif.Props.SdmDesoto
import Verif.Props.SdmExtract
import Verif.Props.SdmIec
import Verif.Props.SdmLoop
import Verif.Props.SdmSteps
import Verif.Props.Services
import Verif.Props.Shading
import Verif.Props.Sheds
import Verif.Props.SingleDiode
import Verif.Props.SingleDiodeBracket
import Verif.Props.SingleDiodeCurve
import Verif.Props.SingleDiodeNewton
import Verif.Props.SkyModels
import Verif.Props.Snow
import Verif.Props.Soiling
import Verif.Props.SolarDispatch
import Verif.Props.SolarGeometry
import Verif.Props.SolarLocal
import Verif.Props.SpaBounds
import Verif.Props.SpaContinuity
import Verif.Props.SpaDeltat
import Verif.Props.SpaGeometry
import Verif.Props.SpaJulian
import Verif.Props.SpaPosition
import Verif.Props.SpaRiseSet
import Verif.Props.SpaThreads
import Verif.Props.Spec
import Verif.Props.SpectralResponse
import Verif.Props.Spectrl2
import Verif.Props.Spectrum
import Verif.Props.StationIndex
import Verif.Props.Store
import Verif.Props.Symmetry
import Verif.Props.Tables
import Verif.Props.Temperature
import Verif.Props.Times
import Verif.Props.Tmy3
import Verif.Props.ToolsMisc
import Verif.Props.Townsend
import Verif.Props.TrackerSymmetry
import Verif.Props.Tracking
import Verif.Props.TransContinuity
import Verif.Props.Transposition
import Verif.Props.TrigValues
import Verif.Props.TwoSides
import Verif.Props.Warm
import Verif.Props.Wavelet
import Verif.Props.YearCourse
