import Verif.Props.Fields
import Verif.Props.Correctors
import Verif.Props.Setpoints
import Verif.Props.Register
import Verif.Props.Supports
import Verif.Props.ApplyErrors
import Verif.Props.Perfect
import Verif.Props.Multipoles
import Verif.Props.Transformation
import Verif.Props.LatticeSetting
import Verif.Props.Beam
import Verif.Props.BeamLoss
import Verif.Props.Orbit
import Verif.Props.ScTools
import Verif.Props.History
import Verif.Props.Rf
import Verif.Props.Stats
import Verif.Props.Circular
import Verif.Props.Injection
import Verif.Props.Tune
import Verif.Props.Bba
import Verif.Props.Restore
import Verif.Props.Response
import Verif.Props.ResponseMeasure
import Verif.Props.Loco
import Verif.Props.LocoJacobian
import Verif.Props.Apertures
import Verif.Props.Chroma
import Verif.Props.AllElements
import Verif.Props.Requests
import Verif.Props.MatlabIndex
import Verif.Props.LocoWrapper
import Verif.Props.ReadMultipoles
import Verif.Props.RampErrors
import Verif.Props.Consistent
import Verif.Props.Alignment
import Verif.Props.Draws
import Verif.Props.Applicable
import Verif.Props.Convergence
import Verif.Props.Registrable
import Verif.Props.Missing
import Verif.Props.Session
import Verif.Props.Commute
import Verif.Props.SharedTables
import Verif.Props.Agreement
import Verif.Props.CommonNumbers
import Verif.Props.Truncated
import Verif.Props.ErrorLaw
import Verif.Props.ReadingLaw
import Verif.Props.Pieces
import Verif.Props.Instruments
import Verif.Props.Scaling
import Verif.Props.Objects
import Verif.Props.Superposition
import Verif.Props.Spoiled
import Verif.Props.SupportLaw
import Verif.Props.Reproducible
import Verif.Props.Additive
import Verif.Props.Polar
import Verif.Props.SameLaw
import Verif.Props.Equivalent
import Verif.Props.Target
import Verif.Props.Feedback
import Verif.Props.Search
import Verif.Props.Logging
import Verif.Props.PlotSupport
import Verif.Props.Origin
import Verif.Props.Arrays
import Verif.Props.PlotStrengths
import Verif.Props.PhaseSpace
import Verif.Props.PlotLattice
import Verif.Props.Noiseless
import Verif.Props.Synoptic
import Verif.Props.BpmSubset
import Verif.Props.BpmOffsets
import Verif.Props.TargetOrbit
import Verif.Props.MagnetOptions
import Verif.Props.RegisteredLimits
