import Verif.Model.Calculator
import Verif.Model.CWrapper
import Verif.Props.Structures
import Verif.Props.Cache
import Verif.Props.Transparency
import Verif.Props.Grid
import Verif.Props.Spline
import Verif.Props.Quadrature
import Verif.Props.Kinematics
import Verif.Props.EffectiveCharge
import Verif.Props.EffectiveChargeLower
import Verif.Props.Stopping
import Verif.Props.StoppingPositive
import Verif.Props.Scattering
import Verif.Props.LindhardX
import Verif.Props.Ranges
import Verif.Props.Witness
import Verif.Props.EnergyOut
import Verif.Props.EnergyOutBounds
import Verif.Props.Calculate
import Verif.Props.CalculateDefined
import Verif.Props.Flight
import Verif.Props.Angular
import Verif.Props.Layers
import Verif.Props.Reactions
import Verif.Props.Materials
import Verif.Props.Wrapper
import Verif.Props.Calculator
import Verif.Props.CompoundBetween
import Verif.Model.CalculatorJson
import Verif.Spec.Document
import Verif.Props.CalculatorJson
import Verif.Props.CalculatorRuns
import Verif.Props.Mocadi
import Verif.Props.ThinLayer
import Verif.Props.ConfigTof
import Verif.Props.Compounds
import Verif.Props.AngularThin
import Verif.Props.AngularHighland
import Verif.Props.Continuity
import Verif.Props.ContinuityHeavy
import Verif.Props.ScatterOrder
import Verif.Props.WingerSharp
import Verif.Props.DensityEffect
import Verif.Props.Quadrature2D
import Verif.Props.Hypergeometric
import Verif.Props.LindhardSeries
import Verif.Props.LindhardDefined
import Verif.Props.LnGamma
import Verif.Props.Global
import Verif.Props.CutLayers
import Verif.Props.RoundingError
import Verif.Props.NotANumber
import Verif.Props.LindhardUltra
import Verif.Props.Generator
import Verif.Lemmas.Increasing
import Verif.Props.SplineIncreasing
import Verif.Lemmas.Steady
import Verif.Lemmas.ProtonSteady
import Verif.Lemmas.LindhardSteady
import Verif.Lemmas.BetheSteady
import Verif.Lemmas.DensitySteady
import Verif.Lemmas.BetheStep
import Verif.Lemmas.BetheValue
import Verif.Lemmas.RadiativeStep
import Verif.Lemmas.RadiativeSteady
import Verif.Lemmas.ProtonValue
import Verif.Lemmas.ProtonBlend
import Verif.Lemmas.SteadyComponent
import Verif.Props.RangeIncreasing
import Verif.Props.ProtonRanges
import Verif.Spec.Radiation
import Verif.Props.RadiationLength
import Verif.Props.Barkas
import Verif.Props.HeliumRanges
import Verif.Props.IonRanges
import Verif.Props.EnergyOutStops
import Verif.Props.LayerEnergies
import Verif.Props.PositiveRanges
import Verif.Lemmas.IncreasingWide
import Verif.Props.SplineWide
import Verif.Props.SplineJunk
import Verif.Lemmas.GentleTables
import Verif.Props.AngularReal
import Verif.Lemmas.NegativeEnergy
import Verif.Lemmas.QuarterLaw
import Verif.Lemmas.ProtonHydrogen
import Verif.Props.NegativeEnergy
import Verif.Props.TwoWays
import Verif.Props.FasterOut
import Verif.Props.StragglingNumber
import Verif.Props.Magnification
import Verif.Props.FlightTime
import Verif.Props.Switches
import Verif.Props.CompoundRange
import Verif.Props.ChargeState
import Verif.Props.StoppingFalls
import Verif.Props.Isotopes
import Verif.Props.RangeConvex
import Verif.Props.HeavierElement
import Verif.Props.ScatterPower
import Verif.Props.ScatterFactor
import Verif.Props.ScatterCovariance
import Verif.Props.StragglingJumps
import Verif.Props.StragglingOption
import Verif.Props.StragglingScale
import Verif.Props.StragglingElement
import Verif.Props.StragglingGrows
import Verif.Props.StragglingConvex
import Verif.Props.RadiationSwitch
import Verif.Props.LowEnergyOption
import Verif.Props.ChargeIgnored
import Verif.Props.DensityIgnored
