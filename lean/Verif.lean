import Verif.Model.Arith
import Verif.Model.Base
import Verif.Model.Constants
import Verif.Model.PhotonThermal
import Verif.Model.Heap
import Verif.Model.Photons
import Verif.Model.PhotonsS
import Verif.Model.Spiner
import Verif.Model.Hdf
import Verif.Model.MeanUtils
import Verif.Model.MeanPhoton
import Verif.Lemmas.Cmp
import Verif.Lemmas.Outcome
import Verif.Lemmas.Groups
import Verif.Lemmas.Table
import Verif.Spec.Groups
import Verif.Props.Groups
import Verif.Spec.Units
import Verif.Lemmas.RealAttr
import Verif.Lemmas.RealArith
import Verif.Props.Utils
import Verif.Props.Constants
import Verif.Lemmas.BoseFermi
import Verif.Model.NeutrinoThermal
import Verif.Model.SpinerOpac
import Verif.Model.Neutrinos
import Verif.Model.NeutrinosS
import Verif.Model.MeanNeutrino
import Verif.Spec.Thermal
import Verif.Spec.Built
import Verif.Lemmas.Thermal
import Verif.Lemmas.ThermalNF
import Verif.Props.Thermal
import Verif.Spec.Vector
import Verif.Spec.SameResults
import Verif.Spec.Calls
import Verif.Lemmas.Vector
import Verif.Lemmas.VectorOK
import Verif.Props.Dispatch
import Verif.Props.Vector
import Verif.Spec.InUnits
import Verif.Lemmas.Units
import Verif.Props.Units
import Verif.Props.UnitsNeutrino
import Verif.Spec.Behind
import Verif.Lemmas.Behind
import Verif.Spec.Emission
import Verif.Lemmas.Emission
import Verif.Props.EmissionPhotons
import Verif.Props.PhotonModels
import Verif.Lemmas.Zeta
import Verif.Props.EmissionNeutrinos
import Verif.Props.NeutrinoModels
import Verif.Props.Scattering
import Verif.Props.SpecialValues
import Verif.Lemmas.MeanFill
import Verif.Props.MeanFiles
import Verif.Props.MeanLookup
import Verif.Props.Means
import Verif.Props.MeansFalse
import Verif.Model.Chebyshev
import Verif.Model.Vandermonde
import Verif.Model.Indexers
import Verif.Spec.Chebyshev
import Verif.Lemmas.CosBounds
import Verif.Lemmas.Chebyshev
import Verif.Props.Chebyshev
import Verif.Props.ChebyshevInterp
import Verif.Spec.Single
import Verif.Lemmas.Single
import Verif.Props.FastLog
import Verif.Props.Indexers
import Verif.Lemmas.Hdf
import Verif.Lemmas.Cells
import Verif.Lemmas.SpinerFill
import Verif.Lemmas.TableNodes
import Verif.Props.NeutrinoFiles
import Verif.Props.SpinerFill
import Verif.Props.NuLib
import Verif.Spec.NeutrinoMeans
import Verif.Lemmas.NeutrinoMeans
import Verif.Props.NeutrinoMeans
import Verif.Model.Threads
import Verif.Model.ThreadPrograms
import Verif.Lemmas.Threads
import Verif.Props.Threads
import Verif.Props.MeansApi
import Verif.Props.MeanObjects
import Verif.Lemmas.Interp
import Verif.Props.TableLookup
import Verif.Props.Files
import Verif.Props.MeanResponse
import Verif.Spec.Signs
import Verif.Lemmas.Signs
import Verif.Lemmas.SignsIE
import Verif.Props.Signs
import Verif.Model.Memory
import Verif.Spec.Lifetimes
import Verif.Lemmas.Memory
import Verif.Lemmas.MemoryObjects
import Verif.Props.Lifetimes
import Verif.Spec.Rounding
import Verif.Spec.Accuracy
import Verif.Lemmas.Accuracy
import Verif.Lemmas.AccuracyConstants
import Verif.Lemmas.AccuracyPhotons
import Verif.Lemmas.AccuracyScattering
import Verif.Lemmas.AccuracyNeutrinos
import Verif.Props.Accuracy
import Verif.Lemmas.Convergence
import Verif.Spec.MeanLimits
import Verif.Lemmas.MeanLimits
import Verif.Props.MeanLimits
import Verif.Props.NeutrinoMeanLimits
import Verif.Spec.Doubles
import Verif.Lemmas.Doubles
import Verif.Lemmas.DoublesPhotons
import Verif.Lemmas.DoublesConstants
import Verif.Props.Doubles
import Verif.Lemmas.DoublesScattering
import Verif.Lemmas.DoublesNeutrinos
import Verif.Props.DoublesMore
import Verif.Props.TableLimits
import Verif.Props.NeutrinoMeanResponse
import Verif.Props.TableKirchhoff
import Verif.Props.LookupAccuracy
import Verif.Props.MeanAccuracy
import Verif.Props.NarrowGroups
import Verif.Props.NeutrinoMeanAccuracy
import Verif.Props.LookupDoubles
import Verif.Props.TableAccess
import Verif.Props.MeanDoubles
import Verif.Props.MeanOutcome
import Verif.Spec.MeanFinite
import Verif.Lemmas.MeanFinite
import Verif.Lemmas.MeanFiniteSums
import Verif.Lemmas.LookupFinite
import Verif.Props.MeanFinite
import Verif.Model.SignedZero
import Verif.Lemmas.SignsSZ
import Verif.Props.SignedZeros
import Verif.Spec.Uninitialised
import Verif.Lemmas.Uninitialised
import Verif.Lemmas.UninitialisedFill
import Verif.Lemmas.UninitialisedNuLib
import Verif.Lemmas.UninitialisedApi
import Verif.Props.Uninitialised
import Verif.Lemmas.Locality
import Verif.Props.Locality
import Verif.Lemmas.ThermalShape
import Verif.Props.ThermalShape
import Verif.Spec.WholeSpectrum
import Verif.Lemmas.WholeSpectrum
import Verif.Props.WholeSpectrum
import Verif.Props.UnsampledMeans
import Verif.Lemmas.WholeRosseland
import Verif.Props.WholeRosseland
import Verif.Lemmas.MeanEmission
import Verif.Props.MeanEmission
import Verif.Lemmas.MergeGroups
import Verif.Props.MergeGroups
import Verif.Lemmas.GroupSum
import Verif.Props.GroupSum
import Verif.Lemmas.WholeFermi
import Verif.Props.WholeNeutrinos
import Verif.Lemmas.Midpoint
import Verif.Lemmas.ThermalCurves
import Verif.Props.MeanError
import Verif.Props.PhotonMeanError
import Verif.Props.IndexerRange
import Verif.Spec.LogSlope
import Verif.Lemmas.LogSlope
import Verif.Lemmas.WeightSlopes
import Verif.Lemmas.GroupError
import Verif.Props.GroupMeanError
import Verif.Lemmas.WindowError
import Verif.Props.NeutrinoWindowError
import Verif.Props.BetweenNodes
import Verif.Lemmas.InterpError
import Verif.Props.TableAccuracy
import Verif.Props.NeutrinoBetweenNodes
import Verif.Props.NeutrinoMeanRates
import Verif.Props.GroupMeanRates
import Verif.Props.TableBalance
import Verif.Props.GroupSumBetween
import Verif.Props.GroupSumRosseland
import Verif.Props.SourceRates
import Verif.Props.TableSlope
import Verif.Props.TableBudget
import Verif.Props.BrtTables
import Verif.Props.TableUnseen
