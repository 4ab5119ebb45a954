import Verif.Basic
import Verif.Ledger
import Verif.Spec.Ledger
import Verif.Proofs.Ledger
import Verif.Props.Ledger
import Verif.Calendar
import Verif.Clock
import Verif.Spec.Clock
import Verif.Proofs.Calendar
import Verif.Props.Clock
import Verif.Business
import Verif.Spec.Business
import Verif.Proofs.Business
import Verif.Proofs.BusinessRun
import Verif.Proofs.Schedule
import Verif.Props.Activity
import Verif.Props.Run
import Verif.Spec.YearEnd
import Verif.Proofs.YearEnd
import Verif.Proofs.YearRun
import Verif.Props.YearEnd
import Verif.BusinessOps
import Verif.Spec.BusinessOps
import Verif.Proofs.BusinessOps
import Verif.Props.BusinessOps
import Verif.Reports
import Verif.Spec.Reports
import Verif.Proofs.Reports
import Verif.Proofs.Reports2
import Verif.Props.Reports
import Verif.Stoich
import Verif.Spec.Stoich
import Verif.Proofs.Stoich
import Verif.Proofs.Stoich2
import Verif.Props.Stoich
import Verif.Chem
import Verif.Spec.Chem
import Verif.Proofs.Chem
import Verif.Props.Chem
import Verif.Psd
import Verif.Slurry
import Verif.Spec.Psd
import Verif.Proofs.Psd
import Verif.Props.Psd
import Verif.Props.Slurry
import Verif.ThermoChem
import Verif.Spec.ThermoChem
import Verif.Proofs.ThermoChem
import Verif.Proofs.ThermoMag
import Verif.Props.ThermoChem
import Verif.Thermo
import Verif.Spec.Thermo
import Verif.Proofs.Thermo
import Verif.Props.Thermo
import Verif.Props.ThermoSplit
import Verif.Props.ThermoSolve
import Verif.Props.ThermoMore
import Verif.Coals
import Verif.Props.Coals
import Verif.ThermoStream
import Verif.Spec.ThermoStream
import Verif.Proofs.ThermoStream
import Verif.Props.ThermoStream
import Verif.Proofs.CoalStream
import Verif.Props.CoalStream
import Verif.ThermoAmounts
import Verif.Props.ThermoAmounts
import Verif.PhysProps
import Verif.Props.PhysIdeal
import Verif.Props.PhysMix
import Verif.Props.Slags
import Verif.Props.SlagsMore
import Verif.FileFormat
import Verif.Spec.FileFormat
import Verif.Proofs.FileFormat
import Verif.Proofs.FileTable
import Verif.Proofs.FileCustom
import Verif.Props.FileFormat
import Verif.Props.FileNumbers
import Verif.Props.FileMore
import Verif.Props.FileExamples
import Verif.Props.Riboud
import Verif.Transport
import Verif.Spec.Transport
import Verif.Props.Transport
import Verif.Props.Colebrook
import Verif.Props.Convection
import Verif.Props.ConvectionValues
import Verif.Props.ThermoMix
import Verif.ShippedThermo
import Verif.Spec.ShippedThermo
import Verif.Proofs.ShippedThermo
import Verif.Props.ShippedThermo
import Verif.Props.ShippedPackage
import Verif.FactSage
import Verif.Spec.FactSage
import Verif.Proofs.FactSage
import Verif.Proofs.FactSageRows
import Verif.Props.FactSage
import Verif.ShippedFluids
import Verif.Proofs.PolyPos
import Verif.Spec.ShippedFluids
import Verif.Proofs.ShippedFluids
import Verif.Props.ShippedFluids
import Verif.Props.ShippedCompare
import Verif.Csv
import Verif.Props.Csv
import Verif.ChemHeap
import Verif.Spec.ChemHeap
import Verif.Proofs.ChemHeap
import Verif.Props.ChemHeap
import Verif.Json
import Verif.Persist
import Verif.Spec.Persist
import Verif.Proofs.Json
import Verif.Proofs.JsonSort
import Verif.Proofs.Persist
import Verif.Proofs.PersistInit
import Verif.Proofs.PersistValues
import Verif.Props.Persist
import Verif.Rounding
import Verif.Proofs.Rounding
import Verif.ChemFloat
import Verif.Spec.ChemFloat
import Verif.Proofs.ChemFloat
import Verif.Props.ChemFloat
import Verif.ReportsFloat
import Verif.Spec.ReportsFloat
import Verif.Proofs.ReportsFloat
import Verif.Props.ReportsFloat
import Verif.ArrHeap
import Verif.Spec.ArrHeap
import Verif.Proofs.ArrHeap
import Verif.PsdHeap
import Verif.SlurryHeap
import Verif.Spec.PsdHeap
import Verif.Proofs.PsdHeap
import Verif.Props.PsdHeap
import Verif.Props.SlurryHeap
import Verif.ThermoHeap
import Verif.Spec.ThermoHeap
import Verif.Proofs.ThermoHeap
import Verif.Props.ThermoHeap
import Verif.StreamHeap
import Verif.Spec.StreamHeap
import Verif.Proofs.StreamHeap
import Verif.Props.StreamHeap
import Verif.Printout
import Verif.Spec.Printout
import Verif.Proofs.Printout
import Verif.Props.Printout
import Verif.Props.PrintoutMore
import Verif.Props.PrintoutExamples
import Verif.Props.PrintoutThermo
import Verif.Keys
import Verif.Spec.Keys
import Verif.Props.Keys
import Verif.LoanSet
import Verif.Props.LoanSet
import Verif.LoanFloat
import Verif.Spec.LoanFloat
import Verif.Proofs.LoanFloat
import Verif.Props.LoanFloat
import Verif.ElementDict
import Verif.Props.ElementDict
import Verif.RunState
import Verif.Proofs.RunState
import Verif.Proofs.RunCalendar
import Verif.Props.RunState
import Verif.Proofs.YearEndTransit
import Verif.Props.YearEndTransit
import Verif.Props.JsonText
import Verif.Props.AssayTrip
import Verif.DateText
import Verif.Spec.DateText
import Verif.Props.DateText
import Verif.Fit
import Verif.Spec.Fit
import Verif.Proofs.Fit
import Verif.Props.Fit
import Verif.Props.PersistText
import Verif.Catalogue
import Verif.Spec.Catalogue
import Verif.Props.Catalogue
import Verif.IncomeFloat
import Verif.Props.IncomeFloat
import Verif.Props.SlagsRefused
import Verif.Spec.Plant
import Verif.Props.Plant
import Verif.Props.PrintoutRefused
import Verif.StoichFloat
import Verif.Spec.StoichFloat
import Verif.Proofs.StoichFloat
import Verif.Proofs.Within
import Verif.Proofs.StoichFloat2
import Verif.Props.StoichFloat
import Verif.Props.StoichFloatFractions
import Verif.Props.StoichFloatElements
import Verif.Props.StoichFloatCases
import Verif.Spec.F64
import Verif.Props.F64
import Verif.Props.F64Slurry
import Verif.PsdFloat
import Verif.Spec.PsdFloat
import Verif.Proofs.PsdFloat
import Verif.Props.PsdFloat
import Verif.Props.PsdFloat2
import Verif.Props.SlurryFloat
import Verif.Spec.ReportFaults
import Verif.Props.ReportFaults
import Verif.LedgerApi
import Verif.Props.LedgerApi
import Verif.Courier
import Verif.Spec.RunReports
import Verif.Proofs.RunReports
import Verif.Props.RunReports
import Verif.Paths
import Verif.Spec.Paths
import Verif.Proofs.Paths
import Verif.Props.Paths
import Verif.Bibliography
import Verif.Spec.Bibliography
import Verif.Props.Bibliography
import Verif.Modelling
import Verif.Props.Modelling
import Verif.Spec.ReportsAdd
import Verif.Props.ReportsAdd
import Verif.Spec.Independence
import Verif.Props.Independence
import Verif.ThermoFloat
import Verif.Spec.ThermoFloat
import Verif.Proofs.ThermoFloat
import Verif.Props.ThermoFloat
import Verif.Props.HeapAssay
import Verif.Props.ThermoFloat2
import Verif.Props.Laws
import Verif.Props.LawsThermo
import Verif.Props.StoichRefused
import Verif.Props.ClosingText
import Verif.Money
import Verif.Props.Money
import Verif.Props.ReportFile
import Verif.Props.SmallPrint
import Verif.Share
import Verif.Props.Share
import Verif.Spec.CoalHeat
import Verif.Proofs.CoalHeat
import Verif.Props.CoalHeat
import Verif.Props.Currency
import Verif.Props.FrictionRefused
import Verif.Props.Lookup
import Verif.Props.TimeShift
import Verif.Props.Parts
import Verif.Props.LoanCost
import Verif.Props.SameReports
import Verif.Props.Version
import Verif.Props.Install
