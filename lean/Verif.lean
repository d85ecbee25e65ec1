import Verif.Examples.Check
import Verif.Examples.Shuttle
import Verif.Examples.Small
import Verif.Model.Bqm
import Verif.Model.Cqm
import Verif.Model.Diagram
import Verif.Model.Helpers
import Verif.Model.JTaus
import Verif.Model.Linear
import Verif.Model.NewTT
import Verif.Model.Print
import Verif.Model.Pulp
import Verif.Model.Report
import Verif.Model.Results
import Verif.Model.Sched
import Verif.Model.Switch
import Verif.Model.Table
import Verif.Model.Top
import Verif.Model.Utils
import Verif.Model.Wisla
import Verif.Proofs.Assemble
import Verif.Proofs.AtStation
import Verif.Proofs.Bridge
import Verif.Proofs.Coded
import Verif.Proofs.CodedPlan
import Verif.Proofs.CodedRows
import Verif.Proofs.CodedSafe
import Verif.Proofs.Complete
import Verif.Proofs.ConNames
import Verif.Proofs.Data
import Verif.Proofs.Delay
import Verif.Proofs.Emit
import Verif.Proofs.Families
import Verif.Proofs.Families2
import Verif.Proofs.Families3
import Verif.Proofs.GenBuild
import Verif.Proofs.GenNames
import Verif.Proofs.GenPaths
import Verif.Proofs.GenRules
import Verif.Proofs.GenSets
import Verif.Proofs.GenVars
import Verif.Proofs.Generated
import Verif.Proofs.Integral
import Verif.Proofs.Loops
import Verif.Proofs.Loose
import Verif.Proofs.LooseArcs
import Verif.Proofs.LooseRules
import Verif.Proofs.LooseSum
import Verif.Proofs.LooseTree
import Verif.Proofs.LpTree
import Verif.Proofs.Near
import Verif.Proofs.Objective
import Verif.Proofs.OrderInv
import Verif.Proofs.OrderStored
import Verif.Proofs.OrderVars
import Verif.Proofs.Origin
import Verif.Proofs.PlanAgain
import Verif.Proofs.PlanArcs
import Verif.Proofs.PlanBound
import Verif.Proofs.PlanFacts
import Verif.Proofs.PlanHits
import Verif.Proofs.PlanNear
import Verif.Proofs.PlanRules
import Verif.Proofs.PlanSum
import Verif.Proofs.PlanTree
import Verif.Proofs.PlanVisits
import Verif.Proofs.Stations
import Verif.Proofs.SumTree
import Verif.Proofs.Tenths
import Verif.Proofs.TestCase
import Verif.Proofs.Times
import Verif.Proofs.Values
import Verif.Proofs.VarNames
import Verif.Props.Between
import Verif.Props.BigM
import Verif.Props.Bqm
import Verif.Props.Clock
import Verif.Props.Cqm
import Verif.Props.Delay
import Verif.Props.Diagram
import Verif.Props.Earliest
import Verif.Props.Edt
import Verif.Props.Equiv
import Verif.Props.Following
import Verif.Props.Generated
import Verif.Props.Headway
import Verif.Props.Keys
import Verif.Props.ListHelpers
import Verif.Props.Loaded
import Verif.Props.LooseQubo
import Verif.Props.Names
import Verif.Props.Objective
import Verif.Props.Optimal
import Verif.Props.Order
import Verif.Props.Printed
import Verif.Props.PrintedSheet
import Verif.Props.Qubo
import Verif.Props.QuboBuilt
import Verif.Props.QuboConvert
import Verif.Props.QuboGenerated
import Verif.Props.QuboTests
import Verif.Props.RealCollisions
import Verif.Props.RealData
import Verif.Props.RealDefault
import Verif.Props.RealDiagram
import Verif.Props.RealExceptions
import Verif.Props.RealOptimum
import Verif.Props.RealOvertakes
import Verif.Props.RealPenalty
import Verif.Props.RealPlans
import Verif.Props.RealPrinted
import Verif.Props.RealQubo
import Verif.Props.RealRules
import Verif.Props.RealSafe
import Verif.Props.RealWaiting
import Verif.Props.Reported
import Verif.Props.Results
import Verif.Props.Round
import Verif.Props.Rules
import Verif.Props.Rules2
import Verif.Props.Safe
import Verif.Props.SafeFalse
import Verif.Props.SafePlan
import Verif.Props.Schedule
import Verif.Props.Sheet
import Verif.Props.Sheets
import Verif.Props.Single
import Verif.Props.Solvable
import Verif.Props.SolverTests
import Verif.Props.Statistics
import Verif.Props.Stays
import Verif.Props.Stops
import Verif.Props.Switches
import Verif.Props.SwitchesAll
import Verif.Props.TableRules
import Verif.Props.TableRulesExact
import Verif.Props.Tables
import Verif.Props.Taus
import Verif.Props.TausTable
import Verif.Props.Tracks
import Verif.Props.Vars
import Verif.Props.Waiting
import Verif.Props.Waiting2
import Verif.Props.Weights
import Verif.Props.Wisla
import Verif.Py
import Verif.Real.Base
import Verif.Real.BaseOk
import Verif.Real.CasesKo2
import Verif.Real.Ends
import Verif.Real.Gt
import Verif.Real.GtOk
import Verif.Real.Ko1
import Verif.Real.Ko1Ok
import Verif.Real.Ko2
import Verif.Real.Ko2Ok
import Verif.Real.Ko3
import Verif.Real.Ko3Ok
import Verif.Real.LooseReal4
import Verif.Real.LooseReal5
import Verif.Real.LooseReal5One
import Verif.Real.LooseReal6
import Verif.Real.LooseReal6One
import Verif.Real.NearReal5
import Verif.Real.Net
import Verif.Real.Nets
import Verif.Real.One
import Verif.Real.OneGt
import Verif.Real.OneGtOk
import Verif.Real.OneOk
import Verif.Real.OptKo1n1
import Verif.Real.OptKo1n10
import Verif.Real.OptKo1n11
import Verif.Real.OptKo1n2
import Verif.Real.OptKo1n3
import Verif.Real.OptKo1n4
import Verif.Real.OptKo1n5
import Verif.Real.OptKo1n6
import Verif.Real.OptKo1n7
import Verif.Real.OptKo1n8
import Verif.Real.OptKo1n9
import Verif.Real.OptKo3n1
import Verif.Real.OptKo3n10
import Verif.Real.OptKo3n11
import Verif.Real.OptKo3n2
import Verif.Real.OptKo3n3
import Verif.Real.OptKo3n4
import Verif.Real.OptKo3n5
import Verif.Real.OptKo3n6
import Verif.Real.OptKo3n7
import Verif.Real.OptKo3n8
import Verif.Real.OptKo3n9
import Verif.Real.OptReal1
import Verif.Real.OptReal2
import Verif.Real.OptReal3
import Verif.Real.OptReal4
import Verif.Real.OptReal5
import Verif.Real.OptReal6
import Verif.Real.PlanBase
import Verif.Real.PlanGt
import Verif.Real.PlanHitGt
import Verif.Real.PlanHitOneGt
import Verif.Real.PlanKo1
import Verif.Real.PlanKo2
import Verif.Real.PlanKo3
import Verif.Real.PlanOne
import Verif.Real.PlanOneGt
import Verif.Real.PlanOver
import Verif.Real.Specials
import Verif.Real.Steps
import Verif.Spec.Data
import Verif.Spec.Feasible
import Verif.Spec.Names
import Verif.Spec.Objective
import Verif.Spec.Plan
import Verif.Spec.Rules
import Verif.Tests.Cases
import Verif.Tests.Certs
import Verif.Tests.Checks1
import Verif.Tests.Checks2
import Verif.Tests.Data
import Verif.Tests.Helpers
import Verif.Tests.QuboInputs
import Verif.Tests.Track
