import Verif.Props.AttrDict
import Verif.Props.Text
import Verif.Props.Scenario
import Verif.Props.Template
import Verif.Props.Aliasing
import Verif.Props.Imports
import Verif.Props.MathSchema
import Verif.Props.Config
import Verif.Props.Serialise
import Verif.Props.Time
import Verif.Props.Operate
import Verif.Props.Lifecycle
import Verif.Props.Spores
import Verif.Props.Registry
import Verif.Props.Equations
import Verif.Props.Update
import Verif.Props.SolverObjects
import Verif.Props.Where
import Verif.Props.Mask
import Verif.Props.Arith
import Verif.Props.Expand
import Verif.Props.Expr
import Verif.Props.Build
import Verif.Props.BaseParse
import Verif.Props.BaseMath
import Verif.Props.BaseBalance
import Verif.Props.BaseCost
import Verif.Props.BaseTotal
import Verif.Props.BaseDemo
import Verif.Props.DemoTools
import Verif.Props.MathParse
import Verif.Props.InterCluster
import Verif.Props.InterDemo
import Verif.Props.Runs
import Verif.Props.ModelData
import Verif.Props.ModelData2
import Verif.Props.ModelLabels
import Verif.Props.Clean
import Verif.Props.Tables
import Verif.Props.InitTables
import Verif.Props.MathStrings
import Verif.Props.Costs
import Verif.Props.CostDemo
import Verif.Props.Variables
import Verif.Props.Limits
import Verif.Props.DemoVars
import Verif.Props.LimitDemo
import Verif.Props.Units
import Verif.Props.UnitDemo
import Verif.Props.Supply
import Verif.Props.Ramping
import Verif.Props.SupplyDemo
import Verif.Props.Checks
import Verif.Props.ChecksDemo
import Verif.Props.Defaults
import Verif.Props.Postprocess
import Verif.Props.PostDemo
import Verif.Props.Capacities
import Verif.Props.CapDemo
import Verif.Props.Results
import Verif.Props.Piecewise
import Verif.Props.Cli
import Verif.Props.SaveLoad
import Verif.Props.NewModel
import Verif.Props.Csv
import Verif.Props.MilpCosts
import Verif.Props.MilpCostDemo
import Verif.Props.SolverProblem
import Verif.Props.SporeFiles
import Verif.Props.Names
import Verif.Props.MathDoc
import Verif.Props.Readback
import Verif.Props.Grammar
import Verif.Props.WhereGrammar
import Verif.Props.MathText
import Verif.Props.MathFiles
import Verif.Props.Validation
import Verif.Props.ValidationFiles
import Verif.Props.LatexIndex
import Verif.Props.LatexWhere
import Verif.Props.TableSchema
import Verif.Props.Session
import Verif.Props.AttrName
import Verif.Props.DataSchema
import Verif.Props.Assemble
import Verif.Props.Decisions
import Verif.Props.Order
import Verif.Props.Coarse
import Verif.Props.CoarseMore
import Verif.Props.CoarseDemo
import Verif.Props.CoarseMoreDemo
import Verif.Props.CoarseOdd
import Verif.Props.Write
import Verif.Props.WriteDemo
import Verif.Props.Merge
import Verif.Props.Linear
import Verif.Props.Measure
import Verif.Props.Loosen
import Verif.Props.Rename
import Verif.Props.Typical
import Verif.Props.Average
import Verif.Props.Logging
import Verif.Props.SupplyStorage
import Verif.Props.SupplyStorageDemo
import Verif.Props.Restrict
import Verif.Props.SporesObjective
import Verif.Props.Copying
import Verif.Props.Dates
import Verif.Props.Versions
import Verif.Props.RunScripts
import Verif.Audit
