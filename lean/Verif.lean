import Verif.Model.Antares
import Verif.Model.Benders
import Verif.Model.BendersText
import Verif.Model.BuilderText
import Verif.Model.Cli
import Verif.Model.CliOutput
import Verif.Model.CliWords
import Verif.Model.ConverterCli
import Verif.Model.Copy
import Verif.Model.Data
import Verif.Model.Dict
import Verif.Model.Document
import Verif.Model.Expand
import Verif.Model.Expr
import Verif.Model.Instantiate
import Verif.Model.Library
import Verif.Model.LinExpr
import Verif.Model.LinHeap
import Verif.Model.LinText
import Verif.Model.Linearize
import Verif.Model.Model
import Verif.Model.Network
import Verif.Model.Num
import Verif.Model.Optim
import Verif.Model.Output
import Verif.Model.OutputText
import Verif.Model.Parse
import Verif.Model.Print
import Verif.Model.Pypsa
import Verif.Model.Runner
import Verif.Model.Shipped
import Verif.Model.ShippedFiles
import Verif.Model.System
import Verif.Model.Tables
import Verif.Model.Thermal
import Verif.Model.Tree
import Verif.Model.Visitors
import Verif.Spec.Agree
import Verif.Spec.Antares
import Verif.Spec.AntaresProblem
import Verif.Spec.Assign
import Verif.Spec.Benders
import Verif.Spec.BendersText
import Verif.Spec.Between
import Verif.Spec.BetweenAny
import Verif.Spec.Buildable
import Verif.Spec.BuilderText
import Verif.Spec.Cli
import Verif.Spec.CliOutput
import Verif.Spec.CliWords
import Verif.Spec.Compared
import Verif.Spec.ComparedAny
import Verif.Spec.ConverterCli
import Verif.Spec.Data
import Verif.Spec.Decomposition
import Verif.Spec.Den
import Verif.Spec.Dependence
import Verif.Spec.Document
import Verif.Spec.Expr
import Verif.Spec.Grammar
import Verif.Spec.Kept
import Verif.Spec.Library
import Verif.Spec.Lin
import Verif.Spec.LinText
import Verif.Spec.Meaning
import Verif.Spec.Model
import Verif.Spec.Names
import Verif.Spec.Network
import Verif.Spec.Output
import Verif.Spec.OutputText
import Verif.Spec.PricesBetween
import Verif.Spec.Print
import Verif.Spec.Problem
import Verif.Spec.Pypsa
import Verif.Spec.PypsaProblem
import Verif.Spec.Rearranged
import Verif.Spec.Redistributed
import Verif.Spec.Reloaded
import Verif.Spec.RepricedAny
import Verif.Spec.Rotated
import Verif.Spec.RotatedKept
import Verif.Spec.Runner
import Verif.Spec.SameProblem
import Verif.Spec.Scenarios
import Verif.Spec.ScenariosAny
import Verif.Spec.Served
import Verif.Spec.Shipped
import Verif.Spec.ShippedComplete
import Verif.Spec.ShippedStudy
import Verif.Spec.Solved
import Verif.Spec.Steps
import Verif.Spec.StepsAny
import Verif.Spec.Tables
import Verif.Spec.Thermal
import Verif.Spec.Tree
import Verif.Spec.Units
import Verif.Spec.UnitsAny
import Verif.Spec.Without
import Verif.Lemmas.Accepted
import Verif.Lemmas.Affine
import Verif.Lemmas.Antares
import Verif.Lemmas.AntaresComplete
import Verif.Lemmas.AntaresFiles
import Verif.Lemmas.AntaresKept
import Verif.Lemmas.AntaresMeaning
import Verif.Lemmas.AntaresProblem
import Verif.Lemmas.AntaresThermal
import Verif.Lemmas.Basic
import Verif.Lemmas.Battery
import Verif.Lemmas.BetweenAny
import Verif.Lemmas.Block
import Verif.Lemmas.Build
import Verif.Lemmas.Cli
import Verif.Lemmas.CliWords
import Verif.Lemmas.Columns
import Verif.Lemmas.Compared
import Verif.Lemmas.ComparedAny
import Verif.Lemmas.CopyEval
import Verif.Lemmas.CopyFlat
import Verif.Lemmas.CopyOk
import Verif.Lemmas.CopySubs
import Verif.Lemmas.Coupler
import Verif.Lemmas.Created
import Verif.Lemmas.Decomposition
import Verif.Lemmas.Degree
import Verif.Lemmas.Dependence
import Verif.Lemmas.Dict
import Verif.Lemmas.Document
import Verif.Lemmas.DocumentKeys
import Verif.Lemmas.DocumentSame
import Verif.Lemmas.DocumentSays
import Verif.Lemmas.Equality
import Verif.Lemmas.Eval
import Verif.Lemmas.Expand
import Verif.Lemmas.ExpandDegree
import Verif.Lemmas.Expanded
import Verif.Lemmas.ExprCheck
import Verif.Lemmas.ExprEq
import Verif.Lemmas.FewKeys
import Verif.Lemmas.Fits
import Verif.Lemmas.FitsCheck
import Verif.Lemmas.Fusion
import Verif.Lemmas.Grammar
import Verif.Lemmas.IndexCopy
import Verif.Lemmas.Indexing
import Verif.Lemmas.Instantiated
import Verif.Lemmas.Kept
import Verif.Lemmas.Lex
import Verif.Lemmas.Library
import Verif.Lemmas.LinExpr
import Verif.Lemmas.LinText
import Verif.Lemmas.LinearPrograms
import Verif.Lemmas.Linearize
import Verif.Lemmas.Linearized
import Verif.Lemmas.Meaning
import Verif.Lemmas.Network
import Verif.Lemmas.NoScenario
import Verif.Lemmas.Parse
import Verif.Lemmas.PortDef
import Verif.Lemmas.Print
import Verif.Lemmas.PrintBad
import Verif.Lemmas.Problem
import Verif.Lemmas.Pypsa
import Verif.Lemmas.PypsaAccept
import Verif.Lemmas.PypsaAdmits
import Verif.Lemmas.PypsaComplete
import Verif.Lemmas.PypsaCost
import Verif.Lemmas.PypsaKept
import Verif.Lemmas.PypsaKeptBalance
import Verif.Lemmas.PypsaKeptLines
import Verif.Lemmas.PypsaMeaning
import Verif.Lemmas.PypsaPlans
import Verif.Lemmas.PypsaProblem
import Verif.Lemmas.PypsaStudy
import Verif.Lemmas.Reading
import Verif.Lemmas.Rearranged
import Verif.Lemmas.RearrangedKept
import Verif.Lemmas.RearrangedNet
import Verif.Lemmas.Resolve
import Verif.Lemmas.Rotated
import Verif.Lemmas.RotatedKept
import Verif.Lemmas.RotatedShipped
import Verif.Lemmas.Rows
import Verif.Lemmas.Runner
import Verif.Lemmas.SameProblem
import Verif.Lemmas.Scenarios
import Verif.Lemmas.ScenariosAny
import Verif.Lemmas.ScenariosKept
import Verif.Lemmas.Served
import Verif.Lemmas.Shape
import Verif.Lemmas.ShippedBuild
import Verif.Lemmas.ShippedFit
import Verif.Lemmas.ShippedModels
import Verif.Lemmas.ShippedRules
import Verif.Lemmas.ShippedStudy
import Verif.Lemmas.Static
import Verif.Lemmas.Steps
import Verif.Lemmas.StepsAny
import Verif.Lemmas.StepsKept
import Verif.Lemmas.StudyItems
import Verif.Lemmas.StudyMeaning
import Verif.Lemmas.Tree
import Verif.Lemmas.TreeLinks
import Verif.Lemmas.UnitForms
import Verif.Lemmas.UnitsAny
import Verif.Lemmas.Without
import Verif.Props.Aliasing
import Verif.Props.Antares
import Verif.Props.AntaresProblem
import Verif.Props.AntaresProblemExamples
import Verif.Props.BendersText
import Verif.Props.BendersTextExamples
import Verif.Props.BetweenAny
import Verif.Props.BetweenExamples
import Verif.Props.BetweenShipped
import Verif.Props.Buildable
import Verif.Props.BuilderText
import Verif.Props.Cli
import Verif.Props.CliOutput
import Verif.Props.CliWords
import Verif.Props.Compared
import Verif.Props.ComparedAny
import Verif.Props.Comparison
import Verif.Props.Components
import Verif.Props.Constants
import Verif.Props.ConverterCli
import Verif.Props.Coupling
import Verif.Props.Data
import Verif.Props.Decomposition
import Verif.Props.DecompositionExamples
import Verif.Props.Documents
import Verif.Props.DocumentsExamples
import Verif.Props.Expressions
import Verif.Props.Fusion
import Verif.Props.Kept
import Verif.Props.KeptExamples
import Verif.Props.Libraries
import Verif.Props.LinText
import Verif.Props.LinTextExamples
import Verif.Props.LinearExpressions
import Verif.Props.Loading
import Verif.Props.ModelBuild
import Verif.Props.Models
import Verif.Props.Names
import Verif.Props.Operators
import Verif.Props.Output
import Verif.Props.OutputComparison
import Verif.Props.OutputText
import Verif.Props.OutputTextExamples
import Verif.Props.OutputTextProblem
import Verif.Props.Parsing
import Verif.Props.Pipeline
import Verif.Props.PricesBetween
import Verif.Props.PricesBetweenExamples
import Verif.Props.Print
import Verif.Props.Problem
import Verif.Props.ProblemExamples
import Verif.Props.Pypsa
import Verif.Props.PypsaProblem
import Verif.Props.PypsaProblemExamples
import Verif.Props.Rearranged
import Verif.Props.RearrangedExamples
import Verif.Props.Redistributed
import Verif.Props.RedistributedExamples
import Verif.Props.Reloaded
import Verif.Props.ReloadedExamples
import Verif.Props.RepricedAny
import Verif.Props.RepricedExamples
import Verif.Props.Rotated
import Verif.Props.RotatedExamples
import Verif.Props.RotatedKept
import Verif.Props.RotatedKeptExamples
import Verif.Props.RotatedShipped
import Verif.Props.Rows
import Verif.Props.Runner
import Verif.Props.SameProblem
import Verif.Props.SameProblemExamples
import Verif.Props.Scenarios
import Verif.Props.ScenariosAny
import Verif.Props.ScenariosAnyExamples
import Verif.Props.ScenariosExamples
import Verif.Props.ScenariosShipped
import Verif.Props.ScenariosShippedExamples
import Verif.Props.Served
import Verif.Props.ServedExamples
import Verif.Props.Shipped
import Verif.Props.ShippedBuild
import Verif.Props.ShippedStudy
import Verif.Props.SolvedAny
import Verif.Props.SolvedExamples
import Verif.Props.SolvedMore
import Verif.Props.SolvedShipped
import Verif.Props.Steps
import Verif.Props.StepsAny
import Verif.Props.StepsAnyExamples
import Verif.Props.StepsExamples
import Verif.Props.StepsShipped
import Verif.Props.Structure
import Verif.Props.System
import Verif.Props.Tables
import Verif.Props.TablesConverted
import Verif.Props.TablesExamples
import Verif.Props.TablesProblem
import Verif.Props.Thermal
import Verif.Props.Tree
import Verif.Props.TreeLinks
import Verif.Props.UnitsAny
import Verif.Props.UnitsExamples
import Verif.Props.UnitsShipped
import Verif.Props.Without
import Verif.Props.WithoutExamples
