import Verif.Props.Units
import Verif.Props.Quantities
import Verif.Props.Expressions
import Verif.Props.Classes
import Verif.Props.Equations
import Verif.Lemmas.Invariant
import Verif.Props.Models
import Verif.Props.Connections
import Verif.Props.Blocks
import Verif.Props.Problems
import Verif.Props.Resolve
import Verif.Props.Domains
import Verif.Props.Simulations
import Verif.Props.Results
import Verif.Props.Odes
import Verif.Props.Packages
import Verif.Props.Optimization
import Verif.Model.UnitOps
import Verif.Lemmas.UnitOps
import Verif.Props.UnitOps
import Verif.Props.Coherence
import Verif.Props.UnitFindings
import Verif.Props.Reads
import Verif.Props.Solvers
import Verif.Props.EndToEnd
import Verif.Props.Studies
import Verif.Model.Reports
import Verif.Props.Reports
import Verif.Props.Implicit
import Verif.Replay
import Verif.Props.Linear
import Verif.Model.Errors
import Verif.Props.Errors
import Verif.Props.Printing
import Verif.Props.Scaling
import Verif.Props.LinearSystem
import Verif.Props.ResidualForm
import Verif.Props.RootFunction
import Verif.Props.Generated
import Verif.Props.Inlets
import Verif.Props.Several
import Verif.Props.Again
import Verif.Props.Settings
import Verif.Props.Values
import Verif.Props.ZeroDivision
import Verif.Props.Order
import Verif.Props.Modular
import Verif.Props.OrderCalled
import Verif.Lemmas.Cosmetic
import Verif.Lemmas.CosmeticSim
import Verif.Props.Texts
import Verif.Props.Raises
import Verif.Props.Outlets
import Verif.Props.Carried
import Verif.Props.Dynamic
import Verif.Props.Progress
import Verif.Props.DomainErrors
import Verif.Props.Refusals
import Verif.Props.Bystanders
import Verif.Model.Numeric
import Verif.Model.Graph
import Verif.Props.Numeric
import Verif.Props.Links
import Verif.Props.SimLinks
import Verif.Model.Usage
import Verif.Props.Usage
import Verif.Props.StudyLinks
import Verif.Props.Writing
import Verif.Props.Views
import Verif.Props.SeveralSims
import Verif.Props.SolvedUnits
import Verif.Props.UnitPorts
import Verif.Props.SolvedMixers
import Verif.Props.SolvedConnections
import Verif.Props.SolvedLines
import Verif.Props.StreamFlux
import Verif.Props.FailedCopies
import Verif.Props.TableTimes
import Verif.Props.AskedTimes
import Verif.Props.TableGrows
import Verif.Props.RowsKept
