import Verif.Model.Base
import Verif.Model.Json
import Verif.Model.Numeric
import Verif.Model.Study
import Verif.Model.Fluent
import Verif.Model.Serial
import Verif.Model.Output
import Verif.Model.LP
import Verif.Model.Pool
import Verif.Spec.LP
import Verif.Proofs.Base
import Verif.Spec.Numeric
import Verif.Proofs.Numeric
import Verif.Props.Numeric
import Verif.Spec.Study
import Verif.Proofs.Study
import Verif.Proofs.StudyInv
import Verif.Proofs.Fluent
import Verif.Proofs.StudyProps
import Verif.Proofs.Json
import Verif.Proofs.LPBuild
import Verif.Proofs.LPRows
import Verif.Proofs.LPFeas
import Verif.Proofs.LPResult
import Verif.Proofs.LPDispatch
import Verif.Proofs.Pool
import Verif.Proofs.LPScn
import Verif.Proofs.LPMerit
import Verif.Proofs.LPReady
import Verif.Proofs.LPCheck
import Verif.Props.Study
import Verif.Props.Json
import Verif.Props.LP
import Verif.Props.LPExamples
import Verif.Proofs.Remote
import Verif.Props.Remote
import Verif.Model.Frame
import Verif.Model.Analyzer
import Verif.Spec.Analyzer
import Verif.Proofs.Frame
import Verif.Proofs.Tables
import Verif.Proofs.ConvTables
import Verif.Proofs.TablesUnique
import Verif.Props.Tables
import Verif.Model.Selectors
import Verif.Proofs.Query
import Verif.Proofs.Answer
import Verif.Proofs.Selectors
import Verif.Props.Query
import Verif.Proofs.Aggregates
import Verif.Props.Aggregates
import Verif.Model.Pipeline
import Verif.Spec.Pipeline
import Verif.Proofs.Pipeline
import Verif.Proofs.Plugs
import Verif.Proofs.Stages
import Verif.Props.Pipeline
import Verif.Props.Fault
import Verif.Props.Building
import Verif.Props.PipelineExamples
import Verif.Model.Shuffler
import Verif.Spec.Shuffler
import Verif.Proofs.Shuffler
import Verif.Props.Shuffler
import Verif.Model.Viewer
import Verif.Spec.Viewer
import Verif.Proofs.Viewer
import Verif.Props.Viewer
import Verif.Proofs.ViewerStack
import Verif.Props.ViewerStack
import Verif.Proofs.ViewerMap
import Verif.Props.ViewerMap
import Verif.Spec.Accept
import Verif.Proofs.LPAccept
import Verif.Props.Accept
import Verif.Proofs.Minimum
import Verif.Props.Optimum
import Verif.Spec.Sensitivity
import Verif.Proofs.Sensitivity
import Verif.Props.Sensitivity
import Verif.Proofs.Parts
import Verif.Props.Parts
import Verif.Proofs.Farkas
import Verif.Spec.Prices
import Verif.Proofs.Prices
import Verif.Props.Prices
import Verif.Spec.Order
import Verif.Proofs.Order
import Verif.Props.Order
import Verif.Proofs.LPWired
import Verif.Props.Wired
import Verif.Props.Wire
import Verif.Proofs.TablesExact
import Verif.Props.TablesExact
import Verif.Spec.Energy
import Verif.Proofs.Energy
import Verif.Props.Energy
import Verif.Spec.Worth
import Verif.Proofs.Worth
import Verif.Props.Worth
import Verif.Props.Refuted
import Verif.Model.Dto
import Verif.Spec.Dto
import Verif.Proofs.Dto
import Verif.Proofs.DtoStudy
import Verif.Proofs.DtoHash
import Verif.Proofs.DtoCopy
import Verif.Props.Dto
import Verif.Spec.Extension
import Verif.Proofs.Extension
import Verif.Props.Extension
import Verif.Spec.Blend
import Verif.Proofs.Blend
import Verif.Proofs.Mean
import Verif.Props.Blend
import Verif.Spec.Rename
import Verif.Proofs.Rename
import Verif.Props.Rename
import Verif.Spec.Window
import Verif.Proofs.Window
import Verif.Props.Window
import Verif.Spec.JsonTwice
import Verif.Proofs.JsonTwice
import Verif.Props.JsonTwice
import Verif.Spec.Handles
import Verif.Props.Handles
import Verif.Spec.Reading
import Verif.Proofs.Reading
import Verif.Proofs.Plain
import Verif.Props.Reading
import Verif.Spec.Groups
import Verif.Spec.Adequacy
import Verif.Proofs.Groups
import Verif.Proofs.Adequacy
import Verif.Props.Groups
import Verif.Props.Adequacy
import Verif.Spec.AtOnce
import Verif.Proofs.AtOnce
import Verif.Props.AtOnce
import Verif.Props.Compare
import Verif.Model.Drawing
import Verif.Spec.Drawing
import Verif.Proofs.Drawing
import Verif.Props.Drawing
import Verif.Spec.Cut
import Verif.Proofs.Cut
import Verif.Props.Cut
import Verif.Spec.Margin
import Verif.Proofs.Margin
import Verif.Props.Margin
import Verif.Spec.Fit
import Verif.Props.Fit
import Verif.Model.Share
import Verif.Props.Share
import Verif.Spec.Tolerance
import Verif.Proofs.Tolerance
import Verif.Props.Tolerance
import Verif.Model.Defaults
import Verif.Spec.Program
import Verif.Proofs.Program
import Verif.Props.Program
import Verif.Conform.Chain
import Verif.Conform.Domain
import Verif.Conform.LP
import Verif.Conform.Certificate
import Verif.Conform.Solve
import Verif.Conform.Analyzer
import Verif.Conform.Pipeline
import Verif.Conform.Remote
import Verif.Conform.Viewer
import Verif.Conform.Docs
import Verif.Spec.Clearing
import Verif.Proofs.Clearing
import Verif.Props.Clearing
import Verif.Model.Titles
import Verif.Spec.Titles
import Verif.Proofs.Titles
import Verif.Props.Titles
import Verif.Model.Sampling
import Verif.Spec.Sampling
import Verif.Proofs.Sampling
import Verif.Props.Sampling
import Verif.Model.Marks
import Verif.Spec.Marks
import Verif.Props.Marks
import Verif.Spec.Tax
import Verif.Proofs.Tax
import Verif.Props.Tax
import Verif.Model.Text
import Verif.Spec.Text
import Verif.Proofs.Text
import Verif.Proofs.TextRead
import Verif.Props.Text
import Verif.Props.Arrange
import Verif.Props.Clock
import Verif.Props.Passage
import Verif.Props.Place
import Verif.Props.Legend
import Verif.Props.Chance
import Verif.Props.Fair
import Verif.Props.Like
import Verif.Props.Estimate
import Verif.Props.Laws
import Verif.Props.Invest
import Verif.Props.Message
import Verif.Props.Route
import Verif.Props.Whole
import Verif.Props.Refusals
import Verif.Props.Timing
import Verif.Props.Partly
import Verif.Props.Special
import Verif.Props.Precision
import Verif.Props.Journey
import Verif.Props.Coarse
import Verif.Props.Longer
import Verif.Props.Demand
import Verif.Props.Declare
import Verif.Props.Foresee
import Verif.Props.Asking
import Verif.Props.Missing
import Verif.Props.Resume
import Verif.Props.Cutting
import Verif.Props.Relative
import Verif.Props.Units
import Verif.Props.Steps
import Verif.Props.Rough
import Verif.Props.Arrows
import Verif.Props.Twins
import Verif.Props.Relay
import Verif.Props.Moments
import Verif.Props.Plant
import Verif.Props.Hamlet
import Verif.Props.Cascade
import Verif.Props.Furnace
import Verif.Props.Heater
import Verif.Props.Ingredient
import Verif.Props.Sourceless
