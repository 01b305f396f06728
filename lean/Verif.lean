import Verif.Model.Text
import Verif.Model.Token
import Verif.Model.Ast
import Verif.Model.State
import Verif.Model.Expr
import Verif.Model.Stmt
import Verif.Model.Api
import Verif.Proof.Closed
import Verif.Proof.Reach
import Verif.Proof.Tactic
import Verif.Proof.Traverse
import Verif.Proof.Safe
import Verif.Proof.Fix
import Verif.Spec.Runs
import Verif.Spec.KernelRfl
import Verif.Spec.Demo
import Verif.Spec.Lines
import Verif.Proof.ApiSafe
import Verif.Proof.TextLemmas
import Verif.Props.Progress
import Verif.Props.Settings
import Verif.Props.Lines
import Verif.Spec.Scanner
import Verif.Props.Reading
import Verif.Proof.DemoOk
import Verif.Proof.Eval
import Verif.Props.Safety
import Verif.Props.Positions
import Verif.Props.Stuck
import Verif.Props.Modes
import Verif.Props.Tolerance
import Verif.Props.Blame
import Verif.Props.Context
import Verif.Spec.Flags
import Verif.Spec.Grammar
import Verif.Proof.Run
import Verif.Proof.RunTac
import Verif.Proof.RunF
import Verif.Proof.Sound
import Verif.Proof.SoundExpr
import Verif.Proof.SoundStmt
import Verif.Proof.SoundTop
import Verif.Spec.Tree
import Verif.Spec.Spell
import Verif.Proof.Trees
import Verif.Proof.Leaves
import Verif.Proof.TreeLemmas
import Verif.Proof.Shapes
import Verif.Proof.Yields
import Verif.Spec.Occurs
import Verif.Proof.Drained
import Verif.Proof.Occurs
import Verif.Spec.Brackets
import Verif.Proof.Brackets
import Verif.Props.Trees
import Verif.Spec.Operators
import Verif.Proof.Exec
import Verif.Proof.ExecTac
import Verif.Spec.Core
import Verif.Proof.ExecRules
import Verif.Proof.CoreFacts
import Verif.Props.Newlines
import Verif.Props.Operators
import Verif.Proof.CoreMeans
import Verif.Proof.CoreNames
import Verif.Proof.CoreClasses
import Verif.Proof.CorePrimary
import Verif.Proof.CoreOperators
import Verif.Proof.CoreStmts
import Verif.Proof.CoreModules
import Verif.Proof.CoreRun
import Verif.Props.Accept
import Verif.Spec.Print
import Verif.Proof.Print
import Verif.Proof.PrintExpr
import Verif.Proof.PrintOps
import Verif.Proof.PrintFn
import Verif.Proof.PrintArrow
import Verif.Proof.PrintStmt
import Verif.Proof.PrintProg
import Verif.Proof.PrintAll
import Verif.Proof.PrintLayout
import Verif.Props.RoundTrip
import Verif.Props.Dots
import Verif.Props.Targets
import Verif.Spec.Session
import Verif.Proof.Sim
import Verif.Props.Locality
import Verif.Props.Layout
import Verif.Proof.Twin
import Verif.Proof.TwinTraverse
import Verif.Proof.TwinSim
import Verif.Props.Spacing
import Verif.Props.Shapes
import Verif.Props.Yield
import Verif.Props.AfterErrors
import Verif.Props.Brackets
import Verif.Model.Display
import Verif.Props.Messages
import Verif.Proof.Pure
import Verif.Props.Placeholders
import Verif.Spec.Small
import Verif.Proof.Small
import Verif.Proof.SmallBack
import Verif.Props.Small
import Verif.Spec.Wrap
import Verif.Proof.SmallLines
import Verif.Props.Wrap
import Verif.Props.Pieces
import Verif.Spec.Count
import Verif.Proof.Count
import Verif.Props.Size
import Verif.Spec.Rename
import Verif.Proof.RenAttr
import Verif.Proof.RenLemmas
import Verif.Proof.Ren
import Verif.Proof.RenTraverse
import Verif.Proof.RenSim
import Verif.Props.Rename
