import Verif.Model.Api
import Verif.Model.Visitor
import Verif.Model.Unordered
import Verif.Props.Scanner
import Verif.Props.Lexer
import Verif.Props.Visitor
import Verif.Props.WellFormed
import Verif.Props.Log
import Verif.Props.Unordered
import Verif.Props.Api
import Verif.Props.Bound
import Verif.Props.Parse
import Verif.Props.Statements
import Verif.Props.Comments
import Verif.Props.Utf8
import Verif.Props.Buffer
import Verif.Props.Relational
import Verif.Props.Complete
import Verif.Props.Diverge
import Verif.Props.Terminate
import Verif.Props.Returns
import Verif.Props.Strict
import Verif.Props.Shape
import Verif.Props.Format
import Verif.Props.Errors
import Verif.Props.Blame
import Verif.Props.Begun
import Verif.Props.Size
import Verif.Props.Reader
import Verif.Props.Nesting
import Verif.Spec.Print
import Verif.Proofs.Print
import Verif.Proofs.PrintNodes
import Verif.Props.Print
import Verif.Props.Dump
import Verif.Props.Undump
import Verif.Props.Slices
import Verif.Model.Machine
import Verif.Proofs.Machine
import Verif.Proofs.CommentPos
import Verif.Proofs.MachineParse
import Verif.Proofs.MachineBlock
import Verif.Proofs.MachineFile
import Verif.Proofs.MachinePlain
import Verif.Proofs.MachineEnd
import Verif.Proofs.MachineAlike
import Verif.Proofs.MachineAlikeParse
import Verif.Proofs.MachineAlikeBlock
import Verif.Props.Machine
import Verif.Props.Readers
import Verif.Props.Taken
import Verif.Props.CallsRead
import Verif.Props.TakenAll
import Verif.Props.Calls
import Verif.Props.Raw
import Verif.Props.Join
import Verif.Conformance.Basic
import Verif.Conformance.Lexer
import Verif.Conformance.Statements
import Verif.Conformance.Bodies
import Verif.Conformance.Files
