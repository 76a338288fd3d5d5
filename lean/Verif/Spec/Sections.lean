import Verif.Spec.TestCase
/-!
# Specification vocabulary for sections

Stated on the shape of the test body alone: which user statements each execution of the body runs,
which section events a test produces, and where in a body a statement is.
-/
namespace Verif.Run.Spec
open Verif.Run

/-- The user statements outside all sections, in program order. -/
def outside : Prog → List Nat
  | .done => []
  | .stmt (.act a) k => a :: outside k
  | .stmt _ k => outside k
  | .sec _ _ _ k => outside k
  | .capture _ k => outside k
  | .block b k => outside b ++ outside k
  | .tryCatch _ b _ k => outside b ++ outside k
  | .nested _ o _ k => outside o ++ outside k
  | .guard c k => outside k ++ outside c

/-- If nothing is left to choose, there is one execution, of what is outside the sections. -/
def orOutside (b : Prog) (l : List (List Nat)) : List (List Nat) := if l.isEmpty then [outside b] else l

/-- For each leaf section, in order of appearance, the user statements run when executing the body for
this leaf: everything outside sections and everything in the chain of sections leading to the leaf,
in program order. -/
def leafRuns : Prog → List (List Nat)
  | .done => []
  | .stmt (.act a) k => (leafRuns k).map (a :: ·)
  | .stmt _ k => leafRuns k
  | .sec _ _ b k => (orOutside b (leafRuns b)).map (· ++ outside k) ++ leafRuns k
  | .capture _ k => leafRuns k
  | .block b k => (leafRuns b).map (· ++ outside k) ++ (leafRuns k).map (outside b ++ ·)
  | .tryCatch _ _ _ k => leafRuns k
  | .nested _ o _ k => (leafRuns k).map (outside o ++ ·)
  | .guard c k => (leafRuns k).map (· ++ outside c)

/-- The executions of a test body: one per leaf section, or a single one if there is no section. -/
def executions (b : Prog) : List (List Nat) := orOutside b (leafRuns b)

/-- Things done in turn: the first one, then each of the others; and the last one from then on. -/
def inTurn (p : Prog) : List Prog → Nat → Prog
  | [], _ => p
  | _ :: _, 0 => p
  | q :: qs, n + 1 => inTurn q qs n

/-- The user statements that the executions of a test run: execution number `n` is the one for leaf section number `n`
(there is a single one if there is no section), and does what the test does in this execution. -/
def runsOf (b : Body) : List (List Nat) :=
  (List.range (passCount b.first)).map fun n => (executions (b.no n)).getD n []

/-- The user statements in a log. -/
def userActs (log : List Event) : List Nat :=
  log.filterMap fun e => match e with | .user a => some a | _ => none

/-- A section is started (`true`) or ended (`false`). -/
def sectionMarks (log : List Event) : List (Nat × Bool) :=
  log.filterMap fun e => match e with
    | .sectionStarted id => some (id, true)
    | .sectionEnded id .. => some (id, false)
    | _ => none

/-- One start and one end for each section of a body, nested like the sections. -/
def brackets : Prog → List (Nat × Bool)
  | .done => []
  | .stmt _ k => brackets k
  | .sec id _ b k => (id, true) :: brackets b ++ (id, false) :: brackets k
  | .capture _ k => brackets k
  | .block b k => brackets b ++ brackets k
  | .tryCatch _ _ _ k => brackets k
  | .nested _ _ _ k => brackets k
  | .guard _ k => brackets k

/-- What can surround a place in a test body, from the outside in: statements before it, the captures
of its block, sections or blocks it is in (followed by anything), and checks in whose operand it is (which could
have any result if the operand could be evaluated, and are followed by anything). -/
inductive Frame
  | after (a : Nat)
  | capture (caps : List Text)
  | inSection (id loc : Nat) (rest : Prog)
  | inBlock (rest : Prog)
  | inOperand (loc : Nat) (ok abort : Bool) (data : Text) (rest : Prog)

/-- A body with something at a place. -/
def plug : List Frame → Prog → Prog
  | [], p => p
  | .after a :: fs, p => .stmt (.act a) (plug fs p)
  | .capture caps :: fs, p => .capture caps (plug fs p)
  | .inSection id loc rest :: fs, p => .sec id loc (plug fs p) rest
  | .inBlock rest :: fs, p => .block (plug fs p) rest
  | .inOperand loc ok abort data rest :: fs, p => .nested loc (plug fs p) (.check ok abort data) rest

/-- The sections around a place, outermost first. -/
def sectionsOf : List Frame → List Nat
  | [] => []
  | .inSection id _ _ :: fs => id :: sectionsOf fs
  | _ :: fs => sectionsOf fs

/-- The captures whose scope contains a place, in order of declaration. -/
def capturesOf : List Frame → List Text
  | [] => []
  | .capture caps :: fs => caps ++ capturesOf fs
  | _ :: fs => capturesOf fs

/-- The last location known at a place: that of the innermost section or check, or of the test case. -/
def locationOf (loc : Nat × LocType) : List Frame → Nat × LocType
  | [] => loc
  | .inSection _ l _ :: fs => locationOf (l, .sectionScope) fs
  | .inOperand l _ _ _ _ :: fs => locationOf (l, .inCheck) fs
  | _ :: fs => locationOf loc fs

/-- The context of a place in the body of a test at `loc`. -/
def contextOf (loc : Nat) (fs : List Frame) : Ctx :=
  let l := locationOf (loc, .testCaseScope) fs
  { path := sectionsOf fs, caps := capturesOf fs, loc := l.1, locType := l.2 }

/-- The user statements run before reaching a place. -/
def actsBefore : List Frame → List Nat
  | [] => []
  | .after a :: fs => a :: actsBefore fs
  | _ :: fs => actsBefore fs

end Verif.Run.Spec

namespace Verif.Run.Spec
open Verif.Run

/-- What happens on the way to a place. -/
def itemsBefore : List Frame → List Item
  | [] => []
  | .after a :: fs => .act a :: itemsBefore fs
  | .inSection id _ _ :: fs => .enter id true :: itemsBefore fs
  | _ :: fs => itemsBefore fs

/-- The verbosity from which on something is in the log. -/
def Item.level : Item → Nat
  | .act _ => 0
  | .enter .. => 2
  | .leave .. => 2
  | .assertion ok .. => if ok then 3 else 0
  | .skip .. => 0
  | .interrupted _ => 0

/-- What is in the log at a verbosity. -/
def Item.visible (v : Nat) (x : Item) : Bool := x.reported && decide (x.level ≤ v)

/-- Statements which always end the test: aborting checks that fail, aborting skips, exceptions. -/
def endsTest : Stmt → Bool
  | .act _ => false
  | .notify => false
  | .throw _ => true
  | .skip _ abort _ => abort
  | .check _ (.exc _) _ _ => true
  | .check _ (.val ok) abort _ => !ok && abort
  | .throwsAs _ ev type _ abort => !throwsType ev type && abort
  | .throwsMatches _ ev type _ matched _ abort => !(throwsType ev type && matched) && abort
  | .nothrow _ ev _ abort => ev.isSome && abort

/-- Two bodies that are the same up to and including a statement `m`, and can differ in what comes
after `m` in the same block, in enclosing blocks, and in the rest of enclosing scopes of captures. -/
inductive SameUntil (m : Stmt) : Prog → Prog → Prop
  | here (k k' : Prog) : SameUntil m (.stmt m k) (.stmt m k')
  | stmt (x : Stmt) {k k' : Prog} : SameUntil m k k' → SameUntil m (.stmt x k) (.stmt x k')
  | inSection (id loc : Nat) {b b' : Prog} (k : Prog) : SameUntil m b b' →
      SameUntil m (.sec id loc b k) (.sec id loc b' k)
  | afterSection (id loc : Nat) (b : Prog) {k k' : Prog} : SameUntil m k k' →
      SameUntil m (.sec id loc b k) (.sec id loc b k')
  | capture (caps : List Text) {k k' : Prog} : SameUntil m k k' →
      SameUntil m (.capture caps k) (.capture caps k')
  | afterBlock (b : Prog) {k k' : Prog} : SameUntil m k k' → SameUntil m (.block b k) (.block b k')
  | inBlock {b b' : Prog} (k : Prog) : SameUntil m b b' → SameUntil m (.block b k) (.block b' k)
  | afterTry (type : Option Nat) (b h : Prog) {k k' : Prog} : SameUntil m k k' →
      SameUntil m (.tryCatch type b h k) (.tryCatch type b h k')
  | inTry (type : Option Nat) {b b' : Prog} (h k : Prog) : SameUntil m b b' →
      SameUntil m (.tryCatch type b h k) (.tryCatch type b' h k)
  | inHandler (type : Option Nat) (b : Prog) {h h' : Prog} (k : Prog) : SameUntil m h h' →
      SameUntil m (.tryCatch type b h k) (.tryCatch type b h' k)
  | afterNested (loc : Nat) (o : Prog) (ask : Ask) {k k' : Prog} : SameUntil m k k' →
      SameUntil m (.nested loc o ask k) (.nested loc o ask k')
  | inOperand (loc : Nat) {o o' : Prog} (ask : Ask) (k : Prog) : SameUntil m o o' →
      SameUntil m (.nested loc o ask k) (.nested loc o' ask k)
  | guard (c : Prog) {k k' : Prog} : SameUntil m k k' → SameUntil m (.guard c k) (.guard c k')

end Verif.Run.Spec
