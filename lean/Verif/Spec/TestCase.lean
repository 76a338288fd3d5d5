import Verif.Model.TestCase
import Verif.Spec.StringUtil
/-!
# Specification vocabulary for running one test case

The vocabulary of events (what is visible at which verbosity, what counts as an assertion) and, below,
the meaning of one execution of a test body, stated without any of the run-time bookkeeping of the
framework (no levels, no held information, no stacks).
-/
namespace Verif.Run.Spec
open Verif.Run

/-- The least verbosity at which an event is shown: quiet (0) failed assertions and skips, normal (1)
also run start and end, high (2) also test case and section start and end, full (3) also successful
assertions. User statements are not events of the reporter; they are always in the log. -/
def levelOf : Event → Nat
  | .user _ => 0
  | .assertionFailed .. => 0
  | .caseSkipped .. => 0
  | .runStarted => 1
  | .runEnded .. => 1
  | .caseStarted _ => 2
  | .caseEnded .. => 2
  | .sectionStarted _ => 2
  | .sectionEnded .. => 2
  | .assertionSucceeded .. => 3

/-- The events shown at a verbosity. -/
def shown (v : Nat) (log : List Event) : List Event := log.filter fun e => decide (levelOf e ≤ v)

/-- Is the event an evaluated assertion (successful or not)? -/
def isAssertion : Event → Bool
  | .assertionSucceeded .. => true
  | .assertionFailed .. => true
  | _ => false

/-- Is the event a failed assertion? -/
def isFailure : Event → Bool
  | .assertionFailed .. => true
  | _ => false

/-- Is the event a skip? -/
def isSkip : Event → Bool
  | .caseSkipped .. => true
  | _ => false

/-! ## One execution of a test body

`pass K c w` says what one execution of the body `K` does at a place with context `c` (open sections,
active captures, location): the list of what happens, in order, and how it ends. `w = some n` asks for
the `n`-th leaf section of `K` (in order of appearance), `w = none` for no section at all. The context is
passed down by lexical nesting; there is no mutable state. -/

/-- What can be observed of an execution. -/
inductive Item
  | act (a : Nat)
  | enter (id : Nat) (first : Bool)
  | leave (id : Nat) (last : Bool)
  | assertion (ok : Bool) (ctx : Ctx) (data : Text)
  | skip (ctx : Ctx) (msg : Text)
  /-- a check whose operand threw: it reports nothing -/
  | interrupted (loc : Nat)
  deriving DecidableEq, Repr

/-- How an execution ends: normally, or by an exception thrown at a place with the given context. -/
inductive Exit
  | normal
  | raised (e : Exn) (at_ : Ctx)
  deriving DecidableEq, Repr

/-- The place of a check, when it reports. -/
def Ctx.exactly (c : Ctx) (loc : Nat) : Ctx := { c with loc := loc, locType := .exact }

/-- The place of an exception thrown while a check is being evaluated. -/
def Ctx.inside (c : Ctx) (loc : Nat) : Ctx := { c with loc := loc, locType := .inCheck }

/-- The place of an exception thrown directly in the block of a section. -/
def Ctx.inSection (c : Ctx) (id loc : Nat) : Ctx :=
  { c with path := c.path ++ [id], loc := loc, locType := .sectionScope }

/-- One assertion of the check at `loc`, reported with the place `p`; the aborting variants throw when it
fails. -/
def assertedAt (p c : Ctx) (loc : Nat) (ok abort : Bool) (data : Text) : List Item × Exit :=
  ([.assertion ok p data], if !ok && abort then .raised abortExn (Ctx.inside c loc) else .normal)

/-- One reported assertion, with its exact place. -/
def asserted (c : Ctx) (loc : Nat) (ok abort : Bool) (data : Text) : List Item × Exit :=
  assertedAt (Ctx.exactly c loc) c loc ok abort data

/-- Does the expression throw an exception of this type? -/
def throwsType (ev : Option Exn) (type : Nat) : Bool :=
  match ev with
  | none => false
  | some e => e.types.contains type

variable [MessageLimit]

/-- A message made of a description and a text that comes from the code under test, as shown in a string of limited
length. -/
def shortened (a b : Text) : Text := Verif.Spec.cut MessageLimit.max (a ++ b)

/-- The message of `CHECK_THROWS_AS`. -/
def throwsAsMessage (ev : Option Exn) (type : Nat) (name : Text) : Text :=
  match ev with
  | none => name ++ " expected but no exception thrown".toList
  | some e =>
    if e.types.contains type then name ++ " was thrown as expected".toList
    else match e.what with
      | some w => shortened (name ++ " expected but other std::exception thrown; message: ".toList) w
      | none => name ++ " expected but other unknown exception thrown".toList

/-- The message of `CHECK_THROWS_MATCHES`. -/
def throwsMatchesMessage (ev : Option Exn) (type : Nat) (name : Text) (matched : Bool)
    (desc : Text) : Text :=
  match ev with
  | none => name ++ " expected but no exception thrown".toList
  | some e =>
    if e.types.contains type then
      if matched then shortened ("caught ".toList ++ name ++ " matched expected content: ".toList) desc
      else shortened ("could not match caught ".toList ++ name ++ " with expected content: ".toList) desc
    else match e.what with
      | some w => shortened (name ++ " expected but other std::exception thrown; message: ".toList) w
      | none => name ++ " expected but other unknown exception thrown".toList

/-- The message of `CHECK_NOTHROW`. -/
def nothrowMessage (ev : Option Exn) (text : Text) : Text :=
  match ev with
  | none => text ++ " did not throw".toList
  | some e => match e.what with
    | some w => shortened ("expected ".toList ++ text ++
        " not to throw but it threw a std::exception; message: ".toList) w
    | none => "expected ".toList ++ text ++ " not to throw but it threw an unknown exception".toList

/-- What one statement does. -/
def passStmt (c : Ctx) : Stmt → List Item × Exit
  | .act a => ([.act a], .normal)
  | .throw e => ([], .raised e c)
  | .notify => ([], .normal)
  | .check loc (.exc e) _ _ => ([.interrupted loc], .raised e (Ctx.inside c loc))
  | .check loc (.val ok) abort data => asserted c loc ok abort data
  | .skip loc abort msg =>
    ([.skip (Ctx.exactly c loc) msg],
      if abort then .raised abortExn (Ctx.inside c loc) else .normal)
  | .throwsAs loc ev type name abort =>
    asserted c loc (throwsType ev type) abort (throwsAsMessage ev type name)
  | .throwsMatches loc ev type name matched desc abort =>
    asserted c loc (throwsType ev type && matched) abort
      (throwsMatchesMessage ev type name matched desc)
  | .nothrow loc ev text abort =>
    asserted c loc ev.isNone abort (nothrowMessage ev text)

/-- Is it something done by a test macro other than SECTION and CAPTURE? -/
def Item.isMacro : Item → Bool
  | .assertion .. => true
  | .skip .. => true
  | .interrupted _ => true
  | _ => false

/-- The place reported by a check, given what happened in its operand: the exact one, but only "somewhere in
this check" if the operand used test macros. -/
def placeAfter (c : Ctx) (loc : Nat) (inner : List Item) : Ctx :=
  if inner.any Item.isMacro then Ctx.inside c loc else Ctx.exactly c loc

/-- The exception thrown, if any. -/
def Exit.thrown : Exit → Option Exn
  | .normal => none
  | .raised e _ => some e

/-- What a check does after its operand has ended: `p` is the place it reports. -/
def answered (p c : Ctx) (loc : Nat) (ask : Ask) (x : Exit) : List Item × Exit :=
  match ask with
  | .check ok abort data =>
    match x with
    | .normal => assertedAt p c loc ok abort data
    | .raised e a => ([.interrupted loc], .raised e a)
  | .throwsAs type name abort =>
    assertedAt p c loc (throwsType x.thrown type) abort (throwsAsMessage x.thrown type name)
  | .throwsMatches type name matched desc abort =>
    assertedAt p c loc (throwsType x.thrown type && matched) abort
      (throwsMatchesMessage x.thrown type name matched desc)
  | .nothrow text abort => assertedAt p c loc x.thrown.isNone abort (nothrowMessage x.thrown text)

/-- A check with a given operand: what happens in the operand, then what the check does. Exceptions thrown by
the operand do not pass the check unless `answered` says so. -/
def check (c : Ctx) (loc : Nat) (ask : Ask) (operand : List Item × Exit) : List Item × Exit :=
  let y := answered (placeAfter c loc operand.1) c loc ask operand.2
  (operand.1 ++ y.1, y.2)

/-- One thing after the other, unless the first throws. -/
def andThen (x y : List Item × Exit) : List Item × Exit :=
  match x.2 with
  | .normal => (x.1 ++ y.1, y.2)
  | .raised _ _ => x

/-- One thing, then another one whether or not the first throws (what the other one throws would end the
program). -/
def anyway (x y : List Item × Exit) : List Item × Exit := (x.1 ++ y.1, x.2)

/-- The number of leaf sections of a body (sections inside try blocks, operands and destructors are not considered). -/
def leaves : Prog → Nat
  | .done => 0
  | .stmt _ k => leaves k
  | .sec _ _ b k => max 1 (leaves b) + leaves k
  | .capture _ k => leaves k
  | .block b k => leaves b + leaves k
  | .tryCatch _ _ _ k => leaves k
  | .nested _ _ _ k => leaves k
  | .guard _ k => leaves k

/-- The meaning of one execution of a body. -/
def pass : Prog → Ctx → Option Nat → List Item × Exit
  | .done, _, _ => ([], .normal)
  | .stmt m k, c, w => andThen (passStmt c m) (pass k c w)
  | .sec _ _ _ k, c, none => pass k c none
  | .sec id loc b k, c, some n =>
    if n < max 1 (leaves b) then
      andThen ([.enter id (n == 0)], .normal)
        (andThen (pass b (Ctx.inSection c id loc) (if leaves b = 0 then none else some n))
          (andThen ([.leave id (n + 1 == max 1 (leaves b))], .normal) (pass k c none)))
    else pass k c (some (n - max 1 (leaves b)))
  | .capture caps k, c, w => pass k { c with caps := c.caps ++ caps } w
  | .block b k, c, none => andThen (pass b c none) (pass k c none)
  | .block b k, c, some n =>
    if n < leaves b then andThen (pass b c (some n)) (pass k c none)
    else andThen (pass b c none) (pass k c (some (n - leaves b)))
  | .tryCatch type b h k, c, w =>
    match pass b c none with
    | (l, .normal) => andThen (l, .normal) (pass k c w)
    | (l, .raised e a) =>
      if catches type e then andThen (l, .normal) (andThen (pass h c none) (pass k c w))
      else (l, .raised e a)
  | .nested loc operand ask k, c, w =>
    andThen (check c loc ask (pass operand (Ctx.inside c loc) none)) (pass k c w)
  | .guard cleanup k, c, w => anyway (pass k c w) (pass cleanup c none)

/-- The deepest nesting of sections and of operands that use the framework. -/
def secDepth : Prog → Nat
  | .done => 0
  | .stmt _ k => secDepth k
  | .sec _ _ b k => max (1 + secDepth b) (secDepth k)
  | .capture _ k => secDepth k
  | .block b k => max (secDepth b) (secDepth k)
  | .tryCatch _ b h k => max (max (secDepth b) (secDepth h)) (secDepth k)
  | .nested _ o _ k => max (1 + secDepth o) (secDepth k)
  | .guard c k => max (secDepth c) (secDepth k)

/-- The largest number of captures active at the same time. -/
def capDepth : Prog → Nat
  | .done => 0
  | .stmt _ k => capDepth k
  | .sec _ _ b k => max (capDepth b) (capDepth k)
  | .capture l k => l.length + capDepth k
  | .block b k => max (capDepth b) (capDepth k)
  | .tryCatch _ b h k => max (max (capDepth b) (capDepth h)) (capDepth k)
  | .nested _ o _ k => max (capDepth o) (capDepth k)
  | .guard c k => max (capDepth c) (capDepth k)

/-- Code that uses the framework in no way (user statements, exceptions, blocks, try/catch). -/
def Bare : Prog → Prop
  | .done => True
  | .stmt (.act _) k => Bare k
  | .stmt (.throw _) _ => True
  | .stmt _ _ => False
  | .sec .. => False
  | .capture .. => False
  | .block b k => Bare b ∧ Bare k
  | .tryCatch _ b h k => Bare b ∧ Bare h ∧ Bare k
  | .nested .. => False
  | .guard c k => Bare c ∧ Bare k

/-- An exception handler which, after any number of user statements, calls
`notify_exception_handled` or uses a test macro. -/
def Notifies : Prog → Prop
  | .stmt (.act _) k => Notifies k
  | .stmt (.throw _) _ => False
  | .stmt _ _ => True
  | .capture (_ :: _) _ => True
  | .block b _ => Notifies b
  | .nested .. => True
  | .guard _ k => Notifies k
  | _ => False

/-- Statements that neither throw nor skip nor abort. -/
def calmStmt : Stmt → Bool
  | .act _ => true
  | .notify => true
  | .throw _ => false
  | .skip .. => false
  | .check _ (.exc _) _ _ => false
  | .check _ (.val ok) abort _ => ok || !abort
  | .throwsAs _ ev type _ abort => throwsType ev type || !abort
  | .throwsMatches _ ev type _ matched _ abort => (throwsType ev type && matched) || !abort
  | .nothrow _ ev _ abort => ev.isNone || !abort

/-- Checks that do not abort when their operand does not throw. -/
def calmAsk : Ask → Bool
  | .check ok abort _ => ok || !abort
  | .throwsAs _ _ abort => !abort
  | .throwsMatches _ _ _ _ abort => !abort
  | .nothrow .. => true

/-- Bodies whose execution nothing interrupts: any nesting of sections, blocks, captures, operands and
destructors (without sections) around statements that neither throw nor skip nor abort (checks may fail). -/
def Calm : Prog → Prop
  | .done => True
  | .stmt m k => calmStmt m = true ∧ Calm k
  | .sec _ _ b k => Calm b ∧ Calm k
  | .capture _ k => Calm k
  | .block b k => Calm b ∧ Calm k
  | .tryCatch .. => False
  | .nested _ o ask k => calmAsk ask = true ∧ (Calm o ∧ leaves o = 0) ∧ Calm k
  | .guard c k => (Calm c ∧ leaves c = 0) ∧ Calm k

/-- The test bodies for which the documentation promises correct reports: no section inside a try
block, a handler, an operand or a destructor; each handler of a try block that uses the framework notifies it;
destructors do not throw, and those which use the framework are not run by exceptions. -/
def Tidy : Prog → Prop
  | .done => True
  | .stmt _ k => Tidy k
  | .sec _ _ b k => Tidy b ∧ Tidy k
  | .capture _ k => Tidy k
  | .block b k => Tidy b ∧ Tidy k
  | .tryCatch _ b h k =>
    (Tidy b ∧ leaves b = 0) ∧ (Tidy h ∧ leaves h = 0) ∧ (Bare b ∨ Notifies h) ∧ Tidy k
  | .nested _ o _ k => (Tidy o ∧ leaves o = 0) ∧ Tidy k
  | .guard c k => (Calm c ∧ leaves c = 0) ∧ (Bare c ∨ Calm k) ∧ Tidy k

/-! ## The whole run of a test case

The body is executed once per leaf section (once if there are none), unless an exception escapes or
the test is skipped. -/

/-- Is it a failed assertion? -/
def Item.isFailure : Item → Bool
  | .assertion ok _ _ => !ok
  | _ => false

/-- Is it an assertion? -/
def Item.isAssertion : Item → Bool
  | .assertion .. => true
  | _ => false

/-- Is it a skip? -/
def Item.isSkip : Item → Bool
  | .skip .. => true
  | _ => false

/-- A test is skipped if a skip happens before any assertion has failed. -/
def skipsTest : List Item → Bool
  | [] => false
  | x :: l => if x.isSkip then true else if x.isFailure then false else skipsTest l

/-- Once the test is skipped, assertions are neither counted nor reported. -/
def effective : List Item → List Item
  | [] => []
  | x :: l =>
    if x.isSkip then x :: l.filter (fun y => !y.isAssertion)
    else if x.isFailure then x :: l
    else x :: effective l

/-- The place of code directly in the test case. -/
def topCtx (loc : Nat) : Ctx := { path := [], caps := [], loc := loc, locType := .testCaseScope }

/-- Execution number `n` of a body, which goes to leaf number `n`. -/
def passNo (body : Prog) (c : Ctx) (n : Nat) : List Item × Exit :=
  pass body c (if leaves body = 0 then none else some n)

/-- How many times a body is executed if nothing stops it. -/
def passCount (body : Prog) : Nat := max 1 (leaves body)

/-- The sections of a piece of code, in the order in which they are reached: for each its name and the sections in it
(those inside try blocks, operands and destructors are not considered). -/
inductive Sections
  | none
  | one (id : Nat) (inner rest : Sections)
  deriving DecidableEq, Repr

/-- First the sections `a`, then the sections `b`. -/
def Sections.append : Sections → Sections → Sections
  | .none, b => b
  | .one id inner rest, b => .one id inner (rest.append b)

/-- The sections of a body. -/
def sections : Prog → Sections
  | .done => .none
  | .stmt _ k => sections k
  | .sec id _ b k => .one id (sections b) (sections k)
  | .capture _ k => sections k
  | .block b k => (sections b).append (sections k)
  | .tryCatch _ _ _ k => sections k
  | .nested _ _ _ k => sections k
  | .guard _ k => sections k

/-- Every execution of a test has this property. -/
def Always (P : Prog → Prop) (b : Body) : Prop := ∀ n, P (b.no n)

/-- Every execution of a test reaches the same sections, whatever else it does. -/
def Alike (b : Body) : Prop := Always (fun p => sections p = sections b.first) b

/-- What happens in `k` more executions, starting with number `n`, when `seen` is what happened so
far; also the number of executions. Execution number `n` does what `bodies n` says. -/
def story (bodies : Nat → Prog) (c : Ctx) : Nat → Nat → List Item → (List Item × Exit) × Nat
  | 0, _, seen => ((seen, .normal), 0)
  | k + 1, n, seen =>
    match passNo (bodies n) c n with
    | (l, .raised e a) => ((seen ++ l, .raised e a), 1)
    | (l, .normal) =>
      if skipsTest (seen ++ l) then ((seen ++ l, .normal), 1)
      else
        let r := story bodies c k (n + 1) (seen ++ l)
        (r.1, r.2 + 1)

/-- The message for an unexpected exception. -/
def unexpectedMessage (e : Exn) : Text :=
  match e.what with
  | some w => shortened "unexpected std::exception caught; message: ".toList w
  | none => "unexpected unknown exception caught".toList

/-- What is reported at the end: an assertion that no exception escaped, which fails with the context
of the place where the exception was thrown (the exception of an aborting check is not reported
again); and the ends of the sections left by the exception, innermost first. -/
def ending (loc : Nat) : Exit → List Item
  | .normal => [.assertion true (Ctx.exactly (topCtx loc) loc) "no exception caught".toList]
  | .raised e a =>
    (if e.isAbort then [] else [.assertion false a (unexpectedMessage e)]) ++
      a.path.reverse.map fun id => .leave id true

/-- Everything that happens in a test case: the executions of the body, the end, and for tests that
should fail the check that something failed. -/
def caseStory (t : TestCase) (shouldFail : Bool) : List Item :=
  let x := (story t.body.no (topCtx t.loc) (passCount t.body.first) 0 []).1
  let all := x.1 ++ ending t.loc x.2
  effective (all ++ if shouldFail then
    [.assertion (all.any Item.isFailure) (Ctx.exactly (topCtx t.loc) t.loc)
      "expected test to fail".toList] else [])

/-- What a log entry tells. -/
def observed : Event → Option Item
  | .user a => some (.act a)
  | .sectionStarted id => some (.enter id true)
  | .sectionEnded id .. => some (.leave id true)
  | .assertionSucceeded ctx d => some (.assertion true ctx d)
  | .assertionFailed ctx d _ _ => some (.assertion false ctx d)
  | .caseSkipped ctx msg => some (.skip ctx msg)
  | _ => none

/-- Sections are reported when first entered and when left for the last time. Checks whose operand threw report
nothing themselves. -/
def Item.reported : Item → Bool
  | .enter _ first => first
  | .leave _ last => last
  | .interrupted _ => false
  | _ => true

end Verif.Run.Spec
