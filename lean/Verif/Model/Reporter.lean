import Verif.Model.Print
import Verif.Model.StringUtil
/-!
# Model of what all reporters have in common

Source: include/snitch/snitch_test_data.hpp 16-290 (what reporters are told), src/snitch_registry.cpp
143-157 (`make_full_name`). The model of running tests (Verif/Model/TestCase.lean) has events with fewer
details; Verif/Spec/Told.lean says how they correspond.
-/
namespace Verif.Report

/-- include/snitch/snitch_test_data.hpp 16-21, 82-90 `source_location`, `assertion_location` (without the
type of location, which only the console reporter uses). -/
structure Location where
  file : Text
  line : Nat
deriving DecidableEq, Repr

/-- include/snitch/snitch_test_data.hpp 24-33 `test_id`. -/
structure Id where
  name : Text
  tags : Text
  type : Text := []
  fixture : Text := []
deriving DecidableEq, Repr

/-- include/snitch/snitch_test_data.hpp 36-41 `section_id`. -/
structure SectionId where
  name : Text
  description : Text := []
deriving DecidableEq, Repr

/-- include/snitch/snitch_test_data.hpp 92-102 `test_case_state`. -/
inductive State where
  | success | failed | allowedFail | skipped
deriving DecidableEq, Repr

/-- include/snitch/snitch_test_data.hpp 104-115 `expression_info`, `assertion_data`. -/
inductive Data where
  | message (m : Text)
  | expression (type expected actual : Text)
deriving DecidableEq, Repr

/-- The numbers of assertions in `section_ended` and `test_run_ended`: all, failed, allowed to fail. -/
structure Counts where
  all : Nat
  failed : Nat
  allowed : Nat
deriving DecidableEq, Repr

/-- include/snitch/snitch_test_data.hpp 118-290 `event::data`. Of `duration` (a float), the text it is
printed as in the XML report and the number of microseconds in the TeamCity report are given. The
sections of an assertion are left out here (only the console reporter uses them), as are the counts of
`test_case_ended`. -/
inductive Event where
  | runStarted (name : Text) (filters : List Text)
  | runEnded (name : Text) (filters : List Text) (run fail allowedFail skip : Nat) (counts : Counts)
  | caseStarted (id : Id) (loc : Location)
  | caseEnded (id : Id) (loc : Location) (state : State) (duration : Text) (micros : Nat)
  | sectionStarted (id : SectionId) (loc : Location)
  | sectionEnded (id : SectionId) (loc : Location) (skipped : Bool) (counts : Counts) (duration : Text)
  | assertionFailed (id : Id) (captures : List Text) (loc : Location) (data : Data)
      (expected allowed : Bool)
  | assertionSucceeded (id : Id) (captures : List Text) (loc : Location) (data : Data)
  | caseSkipped (id : Id) (captures : List Text) (loc : Location) (message : Text)
  | listStarted (name : Text) (filters : List Text)
  | listEnded (name : Text) (filters : List Text)
  | listed (id : Id) (loc : Location)
deriving DecidableEq, Repr

/-- The compile-time constants: `max_message_length`, `max_test_name_length`, the text of the version,
and whether timings are compiled in. -/
structure Limits where
  message : Nat
  name : Nat
  version : Text
  timings : Bool

/-- The state of a reporter: `indent_level` (used by the XML reporter only), and everything printed so
far. -/
structure Rep where
  level : Nat := 0
  out : Text := []
deriving DecidableEq, Repr

/-- `r.print(args...)`, string arguments (Verif/Model/Print.lean). -/
def say (lim : Limits) (args : List Text) (rep : Rep) : Outcome Rep := do
  let chunks ← Print.print lim.message (args.map .str)
  return { rep with out := rep.out ++ chunks.flatten }

/-- `r.print(str)`, a single string argument. -/
def say1 (s : Text) (rep : Rep) : Rep := { rep with out := rep.out ++ (Print.printStr s).flatten }

/-- `append_or_truncate(string, number)` for an unsigned number in a fresh string of capacity `cap`
(include/snitch/snitch_string_utility.hpp 29-37). The number is written as at compile time; C04 shows that
the run-time path gives the same. -/
def makeNumber (cap n : Nat) : Outcome Text := do
  let (ss, ok) ← Append.unsigned 8 (SV.empty cap ' ') n
  if ok then return ss.contents
  else
    let ss ← Util.truncateEnd ss
    return ss.contents

/-- `a - b` on `std::size_t`. -/
def subSize (a b : Nat) : Nat := (a + (sizeT - b % sizeT)) % sizeT

/-- src/snitch_registry.cpp 143-157 `make_full_name`, as reporters use it: they ignore the returned view
and use the buffer. -/
def fullName (lim : Limits) (id : Id) : Outcome Str := do
  let (ss, _) ← Append.variadic false (SV.empty lim.name ' ')
    (if id.type.length ≠ 0 then [id.name, " <".toList, id.type, ">".toList] else [id.name])
  return ss

/-- One call of `escape_all_or_truncate`. The bound on the number of steps is never reached
(`Util.escapeAllOrTruncate_holds`). -/
def escapeStage (ss : Str) (pattern replacement : Text) : Outcome (Str × Bool) :=
  match Util.escapeAllOrTruncate (ss.size + 1) ss pattern replacement with
  | some r => r
  | none => .ub

/-- A conjunction of calls of `escape_all_or_truncate`: evaluation stops at the first that returns
false. -/
def escapeStages : List (Text × Text) → Str → Outcome (Str × Bool)
  | [], ss => .ok (ss, true)
  | p :: ps, ss => do
    let (ss, ok) ← escapeStage ss p.1 p.2
    if ok then escapeStages ps ss else return (ss, false)

end Verif.Report
