import Verif.Model.Registry
/-!
# Model of the macros that declare tests, of fixtures, and of a build with the framework disabled

Source: include/snitch/snitch_macros_test_case.hpp 8-122, include/snitch/snitch_registry.hpp 226-280,
src/snitch_registry.cpp 351-388, include/snitch/snitch_test_data.hpp 25-42, 301-306, src/snitch_main.cpp 7-20,
include/snitch/snitch_macros_check.hpp 87-104, snitch_macros_exceptions.hpp 132-143, snitch_macros_misc.hpp 22-28,
snitch_macros_utility.hpp 14-23.

Simplifications: the declarations of a program are a list, in the order in which the variables they define are
initialised (within one translation unit this is the order in the file). A location is an opaque number. The names
that macros make up for functions and classes play no role and are left out.
-/
namespace Verif.Macros
open Verif.Run (Prog Body)

variable [Verif.Run.MessageLimit]

/-- include/snitch/snitch_test_data.hpp 25-34, 301-306 `test_case`: as in `Reg.Case`, and with the field `fixture` of the
id. -/
structure Entry where
  test : Run.TestCase
  fixture : Text
  state : Run.CaseState

/-- An entry without its fixture. -/
def Entry.toCase (e : Entry) : Reg.Case := { test := e.test, state := e.state }

/-- src/snitch_registry.cpp 351-377 `registry::add_impl`; the two `assertion_failed` calls are `abort`. What is printed
before is left out. -/
def addImpl (lim : Reg.Limits) (t : Run.TestCase) (fixture : Text) (list : List Entry) : Outcome (List Entry) :=
  if list.length = lim.maxTests then .abort
  else
    let list := list ++ [⟨t, fixture, .notRun⟩]
    if (Filter.makeFullName lim.maxName t.id).isEmpty then .abort else .ok list

/-- src/snitch_registry.cpp 379-382 `registry::add`. -/
def add (lim : Reg.Limits) (name tags : Text) (loc : Nat) (func : Body) (list : List Entry) : Outcome (List Entry) :=
  addImpl lim ⟨⟨name, tags, []⟩, loc, func⟩ [] list

/-- src/snitch_registry.cpp 384-388 `registry::add_fixture`. -/
def addFixture (lim : Reg.Limits) (fixture name tags : Text) (loc : Nat) (func : Body) (list : List Entry) :
    Outcome (List Entry) :=
  addImpl lim ⟨⟨name, tags, []⟩, loc, func⟩ fixture list

/-- include/snitch/snitch_registry.hpp 232-241 `registry::add_with_types`: a fold over the types. For a type there is its
name and the function that is instantiated for it. (There is at least one type, or else the code does not compile.) -/
def addWithTypes (lim : Reg.Limits) (name tags : Text) (loc : Nat) : List (Text × Body) → List Entry →
    Outcome (List Entry)
  | [], list => .ok list
  | (type, func) :: types, list => do
    let list ← addImpl lim ⟨⟨name, tags, type⟩, loc, func⟩ [] list
    addWithTypes lim name tags loc types list

/-- include/snitch/snitch_registry.hpp 243-252 `registry::add_with_type_list`: the types are the arguments of a template
(`holder` is its name). -/
def addWithTypeList (lim : Reg.Limits) (name tags : Text) (loc : Nat) (types : Text × List (Text × Body))
    (list : List Entry) : Outcome (List Entry) :=
  addWithTypes lim name tags loc types.2 list

/-- include/snitch/snitch_registry.hpp 261-270 `registry::add_fixture_with_types`. -/
def addFixtureWithTypes (lim : Reg.Limits) (fixture name tags : Text) (loc : Nat) : List (Text × Body) → List Entry →
    Outcome (List Entry)
  | [], list => .ok list
  | (type, func) :: types, list => do
    let list ← addImpl lim ⟨⟨name, tags, type⟩, loc, func⟩ fixture list
    addFixtureWithTypes lim fixture name tags loc types list

/-- include/snitch/snitch_registry.hpp 272-280 `registry::add_fixture_with_type_list`. -/
def addFixtureWithTypeList (lim : Reg.Limits) (fixture name tags : Text) (loc : Nat)
    (types : Text × List (Text × Body)) (list : List Entry) : Outcome (List Entry) :=
  addFixtureWithTypes lim fixture name tags loc types.2 list

/-- A class used as fixture: its name as written, and what its constructor and its destructor do. -/
structure Fixture where
  name : Text
  ctor : Prog
  dtor : Prog

/-- include/snitch/snitch_macros_test_case.hpp 54-55, 71, 89 `ID{}.test_fun()`: a temporary object is made, the body runs
as a member function, and at the end of the full-expression the object is destroyed. -/
def Fixture.around (f : Fixture) (body : Prog) : Prog := .block f.ctor (.guard f.dtor body)

/-- include/snitch/snitch_macros_test_case.hpp 54-55, 71, 89: the same for each execution. (Simplified: the constructor and
the destructor do the same in each execution.) -/
def Fixture.call (f : Fixture) (body : Body) : Body := ⟨f.around body.first, body.later.map f.around⟩

/-- A use of a macro that declares tests. `types` tells for each type its name, and the fixture and the body for this
type (the body does not depend on a fixture for the macros without one). -/
inductive Decl
  | testCase (name tags : Text) (loc : Nat) (body : Body)
  | templateTestCase (name tags : Text) (loc : Nat) (types : List (Text × Body))
  | templateListTestCase (name tags : Text) (loc : Nat) (types : Text × List (Text × Body))
  | testCaseMethod (fixture : Fixture) (name tags : Text) (loc : Nat) (body : Body)
  | templateTestCaseMethod (fixture name tags : Text) (loc : Nat) (types : List (Text × Fixture × Body))
  | templateListTestCaseMethod (fixture name tags : Text) (loc : Nat) (types : Text × List (Text × Fixture × Body))

/-- include/snitch/snitch_macros_test_case.hpp 89 (and 71): the function for a type. -/
def instantiate (t : Text × Fixture × Body) : Text × Body := (t.1, t.2.1.call t.2.2)

/-- include/snitch/snitch_macros_test_case.hpp 9-95: what the initialisation of the variable that a macro defines does, in
a build with the framework enabled. The last two macros are not valid C++ as they are (lines 71 and 89 have the
template parameters of a lambda after its function parameters); they are modelled as if these were in the right order. -/
def declare (lim : Reg.Limits) : Decl → List Entry → Outcome (List Entry)
  | .testCase name tags loc body, list => add lim name tags loc body list
  | .templateTestCase name tags loc types, list => addWithTypes lim name tags loc types list
  | .templateListTestCase name tags loc types, list => addWithTypeList lim name tags loc types list
  | .testCaseMethod fixture name tags loc body, list =>
    addFixture lim fixture.name name tags loc (fixture.call body) list
  | .templateTestCaseMethod fixture name tags loc types, list =>
    addFixtureWithTypes lim fixture name tags loc (types.map instantiate) list
  | .templateListTestCaseMethod fixture name tags loc types, list =>
    addFixtureWithTypeList lim fixture name tags loc (types.1, types.2.map instantiate) list

/-- Static initialisation: one declaration after the other, starting with an empty registry (src/snitch_registry.cpp
1135-1137). With the framework disabled (include/snitch/snitch_macros_test_case.hpp 97-122) the macros define unused
functions only. -/
def declareAll (enabled : Bool) (lim : Reg.Limits) : List Decl → List Entry → Outcome (List Entry)
  | [], list => .ok list
  | d :: ds, list => do
    let list ← if enabled then declare lim d list else .ok list
    declareAll enabled lim ds list

/-- A whole program: static initialisation, then src/snitch_main.cpp 7-20. -/
def program (enabled : Bool) (lim : Reg.Limits) (fuel maxArgs : Nat) (reporters : List Text) (init : Nat → Nat → Nat)
    (config : Cli.Config) (argv0 : Text) (argv : List Text) (decls : List Decl) :
    Option (Outcome (Nat × List Reg.Out)) :=
  match declareAll enabled lim decls [] with
  | .abort => some .abort
  | .ub => some .ub
  | .ok list =>
    if enabled then Reg.main lim fuel maxArgs reporters init config argv0 argv (list.map Entry.toCase)
    else some (.ok (0, []))

omit [Verif.Run.MessageLimit] in
/-- include/snitch/snitch_macros_check.hpp 87-104, snitch_macros_exceptions.hpp 132-143, snitch_macros_misc.hpp 22-28,
snitch_macros_utility.hpp 14-23: the code that is left of a function that uses test macros, in a build with the framework disabled.
Checks and captures become statements which evaluate nothing (their operands are operands of `sizeof`), and a section
becomes `if constexpr (false)`. -/
def disabled : Prog → Prog
  | .done => .done
  | .stmt (.act a) k => .stmt (.act a) (disabled k)
  | .stmt (.throw e) k => .stmt (.throw e) (disabled k)
  | .stmt .notify k => .stmt .notify (disabled k)
  | .stmt (.check ..) k => disabled k
  | .stmt (.skip ..) k => disabled k
  | .stmt (.throwsAs ..) k => disabled k
  | .stmt (.throwsMatches ..) k => disabled k
  | .stmt (.nothrow ..) k => disabled k
  | .sec _ _ _ k => disabled k
  | .capture _ k => disabled k
  | .block b k => .block (disabled b) (disabled k)
  | .tryCatch type b h k => .tryCatch type (disabled b) (disabled h) (disabled k)
  | .nested _ _ _ k => disabled k
  | .guard c k => .guard (disabled c) (disabled k)

end Verif.Macros
