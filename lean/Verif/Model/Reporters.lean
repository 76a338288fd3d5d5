import Verif.Model.Any
import Verif.Model.Cli
/-!
# Model of the reporters of a registry

Source: src/snitch_registry.cpp 302-349, 899-912, 915-990, include/snitch/snitch_registry.hpp 94-148, 158-161,
204-219, include/snitch/snitch_any.hpp 21-105.

Which reporters are registered, which one is in use, and what each of them is told, in order. The events are of any
type. Simplified: the constructors, destructors and functions of reporters are only observed (they do not call the
registry themselves); printing the error message before an assertion failure is left out.
-/
namespace Verif.Reporters

variable {ε : Type}

/-- How a reporter was registered: as a type (include/snitch/snitch_registry.hpp 211-219), or as functions (204-209;
src/snitch_registry.cpp 302-334), of which those for initialising, configuring and finishing are optional. Types
and sets of functions are numbered. -/
inductive Kind where
  | typed (type : Nat)
  | functions (c : Nat) (init config fin : Bool)
deriving DecidableEq, Repr

/-- include/snitch/snitch_registry.hpp 101-108 `registered_reporter`. -/
structure Registered where
  name : Text
  kind : Kind
deriving DecidableEq, Repr

/-- What happens to reporters: objects (numbered in order of construction) are constructed, configured, told events,
destroyed; functions are called. -/
inductive Call (ε : Type) where
  | create (o type : Nat)
  | configured (o : Nat) (key value : Text)
  | told (o : Nat) (e : ε)
  | destroy (o : Nat)
  | initialised (c : Nat)
  | asked (c : Nat) (key value : Text)
  | called (c : Nat) (e : ε)
  | finished (c : Nat)
deriving DecidableEq, Repr

/-- include/snitch/snitch_registry.hpp 160 `report_callback`: `report_default`, `report<T>`, or a registered function. -/
inductive Callback where
  | default
  | typed (type : Nat)
  | function (c : Nat)
deriving DecidableEq, Repr

/-- include/snitch/snitch_registry.hpp 161 `finish_callback`: the function that does nothing, `destroy_reporter`, or a
registered function. -/
inductive Finish where
  | nothing
  | destroyReporter
  | function (c : Nat)
deriving DecidableEq, Repr

/-- include/snitch/snitch_registry.hpp 117-161 `registry`: the members about reporters. `made` and `gone` are as in
`Any.World`; `log` has all calls so far. -/
structure Registry (ε : Type) where
  reporters : List Registered := []
  callback : Callback := .default
  finish : Finish := .nothing
  storage : Any.Container := {}
  made : List Nat := []
  gone : List Nat := []
  log : List (Call ε) := []

/-- The type of the console reporter (src/snitch_registry.cpp 342). -/
def consoleType : Nat := 0

/-- src/snitch_registry.cpp 302-334 `add_reporter`, at most `cap` reporters (`SNITCH_MAX_REGISTERED_REPORTERS`). -/
def addReporter (cap : Nat) (name : Text) (kind : Kind) (r : Registry ε) : Outcome (Registry ε) :=
  if r.reporters.length = cap then .abort
  else if (Util.findFrom name [':', ':'] 0).isSome then .abort
  else .ok { r with reporters := r.reporters ++ [⟨name, kind⟩] }

/-- `reporter_storage.reset()` (include/snitch/snitch_any.hpp 101-104), recording a destruction. -/
def resetStorage (r : Registry ε) : Outcome (Registry ε) := do
  let (c, gone) ← r.storage.reset r.made r.gone
  return { r with storage := c, gone, log := r.log ++ (gone.drop r.gone.length).map .destroy }

/-- `reporter_storage.emplace<T>(*this)` (include/snitch/snitch_any.hpp 70-80), recording the construction. -/
def emplaceStorage (type : Nat) (r : Registry ε) : Outcome (Registry ε) := do
  let r ← resetStorage r
  return { r with
    storage := { storage := some r.made.length, deleter := some type, id := some type }
    made := r.made ++ [type]
    log := r.log ++ [.create r.made.length type] }

/-- `reporter_storage.get<T>()` (include/snitch/snitch_any.hpp 84-93). -/
def getStorage (type : Nat) (r : Registry ε) : Outcome Nat :=
  Any.get { made := r.made, gone := r.gone } r.storage type

/-- Recording a call. -/
def record (c : Call ε) (r : Registry ε) : Registry ε := { r with log := r.log ++ [c] }

/-- src/snitch_registry.cpp 955 `iter->initialize(r)`: include/snitch/snitch_registry.hpp 130-133
`initialize_reporter`, or the registered function (or one that does nothing, src/snitch_registry.cpp 329). -/
def initialise (k : Kind) (r : Registry ε) : Outcome (Registry ε) :=
  match k with
  | .typed t => emplaceStorage t r
  | .functions c init _ _ => .ok (if init then record (.initialised c) r else r)

/-- src/snitch_registry.cpp 979 `iter->configure(r, option_name, option_value)`: include/snitch/snitch_registry.hpp
140-143 `configure_reporter`, or the registered function (or one that refuses, src/snitch_registry.cpp 330-331). -/
def configureOne (k : Kind) (key value : Text) (r : Registry ε) : Outcome (Registry ε) :=
  match k with
  | .typed t => do
    let o ← getStorage t r
    return record (.configured o key value) r
  | .functions c _ config _ => .ok (if config then record (.asked c key value) r else r)

/-- src/snitch_registry.cpp 957-985: the options one after the other (which ones there are: `Cli.reporterOptions`). -/
def configureAll (k : Kind) : List (Text × Text) → Registry ε → Outcome (Registry ε)
  | [], r => .ok r
  | (key, value) :: os, r => do
    let r ← configureOne k key value r
    configureAll k os r

/-- src/snitch_registry.cpp 988 and include/snitch/snitch_registry.hpp 217: the function that gets the events. -/
def callbackOf : Kind → Callback
  | .typed t => .typed t
  | .functions c _ _ _ => .function c

/-- src/snitch_registry.cpp 989, 332 and include/snitch/snitch_registry.hpp 218: the function called at the end. -/
def finishOf : Kind → Finish
  | .typed _ => .destroyReporter
  | .functions c _ _ fin => if fin then .function c else .nothing

/-- src/snitch_registry.cpp 954-989, the part of `parse_reporter` for a reporter that was found: the one at position
`i`, with the given options. -/
def choose (i : Nat) (options : List (Text × Text)) (r : Registry ε) : Outcome (Registry ε) :=
  match r.reporters[i]? with
  | none => .ub
  | some x => do
    let r ← initialise x.kind r
    let r ← configureAll x.kind options r
    return { r with callback := callbackOf x.kind, finish := finishOf x.kind }

/-- src/snitch_registry.cpp 341-349 `report_default`. -/
def reportDefault (e : ε) (r : Registry ε) : Outcome (Registry ε) := do
  let r ← if r.storage.id ≠ some consoleType then emplaceStorage consoleType r else .ok r
  let o ← getStorage consoleType r
  return record (.told o e) r

/-- `report_callback(*this, event)`: include/snitch/snitch_registry.hpp 135-138 `report`, `report_default`, or the
registered function. -/
def report (e : ε) (r : Registry ε) : Outcome (Registry ε) :=
  match r.callback with
  | .default => reportDefault e r
  | .typed t => do
    let o ← getStorage t r
    return record (.told o e) r
  | .function c => .ok (record (.called c e) r)

/-- The events of a run (or of a listing), one after the other. -/
def reportAll : List ε → Registry ε → Outcome (Registry ε)
  | [], r => .ok r
  | e :: es, r => do
    let r ← report e r
    reportAll es r

/-- src/snitch_registry.cpp 906 `finish_callback(*this)`; 337-339 `destroy_reporter`. -/
def finish (r : Registry ε) : Outcome (Registry ε) :=
  match r.finish with
  | .nothing => .ok r
  | .destroyReporter => resetStorage r
  | .function c => .ok (record (.finished c) r)

/-- src/snitch_registry.cpp 901-912 `run_tests`: the events, then the end. -/
def runTests (es : List ε) (r : Registry ε) : Outcome (Registry ε) := do
  let r ← reportAll es r
  finish r

/-- What a program can do with a registry. -/
inductive Op (ε : Type) where
  | add (name : Text) (kind : Kind)
  | choose (i : Nat) (options : List (Text × Text))
  | run (es : List ε)

/-- One operation. Choosing is only ever done for positions that were found in the list; others are ignored. -/
def step (cap : Nat) (r : Registry ε) : Op ε → Outcome (Registry ε)
  | .add name kind => addReporter cap name kind r
  | .choose i options => if i < r.reporters.length then choose i options r else .ok r
  | .run es => runTests es r

/-- A sequence of operations. -/
def history (cap : Nat) : List (Op ε) → Registry ε → Outcome (Registry ε)
  | [], r => .ok r
  | op :: ops, r => do
    let r ← step cap r op
    history cap ops r

end Verif.Reporters
