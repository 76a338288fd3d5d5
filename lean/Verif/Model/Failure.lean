import Verif.Model.Registry
import Verif.Model.Console
import Verif.Model.Help
import Verif.Model.File
import Verif.Model.Any
/-!
# Model of refusing: what is said when a limit is exceeded or a precondition does not hold, and what happens then

Source: src/snitch_error_handling.cpp 8-25, include/snitch/snitch_error_handling.hpp 11-17,
include/snitch/snitch_vector.hpp 40-150, include/snitch/snitch_any.hpp 82-93, src/snitch_file.cpp 9-28,
src/snitch_registry.cpp 14-86, 302-334, 351-377, 1073-1100, src/snitch_section.cpp 72-93 and 68-69,
src/snitch_capture.cpp 84-103, include/snitch/snitch_capture.hpp 29-47, src/snitch_test_data.cpp 14-21.

The other models say `Outcome.abort` wherever `assertion_failed` or `terminate_with` is reached; here is what these do.
A function that can refuse is a function of the handler and of the state it works on (`Act`).
-/
namespace Verif.Failure
open Verif.Print Verif.Report

/-- How a call of a handler set by the program ends: it may return (though it should not), throw an exception, terminate
the program, or not end (src/snitch_error_handling.cpp 19-21). -/
inductive HandlerEnd where
  | returns
  | throws
  | terminates
  | never
deriving DecidableEq, Repr

/-- include/snitch/snitch_error_handling.hpp 15, src/snitch_error_handling.cpp 25 `assertion_failed_handler`:
`terminate_with`, or a function of the program, of which we only need to know how it ends for each message. -/
inductive Handler where
  | standard
  | user (ends : Text → HandlerEnd)

/-- What can be observed: texts given to `cli::console_print`, texts given to `print_callback` of the registry, calls of
the program's own handler. -/
inductive Entry where
  | console (s : Text)
  | registry (s : Text)
  | handler (reason : Text)
deriving DecidableEq, Repr

/-- How a function ends: it returns; an exception leaves it; the program is terminated (`std::terminate`); it does not
end; undefined behaviour. The state is the one that the caller finds. -/
inductive Result (σ α : Type) where
  | ok (s : σ) (a : α)
  | threw (s : σ)
  | terminated
  | never
  | undefined
deriving DecidableEq, Repr

/-- What is observed of a call, and how it ends. -/
structure Reply (σ α : Type) where
  said : List Entry
  result : Result σ α
deriving DecidableEq, Repr

/-- A function that can refuse, working on a state. -/
def Act (σ α : Type) : Type := Handler → σ → Reply σ α

/-- One call after the other: the second one is only reached if the first one returns. -/
def Act.bind {σ α β : Type} (x : Act σ α) (f : α → Act σ β) : Act σ β := fun h s =>
  match x h s with
  | ⟨said, .ok s a⟩ => ⟨said ++ (f a h s).said, (f a h s).result⟩
  | ⟨said, .threw s⟩ => ⟨said, .threw s⟩
  | ⟨said, .terminated⟩ => ⟨said, .terminated⟩
  | ⟨said, .never⟩ => ⟨said, .never⟩
  | ⟨said, .undefined⟩ => ⟨said, .undefined⟩

/-- Sequences of calls are written with `do`. -/
instance {σ : Type} : Monad (Act σ) where
  pure a := fun _ s => ⟨[], .ok s a⟩
  bind := Act.bind

/-- The state. -/
def getState {σ : Type} : Act σ σ := fun _ s => ⟨[], .ok s s⟩

/-- Replace the state. -/
def setState {σ : Type} (s : σ) : Act σ Unit := fun _ _ => ⟨[], .ok s ()⟩

/-- Undefined behaviour. -/
def undefined {σ α : Type} : Act σ α := fun _ _ => ⟨[], .undefined⟩

/-- A function that is `noexcept`: an exception that would leave it terminates the program. -/
def noThrow {σ α : Type} (x : Act σ α) : Act σ α := fun h s =>
  match x h s with
  | ⟨said, .threw _⟩ => ⟨said, .terminated⟩
  | r => r

/-- src/snitch_error_handling.cpp 8-14 `terminate_with`. -/
def terminateWith {σ α : Type} (msg : Text) : Act σ α := fun _ _ =>
  ⟨[.console "terminate called with message: ".toList, .console msg, .console "\n".toList], .terminated⟩

/-- src/snitch_error_handling.cpp 16-23 `assertion_failed`: calls the handler; `std::terminate` if that returns. -/
def assertionFailed {σ α : Type} (msg : Text) : Act σ α := fun h s =>
  match h with
  | .standard => terminateWith msg h s
  | .user ends => ⟨[.handler msg],
      match ends msg with
      | .returns => .terminated
      | .throws => .threw s
      | .terminates => .terminated
      | .never => .never⟩

/-! ## Vectors -/

/-- include/snitch/snitch_vector.hpp 40-46 `resize(new_size)`. -/
def resize {α : Type} (n : Nat) : Act (SV α) Unit := do
  let v ← getState
  if n > v.capacity then assertionFailed "small vector is full".toList
  else setState { v with size := n }

/-- include/snitch/snitch_vector.hpp 49-55 `grow(elem)`; the sum is a `size_t` sum. -/
def grow {α : Type} (n : Nat) : Act (SV α) Unit := do
  let v ← getState
  if (v.size + n) % sizeT > v.capacity then assertionFailed "small vector is full".toList
  else setState { v with size := (v.size + n) % sizeT }

/-- include/snitch/snitch_vector.hpp 58-82 `push_back(t)`, both overloads. -/
def pushBack {α : Type} (t : α) : Act (SV α) Unit := do
  let v ← getState
  if v.size = v.capacity then assertionFailed "small vector is full".toList
  else if v.size < v.capacity then setState { buf := v.buf.set v.size t, size := v.size + 1 }
  else undefined

/-- include/snitch/snitch_vector.hpp 85-91 `pop_back()`. -/
def popBack {α : Type} : Act (SV α) Unit := do
  let v ← getState
  if v.size = 0 then assertionFailed "pop_back() called on empty vector".toList
  else setState { v with size := v.size - 1 }

/-- include/snitch/snitch_vector.hpp 94-109, 180-186 `back()`. -/
def back {α : Type} : Act (SV α) α := do
  let v ← getState
  if v.size = 0 then assertionFailed "back() called on empty vector".toList
  else match v.buf[v.size - 1]? with
    | some x => return x
    | none => undefined

/-- include/snitch/snitch_vector.hpp 137-150, 205-210 `operator[](i)` (read). -/
def getAt {α : Type} (i : Nat) : Act (SV α) α := do
  let v ← getState
  if i ≥ v.size then assertionFailed "operator[] called with incorrect index".toList
  else match v.buf[i]? with
    | some x => return x
    | none => undefined

/-- include/snitch/snitch_vector.hpp 137-142 `operator[](i) = x` (write). -/
def setAt {α : Type} (i : Nat) (x : α) : Act (SV α) Unit := do
  let v ← getState
  if i ≥ v.size then assertionFailed "operator[] called with incorrect index".toList
  else if i < v.buf.length then setState { v with buf := v.buf.set i x }
  else undefined

/-- One call of a mutating function, include/snitch/snitch_vector.hpp 35-91, 137-142. -/
def vectorStep {α : Type} : SV.Op α → Act (SV α) Unit
  | .clear => do
    let v ← getState
    setState v.clear
  | .resize n => resize n
  | .grow n => grow n
  | .pushBack x => pushBack x
  | .popBack => popBack
  | .set i x => setAt i x

/-! ## Catching -/

/-- A caller that catches whatever is thrown and goes on (`try { ... } catch (...) {}`); says whether something was. -/
def caught {σ α : Type} (x : Act σ α) : Act σ Bool := fun h s =>
  match x h s with
  | ⟨said, .ok s _⟩ => ⟨said, .ok s false⟩
  | ⟨said, .threw s⟩ => ⟨said, .ok s true⟩
  | ⟨said, .terminated⟩ => ⟨said, .terminated⟩
  | ⟨said, .never⟩ => ⟨said, .never⟩
  | ⟨said, .undefined⟩ => ⟨said, .undefined⟩

/-- Calls one after the other, catching what each throws. -/
def attempts {σ α : Type} : List (Act σ α) → Act σ Unit
  | [] => pure ()
  | x :: xs => do
    let _ ← caught x
    attempts xs

/-! ## Printing -/

/-- What is printed in: `max_message_length` and `with_color` of the registry. -/
structure Env where
  cap : Nat
  color : Bool

/-- `print(...)` of the registry (include/snitch/snitch_registry.hpp 189-195; Verif/Model/Print.lean). -/
def regPrint {σ : Type} (env : Env) (args : Outcome (List Arg)) : Act σ Unit := fun _ s =>
  match args >>= Print.print env.cap with
  | .ok chunks => ⟨chunks.map .registry, .ok s ()⟩
  | .abort => ⟨[], .terminated⟩
  | .ub => ⟨[], .undefined⟩

/-- `cli::print(...)` (include/snitch/snitch_cli.hpp 37-42; Verif/Model/Help.lean). -/
def cliPrint {σ : Type} (env : Env) (args : Outcome (List Arg)) : Act σ Unit := fun _ s =>
  match args >>= Cli.say env.cap with
  | .ok text => ⟨[.console text], .ok s ()⟩
  | .abort => ⟨[], .terminated⟩
  | .ub => ⟨[], .undefined⟩

/-- The arguments of the messages about limits (src/snitch_registry.cpp 313-316, 356-359, 369-372, 1082-1085,
src/snitch_section.cpp 85-88, src/snitch_capture.cpp 87-90): two adjacent string literals are one, and the limit is a
`std::size_t`. The number is written to a string of its own (Verif/Model/Reporter.lean), which is then appended. -/
def limitArgs (color : Bool) (text : String) (limit : Nat) (tail : String) : Outcome (List Arg) := do
  let n ← makeNumber 32 limit
  return [.colored (makeColored "error:".toList color Console.failColor), .str text.toList, .value n, .str tail.toList]

/-! ## The registry -/

/-- src/snitch_registry.cpp 302-334 `registry::add_reporter`, on the names of the registered reporters (the functions
are left out); `max` is `max_registered_reporters`. -/
def addReporter (env : Env) (max : Nat) (name : Text) : Act (List Text) Text := do
  let reporters ← getState
  if max - reporters.length = 0 then
    regPrint env (limitArgs env.color
      " max number of reporters reached; please increase 'SNITCH_MAX_REGISTERED_REPORTERS' (currently " max ").\n")
    assertionFailed "max number of reporters reached".toList
  else if (Util.findAt "::".toList name).isSome then
    regPrint env (.ok [.colored (makeColored "error:".toList env.color Console.failColor),
      .str " reporter name cannot contains '::' (trying to register '".toList, .str name, .str "')\n.".toList])
    assertionFailed "invalid reporter name".toList
  else
    setState (reporters ++ [name])
    return name

/-- src/snitch_registry.cpp 351-377 `registry::add_impl`, on the list of registered tests. The test is added before its
name is looked at. -/
def addTest (env : Env) (lim : Reg.Limits) (t : Run.TestCase) : Act (List Reg.Case) Unit := do
  let cases ← getState
  if lim.maxTests - cases.length = 0 then
    regPrint env (limitArgs env.color
      " max number of test cases reached; please increase 'SNITCH_MAX_TEST_CASES' (currently " lim.maxTests ").\n")
    assertionFailed "max number of test cases reached".toList
  else
    setState (cases ++ [{ test := t }])
    if (Filter.makeFullName lim.maxName t.id).isEmpty then
      regPrint env (limitArgs env.color
        " max length of test name reached; please increase 'SNITCH_MAX_TEST_NAME_LENGTH' (currently " lim.maxName ")\n.")
      assertionFailed "test case name exceeds max length".toList
    else return ()

/-- Tests registered one after the other. -/
def addTests (env : Env) (lim : Reg.Limits) : List Run.TestCase → Act (List Reg.Case) Unit
  | [] => pure ()
  | t :: ts => do
    addTest env lim t
    addTests env lim ts

/-! ## Tags -/

/-- src/snitch_registry.cpp 16-41 `for_each_raw_tag` up to the first call of the callback. -/
def rawTags {σ : Type} (s : Text) : Act σ (List Text) :=
  if s.isEmpty then pure []
  else if !s.contains '[' || !s.contains ']' then
    assertionFailed "incorrectly formatted tag; please use \"[tag1][tag2][...]\"".toList
  else match Filter.rawLoop s (s.length + 1) (Util.findFrom s [']', '['] 0) 0 with
    | some l => pure l
    | none => undefined

/-- src/snitch_registry.cpp 56-85: the views given to the callback of `list_all_tags` for one raw tag, as `Reg.tagViews`. -/
def tagViews {σ : Type} (maxTag : Nat) (t : Text) : Act σ (List (Text × Bool)) :=
  if t = "[.]".toList then pure [(t, false)]
  else if ['[', '.'].isPrefixOf t then
    let buffer := '[' :: t.drop 2
    if buffer.length ≤ maxTag then pure [("[.]".toList, false), (buffer, true)]
    else assertionFailed "tag is too long".toList
  else pure [(t, false)]

/-- src/snitch_registry.cpp 1078-1089: the callback of `list_all_tags`, on the vector of tags; see `Reg.storeTag`. -/
def storeTag (env : Env) (maxUnique : Nat) (v : Text × Bool) : Act (List Text) Unit := do
  let tags ← getState
  if tags.contains v.1 then return ()
  else if tags.length = maxUnique then
    cliPrint env (limitArgs env.color
      " max number of tags reached; please increase 'SNITCH_MAX_UNIQUE_TAGS' (currently " maxUnique ").\n")
    assertionFailed "max number of unique tags reached".toList
  else if v.2 then undefined
  else setState (tags ++ [v.1])

/-- The callback for the views of one raw tag (src/snitch_registry.cpp 56-85, 1078-1089). -/
def storeTags (env : Env) (maxUnique : Nat) : List (Text × Bool) → Act (List Text) Unit
  | [] => pure ()
  | v :: vs => do
    storeTag env maxUnique v
    storeTags env maxUnique vs

/-- `for_each_tag` with the callback of `list_all_tags`, over the raw tags of one test (src/snitch_registry.cpp 52-86). -/
def storeRaw (env : Env) (lim : Reg.Limits) : List Text → Act (List Text) Unit
  | [] => pure ()
  | t :: ts => do
    let vs ← tagViews lim.cfg.maxTag t
    storeTags env lim.maxUniqueTags vs
    storeRaw env lim ts

/-- src/snitch_registry.cpp 1075-1092: collecting the tags of all tests. -/
def collectTags (env : Env) (lim : Reg.Limits) : List Reg.Case → Act (List Text) Unit
  | [] => pure ()
  | c :: cs => do
    let raw ← rawTags c.test.id.tags
    storeRaw env lim raw
    collectTags env lim cs

/-- src/snitch_registry.cpp 1097-1099: printing the tags. -/
def printTags {σ : Type} (env : Env) : List Text → Act σ Unit
  | [] => pure ()
  | t :: ts => do
    cliPrint env (.ok [.str "[".toList, .str t, .str "]\n".toList])
    printTags env ts

/-- A function with a local variable that begins as `init`. -/
def withLocal {σ τ α : Type} (init : τ) (x : Act τ α) : Act σ (τ × α) := fun h s =>
  match x h init with
  | ⟨said, .ok t a⟩ => ⟨said, .ok s (t, a)⟩
  | ⟨said, .threw _⟩ => ⟨said, .threw s⟩
  | ⟨said, .terminated⟩ => ⟨said, .terminated⟩
  | ⟨said, .never⟩ => ⟨said, .never⟩
  | ⟨said, .undefined⟩ => ⟨said, .undefined⟩

/-- src/snitch_registry.cpp 1073-1100 `list_all_tags`; the vector of tags is local. `std::sort` as in `Reg.listAllTags`. -/
def listAllTags (env : Env) (lim : Reg.Limits) : Act (List Reg.Case) Unit := do
  let cases ← getState
  let (tags, _) ← withLocal [] (collectTags env lim cases)
  printTags env (tags.mergeSort Reg.textLe)

/-! ## Sections and captures -/

/-- src/snitch_section.cpp 81-93: make sure there is a level for the section. -/
def ensureLevel (env : Env) (cfg : Run.Cfg) : Act Run.SecState Unit := do
  let x ← getState
  if x.depth ≥ x.levels.length then
    if x.depth ≥ cfg.maxNested then
      regPrint env (limitArgs env.color
        " max number of nested sections reached; please increase 'SNITCH_MAX_NESTED_SECTIONS' (currently "
        cfg.maxNested ")\n.")
      assertionFailed "max number of nested sections reached".toList
    else if x.levels.length ≥ cfg.maxNested then assertionFailed "small vector is full".toList
    else setState { x with levels := x.levels ++ [{}] }
  else return ()

/-- src/snitch_section.cpp 69: the destructor of the checker decreases the depth (a `size_t`) in any case. -/
def leaveDepth (x : Run.SecState) : Run.SecState := { x with depth := (x.depth + sizeT - 1) % sizeT }

/-- src/snitch_section.cpp 72-95 and 69: the macro `SECTION` in case that `operator bool` throws before it has
increased the depth: the destructor of the checker decreases it nevertheless. Otherwise only up to the increase of the
depth. -/
def beginSection (env : Env) (cfg : Run.Cfg) : Act Run.SecState Unit := fun h x =>
  match ensureLevel env cfg h x with
  | ⟨said, .ok x _⟩ => ⟨said, .ok { x with depth := x.depth + 1 } ()⟩
  | ⟨said, .threw x⟩ => ⟨said, .threw (leaveDepth x)⟩
  | r => r

/-- src/snitch_capture.cpp 84-103 `add_capture`, on the texts of the captures; the text is written afterwards
(include/snitch/snitch_capture.hpp 30-35). -/
def addCapture (env : Env) (max : Nat) (text : Text) : Act (List Text) Unit := do
  let captures ← getState
  if max - captures.length = 0 then
    regPrint env (limitArgs env.color
      " max number of captures reached; please increase 'SNITCH_MAX_CAPTURES' (currently " max ")\n.")
    assertionFailed "max number of captures reached".toList
  else setState (captures ++ [text])

/-- include/snitch/snitch_capture.hpp 35-40 `add_captures` (and, with one text, lines 42-48 `add_info`): the object that removes the captures is made after all of
them have been added. -/
def addCaptures (env : Env) (max : Nat) : List Text → Act (List Text) Unit
  | [] => pure ()
  | c :: cs => do
    addCapture env max c
    addCaptures env max cs

/-- src/snitch_test_data.cpp 14-21 `get_current_test`, given the test that is running on the thread. -/
def getCurrentTest {σ α : Type} (current : Option α) : Act σ α := noThrow
  (match current with
  | none => terminateWith "no test case is currently running on this thread".toList
  | some t => pure t)

/-! ## Other preconditions -/

/-- include/snitch/snitch_any.hpp 84-93 `get<T>`, as `Any.get`. -/
def anyGet (c : Any.Container) (type : Nat) : Act Any.World Nat := do
  let w ← getState
  if !c.hasValue then assertionFailed "inplace_any is empty".toList
  else if c.id ≠ some type then assertionFailed "inplace_any holds an object of a different type".toList
  else
    match c.storage with
    | none => undefined
    | some o => if w.made[o]? = some type ∧ o ∉ w.gone then return o else undefined

/-- src/snitch_file.cpp 9-28, the constructor of `file_writer`, as `File.openFile`. -/
def openFile (maxPath : Nat) (path : Text) (succeeds : Bool) : Act File.World Unit := do
  let w ← getState
  match Append.text false (SV.empty (maxPath + 1) '\x00') path with
  | .ok (ss, fits) =>
    if fits then
      match File.cString ss.buf with
      | .ok p =>
        if succeeds then
          setState { writers := w.writers ++ [some (some w.files)], files := w.files + 1,
                     calls := w.calls ++ [.opened w.files p] }
        else assertionFailed "output file could not be opened for writing".toList
      | _ => undefined
    else assertionFailed "output file path is too long".toList
  | _ => undefined

end Verif.Failure
