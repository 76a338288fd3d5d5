/-!
# Model of `function_ref`

Source: include/snitch/snitch_function.hpp 25-217, include/snitch/snitch_concepts.hpp 22-23.

A `function_ref<Ret(Args...)>` or `function_ref<Ret(Args...) noexcept>` refers to a function, or to an object and one of
its member functions. Which constructor an initialiser selects (overload resolution, a rule of the language) is modelled
by candidates, their deduced parameters and a ranking of them; what calls do is modelled on objects with states.

Simplified: arguments and results are single values; conversions between the types of arguments of a call and those of
the function referred to are left out (the signatures are the same, only `noexcept` may differ); free functions have no
state of their own; a member function changes its own object only; `mutable` members and `const_cast` are left out.
-/
namespace Verif.Function

/-- What an initialiser is (C++ value categories, with the constness of the object): an object with a name, the same
seen as `const`, a temporary, a `const` temporary. -/
inductive Category where
  | lvalue | constLvalue | rvalue | constRvalue
deriving DecidableEq, Repr

/-- What the concepts in include/snitch/snitch_function.hpp 113-129 ask about the type of the initialiser: whether it is
a `function_ref` (`is_function_ref`), and of the same type as the one initialised; whether it converts to
`function_ptr`; whether `&T::operator()` names one function (not so when the operator is missing, overloaded or a
template, as in `function_ref` itself). -/
structure Shape where
  isRef : Bool := false
  same : Bool := false
  toPointer : Bool := false
  callOperator : Bool := false
deriving DecidableEq, Repr

/-- The forms of the parameters: `T&`, `const T&`, `T&&` with `T` deduced, and the `const function_ref&` of the copy
constructor, which is no template (include/snitch/snitch_function.hpp 158-189). -/
inductive Pattern where
  | ref | constRef | forward | copy
deriving DecidableEq, Repr

/-- The outcome of deduction for a pattern: what `T` is beyond the type of the object (`const`, a reference), and what
the parameter is (a reference to `const`, an rvalue reference). -/
structure Deduced where
  constT : Bool
  refT : Bool
  constParam : Bool
  rvalueParam : Bool
deriving DecidableEq, Repr

/-- Template argument deduction (C++20 [temp.deduct.call]) for the patterns of include/snitch/snitch_function.hpp 158-189;
`none`: no such binding. -/
def deduce : Pattern → Category → Option Deduced
  | .ref, .lvalue => some ⟨false, false, false, false⟩
  | .ref, .constLvalue => some ⟨true, false, true, false⟩
  | .ref, .rvalue => none
  | .ref, .constRvalue => some ⟨true, false, true, false⟩
  | .constRef, _ => some ⟨false, false, true, false⟩
  | .copy, _ => some ⟨false, false, true, false⟩
  | .forward, .lvalue => some ⟨false, true, false, false⟩
  | .forward, .constLvalue => some ⟨false, true, true, false⟩
  | .forward, .rvalue => some ⟨false, false, false, true⟩
  | .forward, .constRvalue => some ⟨true, false, true, true⟩

/-- include/snitch/snitch_function.hpp 114-121 `not_function_ref<T>`: the specialisation is for the plain type only. -/
def notFunctionRef (s : Shape) (d : Deduced) : Bool := !(s.isRef && !d.constT && !d.refT)

/-- include/snitch/snitch_function.hpp 123-124 `function_ptr_or_stateless_lambda<T, FunPtr>`. -/
def pointerLike (s : Shape) (d : Deduced) : Bool := notFunctionRef s d && s.toPointer

/-- include/snitch/snitch_function.hpp 126-128 `functor<T, FunPtr>`: there is no `T::operator()` if `T` is a reference. -/
def functorLike (s : Shape) (d : Deduced) : Bool :=
  notFunctionRef s d && !pointerLike s d && (s.callOperator && !d.refT)

/-- The constructors with one parameter (include/snitch/snitch_function.hpp 158, 161-163, 165-167, 169-171, 174-175). -/
inductive Ctor where
  | copy | pointer | functor | constFunctor | temporary
deriving DecidableEq, Repr

/-- All of them (include/snitch/snitch_function.hpp 158-175). -/
def ctors : List Ctor := [.copy, .pointer, .functor, .constFunctor, .temporary]

/-- The parameters (include/snitch/snitch_function.hpp 158, 162, 166, 170, 175). -/
def Ctor.pattern : Ctor → Pattern
  | .copy => .copy
  | .pointer => .constRef
  | .functor => .ref
  | .constFunctor => .constRef
  | .temporary => .forward

/-- The constraints (include/snitch/snitch_function.hpp 158, 161, 165, 169, 174); the copy constructor takes a
`function_ref` of the same type. -/
def Ctor.allows (s : Shape) (d : Deduced) : Ctor → Bool
  | .copy => s.isRef && s.same
  | .pointer => pointerLike s d
  | .functor => functorLike s d
  | .constFunctor => functorLike s d
  | .temporary => functorLike s d

/-- The constructors with an object and a `constant` (include/snitch/snitch_function.hpp 177-180, 182-185, 188-189). -/
inductive ObjectCtor where
  | object | constObject | temporary
deriving DecidableEq, Repr

/-- All of them (include/snitch/snitch_function.hpp 177-189). -/
def objectCtors : List ObjectCtor := [.object, .constObject, .temporary]

/-- The first parameters (include/snitch/snitch_function.hpp 178, 183, 189). -/
def ObjectCtor.pattern : ObjectCtor → Pattern
  | .object => .ref
  | .constObject => .constRef
  | .temporary => .forward

/-- Partial ordering of the templates (C++20 [temp.deduct.partial] 9): `const T&` is more specialised than `T&`, and both
are more specialised than `T&&`. A function that is no template comes before them ([over.match.best]). -/
def Pattern.rank : Pattern → Nat
  | .copy => 3
  | .constRef => 2
  | .ref => 1
  | .forward => 0

/-- Whether one candidate is better than another (C++20 [over.ics.rank] 3.2.3 and 3.2.6, then [over.match.best]): an
rvalue reference for a temporary, else a parameter less `const`, else the order of the templates. -/
def better (p q : Pattern) (d e : Deduced) : Bool :=
  if d.rvalueParam != e.rvalueParam then d.rvalueParam
  else if d.constParam != e.constParam then !d.constParam
  else p.rank > q.rank

/-- Overload resolution: the viable candidate better than all the others; `none` if there is no such. -/
def resolve {κ : Type} [DecidableEq κ] (pattern : κ → Pattern) (allows : Deduced → κ → Bool) (all : List κ)
    (c : Category) : Option (κ × Deduced) :=
  let viable := all.filterMap fun k =>
    match deduce (pattern k) c with
    | some d => if allows d k then some (k, d) else none
    | none => none
  viable.find? fun x => viable.all fun y => x.1 = y.1 || better (pattern x.1) (pattern y.1) x.2 y.2

/-- What a `function_ref` has in its variant (include/snitch/snitch_function.hpp 142-155): a pointer to a function (`none`:
null), or a pointer to an object and the function made of a member function, for objects or for `const` ones. -/
inductive Data where
  | pointer (p : Option Nat)
  | object (i m : Nat)
  | constObject (i m : Nat)
deriving DecidableEq, Repr

/-- What a function answers: it returns a value, or an exception leaves it. -/
inductive Answer (β : Type) where
  | returned (b : β)
  | threw
deriving DecidableEq, Repr

/-- The functions of the program, numbered: the free ones (also the functions that closures without captures convert
to), and the member functions, which see and change the state of their object; which are `noexcept`, and which member
functions are `const`. -/
structure Code (σ α β : Type) where
  free : Nat → α → Answer β
  freeNoexcept : Nat → Bool
  member : Nat → σ → α → Answer β × σ
  memberConst : Nat → Bool
  memberNoexcept : Nat → Bool

/-- A class of objects that may be used as functions: the function it converts to (closures without captures), its
`operator()` if there is exactly one and it is no template. -/
structure Class where
  invoker : Option Nat := none
  call : Option Nat := none
deriving DecidableEq, Repr

/-- Initialisers of a `function_ref`: a function or a pointer to one (`none`: a null pointer of type `function_ptr`), an
object of a class, an object with a member function, another `function_ref` of the same type or of another. -/
inductive Source where
  | pointer (p : Option Nat)
  | object (k : Class) (i : Nat) (c : Category)
  | bound (i : Nat) (c : Category) (m : Nat)
  | ref (r : Nat) (c : Category)
  | otherRef (c : Category)
deriving DecidableEq, Repr

/-- How a step ends: normally, the program does not compile, its behaviour is undefined, or `std::terminate`. -/
inductive Result (τ : Type) where
  | ok (x : τ)
  | rejected
  | undefined
  | terminated
deriving DecidableEq, Repr

/-- Sequencing of steps (a program that is rejected, undefined or terminated does not go on). -/
def Result.bind {τ υ : Type} : Result τ → (τ → Result υ) → Result υ
  | .ok x, f => f x
  | .rejected, _ => .rejected
  | .undefined, _ => .undefined
  | .terminated, _ => .terminated

instance : Monad Result where
  pure := .ok
  bind := Result.bind

/-- What was called: a free function, or a member function on an object. -/
inductive Callee where
  | free (p : Nat)
  | member (i m : Nat)
deriving DecidableEq, Repr

/-- The objects in order of creation (`none`: destroyed), the `function_ref`s, and the calls made so far: the callee, the
argument and the answer. -/
structure World (σ α β : Type) where
  objects : List (Option σ) := []
  refs : List Data := []
  calls : List (Callee × α × Answer β) := []
deriving DecidableEq, Repr

variable {σ α β : Type}

/-- Whether a free function converts to `function_ptr` (include/snitch/snitch_function.hpp 39, 75): a pointer to a function
that may throw does not convert to one that may not. -/
def converts (code : Code σ α β) (noexc : Bool) (p : Nat) : Bool := !noexc || code.freeNoexcept p

/-- include/snitch/snitch_function.hpp 177-189 and 45-69, 81-105: an object and a member function. The function made of them
calls the member function through a pointer to `ObjectType` or `const ObjectType`, which does not compile for a member
function that is not `const` on a `const` object; nor does the pointer to a `const` object convert to `void*`. -/
def bindObject (code : Code σ α β) (i : Nat) (c : Category) (m : Nat) : Result Data :=
  match resolve ObjectCtor.pattern (fun _ _ => true) objectCtors c with
  | some (.object, d) => if d.constT then .rejected else .ok (.object i m)
  | some (.constObject, _) => if code.memberConst m then .ok (.constObject i m) else .rejected
  | some (.temporary, _) => .rejected
  | none => .rejected

/-- What the type of an initialiser is for the concepts (include/snitch/snitch_function.hpp 113-129). -/
def shape (code : Code σ α β) (noexc : Bool) : Source → Shape
  | .pointer none => { toPointer := true }
  | .pointer (some p) => { toPointer := converts code noexc p }
  | .object k _ _ =>
    { toPointer := (match k.invoker with | some p => converts code noexc p | none => false)
      callOperator := k.call.isSome }
  | .bound _ _ _ => {}
  | .ref _ _ => { isRef := true, same := true }
  | .otherRef _ => { isRef := true }

/-- The category of an initialiser; a function or pointer is taken as `const` lvalue, all the same for the constructor of
include/snitch/snitch_function.hpp 161-163. -/
def Source.category : Source → Category
  | .pointer _ => .constLvalue
  | .object _ _ c => c
  | .bound _ c _ => c
  | .ref _ c => c
  | .otherRef c => c

/-- The object that an initialiser is, if any (include/snitch/snitch_function.hpp 161-185). -/
def Source.objectNumber : Source → Option Nat
  | .object _ i _ => some i
  | .bound i _ _ => some i
  | _ => none

/-- The pointer to a function that an initialiser converts to (include/snitch/snitch_function.hpp 163). -/
def Source.toPointer : Source → Result Data
  | .pointer p => .ok (.pointer p)
  | .object k _ _ =>
    match k.invoker with
    | some p => .ok (.pointer (some p))
    | none => .rejected
  | _ => .rejected

/-- The object and its `operator()` handed to the other constructors (include/snitch/snitch_function.hpp 167, 171): `obj` is
an lvalue there, `const` as the parameter is. -/
def Source.operator (code : Code σ α β) (constParam : Bool) : Source → Result Data
  | .object k i _ =>
    match k.call with
    | some m => bindObject code i (if constParam then .constLvalue else .lvalue) m
    | none => .rejected
  | _ => .rejected

/-- Constructing a `function_ref` (include/snitch/snitch_function.hpp 158-189). Undefined if the object or the `function_ref` it
is made of is not there. -/
def construct (code : Code σ α β) (noexc : Bool) (w : World σ α β) (s : Source) : Result Data :=
  match s with
  | .bound i c m => alive w s (bindObject code i c m)
  | _ =>
    match resolve Ctor.pattern (Ctor.allows (shape code noexc s)) ctors s.category with
    | none => .rejected
    | some (.temporary, _) => .rejected
    | some (.copy, _) =>
      match s with
      | .ref r _ =>
        match w.refs[r]? with
        | some d => .ok d
        | none => .undefined
      | _ => .rejected
    | some (.pointer, _) => alive w s s.toPointer
    | some (.functor, d) => alive w s (s.operator code d.constParam)
    | some (.constFunctor, d) => alive w s (s.operator code d.constParam)
where
  /-- Using an object that is not there is undefined, if the program compiles. -/
  alive (w : World σ α β) (s : Source) (x : Result Data) : Result Data :=
    match x, s.objectNumber with
    | .ok d, some i =>
      match w.objects[i]? with
      | some (some _) => .ok d
      | _ => .undefined
    | x, _ => x

/-- The call of a free function; an exception cannot leave a function that is `noexcept`. -/
def callFree (code : Code σ α β) (p : Nat) (a : α) (w : World σ α β) : Result (World σ α β) :=
  let answer := code.free p a
  match answer, code.freeNoexcept p with
  | .threw, true => .terminated
  | _, _ => .ok { w with calls := w.calls ++ [(.free p, a, answer)] }

/-- The call of a member function on an object (include/snitch/snitch_function.hpp 49-54, 62-67, 85-90, 98-103). -/
def callMember (code : Code σ α β) (i m : Nat) (a : α) (w : World σ α β) : Result (World σ α β) :=
  match w.objects[i]? with
  | some (some s) =>
    let (answer, s') := code.member m s a
    match answer, code.memberNoexcept m with
    | .threw, true => .terminated
    | _, _ =>
      .ok { w with
        objects := w.objects.set i (some (if code.memberConst m then s else s'))
        calls := w.calls ++ [(.member i m, a, answer)] }
  | _ => .undefined

/-- The last answer that a call gave. -/
def lastAnswer (w : World σ α β) : Option (Answer β) := w.calls.getLast?.map (·.2.2)

/-- The exception specification (include/snitch/snitch_function.hpp 37, 47, 60, 192): no exception leaves a call if the type
is `noexcept`. -/
def leave (noexc : Bool) (w : World σ α β) : Result (World σ α β) :=
  match lastAnswer w, noexc with
  | some .threw, true => .terminated
  | _, _ => .ok w

/-- include/snitch/snitch_function.hpp 191-216 `operator()`, and 47, 60, 83, 96: the alternative in the variant decides. -/
def call (code : Code σ α β) (noexc : Bool) (d : Data) (a : α) (w : World σ α β) : Result (World σ α β) := do
  let w ← (match d with
    | .pointer none => .undefined
    | .pointer (some p) => callFree code p a w
    | .object i m => callMember code i m a w
    | .constObject i m => callMember code i m a w)
  leave noexc w

/-- What a program does with objects and with `function_ref`s of one type: it creates an object, gives one another state,
destroys one, makes a `function_ref`, assigns to one (a `function_ref` is made and copied, line 159), calls one. -/
inductive Op (σ α : Type) where
  | create (s : σ)
  | set (i : Nat) (s : σ)
  | destroy (i : Nat)
  | make (s : Source)
  | assign (r : Nat) (s : Source)
  | call (r : Nat) (a : α)
deriving DecidableEq, Repr

/-- One operation (include/snitch/snitch_function.hpp 157-216). -/
def step (code : Code σ α β) (noexc : Bool) (w : World σ α β) : Op σ α → Result (World σ α β)
  | .create s => .ok { w with objects := w.objects ++ [some s] }
  | .set i s =>
    match w.objects[i]? with
    | some (some _) => .ok { w with objects := w.objects.set i (some s) }
    | _ => .undefined
  | .destroy i =>
    match w.objects[i]? with
    | some (some _) => .ok { w with objects := w.objects.set i none }
    | _ => .undefined
  | .make s => do
    let d ← construct code noexc w s
    return { w with refs := w.refs ++ [d] }
  | .assign r s => do
    let d ← construct code noexc w s
    if r < w.refs.length then return { w with refs := w.refs.set r d } else .undefined
  | .call r a =>
    match w.refs[r]? with
    | some d => call code noexc d a w
    | none => .undefined

/-- A sequence of operations. -/
def history (code : Code σ α β) (noexc : Bool) : List (Op σ α) → World σ α β → Result (World σ α β)
  | [], w => .ok w
  | op :: ops, w => do
    let w ← step code noexc w op
    history code noexc ops w

end Verif.Function
