import Verif.Spec.Neutral
/-!
# Specification of `REQUIRE` in place of `CHECK`
-/
namespace Verif.Run.Spec
open Verif.Run

/-- The second macro is the first, or the `REQUIRE` form of it (`REQUIRE` for `CHECK`, `REQUIRE_THROWS_AS` for `CHECK_THROWS_AS`, ...). The
text shown with a check may change, as it contains the name of the macro. -/
inductive StricterAsk : Ask → Ask → Prop
  | same {a} : StricterAsk a a
  | check {ok d d'} : StricterAsk (.check ok false d) (.check ok true d')
  | throwsAs {type name} : StricterAsk (.throwsAs type name false) (.throwsAs type name true)
  | throwsMatches {type name matched desc} :
    StricterAsk (.throwsMatches type name matched desc false) (.throwsMatches type name matched desc true)
  | nothrow {text} : StricterAsk (.nothrow text false) (.nothrow text true)

/-- The same for statements. -/
inductive StricterStmt : Stmt → Stmt → Prop
  | same {m} : StricterStmt m m
  | check {loc ev d d'} : StricterStmt (.check loc ev false d) (.check loc ev true d')
  | throwsAs {loc ev type name} : StricterStmt (.throwsAs loc ev type name false) (.throwsAs loc ev type name true)
  | throwsMatches {loc ev type name matched desc} :
    StricterStmt (.throwsMatches loc ev type name matched desc false) (.throwsMatches loc ev type name matched desc true)
  | nothrow {loc ev text} : StricterStmt (.nothrow loc ev text false) (.nothrow loc ev text true)

/-- `Stricter p q`: the code `q` is `p` with any number of `CHECK...` replaced by `REQUIRE...`. -/
inductive Stricter : Prog → Prog → Prop
  | done : Stricter .done .done
  | stmt {m n p q} : StricterStmt m n → Stricter p q → Stricter (.stmt m p) (.stmt n q)
  | sec {id loc b c p q} : Stricter b c → Stricter p q → Stricter (.sec id loc b p) (.sec id loc c q)
  | capture {caps p q} : Stricter p q → Stricter (.capture caps p) (.capture caps q)
  | block {b c p q} : Stricter b c → Stricter p q → Stricter (.block b p) (.block c q)
  | tryCatch {type b c g h p q} : Stricter b c → Stricter g h → Stricter p q →
    Stricter (.tryCatch type b g p) (.tryCatch type c h q)
  | nested {loc b c a a' p q} : StricterAsk a a' → Stricter b c → Stricter p q → Stricter (.nested loc b a p) (.nested loc c a' q)
  | guard {b c p q} : Stricter b c → Stricter p q → Stricter (.guard b p) (.guard c q)

/-- The same test, with some `CHECK...` in its executions replaced by `REQUIRE...`. -/
structure StricterTest (t u : TestCase) : Prop where
  id : u.id = t.id
  loc : u.loc = t.loc
  body : ∀ n, Stricter (t.body.no n) (u.body.no n)

/-- Two stories that are the same up to a failure told in both (with texts that may differ). -/
def Forked (a b : List Essence) : Prop :=
  ∃ pre d d' expected allowed, pre ++ [.failure d expected allowed] <+: a ∧ pre ++ [.failure d' expected allowed] <+: b

end Verif.Run.Spec
