import Verif.Lemmas.Reporters
import Verif.Props.Cli
import Verif.Props.Expression
/-!
# C62: which reporters exist, and what they are told
-/
namespace Verif.Props
open Verif.Reporters Verif.Reporters.Spec

variable {ε : Type}

private theorem history_append {cap : Nat} (b : List (Op ε)) : ∀ (a : List (Op ε)) (r : Registry ε),
    history cap (a ++ b) r = history cap a r >>= fun r => history cap b r := by
  intro a
  induction a with
  | nil => intro r; rfl
  | cons op a ih =>
    intro r
    rw [List.cons_append, history, history]
    cases step cap r op with
    | ok r1 => exact ih r1
    | abort => rfl
    | ub => rfl

private theorem findFrom_pair (name : Text) :
    (Util.findFrom name [':', ':'] 0).isSome = true ↔ "::".toList <:+: name := by
  rw [Util.findFrom, if_pos (Nat.zero_le _), List.drop_zero, Option.isSome_map]
  exact findAt_infix name

private theorem runTests_defined {es : List ε} : ∀ {r : Registry ε}, Inv r → runTests es r ≠ .ub := by
  have hall : ∀ (es : List ε) {r : Registry ε}, Inv r → reportAll es r ≠ .ub := by
    intro es
    induction es with
    | nil => intro r _ h; cases h
    | cons e es ih =>
      intro r hi h
      rw [reportAll] at h
      cases hr : report e r with
      | ok r1 => rw [hr] at h; exact ih (hi.report hr) h
      | abort => rw [hr] at h; cases h
      | ub =>
        unfold report at hr
        split at hr
        · obtain ⟨r1, o, e1, -⟩ := reportDefault_inv hi e
          rw [e1] at hr; cases hr
        · rename_i t hc
          by_cases ht : r.storage.id = some t
          · obtain ⟨o, hg, ho⟩ := hi.get ht
            rw [hg] at hr; cases hr
          · have : getStorage t r = .abort := by
              unfold getStorage Any.get
              cases hh : r.storage.hasValue <;> simp [ht]
            rw [this] at hr
            cases hr
        · cases hr
  intro r hi h
  rw [runTests] at h
  cases hr : reportAll es r with
  | ok r1 =>
    rw [hr, Outcome.bind_ok] at h
    unfold finish at h
    split at h
    · cases h
    · obtain ⟨r2, e2, -⟩ := (hi.reportAll hr).reset
      rw [e2] at h; cases h
    · cases h
  | abort => rw [hr] at h; cases h
  | ub => exact hall es hi hr

private theorem step_defined {cap : Nat} {r : Registry ε} (hi : Inv r) {op : Op ε} : step cap r op ≠ .ub := by
  cases op with
  | add name kind =>
    intro h
    simp only [step, addReporter] at h
    split at h
    · cases h
    · split at h <;> cases h
  | choose i options =>
    intro h
    simp only [step] at h
    split at h
    · rename_i hlt
      obtain ⟨r1, e1, -⟩ := hi.choose (List.getElem?_eq_getElem hlt) options
      rw [e1] at h; cases h
    · cases h
  | run es => exact runTests_defined hi

/-- **C62**. Whatever a program does with a registry, reporter objects are constructed one after the other, there is
never more than one, and only the one that exists is configured, told events, and destroyed (once). -/
theorem C62_orderly {cap : Nat} {ops : List (Op ε)} {r : Registry ε} (h : history cap ops {} = .ok r) :
    Orderly r.log ∧ ∃ n, created r.log = List.range n :=
  ⟨(inv_start.history h).orderly, _, (inv_start.history h).made⟩

/-- **C62**. No sequence of operations is undefined. -/
theorem C62_defined (cap : Nat) (ops : List (Op ε)) : history cap ops {} ≠ .ub := by
  suffices hh : ∀ r : Registry ε, Inv r → history cap ops r ≠ .ub from hh _ inv_start
  induction ops with
  | nil => intro r _ h; cases h
  | cons op ops ih =>
    intro r hi h
    rw [history] at h
    cases hs : step cap r op with
    | ok r1 => rw [hs] at h; exact ih r1 (hi.step hs) h
    | abort => rw [hs] at h; cases h
    | ub => exact step_defined hi hs

/-- **C62**. At any time, choosing a registered reporter with some options and running tests works, and adds exactly
this to what happened before: the object existing so far is destroyed (if the reporter is a type), then the
reporter is set up, gets the options, gets the events, each once and in order, and ends. -/
theorem C62_run {cap : Nat} {ops : List (Op ε)} {r : Registry ε} (h : history cap ops {} = .ok r) {i : Nat}
    {x : Registered} (hx : r.reporters[i]? = some x) (options : List (Text × Text)) (es : List ε) :
    ∃ r', history cap (ops ++ [.choose i options, .run es]) {} = .ok r' ∧ r'.reporters = r.reporters ∧
      r'.log = r.log ++ replaced x.kind r.log ++ wholeRun x.kind (created r.log).length options es := by
  have hi := inv_start.history h
  have hlt : i < r.reporters.length := (List.getElem?_eq_some_iff.mp hx).1
  obtain ⟨r1, e1, i1, p1, c1, f1, l1⟩ := hi.choose hx options
  have hh : ∀ r', runTests es r1 = .ok r' → history cap (ops ++ [.choose i options, .run es]) {} = .ok r' := by
    intro r' hr
    rw [history_append, h, Outcome.bind_ok, history, step, if_pos hlt, e1, Outcome.bind_ok, history, step, hr]
    rfl
  obtain ⟨name, kind⟩ := x
  cases kind with
  | typed t =>
    obtain ⟨s1, a1, l1⟩ := l1
    obtain ⟨r2, e2, i2, l2, s2, a2, p2, c2, f2⟩ := reportAll_typed es i1 c1 s1 a1
    obtain ⟨r3, e3, i3, l3, s3, p3, -⟩ := i2.reset
    refine ⟨r3, hh r3 ?_, by rw [p3, p2, p1], ?_⟩
    · rw [runTests, e2, Outcome.bind_ok, finish, f2, f1]; exact e3
    · rw [l3, a2, l2, l1]; simp [replaced, wholeRun]
  | functions c init config fin =>
    obtain ⟨r2, e2, i2, l2, p2, c2, f2⟩ := reportAll_function es i1 c1
    cases fin with
    | false =>
      refine ⟨r2, hh r2 ?_, by rw [p2, p1], ?_⟩
      · rw [runTests, e2, Outcome.bind_ok, finish, f2, f1]; rfl
      · rw [l2, l1]; simp [replaced, wholeRun]
    | true =>
      refine ⟨record (.finished c) r2, hh _ ?_, by rw [← p1, ← p2]; rfl, ?_⟩
      · rw [runTests, e2, Outcome.bind_ok, finish, f2, f1]; rfl
      · show r2.log ++ _ = _
        rw [l2, l1]; simp [replaced, wholeRun]

/-- **C62**. After such a run, no object exists if the reporter is a type. -/
theorem C62_ends {cap : Nat} {ops : List (Op ε)} {r r' : Registry ε} (h : history cap ops {} = .ok r) {i t : Nat}
    {name : Text} (hx : r.reporters[i]? = some ⟨name, .typed t⟩) (options : List (Text × Text)) (es : List ε)
    (h' : history cap (ops ++ [.choose i options, .run es]) {} = .ok r') : alive r'.log = none := by
  obtain ⟨r2, e, -, l⟩ := C62_run h hx options es
  rw [h'] at e; cases e
  rw [l, alive, wholeRun, ← List.append_assoc, aliveFrom_append]
  rfl

/-- **C62**: a reporter that is a type serves one run. Further events, without choosing a reporter again, end the
program: its object is gone, and the function receiving events still asks for it. -/
theorem C62_not_twice {cap : Nat} {ops : List (Op ε)} {r : Registry ε} (h : history cap ops {} = .ok r) {i t : Nat}
    {name : Text} (hx : r.reporters[i]? = some ⟨name, .typed t⟩) (options : List (Text × Text)) (es : List ε)
    (e : ε) (es' : List ε) :
    history cap (ops ++ [.choose i options, .run es, .run (e :: es')]) {} = .abort := by
  have hi := inv_start.history h
  have hlt : i < r.reporters.length := (List.getElem?_eq_some_iff.mp hx).1
  obtain ⟨r1, e1, i1, p1, c1, f1, s1, a1, l1⟩ := hi.choose hx options
  obtain ⟨r2, e2, i2, l2, s2, a2, p2, c2, f2⟩ := reportAll_typed es i1 c1 s1 a1
  obtain ⟨r3, e3, i3, l3, s3, p3, c3, -⟩ := i2.reset
  have hr : runTests es r1 = .ok r3 := by
    rw [runTests, e2, Outcome.bind_ok, finish, f2, f1]; exact e3
  have hg : getStorage t r3 = .abort := by
    unfold getStorage Any.get
    simp [Any.Container.hasValue, s3]
  rw [history_append, h, Outcome.bind_ok, history, step, if_pos hlt, e1, Outcome.bind_ok, history, step, hr,
    Outcome.bind_ok, history, step, runTests, reportAll, report, c3, c2, c1]
  simp only [callbackOf, hg]
  rfl

/-- What the default reporter has been told. -/
private def DefaultLog (r : Registry ε) (es : List ε) : Prop :=
  Inv r ∧ r.callback = .default ∧ r.finish = .nothing ∧
    (es = [] → r.log = [] ∧ r.storage.id = none) ∧
    (es ≠ [] → r.log = .create 0 consoleType :: es.map (.told 0) ∧ r.storage.id = some consoleType)

private theorem default_reportAll (es : List ε) : ∀ {r : Registry ε} {before : List ε}, DefaultLog r before →
    ∃ r', reportAll es r = .ok r' ∧ r'.reporters = r.reporters ∧ DefaultLog r' (before ++ es) := by
  induction es with
  | nil => intro r before h; exact ⟨r, rfl, rfl, by rwa [List.append_nil]⟩
  | cons e es ih =>
    intro r before h
    obtain ⟨hi, hc, hf, h0, h1⟩ := h
    obtain ⟨r1, o, e1, i1, s1, a1, l1, x1, y1, p1, c1, f1⟩ := reportDefault_inv hi e
    have hd : DefaultLog r1 (before ++ [e]) := by
      refine ⟨i1, c1.trans hc, f1.trans hf, fun hn => by simp at hn, fun _ => ⟨?_, s1⟩⟩
      by_cases hb : before = []
      · obtain ⟨g1, g2⟩ := h0 hb
        have : o = 0 := by rw [y1 (by rw [g2]; simp), g1]; rfl
        rw [l1, g1, g2, hb, this]; rfl
      · obtain ⟨g1, g2⟩ := h1 hb
        have : alive r.log = some 0 := by
          have hk : ∀ (l : List ε), aliveFrom (some 0) (l.map (.told 0)) = some 0 := by
            intro l
            induction l with
            | nil => rfl
            | cons a l ih => exact ih
          rw [g1]
          exact hk _
        have ho : o = 0 := by
          have := (x1 g2).symm.trans this
          exact Option.some.inj this
        rw [l1, if_pos g2, g1, ho]; simp
    obtain ⟨r', e', p', h'⟩ := ih hd
    refine ⟨r', ?_, p'.trans p1, by rw [List.append_assoc] at h'; exact h'⟩
    rw [reportAll, report, hc]
    simp only [e1, Outcome.bind_ok]
    exact e'

private theorem default_history {cap : Nat} : ∀ (ops : List (Op ε)) {r r' : Registry ε} {before : List ε},
    NoChoice ops → DefaultLog r before → history cap ops r = .ok r' → DefaultLog r' (before ++ allEvents ops) := by
  intro ops
  induction ops with
  | nil => intro r r' before _ hd hr; cases hr; rw [allEvents, List.append_nil]; exact hd
  | cons op ops ih =>
    intro r r' before hn hd hr
    cases op with
    | choose i options => exact hn.elim
    | add name kind =>
      rw [history] at hr
      obtain ⟨r1, h1, h2⟩ := bind_eq_ok hr
      refine ih hn ?_ h2
      have i1 := hd.1.step h1
      simp only [step, addReporter] at h1
      split at h1
      · cases h1
      · split at h1
        · cases h1
        · cases h1
          exact ⟨i1, hd.2⟩
    | run es =>
      rw [history] at hr
      obtain ⟨r1, h1, h2⟩ := bind_eq_ok hr
      obtain ⟨r2, e2, -, d2⟩ := default_reportAll es hd
      rw [step, runTests, e2, Outcome.bind_ok, finish, d2.2.2.1] at h1
      cases h1
      have := ih hn d2 h2
      rwa [List.append_assoc] at this

private theorem default_start : DefaultLog ({} : Registry ε) [] :=
  ⟨inv_start, rfl, rfl, fun _ => ⟨rfl, rfl⟩, fun h => absurd rfl h⟩

/-- **C62**. When no reporter is ever chosen, one console reporter object gets all the events of all runs, in order. It
is made for the first event; without any event there is none. -/
theorem C62_default {cap : Nat} {ops : List (Op ε)} (hn : NoChoice ops) {r : Registry ε}
    (h : history cap ops {} = .ok r) :
    r.log = (if (allEvents ops).isEmpty then [] else [.create 0 consoleType]) ++ (allEvents ops).map (.told 0) := by
  obtain ⟨-, -, -, h0, h1⟩ := default_history ops hn default_start h
  rw [List.nil_append] at h0 h1
  cases he : allEvents ops with
  | nil => rw [(h0 he).1]; rfl
  | cons e es => rw [he] at h1; rw [(h1 (by simp)).1]; rfl

/-- **C62**. And tests can always be run, any number of times. -/
theorem C62_default_runs {cap : Nat} {ops : List (Op ε)} (hn : NoChoice ops) {r : Registry ε}
    (h : history cap ops {} = .ok r) (es : List ε) : ∃ r', history cap (ops ++ [.run es]) {} = .ok r' := by
  have hd := default_history ops hn default_start h
  obtain ⟨r2, e2, -, d2⟩ := default_reportAll es hd
  refine ⟨r2, ?_⟩
  rw [history_append, h, Outcome.bind_ok, history, step, runTests, e2, Outcome.bind_ok, finish, d2.2.2.1]
  rfl

/-- **C62**. A reporter can be registered exactly if there is room and its name does not have `::`; it is then the last
of the list, and nothing else changes. Otherwise the program ends. -/
theorem C62_register (cap : Nat) (name : Text) (kind : Kind) (r : Registry ε) :
    addReporter cap name kind r =
      if r.reporters.length ≠ cap ∧ ¬ "::".toList <:+: name then
        .ok { r with reporters := r.reporters ++ [⟨name, kind⟩] }
      else .abort := by
  unfold addReporter
  by_cases hc : r.reporters.length = cap
  · rw [if_pos hc, if_neg (fun h => h.1 hc)]
  · rw [if_neg hc]
    by_cases hi : "::".toList <:+: name
    · rw [if_pos (by rw [findFrom_pair]; exact hi), if_neg (fun h => h.2 hi)]
    · rw [if_neg (by rw [findFrom_pair]; exact hi), if_pos ⟨hc, hi⟩]

/-- **C62**. A registered reporter is selected by giving its name, if this is not empty, does not begin with `:`, does
not have `::`, and no reporter registered before has the same name. -/
theorem C62_select {reporters : List Text} {name : Text} {i : Nat} (c : Cli.Config) (hi : IsReporter reporters name i)
    (h0 : name ≠ []) (h1 : name.head? ≠ some ':') (h2 : ¬ "::".toList <:+: name) :
    Cli.parseReporter reporters name c = .ok { c with reporter := some (i, []) } := by
  have hf : Util.findFrom name [':', ':'] 0 = none := by
    cases hf : Util.findFrom name [':', ':'] 0 with
    | none => rfl
    | some p => exact absurd ((findFrom_pair name).mp (by rw [hf]; rfl)) h2
  have hh : (name.isEmpty || name.head? == some ':') = false := by
    cases name with
    | nil => exact absurd rfl h0
    | cons a name =>
      have : a ≠ ':' := fun e => h1 (by rw [e]; rfl)
      simp [this]
  rw [Cli.parseReporter, hh, if_neg (by decide), hf]
  simp only [findIdx_reporter hi]
  rfl

/-- **C62**. Only such reporters are selected: one whose name is empty or begins with `:`, or is the name of a reporter
registered before, can be registered (`C62_register`), but no command line selects it. -/
theorem C62_selected {reporters : List Text} {arg : Text} {c c' : Cli.Config}
    (h : Cli.parseReporter reporters arg c = .ok c') : c'.reporter = c.reporter ∨
      ∃ i options name, c'.reporter = some (i, options) ∧ IsReporter reporters name i ∧ name <+: arg ∧ name ≠ [] ∧
        name.head? ≠ some ':' := by
  have key : ∀ {name : Text} {i : Nat}, (reporters.findIdx? (· == name) = some i) → IsReporter reporters name i := by
    intro name i hf
    obtain ⟨h1, h2, h3⟩ := List.findIdx?_eq_some_iff_getElem.mp hf
    refine ⟨by rw [List.getElem?_eq_getElem h1]; simpa using h2, ?_⟩
    intro j hj
    have := h3 j hj
    rw [List.getElem?_eq_getElem (by omega)]
    simpa using this
  unfold Cli.parseReporter at h
  split at h
  · cases h; exact .inl rfl
  · rename_i hh
    cases arg with
    | nil => exact absurd rfl hh
    | cons a arg =>
      have ha : a ≠ ':' := by
        intro e; apply hh; simp [e]
      have hname : ∃ name, (match Util.findFrom (a :: arg) [':', ':'] 0 with
          | some p => (a :: arg).take p | none => a :: arg) = name ∧ name <+: a :: arg ∧ name ≠ [] ∧
          name.head? ≠ some ':' := by
        cases hf : Util.findFrom (a :: arg) [':', ':'] 0 with
        | none => exact ⟨_, rfl, List.prefix_refl _, by simp, by simpa using ha⟩
        | some p =>
          cases p with
          | zero =>
            exfalso
            obtain ⟨x, y, e, hx, -⟩ := Util.findFrom_some hf
            have : x = [] := List.eq_nil_of_length_eq_zero (by omega)
            rw [this] at e
            simp at e
            exact ha e.1
          | succ p =>
            exact ⟨_, rfl, List.take_prefix _ _, by simp, by simpa using ha⟩
      obtain ⟨name, hn, h1, h2, h3⟩ := hname
      simp only at h
      split at h
      · cases h; exact .inl rfl
      · rename_i i hi
        replace hi : IsReporter reporters name i := by subst hn; exact key hi
        split at h
        · cases h
          exact .inr ⟨i, _, name, rfl, hi, h1, h2, h3⟩
        · split at h
          · cases h
          · cases h
            exact .inr ⟨i, _, name, rfl, hi, h1, h2, h3⟩

/-! ### Concrete cases -/

/-- Two reporters: a type and a set of functions with all of them. -/
private def twoReporters : List (Op Nat) :=
  [.add "xml".toList (.typed 1), .add "f".toList (.functions 7 true true true)]

example : ∃ r, history 8 twoReporters {} = .ok r ∧ r.reporters[0]? = some ⟨"xml".toList, .typed 1⟩ ∧
    r.reporters[1]? = some ⟨"f".toList, .functions 7 true true true⟩ := ⟨_, rfl, rfl, rfl⟩

/-- A run with the type, then one with the functions, then one with the type again. -/
example : ∃ r, history 8 (twoReporters ++ [.choose 0 [("k".toList, "v".toList)], .run [10, 11], .choose 1 [], .run [12],
      .choose 0 [], .run [13]]) {} = .ok r ∧
    r.log = [.create 0 1, .configured 0 ['k'] ['v'], .told 0 10, .told 0 11, .destroy 0, .initialised 7, .called 7 12,
      .finished 7, .create 1 1, .told 1 13, .destroy 1] := ⟨_, rfl, rfl⟩

/-- An object of the default reporter is replaced by the one chosen later. -/
example : ∃ r, history 8 (twoReporters ++ [.run [9], .run [10], .choose 0 [], .run [11]]) {} = .ok r ∧
    r.log = [.create 0 0, .told 0 9, .told 0 10, .destroy 0, .create 1 1, .told 1 11, .destroy 1] := ⟨_, rfl, rfl⟩

example : history 8 (twoReporters ++ [.choose 0 [], .run [10], .run [11]]) {} = .abort := rfl

example : NoChoice (twoReporters ++ [.run [9], .run [10]]) := trivial

/-- There is no room for a third reporter, or the name is bad. -/
example : history 2 (twoReporters ++ [.add "x".toList (.typed 2)]) {} = .abort ∧
    history 8 (twoReporters ++ [.add "a::b".toList (.typed 2)]) {} = .abort := ⟨rfl, rfl⟩

example : IsReporter ["console".toList, "a:b".toList] "a:b".toList 1 ∧ ¬ "::".toList <:+: "a:b".toList :=
  ⟨⟨rfl, by intro j hj; have : j = 0 := by omega
            subst this; decide⟩, by rw [← findFrom_pair]; decide⟩

example : Cli.parseReporter ["console".toList, "a:b".toList] "a:b::k=v".toList (initialConfig true) =
    .ok { initialConfig true with reporter := some (1, [("k".toList, "v".toList)]) } := by decide

end Verif.Props
