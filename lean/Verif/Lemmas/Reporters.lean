import Verif.Spec.Reporters
/-! # Reporters: invariants -/
namespace Verif.Reporters
open Spec

variable {ε : Type}

theorem bind_eq_ok {α β : Type} {x : Outcome α} {f : α → Outcome β} {b : β}
    (h : x >>= f = .ok b) : ∃ a, x = .ok a ∧ f a = .ok b := by
  cases x with
  | ok a => exact ⟨a, rfl, h⟩
  | abort => cases h
  | ub => cases h

theorem aliveFrom_append (a b : List (Call ε)) : ∀ cur, aliveFrom cur (a ++ b) = aliveFrom (aliveFrom cur a) b := by
  induction a with
  | nil => intro cur; rfl
  | cons x a ih => intro cur; cases x <;> exact ih _

theorem orderlyFrom_append (a b : List (Call ε)) : ∀ cur, OrderlyFrom cur (a ++ b) ↔
    OrderlyFrom cur a ∧ OrderlyFrom (aliveFrom cur a) b := by
  induction a with
  | nil => intro cur; simp [OrderlyFrom, aliveFrom]
  | cons x a ih => intro cur; cases x <;> simp [OrderlyFrom, aliveFrom, ih, and_assoc]

theorem created_append (a b : List (Call ε)) : created (a ++ b) = created a ++ created b := by
  simp [created]

/-- What always holds. -/
structure Inv (r : Registry ε) : Prop where
  orderly : Orderly r.log
  made : created r.log = List.range r.made.length
  gone : ∀ o ∈ r.gone, o < r.made.length
  empty : r.storage.id = none → r.storage.deleter = none ∧ alive r.log = none
  full : ∀ t, r.storage.id = some t → r.storage.deleter = some t ∧
    ∃ o, r.storage.storage = some o ∧ r.made[o]? = some t ∧ o ∉ r.gone ∧ alive r.log = some o

theorem inv_start : Inv ({} : Registry ε) :=
  ⟨trivial, rfl, by simp, fun _ => ⟨rfl, rfl⟩, fun t h => by cases h⟩

/-- Resetting the storage destroys what is alive. -/
theorem Inv.reset {r : Registry ε} (h : Inv r) : ∃ r', resetStorage r = .ok r' ∧ Inv r' ∧
    r'.log = r.log ++ (alive r.log).toList.map .destroy ∧ r'.storage.id = none ∧ r'.reporters = r.reporters ∧
    r'.callback = r.callback ∧ r'.finish = r.finish ∧ r'.made = r.made := by
  unfold resetStorage Any.Container.reset
  cases hid : r.storage.id with
  | none =>
    obtain ⟨h1, h2⟩ := h.empty hid
    have e : Any.callDeleter r.storage r.made r.gone = .ok r.gone := by simp [Any.callDeleter, h1]
    rw [e, h2]
    refine ⟨_, rfl, ?_, ?_, rfl, rfl, rfl, rfl, rfl⟩
    · constructor
      · simpa using h.orderly
      · simpa using h.made
      · exact h.gone
      · intro _; exact ⟨rfl, by simpa using h2⟩
      · intro t ht; cases ht
    · simp
  | some t =>
    obtain ⟨h1, o, h2, h3, h4, h5⟩ := h.full t hid
    have e : Any.callDeleter r.storage r.made r.gone = .ok (r.gone ++ [o]) := by
      simp [Any.callDeleter, h1, h2, h3, h4]
    have ho : o < r.made.length := (List.getElem?_eq_some_iff.mp h3).1
    rw [e, h5]
    have hlog : (r.log ++ ((r.gone ++ [o]).drop r.gone.length).map .destroy : List (Call ε)) =
        r.log ++ [.destroy o] := by simp
    refine ⟨_, rfl, ?_, hlog, rfl, rfl, rfl, rfl, rfl⟩
    constructor
    · show Orderly (r.log ++ _)
      rw [hlog]
      exact (orderlyFrom_append _ _ _).mpr ⟨h.orderly, h5, trivial⟩
    · show created (r.log ++ _) = _
      rw [hlog, created_append]
      simpa [created] using h.made
    · intro x hx
      rcases List.mem_append.mp hx with hx | hx
      · exact h.gone x hx
      · rw [List.mem_singleton.mp hx]; exact ho
    · intro _
      refine ⟨rfl, ?_⟩
      show alive (r.log ++ _) = none
      rw [hlog, alive, aliveFrom_append]
      rfl
    · intro t' ht; cases ht

/-- Constructing a reporter object. -/
theorem Inv.emplace {r : Registry ε} (h : Inv r) (t : Nat) : ∃ r', emplaceStorage t r = .ok r' ∧ Inv r' ∧
    r'.log = r.log ++ (alive r.log).toList.map .destroy ++ [.create (created r.log).length t] ∧
    r'.storage.id = some t ∧ alive r'.log = some (created r.log).length ∧ r'.reporters = r.reporters ∧
    r'.callback = r.callback ∧ r'.finish = r.finish := by
  obtain ⟨r1, e1, i1, l1, s1, p1, c1, f1, m1⟩ := h.reset
  have hn : (created r.log).length = r1.made.length := by rw [h.made, m1]; simp
  have ha := (i1.empty s1).2
  unfold emplaceStorage
  rw [e1, Outcome.bind_ok, hn]
  have ha' : alive (r1.log ++ [.create r1.made.length t]) = some r1.made.length := by
    rw [alive, aliveFrom_append]; rfl
  refine ⟨_, rfl, ?_, by rw [← l1], rfl, ha', p1, c1, f1⟩
  constructor
  · exact (orderlyFrom_append _ _ _).mpr ⟨i1.orderly, ha, trivial⟩
  · show created (r1.log ++ _) = List.range (r1.made ++ [t]).length
    rw [created_append, i1.made, List.length_append, List.length_singleton, List.range_succ]
    rfl
  · intro o ho
    have := i1.gone o ho
    simp only [List.length_append, List.length_singleton]
    omega
  · intro hx; cases hx
  · intro t' ht
    cases ht
    refine ⟨rfl, r1.made.length, rfl, by simp, ?_, ha'⟩
    intro hg
    have := i1.gone _ hg
    omega

/-- Getting the object of the type that is stored. -/
theorem Inv.get {r : Registry ε} (h : Inv r) {t : Nat} (ht : r.storage.id = some t) :
    ∃ o, getStorage t r = .ok o ∧ alive r.log = some o := by
  obtain ⟨_, o, h2, h3, h4, h5⟩ := h.full t ht
  exact ⟨o, by simp [getStorage, Any.get, Any.Container.hasValue, ht, h2, h3, h4], h5⟩

/-- Recording a call that leaves the objects alone. -/
theorem Inv.record {r : Registry ε} (h : Inv r) (c : Call ε) (h1 : OrderlyFrom (alive r.log) [c])
    (h2 : aliveFrom (alive r.log) [c] = alive r.log) (h3 : created [c] = []) : Inv (record c r) := by
  have ha : alive (r.log ++ [c]) = alive r.log := by rw [alive, aliveFrom_append]; exact h2
  constructor
  · exact (orderlyFrom_append _ _ _).mpr ⟨h.orderly, h1⟩
  · show created (r.log ++ [c]) = _
    rw [created_append, h3, List.append_nil]; exact h.made
  · exact h.gone
  · intro hi; exact ⟨(h.empty hi).1, by show alive (r.log ++ [c]) = _; rw [ha]; exact (h.empty hi).2⟩
  · intro t ht
    obtain ⟨g1, o, g2, g3, g4, g5⟩ := h.full t ht
    exact ⟨g1, o, g2, g3, g4, by show alive (r.log ++ [c]) = _; rw [ha]; exact g5⟩

/-- What configuring a typed reporter does. -/
theorem configureAll_typed {t o : Nat} : ∀ (os : List (Text × Text)) {r : Registry ε}, Inv r →
    r.storage.id = some t → alive r.log = some o → ∃ r', configureAll (.typed t) os r = .ok r' ∧ Inv r' ∧
      r'.log = r.log ++ os.map (fun p => .configured o p.1 p.2) ∧ r'.storage.id = some t ∧ alive r'.log = some o ∧
      r'.reporters = r.reporters := by
  intro os
  induction os with
  | nil => intro r h ht ha; exact ⟨r, rfl, h, by simp, ht, ha, rfl⟩
  | cons p os ih =>
    intro r h ht ha
    obtain ⟨o', hg, ho⟩ := h.get ht
    rw [ha] at ho; cases ho
    have h' : Inv (record (.configured o p.1 p.2) r) :=
      h.record _ (by rw [ha]; exact ⟨rfl, trivial⟩) (by rw [ha]; rfl) rfl
    have ha' : alive (record (.configured o p.1 p.2) r).log = some o := by
      show alive (r.log ++ _) = _
      rw [alive, aliveFrom_append]; exact ha
    obtain ⟨r', e, i, l, s, a, q⟩ := ih h' ht ha'
    refine ⟨r', ?_, i, ?_, s, a, q⟩
    · obtain ⟨k, v⟩ := p
      rw [configureAll, configureOne, hg]
      exact e
    · rw [l]; simp [record]

/-- What configuring a reporter of functions does. -/
theorem configureAll_functions {c : Nat} {a b d : Bool} : ∀ (os : List (Text × Text)) {r : Registry ε}, Inv r →
    ∃ r', configureAll (.functions c a b d) os r = .ok r' ∧ Inv r' ∧
      r'.log = r.log ++ (if b then os.map fun p => .asked c p.1 p.2 else []) ∧ r'.reporters = r.reporters := by
  intro os
  induction os with
  | nil => intro r h; exact ⟨r, rfl, h, by simp, rfl⟩
  | cons p os ih =>
    intro r h
    cases b with
    | false =>
      obtain ⟨r', e, i, l, q⟩ := ih h
      exact ⟨r', e, i, by simpa using l, q⟩
    | true =>
      obtain ⟨r', e, i, l, q⟩ := ih (h.record (.asked c p.1 p.2) trivial rfl rfl)
      refine ⟨r', e, i, ?_, q⟩
      rw [l]; simp [record]

/-- The events of a run, for a typed reporter. -/
theorem reportAll_typed {t o : Nat} : ∀ (es : List ε) {r : Registry ε}, Inv r → r.callback = .typed t →
    r.storage.id = some t → alive r.log = some o → ∃ r', reportAll es r = .ok r' ∧ Inv r' ∧
      r'.log = r.log ++ es.map (.told o) ∧ r'.storage.id = some t ∧ alive r'.log = some o ∧
      r'.reporters = r.reporters ∧ r'.callback = r.callback ∧ r'.finish = r.finish := by
  intro es
  induction es with
  | nil => intro r h hc ht ha; exact ⟨r, rfl, h, by simp, ht, ha, rfl, rfl, rfl⟩
  | cons e es ih =>
    intro r h hc ht ha
    obtain ⟨o', hg, ho⟩ := h.get ht
    rw [ha] at ho; cases ho
    have h' : Inv (record (.told o e) r) :=
      h.record _ (by rw [ha]; exact ⟨rfl, trivial⟩) (by rw [ha]; rfl) rfl
    have ha' : alive (record (.told o e) r).log = some o := by
      show alive (r.log ++ _) = _
      rw [alive, aliveFrom_append]; exact ha
    obtain ⟨r', e', i, l, s, a, q⟩ := ih h' hc ht ha'
    refine ⟨r', ?_, i, ?_, s, a, q⟩
    · rw [reportAll, report, hc]
      simp only [hg]
      exact e'
    · rw [l]; simp [record]

/-- The events of a run, for a reporter of functions. -/
theorem reportAll_function {c : Nat} : ∀ (es : List ε) {r : Registry ε}, Inv r → r.callback = .function c →
    ∃ r', reportAll es r = .ok r' ∧ Inv r' ∧ r'.log = r.log ++ es.map (.called c) ∧
      r'.reporters = r.reporters ∧ r'.callback = r.callback ∧ r'.finish = r.finish := by
  intro es
  induction es with
  | nil => intro r h hc; exact ⟨r, rfl, h, by simp, rfl, rfl, rfl⟩
  | cons e es ih =>
    intro r h hc
    obtain ⟨r', e', i, l, q⟩ := ih (h.record (.called c e) trivial rfl rfl) hc
    refine ⟨r', ?_, i, ?_, q⟩
    · rw [reportAll, report, hc]; exact e'
    · rw [l]; simp [record]

/-- One event, without a choice. -/
theorem reportDefault_inv {r : Registry ε} (h : Inv r) (e : ε) : ∃ r' o, reportDefault e r = .ok r' ∧ Inv r' ∧
    r'.storage.id = some consoleType ∧ alive r'.log = some o ∧
    r'.log = r.log ++ (if r.storage.id = some consoleType then [] else
      (alive r.log).toList.map .destroy ++ [.create o consoleType]) ++ [.told o e] ∧
    (r.storage.id = some consoleType → alive r.log = some o) ∧
    (r.storage.id ≠ some consoleType → o = (created r.log).length) ∧
    r'.reporters = r.reporters ∧ r'.callback = r.callback ∧ r'.finish = r.finish := by
  unfold reportDefault
  by_cases hs : r.storage.id = some consoleType
  · obtain ⟨o, hg, ho⟩ := h.get hs
    rw [if_neg (by simpa using hs), Outcome.bind_ok]
    simp only [hg, if_pos hs]
    refine ⟨_, o, rfl, h.record _ (by rw [ho]; exact ⟨rfl, trivial⟩) (by rw [ho]; rfl) rfl, hs, ?_, ?_, fun _ => ho,
      fun hn => absurd hs hn, rfl, rfl, rfl⟩
    · show alive (r.log ++ _) = _
      rw [alive, aliveFrom_append]; exact ho
    · simp [record]
  · obtain ⟨r1, e1, i1, l1, s1, a1, q1⟩ := h.emplace consoleType
    obtain ⟨o, hg, ho⟩ := i1.get s1
    rw [a1] at ho; cases ho
    rw [if_pos hs, e1, Outcome.bind_ok]
    simp only [hg, if_neg hs]
    refine ⟨_, _, rfl, i1.record _ (by rw [a1]; exact ⟨rfl, trivial⟩) (by rw [a1]; rfl) rfl, s1, ?_, ?_,
      fun hn => absurd hn hs, fun _ => rfl, q1⟩
    · show alive (r1.log ++ _) = _
      rw [alive, aliveFrom_append]; exact a1
    · simp [record, l1]

theorem Inv.report {r r' : Registry ε} (h : Inv r) {e : ε} (hr : report e r = .ok r') : Inv r' := by
  unfold Reporters.report at hr
  split at hr
  · obtain ⟨r1, o, e1, i1, _⟩ := reportDefault_inv h e
    rw [e1] at hr; cases hr; exact i1
  · rename_i t hc
    by_cases ht : r.storage.id = some t
    · obtain ⟨o, hg, ho⟩ := h.get ht
      rw [hg] at hr
      cases hr
      exact h.record _ (by rw [ho]; exact ⟨rfl, trivial⟩) (by rw [ho]; rfl) rfl
    · exfalso
      have : getStorage t r = .abort := by
        unfold getStorage Any.get
        cases hh : r.storage.hasValue <;> simp [ht]
      rw [this] at hr
      cases hr
  · cases hr
    exact h.record _ trivial rfl rfl

theorem Inv.reportAll {es : List ε} : ∀ {r r' : Registry ε}, Inv r → reportAll es r = .ok r' → Inv r' := by
  induction es with
  | nil => intro r r' h hr; cases hr; exact h
  | cons e es ih =>
    intro r r' h hr
    rw [Reporters.reportAll] at hr
    obtain ⟨r1, h1, h2⟩ := bind_eq_ok hr
    exact ih (h.report h1) h2

theorem Inv.finish {r r' : Registry ε} (h : Inv r) (hr : finish r = .ok r') : Inv r' := by
  unfold Reporters.finish at hr
  split at hr
  · cases hr; exact h
  · obtain ⟨r1, e1, i1, _⟩ := h.reset
    rw [e1] at hr; cases hr; exact i1
  · cases hr; exact h.record _ trivial rfl rfl

theorem Inv.with_callbacks {r : Registry ε} (h : Inv r) (c : Callback) (f : Finish) :
    Inv { r with callback := c, finish := f } :=
  ⟨h.orderly, h.made, h.gone, h.empty, h.full⟩

/-- Choosing a reporter. -/
theorem Inv.choose {r : Registry ε} (h : Inv r) {i : Nat} {x : Registered} (hx : r.reporters[i]? = some x)
    (options : List (Text × Text)) : ∃ r', choose i options r = .ok r' ∧ Inv r' ∧ r'.reporters = r.reporters ∧
      r'.callback = callbackOf x.kind ∧ r'.finish = finishOf x.kind ∧
      match x.kind with
      | .typed t => r'.storage.id = some t ∧ alive r'.log = some (created r.log).length ∧
          r'.log = r.log ++ (alive r.log).toList.map .destroy ++ [.create (created r.log).length t] ++
            options.map (fun p => .configured (created r.log).length p.1 p.2)
      | .functions c init config _ => r'.log = r.log ++ (if init then [.initialised c] else []) ++
          (if config then options.map fun p => .asked c p.1 p.2 else []) := by
  unfold Reporters.choose
  rw [hx]
  obtain ⟨name, kind⟩ := x
  cases kind with
  | typed t =>
    obtain ⟨r1, e1, i1, l1, s1, a1, p1, -, -⟩ := h.emplace t
    obtain ⟨r2, e2, i2, l2, s2, a2, p2⟩ := configureAll_typed options i1 s1 a1
    simp only [initialise, e1, Outcome.bind_ok, e2]
    exact ⟨_, rfl, i2.with_callbacks _ _, p2.trans p1, rfl, rfl, s2, a2, by rw [l2, l1]⟩
  | functions c init config fin =>
    have h1 : Inv (if init then Reporters.record (.initialised c) r else r) := by
      cases init
      · exact h
      · exact h.record _ trivial rfl rfl
    obtain ⟨r2, e2, i2, l2, p2⟩ := configureAll_functions (c := c) (a := init) (b := config) (d := fin) options h1
    simp only [initialise, Outcome.bind_ok, e2]
    refine ⟨_, rfl, i2.with_callbacks _ _, ?_, rfl, rfl, ?_⟩
    · rw [p2]; cases init <;> rfl
    · rw [l2]; cases init <;> simp [Reporters.record]

theorem Inv.step {cap : Nat} {r r' : Registry ε} (h : Inv r) {op : Op ε} (hr : step cap r op = .ok r') : Inv r' := by
  cases op with
  | add name kind =>
    simp only [Reporters.step, addReporter] at hr
    split at hr
    · cases hr
    · split at hr
      · cases hr
      · cases hr
        exact ⟨h.orderly, h.made, h.gone, h.empty, h.full⟩
  | choose i options =>
    simp only [Reporters.step] at hr
    split at hr
    · rename_i hi
      obtain ⟨r1, e1, i1, _⟩ := h.choose (List.getElem?_eq_getElem hi) options
      rw [e1] at hr; cases hr; exact i1
    · cases hr; exact h
  | run es =>
    simp only [Reporters.step, runTests] at hr
    obtain ⟨r1, h1, h2⟩ := bind_eq_ok hr
    exact (h.reportAll h1).finish h2

theorem Inv.history {cap : Nat} {ops : List (Op ε)} : ∀ {r r' : Registry ε}, Inv r → history cap ops r = .ok r' →
    Inv r' := by
  induction ops with
  | nil => intro r r' h hr; cases hr; exact h
  | cons op ops ih =>
    intro r r' h hr
    rw [Reporters.history] at hr
    obtain ⟨r1, h1, h2⟩ := bind_eq_ok hr
    exact ih (h.step h1) h2

end Verif.Reporters
