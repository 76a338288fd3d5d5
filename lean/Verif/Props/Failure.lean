import Verif.Lemmas.Failure
import Verif.Props.Expression
import Verif.Lemmas.File
/-!
# C76, C77: exceeding limits and breaking preconditions
-/
namespace Verif.Props
open Verif Verif.Failure Verif.Failure.Spec

variable {σ α : Type}

/-! ## C76: what is said, and what happens then -/

/-- **C76**. Vectors: a call that is allowed by its documentation returns, says nothing, and does what C01 says; any other
call is refused, and the vector is left alone. -/
theorem C76_vector {v : SV α} (hv : v.size ≤ v.capacity) (h : Handler) (op : SV.Op α)
    (hw : NoWrap v op) :
    (Allowed v op → ∃ w, SV.step v op = .ok w ∧ Accepted w () (vectorStep op h v)) ∧
    (¬Allowed v op → Refused h (reasonFor op) [] [] v (vectorStep op h v)) := by
  cases op with
  | clear => exact ⟨fun _ => ⟨_, rfl, rfl⟩, fun k => absurd trivial k⟩
  | resize n =>
    constructor
    · intro k
      have k' : ¬ n > v.capacity := Nat.not_lt.mpr k
      exact ⟨{ v with size := n }, by simp only [SV.step, SV.resize, if_neg k'],
        by simp only [vectorStep, resize, bind_get, if_neg k']; rfl⟩
    · intro k
      have k' : n > v.capacity := Nat.lt_of_not_le k
      simp only [vectorStep, resize, bind_get, if_pos k']
      exact refused_failed _ _ _
  | grow n =>
    have e : (v.size + n) % sizeT = v.size + n := Nat.mod_eq_of_lt hw
    constructor
    · intro k
      have k' : ¬ v.size + n > v.capacity := Nat.not_lt.mpr k
      exact ⟨{ v with size := v.size + n }, by simp only [SV.step, SV.grow, e, if_neg k'],
        by simp only [vectorStep, grow, bind_get, e, if_neg k']; rfl⟩
    · intro k
      have k' : v.size + n > v.capacity := Nat.lt_of_not_le k
      simp only [vectorStep, grow, bind_get, e, if_pos k']
      exact refused_failed _ _ _
  | pushBack x =>
    constructor
    · intro k
      have k : v.size < v.capacity := k
      have k' : ¬ v.size = v.capacity := by omega
      exact ⟨{ buf := v.buf.set v.size x, size := v.size + 1 }, by simp only [SV.step, SV.pushBack, if_neg k', if_pos k],
        by simp only [vectorStep, pushBack, bind_get, if_neg k', if_pos k]; rfl⟩
    · intro k
      have k : ¬ v.size < v.capacity := k
      have k' : v.size = v.capacity := by omega
      simp only [vectorStep, pushBack, bind_get, if_pos k']
      exact refused_failed _ _ _
  | popBack =>
    constructor
    · intro k
      have k : ¬ v.size = 0 := k
      exact ⟨_, by simp only [SV.step, SV.popBack, if_neg k]; rfl,
        by simp only [vectorStep, popBack, bind_get, if_neg k]; rfl⟩
    · intro k
      have k : v.size = 0 := Classical.not_not.mp k
      simp only [vectorStep, popBack, bind_get, if_pos k]
      exact refused_failed _ _ _
  | set i x =>
    constructor
    · intro k
      have k : i < v.size := k
      have k' : ¬ i ≥ v.size := Nat.not_le.mpr k
      have k'' : i < v.buf.length := Nat.lt_of_lt_of_le k hv
      exact ⟨{ v with buf := v.buf.set i x }, by simp only [SV.step, SV.setAt, if_neg k', if_pos k''],
        by simp only [vectorStep, setAt, bind_get, if_neg k', if_pos k'']; rfl⟩
    · intro k
      have k' : i ≥ v.size := Nat.not_lt.mp k
      simp only [vectorStep, setAt, bind_get, if_pos k']
      exact refused_failed _ _ _

/-- **C76**. Reading from vectors: an element that is there is returned; reading any other is refused. -/
theorem C76_read {v : SV α} (hv : v.size ≤ v.capacity) (h : Handler) :
    (∀ i x, v.contents[i]? = some x → Accepted v x (getAt i h v)) ∧
    (∀ i, v.contents[i]? = none → Refused h "operator[] called with incorrect index".toList [] [] v (getAt i h v)) ∧
    (∀ x, v.contents.getLast? = some x → Accepted v x (back h v)) ∧
    (v.contents.getLast? = none → Refused h "back() called on empty vector".toList [] [] v (back h v)) := by
  have hl : v.contents.length = v.size := by
    simp only [SV.contents, List.length_take]; exact Nat.min_eq_left hv
  have hget : ∀ i, i < v.size → v.contents[i]? = v.buf[i]? := by
    intro i hi; simp only [SV.contents]; exact List.getElem?_take_of_lt hi
  refine ⟨?_, ?_, ?_, ?_⟩
  · intro i x hx
    obtain ⟨hi, -⟩ := List.getElem?_eq_some_iff.mp hx
    rw [hl] at hi
    rw [hget i hi] at hx
    simp only [getAt, bind_get, if_neg (Nat.not_le.mpr hi), hx]
    rfl
  · intro i hx
    have hi : i ≥ v.size := by rw [← hl]; exact List.getElem?_eq_none_iff.mp hx
    simp only [getAt, bind_get, if_pos hi]
    exact refused_failed _ _ _
  · intro x hx
    rw [List.getLast?_eq_getElem?, hl] at hx
    have hi : ¬ v.size = 0 := by
      intro h0
      obtain ⟨hi, -⟩ := List.getElem?_eq_some_iff.mp hx
      omega
    rw [hget _ (by omega)] at hx
    simp only [back, bind_get, if_neg hi, hx]
    rfl
  · intro hx
    have hi : v.size = 0 := by
      rw [← hl, List.getLast?_eq_none_iff.mp hx]; rfl
    simp only [back, bind_get, if_pos hi]
    exact refused_failed _ _ _

/-- A text about a limit, as printed by the code. -/
private theorem limit_text (color : Bool) {what option text : String} (limit : Nat) (tail : Text)
    (e : text.toList = " max ".toList ++ what.toList ++ " reached; please increase '".toList ++ option.toList ++
      "' (currently ".toList) :
    Cli.Spec.tinted color "\x1b[1;31m" "error:".toList ++ text.toList ++ Nat.toDigits 10 limit ++ (")".toList ++ tail) =
      limitText color what option limit ++ tail := by
  rw [limitText, e]; simp only [List.append_assoc]

/-- **C76**. Registering reporters. -/
theorem C76_reporters {env : Env} (h20 : 20 ≤ env.cap) (hcap : env.cap < 2 ^ 64) {max : Nat} (hm : max < 2 ^ 64)
    (h : Handler) (name : Text) (reporters : List Text) :
    (reporters.length = max → Refused h "max number of reporters reached".toList
      (limitText env.color "number of reporters" "SNITCH_MAX_REGISTERED_REPORTERS" max ++ ".\n".toList) [] reporters
      (addReporter env max name h reporters)) ∧
    (reporters.length < max → ¬ "::".toList <:+: name →
      Accepted (reporters ++ [name]) name (addReporter env max name h reporters)) ∧
    (reporters.length < max → "::".toList <:+: name → Refused h "invalid reporter name".toList
      (Cli.Spec.tinted env.color "\x1b[1;31m" "error:".toList ++
        " reporter name cannot contains '::' (trying to register '".toList ++ name ++ "')\n.".toList) [] reporters
      (addReporter env max name h reporters)) := by
  refine ⟨?_, ?_, ?_⟩
  · intro k
    have k' : max - reporters.length = 0 := by omega
    simp only [addReporter, bind_get, if_pos k']
    obtain ⟨before, e, h1, h2, h3⟩ := regPrint_limit h20 hcap hm
      " max number of reporters reached; please increase 'SNITCH_MAX_REGISTERED_REPORTERS' (currently " ").\n" h reporters
    refine refused_after e (h1.trans ?_) h2 h3
    exact limit_text (what := "number of reporters") (option := "SNITCH_MAX_REGISTERED_REPORTERS") env.color max ".\n".toList
      (by decide)
  · intro k hn
    have k' : ¬ max - reporters.length = 0 := by omega
    rw [← findAt_infix] at hn
    simp only [addReporter, bind_get, if_neg k', if_neg hn, bind_set]
    rfl
  · intro k hn
    have k' : ¬ max - reporters.length = 0 := by omega
    rw [← findAt_infix] at hn
    simp only [addReporter, bind_get, if_neg k', if_pos hn]
    obtain ⟨chunks, e, hc⟩ := C34_print env.cap hcap [.colored (Print.makeColored "error:".toList env.color
      Report.Console.failColor), .str " reporter name cannot contains '::' (trying to register '".toList, .str name,
      .str "')\n.".toList] (by
        intro a ha
        simp only [List.mem_cons, List.not_mem_nil, or_false] at ha
        rcases ha with rfl | rfl | rfl | rfl
        · exact fits_error h20 _
        all_goals trivial)
    refine refused_after (before := chunks.map .registry) ?_ ?_ (onConsole_chunks _) (told_chunks _)
    · simp only [regPrint, Outcome.bind_ok, e]
    · rw [byRegistry_chunks, hc]
      simp only [List.flatMap_cons, List.flatMap_nil, whole_error, List.append_nil, List.append_assoc]
      rfl

private theorem full_name (maxName : Nat) (id : Filter.TestId) : Filter.makeFullName maxName id =
    if (Reg.Spec.fullName id).length ≤ maxName then Reg.Spec.fullName id else [] := by
  unfold Filter.makeFullName Reg.Spec.fullName
  by_cases h : id.type = []
  · simp [h]
  · simp [h]

private theorem full_name_empty (maxName : Nat) (t : Run.TestCase) :
    (Filter.makeFullName maxName t.id).isEmpty = true ↔ ¬ Reg.Spec.Registrable maxName t := by
  rw [full_name, List.isEmpty_iff, Reg.Spec.Registrable]
  split
  · next k => simp [k]
  · next k => simp [k]

/-- **C76**. Registering tests: a test that fits is registered; otherwise the option that has to be changed is named. (An
empty name counts as too long. In the state found after a handler has thrown, a test with such a name is registered:
see `C77_tests_kept`.) -/
theorem C76_tests {env : Env} (h20 : 20 ≤ env.cap) (hcap : env.cap < 2 ^ 64) {lim : Reg.Limits} (hm : lim.maxTests < 2 ^ 64)
    (hn : lim.maxName < 2 ^ 64) (h : Handler) (t : Run.TestCase) (cases : List Reg.Case) :
    (cases.length = lim.maxTests → Refused h "max number of test cases reached".toList
      (limitText env.color "number of test cases" "SNITCH_MAX_TEST_CASES" lim.maxTests ++ ".\n".toList) [] cases
      (addTest env lim t h cases)) ∧
    (cases.length < lim.maxTests → Reg.Spec.Registrable lim.maxName t →
      Accepted (cases ++ [{ test := t }]) () (addTest env lim t h cases)) ∧
    (cases.length < lim.maxTests → ¬ Reg.Spec.Registrable lim.maxName t →
      Refused h "test case name exceeds max length".toList
      (limitText env.color "length of test name" "SNITCH_MAX_TEST_NAME_LENGTH" lim.maxName ++ "\n.".toList) []
      (cases ++ [{ test := t }]) (addTest env lim t h cases)) := by
  have hfull := full_name_empty lim.maxName t
  refine ⟨?_, ?_, ?_⟩
  · intro k
    have k' : lim.maxTests - cases.length = 0 := by omega
    simp only [addTest, bind_get, if_pos k']
    obtain ⟨before, e, h1, h2, h3⟩ := regPrint_limit h20 hcap hm
      " max number of test cases reached; please increase 'SNITCH_MAX_TEST_CASES' (currently " ").\n" h cases
    refine refused_after e (h1.trans ?_) h2 h3
    exact limit_text (what := "number of test cases") (option := "SNITCH_MAX_TEST_CASES") env.color _ ".\n".toList (by decide)
  · intro k hl
    have k' : ¬ lim.maxTests - cases.length = 0 := by omega
    have hf : ¬ (Filter.makeFullName lim.maxName t.id).isEmpty = true := by rw [hfull]; exact fun k => k hl
    simp only [addTest, bind_get, if_neg k', bind_set, if_neg hf]
    rfl
  · intro k hl
    have k' : ¬ lim.maxTests - cases.length = 0 := by omega
    have hf := hfull.mpr hl
    simp only [addTest, bind_get, if_neg k', bind_set, if_pos hf]
    obtain ⟨before, e, h1, h2, h3⟩ := regPrint_limit h20 hcap hn
      " max length of test name reached; please increase 'SNITCH_MAX_TEST_NAME_LENGTH' (currently " ")\n." h
      (cases ++ [{ test := t }])
    refine refused_after e (h1.trans ?_) h2 h3
    exact limit_text (what := "length of test name") (option := "SNITCH_MAX_TEST_NAME_LENGTH") env.color _ "\n.".toList
      (by decide)

/-- **C76**. Captures. -/
theorem C76_captures {env : Env} (h20 : 20 ≤ env.cap) (hcap : env.cap < 2 ^ 64) {max : Nat} (hm : max < 2 ^ 64)
    (h : Handler) (texts : List Text) {captures : List Text} (hr : captures.length ≤ max) :
    (captures.length + texts.length ≤ max → Accepted (captures ++ texts) () (addCaptures env max texts h captures)) ∧
    (max < captures.length + texts.length → Refused h "max number of captures reached".toList
      (limitText env.color "number of captures" "SNITCH_MAX_CAPTURES" max ++ "\n.".toList) []
      (captures ++ texts.take (max - captures.length)) (addCaptures env max texts h captures)) := by
  induction texts generalizing captures with
  | nil =>
    refine ⟨fun _ => ?_, fun k => absurd k (by simp only [List.length_nil]; omega)⟩
    rw [List.append_nil]; rfl
  | cons c cs ih =>
    by_cases k : captures.length = max
    · refine ⟨fun k' => absurd k' (by simp only [List.length_cons]; omega), fun _ => ?_⟩
      have k' : max - captures.length = 0 := by omega
      rw [k', List.take_zero, List.append_nil, addCaptures]
      refine Refused.bind ?_
      simp only [addCapture, bind_get, if_pos k']
      obtain ⟨before, e, h1, h2, h3⟩ := regPrint_limit h20 hcap hm
        " max number of captures reached; please increase 'SNITCH_MAX_CAPTURES' (currently " ")\n." h captures
      refine refused_after e (h1.trans ?_) h2 h3
      exact limit_text (what := "number of captures") (option := "SNITCH_MAX_CAPTURES") env.color _ "\n.".toList (by decide)
    · have k' : ¬ max - captures.length = 0 := by omega
      have e : addCaptures env max (c :: cs) h captures = addCaptures env max cs h (captures ++ [c]) := by
        rw [addCaptures]
        refine bind_quiet (a := ()) ?_
        simp only [addCapture, bind_get, if_neg k']
        rfl
      have hl : (captures ++ [c]).length = captures.length + 1 := by simp
      obtain ⟨i1, i2⟩ := ih (captures := captures ++ [c]) (by omega)
      rw [hl] at i1 i2
      rw [e, List.length_cons]
      refine ⟨fun k2 => ?_, fun k2 => ?_⟩
      · have := i1 (by omega)
        rwa [List.append_assoc] at this
      · have := i2 (by omega)
        rw [List.append_assoc] at this
        have e2 : max - captures.length = (max - (captures.length + 1)) + 1 := by omega
        rw [e2, List.take_succ_cons]
        exact this

/-- **C76**. Sections: at the start of a section there is a level for it, or it is refused. -/
theorem C76_sections {env : Env} (h20 : 20 ≤ env.cap) (hcap : env.cap < 2 ^ 64) {cfg : Run.Cfg} (hm : cfg.maxNested < 2 ^ 64)
    (h : Handler) {x : Run.SecState} (hx : x.levels.length ≤ cfg.maxNested) :
    (x.depth < cfg.maxNested → ∃ y, Run.ensureLevel cfg x = .ok y ∧
      Accepted { y with depth := y.depth + 1 } () (beginSection env cfg h x)) ∧
    (cfg.maxNested ≤ x.depth → Refused h "max number of nested sections reached".toList
      (limitText env.color "number of nested sections" "SNITCH_MAX_NESTED_SECTIONS" cfg.maxNested ++ "\n.".toList) []
      (leaveDepth x) (beginSection env cfg h x)) := by
  constructor
  · intro k
    by_cases hd : x.depth ≥ x.levels.length
    · have k1 : ¬ x.depth ≥ cfg.maxNested := by omega
      have k2 : ¬ x.levels.length ≥ cfg.maxNested := by omega
      refine ⟨{ x with levels := x.levels ++ [{}] }, by simp only [Run.ensureLevel, if_pos hd, if_neg k1, if_neg k2], ?_⟩
      have e : ensureLevel env cfg h x = ⟨[], .ok { x with levels := x.levels ++ [{}] } ()⟩ := by
        simp only [ensureLevel, bind_get, if_pos hd, if_neg k1, if_neg k2]; rfl
      simp only [Accepted, beginSection, e]
    · refine ⟨x, by simp only [Run.ensureLevel, if_neg hd], ?_⟩
      have e : ensureLevel env cfg h x = ⟨[], .ok x ()⟩ := by
        simp only [ensureLevel, bind_get, if_neg hd]; rfl
      simp only [Accepted, beginSection, e]
  · intro k
    have hd : x.depth ≥ x.levels.length := by omega
    have k1 : x.depth ≥ cfg.maxNested := by omega
    obtain ⟨before, e, h1, h2, h3⟩ := regPrint_limit h20 hcap hm
      " max number of nested sections reached; please increase 'SNITCH_MAX_NESTED_SECTIONS' (currently " ")\n." h x
    have hr : Refused h "max number of nested sections reached".toList
        (limitText env.color "number of nested sections" "SNITCH_MAX_NESTED_SECTIONS" cfg.maxNested ++ "\n.".toList) []
        x (ensureLevel env cfg h x) := by
      simp only [ensureLevel, bind_get, if_pos hd, if_pos k1]
      refine refused_after e (h1.trans ?_) h2 h3
      exact limit_text (what := "number of nested sections") (option := "SNITCH_MAX_NESTED_SECTIONS") env.color _
        "\n.".toList (by decide)
    unfold beginSection
    revert hr
    generalize ensureLevel env cfg h x = r
    rintro ⟨before, g1, g2, g3, g4⟩
    obtain ⟨said, result⟩ := r
    cases h with
    | standard =>
      obtain ⟨⟨after, k1, k2, k3, k4⟩, k5⟩ := g4
      dsimp only at k1 k5
      subst k5
      exact ⟨before, g1, g2, g3, ⟨after, k1, k2, k3, k4⟩, rfl⟩
    | user ends =>
      obtain ⟨k1, k2⟩ := g4
      dsimp only at k1 k2
      refine ⟨before, g1, g2, g3, ?_⟩
      revert k2
      cases e : ends "max number of nested sections reached".toList <;> dsimp only <;> intro k2 <;> subst k2 <;>
        exact ⟨k1, by rw [e]⟩

/-- **C76**. `get<T>()` of an `inplace_any`. -/
theorem C76_any (h : Handler) (w : Any.World) (c : Any.Container) (type : Nat) :
    (c.id = none → Refused h "inplace_any is empty".toList [] [] w (anyGet c type h w)) ∧
    (∀ other, c.id = some other → other ≠ type →
      Refused h "inplace_any holds an object of a different type".toList [] [] w (anyGet c type h w)) ∧
    (c.id = some type → ∀ o, Any.get w c type = .ok o → Accepted w o (anyGet c type h w)) := by
  refine ⟨fun k => ?_, fun other k hne => ?_, fun k o ho => ?_⟩
  · have k' : (!c.hasValue) = true := by simp [Any.Container.hasValue, k]
    simp only [anyGet, bind_get, if_pos k']
    exact refused_failed _ _ _
  · have k' : ¬ (!c.hasValue) = true := by simp [Any.Container.hasValue, k]
    have k2 : c.id ≠ some type := by rw [k]; simpa using hne
    simp only [anyGet, bind_get, if_neg k', if_pos k2]
    exact refused_failed _ _ _
  · have k' : ¬ (!c.hasValue) = true := by simp [Any.Container.hasValue, k]
    have k2 : ¬ c.id ≠ some type := by simp [k]
    simp only [Any.get, if_neg k', if_neg k2] at ho
    simp only [anyGet, bind_get, if_neg k', if_neg k2]
    cases hs : c.storage with
    | none => simp [hs] at ho
    | some p =>
      simp only [hs] at ho ⊢
      split at ho
      · next hp =>
        cases ho
        rw [if_pos hp]
        rfl
      · simp at ho

private theorem cString_some : ∀ (s : List Char), '\x00' ∈ s → ∃ p, File.cString s = .ok p := by
  intro s
  induction s with
  | nil => intro h; cases h
  | cons c s ih =>
    intro h
    by_cases hc : c = '\x00'
    · exact ⟨[], by simp only [File.cString, if_pos hc]⟩
    · obtain ⟨p, e⟩ := ih ((List.mem_cons.mp h).resolve_left fun k => hc k.symm)
      exact ⟨c :: p, by simp only [File.cString, if_neg hc, e, Outcome.bind_ok]; rfl⟩

/-- **C76**. Opening a file for output. (For paths of exactly one character more than the limit see C39.) -/
theorem C76_file {maxPath : Nat} (hm : maxPath + 1 < 2 ^ 64) (h : Handler) (w : File.World) (path : Text) :
    (maxPath + 1 < path.length → ∀ succeeds,
      Refused h "output file path is too long".toList [] [] w (openFile maxPath path succeeds h w)) ∧
    (path.length ≤ maxPath → Refused h "output file could not be opened for writing".toList [] [] w
      (openFile maxPath path false h w)) ∧
    (path.length ≤ maxPath → ∃ w', File.openFile maxPath w path true = .ok w' ∧
      Accepted w' () (openFile maxPath path true h w)) := by
  have hfit : path.length ≤ maxPath → ∃ ss p, Append.text false (SV.empty (maxPath + 1) '\x00') path = .ok (ss, true) ∧
      File.cString ss.buf = .ok p := by
    intro k
    have e := File.fast_fresh (maxPath + 1) hm path (by omega)
    obtain ⟨p, hp⟩ := cString_some (path ++ List.replicate (maxPath + 1 - path.length) '\x00') (by
      rw [List.mem_append, List.mem_replicate]; right; exact ⟨by omega, rfl⟩)
    exact ⟨_, p, e, hp⟩
  refine ⟨fun k succeeds => ?_, fun k => ?_, fun k => ?_⟩
  · obtain ⟨v, e, _⟩ := Append.text_holds false (SV.holds_empty (maxPath + 1) '\x00') hm path
    have : (decide (([] : Text).length + path.length ≤ maxPath + 1)) = false := by simp; omega
    rw [this] at e
    simp only [openFile, bind_get, e, Bool.false_eq_true, if_false]
    exact refused_failed _ _ _
  · obtain ⟨ss, p, e, hp⟩ := hfit k
    simp only [openFile, bind_get, e, if_true, hp, Bool.false_eq_true, if_false]
    exact refused_failed _ _ _
  · obtain ⟨ss, p, e, hp⟩ := hfit k
    refine ⟨{ writers := w.writers ++ [some (some w.files)], files := w.files + 1,
              calls := w.calls ++ [.opened w.files p] }, ?_, ?_⟩
    · simp only [File.openFile, File.pathFor, e, Outcome.bind_ok, if_true, hp]; rfl
    · simp only [openFile, bind_get, e, if_true, hp]
      rfl

/-- **C76**. Test macros used where no test is running. -/
theorem C76_no_test (h : Handler) (s : σ) :
    onConsole (getCurrentTest (α := α) none h s).said =
      "terminate called with message: no test case is currently running on this thread\n".toList ∧
    (getCurrentTest (α := α) none h s).result = .terminated ∧
    ∀ t : α, Accepted s t (getCurrentTest (some t) h s) := by
  refine ⟨?_, rfl, fun t => rfl⟩
  exact (terminate_text _).trans (by decide)

/-! ### Listing tags -/

private theorem storeTag_ok {env : Env} {max : Nat} {v : Text × Bool} {tags tags' : List Text}
    (e : Reg.storeTag max tags v = .ok tags') (h : Handler) : storeTag env max v h tags = ⟨[], .ok tags' ()⟩ := by
  unfold Reg.storeTag at e
  simp only [storeTag, bind_get]
  split at e
  · next k => cases e; rw [if_pos k]; rfl
  next k =>
  split at e
  · cases e
  next k2 =>
  split at e
  · cases e
  next k3 =>
    cases e
    rw [if_neg k, if_neg k2, if_neg k3]
    rfl

private theorem storeTag_abort {env : Env} (h20 : 20 ≤ env.cap) (hcap : env.cap + 3 < 2 ^ 64) {max : Nat} (hm : max < 2 ^ 64)
    {v : Text × Bool} {tags : List Text} (e : Reg.storeTag max tags v = .abort) (h : Handler) :
    Refused h "max number of unique tags reached".toList []
      (Verif.Spec.cut env.cap (limitText env.color "number of tags" "SNITCH_MAX_UNIQUE_TAGS" max ++ ".\n".toList)) tags
      (storeTag env max v h tags) := by
  unfold Reg.storeTag at e
  simp only [storeTag, bind_get]
  split at e
  · cases e
  next k =>
  split at e
  · next k2 =>
    rw [if_neg k, if_pos k2]
    obtain ⟨before, e, h1, h2, h3⟩ := cliPrint_limit h20 hcap hm
      " max number of tags reached; please increase 'SNITCH_MAX_UNIQUE_TAGS' (currently " ").\n" h tags
    refine refused_after e h2 (h1.trans ?_) h3
    congr 1
    exact limit_text (what := "number of tags") (option := "SNITCH_MAX_UNIQUE_TAGS") env.color _ ".\n".toList (by decide)
  · split at e <;> cases e

private theorem storeTags_follows {env : Env} (h20 : 20 ≤ env.cap) (hcap : env.cap + 3 < 2 ^ 64) {max : Nat}
    (hm : max < 2 ^ 64) (h : Handler) : ∀ (vs : List (Text × Bool)) (tags : List Text),
    (∀ tags', Reg.storeTags max vs tags = .ok tags' → storeTags env max vs h tags = ⟨[], .ok tags' ()⟩) ∧
    (Reg.storeTags max vs tags = .abort → ∃ tags', Refused h "max number of unique tags reached".toList []
      (Verif.Spec.cut env.cap (limitText env.color "number of tags" "SNITCH_MAX_UNIQUE_TAGS" max ++ ".\n".toList)) tags'
      (storeTags env max vs h tags)) := by
  intro vs
  induction vs with
  | nil => intro tags; exact ⟨(fun _ e => by cases e; rfl), (fun e => by cases e)⟩
  | cons v vs ih =>
    intro tags
    rw [Reg.storeTags, storeTags]
    cases e : Reg.storeTag max tags v with
    | ok x =>
      rw [Outcome.bind_ok, bind_quiet (storeTag_ok e h)]
      exact ih x
    | abort => exact ⟨(fun _ k => by cases k), fun _ => ⟨_, Refused.bind (storeTag_abort h20 hcap hm e h)⟩⟩
    | ub => exact ⟨(fun _ k => by cases k), (fun k => by cases k)⟩

private theorem tagViews_ok {τ : Type} {m : Nat} {t : Text} {vs : List (Text × Bool)} (e : Reg.tagViews m t = .ok vs)
    (h : Handler) (s : τ) : tagViews m t h s = ⟨[], .ok s vs⟩ := by
  simp only [Reg.tagViews] at e
  simp only [tagViews]
  split at e
  · next k => cases e; rw [if_pos k]; rfl
  next k =>
  rw [if_neg k]
  split at e
  · next k2 =>
    rw [if_pos k2]
    split at e
    · next k3 => cases e; rw [if_pos k3]; rfl
    · cases e
  · next k2 => cases e; rw [if_neg k2]; rfl

private theorem storeRaw_follows {env : Env} (h20 : 20 ≤ env.cap) (hcap : env.cap + 3 < 2 ^ 64) {lim : Reg.Limits}
    (hm : lim.maxUniqueTags < 2 ^ 64) (h : Handler) : ∀ (ts : List Text), (∀ t ∈ ts, ∃ vs, Reg.tagViews lim.cfg.maxTag t = .ok vs) →
    ∀ (tags : List Text),
    (∀ tags', Reg.storeRaw lim ts tags = .ok tags' → storeRaw env lim ts h tags = ⟨[], .ok tags' ()⟩) ∧
    (Reg.storeRaw lim ts tags = .abort → ∃ tags', Refused h "max number of unique tags reached".toList []
      (Verif.Spec.cut env.cap (limitText env.color "number of tags" "SNITCH_MAX_UNIQUE_TAGS" lim.maxUniqueTags ++ ".\n".toList))
      tags' (storeRaw env lim ts h tags)) := by
  intro ts
  induction ts with
  | nil => intro _ tags; exact ⟨(fun _ e => by cases e; rfl), (fun e => by cases e)⟩
  | cons t ts ih =>
    intro hv tags
    obtain ⟨vs, e1⟩ := hv t (by simp)
    rw [Reg.storeRaw, storeRaw, e1, Outcome.bind_ok, bind_quiet (tagViews_ok e1 h tags)]
    obtain ⟨f1, f2⟩ := storeTags_follows h20 hcap hm h vs tags
    cases e : Reg.storeTags lim.maxUniqueTags vs tags with
    | ok x =>
      rw [Outcome.bind_ok, bind_quiet (f1 x e)]
      exact ih (fun y hy => hv y (List.mem_cons_of_mem _ hy)) x
    | abort =>
      obtain ⟨t', r⟩ := f2 e
      exact ⟨(fun _ k => by cases k), fun _ => ⟨t', Refused.bind r⟩⟩
    | ub => exact ⟨(fun _ k => by cases k), (fun k => by cases k)⟩

private theorem rawTags_ok {τ : Type} {s : Text} {l : List Text} (e : Filter.rawTags s = .ok l) (h : Handler) (t : τ) :
    rawTags s h t = ⟨[], .ok t l⟩ := by
  simp only [Filter.rawTags] at e
  simp only [rawTags]
  split at e
  · next k => cases e; rw [if_pos k]; rfl
  next k =>
  rw [if_neg k]
  split at e
  · cases e
  next k2 =>
  rw [if_neg k2]
  split at e
  · next k3 => cases e; rw [k3]; rfl
  · cases e

private theorem collectTags_follows {env : Env} (h20 : 20 ≤ env.cap) (hcap : env.cap + 3 < 2 ^ 64) {lim : Reg.Limits}
    (hm : lim.maxUniqueTags < 2 ^ 64) (h : Handler) : ∀ (cases : List Reg.Case),
    (∀ c ∈ cases, ∃ raw, Filter.rawTags c.test.id.tags = .ok raw ∧
      ∀ t ∈ raw, ∃ vs, Reg.tagViews lim.cfg.maxTag t = .ok vs) → ∀ (tags : List Text),
    (∀ tags', Reg.collectTags lim cases tags = .ok tags' → collectTags env lim cases h tags = ⟨[], .ok tags' ()⟩) ∧
    (Reg.collectTags lim cases tags = .abort → ∃ tags', Refused h "max number of unique tags reached".toList []
      (Verif.Spec.cut env.cap (limitText env.color "number of tags" "SNITCH_MAX_UNIQUE_TAGS" lim.maxUniqueTags ++ ".\n".toList))
      tags' (collectTags env lim cases h tags)) := by
  intro cases
  induction cases with
  | nil => intro _ tags; exact ⟨(fun _ e => by cases e; rfl), (fun e => by cases e)⟩
  | cons c cs ih =>
    intro hv tags
    obtain ⟨raw, e1, hr⟩ := hv c (by simp)
    rw [Reg.collectTags, collectTags, e1, Outcome.bind_ok, bind_quiet (rawTags_ok e1 h tags)]
    obtain ⟨f1, f2⟩ := storeRaw_follows h20 hcap hm h raw hr tags
    cases e : Reg.storeRaw lim raw tags with
    | ok x =>
      rw [Outcome.bind_ok, bind_quiet (f1 x e)]
      exact ih (fun y hy => hv y (List.mem_cons_of_mem _ hy)) x
    | abort =>
      obtain ⟨t', r⟩ := f2 e
      exact ⟨(fun _ k => by cases k), fun _ => ⟨t', Refused.bind r⟩⟩
    | ub => exact ⟨(fun _ k => by cases k), (fun k => by cases k)⟩

private theorem printTags_eq {τ : Type} {env : Env} (hcap : env.cap + 3 < 2 ^ 64) (h : Handler) (s : τ) :
    ∀ (l : List Text), printTags env l h s =
      ⟨l.map fun t => .console (Verif.Spec.cut env.cap ("[".toList ++ t ++ "]\n".toList)), .ok s ()⟩ := by
  intro l
  induction l with
  | nil => rfl
  | cons t l ih =>
    have e := Cli.say_eq (cap := env.cap) hcap (args := [.str "[".toList, .str t, .str "]\n".toList])
      (Cli.room_strs (by
        intro a ha
        simp only [List.mem_cons, List.not_mem_nil, or_false] at ha
        rcases ha with rfl | rfl | rfl <;> exact ⟨_, rfl⟩) _)
    have e2 : cliPrint env (.ok [.str "[".toList, .str t, .str "]\n".toList]) h s =
        ⟨[.console (Verif.Spec.cut env.cap ("[".toList ++ t ++ "]\n".toList))], .ok s ()⟩ := by
      rw [cliPrint, Outcome.bind_ok, e]
      simp only [List.flatMap_cons, List.flatMap_nil, List.append_nil]
      rfl
    rw [printTags, bind_def, e2]
    dsimp only
    rw [ih]
    rfl

/-- **C76**. Listing the tags, for tests as in C49 (every `x` of a short form `.x` is a tag of its own before): if there are not more than allowed, they are printed, one in each line
(shortened where a line is too long, C31); if there are more, this is refused, with a message on the console. -/
theorem C76_tags {env : Env} (h20 : 20 ≤ env.cap) (hcap : env.cap + 3 < 2 ^ 64) {lim : Reg.Limits}
    (hm : lim.maxUniqueTags < 2 ^ 64) (h : Handler) {cases : List Reg.Case} (tags : Reg.Case → List Text)
    (h1 : ∀ c ∈ cases, Reg.Spec.Tagged lim.cfg.maxTag c.test.id (tags c))
    (h2 : SeenBefore (allUses tags cases)) {used : List Text} (hd : used.Nodup)
    (hu : ∀ x, x ∈ used ↔ ∃ c ∈ cases, x ∈ Verif.Spec.visibleTags (tags c)) :
    (used.length ≤ lim.maxUniqueTags → ∃ l : List Text, l.Nodup ∧ l.Pairwise (· ≤ ·) ∧ (∀ x, x ∈ l ↔ x ∈ used) ∧
      listAllTags env lim h cases =
        ⟨l.map fun t => .console (Verif.Spec.cut env.cap ("[".toList ++ t ++ "]\n".toList)), .ok cases ()⟩) ∧
    (lim.maxUniqueTags < used.length → Refused h "max number of unique tags reached".toList []
      (Verif.Spec.cut env.cap (limitText env.color "number of tags" "SNITCH_MAX_UNIQUE_TAGS" lim.maxUniqueTags ++ ".\n".toList))
      cases (listAllTags env lim h cases)) := by
  obtain ⟨f1, f2⟩ := collectTags_follows h20 hcap hm h cases (by
    intro c hc
    obtain ⟨t1, t2, t3⟩ := h1 c hc
    refine ⟨_, t1 ▸ C13_raw_tags _ t2, ?_⟩
    intro t ht
    obtain ⟨u, hu, rfl⟩ := List.mem_map.mp ht
    exact ⟨_, tagViews_uses (t3 u hu)⟩) []
  obtain ⟨g1, g2⟩ := (C49_shorthand_partial tags h1 hd hu).1 h2
  constructor
  · intro k
    obtain ⟨l, l1, l2, l3, l4⟩ := g1 k
    refine ⟨l, l1, l2, l3, ?_⟩
    rw [Reg.listAllTags] at l4
    cases e : Reg.collectTags lim cases [] with
    | ok t =>
      rw [e, Outcome.bind_ok] at l4
      have l5 : (t.mergeSort Reg.textLe).map (fun t => Reg.Out.line (['['] ++ t ++ [']'])) =
        l.map fun t => Reg.Out.line (['['] ++ t ++ [']']) := Outcome.ok.inj l4
      have l6 : t.mergeSort Reg.textLe = l := by
        refine (List.map_inj_right ?_).mp l5
        intro a b k
        simpa using k
      rw [listAllTags, bind_get, bind_quiet (a := (t, ())) (s' := cases) (by rw [withLocal, f1 t e])]
      show printTags env (t.mergeSort Reg.textLe) h cases = _
      rw [l6]
      exact printTags_eq hcap h cases l
    | abort => rw [e] at l4; cases l4
    | ub => rw [e] at l4; cases l4
  · intro k
    have a := g2 k
    rw [Reg.listAllTags] at a
    cases e : Reg.collectTags lim cases [] with
    | ok t => rw [e] at a; cases a
    | abort =>
      obtain ⟨t', r⟩ := f2 e
      rw [listAllTags, bind_get]
      exact Refused.bind (Refused.withLocal r)
    | ub => rw [e] at a; cases a

/-- **C76**. A test whose tags cannot be read: listing the tags is refused. -/
theorem C76_tag_text (env : Env) (lim : Reg.Limits) (h : Handler) (c : Reg.Case) (cs : List Reg.Case) :
    (c.test.id.tags ≠ [] → ('[' ∉ c.test.id.tags ∨ ']' ∉ c.test.id.tags) →
      Refused h "incorrectly formatted tag; please use \"[tag1][tag2][...]\"".toList [] [] (c :: cs)
        (listAllTags env lim h (c :: cs))) ∧
    (∀ t ts, c.test.id.tags = Verif.Spec.tagString (('.' :: t) :: ts) → (∀ x ∈ ('.' :: t) :: ts, Verif.Spec.TagOk x) →
      t ≠ [] → lim.cfg.maxTag < t.length + 2 →
      Refused h "tag is too long".toList [] [] (c :: cs) (listAllTags env lim h (c :: cs))) := by
  constructor
  · intro k1 k2
    have e1 : ¬ c.test.id.tags.isEmpty = true := by simpa using k1
    have e2 : (!c.test.id.tags.contains '[' || !c.test.id.tags.contains ']') = true := by simpa using k2
    rw [listAllTags, bind_get]
    refine Refused.bind (Refused.withLocal (t := []) ?_)
    rw [collectTags]
    refine Refused.bind ?_
    rw [rawTags, if_neg e1, if_pos e2]
    exact refused_failed _ _ _
  · intro t ts k1 k2 k3 k4
    rw [listAllTags, bind_get]
    refine Refused.bind (Refused.withLocal (t := []) ?_)
    rw [collectTags, bind_quiet (rawTags_ok (k1 ▸ C13_raw_tags _ k2) h []), List.map_cons, storeRaw]
    refine Refused.bind (Refused.bind ?_)
    have e1 : ¬ Verif.Spec.bracket ('.' :: t) = "[.]".toList := by
      cases t with
      | nil => exact absurd rfl k3
      | cons a t => simp [Verif.Spec.bracket]
    have e2 : ['[', '.'].isPrefixOf (Verif.Spec.bracket ('.' :: t)) = true := by simp [Verif.Spec.bracket]
    have e3 : ¬ ('[' :: (Verif.Spec.bracket ('.' :: t)).drop 2).length ≤ lim.cfg.maxTag := by
      simp [Verif.Spec.bracket]; omega
    simp only [tagViews, if_neg e1, if_pos e2, if_neg e3]
    exact refused_failed _ _ _

/-- **C76**. The model of registration without messages (C07, C08) and the one with messages agree: what is accepted there
is accepted here, with the same result, and what ends there with a call of the assertion handler is refused here. -/
theorem C76_registration {env : Env} (h20 : 20 ≤ env.cap) (hcap : env.cap < 2 ^ 64) {lim : Reg.Limits}
    (hm : lim.maxTests < 2 ^ 64) (hn : lim.maxName < 2 ^ 64) (h : Handler) (tests : List Run.TestCase)
    {cases : List Reg.Case} (hl : cases.length ≤ lim.maxTests) :
    (∀ cases', Reg.addAll lim tests cases = .ok cases' → Accepted cases' () (addTests env lim tests h cases)) ∧
    (Reg.addAll lim tests cases = .abort →
      ∃ reason printed s, Refused h reason printed [] s (addTests env lim tests h cases)) := by
  induction tests generalizing cases with
  | nil => exact ⟨(fun _ e => by cases e; rfl), (fun e => by cases e)⟩
  | cons t tests ih =>
    obtain ⟨c1, c2, c3⟩ := C76_tests h20 hcap hm hn h t cases
    rw [Reg.addAll, addTests, Reg.addImpl]
    by_cases hf : cases.length = lim.maxTests
    · rw [if_pos hf]
      exact ⟨(fun _ e => by cases e), fun _ => ⟨_, _, _, Refused.bind (c1 hf)⟩⟩
    · have hlt : cases.length < lim.maxTests := by omega
      rw [if_neg hf]
      by_cases hr : Reg.Spec.Registrable lim.maxName t
      · have he : ¬ (Filter.makeFullName lim.maxName t.id).isEmpty = true := by rw [full_name_empty]; exact fun k => k hr
        simp only [if_neg he, Outcome.bind_ok]
        rw [bind_quiet (a := ()) (c2 hlt hr)]
        exact ih (by simp; omega)
      · simp only [if_pos ((full_name_empty _ _).mpr hr)]
        exact ⟨(fun _ e => by cases e), fun _ => ⟨_, _, _, Refused.bind (c3 hlt hr)⟩⟩

/-! ### The hypotheses can be met -/

/-- A usual configuration. -/
private def env1024 : Env := { cap := 1024, color := false }

/-- A vector with room for two elements, holding one. -/
private def vec : SV Nat := { buf := [7, 0], size := 1 }

example : vec.size ≤ vec.capacity ∧ Allowed vec (.pushBack 3) ∧ ¬ Allowed vec (.resize 3) ∧ NoWrap vec (.grow 2) ∧
    ¬ Allowed vec (.grow 2) := by
  simp [vec, SV.capacity, Allowed, NoWrap]

/-- Read, write, and fail to grow, catching what is thrown. -/
example : attempts [vectorStep (.pushBack 3), vectorStep (.pushBack 4), vectorStep .popBack, vectorStep (.set 1 9)]
    throwing vec = ⟨[.handler "small vector is full".toList, .handler "operator[] called with incorrect index".toList],
      .ok { buf := [7, 3], size := 1 } ()⟩ := by rfl

example : (getAt 0 .standard vec).result = .ok vec 7 ∧ (back .standard vec).result = .ok vec 7 ∧
    (getAt 1 .standard vec).result = .terminated := ⟨rfl, rfl, rfl⟩

/-- The third reporter does not fit. -/
example : 20 ≤ env1024.cap ∧ env1024.cap + 3 < 2 ^ 64 ∧ (2 : Nat) < 2 ^ 64 ∧
    onConsole (addReporter env1024 2 "x".toList .standard ["a".toList, "b".toList]).said =
      "terminate called with message: max number of reporters reached\n".toList ∧
    byRegistry (addReporter env1024 2 "x".toList .standard ["a".toList, "b".toList]).said =
      ("error: max number of reporters reached; please increase 'SNITCH_MAX_REGISTERED_REPORTERS' " ++
        "(currently 2).\n").toList := by decide +kernel

/-- A name with `::` is refused by a handler that throws. -/
example : (addReporter env1024 2 "a::b".toList throwing ["a".toList]).result = .threw ["a".toList] := by decide +kernel

/-- Too many tests. -/
example : (addTests env1024 { defaultLimits 3 with maxTests := 1 } [mkTest "a" "" .done, mkTest "b" "" .done] .standard
      []).result = .terminated := by
  have := (C76_registration (env := env1024) (by decide) (by decide) (lim := { defaultLimits 3 with maxTests := 1 })
    (by decide) (by decide) .standard [mkTest "a" "" .done, mkTest "b" "" .done] (cases := []) (by decide)).2 rfl
  obtain ⟨_, _, _, _, _, _, _, _, k⟩ := this
  exact k

/-- Two captures where there is room for one. -/
example : (addCaptures env1024 2 ["a = 1".toList, "b = 2".toList] throwing ["x = 0".toList]).result =
    .threw ["x = 0".toList, "a = 1".toList] :=
  (C76_captures (env := env1024) (by decide) (by decide) (by decide) throwing ["a = 1".toList, "b = 2".toList]
    (captures := ["x = 0".toList]) (by decide)).2 (by decide) |>.choose_spec.2.2.2.2

/-- A section nested too deep. -/
example : (beginSection env1024 { defaults 3 with maxNested := 1 } throwing { depth := 1, levels := [{}] }).result =
    .threw { depth := 0, levels := [{}] } := by decide +kernel

/-- Tests with one tag; `seenBefore_plain` gives the hypothesis of `C76_tags`. -/
example : (∀ c ∈ threeTests.drop 2, Reg.Spec.Tagged 256 c.test.id (threeTags c)) ∧
    (∀ c ∈ threeTests.drop 2, NoShorthand (threeTags c)) ∧ (["[db]".toList] : List Text).Nodup ∧
    (∀ x, x ∈ ["[db]".toList] ↔ ∃ c ∈ threeTests.drop 2, x ∈ Verif.Spec.visibleTags (threeTags c)) := by
  have e : threeTests.drop 2 = [{ test := mkTest "third" "[db]" (.stmt (.check 2 (.val false) false "x".toList) .done) }] := rfl
  rw [e]
  simp [Reg.Spec.Tagged, NoShorthand, threeTags, mkTest, Verif.Spec.TagOk, Verif.Spec.Hides, Verif.Spec.visibleTags,
    Verif.Spec.ordinary, Verif.Spec.bracket, Verif.Spec.tagString]
  exact fun x => eq_comm

/-- Tags that cannot be read: without brackets, and too long. -/
example : "db".toList ≠ [] ∧ '[' ∉ "db".toList ∧
    Verif.Spec.tagString [".slow".toList, "db".toList] = "[.slow][db]".toList ∧
    Verif.Spec.TagOk ".slow".toList ∧ (5 : Nat) < "slow".toList.length + 2 := by
  exact ⟨by decide, by decide, by decide, ⟨by decide, by decide⟩, by decide⟩

/-- Opening files, and using an empty `inplace_any`. -/
example : (openFile 3 "abcde".toList true .standard {}).result = .terminated ∧
    (openFile 3 "abc".toList false .standard {}).result = .terminated ∧
    (anyGet {} 0 .standard {}).result = .terminated := ⟨rfl, rfl, rfl⟩

/-! ## C77: what is left by a call that is refused with an exception

The full property: whatever is refused by a handler that throws has changed nothing (`Unharmed`), so that a program that
catches the exception goes on as if it had not tried (`C77_as_if_partial`). It is proved of the functions in
`C77_unharmed_partial`. It is false of the registration of tests with too long names (`C77_tests_kept`), of `CAPTURE`
with several arguments (`C77_captures_left`) and of `SECTION` (`C77_sections_off`). -/

private theorem unharmed_of_refused {x : Act σ α} (hx : ∀ h s, (∃ t a said, x h s = ⟨said, .ok t a⟩) ∨
    (x h s).result = .undefined ∨ (∃ reason printed shown, Refused h reason printed shown s (x h s))) : Unharmed x := by
  intro h s t e
  rcases hx h s with ⟨t', a, said, k⟩ | k | ⟨reason, printed, shown, k⟩
  · rw [k] at e; cases e
  · rw [k] at e; cases e
  · rcases Refused.result k with k | k | k <;> rw [k] at e <;> cases e
    rfl

private theorem unharmed_failed (reason : Text) : Unharmed (assertionFailed (σ := σ) (α := α) reason) :=
  unharmed_of_refused fun h s => .inr (.inr ⟨_, _, _, refused_failed h reason s⟩)

private theorem unharmed_pure (a : α) : Unharmed (pure a : Act σ α) := fun h s t e => by cases e

private theorem unharmed_set (x : σ) : Unharmed (setState x) := fun h s t e => by cases e

private theorem unharmed_undefined : Unharmed (undefined : Act σ α) := fun h s t e => by cases e

private theorem unharmed_get {f : σ → Act σ α} (hf : ∀ s, Unharmed (f s)) :
    Unharmed (getState >>= f) := fun h s t e => hf s h s t (by rwa [bind_get] at e)

private theorem unharmed_ite {c : Prop} [Decidable c] {x y : Act σ α} (hx : Unharmed x) (hy : Unharmed y) :
    Unharmed (if c then x else y) := by split <;> assumption

/-- Something that changes nothing, followed by something that leaves no harm. -/
private theorem unharmed_then {β : Type} {x : Act σ α} {f : α → Act σ β} (h1 : Unharmed x)
    (h2 : ∀ h s t a said, x h s = ⟨said, .ok t a⟩ → t = s) (h3 : ∀ a, Unharmed (f a)) : Unharmed (x >>= f) := by
  intro h s t e
  rw [bind_def] at e
  generalize hr : x h s = r at e
  obtain ⟨said, result⟩ := r
  cases result with
  | ok u a =>
    have := h2 h s u a said hr
    subst this
    exact h3 a h u t e
  | threw u =>
    cases e
    exact h1 h s t (by rw [hr])
  | terminated => cases e
  | never => cases e
  | undefined => cases e

private theorem regPrint_result (env : Env) (args : Outcome (List Print.Arg)) (h : Handler) (s : σ) :
    (∃ said, regPrint env args h s = ⟨said, .ok s ()⟩) ∨ (regPrint env args h s).result = .terminated ∨
      (regPrint env args h s).result = .undefined := by
  unfold regPrint
  split
  · exact .inl ⟨_, rfl⟩
  · exact .inr (.inl rfl)
  · exact .inr (.inr rfl)

private theorem cliPrint_result (env : Env) (args : Outcome (List Print.Arg)) (h : Handler) (s : σ) :
    (∃ said, cliPrint env args h s = ⟨said, .ok s ()⟩) ∨ (cliPrint env args h s).result = .terminated ∨
      (cliPrint env args h s).result = .undefined := by
  unfold cliPrint
  split
  · exact .inl ⟨_, rfl⟩
  · exact .inr (.inl rfl)
  · exact .inr (.inr rfl)

private theorem unharmed_print {x : Act σ Unit} (hx : ∀ h s, (∃ said, x h s = ⟨said, .ok s ()⟩) ∨
    (x h s).result = .terminated ∨ (x h s).result = .undefined) {f : Unit → Act σ α} (hf : Unharmed (f ())) :
    Unharmed (x >>= f) := by
  refine unharmed_then ?_ ?_ fun _ => hf
  · intro h s t e
    rcases hx h s with ⟨said, k⟩ | k | k <;> rw [k] at e <;> cases e
  · intro h s t a said e
    rcases hx h s with ⟨said', k⟩ | k | k
    · rw [k] at e; cases e; rfl
    · rw [e] at k; cases k
    · rw [e] at k; cases k

private theorem unharmed_printTags (env : Env) : ∀ l : List Text, Unharmed (printTags (σ := σ) env l) := by
  intro l
  induction l with
  | nil => exact unharmed_pure _
  | cons t l ih => exact unharmed_print (cliPrint_result env _) ih

/-- **C77**, of most functions, for all limits, states and handlers. Partial: see above. -/
theorem C77_unharmed_partial :
    (∀ {α : Type} (op : SV.Op α), Unharmed (vectorStep op)) ∧
    (∀ {α : Type} (i : Nat), Unharmed (getAt (α := α) i)) ∧
    (∀ {α : Type}, Unharmed (back (α := α))) ∧
    (∀ env max name, Unharmed (addReporter env max name)) ∧
    (∀ env (lim : Reg.Limits) (t : Run.TestCase), Reg.Spec.Registrable lim.maxName t → Unharmed (addTest env lim t)) ∧
    (∀ env lim, Unharmed (listAllTags env lim)) ∧
    (∀ env max text, Unharmed (addCaptures env max [text])) ∧
    (∀ c type, Unharmed (anyGet c type)) ∧
    (∀ maxPath path succeeds, Unharmed (openFile maxPath path succeeds)) := by
  refine ⟨?_, ?_, ?_, ?_, ?_, ?_, ?_, ?_, ?_⟩
  · intro α op
    cases op with
    | clear => exact unharmed_get fun _ => unharmed_set _
    | resize n => exact unharmed_get fun _ => unharmed_ite (unharmed_failed _) (unharmed_set _)
    | grow n => exact unharmed_get fun _ => unharmed_ite (unharmed_failed _) (unharmed_set _)
    | pushBack x =>
      exact unharmed_get fun _ => unharmed_ite (unharmed_failed _) (unharmed_ite (unharmed_set _) unharmed_undefined)
    | popBack => exact unharmed_get fun _ => unharmed_ite (unharmed_failed _) (unharmed_set _)
    | set i x =>
      exact unharmed_get fun _ => unharmed_ite (unharmed_failed _) (unharmed_ite (unharmed_set _) unharmed_undefined)
  · intro α i
    refine unharmed_get fun v => unharmed_ite (unharmed_failed _) ?_
    cases v.buf[i]? with
    | none => exact unharmed_undefined
    | some x => exact unharmed_pure _
  · intro α
    refine unharmed_get fun v => unharmed_ite (unharmed_failed _) ?_
    cases v.buf[v.size - 1]? with
    | none => exact unharmed_undefined
    | some x => exact unharmed_pure _
  · intro env max name
    refine unharmed_get fun l => unharmed_ite (unharmed_print (regPrint_result env _) (unharmed_failed _))
      (unharmed_ite (unharmed_print (regPrint_result env _) (unharmed_failed _)) ?_)
    intro h s t e
    rw [bind_set] at e
    cases e
  · intro env lim t ht
    refine unharmed_get fun l => unharmed_ite (unharmed_print (regPrint_result env _) (unharmed_failed _)) ?_
    intro h s u e
    rw [bind_set] at e
    have : ¬ (Filter.makeFullName lim.maxName t.id).isEmpty = true := by
      rw [full_name_empty]; exact fun k => k ht
    rw [if_neg this] at e
    cases e
  · intro env lim
    refine unharmed_get fun cases => unharmed_then ?_ ?_ fun x => unharmed_printTags env _
    · intro h s t e
      unfold withLocal at e
      split at e <;> cases e
      rfl
    · intro h s t a said e
      unfold withLocal at e
      split at e <;> cases e
      rfl
  · intro env max text
    have h1 : Unharmed (addCapture env max text) :=
      unharmed_get fun l => unharmed_ite (unharmed_print (regPrint_result env _) (unharmed_failed _)) (unharmed_set _)
    intro h s t e
    refine h1 h s t ?_
    rw [addCaptures, addCaptures, bind_def] at e
    revert e
    generalize addCapture env max text h s = r
    obtain ⟨said, result⟩ := r
    cases result <;> intro e <;> first | exact e | cases e
  · intro c type
    refine unharmed_get fun w => unharmed_ite (unharmed_failed _) (unharmed_ite (unharmed_failed _) ?_)
    cases c.storage with
    | none => exact unharmed_undefined
    | some o => exact unharmed_ite (unharmed_pure _) unharmed_undefined
  · intro maxPath path succeeds
    refine unharmed_get fun w => ?_
    cases Append.text false (SV.empty (maxPath + 1) '\x00') path with
    | ok x =>
      refine unharmed_ite ?_ (unharmed_failed _)
      cases File.cString x.1.buf with
      | ok p => exact unharmed_ite (unharmed_set _) (unharmed_failed _)
      | abort => exact unharmed_undefined
      | ub => exact unharmed_undefined
    | abort => exact unharmed_undefined
    | ub => exact unharmed_undefined

private theorem bind_ok_of {β : Type} {x : Act σ α} {f : α → Act σ β} {h : Handler} {s : σ} {said : List Entry} {t : σ}
    {b : β} (e : (x >>= f) h s = ⟨said, .ok t b⟩) : ∃ said1 u a said2, x h s = ⟨said1, .ok u a⟩ ∧
      f a h u = ⟨said2, .ok t b⟩ ∧ said = said1 ++ said2 := by
  rw [bind_def] at e
  revert e
  generalize x h s = r
  obtain ⟨said1, result⟩ := r
  cases result with
  | ok u a =>
    intro e
    have e1 : said1 ++ (f a h u).said = said := congrArg Reply.said e
    have e2 : (f a h u).result = .ok t b := congrArg Reply.result e
    exact ⟨said1, u, a, (f a h u).said, rfl, by rw [← e2], e1.symm⟩
  | threw u => intro e; cases e
  | terminated => intro e; cases e
  | never => intro e; cases e
  | undefined => intro e; cases e

/-- **C77**. If nothing that is tried leaves harm when it is refused, a program that catches all exceptions ends up in the
same state as one that only makes the calls that are not refused. Partial: see above. -/
theorem C77_as_if_partial {xs : List (Act σ α)} (hx : ∀ x ∈ xs, Unharmed x) {h : Handler} {s t : σ} {said : List Entry}
    (e : attempts xs h s = ⟨said, .ok t ()⟩) :
    ∃ said', oneByOne (accepted h xs s) h s = ⟨said', .ok t ()⟩ := by
  induction xs generalizing s said with
  | nil => cases e; exact ⟨_, rfl⟩
  | cons x xs ih =>
    obtain ⟨said1, u, b, said2, e1, e2, -⟩ := bind_ok_of e
    have hx' : ∀ y ∈ xs, Unharmed y := fun y hy => hx y (List.mem_cons_of_mem _ hy)
    obtain ⟨said', k⟩ := ih hx' e2
    unfold caught at e1
    cases hr : x h s with
    | mk said3 result =>
    rw [hr] at e1
    have hr' : (x h s).result = result := by rw [hr]
    cases result with
    | ok v a =>
      cases e1
      simp only [accepted, hr']
      refine ⟨said1 ++ said', ?_⟩
      rw [oneByOne, bind_def, hr]
      dsimp only
      rw [k]
    | threw v =>
      cases e1
      have := hx x (by simp) h s u hr'
      subst this
      simp only [accepted, hr']
      exact ⟨said', k⟩
    | terminated => cases e1
    | never => cases e1
    | undefined => cases e1

/-- What catching makes of a refused call. -/
private theorem caught_refused {x : Act σ α} {s t : σ} {reason printed shown : Text}
    (hr : Refused throwing reason printed shown t (x throwing s)) :
    ∃ said, caught x throwing s = ⟨said, .ok t true⟩ ∧ told said = [reason] := by
  obtain ⟨before, -, -, h3, h4, h5⟩ := hr
  have h5 : (x throwing s).result = .threw t := h5
  unfold caught
  cases e : x throwing s with
  | mk said result =>
  rw [e] at h4 h5
  dsimp only at h4 h5
  subst h5 h4
  exact ⟨_, rfl, by rw [told_append, h3]; rfl⟩

private theorem caught_accepted {x : Act σ α} {h : Handler} {s t : σ} {a : α} (hr : Accepted t a (x h s)) :
    caught x h s = ⟨[], .ok t false⟩ := by
  unfold caught
  rw [hr]

/-- **C77**. With a handler that throws, a program that registers reporters whatever happens ends up with those that have
proper names, as far as there is room. Partial: see above. -/
theorem C77_reporters_partial {env : Env} (h20 : 20 ≤ env.cap) (hcap : env.cap < 2 ^ 64) {max : Nat} (hm : max < 2 ^ 64)
    {proper : Text → Bool} (hp : ∀ n, proper n = true ↔ ¬ "::".toList <:+: n) (names : List Text) {reporters : List Text}
    (hl : reporters.length ≤ max) :
    (attempts (names.map (addReporter env max)) throwing reporters).result =
      .ok (reporters ++ (names.filter proper).take (max - reporters.length)) () := by
  induction names generalizing reporters with
  | nil => simp [attempts]
  | cons n names ih =>
    obtain ⟨c1, c2, c3⟩ := C76_reporters h20 hcap hm throwing n reporters
    rw [List.map_cons, attempts, bind_def]
    by_cases hf : reporters.length = max
    · obtain ⟨said, e, -⟩ := caught_refused (c1 hf)
      rw [e]
      dsimp only
      rw [ih hl]
      simp [hf]
    · have hlt : reporters.length < max := by omega
      by_cases hi : "::".toList <:+: n
      · obtain ⟨said, e, -⟩ := caught_refused (c3 hlt hi)
        have hpn : ¬ proper n = true := fun k => (hp n).mp k hi
        rw [e]
        dsimp only
        rw [ih hl, List.filter_cons, if_neg hpn]
      · rw [caught_accepted (c2 hlt hi)]
        dsimp only
        rw [ih (by simp; omega), List.filter_cons, if_pos ((hp n).mpr hi), List.length_append,
          List.length_singleton, show max - reporters.length = (max - (reporters.length + 1)) + 1 by omega,
          List.take_succ_cons, List.append_assoc]
        rfl

/-- **C77** fails for tests with too long (or empty) names: with a handler that throws, a program that registers tests
whatever happens ends up with all of them, as far as there is room, whatever their names are. -/
theorem C77_tests_kept {env : Env} (h20 : 20 ≤ env.cap) (hcap : env.cap < 2 ^ 64) {lim : Reg.Limits}
    (hm : lim.maxTests < 2 ^ 64) (hn : lim.maxName < 2 ^ 64) (tests : List Run.TestCase) {cases : List Reg.Case}
    (hl : cases.length ≤ lim.maxTests) :
    (attempts (tests.map (addTest env lim)) throwing cases).result =
      .ok (cases ++ (tests.take (lim.maxTests - cases.length)).map fun t => { test := t }) () := by
  induction tests generalizing cases with
  | nil => simp [attempts]
  | cons t tests ih =>
    obtain ⟨c1, c2, c3⟩ := C76_tests h20 hcap hm hn throwing t cases
    rw [List.map_cons, attempts, bind_def]
    by_cases hf : cases.length = lim.maxTests
    · obtain ⟨said, e, -⟩ := caught_refused (c1 hf)
      rw [e]
      dsimp only
      rw [ih hl]
      simp [hf]
    · have hlt : cases.length < lim.maxTests := by omega
      have hi := ih (cases := cases ++ [{ test := t }]) (by simp; omega)
      have hs : cases ++ [{ test := t }] ++ (tests.take (lim.maxTests - (cases ++ [({ test := t } : Reg.Case)]).length)).map
          (fun t => ({ test := t } : Reg.Case)) =
          cases ++ ((t :: tests).take (lim.maxTests - cases.length)).map fun t => { test := t } := by
        rw [List.length_append, List.length_singleton,
          show lim.maxTests - cases.length = (lim.maxTests - (cases.length + 1)) + 1 by omega,
          List.take_succ_cons, List.append_assoc]
        rfl
      rw [hs] at hi
      by_cases hr : Reg.Spec.Registrable lim.maxName t
      · rw [caught_accepted (c2 hlt hr)]
        exact hi
      · obtain ⟨said, e, -⟩ := caught_refused (c3 hlt hr)
        rw [e]
        exact hi

/-- **C77** fails for `CAPTURE` with several arguments: of those for which there is no room, the first ones are left behind,
and nothing removes them. -/
theorem C77_captures_left {env : Env} (h20 : 20 ≤ env.cap) (hcap : env.cap < 2 ^ 64) {max : Nat} (hm : max < 2 ^ 64)
    {captures : List Text} (hl : captures.length < max) {texts : List Text} (hx : max < captures.length + texts.length) :
    (addCaptures env max texts throwing captures).result = .threw (captures ++ texts.take (max - captures.length)) ∧
    ¬ Unharmed (addCaptures env max texts) := by
  have h1 : (addCaptures env max texts throwing captures).result =
      .threw (captures ++ texts.take (max - captures.length)) :=
    ((C76_captures h20 hcap hm throwing texts (by omega)).2 hx).choose_spec.2.2.2.2
  refine ⟨h1, fun k => ?_⟩
  have := congrArg List.length (k _ _ _ h1)
  rw [List.length_append, List.length_take] at this
  omega

/-- **C77** fails for `SECTION`: a section that is refused because it is nested too deep decreases the depth. After the
sections around it have been left, the depth is below zero, that is, so large that all sections that follow are refused,
though they are not nested at all. -/
theorem C77_sections_off {env : Env} (h20 : 20 ≤ env.cap) (hcap : env.cap < 2 ^ 64) {cfg : Run.Cfg}
    (h0 : 0 < cfg.maxNested) (hm : cfg.maxNested < 2 ^ 64 - 1)
    {x : Run.SecState} (hx : x.levels.length ≤ cfg.maxNested) (hd : x.depth = cfg.maxNested) :
    (beginSection env cfg throwing x).result = .threw { x with depth := cfg.maxNested - 1 } ∧
    ¬ Unharmed (beginSection env cfg) ∧
    (Nat.repeat leaveDepth cfg.maxNested { x with depth := cfg.maxNested - 1 }).depth = 2 ^ 64 - 1 ∧
    ∀ (h : Handler) (y : Run.SecState), y.depth = 2 ^ 64 - 1 → y.levels.length ≤ cfg.maxNested →
      ∃ s, Refused h "max number of nested sections reached".toList
        (limitText env.color "number of nested sections" "SNITCH_MAX_NESTED_SECTIONS" cfg.maxNested ++ "\n.".toList) []
        s (beginSection env cfg h y) := by
  have hT : sizeT = 2 ^ 64 := rfl
  have hdec : ∀ (y : Run.SecState), 0 < y.depth → y.depth < 2 ^ 64 → (leaveDepth y).depth = y.depth - 1 := by
    intro y k1 k2
    show (y.depth + sizeT - 1) % sizeT = y.depth - 1
    rw [hT, show y.depth + 2 ^ 64 - 1 = (y.depth - 1) + 2 ^ 64 by omega, Nat.add_mod_right, Nat.mod_eq_of_lt (by omega)]
  have h1 : (beginSection env cfg throwing x).result = .threw { x with depth := cfg.maxNested - 1 } := by
    have : (beginSection env cfg throwing x).result = .threw (leaveDepth x) :=
      ((C76_sections h20 hcap (by omega) throwing hx).2 (by omega)).choose_spec.2.2.2.2
    rw [this]
    have e := hdec x (by omega) (by omega)
    rw [hd] at e
    rw [← e]
    rfl
  refine ⟨h1, fun k => ?_, ?_, fun h y k1 k2 => ⟨_, (C76_sections h20 hcap (by omega) h k2).2 (by omega)⟩⟩
  · have := congrArg Run.SecState.depth (k _ _ _ h1)
    dsimp only at this
    omega
  · have hrep : ∀ (n : Nat) (y : Run.SecState), n ≤ y.depth → y.depth < 2 ^ 64 →
        (Nat.repeat leaveDepth n y).depth = y.depth - n := by
      intro n
      induction n with
      | zero => intro y _ _; rfl
      | succ n ih =>
        intro y k1 k2
        have e := ih y (by omega) k2
        rw [Nat.repeat, hdec _ (by omega) (by omega), e]
        omega
    obtain ⟨m, hm'⟩ : ∃ m, cfg.maxNested = m + 1 := ⟨cfg.maxNested - 1, by omega⟩
    have e := hrep m { x with depth := cfg.maxNested - 1 } (by dsimp only; omega) (by dsimp only; omega)
    dsimp only at e
    have e0 : cfg.maxNested - 1 - m = 0 := by omega
    rw [e0] at e
    have : (Nat.repeat leaveDepth (m + 1) { x with depth := cfg.maxNested - 1 }).depth = 2 ^ 64 - 1 := by
      show ((Nat.repeat leaveDepth m { x with depth := cfg.maxNested - 1 }).depth + sizeT - 1) % sizeT = 2 ^ 64 - 1
      rw [e]
      rfl
    rwa [← hm'] at this

/-- Two calls of four are refused; the program goes on as if it had only pushed 3 and popped. -/
example : ∃ said said', attempts [vectorStep (.pushBack 3), vectorStep (.pushBack 4), vectorStep .popBack,
      vectorStep (.set 1 9)] throwing vec = ⟨said, .ok { buf := [7, 3], size := 1 } ()⟩ ∧
    accepted throwing [vectorStep (.pushBack 3), vectorStep (.pushBack 4), vectorStep .popBack, vectorStep (.set 1 9)] vec =
      [vectorStep (.pushBack 3), vectorStep .popBack] ∧
    oneByOne [vectorStep (.pushBack 3), vectorStep .popBack] throwing vec = ⟨said', .ok { buf := [7, 3], size := 1 } ()⟩ :=
  ⟨_, _, rfl, rfl, rfl⟩

/-- Of the names `a::b`, `x`, `y` and `z` the second and third are accepted. -/
example : (attempts (["a::b".toList, "x".toList, "y".toList, "z".toList].map (addReporter env1024 2)) throwing []).result =
    .ok ["x".toList, "y".toList] () := by
  have := C77_reporters_partial (env := env1024) (by decide) (by decide) (max := 2) (by decide)
    (proper := fun n => !(Util.findAt "::".toList n).isSome) (by intro n; rw [← findAt_infix]; simp)
    ["a::b".toList, "x".toList, "y".toList, "z".toList] (reporters := []) (by decide)
  exact this.trans (by decide)

/-- A test without a name is refused, and registered. -/
example : (attempts ([mkTest "" "" .done, mkTest "b" "" .done].map (addTest env1024 (defaultLimits 3))) throwing []).result =
      .ok [{ test := mkTest "" "" .done }, { test := mkTest "b" "" .done }] () ∧
    ¬ Reg.Spec.Registrable (defaultLimits 3).maxName (mkTest "" "" .done) :=
  ⟨C77_tests_kept (env := env1024) (by decide) (by decide) (by decide) (by decide) _ (by decide), by decide⟩

/-- There are limits, captures and sections as required. -/
example : (["x".toList] : List Text).length < 2 ∧ 2 < (["x".toList] : List Text).length + (["a".toList, "b".toList] : List Text).length ∧
    0 < (defaults 3).maxNested ∧ (defaults 3).maxNested < 2 ^ 64 - 1 := by decide

end Verif.Props
