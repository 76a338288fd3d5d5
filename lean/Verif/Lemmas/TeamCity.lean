import Verif.Model.TeamCity
import Verif.Spec.TeamCity
import Verif.Lemmas.XmlLevel
/-!
# Lemmas about the TeamCity reporter
-/
namespace Verif.Report.TeamCity
open Verif Verif.Report Verif.Report.Spec.TeamCity
open Verif.Report.Spec (decimal)

/-! ## Escaping -/

def pairs : List (Char × Text) :=
  [('|', "||".toList), ('\'', "|'".toList), ('\n', "|n".toList), ('\r', "|r".toList),
    ('[', "|[".toList), (']', "|]".toList)]

theorem stages_eq : stages = pairs.map (fun p => ([p.1], p.2)) := by decide

theorem allStages_coded (s : Text) : allStages pairs s = s.flatMap coded := by
  rw [allStages_flatMap]
  congr 1
  funext c
  unfold coded
  split
  · rename_i h; subst h; decide
  split
  · rename_i h; subst h; decide
  split
  · rename_i h; subst h; decide
  split
  · rename_i h; subst h; decide
  split
  · rename_i h; subst h; decide
  split
  · rename_i h; subst h; decide
  rename_i h1 h2 h3 h4 h5 h6
  simp [allStages, pairs, Verif.Spec.escaped, h1, h2, h3, h4, h5, h6]

theorem length_coded (s : Text) : s.length ≤ (s.flatMap coded).length := by
  rw [← allStages_coded]; exact allStages_length _ (by decide) s

theorem escapeStages_coded {cap : Nat} (hcap : cap + 3 < 2 ^ 64) {v : Str} {s : Text}
    (hv : v.Holds cap s) (h : (s.flatMap coded).length ≤ cap) :
    ∃ v', escapeStages stages v = .ok (v', true) ∧ v'.Holds cap (s.flatMap coded) := by
  rw [← allStages_coded] at h
  obtain ⟨v', e, hv'⟩ := escapeStages_fit hcap pairs (by decide) hv h
  exact ⟨v', by rw [stages_eq]; exact e, by rw [← allStages_coded]; exact hv'⟩

theorem makeEscaped_eq {cap : Nat} (hcap : cap + 3 < 2 ^ 64) {s : Text} (h : Short cap s) :
    makeEscaped cap s = .ok (s.flatMap coded) := by
  have hl := length_coded s
  unfold Short at h
  obtain ⟨v, e, hv⟩ := Util.appendOrTruncate_holds false (SV.holds_empty cap ' ') hcap [s]
  have hs : [s].flatten = s := by simp
  rw [hs] at hv e
  rw [if_pos (by simp; omega), List.nil_append] at hv
  obtain ⟨v', e', hv'⟩ := escapeStages_coded hcap hv h
  unfold makeEscaped
  rw [e, Outcome.bind_ok]
  dsimp only
  rw [e', Outcome.bind_ok]
  dsimp only
  rw [hv'.contents]; rfl

theorem makeFullName_eq {lim : Limits} (hcap : lim.name + 3 < 2 ^ 64) {id : Id}
    (h : Short lim.name (Spec.fullName id)) :
    makeFullName lim id = .ok ((Spec.fullName id).flatMap coded) := by
  have hl := length_coded (Spec.fullName id)
  unfold Short at h
  obtain ⟨v, e, hv⟩ := Append.variadic_holds false (show lim.name < sizeT by rw [sizeT_eq]; omega)
    (if id.type.length ≠ 0 then [id.name, " <".toList, id.type, ">".toList] else [id.name])
    (SV.holds_empty lim.name ' ')
  rw [Xml.fullName_flatten] at hv e
  have hfit : Verif.Spec.fill lim.name [] (Spec.fullName id) = Spec.fullName id := by
    simp only [Verif.Spec.fill, List.nil_append]
    exact List.take_of_length_le (by omega)
  rw [hfit] at hv
  obtain ⟨v', e', hv'⟩ := escapeStages_coded hcap hv h
  unfold makeFullName Report.fullName
  rw [e, Outcome.bind_ok]
  dsimp only
  rw [Outcome.pure_eq, Outcome.bind_ok, e', Outcome.bind_ok]
  dsimp only
  rw [hv'.contents]; rfl

theorem filtersLoop_eq {cap : Nat} (hcap : cap + 3 < 2 ^ 64) (fs : List Text) : ∀ {v : Str} {l : Text},
    v.Holds cap l → (suite l fs).length ≤ cap →
    ∃ v', filtersLoop fs v = .ok v' ∧ v'.Holds cap (suite l fs) := by
  induction fs with
  | nil => intro v l hv _; exact ⟨v, rfl, by simpa [suite] using hv⟩
  | cons f fs ih =>
    intro v l hv h
    obtain ⟨v1, e1, hv1⟩ := Util.appendOrTruncate_holds false hv hcap [" \"".toList, f, "\"".toList]
    have hm : suite l (f :: fs) = suite (l ++ [" \"".toList, f, "\"".toList].flatten) fs := by
      simp [suite]
    rw [hm] at h ⊢
    rw [if_pos (by
      have : (l ++ [" \"".toList, f, "\"".toList].flatten).length ≤ cap := by
        unfold suite at h; rw [List.length_append] at h; omega
      rw [List.length_append] at this; exact this)] at hv1
    obtain ⟨v2, e2, hv2⟩ := ih hv1 h
    refine ⟨v2, ?_, hv2⟩
    unfold filtersLoop
    rw [e1, Outcome.bind_ok]
    exact e2

theorem makeSuiteName_eq {lim : Limits} (hcap : lim.message + 3 < 2 ^ 64) {app : Text} {fs : List Text}
    (h : Short lim.message (suite app fs)) :
    makeSuiteName lim app fs = .ok ((suite app fs).flatMap coded) := by
  have hl := length_coded (suite app fs)
  unfold Short at h
  obtain ⟨v, e, hv⟩ := Util.appendOrTruncate_holds false (SV.holds_empty lim.message ' ') hcap [app]
  have hs : [app].flatten = app := by simp
  rw [hs] at hv e
  have happ : app.length ≤ (suite app fs).length := by unfold suite; rw [List.length_append]; omega
  rw [if_pos (by simp; omega), List.nil_append] at hv
  obtain ⟨v1, e1, hv1⟩ := filtersLoop_eq hcap fs hv (by omega)
  obtain ⟨v', e', hv'⟩ := escapeStages_coded hcap hv1 h
  unfold makeSuiteName
  rw [e, Outcome.bind_ok]
  dsimp only
  rw [e1, Outcome.bind_ok, e', Outcome.bind_ok]
  dsimp only
  rw [hv'.contents]; rfl

/-! ## Reading -/

theorem feed_append (a b : Text) : ∀ (ms : List Message) (m : Mode),
    feed ms m (a ++ b) = (feed ms m a).bind fun r => feed r.1 r.2 b := by
  induction a with
  | nil => intro ms m; rfl
  | cons c a ih =>
    intro ms m
    simp only [List.cons_append, feed]
    cases step ms m c with
    | none => rfl
    | some r => exact ih r.1 r.2

theorem feed_trans {ms ms' : List Message} {m m' : Mode} {a b : Text} (h : feed ms m a = some (ms', m')) :
    feed ms m (a ++ b) = feed ms' m' b := by rw [feed_append, h]; rfl

/-- `raw` is read, in a value, as the text `s`. -/
def Reads (raw s : Text) : Prop := ∀ ms n as k acc,
  feed ms (.value n as k acc) raw = some (ms, .value n as k (acc ++ s))

theorem Reads.append {a b s t : Text} (h1 : Reads a s) (h2 : Reads b t) : Reads (a ++ b) (s ++ t) := by
  intro ms n as k acc
  rw [feed_trans (h1 ms n as k acc), h2, List.append_assoc]

theorem reads_nil : Reads [] [] := by intro ms n as k acc; simp [feed]

theorem reads_char {c : Char} (h : c ∉ ['|', '\'', '\n', '\r', '[', ']']) : Reads [c] [c] := by
  intro ms n as k acc
  simp only [List.mem_cons, List.not_mem_nil, or_false, not_or] at h
  simp [feed, step, h]

theorem reads_plain {s : Text} (h : Plain s) : Reads s s := by
  induction s with
  | nil => exact reads_nil
  | cons c s ih =>
    exact (reads_char (h c (by simp))).append (ih fun x hx => h x (by simp [hx]))

theorem reads_coded_char (c : Char) : Reads (coded c) [c] := by
  unfold coded
  repeat' split
  all_goals first
    | (apply reads_char; simp_all; done)
    | (subst_vars; intro ms n as k acc; simp [feed, step, unescape]; done)

theorem reads_coded (s : Text) : Reads (s.flatMap coded) s := by
  induction s with
  | nil => exact reads_nil
  | cons c s ih => exact (reads_coded_char c).append ih

theorem reads_decimal (n : Nat) : Reads (decimal n) (decimal n) := by
  apply reads_plain
  intro c hc hm
  have := Xml.decimal_isDigit hc
  simp only [List.mem_cons, List.not_mem_nil, or_false] at hm
  rcases hm with rfl | rfl | rfl | rfl | rfl | rfl <;> revert this <;> decide

theorem reads_newline : Reads "|n".toList "\n".toList := by
  intro ms n as k acc; simp [feed, step, unescape]

theorem reads_lit {s : Text} (h : Plain s) : Reads s s := reads_plain h

def Word (s : Text) : Prop := s.all word = true

instance (s : Text) : Decidable (Word s) := by unfold Word; exact inferInstance

theorem feed_name (ms : List Message) {s : Text} (h : Word s) : ∀ acc,
    feed ms (.name acc) s = some (ms, .name (acc ++ s)) := by
  unfold Word at h
  induction s with
  | nil => intro acc; simp [feed]
  | cons c s ih =>
    intro acc
    simp only [List.all_cons, Bool.and_eq_true] at h
    simp only [feed, step, h.1, if_true, Option.bind_some]
    rw [ih h.2, List.append_assoc]; rfl

theorem feed_key (ms : List Message) (n : Text) (as : List (Text × Text)) {s : Text} (h : Word s) :
    ∀ acc, feed ms (.key n as acc) s = some (ms, .key n as (acc ++ s)) := by
  unfold Word at h
  induction s with
  | nil => intro acc; simp [feed]
  | cons c s ih =>
    intro acc
    simp only [List.all_cons, Bool.and_eq_true] at h
    simp only [feed, step, h.1, if_true, Option.bind_some]
    rw [ih h.2, List.append_assoc]; rfl

theorem feed_header (ms : List Message) :
    feed ms (.header header) "##teamCity[".toList = some (ms, .name []) := by
  rfl

/-- `' key='raw'`. -/
theorem feed_arg (ms : List Message) {n key raw s : Text} (as : List (Text × Text)) (hk : Word key)
    (hr : Reads raw s) :
    feed ms (.between n as) (" ".toList ++ key ++ "=".toList ++ ("'".toList ++ raw ++ "'".toList)) =
      some (ms, .between n (as ++ [(key, s)])) := by
  rw [List.append_assoc, List.append_assoc, List.append_assoc]
  rw [feed_trans (ms' := ms) (m' := .key n as []) (by simp [feed, step])]
  rw [feed_trans (feed_key ms n as hk [])]
  rw [List.nil_append, feed_trans (ms' := ms) (m' := .quote n as key) (by
    simp [feed, step, show word '=' = false by decide])]
  rw [feed_trans (ms' := ms) (m' := .value n as key []) (by simp [feed, step])]
  rw [feed_trans (hr ms n as key []), List.nil_append]
  simp [feed, step]

/-! ## Printing -/

/-- An action that prints `t`. -/
def Prints (a : Rep → Outcome Rep) (t : Text) : Prop :=
  ∀ rep, a rep = .ok { rep with out := rep.out ++ t }

theorem Prints.bind {a b : Rep → Outcome Rep} {s t : Text} (ha : Prints a s) (hb : Prints b t) :
    Prints (fun rep => a rep >>= b) (s ++ t) := by
  intro rep
  simp only [ha rep, Outcome.bind_ok]
  rw [hb]
  simp

theorem Prints.nil : Prints (fun rep => .ok rep) [] := by intro rep; simp

variable {lim : Limits}

theorem say_prints (h : lim.message < 2 ^ 64) (args : List Text) : Prints (say lim args) args.flatten :=
  fun rep => say_eq h args rep

theorem location_prints (hlim : LimitsOk lim) {loc : Location} (hf : Short lim.message loc.file)
    (hl : loc.line < 2 ^ 64) : Prints (printLocation lim loc)
      ("'".toList ++ loc.file.flatMap coded ++ ":".toList ++ decimal loc.line ++ "|n".toList) := by
  intro rep
  unfold printLocation
  rw [makeEscaped_eq hlim.1 hf, Outcome.bind_ok, makeNumber_eq hl, Outcome.bind_ok]
  have hd := decimal_length hl
  have := hlim.2.2
  obtain ⟨chunks, e, hc⟩ := Props.C34_print lim.message (by have := hlim.1; omega)
    [.str "'".toList, .str (loc.file.flatMap coded), .str ":".toList, .value (decimal loc.line),
      .str "|n".toList] (by
    intro a ha
    simp only [List.mem_cons, List.not_mem_nil, or_false] at ha
    rcases ha with rfl | rfl | rfl | rfl | rfl
    · trivial
    · trivial
    · trivial
    · show _ ≤ _; omega
    · trivial)
  rw [e, Outcome.bind_ok, hc]
  simp [Print.Spec.whole]

theorem captures_prints (hlim : LimitsOk lim) (cs : List Text) (h : ∀ c ∈ cs, Short lim.message c) :
    Prints (printCaptures lim cs)
      (cs.flatMap fun c => "with ".toList ++ c.flatMap coded ++ "|n".toList) := by
  induction cs with
  | nil => exact Prints.nil
  | cons c cs ih =>
    intro rep
    unfold printCaptures
    rw [makeEscaped_eq hlim.1 (h c (by simp)), Outcome.bind_ok]
    have := (say_prints (lim := lim) (by have := hlim.1; omega)
      ["with ".toList, c.flatMap coded, "|n".toList]).bind (ih fun x hx => h x (by simp [hx])) rep
    refine Eq.trans this ?_
    simp

theorem captures_reads (cs : List Text) :
    Reads (cs.flatMap fun c => "with ".toList ++ c.flatMap coded ++ "|n".toList)
      (cs.flatMap fun c => "with ".toList ++ c ++ "\n".toList) := by
  induction cs with
  | nil => exact reads_nil
  | cons c cs ih =>
    rw [List.flatMap_cons, List.flatMap_cons]
    exact (((reads_plain (by decide)).append (reads_coded c)).append reads_newline).append ih

/-- What is printed for the data of an assertion, without the closing quote. -/
def rawData : Data → Text
  | .message m => "  ".toList ++ m.flatMap coded
  | .expression type expected actual =>
    "  ".toList ++ type ++ "(".toList ++ expected.flatMap coded ++ ")".toList ++
      if actual = [] then []
      else if 64 < expected.length + type.length + 3 ∨ 64 < actual.length + 5 then
        "|n".toList ++ "  ".toList ++ "got: ".toList ++ actual.flatMap coded
      else ", got: ".toList ++ actual.flatMap coded

theorem data_prints (hlim : LimitsOk lim) {loc : Location} {cs : List Text} {data : Data}
    (h : AssertionOk lim loc cs data) : Prints (printData lim data) (rawData data ++ "'".toList) := by
  have hcap : lim.message < 2 ^ 64 := by have := hlim.1; omega
  obtain ⟨-, -, -, h⟩ := h
  intro rep
  cases data with
  | message m =>
    simp only [printData]
    rw [makeEscaped_eq hlim.1 h, Outcome.bind_ok, say_eq hcap]
    simp [rawData]
  | expression type expected actual =>
    obtain ⟨h1, h2, h3⟩ := h
    simp only [printData]
    rw [makeEscaped_eq hlim.1 h2, Outcome.bind_ok, say_eq hcap, Outcome.bind_ok]
    unfold printActual
    cases actual with
    | nil => simp [say1_eq, rawData]
    | cons x xs =>
      simp only [List.isEmpty_cons, Bool.not_false, if_true, rawData, List.cons_ne_nil, if_false]
      by_cases hl : 64 < expected.length + type.length + 3 ∨ 64 < (x :: xs).length + 5
      · have : long type expected (x :: xs) = true := by simpa [long] using hl
        rw [this, if_pos rfl, makeEscaped_eq hlim.1 h3, Outcome.bind_ok, say_eq hcap, if_pos hl]
        simp
      · have : long type expected (x :: xs) = false := by
          simp only [long]
          simpa using hl
        rw [this, if_neg (by decide), makeEscaped_eq hlim.1 h3, Outcome.bind_ok, say_eq hcap, if_neg hl]
        simp

/-- What is read from it. -/
def readData : Data → Text
  | .message m => "  ".toList ++ m
  | .expression type expected actual =>
    "  ".toList ++ type ++ "(".toList ++ expected ++ ")".toList ++
      if actual = [] then []
      else if 64 < expected.length + type.length + 3 ∨ 64 < actual.length + 5 then
        "\n".toList ++ "  ".toList ++ "got: ".toList ++ actual
      else ", got: ".toList ++ actual

theorem data_reads {loc : Location} {cs : List Text} {data : Data}
    (h : AssertionOk lim loc cs data) : Reads (rawData data) (readData data) := by
  obtain ⟨-, -, -, h⟩ := h
  cases data with
  | message m => exact (reads_plain (by decide)).append (reads_coded m)
  | expression type expected actual =>
    refine Reads.append ((((Reads.append (reads_plain (by decide)) (reads_plain h.1)).append
      (reads_plain (by decide))).append (reads_coded _)).append (reads_plain (by decide))) ?_
    split
    · exact reads_nil
    · split
      · exact ((reads_newline.append (reads_plain (by decide))).append
          (reads_plain (by decide))).append (reads_coded _)
      · exact (reads_plain (by decide)).append (reads_coded _)

/-- What is printed for an assertion, without the quotes. -/
def rawAssertion (loc : Location) (cs : List Text) (data : Data) : Text :=
  loc.file.flatMap coded ++ ":".toList ++ decimal loc.line ++ "|n".toList ++
    (cs.flatMap fun c => "with ".toList ++ c.flatMap coded ++ "|n".toList) ++ rawData data

theorem assertion_prints (hlim : LimitsOk lim) {loc : Location} {cs : List Text} {data : Data}
    (h : AssertionOk lim loc cs data) :
    Prints (printAssertion lim loc cs data) ("'".toList ++ rawAssertion loc cs data ++ "'".toList) := by
  intro rep
  have := ((location_prints hlim h.1 h.2.1).bind ((captures_prints hlim cs h.2.2.1).bind
    (data_prints hlim h))) rep
  unfold printAssertion
  refine Eq.trans this ?_
  simp [rawAssertion]

theorem assertion_reads {loc : Location} {cs : List Text} {data : Data}
    (h : AssertionOk lim loc cs data) : Reads (rawAssertion loc cs data) (assertionText loc cs data) := by
  have e : assertionText loc cs data = loc.file ++ ":".toList ++ decimal loc.line ++ "\n".toList ++
      (cs.flatMap fun c => "with ".toList ++ c ++ "\n".toList) ++ readData data := by
    cases data with
    | message m => simp [assertionText, readData]
    | expression type expected actual =>
      simp only [assertionText, readData]
      split
      · simp
      · split <;> simp
  rw [e]
  exact (((((reads_coded _).append (reads_plain (by decide))).append (reads_decimal _)).append
    reads_newline).append (captures_reads cs)).append (data_reads h)

/-- The value `v` is printed in quotes, and read as `s`. -/
def ValueOk (lim : Limits) (v : Value) (s : Text) : Prop :=
  match v with
  | .text t => Reads t s
  | .assertion loc cs data => AssertionOk lim loc cs data ∧ s = assertionText loc cs data

/-- The arguments `args` are printed and read as `bs`. -/
inductive ArgsOk (lim : Limits) : List (Text × Value) → List (Text × Text) → Prop where
  | nil : ArgsOk lim [] []
  | cons {key v s args bs} : Word key → ValueOk lim v s → ArgsOk lim args bs →
      ArgsOk lim ((key, v) :: args) ((key, s) :: bs)

theorem args_prints (hlim : LimitsOk lim) (n : Text) {args : List (Text × Value)} {bs : List (Text × Text)}
    (h : ArgsOk lim args bs) : ∀ as : List (Text × Text),
    ∃ t, Prints (sendArgs lim args) t ∧ (args = [] ∨ ∃ t', t = ' ' :: t') ∧
      ∀ ms, feed ms (.between n as) t = some (ms, .between n (as ++ bs)) := by
  have hcap : lim.message < 2 ^ 64 := by have := hlim.1; omega
  induction h with
  | nil =>
    intro as
    exact ⟨[], Prints.nil, .inl rfl, by intro ms; simp [feed]⟩
  | @cons key v s args bs hw hv hr ih =>
    intro as
    obtain ⟨t, ht, _, hf⟩ := ih (as ++ [(key, s)])
    obtain ⟨raw, hraw, hread⟩ : ∃ raw, Prints (fun rep => match v with
        | .text s => say lim ["'".toList, s, "'".toList] rep
        | .assertion loc captures data => printAssertion lim loc captures data rep)
          ("'".toList ++ raw ++ "'".toList) ∧ Reads raw s := by
      cases v with
      | text x => exact ⟨x, by intro rep; simp [say_eq hcap], hv⟩
      | assertion loc cs data =>
        refine ⟨_, assertion_prints hlim hv.1, ?_⟩
        rw [hv.2]; exact assertion_reads hv.1
    refine ⟨[" ".toList, key, "=".toList].flatten ++ ("'".toList ++ raw ++ "'".toList ++ t), ?_,
      .inr ⟨_, rfl⟩, ?_⟩
    · intro rep
      have := ((say_prints (lim := lim) hcap [" ".toList, key, "=".toList]).bind (hraw.bind ht)) rep
      simp only [sendArgs]
      cases v <;> exact this
    · intro ms
      have e : [" ".toList, key, "=".toList].flatten ++ ("'".toList ++ raw ++ "'".toList ++ t) =
          (" ".toList ++ key ++ "=".toList ++ ("'".toList ++ raw ++ "'".toList)) ++ t := by simp
      rw [e, feed_trans (feed_arg ms as hw hread), hf, List.append_assoc]; rfl

theorem message_prints (hlim : LimitsOk lim) {n : Text} (hn : Word n) {args : List (Text × Value)}
    {bs : List (Text × Text)} (hv : ArgsOk lim args bs) (hne : args ≠ []) :
    ∃ t, Prints (sendMessage lim n args) t ∧
      ∀ ms, feed ms (.header header) t = some (ms ++ [⟨n, bs⟩], .header header) := by
  have hcap : lim.message < 2 ^ 64 := by have := hlim.1; omega
  obtain ⟨t, ht, hsp, hf⟩ := args_prints hlim n hv []
  refine ⟨["##teamCity[".toList, n].flatten ++ (t ++ "]\n".toList), ?_, ?_⟩
  · intro rep
    have := ((say_prints (lim := lim) hcap ["##teamCity[".toList, n]).bind
      (ht.bind (b := fun rep => .ok (say1 "]\n".toList rep)) (t := "]\n".toList)
        (by intro rep; simp only [say1_eq]))) rep
    simp only [sendMessage]
    exact this
  · intro ms
    have e : ["##teamCity[".toList, n].flatten ++ (t ++ "]\n".toList) =
        "##teamCity[".toList ++ (n ++ (t ++ "]\n".toList)) := by simp
    rw [e, feed_trans (feed_header ms), feed_trans (feed_name ms hn [])]
    rw [List.nil_append]
    obtain ⟨t', rfl⟩ := hsp.resolve_left hne
    have h1 : feed ms (.name n) (' ' :: t') = feed ms (.between n []) (' ' :: t') := by
      simp [feed, step, show word ' ' = false by decide]
    rw [feed_trans (h1.trans (hf ms))]
    simp [feed, step]

/-! ## Events -/

theorem report_prints (hlim : LimitsOk lim) {e : Event} (h : EventOk lim e) :
    ∃ t, Prints (report lim · e) t ∧
      ∀ ms, feed ms (.header header) t = some (ms ++ told lim e, .header header) := by
  have key : ∀ (o : Outcome Text) (v : Text) (f : Text → Rep → Outcome Rep) (t : Text), o = .ok v →
      Prints (f v) t → Prints (fun rep => o >>= fun x => f x rep) t := by
    intro o v f t ho hf rep
    simp only [ho, Outcome.bind_ok]; exact hf rep
  cases e with
  | runStarted name filters =>
    obtain ⟨t, h1, h2⟩ := message_prints hlim (show Word "testSuiteStarted".toList by decide)
      (.cons (show Word "name".toList by decide) (v := .text _) (reads_coded (suite name filters)) .nil)
      (by simp)
    refine ⟨t, ?_, h2⟩
    exact key _ _ (fun x rep => sendMessage lim _ [("name".toList, .text x)] rep) t
      (makeSuiteName_eq hlim.1 h) h1
  | runEnded name filters =>
    obtain ⟨t, h1, h2⟩ := message_prints hlim (show Word "testSuiteFinished".toList by decide)
      (.cons (show Word "name".toList by decide) (v := .text _) (reads_coded (suite name filters)) .nil)
      (by simp)
    refine ⟨t, ?_, h2⟩
    exact key _ _ (fun x rep => sendMessage lim _ [("name".toList, .text x)] rep) t
      (makeSuiteName_eq hlim.1 h) h1
  | caseStarted id loc =>
    obtain ⟨t, h1, h2⟩ := message_prints hlim (show Word "testStarted".toList by decide)
      (.cons (show Word "name".toList by decide) (v := .text _) (reads_coded (Spec.fullName id)) .nil)
      (by simp)
    refine ⟨t, ?_, h2⟩
    exact key _ _ (fun x rep => sendMessage lim _ [("name".toList, .text x)] rep) t
      (makeFullName_eq hlim.2.1 h) h1
  | caseEnded id loc st d micros =>
    have hargs : ∃ args, finishedArgs lim ((Spec.fullName id).flatMap coded) micros = .ok args ∧
        args ≠ [] ∧ ArgsOk lim args (("name".toList, Spec.fullName id) ::
          if lim.timings then [("duration".toList, decimal micros)] else []) := by
      unfold finishedArgs
      by_cases ht : lim.timings
      · simp only [ht, if_true, makeDuration]
        rw [makeNumber_eq h.2, Outcome.bind_ok]
        exact ⟨_, rfl, by simp, .cons (by decide) (v := .text _) (reads_coded _)
          (.cons (by decide) (v := .text _) (reads_decimal _) .nil)⟩
      · simp only [ht]
        exact ⟨_, rfl, by simp, .cons (by decide) (v := .text _) (reads_coded _) .nil⟩
    obtain ⟨args, e, hne, ha⟩ := hargs
    obtain ⟨t, h1, h2⟩ := message_prints hlim (show Word "testFinished".toList by decide) ha hne
    refine ⟨t, ?_, h2⟩
    intro rep
    simp only [report]
    rw [makeFullName_eq hlim.2.1 h.1, Outcome.bind_ok, e, Outcome.bind_ok]
    exact h1 rep
  | sectionStarted id loc =>
    exact message_prints hlim (show Word "blockOpened".toList by decide)
      (.cons (show Word "name".toList by decide) (v := .text _) (reads_plain h.1)
        (.cons (show Word "description".toList by decide) (v := .text _) (reads_plain h.2) .nil)) (by simp)
  | sectionEnded id loc sk c d =>
    exact message_prints hlim (show Word "blockClosed".toList by decide)
      (.cons (show Word "name".toList by decide) (v := .text _) (reads_plain h) .nil) (by simp)
  | assertionFailed id captures loc data expected allowed =>
    by_cases hb : (expected || allowed) = true
    · obtain ⟨t, h1, h2⟩ := message_prints hlim (show Word "testStdOut".toList by decide)
        (.cons (show Word "name".toList by decide) (v := .text _) (reads_coded (Spec.fullName id))
          (.cons (show Word "out".toList by decide) (v := .assertion loc captures data) ⟨h.2, rfl⟩ .nil))
        (by simp)
      refine ⟨t, ?_, by simp only [told, hb, if_true]; exact h2⟩
      intro rep
      simp only [report, hb, if_true]
      rw [makeFullName_eq hlim.2.1 h.1, Outcome.bind_ok]
      exact h1 rep
    · obtain ⟨t, h1, h2⟩ := message_prints hlim (show Word "testFailed".toList by decide)
        (.cons (show Word "name".toList by decide) (v := .text _) (reads_coded (Spec.fullName id))
          (.cons (show Word "message".toList by decide) (v := .assertion loc captures data) ⟨h.2, rfl⟩
            .nil)) (by simp)
      refine ⟨t, ?_, by simp only [told, hb]; exact h2⟩
      intro rep
      simp only [report, hb]
      rw [makeFullName_eq hlim.2.1 h.1, Outcome.bind_ok]
      exact h1 rep
  | assertionSucceeded id captures loc data =>
    obtain ⟨t, h1, h2⟩ := message_prints hlim (show Word "testStdOut".toList by decide)
      (.cons (show Word "name".toList by decide) (v := .text _) (reads_coded (Spec.fullName id))
        (.cons (show Word "out".toList by decide) (v := .assertion loc captures data) ⟨h.2, rfl⟩ .nil))
      (by simp)
    refine ⟨t, ?_, h2⟩
    intro rep
    simp only [report]
    rw [makeFullName_eq hlim.2.1 h.1, Outcome.bind_ok]
    exact h1 rep
  | caseSkipped id captures loc message =>
    obtain ⟨t, h1, h2⟩ := message_prints hlim (show Word "testIgnored".toList by decide)
      (.cons (show Word "name".toList by decide) (v := .text _) (reads_coded (Spec.fullName id))
        (.cons (show Word "message".toList by decide) (v := .assertion loc captures (.message message))
          ⟨h.2, rfl⟩ .nil)) (by simp)
    refine ⟨t, ?_, h2⟩
    intro rep
    simp only [report]
    rw [makeFullName_eq hlim.2.1 h.1, Outcome.bind_ok]
    exact h1 rep
  | listStarted => exact ⟨[], Prints.nil, by intro ms; simp [feed, told]⟩
  | listEnded => exact ⟨[], Prints.nil, by intro ms; simp [feed, told]⟩
  | listed => cases h

theorem reportAll_prints (hlim : LimitsOk lim) (es : List Event) (h : ∀ e ∈ es, EventOk lim e) :
    ∃ t, Prints (reportAll lim es) t ∧
      ∀ ms, feed ms (.header header) t = some (ms ++ es.flatMap (told lim), .header header) := by
  induction es with
  | nil => exact ⟨[], Prints.nil, by intro ms; simp [feed]⟩
  | cons e es ih =>
    obtain ⟨t1, p1, f1⟩ := report_prints hlim (h e (by simp))
    obtain ⟨t2, p2, f2⟩ := ih (fun x hx => h x (by simp [hx]))
    refine ⟨t1 ++ t2, ?_, ?_⟩
    · intro rep
      exact (p1.bind p2) rep
    · intro ms
      rw [feed_trans (f1 ms), f2, List.flatMap_cons, List.append_assoc]

end Verif.Report.TeamCity
