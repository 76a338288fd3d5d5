import Verif.Lemmas.HelpParse
import Verif.Props.Cli
/-!
# C61: the help text and the complaints about a command line
-/
namespace Verif.Props
open Verif Verif.Spec Verif.Cli Verif.Cli.Spec
open Verif.Report.Spec.Console (strip)

/-- **C61**. The help text, exactly, for every version, program name and either colour setting. -/
theorem C61_help {cap : Nat} (hcap : cap + 3 < sizeT) (color : Bool) {version : Text} (name : Text)
    (hv : version.length + 128 ≤ cap) :
    printHelp cap color version name = .ok (helpText cap color version name) :=
  printHelp_eq hcap color name hv

/-- **C61**. What is printed for any command line: first the complaints about it, in order; then, if it is refused,
an empty line and the help text. It is refused exactly when it is not well-formed. -/
theorem C61_printed {cap maxArgs : Nat} (hcap : cap + 3 < sizeT) {version : Text} (hv : version.length + 128 ≤ cap)
    (dflt : Bool) (argv0 : Text) {argv : List Text} (h : argv.length ≤ maxArgs) :
    ∃ msgs r, parseArguments maxArgs dflt argv0 argv = .ok (colorFor dflt argv, msgs, r) ∧ (r.isSome ↔ WellFormed argv) ∧
      parseAndPrint cap maxArgs dflt version argv0 argv =
        .ok ((complaints [] argv).flatMap (complaintLine cap (colorFor dflt argv)) ++
          (if r.isSome then [] else "\n".toList ++ helpText cap (colorFor dflt argv) version argv0), r) := by
  obtain ⟨color, msgs, r, hp, hw, _⟩ := C31_parse dflt argv0 h
  have hm := parseArguments_msgs h hp
  obtain rfl := C51_color_any h hp
  refine ⟨msgs, r, hp, hw, ?_⟩
  have h1 : say cap [str "\n"] = .ok "\n".toList := by
    rw [say_eq hcap (room_strs (by simp [Cli.str]) 0),
      cut_of_le (Nat.le_trans (by decide) (show 128 ≤ cap by omega))]
    rfl
  rw [parseAndPrint, hp, Outcome.bind_ok]
  dsimp only
  rw [sayAll_eq hcap (by omega), Outcome.bind_ok, hm]
  cases r with
  | some i => rfl
  | none =>
    rw [helpIfRefused, h1, Outcome.bind_ok, printHelp_eq hcap _ argv0 hv, Outcome.bind_ok]
    rfl

/-- **C61**. A command line is well-formed exactly when no complaint about it is an error. -/
theorem C61_errors (argv : List Text) : WellFormed argv ↔ ∀ c ∈ complaints [] argv, c.error = false := by
  rw [← good_wellFormed]
  exact good_iff_complaints argv.length argv [] (Nat.le_refl _)

/-- **C31**. The limit on the number of arguments concerns only those that are recorded: with any number of arguments
the parser does the same with the limit `m` as with a limit that nothing can exceed, as long as not more than `m` are
recorded; otherwise it ends the program. (`C31_parse` says what is done then.) -/
theorem C31_limit {m M : Nat} (h2 : 2 ≤ m) (dflt : Bool) (argv0 : Text) {argv : List Text} (hM : argv.length ≤ M) :
    parseArguments m dflt argv0 argv =
      if recordings [] argv ≤ m then parseArguments M dflt argv0 argv else .abort :=
  parseArguments_limit h2 dflt argv0 hM

/-- **C31**. For a well-formed command line, that is the number of its options and positional arguments. -/
theorem C31_recordings {argv : List Text} {ts : List Token} (ht : tokens argv = some ts) (hn : (optionNames ts).Nodup) :
    recordings [] argv = (optionsOf ts).length + (positionalsOf ts).length := by
  rw [recordings_eq ht hn]
  clear ht hn
  induction ts with
  | nil => rfl
  | cons t ts ih =>
    cases t <;> simp only [optionsOf, positionalsOf, entryOf, List.filterMap_cons, List.length_cons] at ih ⊢ <;> omega

/-- **C61**. Also what is printed depends on the limit only in this. -/
theorem C61_limit {cap m M : Nat} (h2 : 2 ≤ m) (dflt : Bool) (version argv0 : Text) {argv : List Text}
    (hM : argv.length ≤ M) :
    parseAndPrint cap m dflt version argv0 argv =
      if recordings [] argv ≤ m then parseAndPrint cap M dflt version argv0 argv else .abort := by
  rw [parseAndPrint, parseAndPrint, parseArguments_limit h2 dflt argv0 hM]
  by_cases ht : recordings [] argv ≤ m
  · rw [if_pos ht, if_pos ht]
  · rw [if_neg ht, if_neg ht]; rfl

/-- What can be read in the help text. -/
def documented : List (Text × Option Text) :=
  [("-l", none), ("--list-tests", none), ("--list-tags", none), ("--list-tests-with-tag", some "tag"),
   ("--list-reporters", none), ("-r", some "reporter[::key=value]*"), ("--reporter", some "reporter[::key=value]*"),
   ("-v", some "quiet|normal|high|full"), ("--verbosity", some "quiet|normal|high|full"), ("-o", some "path"),
   ("--out", some "path"), ("--color", some "always|default|never"), ("--colour-mode", some "ansi|default|none"),
   ("-h", none), ("--help", none)].map fun p : String × Option String => (p.1.toList, p.2.map String.toList)

set_option maxRecDepth 20000 in
theorem rows_listed : ((Spec.splitAt '\n' ([] ++ '\n' :: rows.flatMap (row false))).dropWhile (· ≠ [])).flatMap
    optionsOfLine = documented := by decide +kernel

theorem not_mem_around {x : Char} {a b c : Text} (ha : x ∉ a) (hb : x ∉ b) (hc : x ∉ c) : x ∉ a ++ b ++ c := by
  simp only [List.mem_append, not_or]
  exact ⟨⟨ha, hb⟩, hc⟩

theorem help_listed {cap : Nat} {version name : Text} (hv : '\n' ∉ version) (hn : '\n' ∉ name) :
    optionsListed (helpText cap false version name) = documented := by
  have e : helpText cap false version name = title version ++ '\n' :: ("Usage:".toList ++ '\n' ::
      ((cut cap ("  ".toList ++ name) ++ " [options...] [<test regex>...]".toList) ++ '\n' ::
        ([] ++ '\n' :: rows.flatMap (row false)))) := by
    have a : " [options...] [<test regex>...]\n\n".toList =
        " [options...] [<test regex>...]".toList ++ ['\n', '\n'] := by decide
    have b : "\n".toList = ['\n'] := by decide
    simp only [helpText, tinted, Bool.false_eq_true, if_false, a, b, List.append_assoc, List.cons_append,
      List.nil_append]
  have h1 : '\n' ∉ title version := not_mem_around (by decide) hv (by decide)
  have h2 : '\n' ∉ "Usage:".toList := by decide
  have h3 : '\n' ∉ cut cap ("  ".toList ++ name) := by
    have h0 : '\n' ∉ "  ".toList ++ name := by
      rw [List.mem_append]; rintro (h | h)
      · exact absurd h (by decide)
      · exact hn h
    rw [cut]
    split
    · exact h0
    · rw [List.mem_append]
      rintro (h | h)
      · exact h0 (List.mem_of_mem_take h)
      · rw [marker, List.mem_replicate] at h; exact absurd h.2 (by decide)
  have h4 : '\n' ∉ cut cap ("  ".toList ++ name) ++ " [options...] [<test regex>...]".toList := by
    rw [List.mem_append]; rintro (h | h)
    · exact h3 h
    · exact absurd h (by decide)
  have n1 : decide (title version ≠ []) = true := decide_eq_true (title_ne version)
  have n2 : decide ("Usage:".toList ≠ []) = true := by decide
  have n3 : decide (cut cap ("  ".toList ++ name) ++ " [options...] [<test regex>...]".toList ≠ []) = true := by
    refine decide_eq_true fun h => ?_
    rw [List.append_eq_nil_iff] at h
    exact absurd h.2 (by decide)
  rw [optionsListed, e, splitAt_line h1, splitAt_line h2, splitAt_line h4,
    List.dropWhile_cons_of_pos (by exact n1), List.dropWhile_cons_of_pos (by exact n2),
    List.dropWhile_cons_of_pos (by exact n3), rows_listed]

/-- What an option that can be read in the help text is. -/
def kindB (p : Text × Option Text) : Bool :=
  p.1.head? == some '-' && match kind p.1, p.2 with
    | .flag _, none => true
    | .valued l, some v => valueNameOf l == v
    | _, _ => false

theorem documented_kind : ∀ p ∈ documented, kindB p = true := by decide

theorem find_mem {a l : Text} {table : List (String × String)} (h : find a table = some l) :
    ∃ p ∈ table, p.1.toList = a := by
  rw [find] at h
  cases hx : table.find? fun p => p.1.toList == a with
  | none => rw [hx] at h; cases h
  | some p => exact ⟨p, List.mem_of_find?_eq_some hx, by simpa using List.find?_some hx⟩

theorem undocumented_kind {a : Text} (h : ∀ v, (a, v) ∉ documented) : kind a = .swallow ∨ kind a = .other := by
  have h1 : ∀ p ∈ flags ++ valuedOptions, ∃ q ∈ documented, q.1 = p.1.toList := by decide
  have hno : ¬ ∃ p ∈ flags ++ valuedOptions, p.1.toList = a := by
    rintro ⟨p, hp, rfl⟩
    obtain ⟨q, hq, e⟩ := h1 p hp
    exact h q.2 (by rw [← e]; exact hq)
  unfold kind
  cases hf : find a flags with
  | some l =>
    obtain ⟨p, hp, e⟩ := find_mem hf
    exact absurd ⟨p, by simp [hp], e⟩ hno
  | none =>
    cases hf' : find a valuedOptions with
    | some l =>
      obtain ⟨p, hp, e⟩ := find_mem hf'
      exact absurd ⟨p, by simp [hp], e⟩ hno
    | none => dsimp only; split <;> simp

/-- **C61**. The help text is complete and right about the options, for an argument `a` that begins with a dash. If the
help text lists it without a value, it is accepted on its own; with a value `v`, it is refused without one, naming `v`,
and accepted with any; if the help text does not list it, there is a warning that it is unknown, and it is ignored. -/
theorem C61_listed {cap maxArgs : Nat} {version name : Text} (hv : '\n' ∉ version) (hn : '\n' ∉ name)
    (h2 : 2 ≤ maxArgs) (dflt : Bool) (argv0 : Text) {a : Text} (ha : a.head? = some '-') :
    ((a, none) ∈ optionsListed (helpText cap false version name) →
      complaints [] [a] = [] ∧ ∃ color i long, parseArguments maxArgs dflt argv0 [a] = .ok (color, [], some i) ∧
        recorded i = [(long, none)]) ∧
    (∀ v, (a, some v) ∈ optionsListed (helpText cap false version name) →
      complaints [] [a] = [valueMissing v a] ∧
      ∀ x, complaints [] [a, x] = [] ∧ ∃ color i long, parseArguments maxArgs dflt argv0 [a, x] = .ok (color, [], some i) ∧
        recorded i = [(long, some x)]) ∧
    ((∀ v, (a, v) ∉ optionsListed (helpText cap false version name)) →
      complaints [] [a] = [unknownArgument a] ∧
      ∃ color i, parseArguments maxArgs dflt argv0 [a] = .ok (color, [.unknown a], some i) ∧ recorded i = []) := by
  rw [help_listed hv hn]
  have run : ∀ (argv : List Text) (ts : List Token), tokens argv = some ts → (optionNames ts).Nodup →
      argv.length ≤ maxArgs → ∃ color i, parseArguments maxArgs dflt argv0 argv =
        .ok (color, (unknowns ts).map Msg.unknown, some i) ∧ recorded i = records ts := by
    intro argv ts ht hnd hl
    obtain ⟨color, msgs, r, hp, hw, hr⟩ := C31_parse dflt argv0 hl
    have hs := hw.mpr ⟨ts, ht, hnd⟩
    cases r with
    | none => cases hs
    | some i =>
      obtain ⟨ts', t1, t2, t3, _⟩ := hr i rfl
      rw [ht] at t1; cases t1
      exact ⟨color, i, by rw [hp, t3], t2⟩
  refine ⟨fun hm => ?_, fun v hm => ?_, fun hm => ?_⟩
  · have hk := documented_kind _ hm
    simp only [kindB, Bool.and_eq_true] at hk
    cases hka : kind a with
    | flag l =>
      refine ⟨by rw [complaints_flag [] [] ha hka]; simp [complaints], ?_⟩
      obtain ⟨color, i, e1, e2⟩ := run [a] [.option l none] (by rw [tokens_flag ha hka]; rfl)
        (by simp [optionNames]) (by simp; omega)
      exact ⟨color, i, l, e1, e2⟩
    | _ => rw [hka] at hk; simp at hk
  · have hk := documented_kind _ hm
    simp only [kindB, Bool.and_eq_true] at hk
    cases hka : kind a with
    | valued l =>
      rw [hka] at hk
      have hvn : valueNameOf l = v := by simpa using hk.2
      refine ⟨by rw [complaints_valued_nil ha hka (by simp), hvn], fun x => ⟨?_, ?_⟩⟩
      · rw [complaints_valued [] ha hka (by simp)]; simp [complaints]
      · obtain ⟨color, i, e1, e2⟩ := run [a, x] [.option l (some x)] (by rw [tokens_valued ha hka]; rfl)
          (by simp [optionNames]) (by simp; omega)
        exact ⟨color, i, l, e1, e2⟩
    | flag l => rw [hka] at hk; simp at hk
    | swallow => rw [hka] at hk; simp at hk
    | other => rw [hka] at hk; simp at hk
  · rcases undocumented_kind hm with hk | hk
    · refine ⟨complaints_swallow_nil [] ha hk, ?_⟩
      obtain ⟨color, i, e1, e2⟩ := run [a] [.unknown a] (by rw [tokens_swallow_nil ha hk]; rfl)
        (by simp [optionNames]) (by simp; omega)
      exact ⟨color, i, e1, e2⟩
    · refine ⟨by rw [complaints_other [] [] ha hk]; simp [complaints], ?_⟩
      obtain ⟨color, i, e1, e2⟩ := run [a] [.unknown a] (by rw [tokens_other ha hk]; rfl)
        (by simp [optionNames]) (by simp; omega)
      exact ⟨color, i, e1, e2⟩

theorem strip_tinted {code : String} (hc : code.toList ∈ Report.Spec.Console.starts) {s : Text} (h : '\x1b' ∉ s)
    (r : Text) : strip (tinted true code s ++ r) = tinted false code s ++ strip r := by
  simp only [tinted, if_true, Bool.false_eq_true, if_false, List.append_assoc]
  rw [Report.Console.strip_code (.inl hc), Report.Console.strip_plain s h,
    Report.Console.strip_code (code := "\x1b[0m".toList) (.inr rfl)]

theorem strip_all {s : Text} (h : '\x1b' ∉ s) : strip s = s := by
  have := Report.Console.strip_plain s h []
  rw [List.append_nil] at this
  rw [this]
  show s ++ [] = s
  simp

theorem cut_clean {cap : Nat} {s : Text} (h : '\x1b' ∉ s) : '\x1b' ∉ cut cap s := by
  rw [cut]
  split
  · exact h
  · rw [List.mem_append]
    rintro (h' | h')
    · exact h (List.mem_of_mem_take h')
    · rw [marker, List.mem_replicate] at h'; exact absurd h'.2 (by decide)

/-- **C61**. Colours do not change the help text. -/
theorem C61_colors {cap : Nat} {version name : Text} (hv : '\x1b' ∉ version) (hn : '\x1b' ∉ name) :
    strip (helpText cap true version name) = helpText cap false version name := by
  have ht : '\x1b' ∉ title version := not_mem_around (by decide) hv (by decide)
  have h3 : '\x1b' ∉ cut cap ("  ".toList ++ name) := by
    apply cut_clean
    rw [List.mem_append]; rintro (h | h)
    · exact absurd h (by decide)
    · exact hn h
  have hrows : ∀ l : List (String × String), (∀ r ∈ l, '\x1b' ∉ r.1.toList ∧ '\x1b' ∉ r.2.toList) →
      strip (l.flatMap (row true)) = l.flatMap (row false) := by
    intro l
    induction l with
    | nil => intro _; rfl
    | cons r l ih =>
      intro h
      obtain ⟨c1, c2⟩ := h r (by simp)
      rw [List.flatMap_cons, List.flatMap_cons, row, row]
      simp only [List.append_assoc]
      rw [Report.Console.strip_plain _ (by decide), strip_tinted (by decide) c1, Report.Console.strip_plain _ (by decide),
        Report.Console.strip_plain _ c2, Report.Console.strip_plain _ (by decide), ih fun x hx => h x (by simp [hx])]
  unfold helpText
  simp only [List.append_assoc]
  rw [strip_tinted (by decide) ht, Report.Console.strip_plain _ (by decide), strip_tinted (by decide) (by decide),
    Report.Console.strip_plain _ (by decide), Report.Console.strip_plain _ h3, Report.Console.strip_plain _ (by decide),
    hrows _ (by decide)]

/-- **C61**. Colours do not change the complaints that fit in the buffer. -/
theorem C61_complaint_colors {cap : Nat} {c : Complaint} (h : '\x1b' ∉ c.text) (hl : c.text.length + 20 ≤ cap) :
    strip (complaintLine cap true c) = complaintLine cap false c := by
  have a1 : "error:".toList.length = 6 := by decide
  have a2 : "warning:".toList.length = 8 := by decide
  have a3 : "\n".toList.length = 1 := by decide
  have hs : '\x1b' ∉ c.text ++ "\n".toList := by
    rw [List.mem_append]; rintro (h' | h')
    · exact h h'
    · exact absurd h' (by decide)
  have b : ∀ color, (tinted color "\x1b[1;31m" "error:".toList ++ c.text ++ "\n".toList).length ≤ cap := by
    intro color
    have := tinted_length color (code := "\x1b[1;31m") (by decide) "error:".toList
    simp only [List.length_append, a3]; omega
  have b' : ∀ color, (tinted color "\x1b[1;33m" "warning:".toList ++ c.text ++ "\n".toList).length ≤ cap := by
    intro color
    have := tinted_length color (code := "\x1b[1;33m") (by decide) "warning:".toList
    simp only [List.length_append, a3]; omega
  unfold complaintLine
  cases he : c.error with
  | true =>
    rw [if_pos rfl, if_pos rfl, cut_of_le (b true), cut_of_le (b false), List.append_assoc, List.append_assoc,
      strip_tinted (by decide) (by decide), strip_all hs]
  | false =>
    rw [if_neg (by decide), if_neg (by decide), cut_of_le (b' true), cut_of_le (b' false), List.append_assoc,
      List.append_assoc, strip_tinted (by decide) (by decide), strip_all hs]

/-! ## Concrete cases -/

/-- The default configuration. -/
example : 1024 + 3 < sizeT ∧ "1.3.2.abcdef".toList.length + 128 ≤ 1024 := by decide

/-- A command line with an option given twice (whose second value is then read as an option), an unknown one and a
missing value. -/
def badLine : List Text := ["-v", "high", "--verbosity", "--zzz", "a*", "--order", "-h", "--out"].map String.toList

example : complaints [] badLine = [duplicated "--verbosity".toList, unknownArgument "--zzz".toList,
    unknownArgument "--order".toList, valueMissing "path".toList "--out".toList] ∧ badLine.length ≤ 1024 := by decide

example : ¬ WellFormed badLine := by
  rw [C61_errors]
  intro h
  exact absurd (h (duplicated "--verbosity".toList) (by decide)) (by decide)

/-- Six arguments of which three are recorded: they are accepted with a limit of 3, but not of 2. -/
example : recordings [] ["--out".toList, "log.txt".toList, "--zzz".toList, "a*".toList, "--order".toList, "rand".toList,
    "b*".toList] = 3 ∧
    parseArguments 2 false "tests".toList ["--out".toList, "log.txt".toList, "--zzz".toList, "a*".toList,
      "--order".toList, "rand".toList, "b*".toList] = .abort := by
  refine ⟨by decide, ?_⟩
  rw [C31_limit (M := 7) (by decide) _ _ (by decide)]
  decide

example : complaintLine 1024 false (valueMissing "path".toList "--out".toList) =
    "error: missing value '<path>' for command line argument '--out'\n".toList := by decide +kernel

example : '\n' ∉ "1.3.2".toList ∧ '\n' ∉ "bin/tests".toList ∧ "--out".toList.head? = some '-' ∧
    ("--out".toList, some "path".toList) ∈ documented ∧ ∀ v, ("--output".toList, v) ∉ documented := by
  refine ⟨by decide, by decide, by decide, by decide, ?_⟩
  intro v h
  have : ∀ p ∈ documented, p.1 ≠ "--output".toList := by decide
  exact this _ h rfl

end Verif.Props
