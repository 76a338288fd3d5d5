import Verif.Lemmas.Readme
import Verif.Props.Listing
/-!
# C89: the options in the README
-/
namespace Verif.Props
open Verif Verif.Cli Verif.Cli.Spec Verif.Whole Verif.Whole.Spec

/-- **C89** (reading). What a program does depends only on how its command line is read: two well-formed command lines with
the same items have the same effect. -/
theorem C89_reading [Run.MessageLimit] (p : Program) (fuel : Nat) (opens : Text → Bool) (argv0 : Text)
    {argv argv' : List Text} (hlen : argv.length ≤ p.maxArgs) (hlen' : argv'.length ≤ p.maxArgs) {ts : List Token}
    (hts : tokens argv = some ts) (hts' : tokens argv' = some ts) (hn : (optionNames ts).Nodup) :
    Whole.main p fuel opens argv0 argv = Whole.main p fuel opens argv0 argv' := by
  unfold Whole.main
  unfold parseAndPrint
  rw [parse_same hlen hlen' hts hts' hn]

/-- **C89** (recognised; partial: not `--output`). An option given as the README has it, anywhere on a well-formed command
line, is found under its name, with its value, and there is no warning about it. -/
theorem C89_recognised_partial {maxArgs : Nat} (dflt : Bool) (argv0 : Text) {o : Listing} (ho : o ∈ readme) {a : String}
    (ha : a ∈ o.spellings) (hne : a ≠ "--output") (v : Text) {pre post : List Text} {tp : List Token}
    (hpre : tokens pre = some tp) (hc : Complete pre) (hw : WellFormed (pre ++ (o.written a v ++ post)))
    (hlen : (pre ++ (o.written a v ++ post)).length ≤ maxArgs) :
    ∃ color msgs input arg, parseArguments maxArgs dflt argv0 (pre ++ (o.written a v ++ post)) = .ok (color, msgs, some input) ∧
      getOption input o.name.toList = some arg ∧ arg.value = (if o.valued then some v else none) ∧
      Msg.unknown a.toList ∉ msgs := by
  obtain ⟨color, msgs, r, hp, h1, h2⟩ := C31_parse (maxArgs := maxArgs) dflt argv0 hlen
  obtain ⟨input, rfl⟩ := Option.isSome_iff_exists.mp (h1.mpr hw)
  obtain ⟨ts, hts, _, hm, _⟩ := h2 input rfl
  obtain ⟨ts', hts', hn⟩ := hw
  rw [hts] at hts'
  cases hts'
  obtain ⟨ts', hts', hl, _⟩ := C31_lookup hlen hp
  rw [hts] at hts'
  cases hts'
  have hmem : o.token v ∈ ts := by
    rw [tokens_append hpre hc, tokens_written ho ha hne, Option.map_map] at hts
    obtain ⟨tq, _, rfl⟩ := Option.map_eq_some_iff.mp hts
    simp
  have hname : ∀ o ∈ readme, o.name.toList ≠ [] := by decide
  have hf := hl o.name.toList (hname o ho)
  rw [find_option hn hmem] at hf
  obtain ⟨arg, e1, e2⟩ := Option.map_eq_some_iff.mp hf
  refine ⟨color, msgs, input, arg, hp, e1, congrArg Prod.snd e2, ?_⟩
  rw [hm, List.mem_map]
  rintro ⟨x, hx, e⟩
  cases e
  obtain ⟨_, hk⟩ := readme_kind o ho a ha hne
  have := unknowns_kind hts _ hx
  rw [hk] at this
  rcases this with h | h <;> (split at h <;> cases h)

/-- **C89** (spellings; partial: not `--output`). The spellings of an option in the README have the same effect. -/
theorem C89_spellings_partial [Run.MessageLimit] (p : Program) (fuel : Nat) (opens : Text → Bool) (argv0 : Text)
    {o : Listing} (ho : o ∈ readme) {a a' : String} (ha : a ∈ o.spellings) (ha' : a' ∈ o.spellings) (hne : a ≠ "--output")
    (hne' : a' ≠ "--output") (v : Text) {pre post : List Text} {tp : List Token} (hpre : tokens pre = some tp)
    (hc : Complete pre) (hw : WellFormed (pre ++ (o.written a v ++ post)))
    (hlen : (pre ++ (o.written a v ++ post)).length ≤ p.maxArgs) :
    Whole.main p fuel opens argv0 (pre ++ (o.written a v ++ post)) =
      Whole.main p fuel opens argv0 (pre ++ (o.written a' v ++ post)) := by
  obtain ⟨ts, hts, hn⟩ := hw
  refine C89_reading p fuel opens argv0 hlen ?_ hts ?_ hn
  · simpa [Listing.written] using hlen
  · rw [tokens_append hpre hc, tokens_written ho ha' hne']
    rw [tokens_append hpre hc, tokens_written ho ha hne] at hts
    exact hts

open Defaults in
/-- An example for `C89_recognised_partial` and `C89_spellings_partial`: `-x 3 -o f a*`. -/
example (opens : Text → Bool) : Whole.main exampleProgram 5 opens "prog".toList (["-x", "3", "-v", "high", "a*"].map String.toList) =
    Whole.main exampleProgram 5 opens "prog".toList (["-x", "3", "--verbosity", "high", "a*"].map String.toList) :=
  C89_spellings_partial exampleProgram 5 opens "prog".toList (o := ⟨["-v", "--verbosity"], true, "--verbosity"⟩)
    (by simp [readme]) (a := "-v") (a' := "--verbosity") (by decide) (by decide) (by decide) (by decide) "high".toList
    (pre := ["-x", "3"].map String.toList) (post := ["a*"].map String.toList) (tp := [.unknown "-x".toList]) (by decide)
    (by intro a h; cases h; decide)
    ⟨[.unknown "-x".toList, .option "--verbosity".toList (some "high".toList), .positional "a*".toList], by decide, by decide⟩
    (by decide)

/-- What the program prints for `--output f`. -/
def outputScreen : Text :=
  ("warning: unknown command line argument '--output'\n" ++
    "starting prog with snitch v1.3.2\n==========================================\n" ++
    "==========================================\n" ++
    "success: all tests passed (0 test cases, 0 assertions, 0.5 seconds)\n").toList

open Defaults in
set_option maxRecDepth 20000 in
/-- **C89** (violated). `--output` is in the README, but the program does not know it. It says so, takes the path as the name
of a test, finds no such test, and ends with success, although there are tests that fail. No test is run and no file is
opened. With `-o` the exit status is 1, and there is a file. -/
theorem C89_output_unknown : ∃ o ∈ readme, "-o" ∈ o.spellings ∧ "--output" ∈ o.spellings ∧
    (∃ w, Whole.main exampleProgram 5 (fun _ => true) "bin/prog.exe".toList
        (["-v", "high"].map String.toList ++ o.written "--output" "f".toList) = some (.ok (0, w)) ∧
      Shows w outputScreen none) ∧
    (∃ w report, Whole.main exampleProgram 5 (fun _ => true) "bin/prog.exe".toList
        (["-v", "high"].map String.toList ++ o.written "-o" "f".toList) = some (.ok (1, w)) ∧
      Shows w [] (some ("f".toList, report))) := by
  refine ⟨⟨["-o", "--output"], true, "--out"⟩, by simp [readme], by decide, by decide, ⟨_, rfl, ?_, ?_, ?_⟩, ?_⟩
  · decide
  · decide +kernel
  · rfl
  · obtain ⟨w, _, _, _, h1, h2, _⟩ := exampleProgram_to_file
    exact ⟨w, _, h1, h2⟩

end Verif.Props
