import Verif.Model.Help
import Verif.Spec.Help
import Verif.Lemmas.Print
import Verif.Lemmas.StringUtil
import Verif.Lemmas.CliParse
import Verif.Lemmas.CliColor
/-!
# Lemmas about what the command line prints
-/
set_option linter.unusedSimpArgs false
namespace Verif.Cli
open Verif Verif.Spec Verif.Cli.Spec Verif.Print
open Verif.Print.Spec (whole)

/-- There is room for all coloured values after `n` characters; they are not empty. -/
def Room (cap : Nat) : Nat → List Arg → Prop
  | _, [] => True
  | n, .colored c :: as => c.value ≠ [] ∧ n + (whole (.colored c)).length ≤ cap ∧
      Room cap (n + (whole (.colored c)).length) as
  | n, .str s :: as => n + s.length ≤ cap → Room cap (n + s.length) as
  | n, .value s :: as => n + s.length ≤ cap → Room cap (n + s.length) as

theorem fill_more {cap : Nat} {l s r : Text} (h : ¬ l.length + s.length ≤ cap) :
    fill cap l s = fill cap l (s ++ r) := by
  unfold fill
  rw [← List.append_assoc, List.take_append_of_le_length (l₁ := l ++ s) (by rw [List.length_append]; omega)]

theorem appendAll_holds {cap : Nat} (hcap : cap < sizeT) : ∀ (args : List Arg) {v : Str} {l : Text}
    (_ : v.Holds cap l) (_ : Room cap l.length args),
    ∃ v', appendAll v args = .ok (v', decide (l.length + (args.flatMap whole).length ≤ cap)) ∧
      v'.Holds cap (fill cap l (args.flatMap whole))
  | [], v, l, h, _ => by
    have hle := h.le
    refine ⟨v, ?_, ?_⟩
    · simp [appendAll, hle]
    · simpa [fill, List.take_of_length_le hle] using h
  | a :: as, v, l, h, hr => by
    obtain ⟨v1, e1, h1⟩ := appendArg_holds h hcap a
    rw [appendAll, e1, Outcome.bind_ok]
    dsimp only
    by_cases hf : fits cap l a = true
    · have ha := after_of_fits hf
      rw [ha] at h1
      have hle := h1.le
      have hr' : Room cap (l ++ whole a).length as := by
        rw [List.length_append]
        cases a with
        | str s => exact hr (by simpa [fits] using hf)
        | value s => exact hr (by simpa [fits] using hf)
        | colored c => exact hr.2.2
      obtain ⟨v2, e2, h2⟩ := appendAll_holds hcap as h1 hr'
      rw [if_pos hf, e2]
      refine ⟨v2, ?_, ?_⟩
      · simp [Nat.add_assoc]
      · simpa [fill] using h2
    · rw [if_neg hf]
      have hstr : ∀ s, fits cap l a = decide (l.length + s.length ≤ cap) → after cap l a = fill cap l s →
          whole a = s → ∃ v', (pure (v1, false) : Outcome (Str × Bool)) =
            .ok (v', decide (l.length + ((a :: as).flatMap whole).length ≤ cap)) ∧
            v'.Holds cap (fill cap l ((a :: as).flatMap whole)) := by
        intro s k1 k2 k3
        rw [k1, decide_eq_true_iff] at hf
        refine ⟨v1, ?_, ?_⟩
        · rw [decide_eq_false (by simp [k3]; omega)]; rfl
        · rw [List.flatMap_cons, k3, ← fill_more hf, ← k2]; exact h1
      cases a with
      | str s => exact hstr s rfl rfl rfl
      | value s => exact hstr s rfl rfl rfl
      | colored c =>
        exfalso
        apply hf
        obtain ⟨k1, k2, _⟩ := hr
        have := List.length_pos_iff.mpr k1
        simp only [whole, List.length_append] at k2
        simp only [fits, decide_eq_true_iff]
        omega

/-- `cli::print` prints everything, or as much as there is room for. -/
theorem say_eq {cap : Nat} (hcap : cap + 3 < sizeT) {args : List Arg} (hr : Room cap 0 args) :
    say cap args = .ok (cut cap (args.flatMap whole)) := by
  obtain ⟨v1, e1, h1⟩ := appendAll_holds (by omega) args (SV.holds_empty cap ' ') hr
  rw [List.length_nil, Nat.zero_add] at e1
  rw [say, e1, Outcome.bind_ok]
  dsimp only
  by_cases h : (args.flatMap whole).length ≤ cap
  · rw [decide_eq_true h, truncateUnless, if_pos rfl, Outcome.bind_ok, h1.contents, cut, if_pos h]
    simp [fill, List.take_of_length_le h]
  · rw [decide_eq_false h, truncateUnless, if_neg (by decide)]
    obtain ⟨v2, e2, h2⟩ := Util.truncateEnd_holds h1 hcap
    rw [e2, Outcome.bind_ok, h2.contents, cut, if_neg h]
    have hl : (fill cap [] (args.flatMap whole)).length = cap := by
      simp only [fill, List.length_take, List.nil_append]; omega
    rw [Util.truncated_of_full hl, fill, List.nil_append, List.take_take, Nat.min_eq_left (by omega)]
    rfl

theorem cut_of_le {cap : Nat} {s : Text} (h : s.length ≤ cap) : cut cap s = s := by rw [cut, if_pos h]

theorem whole_paint (color : Bool) (code : String) (s : Text) :
    whole (paint color code.toList s) = tinted color code s := by
  cases color
  · simp [whole, paint, makeColored, tinted]
  · rfl

theorem whole_str (s : String) : whole (str s) = s.toList := rfl
theorem whole_strArg (s : Text) : whole (.str s) = s := rfl

theorem tinted_length (color : Bool) {code : String} (hc : code.toList.length = 7) (s : Text) :
    (tinted color code s).length ≤ s.length + 11 := by
  cases color
  · simp [tinted]
  · have : "\x1b[0m".toList.length = 4 := by decide
    rw [tinted, if_pos rfl, List.length_append, List.length_append, hc, this]; omega

theorem room_strs {cap : Nat} : ∀ {args : List Arg} (_ : ∀ a ∈ args, ∃ s, a = .str s) (n : Nat), Room cap n args
  | [], _, _ => trivial
  | a :: as, h, n => by
    obtain ⟨s, rfl⟩ := h a (by simp)
    exact fun _ => room_strs (fun b hb => h b (by simp [hb])) _

theorem room_first {cap : Nat} {color : Bool} {code : String} {s : Text} {args : List Arg} {n : Nat}
    (hc : code.toList.length = 7) (hs : s ≠ []) (hl : n + s.length + 11 ≤ cap) (h : ∀ a ∈ args, ∃ s, a = .str s) :
    Room cap n (paint color code.toList s :: args) := by
  refine ⟨hs, ?_, room_strs h _⟩
  have := tinted_length color hc s
  rw [← whole_paint] at this
  unfold paint at this
  omega

/-! ## The help text -/

/-- The strings of the heading, when the value name is there if needed. -/
def partsOf (e : Expected) : List Text :=
  match headingParts e with
  | .ok p => p
  | _ => []

/-- The line of an argument. -/
def rowOf (color : Bool) (e : Expected) : Text :=
  "  ".toList ++ tinted color "\x1b[1;35m" (partsOf e).flatten ++ " ".toList ++ e.description ++ "\n".toList

/-- An argument that can be listed. -/
def listable (e : Expected) : Bool :=
  headingParts e == .ok (partsOf e) && (partsOf e).flatten != [] &&
    (partsOf e).flatten.length + e.description.length ≤ 105

theorem heading_eq {cap : Nat} (hcap : cap + 3 < sizeT) {e : Expected} {parts : List Text}
    (h : headingParts e = .ok parts) (hl : parts.flatten.length ≤ cap) : heading cap e = .ok parts.flatten := by
  obtain ⟨v, e1, h1⟩ := Util.appendOrTruncate_holds false (SV.holds_empty cap ' ') hcap parts
  rw [heading, h, Outcome.bind_ok, e1, Outcome.bind_ok]
  simp only [List.length_nil, Nat.zero_add, List.nil_append, if_pos hl] at h1
  show Outcome.ok (SV.contents v) = _
  rw [h1.contents]

theorem two_length : "  ".toList.length = 2 := by decide

theorem listArguments_eq {cap : Nat} (hcap : cap + 3 < sizeT) (h128 : 128 ≤ cap) (color : Bool) :
    ∀ {es : List Expected} (_ : ∀ e ∈ es, e.ignored = false → listable e = true),
    listArguments cap color es = .ok ((es.filter (fun e => !e.ignored)).flatMap (rowOf color))
  | [], _ => rfl
  | e :: es, h => by
    have ih := listArguments_eq hcap h128 color (es := es) (fun x hx => h x (by simp [hx]))
    rw [listArguments]
    cases hi : e.ignored with
    | true => rw [if_pos rfl, ih, List.filter_cons_of_neg (by simp [hi])]
    | false =>
      have hl := h e (by simp) hi
      simp only [listable, Bool.and_eq_true, beq_iff_eq, bne_iff_ne, decide_eq_true_iff] at hl
      obtain ⟨⟨h1, h2⟩, h3⟩ := hl
      rw [if_neg (by simp), heading_eq hcap h1 (by omega), Outcome.bind_ok, say_eq hcap, Outcome.bind_ok, ih]
      · have e1 : ([str "  ", paint color headingColor (partsOf e).flatten, str " ", .str e.description,
            str "\n"] : List Arg).flatMap whole = rowOf color e := by
          simp only [List.flatMap_cons, List.flatMap_nil, headingColor, whole_paint, whole_str, whole_strArg, rowOf,
            List.append_nil, List.append_assoc]
        rw [e1, cut_of_le, List.filter_cons_of_pos (by simp [hi]), List.flatMap_cons]
        · rfl
        · have := tinted_length color (code := "\x1b[1;35m") (by decide) (partsOf e).flatten
          have a1 : " ".toList.length = 1 := by decide
          have a2 : "\n".toList.length = 1 := by decide
          simp only [rowOf, List.length_append, two_length, a1, a2]
          omega
      · intro _
        refine room_first (by decide) h2 ?_ ?_
        · rw [two_length]; omega
        · simp [str]

theorem rows_eq (color : Bool) :
    (expectedArgs.filter (fun e => !e.ignored)).flatMap (rowOf color) = rows.flatMap (row color) := by
  have h : (expectedArgs.filter (fun e => !e.ignored)).map (fun e => ((partsOf e).flatten, e.description)) =
      rows.map (fun r => (r.1.toList, r.2.toList)) := by decide
  have h1 : ∀ l : List Expected, l.flatMap (rowOf color) =
      (l.map (fun e => ((partsOf e).flatten, e.description))).flatMap (fun p : Text × Text =>
        "  ".toList ++ tinted color "\x1b[1;35m" p.1 ++ " ".toList ++ p.2 ++ "\n".toList) := by
    intro l; rw [List.flatMap_map]; rfl
  have h2 : ∀ l : List (String × String), l.flatMap (row color) =
      (l.map (fun r => (r.1.toList, r.2.toList))).flatMap (fun p : Text × Text =>
        "  ".toList ++ tinted color "\x1b[1;35m" p.1 ++ " ".toList ++ p.2 ++ "\n".toList) := by
    intro l; rw [List.flatMap_map]; rfl
  rw [h1, h2, h]

theorem usagePositionals_eq {cap : Nat} (hcap : cap + 3 < sizeT) (h128 : 128 ≤ cap) :
    usagePositionals cap expectedArgs = .ok " [<test regex>...]".toList := by
  have h : usagePositionals cap expectedArgs =
      (say cap [str " [<", .str "test regex".toList, str ">...]"]).bind fun t => .ok (t ++ []) := rfl
  rw [h, say_eq hcap (room_strs (by simp [str]) 0), cut_of_le (Nat.le_trans (by decide) h128)]
  rfl

theorem say_first {cap : Nat} (hcap : cap + 3 < sizeT) (color : Bool) {code : String} {s : Text}
    (hc : code.toList.length = 7) (hs : s ≠ []) (hl : s.length + 12 ≤ cap) :
    say cap [paint color code.toList s, str "\n"] = .ok (tinted color code s ++ "\n".toList) := by
  rw [say_eq hcap (room_first hc hs (by omega) (by simp [str]))]
  have e : ([paint color code.toList s, str "\n"] : List Arg).flatMap whole =
      tinted color code s ++ "\n".toList := by
    simp only [List.flatMap_cons, List.flatMap_nil, whole_paint, whole_str, List.append_nil]
  rw [e, cut_of_le]
  have h1 := tinted_length color hc s
  have a2 : "\n".toList.length = 1 := by decide
  rw [List.length_append, a2]; omega

theorem around_length {a b c : Text} {m n : Nat} (ha : a.length = m) (hc : c.length = n) :
    (a ++ b ++ c).length = b.length + (m + n) := by
  simp only [List.length_append]; omega

theorem title_length (version : Text) : (title version).length = version.length + 54 :=
  around_length (m := 21) (n := 33) (by decide) (by decide)

theorem title_ne (version : Text) : title version ≠ [] := by
  intro h
  have := title_length version
  rw [h, List.length_nil] at this; omega

theorem printHelp_eq {cap : Nat} (hcap : cap + 3 < sizeT) (color : Bool) {version : Text} (name : Text)
    (hv : version.length + 128 ≤ cap) :
    printHelp cap color version name = .ok (helpText cap color version name) := by
  have e1 : say cap [paint color descriptionColor (programDescription version), str "\n"] =
      .ok (tinted color "\x1b[1;36m" (title version) ++ "\n".toList) :=
    say_first hcap color (by decide) (title_ne version) (by
      have := title_length version
      show (title version).length + 12 ≤ cap
      omega)
  have a1 : "Usage:".toList.length = 6 := by decide
  have e2 : say cap [paint color usageColor "Usage:".toList, str "\n"] =
      .ok (tinted color "\x1b[1;32m" "Usage:".toList ++ "\n".toList) :=
    say_first hcap color (by decide) (by decide) (by omega)
  have e3 : say cap [str "  ", .str name] = .ok (cut cap ("  ".toList ++ name)) := by
    rw [say_eq hcap (room_strs (by simp [str]) 0)]
    simp only [List.flatMap_cons, List.flatMap_nil, whole_str, whole_strArg, List.append_nil]
  have e4 : usageOptions cap expectedArgs = .ok " [options...]".toList := by
    rw [usageOptions, if_pos (by decide), say_eq hcap (room_strs (by simp [str]) 0),
      cut_of_le (Nat.le_trans (by decide) (show 128 ≤ cap by omega))]
    rfl
  have e6 : say cap [str "\n\n"] = .ok "\n\n".toList := by
    rw [say_eq hcap (room_strs (by simp [str]) 0),
      cut_of_le (Nat.le_trans (by decide) (show 128 ≤ cap by omega))]
    rfl
  have e7 := listArguments_eq hcap (by omega) color (es := expectedArgs) (by decide)
  rw [printHelp, printHelpWith, e1, Outcome.bind_ok, e2, Outcome.bind_ok, e3, Outcome.bind_ok, e4, Outcome.bind_ok,
    usagePositionals_eq hcap (by omega), Outcome.bind_ok, e6, Outcome.bind_ok, e7, Outcome.bind_ok, rows_eq]
  have a : " [options...] [<test regex>...]\n\n".toList =
      " [options...]".toList ++ (" [<test regex>...]".toList ++ "\n\n".toList) := by decide
  simp only [helpText, a, List.append_assoc]
  rfl

/-! ## The messages -/

/-- The complaint that a message is. -/
def Msg.complaint : Msg → Complaint
  | .duplicate arg => duplicated arg
  | .missingValue v arg => valueMissing v arg
  | .unknown arg => unknownArgument arg
  | .tooMany => ⟨true, " too many positional arguments".toList⟩
  | .missing false name => ⟨true, " missing positional argument '<".toList ++ name ++ ">'".toList⟩
  | .missing true name => ⟨true, " missing option '<".toList ++ name ++ ">'".toList⟩

theorem say_msg {cap : Nat} (hcap : cap + 3 < sizeT) (h128 : 128 ≤ cap) (color : Bool) (m : Msg) :
    say cap (m.args color) = .ok (complaintLine cap color m.complaint) := by
  have k1 : "'\n".toList = "'".toList ++ "\n".toList := by decide
  have k2 : ">'\n".toList = ">'".toList ++ "\n".toList := by decide
  have k3 : " too many positional arguments\n".toList = " too many positional arguments".toList ++ "\n".toList := by
    decide
  have a1 : "error:".toList.length = 6 := by decide
  have a2 : "warning:".toList.length = 8 := by decide
  rw [say_eq hcap]
  · cases m with
    | missing o name =>
      cases o <;>
      simp only [Msg.args, Msg.complaint, complaintLine, List.flatMap_cons, List.flatMap_nil, errorColor, warningColor, whole_paint,
        whole_str, whole_strArg, duplicated, valueMissing, unknownArgument, if_true, if_false, Bool.false_eq_true, k1, k2, k3,
        List.append_nil, List.append_assoc]
    | _ =>
      simp only [Msg.args, Msg.complaint, complaintLine, List.flatMap_cons, List.flatMap_nil, errorColor, warningColor, whole_paint,
        whole_str, whole_strArg, duplicated, valueMissing, unknownArgument, if_true, if_false, Bool.false_eq_true, k1, k2, k3,
        List.append_nil, List.append_assoc]
  · cases m with
    | missing o name =>
      cases o <;> exact room_first (by decide) (by decide) (by omega) (by simp [str])
    | _ => exact room_first (by decide) (by decide) (by omega) (by simp [str])

theorem sayAll_eq {cap : Nat} (hcap : cap + 3 < sizeT) (h128 : 128 ≤ cap) (color : Bool) : ∀ ms : List Msg,
    sayAll cap color ms = .ok ((ms.map Msg.complaint).flatMap (complaintLine cap color))
  | [] => rfl
  | m :: ms => by
    rw [sayAll, say_msg hcap h128, Outcome.bind_ok, sayAll_eq hcap h128 color ms, Outcome.bind_ok]
    rfl

end Verif.Cli
