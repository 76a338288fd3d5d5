import Verif.Props.Sections
import Verif.Lemmas.StringUtil
/-!
# C69: texts that come from exceptions are shown in messages of limited length
-/
namespace Verif.Props
open Verif Verif.Run Verif.Run.Spec

/-- What is shown of a text in `n` characters: all of it if it fits, otherwise its start, followed by three dots (as
many as there is room for), filling all `n` characters. -/
def Abridged (n : Nat) (full shown : Text) : Prop :=
  shown.length ≤ n ∧ (full.length ≤ n → shown = full) ∧
    (n < full.length → shown.length = n ∧ shown = full.take (n - 3) ++ List.replicate (min 3 n) '.')

private theorem shortened_abridged [Run.MessageLimit] (a b : Text) : Abridged MessageLimit.max (a ++ b) (shortened a b) := by
  unfold shortened Verif.Spec.cut Verif.Spec.marker
  by_cases h : (a ++ b).length ≤ MessageLimit.max
  · rw [if_pos h]
    exact ⟨h, fun _ => rfl, fun h' => absurd h (by omega)⟩
  · rw [if_neg h]
    have hlen : ((a ++ b).take (MessageLimit.max - 3) ++ List.replicate (min 3 MessageLimit.max) '.').length =
        MessageLimit.max := by
      rw [List.length_append, List.length_take, List.length_replicate]
      omega
    exact ⟨Nat.le_of_eq hlen, fun h' => absurd h' h, fun _ => ⟨hlen, rfl⟩⟩

/-- **C69**. `append_or_truncate` of two texts to an empty string of capacity `max_message_length` works for texts of
any length, and leaves the two texts, abridged. -/
theorem C69_joined [Run.MessageLimit] (hmax : MessageLimit.max + 3 < sizeT) (a b : Text) :
    ∃ v ok, Util.appendOrTruncate false (SV.empty MessageLimit.max ' ') [a, b] = .ok (v, ok) ∧
      v.contents = joined a b ∧ Abridged MessageLimit.max (a ++ b) v.contents := by
  obtain ⟨v, e, hv⟩ := Util.appendOrTruncate_holds false (SV.holds_empty MessageLimit.max ' ') hmax [a, b]
  have hj : v.contents = joined a b := by
    rw [hv.contents]
    unfold joined Verif.Spec.marker
    simp only [List.length_nil, Nat.zero_add, List.nil_append, List.flatten_cons, List.flatten_nil, List.append_nil,
      List.length_append]
  refine ⟨v, _, e, hj, ?_⟩
  rw [hj, joined_eq]
  exact shortened_abridged a b

open Defaults in
/-- A text of 2000 characters is cut to 1024. -/
example : ∃ v ok, Util.appendOrTruncate false (SV.empty 1024 ' ') ["message: ".toList, List.replicate 2000 'x'] =
    .ok (v, ok) ∧ v.contents.length = 1024 := by
  obtain ⟨v, ok, h1, _, h2⟩ := C69_joined (by decide) "message: ".toList (List.replicate 2000 'x')
  refine ⟨v, ok, h1, (h2.2.2 ?_).1⟩
  rw [List.length_append, List.length_replicate]
  decide

/-- The checks whose message ends with a text from the outside - the `what()` of an exception, or the description given
by a matcher: the check, whether it succeeds, where it is, and the whole message. -/
inductive Telling : Stmt → Bool → Nat → Text → Prop
  | other {e : Exn} {w : Text} {type : Nat} (loc : Nat) (name : Text) (abort : Bool) (hw : e.what = some w)
      (ht : type ∉ e.types) :
      Telling (.throwsAs loc (some e) type name abort) false loc
        (name ++ " expected but other std::exception thrown; message: ".toList ++ w)
  | otherMatch {e : Exn} {w : Text} {type : Nat} (loc : Nat) (name desc : Text) (ok abort : Bool)
      (hw : e.what = some w) (ht : type ∉ e.types) :
      Telling (.throwsMatches loc (some e) type name ok desc abort) false loc
        (name ++ " expected but other std::exception thrown; message: ".toList ++ w)
  | matched {e : Exn} {type : Nat} (loc : Nat) (name desc : Text) (abort : Bool) (ht : type ∈ e.types) :
      Telling (.throwsMatches loc (some e) type name true desc abort) true loc
        ("caught ".toList ++ name ++ " matched expected content: ".toList ++ desc)
  | unmatched {e : Exn} {type : Nat} (loc : Nat) (name desc : Text) (abort : Bool) (ht : type ∈ e.types) :
      Telling (.throwsMatches loc (some e) type name false desc abort) false loc
        ("could not match caught ".toList ++ name ++ " with expected content: ".toList ++ desc)
  | nothrow {e : Exn} {w : Text} (loc : Nat) (text : Text) (abort : Bool) (hw : e.what = some w) :
      Telling (.nothrow loc (some e) text abort) false loc
        ("expected ".toList ++ text ++ " not to throw but it threw a std::exception; message: ".toList ++ w)

private theorem telling_stmt [Run.MessageLimit] {m : Stmt} {ok : Bool} {loc : Nat} {full : Text}
    (h : Telling m ok loc full) (c : Ctx) :
    ∃ shown, (passStmt c m).1 = [.assertion ok (Ctx.exactly c loc) shown] ∧
      Abridged MessageLimit.max full shown := by
  cases h with
  | other loc name abort hw ht =>
    refine ⟨_, ?_, shortened_abridged _ _⟩
    simp only [passStmt, asserted, assertedAt, throwsType, throwsAsMessage, List.contains_eq_mem, ht, hw, decide_false,
      Bool.false_eq_true, if_false]
  | otherMatch loc name desc ok abort hw ht =>
    refine ⟨_, ?_, shortened_abridged _ _⟩
    simp only [passStmt, asserted, assertedAt, throwsType, throwsMatchesMessage, List.contains_eq_mem, ht, hw,
      decide_false, Bool.false_eq_true, if_false, Bool.false_and]
  | matched loc name desc abort ht =>
    refine ⟨_, ?_, shortened_abridged _ _⟩
    simp only [passStmt, asserted, assertedAt, throwsType, throwsMatchesMessage, List.contains_eq_mem, ht, decide_true,
      if_true, Bool.and_self]
  | unmatched loc name desc abort ht =>
    refine ⟨_, ?_, shortened_abridged _ _⟩
    simp only [passStmt, asserted, assertedAt, throwsType, throwsMatchesMessage, List.contains_eq_mem, ht, decide_true,
      if_true, Bool.false_eq_true, if_false, Bool.and_false]
  | nothrow loc text abort hw =>
    refine ⟨_, ?_, shortened_abridged _ _⟩
    simp only [passStmt, asserted, assertedAt, nothrowMessage, hw, Option.isNone_some]

/-- **C69**. Such a check, anywhere in a test case, at the end of whatever frames: it is reported once with its place
and the captures, and the message, abridged. -/
theorem C69_check [Run.MessageLimit] {cfg : Cfg} {t : TestCase} {tags : List Filter.ParsedTag} (hf : Fits cfg t tags)
    (ht : Always Tidy t.body) {fs : List Frame} {m : Stmt} {ok : Bool} {loc : Nat} {full : Text}
    (hm : Telling m ok loc full) {k : Prog} (hb : t.body.first = plug fs (.stmt m k)) (hv : ok = true → cfg.verbosity ≥ 3)
    {fuel : Nat} (hfuel : passCount t.body.first ≤ fuel) :
    ∃ s rest shown, run cfg fuel t = some (.ok s) ∧
      s.log.filterMap observed = (itemsBefore fs).filter (Item.visible cfg.verbosity) ++
        [.assertion ok { path := sectionsOf fs, caps := capturesOf fs, loc := loc, locType := .exact } shown] ++ rest ∧
      (itemsBefore fs).any Item.isAssertion = false ∧ Abridged MessageLimit.max full shown := by
  obtain ⟨shown, hs, ha⟩ := telling_stmt hm (contextOf t.loc fs)
  obtain ⟨s, h1, h2⟩ := C19_meaning hf ht hfuel
  obtain ⟨post, h3, _⟩ := passNo_place (pass_stmt m k) fs (hb ▸ ht 0) t.loc
  obtain ⟨rest, h4⟩ := story_first t.body.no (topCtx t.loc)
  rw [no_zero, hb] at h4
  rw [h3] at h4
  obtain ⟨q1, q2⟩ := itemsBefore_quiet fs
  have hone : (itemsBefore fs ++ (passStmt (contextOf t.loc fs) m).1).any Item.isSkip = false := by
    rw [List.any_append, q1, hs]; rfl
  obtain ⟨r, hr⟩ : ∃ r, caseStory t (tags.contains .shouldFail) = itemsBefore fs ++
      (passStmt (contextOf t.loc fs) m).1 ++ r := by
    obtain ⟨y, hy⟩ := caseStory_eq t (tags.contains .shouldFail)
    rw [hy, hb, h4]
    obtain ⟨r, hr, _⟩ := effective_append (l' := post ++ rest ++ y) hone
    refine ⟨r, ?_⟩
    rw [← hr]
    simp only [List.append_assoc]
  refine ⟨s, r.filter (Item.visible cfg.verbosity), shown, h1, ?_, q2, ha⟩
  rw [h2, hr, List.filter_append, List.filter_append, hs]
  congr 2
  simp only [Ctx.exactly, contextOf]
  rw [List.filter_cons, if_pos]
  · rfl
  · simp only [Item.visible, Item.reported, Bool.true_and, Item.level]
    cases ok with
    | true => exact decide_eq_true (hv rfl)
    | false => simp

/-- **C69**. An exception that leaves the test case is reported as a failure, at the place where it was thrown, with
the text that describes it, abridged, however long it is. -/
theorem C69_unexpected [Run.MessageLimit] {cfg : Cfg} {t : TestCase} {tags : List Filter.ParsedTag} (hf : Fits cfg t tags)
    (ht : Always Tidy t.body) (hsf : tags.contains .shouldFail = false) {fs : List Frame} {e : Exn} {w : Text} {k : Prog}
    (hb : t.body.first = plug fs (.stmt (.throw e) k)) (he : e.isAbort = false) (hw : e.what = some w) {fuel : Nat}
    (hfuel : 1 ≤ fuel) :
    ∃ s shown, run cfg fuel t = some (.ok s) ∧
      s.log.filterMap observed = (itemsBefore fs ++ [Item.assertion false (contextOf t.loc fs) shown] ++
        (sectionsOf fs).reverse.map fun id => Item.leave id true).filter (Item.visible cfg.verbosity) ∧
      Abridged MessageLimit.max ("unexpected std::exception caught; message: ".toList ++ w) shown := by
  obtain ⟨s, h1, h2⟩ := C48_place_of_exception hf ht hsf hb he hfuel
  refine ⟨s, _, h1, h2, ?_⟩
  simp only [unexpectedMessage, hw]
  exact shortened_abridged _ _

open Defaults in
/-- `CHECK_NOTHROW(f())` where the exception has a description of 2000 characters: 1024 of the message are shown. -/
example : ∃ s rest shown, run (defaults 0) 1 (plain (.stmt (.nothrow 7 (some ⟨[], some (List.replicate 2000 'x'), false⟩)
      "f()".toList false) (.stmt (.act 1) .done))) = some (.ok s) ∧
    s.log.filterMap observed = [.assertion false ⟨[], [], 7, .exact⟩ shown] ++ rest ∧ shown.length = 1024 := by
  obtain ⟨s, rest, shown, h1, h2, _, h3⟩ := C69_check (cfg := defaults 0) (fs := []) (fuel := 1)
    (t := plain (.stmt (.nothrow 7 (some ⟨[], some (List.replicate 2000 'x'), false⟩)
      "f()".toList false) (.stmt (.act 1) .done))) (plain_fits (by decide) (by decide)) (plain_always (by simp only [Tidy]))
    (.nothrow 7 "f()".toList false rfl) rfl (fun h => by cases h) (Nat.le_refl _)
  refine ⟨s, rest, shown, h1, h2, (h3.2.2 ?_).1⟩
  simp only [List.length_append, List.length_replicate]
  decide

open Defaults in
example : ∃ s shown, run (defaults 0) 1 (plain (.stmt (.throw ⟨[], some (List.replicate 2000 'x'), false⟩) .done)) =
      some (.ok s) ∧ s.log.filterMap observed = [.assertion false ⟨[], [], 1, .testCaseScope⟩ shown] ∧
    shown.length = 1024 := by
  obtain ⟨s, shown, h1, h2, h3⟩ := C69_unexpected (cfg := defaults 0) (fs := []) (fuel := 1)
    (t := plain (.stmt (.throw ⟨[], some (List.replicate 2000 'x'), false⟩) .done))
    (plain_fits (by decide) (by decide)) (plain_always (by simp only [Tidy])) rfl rfl rfl rfl (Nat.le_refl _)
  refine ⟨s, shown, h1, h2, (h3.2.2 ?_).1⟩
  simp only [List.length_append, List.length_replicate]
  decide

end Verif.Props
