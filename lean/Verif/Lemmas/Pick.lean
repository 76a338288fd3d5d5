import Verif.Spec.Pick
import Verif.Lemmas.Filter
import Verif.Lemmas.Match
/-! # Lemmas for C95 -/
namespace Verif.Filter
open Verif.Spec Verif.Util

theorem quote_quoted (s : Text) : Quoted (quote s) s := by
  induction s with
  | nil => exact .nil
  | cons c s ih => exact .esc ih

theorem quote_unmarked (s : Text) : Unmarked (quote s) ∧ (quote s).head? ≠ some '-' := by
  cases s <;> simp [quote, Unmarked]

/-- A text without a comma that is not escaped, that does not end in the middle of an escape. -/
inductive Bare : Text → Prop
  | nil : Bare []
  | plain {c w} : c ≠ '\\' → c ≠ ',' → Bare w → Bare (c :: w)
  | esc {c w} : Bare w → Bare ('\\' :: c :: w)

theorem _root_.Verif.Spec.Quoted.bare {w s : Text} (h : Quoted w s) : Bare w := by
  induction h with
  | nil => exact .nil
  | plain h1 _ h3 _ ih => exact .plain h1 h3 ih
  | esc _ ih => exact .esc ih

theorem Bare.append {w v : Text} (h : Bare w) (h' : Bare v) : Bare (w ++ v) := by
  induction h with
  | nil => exact h'
  | plain h1 h2 _ ih => exact .plain h1 h2 ih
  | esc _ ih => exact .esc ih

theorem findFrom_plain (i : Nat) {c d : Char} (h1 : c ≠ '\\') (h2 : c ≠ d) (s : Text) :
    findFirstNotEscapedFrom i d (c :: s) = findFirstNotEscapedFrom (i + 1) d s := by
  cases s with
  | nil => simp [findFirstNotEscapedFrom, h1, h2]
  | cons x s => simp [findFirstNotEscapedFrom, h1, h2]

theorem findFrom_esc (i : Nat) (c d : Char) (s : Text) :
    findFirstNotEscapedFrom i d ('\\' :: c :: s) = findFirstNotEscapedFrom (i + 2) d s := by
  simp [findFirstNotEscapedFrom]

theorem Bare.find {w : Text} (h : Bare w) (rest : Text) : ∀ i, findFirstNotEscapedFrom i ',' w = none ∧
    findFirstNotEscapedFrom i ',' (w ++ ',' :: rest) = some (i + w.length) := by
  induction h with
  | nil => intro i; cases rest <;> simp [findFirstNotEscapedFrom]
  | plain h1 h2 _ ih =>
    intro i
    rw [List.cons_append, findFrom_plain i h1 h2, findFrom_plain i h1 h2, (ih (i + 1)).1, (ih (i + 1)).2]
    simp; omega
  | esc _ ih =>
    intro i
    rw [List.cons_append, List.cons_append, findFrom_esc, findFrom_esc, (ih (i + 2)).1, (ih (i + 2)).2]
    simp; omega

theorem matchIdSingle_name {maxTag : Nat} {name tags w : Text} (h : Unmarked w) :
    matchIdSingle maxTag name tags w = .ok (if isMatch name w then ⟨true, false⟩ else ⟨false, true⟩) := by
  have h1 : (['['].isPrefixOf w || ['~', '['].isPrefixOf w) = false := by
    rcases w with _ | ⟨c, w⟩
    · rfl
    · simp only [Unmarked, List.head?_cons, ne_eq, Option.some.injEq] at h
      have a : ('~' == c) = false := by simpa using fun e => h.1 e.symm
      have b : ('[' == c) = false := by simpa using fun e => h.2 e.symm
      simp [List.isPrefixOf, a, b]
  have h2 : actions w = (⟨true, false⟩, ⟨false, true⟩, w) := by
    rcases w with _ | ⟨c, w⟩
    · rfl
    · simp only [Unmarked, List.head?_cons, ne_eq, Option.some.injEq] at h
      unfold actions
      split
      · rename_i e; exact absurd (List.cons.inj e).1 h.1
      · rfl
  unfold matchIdSingle matchName
  rw [h1, h2]
  rfl

/-- The result for positive name filters. -/
def hit (b : Bool) : FilterResult := if b then ⟨true, false⟩ else ⟨false, true⟩

theorem commas_cons (w : Text) (ws : List Text) (h : ws ≠ []) : commas (w :: ws) = w ++ ',' :: commas ws := by
  unfold commas
  cases ws with
  | nil => exact absurd rfl h
  | cons v vs => simp [List.intercalate, List.intersperse]

theorem matchIdLoop_names (maxTag : Nat) (name tags : Text) (ws : List Text) : ws ≠ [] → (∀ w ∈ ws, Bare w ∧ Unmarked w) →
    ∀ fuel, ws.length ≤ fuel → ∀ result, (result = none ∨ result = some ⟨false, true⟩) →
    matchIdLoop maxTag name tags fuel result (commas ws) = .ok (hit (ws.any (isMatch name))) := by
  induction ws with
  | nil => intro h; exact absurd rfl h
  | cons w ws ih =>
    intro _ hws fuel hf result hr
    obtain ⟨hb, hu⟩ := hws w (by simp)
    obtain _ | fuel := fuel
    · simp at hf
    have hsub := matchIdSingle_name (maxTag := maxTag) (name := name) (tags := tags) hu
    rw [matchIdLoop]
    by_cases hne : ws = []
    · subst hne
      have e : commas [w] = w := by simp [commas, List.intercalate, List.intersperse]
      rw [e, show findFirstNotEscaped w ',' = none from (hb.find [] 0).1]
      dsimp only
      rw [hsub, Outcome.bind_ok]
      rcases hr with rfl | rfl <;> cases hm : isMatch name w <;> simp [hm, combine, resultOr, hit]
    · rw [commas_cons w ws hne, show findFirstNotEscaped (w ++ ',' :: commas ws) ',' = some (0 + w.length) from
        (hb.find (commas ws) 0).2]
      dsimp only
      rw [Nat.zero_add, List.take_left, hsub, Outcome.bind_ok]
      cases hm : isMatch name w with
      | true => rcases hr with rfl | rfl <;> simp [hm, combine, resultOr, hit]
      | false =>
        have := ih hne (fun v hv => hws v (by simp [hv])) fuel (by simpa using hf)
        have hd : (w ++ ',' :: commas ws).drop (w.length + 1) = commas ws := by
          rw [show w ++ ',' :: commas ws = (w ++ [',']) ++ commas ws by simp]
          exact List.drop_left' (by simp)
        rcases hr with rfl | rfl <;>
          simp only [Bool.false_eq_true, if_false, combine, resultOr, List.any_cons, hm, Bool.false_or, hd,
            Bool.and_false, Bool.not_true, Bool.not_false, Bool.and_true] <;> exact this _ (.inr rfl)

theorem commas_length (ws : List Text) : ws.length ≤ (commas ws).length + 1 := by
  induction ws with
  | nil => simp
  | cons w ws ih =>
    by_cases h : ws = []
    · subst h; simp
    · rw [commas_cons w ws h]; simp; omega

theorem matchId_names (maxTag : Nat) (name tags : Text) {ws : List Text} (h : ws ≠ []) (hws : ∀ w ∈ ws, Bare w ∧ Unmarked w) :
    matchId maxTag name tags (commas ws) = .ok (hit (ws.any (isMatch name))) :=
  matchIdLoop_names maxTag name tags ws h hws _ (commas_length ws) none (.inl rfl)

theorem matchArgsLoop_names (maxTag maxName : Nat) (id : TestId) (args : List (List Text)) : (∀ ws ∈ args, ws ≠ []) →
    (∀ ws ∈ args, ∀ w ∈ ws, Bare w ∧ Unmarked w) → ∀ result, (result = none ∨ result = some ⟨true, false⟩) →
    matchArgsLoop maxTag maxName id result (args.map commas) =
      .ok (if args = [] then result else some (hit (args.all (·.any (isMatch (makeFullName maxName id)))))) := by
  induction args with
  | nil => intro _ _ result _; rfl
  | cons ws args ih =>
    intro h1 h2 result hr
    rw [List.map_cons, matchArgsLoop, matchId_names _ _ _ (h1 ws (by simp)) (h2 ws (by simp)), Outcome.bind_ok,
      if_neg (show ¬ ws :: args = [] by simp)]
    have ih := ih (fun v hv => h1 v (by simp [hv])) (fun v hv => h2 v (by simp [hv]))
    cases hm : ws.any (isMatch (makeFullName maxName id)) with
    | false => rcases hr with rfl | rfl <;> simp [hm, combine, resultAnd, hit]
    | true =>
      have ih := ih (some ⟨true, false⟩) (.inr rfl)
      have hc : combine resultAnd result (hit true) = ⟨true, false⟩ := by
        rcases hr with rfl | rfl <;> simp [combine, resultAnd, hit]
      rw [hc]
      simp only [Bool.not_true, Bool.false_eq_true, if_false, List.all_cons, hm, Bool.true_and]
      rw [ih]
      by_cases ha : args = []
      · subst ha; rfl
      · rw [if_neg ha]

theorem select_names (maxTag maxName : Nat) (id : TestId) {args : List (List Text)} (h0 : args ≠ []) (h1 : ∀ ws ∈ args, ws ≠ [])
    (h2 : ∀ ws ∈ args, ∀ w ∈ ws, Bare w ∧ Unmarked w) : selectForRun maxTag maxName (args.map commas) id =
      .ok (args.all (·.any (isMatch (makeFullName maxName id)))) := by
  unfold selectForRun selectWithFilters
  rw [if_neg (by simpa using h0), matchArgsLoop_names maxTag maxName id args h1 h2 none (.inl rfl), if_neg h0, Outcome.bind_ok]
  dsimp only
  cases args.all (·.any (isMatch (makeFullName maxName id))) <;> rfl

/-! ## Patterns -/

theorem _root_.Verif.Spec.Quoted.reads {w s : Text} (h : Quoted w s) {v : Text} {ts : List Tok} (hv : Reads v ts) :
    Reads (w ++ v) (s.map Tok.lit ++ ts) := by
  induction h with
  | nil => exact hv
  | plain h1 h2 _ _ ih => exact .lit h2 h1 ih
  | esc _ ih => exact .esc ih

theorem glob_lits (s : Text) (ts : List Tok) : ∀ t, Glob (s.map Tok.lit ++ ts) t ↔ ∃ u, t = s ++ u ∧ Glob ts u := by
  induction s with
  | nil => intro t; simp
  | cons c s ih =>
    intro t
    rw [List.map_cons, List.cons_append, glob_lit_iff]
    constructor
    · rintro ⟨t', rfl, h⟩
      obtain ⟨u, rfl, hu⟩ := (ih t').1 h
      exact ⟨u, rfl, hu⟩
    · rintro ⟨u, rfl, hu⟩
      exact ⟨s ++ u, rfl, (ih _).2 ⟨u, rfl, hu⟩⟩

theorem _root_.Verif.Spec.Quoted.ne_nil {w s : Text} (h : Quoted w s) (hs : s ≠ []) : w ≠ [] := by
  cases h <;> simp at *

theorem match_reading {r t : Text} {ts : List Tok} (hr : r ≠ []) (h : Reads r ts) (hu : ∀ us, Reads r us → us = ts) :
    isMatch t r = true ↔ Glob ts t := by
  have : r.isEmpty = false := by cases r <;> simp_all
  rw [isMatch, this]
  simp only [Bool.false_eq_true, if_false]
  rw [isMatchLoop_iff r.length r t (Nat.le_refl _)]
  constructor
  · rintro ⟨us, h1, h2⟩; rw [← hu us h1]; exact h2
  · intro h'; exact ⟨ts, h, h'⟩

theorem reads_unique {r : Text} {ts us : List Tok} (h : Reads r ts) (h' : Reads r us) : us = ts := by
  induction h generalizing us with
  | nil => exact Util.reads_nil h'
  | any _ ih =>
    rw [Util.reads_star] at h'
    obtain ⟨us', rfl, h'⟩ := h'
    rw [ih h']
  | esc _ ih =>
    rw [Util.reads_bs] at h'
    obtain ⟨c, r', us', h, rfl, h'⟩ := h'
    cases h
    rw [ih h']
  | lit h1 h2 _ ih =>
    rw [Util.reads_lit h1 h2] at h'
    obtain ⟨us', rfl, h'⟩ := h'
    rw [ih h']

theorem glob_anything (u : Text) : Glob [.any] u := by simpa using Glob.any u .nil

theorem glob_any_lits (s : Text) (ts : List Tok) (t : Text) :
    Glob (.any :: (s.map Tok.lit ++ ts)) t ↔ ∃ pre u, t = pre ++ s ++ u ∧ Glob ts u := by
  rw [glob_any_iff]
  constructor
  · rintro ⟨o, -, h⟩
    obtain ⟨u, e, hu⟩ := (glob_lits s ts _).1 h
    exact ⟨t.take o, u, by rw [List.append_assoc, ← e, List.take_append_drop], hu⟩
  · rintro ⟨pre, u, rfl, hu⟩
    refine ⟨pre.length, by simp, ?_⟩
    rw [List.append_assoc, List.drop_left]
    exact (glob_lits s ts _).2 ⟨u, rfl, hu⟩

/-! ## Patterns -/

theorem _root_.Verif.Spec.Written.bare {w : Text} {p : Pattern} (h : Written w p) : Bare w := by
  have star : Bare ['*'] := .plain (by decide) (by decide) .nil
  cases h with
  | is h => exact h.bare
  | starts h => exact h.bare.append star
  | ends h => exact .plain (by decide) (by decide) h.bare
  | has h => exact .plain (by decide) (by decide) (h.bare.append star)

/-- What a pattern is read as. -/
def toks : Pattern → List Tok
  | .is s => s.map Tok.lit
  | .starts s => s.map Tok.lit ++ [.any]
  | .ends s => .any :: s.map Tok.lit
  | .has s => .any :: (s.map Tok.lit ++ [.any])

theorem _root_.Verif.Spec.Written.reads {w : Text} {p : Pattern} (h : Written w p) {v : Text} {ts : List Tok} (hv : Reads v ts) :
    Reads (w ++ v) (toks p ++ ts) := by
  cases h with
  | is h => exact h.reads hv
  | starts h =>
    have := h.reads (.any hv)
    simpa [toks] using this
  | ends h => exact .any (h.reads hv)
  | has h =>
    have := Reads.any (h.reads (.any hv))
    simpa [toks] using this

theorem glob_toks (p : Pattern) (t : Text) : Glob (toks p) t ↔ p.Holds t := by
  cases p with
  | is s =>
    show Glob (s.map Tok.lit) t ↔ t = s
    rw [← List.append_nil (s.map Tok.lit), glob_lits]
    constructor
    · rintro ⟨u, rfl, hu⟩; rw [glob_nil hu, List.append_nil]
    · rintro rfl; exact ⟨[], (List.append_nil _).symm, .nil⟩
  | starts s =>
    show Glob (s.map Tok.lit ++ [.any]) t ↔ s <+: t
    rw [glob_lits]
    constructor
    · rintro ⟨u, rfl, -⟩; exact ⟨u, rfl⟩
    · rintro ⟨u, rfl⟩; exact ⟨u, rfl, glob_anything u⟩
  | ends s =>
    show Glob (.any :: s.map Tok.lit) t ↔ s <:+ t
    rw [← List.append_nil (s.map Tok.lit), glob_any_lits]
    constructor
    · rintro ⟨pre, u, rfl, hu⟩; rw [glob_nil hu, List.append_nil]; exact ⟨pre, rfl⟩
    · rintro ⟨pre, rfl⟩; exact ⟨pre, [], (List.append_nil _).symm, .nil⟩
  | has s =>
    show Glob (.any :: (s.map Tok.lit ++ [.any])) t ↔ s <:+: t
    rw [glob_any_lits]
    constructor
    · rintro ⟨pre, u, rfl, -⟩; exact ⟨pre, u, rfl⟩
    · rintro ⟨pre, u, rfl⟩; exact ⟨pre, u, rfl, glob_anything u⟩

theorem patMatches_iff {r : Text} {ts : List Tok} (hr : r ≠ []) (h : Reads r ts) (t : Text) : PatMatches r t ↔ Glob ts t := by
  rw [← isMatch_iff, match_reading hr h fun us => reads_unique h]

theorem _root_.Verif.Spec.Written.matches {w : Text} {p : Pattern} (h : Written w p) (hw : w ≠ []) (t : Text) :
    PatMatches w t ↔ p.Holds t := by
  have hr := h.reads .nil
  rw [List.append_nil, List.append_nil] at hr
  rw [patMatches_iff hw hr, glob_toks]

theorem glob_append {ts us : List Tok} : ∀ {t : Text}, Glob (ts ++ us) t ↔ ∃ a b, t = a ++ b ∧ Glob ts a ∧ Glob us b := by
  induction ts with
  | nil =>
    intro t
    constructor
    · intro h; exact ⟨[], t, rfl, .nil, h⟩
    · rintro ⟨a, b, rfl, ha, hb⟩; rw [glob_nil ha]; exact hb
  | cons x ts ih =>
    intro t
    constructor
    · intro h
      rw [List.cons_append] at h
      generalize hv : x :: (ts ++ us) = v at h
      cases h with
      | nil => cases hv
      | any pre h' =>
        cases hv
        obtain ⟨a, b, rfl, ha, hb⟩ := ih.1 h'
        exact ⟨pre ++ a, b, by rw [List.append_assoc], .any pre ha, hb⟩
      | lit h' =>
        cases hv
        obtain ⟨a, b, rfl, ha, hb⟩ := ih.1 h'
        exact ⟨_ :: a, b, rfl, .lit ha, hb⟩
    · rintro ⟨a, b, rfl, ha, hb⟩
      cases ha with
      | any pre h' =>
        rw [List.append_assoc]
        exact .any pre (ih.2 ⟨_, _, rfl, h', hb⟩)
      | lit h' => exact .lit (ih.2 ⟨_, _, rfl, h', hb⟩)

theorem _root_.Verif.Spec.Written.matches_bracket {w : Text} {p : Pattern} (h : Written w p) (t : Text) :
    PatMatches (bracket w) (bracket t) ↔ p.Holds t := by
  have hr : Reads (bracket w) (.lit '[' :: (toks p ++ [.lit ']'])) :=
    .lit (by decide) (by decide) (h.reads (.lit (by decide) (by decide) .nil))
  rw [patMatches_iff (by simp [bracket]) hr, ← glob_toks, bracket, glob_lit_iff]
  constructor
  · rintro ⟨s', e, hs⟩
    cases e
    obtain ⟨a, b, e, ha, hb⟩ := glob_append.1 hs
    obtain ⟨c, rfl, hc⟩ := glob_lit_iff.1 hb
    rw [glob_nil hc] at e
    rw [(List.append_inj' e rfl).1]
    exact ha
  · intro h
    exact ⟨_, rfl, glob_append.2 ⟨t, [']'], rfl, h, .lit .nil⟩⟩

/-! ## Filters with brackets and negations -/

theorem commaParts_esc (c : Char) (s : Text) : commaParts ('\\' :: c :: s) = (commaParts s).modifyHead (fun p => '\\' :: c :: p) := by
  rw [commaParts]

theorem commaParts_ne (s : Text) : commaParts s ≠ [] := by
  have : ∀ n (s : Text), s.length ≤ n → commaParts s ≠ [] := by
    intro n
    induction n with
    | zero => intro s h; cases s with | nil => simp [commaParts] | cons => simp at h
    | succ n ih =>
      intro s h
      have hm : ∀ (f : Text → Text) (l : List Text), l ≠ [] → l.modifyHead f ≠ [] := by
        intro f l hl; cases l <;> simp_all
      unfold commaParts
      split
      · simp
      · simp
      · simp at h; exact hm _ _ (ih _ (by omega))
      · simp
      · simp at h; exact hm _ _ (ih _ (by omega))
  exact this _ _ (Nat.le_refl _)

theorem Bare.parts {w : Text} (h : Bare w) : commaParts w = [w] ∧ ∀ s, commaParts (w ++ ',' :: s) = w :: commaParts s := by
  induction h with
  | nil => exact ⟨rfl, fun s => by simp [commaParts]⟩
  | plain h1 h2 _ ih =>
    refine ⟨by rw [commaParts_other h1 h2, ih.1]; rfl, fun s => ?_⟩
    rw [List.cons_append, commaParts_other h1 h2, ih.2]; rfl
  | esc _ ih =>
    refine ⟨by rw [commaParts_esc, ih.1]; rfl, fun s => ?_⟩
    rw [List.cons_append, List.cons_append, commaParts_esc, ih.2]; rfl

theorem commaParts_commas (ws : List Text) (h : ws ≠ []) (hws : ∀ w ∈ ws, Bare w) : commaParts (commas ws) = ws := by
  induction ws with
  | nil => exact absurd rfl h
  | cons w ws ih =>
    by_cases h' : ws = []
    · subst h'
      have : commas [w] = w := by simp [commas, List.intercalate]
      rw [this, (hws w (by simp)).parts.1]
    · rw [commas_cons w ws h', (hws w (by simp)).parts.2, ih h' fun v hv => hws v (by simp [hv])]

theorem tagGroups_esc (c : Char) (s : Text) : tagGroups ('\\' :: c :: s) = glueHead ['\\', c] (tagGroups s) := by
  rw [tagGroups]

theorem _root_.Verif.Spec.Quoted.groups {w s : Text} (h : Quoted w s) (hs : ']' ∉ s) {v : Text} (hv : tagGroups v = [v]) :
    tagGroups (w ++ v) = [w ++ v] := by
  induction h with
  | nil => exact hv
  | @plain c w s h1 _ _ _ ih =>
    simp only [List.mem_cons, not_or] at hs
    rw [List.cons_append, tagGroups_other h1 fun e => hs.1 e.symm, ih hs.2]; rfl
  | esc _ ih =>
    simp only [List.mem_cons, not_or] at hs
    rw [List.cons_append, List.cons_append, tagGroups_esc, ih hs.2]; rfl

theorem groups_cons {c : Char} (h1 : c ≠ '\\') (h2 : c ≠ ']') {v : Text} (h : tagGroups v = [v]) : tagGroups (c :: v) = [c :: v] := by
  rw [tagGroups_other h1 h2, h]; rfl

theorem _root_.Verif.Spec.Written.groups {w : Text} {p : Pattern} (h : Written w p) (hp : ']' ∉ p.text) :
    tagGroups (bracket w) = [bracket w] := by
  have close : tagGroups [']'] = [[']']] := by decide
  refine groups_cons (by decide) (by decide) ?_
  cases h with
  | is h => exact h.groups hp close
  | starts h =>
    rw [List.append_assoc]
    exact h.groups hp (groups_cons (by decide) (by decide) close)
  | ends h => exact groups_cons (by decide) (by decide) (h.groups hp close)
  | has h =>
    rw [List.cons_append, List.append_assoc]
    exact groups_cons (by decide) (by decide) (h.groups hp (groups_cons (by decide) (by decide) close))

theorem bracket_bare {w : Text} (h : Bare w) : Bare (bracket w) :=
  .plain (by decide) (by decide) (h.append (.plain (by decide) (by decide) .nil))

theorem _root_.Verif.Spec.Says.bare {w : Text} {c : Criterion} (h : Says w c) : Bare w := by
  cases h with
  | name h => exact h.bare
  | tag h => exact bracket_bare h.bare
  | notName h => exact .plain (by decide) (by decide) h.bare
  | notTag h => exact .plain (by decide) (by decide) (bracket_bare h.bare)

theorem visible_iff {w : Text} {p : Pattern} (h : Written w p) (ts : List Text) :
    (∃ s ∈ visibleTags ts, PatMatches (bracket w) s) ↔ ∃ x ∈ ts.flatMap ordinary, p.Holds x := by
  unfold visibleTags
  constructor
  · rintro ⟨s, hs, hm⟩
    obtain ⟨x, hx, rfl⟩ := List.mem_map.1 hs
    exact ⟨x, hx, (h.matches_bracket x).1 hm⟩
  · rintro ⟨x, hx, hm⟩
    exact ⟨_, List.mem_map.2 ⟨x, hx, rfl⟩, (h.matches_bracket x).2 hm⟩

theorem _root_.Verif.Spec.Says.part {w : Text} {c : Criterion} (h : Says w c) (t : Test) :
    (View.PartIncludes w t.view ↔ c.Holds t) ∧ (View.PartExplicit w t.view ↔ c.Holds t ∧ c.Asks) := by
  suffices hh : (View.PartIncludes w t.view ↔ c.Holds t) ∧
      (((IsTagFilter w ∧ ∃ g ∈ tagGroups w, Positive g) ∨ (¬ IsTagFilter w ∧ Positive w)) ↔ c.Asks) by
    refine ⟨hh.1, ?_⟩
    unfold View.PartExplicit
    rw [hh.1, hh.2]
  cases h with
  | @name w p h hw hu =>
    have ht : ¬ IsTagFilter w := by
      rintro (⟨y, hy⟩ | ⟨y, hy⟩)
      · exact hu.2 (by rw [← hy]; rfl)
      · exact hu.1 (by rw [← hy]; rfl)
    have hp : Positive w := hu.1
    refine ⟨?_, by simp [ht, hp, Criterion.Asks]⟩
    simp only [View.PartIncludes, ht, false_and, false_or, not_false_eq_true, true_and, accepts_pos hp, Test.view,
      List.mem_singleton, exists_eq_left, h.matches hw, Criterion.Holds]
  | @tag w p h hp =>
    have ht : IsTagFilter (bracket w) := .inl ⟨w ++ [']'], rfl⟩
    have hpos : Positive (bracket w) := by simp [Positive, bracket]
    refine ⟨?_, by simp [ht, hpos, Criterion.Asks, h.groups hp]⟩
    simp only [View.PartIncludes, ht, not_true, false_and, or_false, true_and, h.groups hp, List.mem_singleton, forall_eq,
      accepts_pos hpos, Test.view, visible_iff h, Criterion.Holds]
  | @notName w p h hw hu =>
    have ht : ¬ IsTagFilter ('~' :: w) := by
      rintro (⟨y, hy⟩ | ⟨y, hy⟩)
      · simp at hy
      · simp at hy; exact hu (by rw [← hy]; rfl)
    have hp : ¬ Positive ('~' :: w) := by simp [Positive]
    have c : Accepts ('~' :: w) [t.name] ↔ ¬ ∃ s ∈ [t.name], PatMatches w s := Iff.rfl
    refine ⟨?_, by simp [ht, hp, Criterion.Asks]⟩
    simp only [View.PartIncludes, ht, false_and, false_or, not_false_eq_true, true_and, Test.view, c,
      List.mem_singleton, exists_eq_left, h.matches hw, Criterion.Holds]
  | @notTag w p h hp =>
    have ht : IsTagFilter ('~' :: bracket w) := .inr ⟨w ++ [']'], rfl⟩
    have hpos : ¬ Positive ('~' :: bracket w) := by simp [Positive]
    have hg : tagGroups ('~' :: bracket w) = ['~' :: bracket w] := groups_cons (by decide) (by decide) (h.groups hp)
    have c : Accepts ('~' :: bracket w) (visibleTags t.tags) ↔ ¬ ∃ s ∈ visibleTags t.tags, PatMatches (bracket w) s := Iff.rfl
    refine ⟨?_, by simp [ht, hpos, Criterion.Asks, hg]⟩
    simp only [View.PartIncludes, ht, not_true, false_and, or_false, true_and, hg, List.mem_singleton, forall_eq,
      Test.view, c, visible_iff h, Criterion.Holds, not_exists, not_and]

/-- Arguments each of which gives alternatives in the words on the left. -/
abbrev texts (args : List (List (Text × Criterion))) : List Text := args.map fun arg => commas (arg.map Prod.fst)

theorem selected_iff {args : List (List (Text × Criterion))} (h1 : ∀ arg ∈ args, arg ≠ [])
    (h2 : ∀ arg ∈ args, ∀ q ∈ arg, Says q.1 q.2) (t : Test) :
    Selected (texts args) t ↔ Asked (args.map fun arg => arg.map Prod.snd) t := by
  have hp : ∀ arg ∈ args, commaParts (commas (arg.map Prod.fst)) = arg.map Prod.fst := fun arg ha =>
    commaParts_commas _ (by simpa using h1 arg ha) fun w hw => by
      obtain ⟨q, hq, rfl⟩ := List.mem_map.1 hw
      exact (h2 arg ha q hq).bare
  have hi : ∀ arg ∈ args, (View.Includes (commas (arg.map Prod.fst)) t.view ↔ ∃ c ∈ arg.map Prod.snd, c.Holds t) := fun arg ha => by
    unfold View.Includes
    rw [hp arg ha]
    constructor
    · rintro ⟨w, hw, hh⟩
      obtain ⟨q, hq, rfl⟩ := List.mem_map.1 hw
      exact ⟨q.2, List.mem_map.2 ⟨q, hq, rfl⟩, ((h2 arg ha q hq).part t).1.1 hh⟩
    · rintro ⟨c, hc, hh⟩
      obtain ⟨q, hq, rfl⟩ := List.mem_map.1 hc
      exact ⟨q.1, List.mem_map.2 ⟨q, hq, rfl⟩, ((h2 arg ha q hq).part t).1.2 hh⟩
  have he : ∀ arg ∈ args, (View.IncludesExplicitly (commas (arg.map Prod.fst)) t.view ↔
      ∃ c ∈ arg.map Prod.snd, c.Holds t ∧ c.Asks) := fun arg ha => by
    unfold View.IncludesExplicitly
    rw [hp arg ha]
    constructor
    · rintro ⟨w, hw, hh⟩
      obtain ⟨q, hq, rfl⟩ := List.mem_map.1 hw
      exact ⟨q.2, List.mem_map.2 ⟨q, hq, rfl⟩, ((h2 arg ha q hq).part t).2.1 hh⟩
    · rintro ⟨c, hc, hh⟩
      obtain ⟨q, hq, rfl⟩ := List.mem_map.1 hc
      exact ⟨q.1, List.mem_map.2 ⟨q, hq, rfl⟩, ((h2 arg ha q hq).part t).2.2 hh⟩
  unfold Selected View.Selected Asked
  simp only [texts, List.forall_mem_map]
  constructor
  · rintro ⟨a, b⟩
    refine ⟨fun arg ha => (hi arg ha).1 (a arg ha), fun hh => ?_⟩
    obtain ⟨f, hf, hx⟩ := b hh
    obtain ⟨arg, ha, rfl⟩ := List.mem_map.1 hf
    exact ⟨_, List.mem_map.2 ⟨arg, ha, rfl⟩, (he arg ha).1 hx⟩
  · rintro ⟨a, b⟩
    refine ⟨fun arg ha => (hi arg ha).2 (a arg ha), fun hh => ?_⟩
    obtain ⟨cs, hc, hx⟩ := b hh
    obtain ⟨arg, ha, rfl⟩ := List.mem_map.1 hc
    exact ⟨_, List.mem_map.2 ⟨arg, ha, rfl⟩, (he arg ha).2 hx⟩

end Verif.Filter
