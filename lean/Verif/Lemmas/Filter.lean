import Verif.Model.Filter
import Verif.Spec.Filter
import Verif.Lemmas.Match
/-! Helper lemmas for tags and filters. -/
namespace Verif
open Spec Util
namespace Filter

/-! ### Splitting the tag string -/

theorem findAt_skip {x y : Text} (hx : ']' ∉ x) :
    findAt [']', '['] (x ++ y) = (findAt [']', '['] y).map (· + x.length) := by
  induction x with
  | nil => simp
  | cons c x ih =>
    simp only [List.mem_cons, not_or] at hx
    have : ([']', '['].isPrefixOf (c :: (x ++ y))) = false := by
      simp [List.isPrefixOf, hx.1]
    rw [List.cons_append, findAt, this, ih hx.2]
    simp only [Bool.false_eq_true, if_false, Option.map_map, List.length_cons]
    congr 1

theorem tagString_cons (t : Text) (ts : List Text) : tagString (t :: ts) = bracket t ++ tagString ts := by
  simp [tagString]

theorem findAt_bracket {t : Text} (ht : TagOk t) (rest : List Text) :
    findAt [']', '['] (bracket t ++ tagString rest)
      = if rest = [] then none else some (t.length + 1) := by
  have e : bracket t ++ tagString rest = ('[' :: t) ++ (']' :: tagString rest) := by
    simp [bracket]
  have h : ']' ∉ '[' :: t := by
    simp only [List.mem_cons, not_or]; exact ⟨by decide, ht.2⟩
  rw [e, findAt_skip h]
  cases rest with
  | nil => simp [tagString, findAt, List.isPrefixOf]
  | cons r rest =>
    rw [tagString_cons, bracket]
    simp [findAt, List.isPrefixOf]

theorem rawLoop_tags : ∀ (rest : List Text) (d t : List Char) (fuel : Nat),
    TagOk t → (∀ x ∈ rest, TagOk x) → rest.length < fuel →
    rawLoop (d ++ (bracket t ++ tagString rest)) fuel
      (findFrom (d ++ (bracket t ++ tagString rest)) [']', '['] d.length) d.length
      = some ((t :: rest).map bracket) := by
  intro rest
  induction rest with
  | nil =>
    intro d t fuel ht _ _
    have : findFrom (d ++ (bracket t ++ tagString [])) [']', '['] d.length = none := by
      rw [findFrom, if_pos (by simp)]
      rw [List.drop_left, findAt_bracket ht]; simp
    rw [this]
    cases fuel <;> simp [rawLoop, tagString]
  | cons u rest ih =>
    intro d t fuel ht hr hf
    have e : findFrom (d ++ (bracket t ++ tagString (u :: rest))) [']', '['] d.length
        = some (t.length + 1 + d.length) := by
      rw [findFrom, if_pos (by simp)]
      rw [List.drop_left, findAt_bracket ht]; simp
    rw [e]
    cases fuel with
    | zero => simp at hf
    | succ fuel =>
      have i := ih (d ++ bracket t) u fuel (hr u (by simp)) (fun x hx => hr x (by simp [hx]))
        (by simp at hf; omega)
      have hl : (d ++ bracket t).length = t.length + 1 + d.length + 1 := by
        simp [bracket]; omega
      have hs : (d ++ bracket t) ++ (bracket u ++ tagString rest)
          = d ++ (bracket t ++ tagString (u :: rest)) := by
        rw [tagString_cons]; simp
      rw [hl, hs] at i
      simp only [rawLoop]
      rw [i]
      have h1 : t.length + 1 + d.length - d.length = t.length + 1 := by omega
      simp only [h1, Option.map_some, List.drop_left]
      have h2 : (bracket t ++ tagString (u :: rest)).take (t.length + 1 + 1) = bracket t := by
        rw [List.take_append_of_le_length (by simp [bracket])]
        exact List.take_of_length_le (by simp [bracket])
      rw [h2]
      simp

theorem length_le_tagString (ts : List Text) : ts.length ≤ (tagString ts).length := by
  induction ts with
  | nil => simp
  | cons t ts ih => rw [tagString_cons]; simp [bracket]; omega

theorem rawTags_tagString (ts : List Text) (h : ∀ t ∈ ts, TagOk t) :
    rawTags (tagString ts) = .ok (ts.map bracket) := by
  cases ts with
  | nil => simp [rawTags, tagString]
  | cons t ts =>
    have hl := length_le_tagString ts
    have := rawLoop_tags ts [] t ((tagString (t :: ts)).length + 1) (h t (by simp))
      (fun x hx => h x (by simp [hx])) (by rw [tagString_cons]; simp; omega)
    simp only [List.length_nil, List.nil_append, ← tagString_cons] at this
    rw [rawTags]
    have h1 : (tagString (t :: ts)).isEmpty = false := by
      rw [tagString_cons]; simp [bracket]
    have h2 : (tagString (t :: ts)).contains '[' = true := by
      rw [tagString_cons]; simp [bracket]
    have h3 : (tagString (t :: ts)).contains ']' = true := by
      rw [tagString_cons]; simp [bracket]
    rw [h1, h2, h3, this]
    simp

/-! ### Decoding -/

theorem bracket_inj {a b : Text} : bracket a = bracket b ↔ a = b := by
  simp [bracket]

/-- The values passed to the callback for one written tag. -/
def meaning (t : Text) : List ParsedTag :=
  (if Hides t then [.hidden] else []) ++
    (ordinary t).flatMap fun x => decodePlain (bracket x)

theorem decodePlain_dot : decodePlain (bracket ['.']) = [.tag "[.]".toList] := by decide

theorem decodeTag_bracket {maxTag : Nat} {t : Text} (h : Hides t → t.length < maxTag) :
    decodeTag maxTag (bracket t) = .ok (meaning t) := by
  have e0 : "[.]".toList = bracket ['.'] := rfl
  simp only [decodeTag, e0, bracket_inj]
  match t with
  | [] => simp [bracket, meaning, Hides, ordinary, List.isPrefixOf]
  | ['.'] => rw [if_pos rfl]; rfl
  | '.' :: c :: x =>
    have hh : Hides ('.' :: c :: x) := by simp [Hides]
    have := h hh
    have hp : ['[', '.'].isPrefixOf (bracket ('.' :: c :: x)) = true := by
      simp [bracket, List.isPrefixOf]
    have hb : '[' :: (bracket ('.' :: c :: x)).drop 2 = bracket (c :: x) := by
      simp [bracket]
    have hlen : (bracket (c :: x)).length ≤ maxTag := by
      simp [bracket] at this ⊢; omega
    rw [if_neg (by simp), if_pos hp]
    simp only [hb]
    rw [if_pos hlen, meaning, if_pos hh]
    simp only [ordinary, List.flatMap_cons, List.flatMap_nil, decodePlain_dot, e0]
    simp
  | c :: x =>
    by_cases hc : c = '.'
    · subst hc
      cases x with
      | nil => rw [if_pos rfl]; rfl
      | cons d x =>
        have hh : Hides ('.' :: d :: x) := by simp [Hides]
        have := h hh
        have hp : ['[', '.'].isPrefixOf (bracket ('.' :: d :: x)) = true := by
          simp [bracket, List.isPrefixOf]
        have hb : '[' :: (bracket ('.' :: d :: x)).drop 2 = bracket (d :: x) := by
          simp [bracket]
        have hlen : (bracket (d :: x)).length ≤ maxTag := by
          simp [bracket] at this ⊢; omega
        rw [if_neg (by simp), if_pos hp]
        simp only [hb]
        rw [if_pos hlen, meaning, if_pos hh]
        simp only [ordinary, List.flatMap_cons, List.flatMap_nil, decodePlain_dot, e0]
        simp
    · have hh : ¬ Hides (c :: x) := by simp [Hides, hc]
      have hp : ['[', '.'].isPrefixOf (bracket (c :: x)) = false := by
        simp [bracket, List.isPrefixOf]; exact fun e => hc e.symm
      have ho : ordinary (c :: x) = [c :: x] := by
        unfold ordinary; split
        · rename_i h; simp at h; exact absurd h.1 hc
        · rfl
      rw [if_neg (by simp [hc]), hp, meaning, if_neg hh, ho]
      simp

theorem decodeAll_bracket {maxTag : Nat} {ts : List Text}
    (h : ∀ t ∈ ts, Hides t → t.length < maxTag) :
    decodeAll maxTag (ts.map bracket) = .ok (ts.flatMap meaning) := by
  induction ts with
  | nil => rfl
  | cons t ts ih =>
    rw [List.map_cons, decodeAll, decodeTag_bracket (h t (by simp)),
      ih (fun x hx => h x (by simp [hx]))]
    simp

theorem forEachTag_tagString {maxTag : Nat} {ts : List Text} (h : ∀ t ∈ ts, TagOk t)
    (h' : ∀ t ∈ ts, Hides t → t.length < maxTag) :
    forEachTag maxTag (tagString ts) = .ok (ts.flatMap meaning) := by
  rw [forEachTag, rawTags_tagString ts h]
  simp [decodeAll_bracket h']

/-- The text of an ordinary tag value. -/
def text? : ParsedTag → Option Text
  | .tag t => some t
  | _ => none

theorem decodePlain_text (b : Text) : (decodePlain b).filterMap text? = [b] := by
  unfold decodePlain
  split <;> split <;> simp [List.filterMap_cons, text?]

theorem meaning_text (t : Text) : (meaning t).filterMap text? = (ordinary t).map bracket := by
  have : ∀ l : List Text, (l.flatMap fun x => decodePlain (bracket x)).filterMap text?
      = l.map bracket := by
    intro l
    induction l with
    | nil => rfl
    | cons a l ih => simp only [List.flatMap_cons, List.filterMap_append, decodePlain_text, ih]; simp
  unfold meaning
  rw [List.filterMap_append, this]
  split <;> simp [text?]

theorem meanings_text (ts : List Text) :
    (ts.flatMap meaning).filterMap text? = visibleTags ts := by
  induction ts with
  | nil => rfl
  | cons t ts ih =>
    simp only [List.flatMap_cons, List.filterMap_append, meaning_text, ih, visibleTags,
      List.map_append]

theorem hidden_mem_meaning (t : Text) : ParsedTag.hidden ∈ meaning t ↔ Hides t := by
  have hp : ∀ b, ParsedTag.hidden ∉ decodePlain b := by
    intro b; unfold decodePlain; split <;> split <;> simp
  unfold meaning
  by_cases h : Hides t <;> simp [h, hp]

theorem mayFail_mem_meaning (t : Text) :
    ParsedTag.mayFail ∈ meaning t ↔ "!mayfail".toList ∈ ordinary t := by
  have e : "[!mayfail]".toList = bracket "!mayfail".toList := rfl
  have hp : ∀ x, ParsedTag.mayFail ∈ decodePlain (bracket x) ↔ x = "!mayfail".toList := by
    intro b; simp only [decodePlain, e, bracket_inj]; split <;> split <;> simp_all
  unfold meaning
  by_cases h : Hides t <;> simp [h, hp]

theorem shouldFail_mem_meaning (t : Text) :
    ParsedTag.shouldFail ∈ meaning t ↔ "!shouldfail".toList ∈ ordinary t := by
  have e : "[!shouldfail]".toList = bracket "!shouldfail".toList := rfl
  have hp : ∀ x, ParsedTag.shouldFail ∈ decodePlain (bracket x) ↔ x = "!shouldfail".toList := by
    intro b; simp only [decodePlain, e, bracket_inj]; split <;> split <;> simp_all
  unfold meaning
  by_cases h : Hides t <;> simp [h, hp]

/-! ### Verdicts -/

/-- A verdict represents "included" and, if so, "explicitly". -/
def Verdict (r : FilterResult) (inc exp : Prop) : Prop :=
  (r.included = true ↔ inc) ∧ (inc → (r.implicit = false ↔ exp))

theorem Verdict.and {r s : FilterResult} {i e j f : Prop} (h : Verdict r i e) (h' : Verdict s j f) :
    Verdict (resultAnd r s) (i ∧ j) (e ∨ f) := by
  obtain ⟨ri, rm⟩ := r
  obtain ⟨si, sm⟩ := s
  obtain ⟨h1, h2⟩ := h
  obtain ⟨h3, h4⟩ := h'
  simp only at h1 h2 h3 h4
  cases ri <;> cases si <;> cases rm <;> simp_all [Verdict, resultAnd]

theorem Verdict.or {r s : FilterResult} {i e j f : Prop} (h : Verdict r i e) (h' : Verdict s j f)
    (he : e → i) (hf : f → j) : Verdict (resultOr r s) (i ∨ j) (e ∨ f) := by
  obtain ⟨ri, rm⟩ := r
  obtain ⟨si, sm⟩ := s
  obtain ⟨h1, h2⟩ := h
  obtain ⟨h3, h4⟩ := h'
  simp only at h1 h2 h3 h4
  cases ri <;> cases si <;> cases rm <;> simp_all [Verdict, resultOr]

theorem Verdict.congr {r : FilterResult} {i e j f : Prop} (h : Verdict r i e) (h1 : i ↔ j)
    (h2 : e ↔ f) : Verdict r j f := by
  rw [← h1, ← h2]; exact h

theorem actions_pos {p : Text} (h : Positive p) :
    actions p = (⟨true, false⟩, ⟨false, true⟩, p) := by
  unfold actions; split
  · simp [Positive] at h
  · rfl

theorem accepts_pos {p : Text} (h : Positive p) (ts : List Text) :
    Accepts p ts ↔ ∃ s ∈ ts, PatMatches p s := by
  unfold Accepts; split
  · simp [Positive] at h
  · rfl

theorem isMatch_iff (s p : Text) : isMatch s p = true ↔ PatMatches p s := by
  unfold PatMatches isMatch
  cases p with
  | nil => simp
  | cons c p => simp [isMatchLoop_iff (c :: p).length (c :: p) s (Nat.le_refl _)]

/-- A single pattern against a set of texts, with any way `b` to decide a match. -/
theorem verdict_single {p : Text} {ts : List Text} {b : Text → Bool}
    (hb : ∀ q, b q = true ↔ ∃ s ∈ ts, PatMatches q s) :
    Verdict (if b (actions p).2.2 then (actions p).1 else (actions p).2.1)
      (Accepts p ts) (Positive p) := by
  by_cases hp : Positive p
  · rw [actions_pos hp]
    simp only [Verdict, accepts_pos hp, ← hb]
    cases b p <;> simp [hp]
  · cases p with
    | nil => simp [Positive] at hp
    | cons c p =>
      simp only [Positive, List.head?_cons, ne_eq, Option.some.injEq, Decidable.not_not] at hp
      subst hp
      have hn : ¬ Positive ('~' :: p) := by simp [Positive]
      show Verdict (if b p then _ else _) (¬ ∃ s ∈ ts, PatMatches p s) _
      rw [← hb]
      cases b p <;> simp [Verdict, hn, actions]

theorem matchName_verdict (name p : Text) : Verdict (matchName name p) (Accepts p [name]) (Positive p) :=
  verdict_single (b := fun q => isMatch name q) (fun q => by simp [isMatch_iff])

/-- A tag text that can be decoded, and the ordinary tags that it shows. -/
def Shows (maxTag : Nat) (tags : Text) (shown : List Text) : Prop :=
  ∃ ps, forEachTag maxTag tags = .ok ps ∧ ps.filterMap text? = shown

theorem shows_tagString {maxTag : Nat} {ts : List Text} (h : ∀ t ∈ ts, TagOk t)
    (h' : ∀ t ∈ ts, Hides t → t.length < maxTag) : Shows maxTag (tagString ts) (visibleTags ts) :=
  ⟨_, forEachTag_tagString h h', meanings_text ts⟩

theorem anyTag_iff (p : Text) (ps : List ParsedTag) :
    anyTag p ps = true ↔ ∃ s ∈ ps.filterMap text?, PatMatches p s := by
  induction ps with
  | nil => simp [anyTag]
  | cons a ps ih =>
    have : anyTag p (a :: ps) = (anyTag p [a] || anyTag p ps) := by simp [anyTag]
    rw [this, Bool.or_eq_true, ih]
    cases a <;> simp [anyTag, text?, List.filterMap_cons, isMatch_iff]

theorem matchTagsSingle_verdict {maxTag : Nat} {tags : Text} {shown : List Text} (h : Shows maxTag tags shown)
    (p : Text) :
    ∃ r, matchTagsSingle maxTag tags p = .ok r ∧ Verdict r (Accepts p shown) (Positive p) := by
  obtain ⟨ps, h1, rfl⟩ := h
  refine ⟨_, ?_, verdict_single (b := fun q => anyTag q ps) (fun q => anyTag_iff q ps)⟩
  rw [matchTagsSingle, h1]
  simp

/-! ### Splitting filters -/

theorem fFNE_shift (c : Char) : ∀ (n : Nat) (s : Text) (i : Nat), s.length ≤ n →
    findFirstNotEscapedFrom i c s = (findFirstNotEscapedFrom 0 c s).map (· + i) := by
  intro n
  induction n with
  | zero => intro s i h; cases s <;> simp_all [findFirstNotEscapedFrom]
  | succ n ih =>
    intro s i h
    match s with
    | [] => simp [findFirstNotEscapedFrom]
    | [x] =>
      simp only [findFirstNotEscapedFrom]; split <;> try split
      all_goals simp
    | x :: y :: rest =>
      simp only [List.length_cons] at h
      simp only [findFirstNotEscapedFrom]
      split
      · rw [ih rest (i + 2) (by omega), ih rest (0 + 2) (by omega)]
        cases findFirstNotEscapedFrom 0 c rest <;> simp; omega
      · split
        · simp
        · rw [ih (y :: rest) (i + 1) (by simp; omega), ih (y :: rest) (0 + 1) (by simp; omega)]
          cases findFirstNotEscapedFrom 0 c (y :: rest) <;> simp; omega

theorem fFNE_bs (c x : Char) (s : Text) :
    findFirstNotEscaped ('\\' :: x :: s) c = (findFirstNotEscaped s c).map (· + 2) := by
  simp only [findFirstNotEscaped, findFirstNotEscapedFrom, if_true]
  exact fFNE_shift c _ s _ (Nat.le_refl _)

theorem fFNE_hit {c : Char} (hc : c ≠ '\\') (s : Text) : findFirstNotEscaped (c :: s) c = some 0 := by
  cases s <;> simp [findFirstNotEscaped, findFirstNotEscapedFrom, hc]

theorem fFNE_other {c x : Char} (hx : x ≠ '\\') (hc : x ≠ c) (s : Text) :
    findFirstNotEscaped (x :: s) c = (findFirstNotEscaped s c).map (· + 1) := by
  cases s with
  | nil => simp [findFirstNotEscaped, findFirstNotEscapedFrom, hx, hc]
  | cons y s =>
    simp only [findFirstNotEscaped]
    rw [findFirstNotEscapedFrom, if_neg hx, if_neg hc]
    exact fFNE_shift c _ (y :: s) _ (Nat.le_refl _)

theorem commaParts_other {x : Char} (h1 : x ≠ '\\') (h2 : x ≠ ',') (s : Text) :
    commaParts (x :: s) = (commaParts s).modifyHead (x :: ·) := by
  rw [commaParts]
  all_goals first | exact h2 | simp_all

theorem tagGroups_other {x : Char} (h1 : x ≠ '\\') (h2 : x ≠ ']') (s : Text) :
    tagGroups (x :: s) = glueHead [x] (tagGroups s) := by
  rw [tagGroups]
  all_goals first | exact h2 | simp_all

theorem commaParts_find : ∀ (n : Nat) (f : Text), f.length ≤ n →
    match findFirstNotEscaped f ',' with
    | none => commaParts f = [f]
    | some p => p < f.length ∧ commaParts f = f.take p :: commaParts (f.drop (p + 1)) := by
  intro n
  induction n with
  | zero =>
    intro f h
    cases f with
    | nil => simp [findFirstNotEscaped, findFirstNotEscapedFrom, commaParts]
    | cons => simp at h
  | succ n ih =>
    intro f h
    match f with
    | [] => simp [findFirstNotEscaped, findFirstNotEscapedFrom, commaParts]
    | x :: f =>
      by_cases hx : x = '\\'
      · subst hx
        cases f with
        | nil => simp [findFirstNotEscaped, findFirstNotEscapedFrom, commaParts]
        | cons y f =>
          have := ih f (by simp at h; omega)
          rw [fFNE_bs, commaParts]
          cases hf : findFirstNotEscaped f ',' with
          | none => rw [hf] at this; simp at this; simp [this]
          | some p =>
            rw [hf] at this; simp only at this
            obtain ⟨h1, h2⟩ := this
            simp only [Option.map_some]
            refine ⟨by simp; omega, ?_⟩
            rw [h2]; simp
      · by_cases hc : x = ','
        · subst hc
          rw [fFNE_hit hx, commaParts]; simp
        · have := ih f (by simp at h; omega)
          rw [fFNE_other hx hc, commaParts_other hx hc]
          cases hf : findFirstNotEscaped f ',' with
          | none => rw [hf] at this; simp at this; simp [this]
          | some p =>
            rw [hf] at this; simp only at this
            obtain ⟨h1, h2⟩ := this
            simp only [Option.map_some]
            refine ⟨by simp; omega, ?_⟩
            rw [h2]; simp

theorem tagGroups_find : ∀ (n : Nat) (f : Text), f.length ≤ n → f ≠ [] →
    match findFirstNotEscaped f ']' with
    | none => tagGroups f = [f]
    | some p => p < f.length ∧ tagGroups f = f.take (p + 1) :: tagGroups (f.drop (p + 1)) := by
  intro n
  induction n with
  | zero => intro f h hf; cases f <;> simp at *
  | succ n ih =>
    intro f h hne
    match f with
    | [] => exact absurd rfl hne
    | x :: f =>
      by_cases hx : x = '\\'
      · subst hx
        cases f with
        | nil => simp [findFirstNotEscaped, findFirstNotEscapedFrom, tagGroups]
        | cons y f =>
          rw [fFNE_bs, tagGroups]
          cases f with
          | nil => simp [findFirstNotEscaped, findFirstNotEscapedFrom, tagGroups, glueHead]
          | cons z f =>
          have := ih (z :: f) (by simp at h ⊢; omega) (by simp)
          cases hf : findFirstNotEscaped (z :: f) ']' with
          | none => rw [hf] at this; simp at this; simp [this, glueHead]
          | some p =>
            rw [hf] at this; simp only at this
            obtain ⟨h1, h2⟩ := this
            simp only [Option.map_some]
            refine ⟨by simp at h1 ⊢; omega, ?_⟩
            rw [h2]; simp [glueHead]
      · by_cases hc : x = ']'
        · subst hc
          rw [fFNE_hit hx, tagGroups]; simp
        · rw [fFNE_other hx hc, tagGroups_other hx hc]
          cases f with
          | nil => simp [findFirstNotEscaped, findFirstNotEscapedFrom, tagGroups, glueHead]
          | cons z f =>
          have := ih (z :: f) (by simp at h ⊢; omega) (by simp)
          cases hf : findFirstNotEscaped (z :: f) ']' with
          | none => rw [hf] at this; simp at this; simp [this, glueHead]
          | some p =>
            rw [hf] at this; simp only at this
            obtain ⟨h1, h2⟩ := this
            simp only [Option.map_some]
            refine ⟨by simp at h1 ⊢; omega, ?_⟩
            rw [h2]; simp [glueHead]

/-! ### The loops -/

theorem Verdict.not_included {r : FilterResult} {i e j f : Prop} (h : Verdict r i e)
    (hr : r.included = false) (hj : j → i) : Verdict r j f := by
  have : ¬ i := fun hi => by rw [h.1.mpr hi] at hr; cases hr
  exact ⟨⟨fun h' => (by rw [hr] at h'; cases h'), fun h' => absurd (hj h') this⟩,
    fun h' => absurd (hj h') this⟩

theorem combineAnd_verdict {o : Option FilterResult} {i e : Prop} {r : FilterResult} {j f : Prop}
    (ho : (o = none ∧ i ∧ ¬ e) ∨ (∃ r0, o = some r0 ∧ Verdict r0 i e)) (h : Verdict r j f) :
    Verdict (combine resultAnd o r) (i ∧ j) (e ∨ f) := by
  rcases ho with ⟨rfl, hi, he⟩ | ⟨r0, rfl, h0⟩
  · exact h.congr (by simp [hi]) (by simp [he])
  · exact h0.and h

theorem combineOr_verdict {o : Option FilterResult} {i e : Prop} {r : FilterResult} {j f : Prop}
    (ho : (o = none ∧ ¬ i) ∨ (∃ r0, o = some r0 ∧ Verdict r0 i e)) (h : Verdict r j f)
    (he : e → i) (hf : f → j) :
    Verdict (combine resultOr o r) (i ∨ j) (e ∨ f) := by
  rcases ho with ⟨rfl, hi⟩ | ⟨r0, rfl, h0⟩
  · exact h.congr (by simp [hi]) ⟨fun h => .inr h, fun h => h.resolve_left fun h => hi (he h)⟩
  · exact h0.or h he hf

theorem matchTagsLoop_verdict {maxTag : Nat} {tags : Text} {shown : List Text}
    (h : Shows maxTag tags shown) : ∀ (fuel : Nat) (f : Text)
    (o : Option FilterResult) (i e : Prop), f.length < fuel → f ≠ [] →
    ((o = none ∧ i ∧ ¬ e) ∨ (∃ r0, o = some r0 ∧ Verdict r0 i e)) →
    ∃ r, matchTagsLoop maxTag tags fuel o f = .ok r ∧
      Verdict r (i ∧ ∀ g ∈ tagGroups f, Accepts g shown)
        (e ∨ ∃ g ∈ tagGroups f, Positive g) := by
  intro fuel
  induction fuel with
  | zero => intro f o i e hf; omega
  | succ fuel ih =>
    intro f o i e hf hne ho
    have hg := tagGroups_find f.length f (Nat.le_refl _) hne
    cases hp : findFirstNotEscaped f ']' with
    | none =>
      rw [hp] at hg
      simp only at hg
      obtain ⟨r1, e1, v1⟩ := matchTagsSingle_verdict h f
      refine ⟨combine resultAnd o r1, ?_, ?_⟩
      · rw [matchTagsLoop, hp]; simp only [Option.map_none, e1, Outcome.bind_ok]
        split <;> simp
      · rw [hg]
        exact (combineAnd_verdict ho v1).congr (by simp) (by simp)
    | some p =>
      rw [hp] at hg
      simp only at hg
      obtain ⟨hlt, hg⟩ := hg
      obtain ⟨r1, e1, v1⟩ := matchTagsSingle_verdict h (f.take (p + 1))
      have v2 := combineAnd_verdict ho v1
      rw [matchTagsLoop, hp]
      simp only [Option.map_some, e1, Outcome.bind_ok]
      cases hi : (combine resultAnd o r1).included with
      | false =>
        refine ⟨combine resultAnd o r1, by simp, v2.not_included hi ?_⟩
        rw [hg]; rintro ⟨a, b⟩; exact ⟨a, b _ (by simp)⟩
      | true =>
        simp only [Bool.not_true, Bool.false_eq_true, if_false]
        cases hd : f.drop (p + 1) with
        | nil =>
          refine ⟨combine resultAnd o r1, by simp, ?_⟩
          rw [hg, hd]
          exact v2.congr (by simp [tagGroups]) (by simp [tagGroups])
        | cons c d =>
          have hlen : (c :: d).length < fuel := by rw [← hd]; simp; omega
          obtain ⟨r, er, vr⟩ := ih (c :: d) (some (combine resultAnd o r1)) _ _ hlen (by simp)
            (.inr ⟨_, rfl, v2⟩)
          refine ⟨r, by simpa using er, ?_⟩
          rw [hg, hd]
          exact vr.congr (by simp [and_assoc]) (by simp [or_assoc])

theorem isTagFilter_iff (p : Text) :
    (['['].isPrefixOf p || ['~', '['].isPrefixOf p) = true ↔ IsTagFilter p := by
  simp [IsTagFilter]

theorem matchIdSingle_verdict {maxTag : Nat} {tags : Text} {shown : List Text} {hidden : Prop}
    (h : Shows maxTag tags shown) (name p : Text) :
    ∃ r, matchIdSingle maxTag name tags p = .ok r ∧
      Verdict r (View.PartIncludes p ⟨name, shown, hidden⟩) (View.PartExplicit p ⟨name, shown, hidden⟩) := by
  rw [matchIdSingle]
  by_cases hp : IsTagFilter p
  · rw [if_pos ((isTagFilter_iff p).mpr hp), matchTags]
    have hne : p ≠ [] := by rintro rfl; simp [IsTagFilter] at hp
    obtain ⟨r, er, v⟩ := matchTagsLoop_verdict h (p.length + 1) p none True False (by omega) hne
      (.inl ⟨rfl, trivial, by simp⟩)
    refine ⟨r, er, ?_, ?_⟩
    · rw [v.1]; simp [View.PartIncludes, hp]
    · intro hi
      have : View.PartIncludes p ⟨name, shown, hidden⟩ := hi
      simp only [View.PartIncludes, hp, not_true, true_and, false_and, or_false] at hi
      rw [v.2 ⟨trivial, hi⟩]
      simp [View.PartExplicit, hp, this]
  · rw [if_neg (fun e => hp ((isTagFilter_iff p).mp e))]
    have v := matchName_verdict name p
    refine ⟨_, rfl, ?_, ?_⟩
    · rw [v.1]; simp [View.PartIncludes, hp]
    · intro hi
      have : View.PartIncludes p ⟨name, shown, hidden⟩ := hi
      simp only [View.PartIncludes, hp, not_false_eq_true, true_and, false_and, false_or] at hi
      rw [v.2 hi]
      simp [View.PartExplicit, hp, this]

theorem partExplicit_includes {p : Text} {t : View} (h : View.PartExplicit p t) : View.PartIncludes p t := h.1

theorem matchIdLoop_verdict {maxTag : Nat} {tags : Text} {shown : List Text} {hidden : Prop}
    (h : Shows maxTag tags shown) (name : Text) : ∀ (fuel : Nat) (f : Text)
    (o : Option FilterResult) (i e : Prop), f.length < fuel → (e → i) →
    ((o = none ∧ ¬ i) ∨ (∃ r0, o = some r0 ∧ Verdict r0 i e)) →
    ∃ r, matchIdLoop maxTag name tags fuel o f = .ok r ∧
      Verdict r (i ∨ View.Includes f ⟨name, shown, hidden⟩) (e ∨ View.IncludesExplicitly f ⟨name, shown, hidden⟩) := by
  intro fuel
  induction fuel with
  | zero => intro f o i e hf; omega
  | succ fuel ih =>
    intro f o i e hf hei ho
    have hg := commaParts_find f.length f (Nat.le_refl _)
    cases hp : findFirstNotEscaped f ',' with
    | none =>
      rw [hp] at hg
      simp only at hg
      obtain ⟨r1, e1, v1⟩ := matchIdSingle_verdict (hidden := hidden) h name f
      refine ⟨combine resultOr o r1, ?_, ?_⟩
      · rw [matchIdLoop, hp]; simp only [e1, Outcome.bind_ok]
        split <;> simp
      · rw [View.Includes, View.IncludesExplicitly, hg]
        exact (combineOr_verdict ho v1 hei partExplicit_includes).congr (by simp) (by simp)
    | some p =>
      rw [hp] at hg
      simp only at hg
      obtain ⟨hlt, hg⟩ := hg
      obtain ⟨r1, e1, v1⟩ := matchIdSingle_verdict (hidden := hidden) h name (f.take p)
      have v2 := combineOr_verdict ho v1 hei partExplicit_includes
      rw [matchIdLoop, hp]
      simp only [e1, Outcome.bind_ok]
      have c1 : View.Includes f ⟨name, shown, hidden⟩ ↔
          (View.PartIncludes (f.take p) ⟨name, shown, hidden⟩ ∨ View.Includes (f.drop (p + 1)) ⟨name, shown, hidden⟩) := by
        simp [View.Includes, hg]
      have c2 : View.IncludesExplicitly f ⟨name, shown, hidden⟩ ↔
          (View.PartExplicit (f.take p) ⟨name, shown, hidden⟩ ∨ View.IncludesExplicitly (f.drop (p + 1)) ⟨name, shown, hidden⟩) := by
        simp [View.IncludesExplicitly, hg]
      cases hi : ((combine resultOr o r1).included && !(combine resultOr o r1).implicit) with
      | true =>
        simp only [Bool.and_eq_true, Bool.not_eq_true'] at hi
        refine ⟨combine resultOr o r1, by simp, ?_⟩
        have hinc := v2.1.mp hi.1
        have hexp := (v2.2 hinc).mp hi.2
        rw [c1, c2]
        refine ⟨⟨fun _ => ?_, fun _ => hi.1⟩, fun _ => ⟨fun _ => ?_, fun _ => hi.2⟩⟩
        · rcases hinc with h | h
          · exact .inl h
          · exact .inr (.inl h)
        · rcases hexp with h | h
          · exact .inl h
          · exact .inr (.inl h)
      | false =>
        simp only [Bool.false_eq_true, if_false]
        obtain ⟨r, er, vr⟩ := ih (f.drop (p + 1)) (some (combine resultOr o r1)) _ _
          (by simp; omega) (by
            rintro (h | h)
            · exact .inl (hei h)
            · exact .inr h.1) (.inr ⟨_, rfl, v2⟩)
        refine ⟨r, er, ?_⟩
        rw [c1, c2]
        exact vr.congr (by simp [or_assoc]) (by simp [or_assoc])

theorem matchId_verdict {maxTag : Nat} {tags : Text} {shown : List Text} {hidden : Prop}
    (h : Shows maxTag tags shown) (name f : Text) :
    ∃ r, matchId maxTag name tags f = .ok r ∧
      Verdict r (View.Includes f ⟨name, shown, hidden⟩) (View.IncludesExplicitly f ⟨name, shown, hidden⟩) := by
  obtain ⟨r, er, v⟩ := matchIdLoop_verdict (hidden := hidden) h name (f.length + 1) f none False False (by omega)
    (by simp) (.inl ⟨rfl, by simp⟩)
  exact ⟨r, er, v.congr (by simp) (by simp)⟩

theorem matchArgsLoop_verdict {maxTag maxName : Nat} {id : TestId} {shown : List Text} {hidden : Prop}
    (h : Shows maxTag id.tags shown) : ∀ (fs : List Text) (o : Option FilterResult) (i e : Prop),
    ((o = none ∧ i ∧ ¬ e) ∨ (∃ r0, o = some r0 ∧ Verdict r0 i e)) →
    (fs ≠ [] ∨ o ≠ none) →
    ∃ r, matchArgsLoop maxTag maxName id o fs = .ok (some r) ∧
      Verdict r (i ∧ ∀ f ∈ fs, View.Includes f ⟨makeFullName maxName id, shown, hidden⟩)
        (e ∨ ∃ f ∈ fs, View.IncludesExplicitly f ⟨makeFullName maxName id, shown, hidden⟩) := by
  intro fs
  induction fs with
  | nil =>
    intro o i e ho hn
    rcases ho with ⟨rfl, hi, he⟩ | ⟨r0, rfl, h0⟩
    · simp at hn
    · exact ⟨r0, rfl, h0.congr (by simp) (by simp)⟩
  | cons f fs ih =>
    intro o i e ho _
    obtain ⟨r1, e1, v1⟩ := matchId_verdict (hidden := hidden) h (makeFullName maxName id) f
    have v2 := combineAnd_verdict ho v1
    rw [matchArgsLoop, e1]
    simp only [Outcome.bind_ok]
    cases hi : (combine resultAnd o r1).included with
    | false =>
      refine ⟨combine resultAnd o r1, by simp, v2.not_included hi ?_⟩
      rintro ⟨a, b⟩; exact ⟨a, b _ (by simp)⟩
    | true =>
      simp only [Bool.not_true, Bool.false_eq_true, if_false]
      obtain ⟨r, er, vr⟩ := ih (some (combine resultAnd o r1)) _ _ (.inr ⟨_, rfl, v2⟩) (by simp)
      exact ⟨r, er, vr.congr (by simp [and_assoc]) (by simp [or_assoc])⟩

theorem hasHiddenTag_tagString {maxTag : Nat} {ts : List Text} (h : ∀ t ∈ ts, TagOk t)
    (h' : ∀ t ∈ ts, Hides t → t.length < maxTag) :
    hasHiddenTag maxTag (tagString ts) = .ok (decide (∃ t ∈ ts, Hides t)) := by
  rw [hasHiddenTag, forEachTag_tagString h h']
  simp only [Outcome.bind_ok, Outcome.pure_eq]
  congr 1
  rw [Bool.eq_iff_iff]
  simp [hidden_mem_meaning]

end Filter
end Verif
