import Verif.Lemmas.FilterText
/-!
# C13–C17, C75: tags and filters
-/
namespace Verif.Props
open Verif Verif.Spec Verif.Filter

/-! ## C13 -/

/-- **C13**. The tags found in `[t1]...[tn]` are exactly `[t1]`, ..., `[tn]`, in order. -/
theorem C13_raw_tags (ts : List Text) (h : ∀ t ∈ ts, TagOk t) :
    rawTags (tagString ts) = .ok (ts.map bracket) := rawTags_tagString ts h

/-- **C13**. Decoding the tag string gives the written tags in order (with `[.x]` standing for
`[.][x]`), and the special flags exactly if the corresponding tags are present. -/
theorem C13_decode (maxTag : Nat) (ts : List Text) (h : ∀ t ∈ ts, TagOk t)
    (hlen : ∀ t ∈ ts, Hides t → t.length < maxTag) :
    ∃ ps, forEachTag maxTag (tagString ts) = .ok ps ∧
      (ps.filterMap fun | .tag t => some t | _ => none) = visibleTags ts ∧
      (ParsedTag.hidden ∈ ps ↔ ∃ t ∈ ts, Hides t) ∧
      (ParsedTag.mayFail ∈ ps ↔ "!mayfail".toList ∈ ts.flatMap ordinary) ∧
      (ParsedTag.shouldFail ∈ ps ↔ "!shouldfail".toList ∈ ts.flatMap ordinary) := by
  refine ⟨_, forEachTag_tagString h hlen, ?_, ?_, ?_, ?_⟩
  · rw [← meanings_text]
    apply congrArg (fun f => List.filterMap f _)
    funext p; cases p <;> rfl
  · simp [hidden_mem_meaning]
  · simp only [List.mem_flatMap, mayFail_mem_meaning]
  · simp only [List.mem_flatMap, shouldFail_mem_meaning]

/-- **C13**. `[.x]` means the same as `[.][x]`, at any place in the list. -/
theorem C13_hidden_shorthand (maxTag : Nat) (a b : List Text) (x : Text)
    (ha : ∀ t ∈ a ++ b, TagOk t ∧ t.length < maxTag) (hx : TagOk x) (hx1 : x ≠ [])
    (hx2 : ¬ Hides x) (hlen : x.length + 1 < maxTag) :
    forEachTag maxTag (tagString (a ++ ('.' :: x) :: b)) =
      forEachTag maxTag (tagString (a ++ ['.'] :: x :: b)) := by
  have hdot : TagOk ('.' :: x) := by
    refine ⟨?_, ?_⟩ <;> simp only [List.mem_cons, not_or]
    · exact ⟨by decide, hx.1⟩
    · exact ⟨by decide, hx.2⟩
  have hm : meaning ('.' :: x) = meaning ['.'] ++ meaning x := by
    cases x with
    | nil => exact absurd rfl hx1
    | cons c x =>
      have hc : c ≠ '.' := by simpa [Hides] using hx2
      have ho : ordinary (c :: x) = [c :: x] := by
        unfold ordinary; split
        · rename_i h; simp at h; exact absurd h.1 hc
        · rfl
      have h1 : Hides ('.' :: c :: x) := by simp [Hides]
      have h2 : Hides ['.'] := by simp [Hides]
      have h3 : ordinary ('.' :: c :: x) = [['.'], c :: x] := rfl
      have h4 : ordinary ['.'] = [['.']] := rfl
      simp [meaning, h1, h2, hx2, ho, h3, h4]
  simp only [List.mem_append] at ha
  rw [forEachTag_tagString, forEachTag_tagString]
  · simp only [List.flatMap_append, List.flatMap_cons, hm, List.append_assoc]
  · intro t ht
    simp only [List.mem_append, List.mem_cons] at ht
    rcases ht with h | h | h | h
    · exact (ha t (.inl h)).1
    · subst h; simp [TagOk]
    · subst h; exact hx
    · exact (ha t (.inr h)).1
  · intro t ht _
    simp only [List.mem_append, List.mem_cons] at ht
    rcases ht with h | h | h | h
    · exact (ha t (.inl h)).2
    · subst h; simp; omega
    · subst h; omega
    · exact (ha t (.inr h)).2
  · intro t ht
    simp only [List.mem_append, List.mem_cons] at ht
    rcases ht with h | h | h
    · exact (ha t (.inl h)).1
    · subst h; exact hdot
    · exact (ha t (.inr h)).1
  · intro t ht _
    simp only [List.mem_append, List.mem_cons] at ht
    rcases ht with h | h | h
    · exact (ha t (.inl h)).2
    · subst h; simpa using hlen
    · exact (ha t (.inr h)).2

/-- **C13**. A non-empty tag text without an opening or without a closing bracket is rejected. -/
theorem C13_reject (maxTag : Nat) (s : Text) (hs : s ≠ []) (h : '[' ∉ s ∨ ']' ∉ s) :
    forEachTag maxTag s = .abort := by
  have : rawTags s = .abort := by
    rw [rawTags, if_neg (by simpa using hs), if_pos]
    rcases h with h | h <;> simp [h]
  rw [forEachTag, this]; rfl

/-! ## C14 -/

/-- **C14**. AND of verdicts: associative, commutative, idempotent; inclusion is the conjunction;
explicit iff a verdict with the resulting inclusion is explicit. -/
theorem C14_and (a b c : FilterResult) :
    resultAnd (resultAnd a b) c = resultAnd a (resultAnd b c) ∧
    resultAnd a b = resultAnd b a ∧ resultAnd a a = a ∧
    (resultAnd a b).included = (a.included && b.included) ∧
    ((resultAnd a b).implicit = false ↔
      ∃ x ∈ [a, b], x.included = (resultAnd a b).included ∧ x.implicit = false) := by
  obtain ⟨a1, a2⟩ := a; obtain ⟨b1, b2⟩ := b; obtain ⟨c1, c2⟩ := c
  revert a1 a2 b1 b2 c1 c2
  decide

/-- **C14**. OR of verdicts, likewise. -/
theorem C14_or (a b c : FilterResult) :
    resultOr (resultOr a b) c = resultOr a (resultOr b c) ∧
    resultOr a b = resultOr b a ∧ resultOr a a = a ∧
    (resultOr a b).included = (a.included || b.included) ∧
    ((resultOr a b).implicit = false ↔
      ∃ x ∈ [a, b], x.included = (resultOr a b).included ∧ x.implicit = false) := by
  obtain ⟨a1, a2⟩ := a; obtain ⟨b1, b2⟩ := b; obtain ⟨c1, c2⟩ := c
  revert a1 a2 b1 b2 c1 c2
  decide

private theorem foldl_set {op : FilterResult → FilterResult → FilterResult}
    (assoc : ∀ a b c, op (op a b) c = op a (op b c)) (comm : ∀ a b, op a b = op b a)
    (idem : ∀ a, op a a = a) :
    ∀ (l : List FilterResult) (a : FilterResult), (∀ x ∈ l, op (l.foldl op a) x = l.foldl op a) ∧
      op (l.foldl op a) a = l.foldl op a := by
  intro l
  induction l with
  | nil => intro a; simp [idem]
  | cons y l ih =>
    intro a
    obtain ⟨i1, i2⟩ := ih (op a y)
    simp only [List.foldl_cons]
    have hy : op (l.foldl op (op a y)) y = l.foldl op (op a y) := by
      calc op (l.foldl op (op a y)) y = op (op (l.foldl op (op a y)) (op a y)) y := by rw [i2]
        _ = op (l.foldl op (op a y)) (op a (op y y)) := by rw [assoc, assoc]
        _ = l.foldl op (op a y) := by rw [idem, i2]
    have ha : op (l.foldl op (op a y)) a = l.foldl op (op a y) := by
      calc op (l.foldl op (op a y)) a = op (op (l.foldl op (op a y)) (op a y)) a := by rw [i2]
        _ = op (l.foldl op (op a y)) (op (op a y) a) := by rw [assoc]
        _ = op (l.foldl op (op a y)) (op (op a a) y) := by
            rw [comm (op a y) a, ← assoc a a y]
        _ = l.foldl op (op a y) := by rw [idem, i2]
    refine ⟨fun x hx => ?_, ha⟩
    rcases List.mem_cons.mp hx with rfl | hx
    · exact hy
    · exact i1 x hx

private theorem foldl_absorb {op : FilterResult → FilterResult → FilterResult}
    (assoc : ∀ a b c, op (op a b) c = op a (op b c)) :
    ∀ (l : List FilterResult) (a r : FilterResult), op r a = r → (∀ x ∈ l, op r x = r) →
      op r (l.foldl op a) = r := by
  intro l
  induction l with
  | nil => intro a r h _; exact h
  | cons y l ih =>
    intro a r h hl
    simp only [List.foldl_cons]
    refine ih (op a y) r ?_ (fun x hx => hl x (List.mem_cons_of_mem _ hx))
    rw [← assoc, h, hl y (by simp)]

/-- **C14**. Folding AND (or OR) over a non-empty list of verdicts depends only on the set of
verdicts, not on their order or repetition. -/
theorem C14_order_independent (a b : FilterResult) (l m : List FilterResult)
    (h : ∀ x, x ∈ a :: l ↔ x ∈ b :: m) :
    l.foldl resultAnd a = m.foldl resultAnd b ∧ l.foldl resultOr a = m.foldl resultOr b := by
  have key : ∀ op : FilterResult → FilterResult → FilterResult,
      (∀ a b c, op (op a b) c = op a (op b c)) → (∀ a b, op a b = op b a) → (∀ a, op a a = a) →
      l.foldl op a = m.foldl op b := by
    intro op assoc comm idem
    obtain ⟨l1, l2⟩ := foldl_set assoc comm idem l a
    obtain ⟨m1, m2⟩ := foldl_set assoc comm idem m b
    have hl : ∀ x ∈ a :: l, op (l.foldl op a) x = l.foldl op a := by
      intro x hx; rcases List.mem_cons.mp hx with rfl | hx
      · exact l2
      · exact l1 x hx
    have hm : ∀ x ∈ b :: m, op (m.foldl op b) x = m.foldl op b := by
      intro x hx; rcases List.mem_cons.mp hx with rfl | hx
      · exact m2
      · exact m1 x hx
    have e1 : op (l.foldl op a) (m.foldl op b) = l.foldl op a :=
      foldl_absorb assoc m b _ (hl b ((h b).mpr (by simp)))
        (fun x hx => hl x ((h x).mpr (List.mem_cons_of_mem _ hx)))
    have e2 : op (m.foldl op b) (l.foldl op a) = m.foldl op b :=
      foldl_absorb assoc l a _ (hm a ((h a).mp (by simp)))
        (fun x hx => hm x ((h x).mp (List.mem_cons_of_mem _ hx)))
    rw [← e1, comm, e2]
  exact ⟨key _ (fun a b c => (C14_and a b c).1) (fun a b => (C14_and a b a).2.1)
      (fun a => (C14_and a a a).2.2.1),
    key _ (fun a b c => (C14_or a b c).1) (fun a b => (C14_or a b a).2.1)
      (fun a => (C14_or a a a).2.2.1)⟩

/-! ## C15 -/

/-- **C15**. A filter argument includes a test exactly if one of its comma-separated parts does
(each part being a name pattern or a conjunction of tag groups); it is explicit exactly if some part
includes the test by a non-negated pattern. -/
theorem C15_filter_meaning (maxTag : Nat) (ts : List Text) (h : ∀ t ∈ ts, TagOk t)
    (hlen : ∀ t ∈ ts, Hides t → t.length < maxTag) (name filter : Text) :
    ∃ r, matchId maxTag name (tagString ts) filter = .ok r ∧
      (r.included = true ↔ Includes filter ⟨name, ts⟩) ∧
      (r.included = true ∧ r.implicit = false ↔ IncludesExplicitly filter ⟨name, ts⟩) := by
  obtain ⟨r, e, v⟩ := matchId_verdict (hidden := Hidden ⟨name, ts⟩) (shows_tagString h hlen) name filter
  refine ⟨r, e, v.1, ?_⟩
  constructor
  · rintro ⟨a, b⟩; exact (v.2 (v.1.mp a)).mp b
  · intro hx
    have hi : Includes filter ⟨name, ts⟩ := by
      obtain ⟨p, hp, hx⟩ := hx; exact ⟨p, hp, hx.1⟩
    exact ⟨v.1.mpr hi, (v.2 hi).mpr hx⟩

/-- **C15**, on the specification: cutting at commas loses nothing (joining the parts gives the
filter back). -/
theorem C15_parts_join (f : Text) :
    ((commaParts f).map fun p => ',' :: p).flatten = ',' :: f ∧
    (tagGroups f).flatten = f := by
  have hne : ∀ g : Text, commaParts g ≠ [] := by
    intro g
    have := commaParts_find g.length g (Nat.le_refl _)
    cases hf : Util.findFirstNotEscaped g ',' <;> rw [hf] at this <;> simp only at this
    · simp [this]
    · simp [this.2]
  have hmod : ∀ (x : Text) (l : List Text), l ≠ [] →
      ((l.modifyHead (x ++ ·)).map fun p => ',' :: p).flatten
        = ',' :: (x ++ ((l.map fun p => ',' :: p).flatten.drop 1)) := by
    intro x l hl; cases l <;> simp_all
  have hglue : ∀ (x : Text) (l : List Text), (glueHead x l).flatten = x ++ l.flatten := by
    intro x l; cases l <;> simp [glueHead]
  have main : ∀ (n : Nat) (f : Text), f.length ≤ n →
      ((commaParts f).map fun p => ',' :: p).flatten = ',' :: f ∧ (tagGroups f).flatten = f := by
    intro n
    induction n with
    | zero => intro f h; cases f with
      | nil => simp [commaParts, tagGroups]
      | cons => simp at h
    | succ n ih =>
      intro f h
      match f with
      | [] => simp [commaParts, tagGroups]
      | x :: f =>
        by_cases hx : x = '\\'
        · subst hx
          cases f with
          | nil => simp [commaParts, tagGroups]
          | cons y f =>
            obtain ⟨i1, i2⟩ := ih f (by simp at h; omega)
            rw [commaParts, tagGroups, hglue, i2]
            refine ⟨?_, by simp⟩
            have := hmod ['\\', y] (commaParts f) (hne f)
            rw [i1] at this
            simpa using this
        · obtain ⟨i1, i2⟩ := ih f (by simp at h; omega)
          constructor
          · by_cases hc : x = ','
            · subst hc; rw [commaParts]; simp [i1]
            · rw [commaParts_other hx hc]
              have := hmod [x] (commaParts f) (hne f)
              rw [i1] at this
              simpa using this
          · by_cases hc : x = ']'
            · subst hc; rw [tagGroups]; simp [i2]
            · rw [tagGroups_other hx hc, hglue, i2]; simp
  exact main f.length f (Nat.le_refl _)

/-! ## C16 -/

/-- Which tests run, for what filters see of a test. -/
theorem selection {maxTag maxName : Nat} {id : TestId} {shown : List Text} {hidden : Prop} {b : Bool}
    (hs : Shows maxTag id.tags shown) (hh : hasHiddenTag maxTag id.tags = .ok b) (hb : b = true ↔ hidden)
    (filters : List Text) :
    ∃ c, selectForRun maxTag maxName filters id = .ok c ∧
      (c = true ↔ View.Selected filters ⟨makeFullName maxName id, shown, hidden⟩) := by
  cases filters with
  | nil =>
    refine ⟨!b, by simp only [selectForRun, List.isEmpty_nil, if_true, selectDefault, hh]; rfl, ?_⟩
    simp [View.Selected, ← hb]
  | cons f fs =>
    obtain ⟨r, e, v⟩ := matchArgsLoop_verdict (maxName := maxName) (hidden := hidden) hs (f :: fs) none True False
      (.inl ⟨rfl, trivial, by simp⟩) (.inl (by simp))
    have v' := v.congr (j := ∀ f' ∈ f :: fs, View.Includes f' ⟨makeFullName maxName id, shown, hidden⟩)
      (f := ∃ f' ∈ f :: fs, View.IncludesExplicitly f' ⟨makeFullName maxName id, shown, hidden⟩)
      (by simp) (by simp)
    clear v
    rw [selectForRun, if_neg (by simp), selectWithFilters, e]
    simp only [Outcome.bind_ok, hh]
    cases hi : r.included with
    | false =>
      refine ⟨false, by simp, ?_⟩
      simp only [Bool.false_eq_true, false_iff]
      rintro ⟨a, _⟩
      have := v'.1.mpr a
      rw [hi] at this; cases this
    | true =>
      have hinc := v'.1.mp hi
      cases hm : r.implicit with
      | false =>
        refine ⟨true, by simp, ?_⟩
        simp only [true_iff]
        exact ⟨hinc, fun _ => (v'.2 hinc).mp hm⟩
      | true =>
        refine ⟨!b, by simp, ?_⟩
        have hne : ¬ ∃ f' ∈ f :: fs, View.IncludesExplicitly f' ⟨makeFullName maxName id, shown, hidden⟩ := by
          intro hx
          have := (v'.2 hinc).mpr hx
          rw [hm] at this; cases this
        constructor
        · intro hb'
          refine ⟨hinc, fun hid => ?_⟩
          rw [hb.mpr hid] at hb'
          cases hb'
        · rintro ⟨_, hid⟩
          cases hbb : b with
          | false => rfl
          | true => exact absurd (hid (hb.mp hbb)) hne

/-- **C16**. Which tests run: every filter argument must include the test and, if the test is
hidden, one must do so explicitly; in particular, without arguments, the tests that are not
hidden. -/
theorem C16_selection (maxTag maxName : Nat) (filters : List Text) (id : TestId) (ts : List Text)
    (htags : id.tags = tagString ts) (h : ∀ t ∈ ts, TagOk t)
    (hlen : ∀ t ∈ ts, Hides t → t.length < maxTag) :
    ∃ b, selectForRun maxTag maxName filters id = .ok b ∧
      (b = true ↔ Selected filters ⟨makeFullName maxName id, ts⟩) :=
  selection (by rw [htags]; exact shows_tagString h hlen) (by rw [htags]; exact hasHiddenTag_tagString h hlen)
    (by simp [Hidden]) filters

/-- **C16**. The order and repetition of filter arguments do not matter. -/
theorem C16_order_independent (maxTag maxName : Nat) (fs gs : List Text) (hfg : ∀ f, f ∈ fs ↔ f ∈ gs)
    (id : TestId) (ts : List Text) (htags : id.tags = tagString ts) (h : ∀ t ∈ ts, TagOk t)
    (hlen : ∀ t ∈ ts, Hides t → t.length < maxTag) :
    selectForRun maxTag maxName fs id = selectForRun maxTag maxName gs id := by
  obtain ⟨b, e, v⟩ := C16_selection maxTag maxName fs id ts htags h hlen
  obtain ⟨c, e', v'⟩ := C16_selection maxTag maxName gs id ts htags h hlen
  have : b = true ↔ c = true := by rw [v, v']; simp [Selected, View.Selected, hfg]
  rw [e, e', Bool.eq_iff_iff.mpr this]

/-! ## C17 -/

/-- **C17**. For a name filter, a leading `~` inverts the selection. -/
theorem C17_negated_name (name f : Text) (h1 : Positive f) :
    (matchName name ('~' :: f)).included = !(matchName name f).included := by
  have a := (matchName_verdict name f).1
  have b := (matchName_verdict name ('~' :: f)).1
  rw [accepts_pos h1] at a
  have c : Accepts ('~' :: f) [name] ↔ ¬ ∃ s ∈ [name], PatMatches f s := Iff.rfl
  rw [c, ← a] at b
  cases hx : (matchName name f).included <;> rw [hx] at b <;> simp_all

/-- **C17**. For a single tag group, likewise. -/
theorem C17_negated_tag (maxTag : Nat) (ts : List Text) (h : ∀ t ∈ ts, TagOk t)
    (hlen : ∀ t ∈ ts, Hides t → t.length < maxTag) (f : Text) (h1 : Positive f) :
    ∃ r r', matchTagsSingle maxTag (tagString ts) f = .ok r ∧
      matchTagsSingle maxTag (tagString ts) ('~' :: f) = .ok r' ∧ r'.included = !r.included := by
  obtain ⟨r, e, v⟩ := matchTagsSingle_verdict (shows_tagString h hlen) f
  obtain ⟨r', e', v'⟩ := matchTagsSingle_verdict (shows_tagString h hlen) ('~' :: f)
  refine ⟨r, r', e, e', ?_⟩
  have a := v.1
  have b := v'.1
  rw [accepts_pos h1] at a
  have c : Accepts ('~' :: f) (visibleTags ts) ↔ ¬ ∃ s ∈ visibleTags ts, PatMatches f s := Iff.rfl
  rw [c, ← a] at b
  cases hx : r.included <;> rw [hx] at b <;> simp_all

/-- **C17**. As whole filter arguments: if `f` is a single name pattern (no unescaped comma, not a
tag filter, not itself negated), then every test is included by exactly one of `f`, `~f`. -/
theorem C17_partition (f : Text) (t : Test) (h1 : Positive f) (h2 : commaParts f = [f])
    (h3 : f.head? ≠ some '[') : Includes ('~' :: f) t ↔ ¬ Includes f t := by
  have hp : commaParts ('~' :: f) = ['~' :: f] := by
    rw [commaParts_other (by decide) (by decide), h2]; rfl
  have t1 : ¬ IsTagFilter f := by
    rintro (⟨y, hy⟩ | ⟨y, hy⟩)
    · rw [← hy] at h3; simp at h3
    · rw [← hy] at h1; simp [Positive] at h1
  have t2 : ¬ IsTagFilter ('~' :: f) := by
    rintro (⟨y, hy⟩ | ⟨y, hy⟩)
    · simp at hy
    · simp at hy; rw [← hy] at h3; simp at h3
  have c : Accepts ('~' :: f) [t.name] ↔ ¬ ∃ s ∈ [t.name], PatMatches f s := Iff.rfl
  simp only [Includes, View.Includes, hp, h2, List.mem_singleton, exists_eq_left, View.PartIncludes, Test.view, t1, t2, false_and,
    false_or, not_false_eq_true, true_and, accepts_pos h1]
  rw [c]
  simp

/-- **C17**. Likewise for a single tag group, `[...]` up to its closing bracket. -/
theorem C17_partition_tag (f : Text) (t : Test) (h1 : f.head? = some '[') (h2 : commaParts f = [f])
    (h3 : tagGroups f = [f]) : Includes ('~' :: f) t ↔ ¬ Includes f t := by
  have hp : commaParts ('~' :: f) = ['~' :: f] := by
    rw [commaParts_other (by decide) (by decide), h2]; rfl
  have hg : tagGroups ('~' :: f) = ['~' :: f] := by
    rw [tagGroups_other (by decide) (by decide), h3]; rfl
  have hpos : Positive f := by rw [Positive, h1]; decide
  obtain ⟨g, rfl⟩ : ∃ g, f = '[' :: g := by
    cases f with
    | nil => cases h1
    | cons c g => simp at h1; exact ⟨g, by rw [h1]⟩
  have t1 : IsTagFilter ('[' :: g) := .inl ⟨g, rfl⟩
  have t2 : IsTagFilter ('~' :: '[' :: g) := .inr ⟨g, rfl⟩
  have c : Accepts ('~' :: '[' :: g) (visibleTags t.tags) ↔ ¬ ∃ s ∈ visibleTags t.tags, PatMatches ('[' :: g) s := Iff.rfl
  simp only [Includes, View.Includes, hp, h2, List.mem_singleton, exists_eq_left, View.PartIncludes, Test.view, t1, t2,
    not_true, false_and, or_false, true_and, hg, h3, forall_eq, accepts_pos hpos]
  exact c

/-! ## C75 -/

/-- **C75**. What any tag text means. It is cut in two wherever a `[` follows a `]`, and nowhere else; each piece is a tag,
and those that begin with `[.` hide the test and stand for `[.]` and what else they say. It is refused, by the assertion
handler, exactly if it has no bracket of one kind, or a hiding tag that is too long. -/
theorem C75_decode (maxTag : Nat) (s : Text) :
    (Readable maxTag s → ∃ ps, forEachTag maxTag s = .ok ps ∧
      (ps.filterMap fun | .tag t => some t | _ => none) = (written s).flatMap shownPiece ∧
      (ParsedTag.hidden ∈ ps ↔ ∃ p ∈ written s, PieceHides p) ∧
      (ParsedTag.mayFail ∈ ps ↔ "[!mayfail]".toList ∈ (written s).flatMap shownPiece) ∧
      (ParsedTag.shouldFail ∈ ps ↔ "[!shouldfail]".toList ∈ (written s).flatMap shownPiece)) ∧
    (¬ Readable maxTag s → forEachTag maxTag s = .abort) := by
  refine ⟨fun h => ?_, (forEachTag_text maxTag s).2⟩
  obtain ⟨ps, h1, h2⟩ := shows_text h
  rw [(forEachTag_text maxTag s).1 h] at h1
  cases h1
  refine ⟨_, (forEachTag_text maxTag s).1 h, ?_, ?_, ?_, ?_⟩
  · rw [← h2]
    apply congrArg (fun f => List.filterMap f _)
    funext p; cases p <;> rfl
  · simp [hidden_mem_piece]
  · simp only [List.mem_flatMap, mayFail_mem_piece]
  · simp only [List.mem_flatMap, shouldFail_mem_piece]

/-- **C75**. Which tests run, for tests with tag texts of any form that can be read. -/
theorem C75_selection {maxTag : Nat} (maxName : Nat) (filters : List Text) {id : TestId} (h : Readable maxTag id.tags) :
    ∃ b, selectForRun maxTag maxName filters id = .ok b ∧
      (b = true ↔ View.Selected filters (textView (makeFullName maxName id) id.tags)) := by
  refine selection (b := decide (∃ p ∈ written id.tags, PieceHides p)) (shows_text h) ?_ (by simp) filters
  rw [hasHiddenTag, (forEachTag_text maxTag id.tags).1 h]
  simp only [Outcome.bind_ok, Outcome.pure_eq]
  congr 1
  rw [Bool.eq_iff_iff]
  simp [hidden_mem_piece]

/-- **C75**. And what a filter argument says about them. -/
theorem C75_filter {maxTag : Nat} {tags : Text} (h : Readable maxTag tags) (name filter : Text) :
    ∃ r, matchId maxTag name tags filter = .ok r ∧
      (r.included = true ↔ View.Includes filter (textView name tags)) ∧
      (r.included = true ∧ r.implicit = false ↔ View.IncludesExplicitly filter (textView name tags)) := by
  obtain ⟨r, e, v⟩ := matchId_verdict (hidden := ∃ p ∈ written tags, PieceHides p) (shows_text h) name filter
  refine ⟨r, e, v.1, ?_⟩
  constructor
  · rintro ⟨a, b⟩; exact (v.2 (v.1.mp a)).mp b
  · intro hx
    have hi : View.Includes filter (textView name tags) := by
      obtain ⟨p, hp, hx⟩ := hx; exact ⟨p, hp, hx.1⟩
    exact ⟨v.1.mpr hi, (v.2 hi).mpr hx⟩

/-- **C75**. A test whose tag text cannot be read is never selected, and never passed over: without filters the run ends
in the assertion handler at this test. -/
theorem C75_refused {maxTag : Nat} (maxName : Nat) {id : TestId} (h : ¬ Readable maxTag id.tags) :
    selectForRun maxTag maxName [] id = .abort := by
  rw [selectForRun, if_pos (by rfl), selectDefault, hasHiddenTag, (forEachTag_text maxTag id.tags).2 h]
  rfl

/-- **C75**. Nothing of the text is lost or changed by cutting. -/
theorem C75_whole : ∀ s : Text, (cutTags s).flatten = s
  | [] => rfl
  | [c] => rfl
  | c :: d :: s => by
    have ih := C75_whole (d :: s)
    have hm : ∀ l : List Text, l ≠ [] → (l.modifyHead (c :: ·)).flatten = c :: l.flatten := by
      intro l hl; cases l <;> simp_all
    rw [cutTags]
    split
    · simp [ih]
    · rw [hm _ (cutTags_ne _), ih]

/-- **C75**. For a text made of tags in brackets these are the tags written (C13). -/
theorem C75_tags {ts : List Text} (h : ∀ t ∈ ts, TagOk t) : written (tagString ts) = ts.map bracket := by
  have h1 := rawTags_tagString ts h
  rw [rawTags_eq] at h1
  split at h1
  · exact Outcome.ok.inj h1
  · cases h1

/-- Texts that are not made of tags in brackets are mostly not refused: these are single tags, which no `[a]` matches. -/
example : written "[a] [b]".toList = ["[a] [b]".toList] ∧ written "a[x]b".toList = ["a[x]b".toList] ∧
    written "][x]".toList = ["[x]".toList] ∧ Readable 256 "[a] [b]".toList ∧
    selectForRun 256 1024 ["[a]".toList] ⟨"t".toList, "[a] [b]".toList, []⟩ = .ok false ∧
    selectForRun 256 1024 ["[a]".toList] ⟨"t".toList, "[a][b]".toList, []⟩ = .ok true := by
  refine ⟨by decide, by decide, by decide, .inr ⟨by decide, by decide, ?_⟩, by rfl, by rfl⟩
  decide
example : ¬ Readable 256 "slow".toList ∧ ¬ Readable 5 "[.slow]".toList ∧ Readable 6 "[.slow]".toList := by
  refine ⟨?_, ?_, .inr ⟨by decide, by decide, by decide⟩⟩
  · rintro (h | h)
    · cases h
    · exact absurd h.1 (by decide)
  · rintro (h | h)
    · cases h
    · exact absurd (h.2.2 "[.slow]".toList (by decide) (by decide) (by decide)) (by decide)
example : "[a]".toList.head? = some '[' ∧ commaParts "[a*]".toList = ["[a*]".toList] ∧
    tagGroups "[a*]".toList = ["[a*]".toList] := by decide

/-! ### Non-vacuity -/

private def demoTags : List Text := ["fast".toList, ".slow".toList, "!mayfail".toList]

example : (∀ t ∈ demoTags, TagOk t) ∧ (∀ t ∈ demoTags, Hides t → t.length < 256) := by
  simp only [demoTags, TagOk]; decide
example : tagString demoTags = "[fast][.slow][!mayfail]".toList := by decide
example : visibleTags demoTags
    = ["[fast]".toList, "[.]".toList, "[slow]".toList, "[!mayfail]".toList] := by decide
example : selectForRun 256 1024 ["[slow]".toList, "~other*".toList]
    ⟨"my test".toList, tagString demoTags, "int".toList⟩ = .ok true := by rfl
example : selectForRun 256 1024 ["~other*".toList]
    ⟨"my test".toList, tagString demoTags, "int".toList⟩ = .ok false := by rfl
example : commaParts "a\\,b,[x][y],c".toList
    = ["a\\,b".toList, "[x][y]".toList, "c".toList] := by rfl
example : tagGroups "[x]~[y]".toList = ["[x]".toList, "~[y]".toList] := by rfl
example : Positive "my*".toList ∧ commaParts "my*".toList = ["my*".toList] ∧
    ("my*".toList).head? ≠ some '[' := by
  refine ⟨by simp [Positive], rfl, by decide⟩

end Verif.Props
