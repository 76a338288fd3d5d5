import Verif.Model.Xml
import Verif.Lemmas.Reporter
/-!
# Lemmas about escaping in the XML report, and about reading XML
-/
namespace Verif.Report.Xml
open Verif Verif.Report Verif.Report.Spec

theorem stages_eq : stages = [('&', "&amp;".toList), ('"', "&quot;".toList), ('\'', "&apos;".toList),
    ('<', "&lt;".toList), ('>', "&gt;".toList)].map (fun p => ([p.1], p.2)) := by decide

theorem allStages_entity (s : Text) :
    allStages [('&', "&amp;".toList), ('"', "&quot;".toList), ('\'', "&apos;".toList),
      ('<', "&lt;".toList), ('>', "&gt;".toList)] s = s.flatMap entity := by
  rw [allStages_flatMap]
  congr 1
  funext c
  unfold entity
  by_cases h1 : c = '&'
  · subst h1; decide
  by_cases h2 : c = '"'
  · subst h2; decide
  by_cases h3 : c = '\''
  · subst h3; decide
  by_cases h4 : c = '<'
  · subst h4; decide
  by_cases h5 : c = '>'
  · subst h5; decide
  simp [allStages, Verif.Spec.escaped, h1, h2, h3, h4, h5]

theorem length_entities (s : Text) : s.length ≤ (s.flatMap entity).length := by
  rw [← allStages_entity]
  exact allStages_length _ (by decide) s

theorem escapeStages_entity {cap : Nat} (hcap : cap + 3 < 2 ^ 64) {v : Str} {s : Text}
    (hv : v.Holds cap s) (h : (s.flatMap entity).length ≤ cap) :
    ∃ v', escapeStages stages v = .ok (v', true) ∧ v'.Holds cap (s.flatMap entity) := by
  rw [← allStages_entity] at h
  obtain ⟨v', e, hv'⟩ := escapeStages_fit hcap _ (by decide) hv h
  exact ⟨v', by rw [stages_eq]; exact e, by rw [← allStages_entity]; exact hv'⟩

theorem makeEscaped_eq {cap : Nat} (hcap : cap + 3 < 2 ^ 64) {s : Text}
    (h : (s.flatMap entity).length ≤ cap) : makeEscaped cap s = .ok (s.flatMap entity) := by
  have hl := length_entities s
  obtain ⟨v, e, hv⟩ := Util.appendOrTruncate_holds false (SV.holds_empty cap ' ') hcap [s]
  have hs : [s].flatten = s := by simp
  rw [hs] at hv e
  rw [if_pos (by simp; omega), List.nil_append] at hv
  obtain ⟨v', e', hv'⟩ := escapeStages_entity hcap hv h
  unfold makeEscaped
  rw [e, Outcome.bind_ok]
  dsimp only
  rw [e', Outcome.bind_ok]
  dsimp only
  rw [hv'.contents]; rfl

theorem fullName_flatten (id : Id) :
    (if id.type.length ≠ 0 then [id.name, " <".toList, id.type, ">".toList] else [id.name]).flatten =
      Spec.fullName id := by
  unfold Spec.fullName
  by_cases h : id.type = []
  · simp [h]
  · simp [h]

theorem makeFullName_eq {lim : Limits} (hcap : lim.name + 3 < 2 ^ 64) {id : Id}
    (h : ((Spec.fullName id).flatMap entity).length ≤ lim.name) :
    makeFullName lim id = .ok ((Spec.fullName id).flatMap entity) := by
  have hl := length_entities (Spec.fullName id)
  obtain ⟨v, e, hv⟩ := Append.variadic_holds false (show lim.name < sizeT by rw [sizeT_eq]; omega)
    (if id.type.length ≠ 0 then [id.name, " <".toList, id.type, ">".toList] else [id.name])
    (SV.holds_empty lim.name ' ')
  rw [fullName_flatten] at hv
  rw [Verif.Spec.fill, List.nil_append, List.take_of_length_le (by omega)] at hv
  obtain ⟨v', e', hv'⟩ := escapeStages_entity hcap hv h
  unfold makeFullName Report.fullName
  rw [e, Outcome.bind_ok]
  dsimp only
  simp only [Outcome.pure_eq, Outcome.bind_ok]
  rw [e', Outcome.bind_ok]
  dsimp only
  rw [hv'.contents]

/-- The filters after the first. -/
def moreFilters (fs : List Text) : Text := fs.flatMap fun f => ' ' :: '"' :: f ++ ['"']

theorem quoted_cons (f : Text) (fs : List Text) : quoted (f :: fs) = '"' :: f ++ ['"'] ++ moreFilters fs := by
  induction fs generalizing f with
  | nil => simp [quoted, moreFilters]
  | cons g fs ih => simp [quoted, ih g, moreFilters]

theorem filtersLoop_more {cap : Nat} (hcap : cap + 3 < 2 ^ 64) (fs : List Text) : ∀ {v : Str} {l : Text},
    v.Holds cap l → (l ++ moreFilters fs).length ≤ cap →
    ∃ v', filtersLoop fs false v = .ok v' ∧ v'.Holds cap (l ++ moreFilters fs) := by
  induction fs with
  | nil => intro v l hv _; exact ⟨v, rfl, by simpa [moreFilters] using hv⟩
  | cons f fs ih =>
    intro v l hv h
    obtain ⟨v1, e1, hv1⟩ := Util.appendOrTruncate_holds false hv hcap [" \"".toList, f, "\"".toList]
    have hm : moreFilters (f :: fs) = [" \"".toList, f, "\"".toList].flatten ++ moreFilters fs := by
      simp [moreFilters]
    rw [hm, ← List.append_assoc] at h ⊢
    rw [if_pos (by simp only [List.length_append] at h; omega)] at hv1
    obtain ⟨v2, e2, hv2⟩ := ih hv1 h
    refine ⟨v2, ?_, hv2⟩
    unfold filtersLoop
    simp only [Bool.false_eq_true, if_false]
    rw [e1, Outcome.bind_ok]
    exact e2

theorem makeFilters_eq {lim : Limits} (hcap : lim.message + 3 < 2 ^ 64) {fs : List Text}
    (h : ((quoted fs).flatMap entity).length ≤ lim.message) :
    makeFilters lim fs = .ok ((quoted fs).flatMap entity) := by
  have hl := length_entities (quoted fs)
  have key : ∃ v, filtersLoop fs true (SV.empty lim.message ' ') = .ok v ∧
      v.Holds lim.message (quoted fs) := by
    cases fs with
    | nil => exact ⟨_, rfl, SV.holds_empty _ _⟩
    | cons f fs =>
      obtain ⟨v1, e1, hv1⟩ := Util.appendOrTruncate_holds false (SV.holds_empty lim.message ' ') hcap
        ["\"".toList, f, "\"".toList]
      have hq : quoted (f :: fs) = ["\"".toList, f, "\"".toList].flatten ++ moreFilters fs := by
        rw [quoted_cons]; simp
      rw [hq] at hl ⊢
      rw [hq] at h
      rw [if_pos (by simp only [List.length_append, List.length_nil] at *; omega), List.nil_append] at hv1
      obtain ⟨v2, e2, hv2⟩ := filtersLoop_more hcap fs hv1 (by omega)
      refine ⟨v2, ?_, hv2⟩
      unfold filtersLoop
      simp only [if_true]
      rw [e1, Outcome.bind_ok]
      exact e2
  obtain ⟨v, e, hv⟩ := key
  obtain ⟨v', e', hv'⟩ := escapeStages_entity hcap hv h
  unfold makeFilters
  rw [e, Outcome.bind_ok, e', Outcome.bind_ok]
  dsimp only
  rw [hv'.contents]; rfl

/-! ## Reading -/

theorem feed_append (a b : Text) : ∀ r : Reader, feed r (a ++ b) = (feed r a).bind (feed · b) := by
  induction a with
  | nil => intro r; rfl
  | cons c a ih =>
    intro r
    simp only [List.cons_append, feed]
    cases step r c with
    | none => rfl
    | some r' => exact ih r'

/-- Reading on. -/
theorem feed_trans {r r' : Reader} {a b : Text} (h : feed r a = some r') :
    feed r (a ++ b) = feed r' b := by rw [feed_append, h]; rfl

/-- `raw` is read as the text `s`. -/
def TextReads (raw s : Text) : Prop := ∀ stack nodes t,
  feed ⟨stack, nodes, .content t⟩ raw = some ⟨stack, nodes, .content (t ++ s)⟩

/-- `raw` is read as `s` in an attribute. -/
def AttrReads (raw s : Text) : Prop := ∀ stack nodes name attrs k v,
  feed ⟨stack, nodes, .value name attrs k v⟩ raw = some ⟨stack, nodes, .value name attrs k (v ++ s)⟩

theorem TextReads.append {a b s t : Text} (h1 : TextReads a s) (h2 : TextReads b t) :
    TextReads (a ++ b) (s ++ t) := by
  intro stack nodes u
  rw [feed_trans (h1 stack nodes u), h2, List.append_assoc]

theorem AttrReads.append {a b s t : Text} (h1 : AttrReads a s) (h2 : AttrReads b t) :
    AttrReads (a ++ b) (s ++ t) := by
  intro stack nodes name attrs k u
  rw [feed_trans (h1 stack nodes name attrs k u), h2, List.append_assoc]

theorem textReads_nil : TextReads [] [] := by intro stack nodes t; simp [feed]
theorem attrReads_nil : AttrReads [] [] := by intro stack nodes name attrs k v; simp [feed]

theorem textReads_char {c : Char} (hl : legal c = true) (h1 : c ≠ '<') (h2 : c ≠ '&') (h3 : c ≠ '>') :
    TextReads [c] [c] := by
  intro stack nodes t
  simp [feed, step, hl, h1, h2, h3]

theorem attrReads_char {c : Char} (hl : legal c = true) (h1 : c ≠ '<') (h2 : c ≠ '&') (h3 : c ≠ '"') :
    AttrReads [c] [attrChar c] := by
  intro stack nodes name attrs k v
  simp [feed, step, hl, h1, h2, h3]

theorem textReads_entity {c : Char} (hl : legal c = true) : TextReads (entity c) [c] := by
  unfold entity
  repeat' split
  all_goals first
    | (apply textReads_char <;> assumption)
    | (subst_vars; intro stack nodes t; simp [feed, step, entityChar])

theorem attrReads_entity {c : Char} (hl : legal c = true) : AttrReads (entity c) [attrChar c] := by
  unfold entity
  repeat' split
  all_goals first
    | (apply attrReads_char <;> assumption)
    | (subst_vars; intro stack nodes name attrs k v; simp [feed, step, entityChar, attrChar, blank])

theorem textReads_entities {s : Text} (h : s.all legal = true) : TextReads (s.flatMap entity) s := by
  induction s with
  | nil => exact textReads_nil
  | cons c s ih =>
    simp only [List.all_cons, Bool.and_eq_true] at h
    exact (textReads_entity h.1).append (ih h.2)

theorem attrReads_entities {s : Text} (h : s.all legal = true) : AttrReads (s.flatMap entity) (attr s) := by
  induction s with
  | nil => exact attrReads_nil
  | cons c s ih =>
    simp only [List.all_cons, Bool.and_eq_true] at h
    exact (attrReads_entity h.1).append (ih h.2)

theorem textReads_plain {s : Text} (h : Plain s) : TextReads s s := by
  unfold Plain at h
  induction s with
  | nil => exact textReads_nil
  | cons c s ih =>
    simp only [List.all_cons, Bool.and_eq_true, decide_eq_true_eq] at h
    exact (textReads_char h.1.1.1.1.1 h.1.1.1.1.2 h.1.1.2 h.1.1.1.2).append (ih h.2)

theorem attrReads_plain {s : Text} (h : Plain s) : AttrReads s (attr s) := by
  unfold Plain at h
  induction s with
  | nil => exact attrReads_nil
  | cons c s ih =>
    simp only [List.all_cons, Bool.and_eq_true, decide_eq_true_eq] at h
    exact (attrReads_char h.1.1.1.1.1 h.1.1.1.1.2 h.1.1.2 h.1.2).append (ih h.2)

theorem attrReads_self {s : Text} (h : Plain s) (h' : s.all (fun c => !blank c || c = ' ') = true) :
    AttrReads s s := by
  have := attrReads_plain h
  have e : attr s = s := by
    unfold attr
    rw [List.all_eq_true] at h'
    conv => rhs; rw [← List.map_id s]
    apply List.map_congr_left
    intro c hc
    have := h' c hc
    unfold attrChar
    split
    · rename_i hb; simp [hb] at this; simp [this]
    · rfl
  rwa [e] at this

theorem decimal_isDigit {n : Nat} {c : Char} (h : c ∈ decimal n) : c.isDigit = true :=
  Nat.isDigit_of_mem_toDigits (by omega) (by omega) h

theorem digit_plain {c : Char} (h : c.isDigit = true) :
    (legal c && c ≠ '<' && c ≠ '>' && c ≠ '&' && c ≠ '"') = true ∧ (!blank c || c = ' ') = true := by
  simp only [Char.isDigit, Bool.and_eq_true, decide_eq_true_eq] at h
  have h1 : 48 ≤ c.toNat := h.1
  have h2 : c.toNat ≤ 57 := h.2
  have ne : ∀ d : Char, (d.toNat < 48 ∨ 57 < d.toNat) → c ≠ d := by
    intro d hd e; subst e; omega
  have a1 := ne '<' (by decide); have a2 := ne '>' (by decide); have a3 := ne '&' (by decide)
  have a4 := ne '"' (by decide); have a5 := ne ' ' (by decide); have a6 := ne '\n' (by decide)
  have a7 := ne '\t' (by decide)
  simp [legal, blank, *]; omega

theorem attrReads_decimal (n : Nat) : AttrReads (decimal n) (decimal n) := by
  refine attrReads_self ?_ ?_
  · unfold Plain; rw [List.all_eq_true]; intro c hc; exact (digit_plain (decimal_isDigit hc)).1
  · rw [List.all_eq_true]; intro c hc; exact (digit_plain (decimal_isDigit hc)).2

theorem textReads_decimal (n : Nat) : TextReads (decimal n) (decimal n) := by
  refine textReads_plain ?_
  unfold Plain; rw [List.all_eq_true]; intro c hc; exact (digit_plain (decimal_isDigit hc)).1

/-! ## White space -/

theorem dropWhile_all {a : Text} (h : a.all blank = true) : a.dropWhile blank = [] := by
  induction a with
  | nil => rfl
  | cons c a ih =>
    simp only [List.all_cons, Bool.and_eq_true] at h
    rw [List.dropWhile_cons, if_pos h.1, ih h.2]

theorem trim_blanks {a p b : Text} (ha : a.all blank = true) (hb : b.all blank = true) :
    trim (a ++ p ++ b) = trim p := by
  have hd : ∀ {a q : Text}, a.all blank = true → (a ++ q).dropWhile blank = q.dropWhile blank := by
    intro a q h
    rw [List.dropWhile_append]
    rw [if_pos]
    rw [List.isEmpty_iff, dropWhile_all h]
  unfold trim
  rw [List.append_assoc, hd ha]
  by_cases hp : (p.dropWhile blank).isEmpty = true
  · rw [List.dropWhile_append, if_pos hp]
    rw [List.isEmpty_iff] at hp
    rw [hp]
    rw [dropWhile_all hb]
  · rw [List.dropWhile_append, if_neg hp, List.reverse_append, hd (by simpa using hb)]

theorem textNode_blanks {a p b : Text} (ha : a.all blank = true) (hb : b.all blank = true) :
    textNode (a ++ p ++ b) = textNode p := by
  unfold textNode; rw [trim_blanks ha hb]

theorem blank_legal {s : Text} (h : s.all blank = true) : TextReads s s := by
  refine textReads_plain ?_
  unfold Plain; rw [List.all_eq_true] at h ⊢
  intro c hc
  have := h c hc
  simp only [blank, Bool.or_eq_true, decide_eq_true_eq] at this
  rcases this with (rfl | rfl) | rfl <;> decide

/-! ## Tags -/

/-- A name. -/
def NameOk (s : Text) : Prop := s ≠ [] ∧ s.all nameChar = true

instance (s : Text) : Decidable (NameOk s) := by unfold NameOk; exact inferInstance

theorem nameChar_ne {c : Char} (h : nameChar c = true) :
    c ≠ '/' ∧ c ≠ '>' ∧ c ≠ ' ' ∧ c ≠ '=' := by
  refine ⟨?_, ?_, ?_, ?_⟩ <;> (intro e; subst e; revert h; decide)

theorem feed_startTag {stack : List Pending} {nodes : List Node} (s : Text) : ∀ name : Text,
    s.all nameChar = true →
    feed ⟨stack, nodes, .startTag name⟩ s = some ⟨stack, nodes, .startTag (name ++ s)⟩ := by
  induction s with
  | nil => intro name _; simp [feed]
  | cons c s ih =>
    intro name h
    simp only [List.all_cons, Bool.and_eq_true] at h
    obtain ⟨h1, h2, h3, h4⟩ := nameChar_ne h.1
    simp [feed, step, h1, h2, h3, h.1, ih _ h.2]

theorem feed_endTag {stack : List Pending} {nodes : List Node} (s : Text) : ∀ name : Text,
    s.all nameChar = true →
    feed ⟨stack, nodes, .endTag name⟩ s = some ⟨stack, nodes, .endTag (name ++ s)⟩ := by
  induction s with
  | nil => intro name _; simp [feed]
  | cons c s ih =>
    intro name h
    simp only [List.all_cons, Bool.and_eq_true] at h
    obtain ⟨h1, h2, h3, h4⟩ := nameChar_ne h.1
    simp [feed, step, h2, h.1, ih _ h.2]

theorem feed_key {stack : List Pending} {nodes : List Node} {name : Text} {attrs : List (Text × Text)}
    (s : Text) : ∀ k : Text, s.all nameChar = true →
    feed ⟨stack, nodes, .key name attrs k⟩ s = some ⟨stack, nodes, .key name attrs (k ++ s)⟩ := by
  induction s with
  | nil => intro name _; simp [feed]
  | cons c s ih =>
    intro name h
    simp only [List.all_cons, Bool.and_eq_true] at h
    obtain ⟨h1, h2, h3, h4⟩ := nameChar_ne h.1
    simp [feed, step, h4, h.1, ih _ h.2]

/-- A start tag up to its attributes. -/
theorem feed_name {stack : List Pending} {nodes : List Node} {t name : Text} (h : NameOk name) :
    feed ⟨stack, nodes, .content t⟩ ('<' :: name) =
      some ⟨stack, nodes ++ textNode t, .startTag name⟩ := by
  obtain ⟨hne, hall⟩ := h
  cases name with
  | nil => exact absurd rfl hne
  | cons c s =>
    simp only [List.all_cons, Bool.and_eq_true] at hall
    obtain ⟨h1, h2, h3, h4⟩ := nameChar_ne hall.1
    simp [feed, step, h1, hall.1, feed_startTag s _ hall.2]

/-- One attribute. -/
def attrText (a : Text × Text) : Text := ' ' :: a.1 ++ ['=', '"'] ++ a.2 ++ ['"']

/-- After a name or the value of an attribute. -/
def AfterTag (m : Mode) (name : Text) (attrs : List (Text × Text)) : Prop :=
  (m = .startTag name ∧ attrs = []) ∨ m = .endValue name attrs

theorem feed_attr {stack : List Pending} {nodes : List Node} {m : Mode} {name : Text}
    {attrs : List (Text × Text)} (hm : AfterTag m name attrs) {k raw v : Text} (hk : NameOk k)
    (hv : AttrReads raw v) (hnew : attrs.any (·.1 = k) = false) :
    feed ⟨stack, nodes, m⟩ (attrText (k, raw)) =
      some ⟨stack, nodes, .endValue name (attrs ++ [(k, v)])⟩ := by
  obtain ⟨hne, hall⟩ := hk
  cases k with
  | nil => exact absurd rfl hne
  | cons c s =>
    simp only [List.all_cons, Bool.and_eq_true] at hall
    obtain ⟨h1, h2, h3, h4⟩ := nameChar_ne hall.1
    have e1 : feed ⟨stack, nodes, m⟩ [' '] = some ⟨stack, nodes, .space name attrs⟩ := by
      rcases hm with ⟨rfl, rfl⟩ | rfl <;> simp [feed, step]
    have e2 : feed ⟨stack, nodes, .space name attrs⟩ [c] = some ⟨stack, nodes, .key name attrs [c]⟩ := by
      simp [feed, step, hall.1]
    have e3 : feed ⟨stack, nodes, .key name attrs ([c] ++ s)⟩ ['=', '"'] =
        some ⟨stack, nodes, .value name attrs (c :: s) []⟩ := by simp [feed, step]
    have e4 : feed ⟨stack, nodes, .value name attrs (c :: s) ([] ++ v)⟩ ['"'] =
        some ⟨stack, nodes, .endValue name (attrs ++ [(c :: s, v)])⟩ := by
      simp only [feed, step, if_true, hnew]
      rfl
    have et : attrText (c :: s, raw) = [' '] ++ ([c] ++ (s ++ (['=', '"'] ++ (raw ++ ['"'])))) := by
      simp [attrText]
    rw [et, feed_trans e1, feed_trans e2, feed_trans (feed_key s _ hall.2), feed_trans e3,
      feed_trans (hv stack nodes name attrs (c :: s) []), e4]

/-- Attributes as printed, and as read. -/
inductive AttrsRead : List (Text × Text) → List (Text × Text) → Prop where
  | nil : AttrsRead [] []
  | cons {k raw v as bs} : NameOk k → AttrReads raw v → AttrsRead as bs →
      AttrsRead ((k, raw) :: as) ((k, v) :: bs)

theorem AttrsRead.append {a b c d : List (Text × Text)} (h1 : AttrsRead a b) (h2 : AttrsRead c d) :
    AttrsRead (a ++ c) (b ++ d) := by
  induction h1 with
  | nil => exact h2
  | cons hk hv _ ih => exact .cons hk hv ih

theorem feed_attrs {stack : List Pending} {nodes : List Node} {name : Text}
    {as bs : List (Text × Text)} (h : AttrsRead as bs) : ∀ {m : Mode} {attrs : List (Text × Text)},
    AfterTag m name attrs → ((attrs ++ bs).map (·.1)).Nodup →
    ∃ m', feed ⟨stack, nodes, m⟩ (as.flatMap attrText) = some ⟨stack, nodes, m'⟩ ∧
      AfterTag m' name (attrs ++ bs) := by
  induction h with
  | nil => intro m attrs hm _; exact ⟨m, rfl, by simpa using hm⟩
  | @cons k raw v as bs hk hv _ ih =>
    intro m attrs hm hnd
    have hnew : attrs.any (·.1 = k) = false := by
      rw [List.any_eq_false]
      intro x hx he
      simp only [decide_eq_true_eq] at he
      rw [List.map_append, List.nodup_append] at hnd
      exact hnd.2.2 x.1 (List.mem_map_of_mem hx) k (by simp) he
    have e := feed_attr (stack := stack) (nodes := nodes) hm hk hv hnew
    obtain ⟨m', e', hm'⟩ := ih (m := .endValue name (attrs ++ [(k, v)])) (attrs := attrs ++ [(k, v)])
      (Or.inr rfl) (by simpa using hnd)
    refine ⟨m', ?_, by simpa using hm'⟩
    rw [List.flatMap_cons, feed_trans e, e']

theorem feed_open {stack : List Pending} {nodes : List Node} {t name : Text}
    {as bs : List (Text × Text)} (hn : NameOk name) (h : AttrsRead as bs) (hnd : (bs.map (·.1)).Nodup) :
    feed ⟨stack, nodes, .content t⟩ ('<' :: name ++ as.flatMap attrText ++ ['>']) =
      some ⟨⟨name, bs, nodes ++ textNode t⟩ :: stack, [], .content []⟩ := by
  obtain ⟨m', e', hm'⟩ := feed_attrs (stack := stack) (nodes := nodes ++ textNode t) h
    (m := .startTag name) (name := name) (attrs := []) (Or.inl ⟨rfl, rfl⟩) hnd
  rw [List.append_assoc, feed_trans (feed_name hn), feed_trans e']
  rcases hm' with ⟨rfl, h0⟩ | rfl
  · simp at h0; simp [feed, step, h0]
  · simp [feed, step]

theorem feed_empty {stack : List Pending} {nodes : List Node} {t name : Text}
    {as bs : List (Text × Text)} (hn : NameOk name) (h : AttrsRead as bs) (hnd : (bs.map (·.1)).Nodup) :
    feed ⟨stack, nodes, .content t⟩ ('<' :: name ++ as.flatMap attrText ++ ['/', '>']) =
      some ⟨stack, nodes ++ textNode t ++ [.elem name bs []], .content []⟩ := by
  obtain ⟨m', e', hm'⟩ := feed_attrs (stack := stack) (nodes := nodes ++ textNode t) h
    (m := .startTag name) (name := name) (attrs := []) (Or.inl ⟨rfl, rfl⟩) hnd
  rw [List.append_assoc, feed_trans (feed_name hn), feed_trans e']
  rcases hm' with ⟨rfl, h0⟩ | rfl
  · simp at h0; simp [feed, step, h0]
  · simp [feed, step]

theorem feed_close {p : Pending} {stack : List Pending} {nodes : List Node} {t : Text} (hn : NameOk p.name) :
    feed ⟨p :: stack, nodes, .content t⟩ ('<' :: '/' :: p.name ++ ['>']) =
      some ⟨stack, p.before ++ [.elem p.name p.attrs (nodes ++ textNode t)], .content []⟩ := by
  have e1 : feed ⟨p :: stack, nodes, .content t⟩ ['<', '/'] =
      some ⟨p :: stack, nodes ++ textNode t, .endTag []⟩ := by simp [feed, step]
  rw [show '<' :: '/' :: p.name ++ ['>'] = ['<', '/'] ++ (p.name ++ ['>']) by simp, feed_trans e1,
    feed_trans (feed_endTag p.name [] hn.2)]
  simp [feed, step]

end Verif.Report.Xml
