import Verif.Spec.Value
import Verif.Props.Append
import Verif.Model.Expression
/-!
# C71: how values are shown
-/
namespace Verif.Props
open Verif Verif.Spec Verif.Value Verif.Value.Spec

/-! ### Which overload is called -/

private theorem resolve_bool : resolve (.plain (.arith .bool)) = some .bool := rfl

private theorem resolve_integer (t : IntTy) : resolve (.plain (.arith (.integer t))) =
    some (if t.large then (if t.signed then .largeInt else .largeUint) else if t.signed then .signed else .unsigned) := by
  obtain ⟨s, n, l⟩ := t
  cases s <;> cases l <;> rfl

private theorem resolve_enumeration (sc : Bool) (a : Arith) : resolve (.plain (.enumeration sc a)) = some .enumeration := by
  cases sc
  · cases a with
    | bool => rfl
    | integer t =>
      obtain ⟨s, n, l⟩ := t
      cases s <;> cases l <;> rfl
  · cases a <;> rfl

private theorem toLargeInt_eq {i : Int} (h : -2 ^ 63 ≤ i) (h' : i < 2 ^ 63) : toLargeInt i = i := by
  unfold toLargeInt
  rw [Int.bmod_def]
  split <;> omega

private theorem toLargeUint_eq {i : Int} (h : 0 ≤ i) (h' : i < 2 ^ 64) : toLargeUint i = i.natAbs := by
  unfold toLargeUint
  rw [Int.emod_eq_of_lt h (by simpa using h')]
  omega

/-! ### The printers of a build -/

private theorem uint_appended {b : Build} (hb : Proper b) (ce : Bool) {i : Nat} (hi : i < 2 ^ 64) (v : Str)
    (hv : v.size ≤ v.capacity) (hcap : v.capacity < 2 ^ 64) :
    ∃ t, IsNumeral 10 i t ∧ Appended v t (appendUint b ce v i) := by
  unfold appendUint
  cases ce
  · rcases hb.2 with ⟨hu, -, -⟩ | ⟨u, s, h, gu, gh, gs, h1, -, -, hu, -, -⟩
    · simpa [hu] using C04_unsigned 10 (by omega) (by omega) i hi v hv hcap
    · exact ⟨u i, h1 i, by
        simpa [hu] using C04_unsigned_runtime 10 (by omega) (by omega) i hi (u i) (gu i) (h1 i) v hv hcap⟩
  · simpa using C04_unsigned 10 (by omega) (by omega) i hi v hv hcap

private theorem int_appended {b : Build} (hb : Proper b) (ce : Bool) {i : Int} (hlo : -(2 ^ 63) ≤ i) (hhi : i < 2 ^ 63)
    (v : Str) (hv : v.size ≤ v.capacity) (hcap : v.capacity < 2 ^ 64) :
    ∃ t, IsIntNumeral 10 i t ∧ Appended v t (appendInt b ce v i) := by
  unfold appendInt
  cases ce
  · rcases hb.2 with ⟨-, hu, -⟩ | ⟨u, s, h, gu, gh, gs, -, h1, -, -, hu, -⟩
    · simpa [hu] using C05_signed 10 (by omega) (by omega) i hlo hhi v hv hcap
    · exact ⟨s i, h1 i, by
        simpa [hu] using C05_signed_runtime 10 (by omega) (by omega) i hlo hhi (s i) (gs i) (h1 i) v hv hcap⟩
  · simpa using C05_signed 10 (by omega) (by omega) i hlo hhi v hv hcap

private theorem hex_prints {b : Build} (hb : Proper b) : PrintsHex b.hex := by
  rcases hb.2 with ⟨-, -, hu⟩ | ⟨u, s, h, gu, gh, gs, -, -, h1, -, -, hu⟩
  · exact .inl hu
  · exact .inr ⟨h, gh, h1, hu⟩

private theorem void_appended {b : Build} (hb : Proper b) (ce : Bool) {addr : Nat} (ha : addr < 256 ^ b.psize) (v : Str)
    (hv : v.size ≤ v.capacity) (hcap : v.capacity < 2 ^ 64) :
    ∃ t, IsAddress b.psize ce addr t ∧ Appended v t (appendVoid b ce v addr) := by
  unfold appendVoid IsAddress
  cases ce
  · obtain ⟨h1, h2⟩ := C06_pointer b.hex (hex_prints hb) b.psize hb.1 addr ha v hv hcap
    by_cases h0 : addr = 0
    · exact ⟨_, by rw [if_pos h0], by simpa using h1 h0⟩
    · obtain ⟨ds, hl, hr, happ⟩ := h2 h0
      exact ⟨'0' :: 'x' :: ds, by rw [if_neg h0]; exact ⟨ds, rfl, hl, hr⟩, by simpa using happ⟩
  · have := C06_pointer_constexpr addr v hv hcap
    by_cases h0 : addr = 0
    · exact ⟨_, by rw [if_pos h0], by simpa [h0] using this⟩
    · exact ⟨"0x????????".toList, by rw [if_neg h0]; rfl, by simpa [h0] using this⟩

private theorem bool_appended (ce : Bool) (x : Bool) (v : Str) (hv : v.size ≤ v.capacity) (hcap : v.capacity < 2 ^ 64) :
    Appended v (truthText x) (Append.bool ce v x) :=
  C02_append_text ce v hv hcap _

/-- The overloads that can be chosen for an arithmetic value. -/
private def Chosen : Arith → Candidate → Prop
  | .bool, c => c = .bool
  | .integer t, c => if t.signed then c = .signed ∨ c = .largeInt else c = .unsigned ∨ c = .largeUint

/-- Arithmetic values, by any of the overloads that can be chosen for them. -/
private theorem arith_appended {b : Build} (hb : Proper b) (ce : Bool) (a : Arith) (x : a.Val) (hn : Narrow a) {c : Candidate}
    (hc : Chosen a c)
    (v : Str) (hv : v.size ≤ v.capacity) (hcap : v.capacity < 2 ^ 64) :
    ∃ t, ShowsArith a x t ∧ Appended v t (callArith b ce v a x c) := by
  cases a with
  | bool =>
    obtain rfl : c = .bool := hc
    refine ⟨truthText x, rfl, ?_⟩
    have : (decide (Arith.number .bool x ≠ 0)) = (show Bool from x) := by
      rcases hx : (show Bool from x) <;> simp [Arith.number]
    show Appended v (truthText x) (Append.bool ce v (decide (Arith.number .bool x ≠ 0)))
    rw [this]
    exact bool_appended ce x v hv hcap
  | integer t =>
    obtain ⟨i, hx⟩ := x
    simp only [Narrow] at hn
    have hi := hx
    unfold IntTy.Holds at hi
    replace hc : if t.signed then c = .signed ∨ c = .largeInt else c = .unsigned ∨ c = .largeUint := hc
    cases hs : t.signed with
    | true =>
      rw [hs] at hi hc
      simp only [if_true] at hi hc
      have hp : (2 : Int) ^ (t.bits - 1) ≤ 2 ^ 63 := by
        have := Nat.pow_le_pow_right (n := 2) (by omega) (show t.bits - 1 ≤ 63 by omega)
        exact_mod_cast this
      have he : toLargeInt i = i := toLargeInt_eq (by omega) (by omega)
      obtain ⟨u, h1, h2⟩ := int_appended hb ce (i := i) (by omega) (by omega) v hv hcap
      refine ⟨u, h1, ?_⟩
      rcases hc with rfl | rfl <;> simpa [callArith, Arith.number, he] using h2
    | false =>
      rw [hs] at hi hc
      simp only [Bool.false_eq_true, if_false] at hi hc
      have hp : (2 : Int) ^ t.bits ≤ 2 ^ 64 := by
        have := Nat.pow_le_pow_right (n := 2) (by omega) hn
        exact_mod_cast this
      have he : toLargeUint i = i.natAbs := toLargeUint_eq hi.1 (by omega)
      obtain ⟨u, h1, h2⟩ := uint_appended hb ce (i := i.natAbs) (by omega) v hv hcap
      refine ⟨u, .inl ⟨hi.1, h1⟩, ?_⟩
      rcases hc with rfl | rfl <;> simpa [callArith, Arith.number, he] using h2

private theorem takeWhile_text : ∀ l : Text, '\x00' ∈ l →
    '\x00' ∉ l.takeWhile (· ≠ '\x00') ∧ ∃ rest, l = l.takeWhile (· ≠ '\x00') ++ '\x00' :: rest
  | [], h => by cases h
  | c :: l, h => by
    by_cases hc : c = '\x00'
    · subst hc
      exact ⟨by simp, l, by simp⟩
    · obtain ⟨h1, rest, h2⟩ := takeWhile_text l (by simpa [Ne.symm hc] using h)
      rw [List.takeWhile_cons_of_pos (by simpa using hc)]
      exact ⟨by simpa [Ne.symm hc] using h1, rest, by rw [List.cons_append, ← h2]⟩

private theorem view_text {p : Ptr} (h : '\x00' ∈ p.chars) :
    ∃ t, viewOf p = .ok t ∧ '\x00' ∉ t ∧ ∃ rest, p.chars = t ++ '\x00' :: rest :=
  ⟨_, by unfold viewOf; rw [if_pos h], takeWhile_text _ h⟩

private theorem append_plain (b : Build) (ce : Bool) (v : Str) (t : Ty) (x : t.Val) :
    append b ce v (.plain t) x = (resolve (.plain t)).map (call b ce v t x) := rfl

private theorem pointer_case {b : Build} (hb : Proper b) (ce : Bool) (x : Ptr) (hs : x.addr < 256 ^ b.psize) (v : Str)
    (hv : v.size ≤ v.capacity) (hcap : v.capacity < 2 ^ 64) :
    ∃ text r, IsAddress b.psize ce x.addr text ∧
      some (if x.addr = 0 then Append.nullptr ce v else appendVoid b ce v x.addr) = some r ∧ Appended v text r := by
  by_cases h0 : x.addr = 0
  · refine ⟨"nullptr".toList, _, by unfold IsAddress; rw [if_pos h0], rfl, ?_⟩
    rw [if_pos h0]
    exact C02_append_text ce v hv hcap _
  · obtain ⟨u, h1, h2⟩ := void_appended hb ce hs v hv hcap
    exact ⟨u, _, h1, by rw [if_neg h0], h2⟩

/-- **C71**: every value that is not a floating point number is shown as specified type by type, cut as any text where there is
no room, by the compiler and at run time. -/
theorem C71_shown {b : Build} (hb : Proper b) (ce : Bool) (t : Ty) (x : t.Val) (hs : Sane b.psize t x) (hr : ¬IsReal t)
    (v : Str) (hv : v.size ≤ v.capacity) (hcap : v.capacity < 2 ^ 64) :
    ∃ text r, Shows b.psize ce t x text ∧ append b ce v (.plain t) x = some r ∧ Appended v text r := by
  cases t with
  | float => exact absurd trivial hr
  | double => exact absurd trivial hr
  | longDouble => exact absurd trivial hr
  | arith a =>
    cases a with
    | bool =>
      obtain ⟨u, h1, h2⟩ := arith_appended hb ce .bool x hs (c := .bool) rfl v hv hcap
      exact ⟨u, _, h1, by rw [append_plain, resolve_bool]; rfl, h2⟩
    | integer t =>
      have hc := resolve_integer t
      obtain ⟨c, hc', hw⟩ : ∃ c, resolve (.plain (.arith (.integer t))) = some c ∧
          (if t.signed then c = .signed ∨ c = .largeInt else c = .unsigned ∨ c = .largeUint) := by
        rw [hc]
        obtain ⟨s, n, l⟩ := t
        cases s <;> cases l <;> simp
      obtain ⟨u, h1, h2⟩ := arith_appended hb ce (.integer t) x hs (c := c) hw v hv hcap
      refine ⟨u, _, h1, by rw [append_plain, hc']; rfl, ?_⟩
      have : call b ce v (.arith (.integer t)) x c = callArith b ce v (.integer t) x c := by
        cases hs : t.signed <;> rw [hs] at hw <;> simp only [if_true, Bool.false_eq_true, if_false] at hw <;>
          rcases hw with rfl | rfl <;> rfl
      rw [this]
      exact h2
  | enumeration sc a =>
    rw [append_plain, resolve_enumeration]
    cases a with
    | bool =>
      obtain ⟨u, h1, h2⟩ := arith_appended hb ce .bool x hs (c := .bool) rfl v hv hcap
      exact ⟨u, _, h1, rfl, h2⟩
    | integer t =>
      have hc := resolve_integer t
      obtain ⟨c, hc', hw⟩ : ∃ c, resolve (.plain (.arith (.integer t))) = some c ∧
          (if t.signed then c = .signed ∨ c = .largeInt else c = .unsigned ∨ c = .largeUint) := by
        rw [hc]
        obtain ⟨s, n, l⟩ := t
        cases s <;> cases l <;> simp
      obtain ⟨u, h1, h2⟩ := arith_appended hb ce (.integer t) x hs (c := c) hw v hv hcap
      refine ⟨u, _, h1, rfl, ?_⟩
      simp only [call, hc']
      exact h2
  | view => exact ⟨x, _, rfl, rfl, C02_append_text ce v hv hcap _⟩
  | null => exact ⟨_, _, rfl, rfl, C02_append_text ce v hv hcap _⟩
  | function => exact ⟨_, _, rfl, rfl, bool_appended ce true v hv hcap⟩
  | memberObject => exact ⟨_, _, rfl, rfl, bool_appended ce x v hv hcap⟩
  | memberFunction =>
    refine ⟨_, _, rfl, rfl, ?_⟩
    show Appended v (if (show Bool from x) then _ else _) (if (show Bool from x) then _ else _)
    split <;> exact C02_append_text ce v hv hcap _
  | array ofChar n =>
    obtain ⟨p, hp, hl⟩ := x
    cases ofChar with
    | true =>
      obtain ⟨hn, -⟩ := hs
      have hne : p.chars ≠ [] := by intro h; rw [h] at hl; simp at hl; omega
      refine ⟨p.chars.take (n - 1), _, ⟨p.chars.getLast hne, ?_⟩, rfl, C02_append_text ce v hv hcap _⟩
      have : p.chars.take (n - 1) = p.chars.dropLast := by rw [List.dropLast_eq_take, hl]
      rw [this, List.dropLast_concat_getLast]
    | false =>
      obtain ⟨u, h1, h2⟩ := void_appended hb ce hs.2 v hv hcap
      exact ⟨u, _, h1, rfl, h2⟩
  | pointer p =>
    cases p with
    | constVoid =>
      obtain ⟨u, h1, h2⟩ := void_appended hb ce hs v hv hcap
      exact ⟨u, _, h1, rfl, h2⟩
    | function =>
      refine ⟨_, _, rfl, rfl, ?_⟩
      show Appended v _ (if Ptr.addr x = 0 then _ else _)
      split <;> exact C02_append_text ce v hv hcap _
    | constChar =>
      by_cases h0 : Ptr.addr x = 0
      · refine ⟨_, _, .inl ⟨h0, rfl⟩, rfl, ?_⟩
        show Appended v _ (if Ptr.addr x = 0 then _ else _)
        rw [if_pos h0]
        exact C02_append_text ce v hv hcap _
      · obtain ⟨u, h1, h2, h3⟩ := view_text (hs h0)
        refine ⟨u, _, .inr ⟨h0, h2, h3⟩, rfl, ?_⟩
        show Appended v _ (if Ptr.addr x = 0 then _ else (do
          let t ← viewOf x
          Append.text ce v t))
        rw [if_neg h0, h1]
        exact C02_append_text ce v hv hcap _
    | char => exact pointer_case hb ce x hs v hv hcap
    | void => exact pointer_case hb ce x hs v hv hcap
    | object => exact pointer_case hb ce x hs v hv hcap

/-- **C71**: floating point numbers go to the printers of their type (C53); there is none for `long double`. -/
theorem C71_real (b : Build) (ce : Bool) (v : Str) :
    (∀ x, append b ce v (.plain .float) x = some (b.real ce false v x)) ∧
    (∀ x, append b ce v (.plain .double) x = some (b.real ce true v x)) ∧
    (∀ x, append b ce v (.plain .longDouble) x = none) :=
  ⟨fun _ => rfl, fun _ => rfl, fun _ => rfl⟩

/-- **C71**: in a check, what cannot be shown is shown as a question mark, all else as by `append`. -/
theorem C71_question (b : Build) (ce : Bool) (s : Source) (x : s.Val) (v : Str) (hv : v.size ≤ v.capacity)
    (hcap : v.capacity < 2 ^ 64) :
    (append b ce v s x = none → Appended v ['?'] (Value.appendValue b ce v s x)) ∧
    (∀ r, append b ce v s x = some r → Value.appendValue b ce v s x = r) := by
  unfold Value.appendValue
  refine ⟨fun h => ?_, fun r h => by rw [h]⟩
  rw [h]
  exact C02_append_text ce v hv hcap _

private theorem appended_same {v : Str} {t : Text} {r r' : Outcome (Str × Bool)} (h : Appended v t r) (h' : Appended v t r') :
    ∃ w w' ok, r = .ok (w, ok) ∧ r' = .ok (w', ok) ∧ w.contents = w'.contents ∧ w.capacity = w'.capacity := by
  obtain ⟨w, ok, h1, h2, -, h3, h4⟩ := h
  obtain ⟨w', ok', h1', h2', -, h3', h4'⟩ := h'
  refine ⟨w, w', ok, h1, ?_, by rw [h3, h3'], by rw [h2, h2']⟩
  rw [h1', show ok' = ok from Bool.eq_iff_iff.2 (h4'.trans h4.symm)]

/-! ### Classes -/

private theorem mem_usable {c : Candidate} : ∀ {k : Nat} {ts : List Ty} {g : Nat} {r : Rank},
    (g, r) ∈ usable c k ts ↔ ∃ i, ∃ h : i < ts.length, g = k + i ∧ standard ts[i] c = some r
  | k, [], g, r => by simp [usable]
  | k, t :: ts, g, r => by
    have ih := @mem_usable c (k + 1) ts g r
    unfold usable
    have split : (∃ i, ∃ h : i < (t :: ts).length, g = k + i ∧ standard (t :: ts)[i] c = some r) ↔
        (g = k ∧ standard t c = some r) ∨ ∃ i, ∃ h : i < ts.length, g = k + 1 + i ∧ standard ts[i] c = some r := by
      constructor
      · rintro ⟨i, h, h1, h2⟩
        cases i with
        | zero => exact .inl ⟨h1, h2⟩
        | succ i => exact .inr ⟨i, by simpa using h, by omega, h2⟩
      · rintro (⟨h1, h2⟩ | ⟨i, h, h1, h2⟩)
        · exact ⟨0, by simp, h1, h2⟩
        · exact ⟨i + 1, by simpa using h, by omega, h2⟩
    rw [split, ← ih]
    cases hs : standard t c with
    | none => simp
    | some r' => simp; constructor <;> rintro (h | h) <;> simp_all

private theorem better_asymm {q q' : Sequence} (h : q.better q' = true) : q'.better q = false := by
  cases q <;> cases q' <;> simp [Sequence.better] at h ⊢ <;> omega

private theorem beats_asymm {s : Source} {c c' : Candidate} (h : beats s c c' = true) : beats s c' c = false := by
  unfold beats at h ⊢
  cases hq : sequence s c with
  | none => rw [hq] at h; simp at h
  | some q =>
    cases hq' : sequence s c' with
    | none => rfl
    | some q' =>
      rw [hq, hq'] at h
      simp only [Bool.or_eq_true, Bool.and_eq_true, Bool.not_eq_true'] at h
      rcases h with h | ⟨h, h1, h2⟩
      · simp [h, better_asymm h]
      · simp [h, h1, h2]

private theorem mem_candidates (c : Candidate) : c ∈ candidates := by cases c <;> decide

private theorem wins_iff (s : Source) (c : Candidate) :
    wins s c = true ↔ callable s c = true ∧ ∀ c', c' ≠ c → beats s c c' = true := by
  unfold wins
  rw [Bool.and_eq_true, List.all_eq_true]
  refine and_congr_right fun _ => ⟨fun h c' hne => by simpa [hne] using h c' (mem_candidates c'), fun h c' _ => ?_⟩
  by_cases hne : c' = c
  · simp [hne]
  · simp [h c' hne]

private theorem resolve_iff (s : Source) (c : Candidate) : resolve s = some c ↔ wins s c = true := by
  unfold resolve
  constructor
  · exact List.find?_some
  · intro h
    cases hf : candidates.find? (wins s) with
    | none => exact absurd h (List.find?_eq_none.1 hf c (mem_candidates c))
    | some d =>
      by_cases hcd : c = d
      · rw [hcd]
      · have h1 := ((wins_iff s c).1 h).2 d (Ne.symm hcd)
        have h2 := ((wins_iff s d).1 (List.find?_some hf)).2 c hcd
        rw [beats_asymm h1] at h2
        cases h2

private theorem sequence_cls {convs : List Ty} {c : Candidate} {f : Nat} {r : Rank}
    (h : sequence (.cls convs) c = some (.user f r)) :
    c.template = false ∧ ∃ hf : f < convs.length, standard convs[f] c = some r := by
  change fromClass convs c = _ at h
  unfold fromClass at h
  split at h
  · cases h
  · next ht =>
    refine ⟨by simpa using ht, ?_⟩
    split at h
    · cases h
    · split at h
      · next heq =>
        cases h
        obtain ⟨i, hi, h1, h2⟩ := mem_usable.1 (List.mem_of_find?_eq_some heq)
        obtain rfl : f = i := by omega
        exact ⟨hi, h2⟩
      · cases h

private theorem sequence_usable {convs : List Ty} {c : Candidate} (hc : c.template = false) {f : Nat} (hf : f < convs.length)
    {r : Rank} (h : standard convs[f] c = some r) :
    (∃ g r', sequence (.cls convs) c = some (.user g r')) ∨ sequence (.cls convs) c = some .ambiguous := by
  have hm : (f, r) ∈ usable c 0 convs := mem_usable.2 ⟨f, hf, by omega, h⟩
  change (∃ g r', fromClass convs c = _) ∨ fromClass convs c = _
  unfold fromClass
  rw [hc, if_neg (by simp), if_neg (by intro h0; rw [List.isEmpty_iff] at h0; rw [h0] at hm; cases hm)]
  cases bestOf (usable c 0 convs) with
  | none => exact .inr rfl
  | some p => exact .inl ⟨p.1, p.2, rfl⟩

private theorem sequence_one {t : Ty} {c : Candidate} (hc : c.template = false) :
    sequence (.cls [t]) c = (standard t c).map (.user 0) := by
  change fromClass [t] c = _
  unfold fromClass
  rw [hc]
  cases hs : standard t c with
  | none => simp [usable, hs]
  | some r => simp [usable, hs, bestOf]

/-- **C71**: a class with several conversions that can be shown is shown as if it had just one of them. -/
theorem C71_class_one (b : Build) (ce : Bool) (convs : List Ty) (x : (Source.cls convs).Val) (v : Str)
    (h : append b ce v (.cls convs) x ≠ none) :
    ∃ (f : Fin convs.length), append b ce v (.cls convs) x = append b ce v (.cls [convs.get f]) (single (x f)) := by
  obtain ⟨c, hc⟩ : ∃ c, resolve (.cls convs) = some c := by
    cases hc : resolve (.cls convs) with
    | none => exact absurd (by simp only [append, hc]) h
    | some c => exact ⟨c, rfl⟩
  obtain ⟨hcall, hbeats⟩ := (wins_iff _ _).1 ((resolve_iff _ _).1 hc)
  obtain ⟨f, r, hq⟩ : ∃ f r, sequence (.cls convs) c = some (.user f r) := by
    unfold callable at hcall
    cases hq : sequence (.cls convs) c with
    | none => rw [hq] at hcall; cases hcall
    | some q =>
      rw [hq] at hcall
      cases q with
      | ambiguous => cases hcall
      | user f r => exact ⟨f, r, rfl⟩
      | standard r =>
        change fromClass convs c = _ at hq
        unfold fromClass at hq
        split at hq
        · cases hq
        · split at hq
          · cases hq
          · split at hq <;> cases hq
  obtain ⟨ht, hf, hstd⟩ := sequence_cls hq
  have hone : sequence (.cls [convs[f]]) c = some (.user 0 r) := by rw [sequence_one ht, hstd]; rfl
  have hres : resolve (.cls [convs[f]]) = some c := by
    rw [resolve_iff, wins_iff]
    refine ⟨by unfold callable; rw [hone], fun c' hne => ?_⟩
    have hb := hbeats c' hne
    unfold beats at hb ⊢
    rw [hone]
    rw [hq] at hb
    cases ht' : c'.template with
    | true => simp [sequence, fromClass, ht']
    | false =>
      rw [sequence_one ht']
      cases hs' : standard convs[f] c' with
      | none => rfl
      | some r' =>
        rcases sequence_usable ht' hf hs' with ⟨g, r'', hg⟩ | hg
        · rw [hg] at hb
          simp only [Sequence.better, ht', Bool.and_false, Bool.or_false, Bool.and_eq_true, decide_eq_true_eq] at hb
          obtain ⟨rfl, hlt⟩ := hb
          obtain ⟨-, _, hst⟩ := sequence_cls hg
          rw [hs'] at hst
          cases hst
          simp [Sequence.better, hlt]
        · rw [hg] at hb
          simp [Sequence.better, ht'] at hb
  refine ⟨⟨f, hf⟩, ?_⟩
  have hone' : sequence (.cls [convs.get ⟨f, hf⟩]) c = some (.user 0 r) := hone
  have hres' : resolve (.cls [convs.get ⟨f, hf⟩]) = some c := hres
  simp only [append, hc, hq, hres', hone']
  rw [dif_pos hf]
  rfl

private theorem append_one {b : Build} {ce : Bool} {v : Str} {t : Ty} {y : t.Val} {c : Candidate}
    (h : resolve (.cls [t]) = some c) : append b ce v (.cls [t]) (single y) = some (call b ce v t y c) := by
  obtain ⟨hcall, -⟩ := (wins_iff _ _).1 ((resolve_iff _ _).1 h)
  unfold callable at hcall
  cases hq : sequence (.cls [t]) c with
  | none => rw [hq] at hcall; cases hcall
  | some q =>
    cases ht : c.template with
    | true => simp [sequence, fromClass, ht] at hq
    | false =>
      rw [sequence_one ht] at hq
      cases hs : standard t c with
      | none => rw [hs] at hq; cases hq
      | some r =>
        have : sequence (.cls [t]) c = some (.user 0 r) := by rw [sequence_one ht, hs]; rfl
        simp only [append, h, this]
        rfl

private theorem resolve_one_integer (t : IntTy) : resolve (.cls [.arith (.integer t)]) =
    if t.large then some (if t.signed then .largeInt else .largeUint) else none := by
  obtain ⟨s, n, l⟩ := t
  cases s <;> cases l <;> rfl

private theorem resolve_one_enum_integer (t : IntTy) : resolve (.cls [.enumeration false (.integer t)]) =
    if t.large then some (if t.signed then .largeInt else .largeUint) else none := by
  obtain ⟨s, n, l⟩ := t
  cases s <;> cases l <;> rfl

private theorem large_chosen (t : IntTy) : Chosen (.integer t) (if t.signed then .largeInt else .largeUint) := by
  unfold Chosen
  cases h : t.signed <;> simp [h]

/-- **C71**: a class with one conversion cannot be shown, or is shown as follows. -/
theorem C71_class {b : Build} (hb : Proper b) (ce : Bool) (t : Ty) (y : t.Val) (v : Str) (hv : v.size ≤ v.capacity)
    (hcap : v.capacity < 2 ^ 64) :
    (Shown t = false → append b ce v (.cls [t]) (single y) = none) ∧
    (Shown t = true → ¬IsReal t → SaneConverted b.psize t y →
      ∃ text r, ShowsConverted b.psize ce t y text ∧ append b ce v (.cls [t]) (single y) = some r ∧ Appended v text r) := by
  have none_of : resolve (.cls [t]) = none → append b ce v (.cls [t]) (single y) = none := by
    intro h; simp only [append, h]
  cases t with
  | float => exact ⟨(fun h => by cases h), fun _ h => absurd trivial h⟩
  | double => exact ⟨(fun h => by cases h), fun _ h => absurd trivial h⟩
  | longDouble => exact ⟨fun _ => rfl, (fun h => by cases h)⟩
  | view => exact ⟨(fun h => by cases h), fun _ _ _ => ⟨y, _, rfl, append_one rfl, C02_append_text ce v hv hcap _⟩⟩
  | null => exact ⟨(fun h => by cases h), fun _ _ _ => ⟨_, _, rfl, append_one rfl, C02_append_text ce v hv hcap _⟩⟩
  | function => exact ⟨(fun h => by cases h), fun _ _ _ => ⟨_, _, rfl, append_one rfl, bool_appended ce true v hv hcap⟩⟩
  | memberFunction => exact ⟨(fun h => by cases h), fun _ _ _ => ⟨_, _, rfl, append_one rfl, bool_appended ce y v hv hcap⟩⟩
  | memberObject => exact ⟨(fun h => by cases h), fun _ _ _ => ⟨_, _, rfl, append_one rfl, bool_appended ce y v hv hcap⟩⟩
  | array ofChar n =>
    refine ⟨(fun h => by cases h), fun _ _ hs => ?_⟩
    obtain ⟨u, h1, h2⟩ := void_appended hb ce hs v hv hcap
    exact ⟨u, _, h1, append_one rfl, h2⟩
  | pointer p =>
    refine ⟨(fun h => by cases h), fun _ _ hs => ?_⟩
    cases p with
    | function => exact ⟨_, _, rfl, append_one rfl, bool_appended ce _ v hv hcap⟩
    | constChar => obtain ⟨u, h1, h2⟩ := void_appended hb ce hs v hv hcap; exact ⟨u, _, h1, append_one rfl, h2⟩
    | char => obtain ⟨u, h1, h2⟩ := void_appended hb ce hs v hv hcap; exact ⟨u, _, h1, append_one rfl, h2⟩
    | constVoid => obtain ⟨u, h1, h2⟩ := void_appended hb ce hs v hv hcap; exact ⟨u, _, h1, append_one rfl, h2⟩
    | void => obtain ⟨u, h1, h2⟩ := void_appended hb ce hs v hv hcap; exact ⟨u, _, h1, append_one rfl, h2⟩
    | object => obtain ⟨u, h1, h2⟩ := void_appended hb ce hs v hv hcap; exact ⟨u, _, h1, append_one rfl, h2⟩
  | arith a =>
    cases a with
    | bool =>
      refine ⟨(fun h => by cases h), fun _ _ hs => ?_⟩
      obtain ⟨u, h1, h2⟩ := arith_appended hb ce .bool y hs (c := .bool) rfl v hv hcap
      exact ⟨u, _, h1, append_one rfl, h2⟩
    | integer t =>
      refine ⟨fun h => none_of (by rw [resolve_one_integer, if_neg (by simpa [Shown] using h)]), fun h _ hs => ?_⟩
      obtain ⟨u, h1, h2⟩ := arith_appended hb ce (.integer t) y hs (large_chosen t) v hv hcap
      refine ⟨u, _, h1, append_one (by rw [resolve_one_integer, if_pos (by simpa [Shown] using h)]), ?_⟩
      cases hsg : t.signed <;> rw [hsg] at h2 <;> exact h2
  | enumeration sc a =>
    cases sc with
    | true => exact ⟨fun _ => none_of (by cases a <;> rfl), fun h => by cases a <;> cases h⟩
    | false =>
      cases a with
      | bool =>
        refine ⟨(fun h => by cases h), fun _ _ hs => ?_⟩
        obtain ⟨u, h1, h2⟩ := arith_appended hb ce .bool y hs (c := .bool) rfl v hv hcap
        exact ⟨u, _, h1, append_one rfl, h2⟩
      | integer t =>
        refine ⟨fun h => none_of (by rw [resolve_one_enum_integer, if_neg (by simpa [Shown] using h)]), fun h _ hs => ?_⟩
        obtain ⟨u, h1, h2⟩ := arith_appended hb ce (.integer t) y hs (large_chosen t) v hv hcap
        refine ⟨u, _, h1, append_one (by rw [resolve_one_enum_integer, if_pos (by simpa [Shown] using h)]), ?_⟩
        cases hsg : t.signed <;> rw [hsg] at h2 <;> exact h2

/-- **C71**: a class converting to `float` or `double` is shown by the printer of that type. -/
theorem C71_class_real (b : Build) (ce : Bool) (v : Str) :
    (∀ y, append b ce v (.cls [.float]) (single y) = some (b.real ce false v y)) ∧
    (∀ y, append b ce v (.cls [.double]) (single y) = some (b.real ce true v y)) :=
  ⟨fun _ => append_one (c := .float) rfl, fun _ => append_one (c := .double) rfl⟩

/-- **C71**: a value of one of the documented types is shown as documented, except for `char*` (see `C71_char_pointer`) and integers
of more than 64 bits (see `C71_wide`). -/
theorem C71_documented_partial {b : Build} (hb : Proper b) (ce : Bool) (t : Ty) (x : t.Val) {says : Text → Prop}
    (hd : documented b.psize ce t x = some says) (hc : t ≠ .pointer .char) (hs : Sane b.psize t x)
    (v : Str) (hv : v.size ≤ v.capacity) (hcap : v.capacity < 2 ^ 64) :
    ∃ text r, says text ∧ append b ce v (.plain t) x = some r ∧ Appended v text r := by
  have hr : ¬IsReal t := by
    intro h
    cases t <;> first | exact h | cases hd
  obtain ⟨text, r, h1, h2, h3⟩ := C71_shown hb ce t x hs hr v hv hcap
  refine ⟨text, r, ?_, h2, h3⟩
  cases t with
  | pointer p => cases p <;> first | exact absurd rfl hc | (cases hd; exact h1) | cases hd
  | _ => first | (cases hd; exact h1) | cases hd

/-- **C71** fails for `char*`: the address is shown, whatever the text. -/
theorem C71_char_pointer {b : Build} (hb : Proper b) (ce : Bool) (p : Ptr) (h : p.addr < 256 ^ b.psize) (v : Str)
    (hv : v.size ≤ v.capacity) (hcap : v.capacity < 2 ^ 64) :
    ∃ text r, IsAddress b.psize ce p.addr text ∧ append b ce v (.plain (.pointer .char)) p = some r ∧ Appended v text r :=
  C71_shown hb ce (.pointer .char) p h (fun h => h) v hv hcap

private theorem before_unique : ∀ {u w r r' : Text}, '\x00' ∉ u → '\x00' ∉ w → u ++ '\x00' :: r = w ++ '\x00' :: r' → u = w
  | [], [], _, _, _, _, _ => rfl
  | [], c :: w, _, _, _, hw, h => by simp at h hw; exact absurd h.1 hw.1
  | c :: u, [], _, _, hu, _, h => by simp at h hu; exact absurd h.1.symm hu.1
  | c :: u, d :: w, r, r', hu, hw, h => by
    simp at h hu hw
    rw [h.1, before_unique hu.2 hw.2 h.2]

private theorem readFrom_cons {acc n : Nat} {c : Char} {cs : Text} (h : readFrom 16 acc (c :: cs) = some n) :
    ∃ d, digitVal c = some d ∧ d < 16 ∧ readFrom 16 (acc * 16 + d) cs = some n := by
  unfold readFrom at h
  split at h
  · next d hd =>
    split at h
    · next hlt => exact ⟨d, hd, hlt, h⟩
    · cases h
  · cases h

private theorem readFrom_div : ∀ {cs : Text} {acc n : Nat}, readFrom 16 acc cs = some n → n / 16 ^ cs.length = acc
  | [], acc, n, h => by
    simp only [readFrom, Option.some.injEq] at h
    simp [h]
  | c :: cs, acc, n, h => by
    obtain ⟨d, -, hd, h⟩ := readFrom_cons h
    have ih := readFrom_div h
    rw [List.length_cons, Nat.pow_succ, ← Nat.div_div_eq_div_mul, ih]
    omega

private theorem digits_unique' : ∀ {ds es : Text} {acc n : Nat}, ds.length = es.length → readFrom 16 acc ds = some n →
    readFrom 16 acc es = some n → ds = es
  | [], [], _, _, _, _, _ => rfl
  | [], _ :: _, _, _, hl, _, _ => by simp at hl
  | _ :: _, [], _, _, hl, _, _ => by simp at hl
  | c :: ds, e :: es, acc, n, hl, hd, he => by
    obtain ⟨x, hx, -, hd⟩ := readFrom_cons hd
    obtain ⟨y, hy, -, he⟩ := readFrom_cons he
    have h1 := readFrom_div hd
    have h2 := readFrom_div he
    have hl' : ds.length = es.length := by simpa using hl
    rw [hl', h2] at h1
    obtain rfl : x = y := by omega
    rw [digits_unique' hl' hd he, (Append.digitVal_eq hx).trans (Append.digitVal_eq hy).symm]

private theorem digits_unique {ds es : Text} (hl : ds.length = es.length) {n : Nat} (hd : readNat 16 ds = some n)
    (he : readNat 16 es = some n) : ds = es := by
  unfold readNat at hd he
  split at hd
  · cases hd
  · split at he
    · cases he
    · exact digits_unique' hl hd he

/-- **C71**: no value is shown in two ways. -/
theorem C71_unique (psize : Nat) (ce : Bool) (t : Ty) (x : t.Val) (u w : Text) (hu : Shows psize ce t x u)
    (hw : Shows psize ce t x w) : u = w := by
  have addr : ∀ a, IsAddress psize ce a u → IsAddress psize ce a w → u = w := by
    intro a h1 h2
    unfold IsAddress at h1 h2
    split at h1
    · next h0 => rw [if_pos h0] at h2; rw [h1, h2]
    · next h0 =>
      rw [if_neg h0] at h2
      split at h1
      · next hc => rw [if_pos hc] at h2; rw [h1, h2]
      · next hc =>
        rw [if_neg hc] at h2
        obtain ⟨ds, rfl, hl, hr⟩ := h1
        obtain ⟨es, rfl, hl', hr'⟩ := h2
        rw [digits_unique (by rw [hl, hl']) hr hr']
  have arith : ∀ (a : Arith) (x : a.Val), ShowsArith a x u → ShowsArith a x w → u = w := by
    intro a x h1 h2
    cases a with
    | bool => exact h1.trans h2.symm
    | integer t =>
      rcases h1 with ⟨h0, h1⟩ | ⟨h0, u', rfl, h1⟩ <;> rcases h2 with ⟨h0', h2⟩ | ⟨h0', w', rfl, h2⟩
      · exact C04_numeral_unique (by omega) (by omega) h1 h2
      · omega
      · omega
      · rw [C04_numeral_unique (by omega) (by omega) h1 h2]
  cases t with
  | arith a => exact arith a x hu hw
  | enumeration sc a => exact arith a x hu hw
  | pointer p =>
    cases p with
    | constChar =>
      rcases hu with ⟨h0, rfl⟩ | ⟨h0, hu, r, hr⟩ <;> rcases hw with ⟨h0', rfl⟩ | ⟨h0', hw, r', hr'⟩
      · rfl
      · exact absurd h0 h0'
      · exact absurd h0' h0
      · exact before_unique hu hw (hr.symm.trans hr')
    | function => exact hu.trans hw.symm
    | char => exact addr _ hu hw
    | void => exact addr _ hu hw
    | constVoid => exact addr _ hu hw
    | object => exact addr _ hu hw
  | array ofChar n =>
    cases ofChar with
    | true =>
      obtain ⟨a, ha⟩ := hu
      obtain ⟨c, hc⟩ := hw
      exact (List.append_inj' (ha.symm.trans hc) rfl).1
    | false => exact addr _ hu hw
  | float => exact hu.elim
  | double => exact hu.elim
  | longDouble => exact hu.elim
  | _ => exact Eq.trans hu (Eq.symm hw)

/-- **C71**: operands of checks. The model of checks (C36, C66) is given the text of each operand, none if the operand cannot be
shown; with the texts of this property it writes what `append_value` writes. -/
theorem C71_operand {b : Build} (hb : Proper b) (ce : Bool) (t : Ty) (x : t.Val) (hs : Sane b.psize t x) (hr : ¬IsReal t)
    (text : Text) (h : Shows b.psize ce t x text) (v : Str) (hv : v.size ≤ v.capacity) (hcap : v.capacity < 2 ^ 64) :
    ∃ w w' ok, Value.appendValue b ce v (.plain t) x = .ok (w, ok) ∧ Expr.appendValue ce v (some text) = .ok (w', ok) ∧
      w.contents = w'.contents ∧ w.capacity = w'.capacity := by
  obtain ⟨u, r, h1, h2, h3⟩ := C71_shown hb ce t x hs hr v hv hcap
  rw [(C71_question b ce (.plain t) x v hv hcap).2 r h2]
  rw [C71_unique b.psize ce t x u text h1 h] at h3
  exact appended_same h3 (C02_append_text ce v hv hcap _)

/-! ### Where the README and the code differ -/

/-- A build without `std::to_chars`, for 64-bit pointers. -/
def plainBuild : Build where
  unsigned := Append.unsigned 8
  signed := Append.signed 8
  hex := Append.unsigned 14
  real := fun _ _ ss _ => .ok (ss, true)
  psize := 8

example : Proper plainBuild := ⟨by decide, .inl ⟨rfl, rfl, rfl⟩⟩

/-- A build with `std::to_chars`, which leaves marks behind when there is no room. -/
def toCharsBuild : Build where
  unsigned := fun v n => Append.appendTo v (Append.numeral 8 n) (List.replicate 99 '#')
  signed := fun v n => Append.appendTo v (Append.numeralS 8 n) []
  hex := fun v n => Append.appendTo v (Append.numeral 14 n) []
  real := fun _ _ ss _ => .ok (ss, true)
  psize := 8

example : Proper toCharsBuild := by
  refine ⟨by decide, .inr ⟨_, _, _, fun _ => List.replicate 99 '#', fun _ => [], fun _ => [], ?_, ?_, ?_, rfl, rfl, rfl⟩⟩
  · exact fun n => ⟨Append.readNat_numeral (by omega) n, Append.numeral_canonical (by omega) n⟩
  · intro i
    have hn : IsNumeral 10 i.natAbs (Append.numeral 8 i.natAbs) :=
      ⟨Append.readNat_numeral (by omega) _, Append.numeral_canonical (by omega) _⟩
    unfold Append.numeralS IsIntNumeral
    by_cases h : i < 0
    · right; exact ⟨h, _, by rw [if_pos h], hn⟩
    · left; rw [if_neg h]; exact ⟨by omega, hn⟩
  · exact fun n => ⟨Append.readNat_numeral (by omega) n, Append.numeral_canonical (by omega) n⟩

/-- What is shown of a value in an empty text of capacity 32, and whether it fits. -/
def shownAs (ce : Bool) (s : Source) (x : s.Val) : Option (Outcome (Text × Bool)) :=
  (append plainBuild ce (SV.empty 32 ' ') s x).map fun r => do
    let (ss, ok) ← r
    return (ss.contents, ok)

/-- A `char*` to the text `abc` at address 4096. -/
def abc : Ptr := ⟨4096, "abc\x00".toList⟩

/-- The same text as `const char*` and as `char*`. -/
theorem C71_not_documented :
    shownAs false (.plain (.pointer .constChar)) abc = some (.ok ("abc".toList, true)) ∧
    shownAs false (.plain (.pointer .char)) abc = some (.ok ("0x0000000000001000".toList, true)) ∧
    (∀ says, documented 8 false (.pointer .char) abc = some says → ¬says "0x0000000000001000".toList) := by
  refine ⟨by decide +kernel, by decide +kernel, ?_⟩
  intro says h
  cases h
  rintro (⟨h, -⟩ | ⟨-, -, rest, h⟩)
  · revert h; decide
  · simp [abc] at h

/-- 2^64 as a 128-bit integer is shown as 0. -/
theorem C71_wide : shownAs false (.plain (.arith (.integer ⟨false, 128, false⟩))) (⟨2 ^ 64, by unfold IntTy.Holds; decide⟩ : { i : Int // _ }) =
    some (.ok ("0".toList, true)) := by
  decide +kernel

/-- A buffer of 8 characters holding the text `abc` is shown with what follows the text. -/
theorem C71_buffer : shownAs false (.plain (.array true 8))
    (⟨⟨4096, "abc\x00\x00\x00\x00\x00".toList⟩, by decide, by decide⟩ : { p : Ptr // _ }) =
    some (.ok ("abc\x00\x00\x00\x00".toList, true)) := by
  decide +kernel

/-! ### Non-vacuity -/

/-- The type `char` where it is signed, and `int`. -/
def charTy : IntTy := ⟨true, 8, false⟩

example : Sane 8 (.arith (.integer charTy)) (⟨97, by unfold IntTy.Holds; decide⟩ : { i : Int // charTy.Holds i }) := by
  show charTy.bits ≤ 64
  decide
/-- A character is shown as a number. -/
example : shownAs false (.plain (.arith (.integer charTy))) (⟨97, by unfold IntTy.Holds; decide⟩ : { i : Int // charTy.Holds i }) =
    some (.ok ("97".toList, true)) := by decide +kernel
example : shownAs true (.plain (.enumeration true .bool)) true = some (.ok ("true".toList, true)) := by decide +kernel
example : Sane 8 (.pointer .constChar) abc := fun _ => by decide
example : Sane 8 (.pointer .char) abc ∧ abc.addr < 256 ^ plainBuild.psize := by
  constructor
  · show abc.addr < 256 ^ 8
    decide
  · decide
example : shownAs false (.plain (.array false 3)) (⟨⟨4096, "xyz".toList⟩, by decide, by decide⟩ : { p : Ptr // _ }) =
    some (.ok ("0x0000000000001000".toList, true)) := by decide +kernel
/-- A pointer to a data member and a function are shown as truth values. -/
example : shownAs false (.plain .memberObject) true = some (.ok ("true".toList, true)) ∧
    shownAs false (.plain .function) () = some (.ok ("true".toList, true)) := by decide +kernel
/-- A class converting to `int` only is not shown; nor one converting to `bool` and to text. -/
example : shownAs false (.cls [.arith (.integer ⟨true, 32, false⟩)]) (single (⟨5, by unfold IntTy.Holds; decide⟩ : { i : Int // _ })) = none := by
  decide +kernel
example (x : (Source.cls [.arith .bool, .view]).Val) : shownAs false (.cls [.arith .bool, .view]) x = none := rfl
/-- A class converting to `bool` and to a function pointer is shown as the former. -/
example (x : (Source.cls [.arith .bool, .pointer .function]).Val) :
    append plainBuild false (SV.empty 32 ' ') (.cls [.arith .bool, .pointer .function]) x ≠ none :=
  fun h => nomatch h
example : SaneConverted 8 (.pointer .constChar) abc ∧ Shown (.pointer .constChar) = true := by
  constructor
  · show abc.addr < 256 ^ 8
    decide
  · rfl
example : shownAs false (.cls [.pointer .constChar]) (single abc) = some (.ok ("0x0000000000001000".toList, true)) := by
  decide +kernel
example : documented 8 false (.pointer .constChar) abc ≠ none := fun h => nomatch h
example : Shows 8 false (.pointer .constChar) abc "abc".toList := .inr ⟨by decide, by decide, [], rfl⟩

end Verif.Props
