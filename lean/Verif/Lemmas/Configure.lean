import Verif.Spec.Configure
import Verif.Lemmas.Help
/-!
# Lemmas about configuring a registry
-/
namespace Verif.Configure
open Verif Verif.Spec Verif.Cli Verif.Cli.Spec Verif.Print Verif.Util Verif.Configure.Spec
open Verif.Print.Spec (whole)

variable {σ : Type}

/-! ## Printing -/

theorem sayEach_append {cap : Nat} {a b : List (List Arg)} {s t : Text} (ha : sayEach cap a = .ok s)
    (hb : sayEach cap b = .ok t) : sayEach cap (a ++ b) = .ok (s ++ t) := by
  induction a generalizing s with
  | nil => cases ha; exact hb
  | cons m ms ih =>
    rw [sayEach] at ha
    rw [List.cons_append, sayEach]
    cases hm : say cap m with
    | ok x =>
      rw [hm, Outcome.bind_ok] at ha
      cases hr : sayEach cap ms with
      | ok y =>
        rw [hr, Outcome.bind_ok] at ha
        cases ha
        rw [Outcome.bind_ok, ih hr, Outcome.bind_ok, List.append_assoc]
        rfl
      | _ => rw [hr] at ha; cases ha
    | _ => rw [hm] at ha; cases ha

theorem sayEach_one {cap : Nat} {m : List Arg} {t : Text} (h : say cap m = .ok t) : sayEach cap [m] = .ok t := by
  rw [sayEach, h, Outcome.bind_ok]
  show Outcome.ok (t ++ []) = _
  rw [List.append_nil]

theorem sayEach_each {cap : Nat} (hcap : cap + 3 < sizeT) : ∀ {ms : List (List Arg)}, (∀ m ∈ ms, Room cap 0 m) →
    sayEach cap ms = .ok (ms.map fun m => cut cap (m.flatMap whole)).flatten
  | [], _ => rfl
  | m :: ms, h => by
    rw [sayEach, say_eq hcap (h m (by simp)), Outcome.bind_ok, sayEach_each hcap (fun x hx => h x (by simp [hx]))]
    rfl

/-- Arguments that are strings. -/
def AllStr (args : List Arg) : Prop := ∀ a ∈ args, ∃ s, a = .str s

theorem say_warning {cap : Nat} (hcap : cap + 3 < sizeT) (h : 19 ≤ cap) (color : Bool) {args : List Arg}
    (hs : AllStr args) {text : Text} (ht : args.flatMap whole = text ++ "\n".toList) :
    say cap (warning color args) = .ok (warningLine cap color text) := by
  have a2 : "warning:".toList.length = 8 := by decide
  rw [warning, warningColor, say_eq hcap (room_first (by decide) (by decide) (by omega) hs)]
  rw [List.flatMap_cons, whole_paint, ht, warningLine, List.append_assoc]

theorem say_note {cap : Nat} (hcap : cap + 3 < sizeT) (h : 19 ≤ cap) (color : Bool) {args : List Arg}
    (hs : AllStr args) {text : Text} (ht : args.flatMap whole = text ++ "\n".toList) :
    say cap (note color args) = .ok (noteLine cap color text) := by
  have a2 : "note:".toList.length = 5 := by decide
  rw [note, statusColor, say_eq hcap (room_first (by decide) (by decide) (by omega) hs)]
  rw [List.flatMap_cons, whole_paint, ht, noteLine, List.append_assoc]

theorem flat3 (a b c d : String) (t : Text) (hc : c.toList = d.toList ++ "\n".toList) :
    ([str a, .str t, str c] : List Arg).flatMap whole = a.toList ++ t ++ d.toList ++ "\n".toList := by
  simp only [List.flatMap_cons, List.flatMap_nil, whole_str, whole_strArg, List.append_nil, hc, List.append_assoc]

theorem flat1 (a b : String) (h : a.toList = b.toList ++ "\n".toList) :
    ([str a] : List Arg).flatMap whole = b.toList ++ "\n".toList := by
  simp only [List.flatMap_cons, List.flatMap_nil, whole_str, List.append_nil, h]

theorem allStr1 (a : String) : AllStr [str a] := by simp [AllStr, str]
theorem allStr3 (a c : String) (t : Text) : AllStr [str a, .str t, str c] := by simp [AllStr, str]

/-! ## Splitting at `::` -/

theorem pieces_ne (s : Text) : pieces s ≠ [] := by
  cases s with
  | nil => simp [pieces]
  | cons c r =>
    rw [pieces.eq_def]
    split
    · simp
    · simp
    · split <;> simp

theorem pieces_cons {c : Char} {r : Text} (h : ¬ [':', ':'] <+: c :: r) :
    ∃ w ws, pieces r = w :: ws ∧ pieces (c :: r) = (c :: w) :: ws := by
  cases hp : pieces r with
  | nil => exact absurd hp (pieces_ne r)
  | cons w ws =>
    refine ⟨w, ws, rfl, ?_⟩
    rw [pieces.eq_def]
    split
    · next e => cases e
    · next e =>
      cases e
      exact absurd ⟨_, rfl⟩ h
    · next e =>
      cases e
      rw [hp]

theorem pieces_find (s : Text) : (findAt [':', ':'] s = none ∧ pieces s = [s]) ∨
    ∃ x y, s = x ++ ':' :: ':' :: y ∧ findAt [':', ':'] s = some x.length ∧ pieces s = x :: pieces y := by
  induction s with
  | nil => exact .inl ⟨rfl, rfl⟩
  | cons c r ih =>
    by_cases hp : [':', ':'] <+: c :: r
    · obtain ⟨y, e⟩ := hp
      refine .inr ⟨[], y, e.symm, ?_, ?_⟩
      · rw [← e]; rfl
      · rw [← e]
        simp [pieces]
    · obtain ⟨w, ws, h1, h2⟩ := pieces_cons hp
      have hb : ([':', ':'] : Text).isPrefixOf (c :: r) = false := by
        rw [← Bool.not_eq_true, List.isPrefixOf_iff_prefix]; exact hp
      have hf : findAt [':', ':'] (c :: r) = (findAt [':', ':'] r).map (· + 1) := by
        rw [findAt, hb]; rfl
      rcases ih with ⟨k1, k2⟩ | ⟨x, y, k1, k2, k3⟩
      · rw [k2] at h1
        cases h1
        exact .inl ⟨by rw [hf, k1]; rfl, h2⟩
      · rw [k3] at h1
        cases h1
        exact .inr ⟨c :: w, y, by rw [k1]; rfl, by rw [hf, k2]; rfl, h2⟩

theorem glue_pieces (s : Text) : ∀ {o : Text} {os : List Text}, pieces s = o :: os → s = o ++ glued os := by
  induction hn : s.length using Nat.strongRecOn generalizing s with
  | _ n ih =>
    intro o os h
    rcases pieces_find s with ⟨_, k⟩ | ⟨x, y, k1, _, k3⟩
    · rw [k] at h
      cases h
      simp [glued]
    · rw [k3] at h
      cases hp : pieces y with
      | nil => exact absurd hp (pieces_ne y)
      | cons o' os' =>
        rw [hp] at h
        cases h
        have := ih y.length (by rw [← hn, k1]; simp; omega) y rfl hp
        rw [k1, glued, List.append_assoc "::".toList, ← this]
        rfl

/-! ## The options of a reporter -/

/-- The options one after the other. -/
def offer (r : Reporter σ) : List Text → Settings σ → Settings σ × List (List Arg)
  | [], s => (s, [])
  | o :: os, s =>
    let x := oneOption r o s
    let y := offer r os x.1
    (y.1, x.2 ++ y.2)

theorem findFrom_two {t : Text} : findFrom (':' :: ':' :: t) [':', ':'] 2 = (findAt [':', ':'] t).map (· + 2) := by
  rw [findFrom, if_pos (by simp)]
  rfl

theorem optionLoop_eq (r : Reporter σ) : ∀ (fuel : Nat) (t : Text) (s : Settings σ) (said : List (List Arg)),
    t.length + 2 < fuel → optionLoop r fuel (':' :: ':' :: t) s said =
      .ok ((offer r (taken (pieces t)) s).1, said ++ (offer r (taken (pieces t)) s).2) := by
  intro fuel
  induction fuel with
  | zero => intro t s said h; omega
  | succ fuel ih =>
    intro t s said h
    rw [optionLoop, findFrom_two]
    rcases pieces_find t with ⟨k1, k2⟩ | ⟨x, y, k1, k2, k3⟩
    · rw [k1, k2]
      show Outcome.ok _ = _
      simp [taken, offer]
    · rw [k2, k3]
      have hd : (':' :: ':' :: t).drop (x.length + 2) = ':' :: ':' :: y := by rw [k1]; simp
      simp only [Option.map_some, hd]
      rw [show (':' :: ':' :: y : Text).drop 2 = y from rfl, ih _ _ _ (by rw [k1] at h; simp at h; omega)]
      cases hp : pieces y with
      | nil => exact absurd hp (pieces_ne y)
      | cons o os =>
        rw [taken, ← glue_pieces y hp]
        simp only [offer, List.append_assoc]

theorem options_eq (r : Reporter σ) (t : Text) (s : Settings σ) :
    options r (':' :: ':' :: t) s = .ok (offer r (taken (pieces t)) s) := by
  have : findFrom (':' :: ':' :: t) [':', ':'] 0 = some 0 := by
    rw [findFrom, if_pos (Nat.zero_le _)]; rfl
  rw [options, this]
  exact (optionLoop_eq r _ t s [] (by simp)).trans (by rw [List.nil_append])

theorem key_cases (o : Text) : (o.findIdx? (· == '=') = none ∧ '=' ∉ o) ∨
    ('=' ∈ o ∧ o.findIdx? (· == '=') = some (o.takeWhile (· ≠ '=')).length) := by
  induction o with
  | nil => exact .inl ⟨rfl, by simp⟩
  | cons c o ih =>
    by_cases hc : c = '='
    · exact .inr ⟨by simp [hc], by simp [List.findIdx?_cons, hc]⟩
    · rcases ih with ⟨h1, h2⟩ | ⟨h1, h2⟩
      · exact .inl ⟨by simp [List.findIdx?_cons, hc, h1], by simp [h2]; exact fun e => hc e.symm⟩
      · exact .inr ⟨by simp [h1], by simp [List.findIdx?_cons, hc, h2]⟩

/-- The messages a reporter prints can be printed. -/
def Printable (cap : Nat) (r : Reporter σ) : Prop :=
  ∀ k v s, ∀ m ∈ (r.configure k v s).2.1, Room cap 0 m

theorem say_badly {cap : Nat} (hcap : cap + 3 < sizeT) (h : 19 ≤ cap) (color : Bool) (o : Text) :
    sayEach cap [warning color [str " badly formatted reporter option '", .str o, str "'; expected 'key=value'\n"]] =
      .ok (warningLine cap color (" badly formatted reporter option '".toList ++ o ++
        "'; expected 'key=value'".toList)) :=
  sayEach_one (say_warning hcap h color (allStr3 _ _ _) (flat3 _ "" _ "'; expected 'key=value'" o (by decide)))

theorem offer_eq {cap : Nat} (hcap : cap + 3 < sizeT) (h : 19 ≤ cap) {r : Reporter σ} (hr : Printable cap r) :
    ∀ (os : List Text) (s : Settings σ), (offer r os s).1 = (offered cap r os s).1 ∧
      sayEach cap (offer r os s).2 = .ok (offered cap r os s).2
  | [], s => ⟨rfl, rfl⟩
  | o :: os, s => by
    have ih := offer_eq hcap h hr os
    have hk : o.take (o.takeWhile (· ≠ '=')).length = o.takeWhile (· ≠ '=') :=
      (List.prefix_iff_eq_take.mp (List.takeWhile_prefix _)).symm
    rw [offer, offered]
    dsimp only
    rcases key_cases o with ⟨h1, h2⟩ | ⟨h1, h2⟩
    · rw [oneOption, h1]
      simp only [h2, not_false_eq_true, or_true, if_true]
      exact ⟨(ih s).1, sayEach_append (say_badly hcap h _ o) (ih s).2⟩
    · rw [oneOption, h2]
      cases hw : o.takeWhile (· ≠ '=') with
      | nil =>
        simp only [List.length_nil, true_or, if_true]
        exact ⟨(ih s).1, sayEach_append (say_badly hcap h _ o) (ih s).2⟩
      | cons a k =>
        rw [hw] at hk
        simp only [List.length_cons] at hk ⊢
        simp only [hk, h1, reduceCtorEq, not_true_eq_false, or_self, if_false]
        have hm := sayEach_each hcap (hr (a :: k) (o.drop (k.length + 1 + 1)) s)
        cases hb : (r.configure (a :: k) (o.drop (k.length + 1 + 1)) s).2.2 with
        | true =>
          simp only [if_true, List.append_nil]
          exact ⟨(ih _).1, sayEach_append hm (ih _).2⟩
        | false =>
          simp only [Bool.false_eq_true, if_false]
          refine ⟨(ih _).1, sayEach_append (sayEach_append hm (sayEach_one (say_warning hcap h _ (allStr3 _ _ _) ?_)))
            (ih _).2⟩
          exact flat3 _ "" _ "'" _ (by decide)

/-! ## Choosing a reporter -/

theorem named_eq (name : Text) : ∀ rs : List (Reporter σ),
    (rs.findIdx? (·.name == name) = none ∧ named name rs = none) ∨
    ∃ i r, rs.findIdx? (·.name == name) = some i ∧ rs[i]? = some r ∧ named name rs = some (i, r)
  | [] => .inl ⟨rfl, rfl⟩
  | r :: rs => by
    rw [List.findIdx?_cons, named]
    by_cases hn : r.name = name
    · exact .inr ⟨0, r, by simp [hn], rfl, by simp [hn]⟩
    · have hb : (r.name == name) = false := by simpa using hn
      rw [hb, if_neg hn]
      rcases named_eq name rs with ⟨h1, h2⟩ | ⟨i, q, h1, h2, h3⟩
      · exact .inl ⟨by simp [h1], by simp [h2]⟩
      · exact .inr ⟨i + 1, q, by simp [h1], by simpa using h2, by simp [h3]⟩

theorem choose_eq {cap : Nat} (hcap : cap + 3 < sizeT) (h : 19 ≤ cap) {rs : List (Reporter σ)}
    (hr : ∀ r ∈ rs, Printable cap r) (name opts : Text) (os : List Text)
    (hs : (opts = [] ∧ os = []) ∨ ∃ t, opts = ':' :: ':' :: t ∧ os = pieces t) (st : State σ) :
    ∃ calls, choose rs name opts st = .ok ⟨(picked cap rs name os st.settings).1, st.out,
        (picked cap rs name os st.settings).2.1.or st.reporter, st.said ++ calls⟩ ∧
      sayEach cap calls = .ok (picked cap rs name os st.settings).2.2 := by
    unfold choose picked
    rcases named_eq name rs with ⟨e1, e2⟩ | ⟨i, r, e1, e2, e3⟩
    · rw [e1, e2]
      dsimp only
      refine ⟨_, by rw [List.append_assoc]; rfl, ?_⟩
      rw [show ∀ (a b : List Arg) (l : List (List Arg)), [a, b] ++ l = [a] ++ [b] ++ l from fun _ _ _ => rfl]
      refine sayEach_append (sayEach_append (sayEach_one (say_warning hcap h _ (allStr3 _ _ _)
        (flat3 _ "" _ "', using default" _ (by decide)))) (sayEach_one (say_note hcap h _ (allStr1 _)
        (flat1 _ _ (by decide))))) ?_
      clear e1 e2 hr
      induction rs with
      | nil => rfl
      | cons r rs ih =>
        rw [List.map_cons, sayEach, say_note (text := "  ".toList ++ r.name) hcap h _ (allStr3 _ _ _), Outcome.bind_ok, ih]
        · rfl
        · simp only [List.flatMap_cons, List.flatMap_nil, whole_str, whole_strArg, List.append_nil, List.append_assoc]
    · rw [e1, e3]
      simp only [e2]
      have hro := offer_eq hcap h (hr r (List.mem_of_getElem? e2)) (taken os) (r.prepare st.settings)
      have hopt : options r opts (r.prepare st.settings) = .ok (offer r (taken os) (r.prepare st.settings)) := by
        rcases hs with ⟨rfl, rfl⟩ | ⟨t, rfl, rfl⟩
        · rfl
        · rw [options_eq]
      rw [hopt, Outcome.bind_ok]
      refine ⟨_, ?_, hro.2⟩
      rw [hro.1]
      rfl

/-- What choosing a reporter does to the registry. -/
theorem parseReporter_eq {cap : Nat} (hcap : cap + 3 < sizeT) (h : 19 ≤ cap) {rs : List (Reporter σ)}
    (hr : ∀ r ∈ rs, Printable cap r) (arg : Text) (st : State σ) :
    ∃ calls, parseReporter rs arg st = .ok ⟨(chosen cap rs (some arg) st.settings).1, st.out,
        (chosen cap rs (some arg) st.settings).2.1.or st.reporter, st.said ++ calls⟩ ∧
      sayEach cap calls = .ok (chosen cap rs (some arg) st.settings).2.2 := by
  unfold parseReporter chosen
  by_cases hi : arg = [] ∨ arg.head? = some ':'
  · have hb : (arg.isEmpty || arg.head? == some ':') = true := by
      rcases hi with rfl | hi
      · rfl
      · simp [hi]
    rw [if_pos hb]
    simp only [if_pos hi]
    exact ⟨_, rfl, sayEach_one (say_warning hcap h _ (allStr3 _ _ _) (flat3 _ "" _ "', using default" _ (by decide)))⟩
  · have hb : ¬ (arg.isEmpty || arg.head? == some ':') = true := by
      rw [Bool.or_eq_true, not_or]
      rw [not_or] at hi
      exact ⟨by simpa using hi.1, by simpa using hi.2⟩
    rw [if_neg hb]
    simp only [if_neg hi]
    rw [findFrom, if_pos (Nat.zero_le _), List.drop_zero]
    rcases pieces_find arg with ⟨k1, k2⟩ | ⟨x, y, k1, k2, k3⟩
    · rw [k1, k2]
      exact choose_eq hcap h hr arg [] [] (.inl ⟨rfl, rfl⟩) st
    · rw [k2, k3]
      have e1 : arg.take (x.length + 0) = x := by rw [k1]; simp
      have e2 : arg.drop (x.length + 0) = ':' :: ':' :: y := by rw [k1]; simp
      simp only [Option.map_some, e1, e2]
      exact choose_eq hcap h hr x _ (pieces y) (.inr ⟨y, rfl, rfl⟩) st

end Verif.Configure
