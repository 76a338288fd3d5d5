import Verif.Lemmas.Filter
/-! Helper lemmas for tag texts of any form. -/
namespace Verif
open Spec Util
namespace Filter

theorem cutTags_ne : ∀ s : Text, cutTags s ≠ []
  | [] => by simp [cutTags]
  | [c] => by simp [cutTags]
  | c :: d :: s => by
    rw [cutTags]
    split
    · simp
    · have := cutTags_ne (d :: s)
      cases h : cutTags (d :: s) with
      | nil => exact absurd h this
      | cons => simp

/-- Cutting at the first place found. -/
theorem cutTags_find : ∀ x : Text, match findAt [']', '['] x with
    | none => cutTags x = [x]
    | some k => k + 1 < x.length ∧ (x.drop (k + 1)).head? = some '[' ∧
        cutTags x = x.take (k + 1) :: cutTags (x.drop (k + 1))
  | [] => by simp [findAt, cutTags]
  | [c] => by simp [findAt, cutTags, List.isPrefixOf]
  | c :: d :: s => by
    have ih := cutTags_find (d :: s)
    rw [findAt]
    by_cases h : c = ']' ∧ d = '['
    · obtain ⟨rfl, rfl⟩ := h
      simp [List.isPrefixOf, cutTags]
    · have hp : [']', '['].isPrefixOf (c :: d :: s) = false := by
        rw [Bool.eq_false_iff]
        intro h'
        simp [List.isPrefixOf] at h'
        exact h ⟨h'.1.symm, h'.2.symm⟩
      rw [hp]
      simp only [Bool.false_eq_true, if_false]
      rw [cutTags, if_neg h]
      cases hf : findAt [']', '['] (d :: s) with
      | none =>
        rw [hf] at ih
        simp only at ih
        rw [ih]
        simp
      | some k =>
        rw [hf] at ih
        obtain ⟨h1, h2, h3⟩ := ih
        simp only [Option.map_some]
        refine ⟨by simp at h1 ⊢; omega, by simpa using h2, ?_⟩
        rw [h3]
        simp

theorem findFrom_append (d x : Text) :
    findFrom (d ++ x) [']', '['] d.length = (findAt [']', '['] x).map (· + d.length) := by
  rw [findFrom, if_pos (by simp), List.drop_left]

/-- The loop, from an opening bracket on. -/
theorem rawLoop_open : ∀ (n : Nat) (x d : Text) (fuel : Nat), x.length ≤ n → x.head? = some '[' → x.length < fuel →
    rawLoop (d ++ x) fuel (findFrom (d ++ x) [']', '['] d.length) d.length = some (cutTags x) := by
  intro n
  induction n with
  | zero => intro x d fuel hn hx; cases x <;> simp at hn hx
  | succ n ih =>
    intro x d fuel hn hx hf
    have hc := cutTags_find x
    rw [findFrom_append]
    cases hk : findAt [']', '['] x with
    | none =>
      rw [hk] at hc
      simp only at hc
      rw [hc]
      cases fuel <;> simp [rawLoop]
    | some k =>
      rw [hk] at hc
      obtain ⟨h1, h2, h3⟩ := hc
      have hk0 : k ≠ 0 := by
        rintro rfl
        cases x with
        | nil => cases hx
        | cons c x =>
          simp at hx
          subst hx
          rw [findAt] at hk
          have : [']', '['].isPrefixOf ('[' :: x) = false := by simp [List.isPrefixOf]
          rw [this] at hk
          simp at hk
      cases fuel with
      | zero => omega
      | succ fuel =>
        have e : d ++ x = (d ++ x.take (k + 1)) ++ x.drop (k + 1) := by simp
        have hl : (d ++ x.take (k + 1)).length = k + d.length + 1 := by simp; omega
        have g := ih (x.drop (k + 1)) (d ++ x.take (k + 1)) fuel (by simp; omega) h2 (by simp; omega)
        rw [← e, hl] at g
        simp only [Option.map_some, rawLoop]
        rw [g, h3]
        simp [hk0]

theorem rawTags_eq (s : Text) : rawTags s =
    if s = [] ∨ ('[' ∈ s ∧ ']' ∈ s) then .ok (written s) else .abort := by
  unfold rawTags written
  by_cases hs : s = []
  · subst hs; simp
  · rw [if_neg (by simpa using hs), if_neg hs]
    by_cases hb : '[' ∈ s ∧ ']' ∈ s
    · rw [if_neg (by simp [hb.1, hb.2]), if_pos (.inr hb)]
      have hc := cutTags_find s
      have hf := findFrom_append [] s
      simp only [List.nil_append, List.length_nil, Nat.add_zero, Option.map_id'] at hf
      rw [hf]
      cases hk : findAt [']', '['] s with
      | none =>
        rw [hk] at hc
        simp only at hc
        rw [hc]
        simp only [rawLoop, List.drop_zero]
      | some k =>
        rw [hk] at hc
        obtain ⟨h1, h2, h3⟩ := hc
        have e : s = s.take (k + 1) ++ s.drop (k + 1) := by simp
        have hl : (s.take (k + 1)).length = k + 1 := by simp; omega
        have g := rawLoop_open s.length (s.drop (k + 1)) (s.take (k + 1)) s.length (by simp) h2 (by simp; omega)
        rw [← e, hl] at g
        simp only [rawLoop, g, Nat.sub_zero, List.drop_zero, Option.map_some]
        rw [h3]
        by_cases hk0 : k = 0
        · subst hk0
          have : s.take 1 = [']'] := by
            cases s with
            | nil => cases hk
            | cons c s =>
              rw [findAt] at hk
              split at hk
              · rename_i hp
                cases s with
                | nil => simp [List.isPrefixOf] at hp
                | cons d s => simp [List.isPrefixOf] at hp; simp [hp.1.symm]
              · simp at hk
          simp only [Nat.zero_add, this, ne_eq, not_true, if_false]
          have hne := cutTags_ne (s.drop 1)
          cases hd : cutTags (s.drop 1) with
          | nil => exact absurd hd hne
          | cons p ps => rfl
        · rw [if_pos hk0]
          congr 1
          split
          · rename_i p ps heq
            exfalso
            have := congrArg List.length (List.cons.inj heq).1
            rw [hl] at this
            simp at this
            exact hk0 this
          · rfl
    · rw [if_neg (show ¬ (s = [] ∨ ('[' ∈ s ∧ ']' ∈ s)) from fun h => h.elim hs hb), if_pos]
      simp only [Bool.or_eq_true, Bool.not_eq_true', ← Bool.not_eq_true, List.contains_iff_mem]
      by_cases h1 : '[' ∈ s
      · exact .inr fun h2 => hb ⟨h1, h2⟩
      · exact .inl h1

/-- What is passed on for one piece. -/
def pieceMeaning (p : Text) : List ParsedTag :=
  (if PieceHides p then [.hidden] else []) ++ (shownPiece p).flatMap decodePlain

theorem decodeTag_piece (maxTag : Nat) (p : Text) : decodeTag maxTag p =
    if PieceHides p → p ≠ "[.]".toList → p.length ≤ maxTag + 1 then .ok (pieceMeaning p) else .abort := by
  unfold decodeTag pieceMeaning shownPiece
  by_cases h1 : p = "[.]".toList
  · subst h1
    rw [if_pos rfl, if_pos (fun _ h => absurd rfl h)]
    have : PieceHides "[.]".toList := ⟨[']'], rfl⟩
    rw [if_pos this, if_neg (fun h => h.2 rfl)]
    simp
  · rw [if_neg h1]
    by_cases h2 : PieceHides p
    · rw [if_pos (List.isPrefixOf_iff_prefix.mpr h2), if_pos h2,
        if_pos (show PieceHides p ∧ p ≠ "[.]".toList from ⟨h2, h1⟩)]
      dsimp only
      have hl : ('[' :: p.drop 2).length ≤ maxTag ↔ p.length ≤ maxTag + 1 := by
        obtain ⟨y, rfl⟩ := h2
        simp
      by_cases h3 : p.length ≤ maxTag + 1
      · rw [if_pos (show PieceHides p → p ≠ "[.]".toList → p.length ≤ maxTag + 1 from fun _ _ => h3)]
        rw [if_pos (hl.mpr h3)]
        have : decodePlain "[.]".toList = [.tag "[.]".toList] := by decide
        simp only [List.flatMap_cons, this, List.flatMap_nil, List.append_nil]
        rfl
      · rw [if_neg (show ¬ (PieceHides p → p ≠ "[.]".toList → p.length ≤ maxTag + 1) from fun h => h3 (h h2 h1))]
        rw [if_neg (fun h => h3 (hl.mp h))]
    · rw [if_neg (fun h => h2 (List.isPrefixOf_iff_prefix.mp h)), if_pos (fun h => absurd h h2), if_neg h2,
        if_neg (fun h => h2 h.1)]
      simp

theorem decodeAll_pieces (maxTag : Nat) (ps : List Text) :
    ((∀ p ∈ ps, PieceHides p → p ≠ "[.]".toList → p.length ≤ maxTag + 1) →
      decodeAll maxTag ps = .ok (ps.flatMap pieceMeaning)) ∧
    ((¬ ∀ p ∈ ps, PieceHides p → p ≠ "[.]".toList → p.length ≤ maxTag + 1) → decodeAll maxTag ps = .abort) := by
  induction ps with
  | nil => exact ⟨fun _ => rfl, fun h => absurd (fun p hp => by cases hp) h⟩
  | cons p ps ih =>
    rw [decodeAll, decodeTag_piece]
    constructor
    · intro h
      rw [if_pos (h p (by simp)), ih.1 (fun q hq => h q (by simp [hq]))]
      simp
    · intro h
      by_cases hp : PieceHides p → p ≠ "[.]".toList → p.length ≤ maxTag + 1
      · rw [if_pos hp, ih.2 (fun h' => h (fun q hq => ?_))]
        · rfl
        · rcases List.mem_cons.mp hq with rfl | hq
          · exact hp
          · exact h' q hq
      · rw [if_neg hp]; rfl

/-- Decoding any tag text. -/
theorem forEachTag_text (maxTag : Nat) (s : Text) :
    (Readable maxTag s → forEachTag maxTag s = .ok ((written s).flatMap pieceMeaning)) ∧
    (¬ Readable maxTag s → forEachTag maxTag s = .abort) := by
  rw [forEachTag, rawTags_eq]
  constructor
  · rintro (rfl | ⟨h1, h2, h3⟩)
    · rfl
    · rw [if_pos (.inr ⟨h1, h2⟩), Outcome.bind_ok, (decodeAll_pieces maxTag _).1 h3]
  · intro h
    by_cases hb : s = [] ∨ ('[' ∈ s ∧ ']' ∈ s)
    · rw [if_pos hb, Outcome.bind_ok, (decodeAll_pieces maxTag _).2]
      intro h'
      rcases hb with hb | hb
      · exact h (.inl hb)
      · exact h (.inr ⟨hb.1, hb.2, h'⟩)
    · rw [if_neg hb]; rfl

theorem pieceMeaning_text (p : Text) : (pieceMeaning p).filterMap text? = shownPiece p := by
  have : ∀ l : List Text, (l.flatMap decodePlain).filterMap text? = l := by
    intro l
    induction l with
    | nil => rfl
    | cons a l ih => simp only [List.flatMap_cons, List.filterMap_append, decodePlain_text, ih]; simp
  unfold pieceMeaning
  rw [List.filterMap_append, this]
  split <;> simp [text?]

theorem shows_text {maxTag : Nat} {s : Text} (h : Readable maxTag s) :
    Shows maxTag s ((written s).flatMap shownPiece) := by
  refine ⟨_, (forEachTag_text maxTag s).1 h, ?_⟩
  induction written s with
  | nil => rfl
  | cons p ps ih => simp only [List.flatMap_cons, List.filterMap_append, pieceMeaning_text, ih]

theorem hidden_mem_piece (p : Text) : ParsedTag.hidden ∈ pieceMeaning p ↔ PieceHides p := by
  have hp : ∀ b, ParsedTag.hidden ∉ decodePlain b := by
    intro b; unfold decodePlain; split <;> split <;> simp
  unfold pieceMeaning
  by_cases h : PieceHides p <;> simp [h, hp]

theorem mayFail_mem_piece (p : Text) : ParsedTag.mayFail ∈ pieceMeaning p ↔ "[!mayfail]".toList ∈ shownPiece p := by
  have hp : ∀ x, ParsedTag.mayFail ∈ decodePlain x ↔ x = "[!mayfail]".toList := by
    intro b; simp only [decodePlain]; split <;> split <;> simp_all
  unfold pieceMeaning
  by_cases h : PieceHides p <;> simp [h, hp]

theorem shouldFail_mem_piece (p : Text) :
    ParsedTag.shouldFail ∈ pieceMeaning p ↔ "[!shouldfail]".toList ∈ shownPiece p := by
  have hp : ∀ x, ParsedTag.shouldFail ∈ decodePlain x ↔ x = "[!shouldfail]".toList := by
    intro b; simp only [decodePlain]; split <;> split <;> simp_all
  unfold pieceMeaning
  by_cases h : PieceHides p <;> simp [h, hp]

end Filter
end Verif
