import Verif.Model.Reporter
import Verif.Lemmas.StringUtil
import Verif.Lemmas.Numeral
import Verif.Props.Print
import Verif.Spec.Xml
/-!
# Lemmas about what all reporters have in common
-/
namespace Verif.Report
open Verif Verif.Spec
open Verif.Report.Spec (decimal)

theorem sizeT_eq : sizeT = 2 ^ 64 := rfl

theorem say_eq {lim : Limits} (h : lim.message < 2 ^ 64) (args : List Text) (rep : Rep) :
    say lim args rep = .ok { rep with out := rep.out ++ args.flatten } := by
  obtain ⟨chunks, e, hc⟩ := Props.C34_strings lim.message h args
  unfold say
  rw [e, Outcome.bind_ok, hc]
  rfl

theorem say1_eq (s : Text) (rep : Rep) : say1 s rep = { rep with out := rep.out ++ s } := by
  simp [say1, Print.printStr]

theorem numeral_decimal (n : Nat) : Append.numeral 8 n = decimal n := by
  unfold decimal
  induction n using Nat.strongRecOn with
  | _ n ih =>
    rw [Append.numeral, Nat.toDigits_eq_if (by omega)]
    have hd : ∀ i : Nat, i < 10 → (Append.digits[i]?).getD '0' = Nat.digitChar i := by decide
    by_cases h : n < 10
    · simp only [h, if_true]
      rw [hd n h]
    · simp only [h, if_false]
      rw [ih (n / (8 + 2)) (by omega)]
      simp [hd (n % 10) (by omega)]

theorem decimal_length {n : Nat} (h : n < 2 ^ 64) : (decimal n).length ≤ 20 := by
  rw [← numeral_decimal, Append.length_numeral]
  exact Append.numDigits_le_20 (by omega) h

theorem makeNumber_eq {n : Nat} (h : n < 2 ^ 64) : makeNumber 32 n = .ok (decimal n) := by
  obtain ⟨v, e, hv⟩ := Append.unsigned_holds (b := 8) (by omega) (by omega) h
    (SV.holds_empty 32 ' ') (show 32 < sizeT by decide)
  have hl := decimal_length h
  unfold makeNumber
  rw [e, Outcome.bind_ok]
  dsimp only
  rw [numeral_decimal] at hv ⊢
  rw [if_pos (by simp; omega), hv.contents]
  simp [Spec.fill]
  rw [List.take_of_length_le (by omega)]

theorem subSize_eq {a b : Nat} (ha : a < 2 ^ 64) (h : b ≤ a) : subSize a b = a - b := by
  unfold subSize
  rw [sizeT_eq, Nat.mod_eq_of_lt (show b < 2 ^ 64 by omega),
    show a + (2 ^ 64 - b) = (a - b) + 2 ^ 64 by omega, Nat.add_mod_right, Nat.mod_eq_of_lt (by omega)]

theorem subSize_level (n : Nat) : subSize ((n + 1) % sizeT) 1 = n % sizeT := by
  unfold subSize; rw [sizeT_eq]; omega

/-! ## Escaping in stages -/

/-- All stages, when everything fits. -/
def allStages (ps : List (Char × Text)) (s : Text) : Text :=
  ps.foldl (fun s p => escaped p.1 p.2 s) s

theorem escaped_append (c : Char) (r a b : Text) :
    escaped c r (a ++ b) = escaped c r a ++ escaped c r b := by simp [escaped]

theorem allStages_append (ps : List (Char × Text)) : ∀ a b : Text,
    allStages ps (a ++ b) = allStages ps a ++ allStages ps b := by
  induction ps with
  | nil => intro a b; rfl
  | cons p ps ih =>
    intro a b
    show allStages ps (escaped p.1 p.2 (a ++ b)) = _
    rw [escaped_append]; exact ih _ _

theorem allStages_nil (ps : List (Char × Text)) : allStages ps [] = [] := by
  induction ps with
  | nil => rfl
  | cons p ps ih => exact ih

theorem allStages_flatMap (ps : List (Char × Text)) (s : Text) :
    allStages ps s = s.flatMap (fun c => allStages ps [c]) := by
  induction s with
  | nil => simp [allStages_nil]
  | cons c s ih =>
    rw [show c :: s = [c] ++ s from rfl, allStages_append, ih]; simp

theorem escaped_length {c : Char} {r : Text} (h : 2 ≤ r.length) (s : Text) :
    s.length ≤ (escaped c r s).length := by
  induction s with
  | nil => simp
  | cons x s ih =>
    rw [show x :: s = [x] ++ s from rfl, escaped_append, List.length_append, List.length_append]
    have : [x].length ≤ (escaped c r [x]).length := by
      simp only [escaped, List.flatMap_cons, List.flatMap_nil, List.append_nil]
      split
      · simp only [List.length_cons, List.length_nil]; omega
      · exact Nat.le_refl _
    omega

theorem allStages_length (ps : List (Char × Text)) (h : ∀ p ∈ ps, 2 ≤ p.2.length) : ∀ s : Text,
    s.length ≤ (allStages ps s).length := by
  induction ps with
  | nil => intro s; exact Nat.le_refl _
  | cons p ps ih =>
    intro s
    exact Nat.le_trans (escaped_length (h p (by simp)) s) (ih (fun q hq => h q (by simp [hq])) _)

theorem escapeStages_fit {cap : Nat} (hcap : cap + 3 < sizeT) (ps : List (Char × Text))
    (h : ∀ p ∈ ps, 2 ≤ p.2.length) : ∀ {v : Str} {s : Text}, v.Holds cap s →
    (allStages ps s).length ≤ cap →
    ∃ v', escapeStages (ps.map fun p => ([p.1], p.2)) v = .ok (v', true) ∧
      v'.Holds cap (allStages ps s) := by
  induction ps with
  | nil => intro v s hv _; exact ⟨v, rfl, hv⟩
  | cons p ps ih =>
    intro v s hv hfit
    have hps : ∀ q ∈ ps, 2 ≤ q.2.length := fun q hq => h q (by simp [hq])
    have h1 : (escaped p.1 p.2 s).length ≤ cap :=
      Nat.le_trans (allStages_length ps hps _) hfit
    have hsz : v.size = s.length := hv.2.1
    obtain ⟨v1, s1, e1, hv1, hs1, _⟩ := Util.escapeAllOrTruncate_holds hcap (h p (by simp)) hv
      (c := p.1) (fuel := v.size + 1) (by omega)
    rw [hs1 h1] at hv1
    obtain ⟨v2, e2, hv2⟩ := ih hps hv1 hfit
    refine ⟨v2, ?_, hv2⟩
    simp only [List.map_cons, escapeStages, escapeStage]
    rw [e1]
    simp only [Outcome.bind_ok, h1, decide_true, if_true]
    exact e2

end Verif.Report
