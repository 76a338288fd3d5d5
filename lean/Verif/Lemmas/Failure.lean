import Verif.Spec.Failure
import Verif.Lemmas.Print
import Verif.Lemmas.Help
import Verif.Lemmas.Reporter
import Verif.Props.Print
import Verif.Props.Registry
/-!
# Lemmas about refusing
-/
namespace Verif.Failure
open Verif Verif.Print Verif.Print.Spec Verif.Report Verif.Failure.Spec

variable {σ α β : Type}

theorem bind_def (x : Act σ α) (f : α → Act σ β) (h : Handler) (s : σ) : (x >>= f) h s =
    match x h s with
    | ⟨said, .ok s a⟩ => ⟨said ++ (f a h s).said, (f a h s).result⟩
    | ⟨said, .threw s⟩ => ⟨said, .threw s⟩
    | ⟨said, .terminated⟩ => ⟨said, .terminated⟩
    | ⟨said, .never⟩ => ⟨said, .never⟩
    | ⟨said, .undefined⟩ => ⟨said, .undefined⟩ := rfl

@[simp] theorem pure_def (a : α) (h : Handler) (s : σ) : (pure a : Act σ α) h s = ⟨[], .ok s a⟩ := rfl

/-- What follows something that says nothing. -/
theorem bind_quiet {x : Act σ α} {f : α → Act σ β} {h : Handler} {s s' : σ} {a : α} (hx : x h s = ⟨[], .ok s' a⟩) :
    (x >>= f) h s = f a h s' := by
  rw [bind_def, hx]; rfl

@[simp] theorem bind_get (f : σ → Act σ β) (h : Handler) (s : σ) : (getState >>= f) h s = f s h s :=
  bind_quiet rfl

@[simp] theorem bind_set (t : σ) (f : Unit → Act σ β) (h : Handler) (s : σ) : (setState t >>= f) h s = f () h t :=
  bind_quiet rfl

@[simp] theorem bind_pure' (a : α) (f : α → Act σ β) (h : Handler) (s : σ) : (pure a >>= f) h s = f a h s :=
  bind_quiet rfl

theorem byRegistry_append (a b : List Entry) : byRegistry (a ++ b) = byRegistry a ++ byRegistry b := by
  simp [byRegistry]

theorem onConsole_append (a b : List Entry) : onConsole (a ++ b) = onConsole a ++ onConsole b := by
  simp [onConsole]

theorem told_append (a b : List Entry) : told (a ++ b) = told a ++ told b := by
  simp [told]

theorem byRegistry_chunks (l : List Text) : byRegistry (l.map .registry) = l.flatten := by
  simp [byRegistry, List.filterMap_map, Function.comp_def]

theorem onConsole_chunks (l : List Text) : onConsole (l.map .registry) = [] := by
  simp [onConsole, List.filterMap_map, Function.comp_def]

theorem told_chunks (l : List Text) : told (l.map .registry) = [] := by
  simp [told, List.filterMap_map, Function.comp_def]

theorem terminate_text (reason : Text) : onConsole [.console "terminate called with message: ".toList, .console reason,
    .console "\n".toList] = "terminate called with message: ".toList ++ reason ++ "\n".toList := by
  show "terminate called with message: ".toList ++ (reason ++ ("\n".toList ++ [])) = _
  rw [List.append_nil, List.append_assoc]

/-- `assertion_failed`. -/
theorem refused_failed (h : Handler) (reason : Text) (s : σ) :
    Refused h reason [] [] s (assertionFailed (α := α) reason h s) := by
  refine ⟨[], rfl, rfl, rfl, ?_⟩
  cases h with
  | standard =>
    exact ⟨⟨_, rfl, rfl, rfl, terminate_text reason⟩, rfl⟩
  | user ends =>
    refine ⟨rfl, ?_⟩
    cases e : ends reason <;> simp [assertionFailed, e]

/-- Something that says something, and then refuses. -/
theorem refused_after {x : Act σ Unit} {h : Handler} {s s' : σ} {before : List Entry} {reason printed shown : Text}
    (hx : x h s = ⟨before, .ok s' ()⟩) (h1 : byRegistry before = printed) (h2 : onConsole before = shown)
    (h3 : told before = []) : Refused h reason printed shown s' ((x >>= fun _ => assertionFailed (α := α) reason) h s) := by
  rw [bind_def, hx]
  refine ⟨before, h1, h2, h3, ?_⟩
  cases h with
  | standard =>
    exact ⟨⟨_, rfl, rfl, rfl, terminate_text reason⟩, rfl⟩
  | user ends =>
    refine ⟨rfl, ?_⟩
    cases e : ends reason <;> simp [assertionFailed, e]

/-- Once refused, always refused. -/
theorem Refused.bind {x : Act σ α} {f : α → Act σ β} {h : Handler} {s s' : σ} {reason printed shown : Text}
    (hx : Refused h reason printed shown s' (x h s)) : Refused h reason printed shown s' ((x >>= f) h s) := by
  rw [bind_def]
  revert hx
  generalize x h s = r
  rintro ⟨before, h1, h2, h3, h4⟩
  obtain ⟨said, result⟩ := r
  cases h with
  | standard =>
    obtain ⟨⟨after, k1, k2, k3, k4⟩, k5⟩ := h4
    dsimp only at k1 k5
    subst k5
    exact ⟨before, h1, h2, h3, ⟨after, k1, k2, k3, k4⟩, rfl⟩
  | user ends =>
    obtain ⟨k1, k2⟩ := h4
    dsimp only at k1 k2
    refine ⟨before, h1, h2, h3, ?_⟩
    cases e : ends reason <;> rw [e] at k2 <;> dsimp only at k2 <;> subst k2 <;> simp [k1, e]

/-- Refusing something local refuses the whole, which is in the state it was in. -/
theorem Refused.withLocal {τ : Type} {init t : τ} {x : Act τ α} {h : Handler} {s : σ} {reason printed shown : Text}
    (hx : Refused h reason printed shown t (x h init)) :
    Refused h reason printed shown s (Failure.withLocal (σ := σ) init x h s) := by
  unfold Failure.withLocal
  revert hx
  generalize x h init = r
  rintro ⟨before, h1, h2, h3, h4⟩
  obtain ⟨said, result⟩ := r
  cases h with
  | standard =>
    obtain ⟨⟨after, k1, k2, k3, k4⟩, k5⟩ := h4
    dsimp only at k1 k5
    subst k5
    exact ⟨before, h1, h2, h3, ⟨after, k1, k2, k3, k4⟩, rfl⟩
  | user ends =>
    obtain ⟨k1, k2⟩ := h4
    dsimp only at k1 k2
    refine ⟨before, h1, h2, h3, ?_⟩
    cases e : ends reason <;> rw [e] at k2 <;> dsimp only at k2 <;> subst k2 <;> simp [k1, e]

/-- How a refused call ends. -/
theorem Refused.result {h : Handler} {reason printed shown : Text} {s : σ} {r : Reply σ α}
    (hr : Refused h reason printed shown s r) :
    r.result = .terminated ∨ r.result = .never ∨ r.result = .threw s := by
  obtain ⟨before, -, -, -, h4⟩ := hr
  cases h with
  | standard => exact .inl h4.2
  | user ends =>
    have := h4.2
    revert this
    cases ends reason <;> simp <;> intro e <;> simp [e]

/-! ## Printing -/

theorem fail_code : Console.failColor = "\x1b[1;31m".toList := rfl

theorem whole_error (color : Bool) : whole (.colored (makeColored "error:".toList color Console.failColor)) =
    Cli.Spec.tinted color "\x1b[1;31m" "error:".toList := Cli.whole_paint color _ _

theorem fits_error {cap : Nat} (hc : 20 ≤ cap) (color : Bool) :
    Fits cap (.colored (makeColored "error:".toList color Console.failColor)) := by
  have h6 : "error:".toList.length = 6 := by decide
  have h7 : Console.failColor.length = 7 := by decide
  have h4 : reset.length = 4 := by decide
  have h0 : ([] : Text).length = 0 := rfl
  cases color
  · show ([] : Text).length + "error:".toList.length + ([] : Text).length ≤ cap ∧
      ([] : Text).length + ([] : Text).length < cap
    omega
  · show Console.failColor.length + "error:".toList.length + reset.length ≤ cap ∧
      Console.failColor.length + reset.length < cap
    omega

/-- The arguments of a message about a limit. -/
theorem limitArgs_eq (color : Bool) (text tail : String) {limit : Nat} (hl : limit < 2 ^ 64) :
    limitArgs color text limit tail = .ok [.colored (makeColored "error:".toList color Console.failColor), .str text.toList,
      .value (Nat.toDigits 10 limit), .str tail.toList] := by
  rw [limitArgs, makeNumber_eq hl]; rfl

/-- What the registry prints about a limit. -/
theorem regPrint_limit {env : Env} (h20 : 20 ≤ env.cap) (hcap : env.cap < 2 ^ 64) {limit : Nat} (hl : limit < 2 ^ 64)
    (text tail : String) (h : Handler) (s : σ) : ∃ before,
      regPrint env (limitArgs env.color text limit tail) h s = ⟨before, .ok s ()⟩ ∧
      byRegistry before = Cli.Spec.tinted env.color "\x1b[1;31m" "error:".toList ++ text.toList ++ Nat.toDigits 10 limit ++
        tail.toList ∧ onConsole before = [] ∧ told before = [] := by
  obtain ⟨chunks, e, hc⟩ := Props.C34_print env.cap hcap [.colored (makeColored "error:".toList env.color Console.failColor),
    .str text.toList, .value (Nat.toDigits 10 limit), .str tail.toList] (by
      intro a ha
      simp only [List.mem_cons, List.not_mem_nil, or_false] at ha
      rcases ha with rfl | rfl | rfl | rfl
      · exact fits_error h20 _
      · trivial
      · exact Nat.le_trans (decimal_length hl) h20
      · trivial)
  refine ⟨chunks.map .registry, ?_, ?_, onConsole_chunks _, told_chunks _⟩
  · rw [regPrint, limitArgs_eq env.color text tail hl, Outcome.bind_ok, e]
  · rw [byRegistry_chunks, hc]
    simp only [List.flatMap_cons, List.flatMap_nil, whole_error, List.append_nil, List.append_assoc]
    rfl

/-- What is printed on the console about a limit. -/
theorem cliPrint_limit {env : Env} (h20 : 20 ≤ env.cap) (hcap : env.cap + 3 < 2 ^ 64) {limit : Nat} (hl : limit < 2 ^ 64)
    (text tail : String) (h : Handler) (s : σ) : ∃ before,
      cliPrint env (limitArgs env.color text limit tail) h s = ⟨before, .ok s ()⟩ ∧
      onConsole before = Verif.Spec.cut env.cap (Cli.Spec.tinted env.color "\x1b[1;31m" "error:".toList ++ text.toList ++
        Nat.toDigits 10 limit ++ tail.toList) ∧ byRegistry before = [] ∧ told before = [] := by
  have e := Cli.say_eq (cap := env.cap) hcap (args := [.colored (makeColored "error:".toList env.color Console.failColor),
    .str text.toList, .value (Nat.toDigits 10 limit), .str tail.toList]) (by
      refine ⟨(show "error:".toList ≠ [] by decide), ?_, fun _ _ _ => trivial⟩
      have := (fits_error h20 env.color).1
      simp only [whole, List.length_append]
      omega)
  refine ⟨[.console (Verif.Spec.cut env.cap (Cli.Spec.tinted env.color "\x1b[1;31m" "error:".toList ++ text.toList ++
        Nat.toDigits 10 limit ++ tail.toList))], ?_, ?_, ?_, ?_⟩
  · rw [cliPrint, limitArgs_eq env.color text tail hl, Outcome.bind_ok, e]
    simp only [List.flatMap_cons, List.flatMap_nil, whole_error, List.append_nil, List.append_assoc]
    rfl
  · exact List.append_nil _
  · rfl
  · rfl

end Verif.Failure
