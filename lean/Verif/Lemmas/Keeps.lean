import Verif.Lemmas.Watch
/-! # What holds of the time throughout a test -/
namespace Verif.Timing
open Verif.Run Spec
variable {clock : Nat → Nat} {cfg : Cfg}

/-- A property of states (and the sections that are open) that every step keeps; `A` says which sections may be entered. -/
structure Keeps (clock : Nat → Nat) (cfg : Cfg) (A : Bool → List Nat → Nat → Prop) (I : List Nat → Timed → Prop) :
    Prop where
  here : ∀ {O s}, I O s → ids s.ts.info = O
  still : ∀ {O s ts'}, I O s → Still s.ts ts' → I O { s with ts := ts' }
  notify : ∀ {O s}, I O s → I O (notify clock cfg s)
  hold : ∀ {O s} (u : Bool), I O s → I O (hold u s)
  enter : ∀ {fl O id loc s s'}, A fl O id → I O s → enterSection clock cfg fl id loc s = .ok (s', true) → I (O ++ [id]) s'
  leave : ∀ {O id u s s'}, I (O ++ [id]) s → leaveEntered clock cfg u s = .ok s' → I O s'

/-- Every section of a body may be entered where it is. -/
def Entered (A : Bool → List Nat → Nat → Prop) : Prog → Bool → List Nat → Prop
  | .done, _, _ => True
  | .stmt _ k, fl, O => Entered A k fl O
  | .sec id _ b k, fl, O => A fl O id ∧ Entered A b fl (O ++ [id]) ∧ Entered A k fl O
  | .capture _ k, fl, O => Entered A k fl O
  | .block b k, fl, O => Entered A b fl O ∧ Entered A k fl O
  | .tryCatch _ b h k, fl, O => Entered A b fl O ∧ Entered A h fl O ∧ Entered A k fl O
  | .nested _ o _ k, fl, O => Entered A o fl O ∧ Entered A k fl O
  | .guard c k, fl, O => (Entered A c fl O ∧ Entered A c true O) ∧ Entered A k fl O

variable {A : Bool → List Nat → Nat → Prop} {I : List Nat → Timed → Prop} {O : List Nat}

/-- Where a call that returns comes from. -/
theorem bind_eq_ok {α β : Type} {x : Outcome α} {f : α → Outcome β} {b : β} (h : (x >>= f) = .ok b) :
    ∃ a, x = .ok a ∧ f a = .ok b := by
  cases x with
  | ok a => exact ⟨a, rfl, h⟩
  | abort => cases h
  | ub => cases h

theorem Keeps.lift (K : Keeps clock cfg A I) {s : Timed} {f : TS → TS} (h : I O s) (hf : ∀ s, Still s (f s)) :
    I O (lift f s) := K.still h (hf s.ts)

theorem Keeps.liftOk (K : Keeps clock cfg A I) {s s' : Timed} {f : TS → Outcome TS} (h : I O s)
    (hf : ∀ {s s'}, f s = .ok s' → Still s s') (e : liftOk f s = .ok s') : I O s' := by
  unfold Timing.liftOk at e
  obtain ⟨ts, h1, h2⟩ := bind_eq_ok e
  cases h2
  exact K.still h (hf h1)

theorem Keeps.arrive (K : Keeps clock cfg A I) {s : Timed} (fl : Bool) (h : I O s) : I O (arrive clock cfg fl s) := by
  cases fl
  · exact K.notify h
  · exact h

theorem Keeps.checkEnter (K : Keeps clock cfg A I) {s s' : Timed} {fl : Bool} {loc : Nat} (h : I O s)
    (e : checkEnter clock cfg fl loc s = .ok s') : I O s' := by
  unfold Timing.checkEnter at e
  obtain ⟨s1, h1, h2⟩ := bind_eq_ok e
  cases h2
  exact K.lift (K.liftOk (K.arrive fl h) still_push h1) (still_inCheck true)

theorem Keeps.endCheck (K : Keeps clock cfg A I) {s : Timed} {x : Timed × Res} {fl : Bool} {r : Res} (h : I O s)
    (e : endCheck fl r s = .ok x) : I O x.1 := by
  unfold Timing.endCheck checkLeave at e
  obtain ⟨s1, h1, h2⟩ := bind_eq_ok e
  cases h2
  exact K.liftOk (K.hold _ (K.lift h (still_inCheck false))) still_pop h1

theorem Keeps.answer [MessageLimit] (K : Keeps clock cfg A I) {s : Timed} {x : Timed × Res} {fl : Bool} {a : Ask}
    {ev : Option Exn} (h : I O s) (e : answer clock cfg fl a ev s = .ok x) : I O x.1 := by
  unfold Timing.answer at e
  split at e
  · exact K.endCheck h e
  · rename_i ok data n ab _
    have h1 : I O (Timing.lift (reportAssertion cfg fl ok data) s) := K.lift h (still_report cfg fl ok data)
    dsimp only at e
    cases n with
    | true => exact K.endCheck (K.notify h1) e
    | false => exact K.endCheck h1 e

theorem Keeps.execStmt [MessageLimit] (K : Keeps clock cfg A I) {s : Timed} {x : Timed × Res} {fl : Bool} {m : Stmt}
    (h : I O s) (e : execStmt clock cfg fl m s = .ok x) : I O x.1 := by
  rcases m.kinds with ⟨a, rfl⟩ | ⟨e', rfl⟩ | rfl | ⟨loc, abort, msg, rfl⟩ | ⟨loc, a, ev, hm⟩
  · cases e
    exact K.lift (f := fun s => { s with log := s.log ++ [.user a] }) h fun s => ⟨rfl, rfl, by simp [endedIn]⟩
  · cases e
    exact h
  · cases e
    exact K.notify h
  · obtain ⟨s1, h1, h2⟩ := bind_eq_ok (x := Timing.checkEnter clock cfg fl loc s) e
    exact K.endCheck (K.lift (K.checkEnter h h1) (still_skipped cfg msg)) h2
  · unfold Timing.execStmt at e
    rw [hm] at e
    obtain ⟨s1, h1, h2⟩ := bind_eq_ok e
    exact K.answer (K.checkEnter h h1) h2

/-- A section that is not entered. -/
theorem Keeps.passBy (K : Keeps clock cfg A I) {s s' : Timed} {fl : Bool} {id loc : Nat} (h : I O s)
    (e : enterSection clock cfg fl id loc s = .ok (s', false)) : I O s' := by
  unfold enterSection at e
  obtain ⟨x, h1, h2⟩ := bind_eq_ok e
  obtain ⟨⟨ts, en⟩, h3, h4⟩ := bind_eq_ok h2
  cases h4
  obtain ⟨h5, h6, h7⟩ := enterLevel_ids h1 h3 rfl
  exact K.still (K.arrive fl h) ⟨by simpa using h7, by rw [h5], h6⟩

theorem Keeps.addCaptures (K : Keeps clock cfg A I) {fl : Bool} (cs : List Text) : ∀ {s s' : Timed}, I O s →
    addCaptures clock cfg fl cs s = .ok s' → I O s' := by
  induction cs with
  | nil => intro s s' h e; cases e; exact h
  | cons c cs ih =>
    intro s s' h e
    unfold Timing.addCaptures at e
    split at e
    · cases e
    · exact ih (K.lift (K.arrive fl h) (still_pushCapture c)) e

theorem Keeps.popCaptures (K : Keeps clock cfg A I) {n : Nat} {u : Bool} {s s' : Timed} (h : I O s)
    (e : popCaptures n u s = .ok s') : I O s' := by
  unfold Timing.popCaptures at e
  obtain ⟨ts, h1, h2⟩ := bind_eq_ok e
  cases h2
  exact K.still (K.hold u h) (still_popCaptures h1)

/-- Executing a body keeps it, too; and when the body ends, the same sections are open as when it began. -/
theorem Keeps.exec [MessageLimit] (K : Keeps clock cfg A I) (p : Prog) : ∀ {fl : Bool} {O : List Nat} {s : Timed}
    {x : Timed × Res}, Entered A p fl O → I O s → exec clock cfg fl p s = .ok x → I O x.1 := by
  induction p with
  | done => intro fl O s x _ h e; cases e; exact h
  | stmt m k ih =>
    intro fl O s x ha h e
    unfold Timing.exec at e
    obtain ⟨⟨s1, r⟩, h1, h2⟩ := bind_eq_ok e
    have h3 := K.execStmt h h1
    cases r with
    | normal => exact ih ha h3 h2
    | raised e => cases h2; exact h3
  | sec id loc b k ihb ihk =>
    intro fl O s x ha h e
    unfold Timing.exec at e
    obtain ⟨⟨s1, en⟩, h1, h2⟩ := bind_eq_ok e
    cases en with
    | false =>
      obtain ⟨s2, h3, h4⟩ := bind_eq_ok (x := leaveSection clock cfg false fl s1) h2
      cases h3
      exact ihk ha.2.2 (K.lift (K.passBy h h1) still_decDepth) h4
    | true =>
      obtain ⟨⟨s2, r⟩, h3, h4⟩ := bind_eq_ok (x := Timing.exec clock cfg fl b s1) h2
      have h5 := ihb ha.2.1 (K.enter ha.1 h h1) h3
      obtain ⟨s3, h6, h7⟩ := bind_eq_ok h4
      unfold leaveSection at h6
      rw [if_pos rfl] at h6
      obtain ⟨s4, h8, h9⟩ := bind_eq_ok h6
      cases h9
      have h10 := K.lift (K.leave h5 h8) still_decDepth
      cases r with
      | normal => exact ihk ha.2.2 h10 h7
      | raised e => cases h7; exact h10
  | capture caps k ih =>
    intro fl O s x ha h e
    unfold Timing.exec at e
    obtain ⟨s1, h1, h2⟩ := bind_eq_ok e
    obtain ⟨⟨s2, r⟩, h3, h4⟩ := bind_eq_ok h2
    obtain ⟨s3, h5, h6⟩ := bind_eq_ok h4
    cases h6
    exact K.popCaptures (ih ha (K.addCaptures caps h h1) h3) h5
  | block b k ihb ihk =>
    intro fl O s x ha h e
    unfold Timing.exec at e
    obtain ⟨⟨s1, r⟩, h1, h2⟩ := bind_eq_ok e
    have h3 := ihb ha.1 h h1
    cases r with
    | normal => exact ihk ha.2 h3 h2
    | raised e => cases h2; exact h3
  | tryCatch type b hd k ihb ihh ihk =>
    intro fl O s x ha h e
    unfold Timing.exec at e
    obtain ⟨⟨s1, r⟩, h1, h2⟩ := bind_eq_ok e
    have h3 := ihb ha.1 h h1
    cases r with
    | normal => exact ihk ha.2.2 h3 h2
    | raised e =>
      dsimp only at h2
      split at h2
      · obtain ⟨⟨s2, r2⟩, h4, h5⟩ := bind_eq_ok h2
        have h6 := ihh ha.2.1 h3 h4
        cases r2 with
        | normal => exact ihk ha.2.2 h6 h5
        | raised e => cases h5; exact h6
      · cases h2; exact h3
  | nested loc o a k iho ihk =>
    intro fl O s x ha h e
    unfold Timing.exec at e
    obtain ⟨s1, h1, h2⟩ := bind_eq_ok e
    obtain ⟨⟨s2, r⟩, h3, h4⟩ := bind_eq_ok h2
    obtain ⟨⟨s3, r3⟩, h5, h6⟩ := bind_eq_ok h4
    have h7 := K.answer (iho ha.1 (K.checkEnter h h1) h3) h5
    cases r3 with
    | normal => exact ihk ha.2 h7 h6
    | raised e => cases h6; exact h7
  | guard c k ihc ihk =>
    intro fl O s x ha h e
    unfold Timing.exec at e
    obtain ⟨⟨s1, r⟩, h1, h2⟩ := bind_eq_ok e
    have h3 := ihk ha.2 h h1
    obtain ⟨⟨s2, r2⟩, h4, h5⟩ := bind_eq_ok h2
    have h6 : I O s2 := by
      cases hf : (fl || decide (r ≠ .normal)) with
      | true => rw [hf] at h4; exact ihc ha.1.2 h3 h4
      | false =>
        rw [hf] at h4
        have : fl = false := by cases fl <;> simp_all
        subst this
        exact ihc ha.1.1 h3 h4
    cases r2 with
    | normal => cases h5; exact h6
    | raised e => cases h5

theorem Keeps.clearFinished (K : Keeps clock cfg A I) (hs : ∀ {s : Timed}, I [] s → s.watch.starts = []) {s : Timed}
    (h : I [] s) : I [] (clearFinished s) := by
  have h1 : I [] { s with ts := Run.clearFinished s.ts } := K.still h (still_clearFinished (K.here h))
  have h2 : (Timing.clearFinished s) = { s with ts := Run.clearFinished s.ts } := by
    unfold Timing.clearFinished
    congr 1
    have := hs h
    split
    · split
      · rw [← this]
      · rfl
    · rfl
  rw [h2]
  exact h1

theorem Keeps.runLoop [MessageLimit] (K : Keeps clock cfg A I) (hs : ∀ {s : Timed}, I [] s → s.watch.starts = [])
    {bodies : Nat → Prog} (ha : ∀ n, Entered A (bodies n) false []) (fuel : Nat) : ∀ {n : Nat} {s : Timed} {x : Timed × Res},
    I [] s → runLoop clock cfg bodies fuel n s = some (.ok x) → I [] x.1 := by
  induction fuel with
  | zero => intro n s x _ e; cases e
  | succ fuel ih =>
    intro n s x h e
    unfold Timing.runLoop at e
    cases hx : Timing.exec clock cfg false (bodies n) (Timing.lift resetPass s) with
    | abort => rw [hx] at e; cases e
    | ub => rw [hx] at e; cases e
    | ok y =>
      have h1 := K.exec (bodies n) (ha n) (K.lift h still_resetPass) hx
      rw [hx] at e
      obtain ⟨s1, r⟩ := y
      cases r with
      | raised e' => cases e; exact h1
      | normal =>
        dsimp only at e
        have h2 := K.clearFinished hs h1
        split at e
        · exact ih h2 e
        · cases e; exact h2

theorem Keeps.afterLoop [MessageLimit] (K : Keeps clock cfg A I) {s : Timed} {r : Res} (h : I O s) :
    I O (Timing.lift (checkShouldFail cfg) (afterLoop clock cfg s r)) := by
  refine K.lift ?_ (still_checkShouldFail cfg)
  unfold Timing.afterLoop settle
  have h1 : I O (Timing.lift (fun s => reportEnd cfg s r) s) := K.lift h fun s => still_reportEnd cfg s r
  refine K.lift ?_ (still_unhandled false)
  split
  · exact K.notify h1
  · exact h1

end Verif.Timing
