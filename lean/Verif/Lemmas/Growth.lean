import Verif.Model.Whole
/-!
# What a reporter has printed stays printed
-/
namespace Verif.Whole
open Verif Verif.Report

/-- If the computation ends normally, the text `o` is at the beginning of what has been printed. -/
def Ends {S : Type} (o : Text) (out : S → Text) (x : Outcome S) : Prop := ∀ s, x = .ok s → o <+: out s

theorem Ends.ok {S : Type} {o : Text} {out : S → Text} {s : S} (h : o <+: out s) : Ends o out (.ok s) := by
  intro s' h'
  cases h'
  exact h

theorem Ends.bind {S T : Type} {o : Text} {out : S → Text} {out' : T → Text} {x : Outcome S} {f : S → Outcome T}
    (h : Ends o out x) (hf : ∀ s, o <+: out s → Ends o out' (f s)) : Ends o out' (x >>= f) := by
  intro s' h'
  cases hx : x with
  | ok s => rw [hx] at h'; exact hf s (h s hx) s' h'
  | abort => rw [hx] at h'; cases h'
  | ub => rw [hx] at h'; cases h'

theorem Ends.value {S α : Type} {o : Text} {out : S → Text} {x : Outcome α} {f : α → Outcome S}
    (hf : ∀ a, Ends o out (f a)) : Ends o out (x >>= f) := by
  intro s' h'
  cases hx : x with
  | ok a => rw [hx] at h'; exact hf a s' h'
  | abort => rw [hx] at h'; cases h'
  | ub => rw [hx] at h'; cases h'

theorem Ends.ite {S : Type} {o : Text} {out : S → Text} {c : Prop} [Decidable c] {x y : Outcome S}
    (hx : Ends o out x) (hy : Ends o out y) : Ends o out (if c then x else y) := by
  split
  · exact hx
  · exact hy

namespace Console
open Report.Console

theorem say {o : Text} {st : Report.Console.State} (h : o <+: st.out) (lim : Limits) (args : List Print.Arg) :
    Ends o Report.Console.State.out (say lim args st) :=
  .value fun _ => .ok (h.trans (List.prefix_append _ _))

theorem say1 {o : Text} {st : Report.Console.State} (h : o <+: st.out) (s : Text) : o <+: (say1 s st).out :=
  h.trans (List.prefix_append _ _)

theorem sections {o : Text} (lim : Limits) (color : Bool) : ∀ (l : List SectionId) {st : Report.Console.State}, o <+: st.out →
    Ends o Report.Console.State.out (printSections lim color l st)
  | [], _, h => .ok h
  | _ :: l, _, h => .bind (say h lim _) fun _ h => sections lim color l h

theorem captures {o : Text} (lim : Limits) (color : Bool) : ∀ (l : List Text) {st : Report.Console.State}, o <+: st.out →
    Ends o Report.Console.State.out (printCaptures lim color l st)
  | [], _, h => .ok h
  | _ :: l, _, h => .bind (say h lim _) fun _ h => captures lim color l h

theorem location {o : Text} {st : Report.Console.State} (h : o <+: st.out) (lim : Limits) (color : Bool) (id : Id) (place : Place) :
    Ends o Report.Console.State.out (printLocation lim color id place st) :=
  .bind (say h lim _) fun _ h => .bind (sections lim color _ h) fun _ h => .value fun _ => .bind (say h lim _) fun _ h =>
    .bind (out := Report.Console.State.out) (.ite (.ok h) (say h lim _)) fun _ h => captures lim color _ h

theorem message {o : Text} {st : Report.Console.State} (h : o <+: st.out) (lim : Limits) (color : Bool) (data : Data) :
    Ends o Report.Console.State.out (printMessage lim color data st) := by
  cases data with
  | message m => exact say h lim _
  | expression type expected actual =>
    exact .value fun _ => .bind (say h lim _) fun _ h => .ite (.ok (say1 h _)) (.ite (say h lim _) (say h lim _))

theorem grows (lim : Limits) (color : Bool) (st : Report.Console.State) (e : Report.Console.Event) :
    Ends st.out Report.Console.State.out (report lim color st e) := by
  have h : st.out <+: st.out := List.prefix_refl _
  cases e with
  | runStarted name => exact .bind (say h lim _) fun _ h => .ok (say1 h _)
  | runEnded success run fail skip asserts duration =>
    refine .bind (out := Report.Console.State.out) (.ite (.value fun _ => .value fun _ => say (say1 h _) lim _)
      (.value fun _ => .value fun _ => .value fun _ => say (say1 h _) lim _)) fun _ h => ?_
    exact .bind (out := Report.Console.State.out) (.ite (.value fun _ => say h lim _) (.ok h)) fun _ h =>
      .bind (out := Report.Console.State.out) (.ite (say h lim _) (.ok h)) fun _ h => .ok (say1 h _)
  | caseStarted id loc => exact .value fun _ => .value fun _ => say h lim _
  | caseEnded id duration => exact .value fun _ => .ite (say h lim _) (say h lim _)
  | sectionStarted id loc => exact .value fun _ => say h lim _
  | sectionEnded id => exact say h lim _
  | caseSkipped id place m =>
    exact .bind (say h lim _) fun _ h => .bind (location h lim color _ _) fun _ h => say h lim _
  | assertionFailed id place data ex al =>
    exact .bind (say h lim _) fun _ h => .bind (location h lim color _ _) fun _ h => message h lim color _
  | assertionSucceeded id place data =>
    exact .bind (say h lim _) fun _ h => .bind (location h lim color _ _) fun _ h => message h lim color _
  | listStarted => exact .ok (say1 h _)
  | listEnded => exact .value fun _ => say h lim _
  | listed id =>
    exact .value fun _ => .bind (out := Report.Console.State.out) (say (st := ⟨(st.counter + 1) % sizeT, st.out⟩) h lim _) fun _ h =>
      .ite (.ok h) (say h lim _)

end Console

theorem say {o : Text} {rep : Rep} (h : o <+: rep.out) (lim : Limits) (args : List Text) :
    Ends o Rep.out (Report.say lim args rep) :=
  .value fun _ => .ok (h.trans (List.prefix_append _ _))

theorem say1 {o : Text} {rep : Rep} (h : o <+: rep.out) (s : Text) : o <+: (Report.say1 s rep).out :=
  h.trans (List.prefix_append _ _)

namespace TeamCity
open Report.TeamCity

theorem captures {o : Text} (lim : Limits) : ∀ (l : List Text) {rep : Rep}, o <+: rep.out →
    Ends o Rep.out (printCaptures lim l rep)
  | [], _, h => .ok h
  | _ :: l, _, h => .value fun _ => .bind (say h lim _) fun _ h => captures lim l h

theorem data {o : Text} {rep : Rep} (h : o <+: rep.out) (lim : Limits) (d : Data) :
    Ends o Rep.out (printData lim d rep) := by
  cases d with
  | message m => exact .value fun _ => say h lim _
  | expression type expected actual =>
    exact .value fun _ => .bind (say h lim _) fun _ h =>
      .ite (.ite (.value fun _ => say h lim _) (.value fun _ => say h lim _)) (.ok (say1 h _))

theorem location {o : Text} {rep : Rep} (h : o <+: rep.out) (lim : Limits) (loc : Location) :
    Ends o Rep.out (printLocation lim loc rep) :=
  .value fun _ => .value fun _ => .value fun _ => .ok (h.trans (List.prefix_append _ _))

theorem args {o : Text} (lim : Limits) : ∀ (l : List (Text × Value)) {rep : Rep}, o <+: rep.out →
    Ends o Rep.out (sendArgs lim l rep)
  | [], _, h => .ok h
  | (_, .text _) :: l, _, h => .bind (say h lim _) fun _ h => .bind (say h lim _) fun _ h => args lim l h
  | (_, .assertion _ _ _) :: l, _, h => .bind (say h lim _) fun _ h =>
    .bind (out := Rep.out) (.bind (location h lim _) fun _ h => .bind (captures lim _ h) fun _ h => data h lim _)
      fun _ h => args lim l h

theorem send {o : Text} {rep : Rep} (h : o <+: rep.out) (lim : Limits) (m : Text) (l : List (Text × Value)) :
    Ends o Rep.out (sendMessage lim m l rep) :=
  .bind (say h lim _) fun _ h => .bind (args lim _ h) fun _ h => .ok (say1 h _)

theorem grows (lim : Limits) (rep : Rep) (e : Event) : Ends rep.out Rep.out (report lim rep e) := by
  have h : rep.out <+: rep.out := List.prefix_refl _
  cases e with
  | runStarted name filters => exact .value fun _ => send h lim _ _
  | runEnded name filters run fail allowedFail skip counts => exact .value fun _ => send h lim _ _
  | caseStarted id loc => exact .value fun _ => send h lim _ _
  | caseEnded id loc state d micros => exact .value fun _ => .value fun _ => send h lim _ _
  | sectionStarted id loc => exact send h lim _ _
  | sectionEnded id loc skipped counts d => exact send h lim _ _
  | caseSkipped id captures loc m => exact .value fun _ => send h lim _ _
  | assertionFailed id captures loc data ex al => exact .value fun _ => send h lim _ _
  | assertionSucceeded id captures loc data => exact .value fun _ => send h lim _ _
  | listStarted name filters => exact .ok h
  | listEnded name filters => exact .ok h
  | listed id loc => exact .value fun _ => say h lim _

end TeamCity

namespace Xml
open Report.Xml

theorem args {o : Text} (lim : Limits) : ∀ (l : List (Text × Text)) {rep : Rep}, o <+: rep.out →
    Ends o Rep.out (sayArgs lim l rep)
  | [], _, h => .ok h
  | _ :: l, _, h => .bind (say h lim _) fun _ h => args lim l h

theorem opens {o : Text} {rep : Rep} (h : o <+: rep.out) (lim : Limits) (name : Text) (l : List (Text × Text)) :
    Ends o Rep.out (openTag lim name l rep) :=
  .bind (say h lim _) fun _ h => .bind (args lim _ h) fun _ h => .ok (say1 h _)

theorem nodes {o : Text} {rep : Rep} (h : o <+: rep.out) (lim : Limits) (name : Text) (l : List (Text × Text)) :
    Ends o Rep.out (node lim name l rep) :=
  .bind (say h lim _) fun _ h => .bind (args lim _ h) fun _ h => .ok (say1 h _)

theorem closes {o : Text} {rep : Rep} (h : o <+: rep.out) (lim : Limits) (name : Text) :
    Ends o Rep.out (close lim name rep) := by
  unfold close
  exact say (rep := { rep with level := Report.subSize rep.level 1 }) h lim _

theorem prints {o : Text} {rep : Rep} (h : o <+: rep.out) (lim : Limits) (t : Text) :
    Ends o Rep.out (print lim t rep) := say h lim _

theorem boths {o : Text} {rep : Rep} (h : o <+: rep.out) (lim : Limits) (name t : Text) :
    Ends o Rep.out (openClose lim name t rep) := .ite (nodes h lim _ _) (say h lim _)

theorem captures {o : Text} (lim : Limits) : ∀ (l : List Text) {rep : Rep}, o <+: rep.out →
    Ends o Rep.out (reportCaptures lim l rep)
  | [], _, h => .ok h
  | _ :: l, _, h => .bind (opens h lim _ _) fun _ h => .value fun _ => .bind (prints h lim _) fun _ h =>
    .bind (closes h lim _) fun _ h => captures lim l h

theorem assertion {o : Text} {rep : Rep} (h : o <+: rep.out) (lim : Limits) (l : List Text) (loc : Location) (d : Data)
    (b : Bool) : Ends o Rep.out (reportAssertion lim l loc d b rep) := by
  refine .bind (captures lim _ h) fun _ h => ?_
  cases d with
  | message m =>
    exact .value fun _ => .value fun _ => .bind (opens h lim _ _) fun _ h => .value fun _ => .bind (prints h lim _)
      fun _ h => closes h lim _
  | expression type expected actual =>
    exact .value fun _ => .value fun _ => .bind (opens h lim _ _) fun _ h => .bind (opens h lim _ _) fun _ h =>
      .value fun _ => .bind (prints h lim _) fun _ h => .bind (closes h lim _) fun _ h => .bind (opens h lim _ _)
      fun _ h => .value fun _ => .bind (prints h lim _) fun _ h => .bind (closes h lim _) fun _ h => closes h lim _

theorem grows (lim : Limits) (rep : Rep) (e : Event) : Ends rep.out Rep.out (report lim rep e) := by
  have h : rep.out <+: rep.out := List.prefix_refl _
  cases e with
  | runStarted name filters =>
    exact .bind (prints h lim _) fun _ h => .value fun _ => .value fun _ => opens h lim _ _
  | runEnded name filters run fail allowedFail skip counts =>
    exact .value fun _ => .value fun _ => .bind (nodes h lim _ _) fun _ h => .value fun _ => .bind (nodes h lim _ _)
      fun _ h => closes h lim _
  | caseStarted id loc => exact .value fun _ => .value fun _ => .value fun _ => opens h lim _ _
  | caseEnded id loc state d micros => exact .bind (nodes h lim _ _) fun _ h => closes h lim _
  | sectionStarted id loc => exact .value fun _ => .value fun _ => opens h lim _ _
  | sectionEnded id loc skipped counts d => exact .value fun _ => .bind (nodes h lim _ _) fun _ h => closes h lim _
  | caseSkipped id captures loc m =>
    exact .value fun _ => .bind (opens h lim _ _) fun _ h => .bind (prints h lim _) fun _ h => closes h lim _
  | assertionFailed id captures loc data ex al => exact assertion h lim _ _ _ _
  | assertionSucceeded id captures loc data => exact assertion h lim _ _ _ _
  | listStarted name filters => exact .bind (prints h lim _) fun _ h => opens h lim _ _
  | listEnded name filters => exact closes h lim _
  | listed id loc =>
    exact .bind (opens h lim _ _) fun _ h => .value fun _ => .bind (boths h lim _ _) fun _ h => .value fun _ =>
      .bind (boths h lim _ _) fun _ h => .value fun _ => .bind (boths h lim _ _) fun _ h => .bind (opens h lim _ _)
      fun _ h => .value fun _ => .bind (boths h lim _ _) fun _ h => .value fun _ => .bind (boths h lim _ _) fun _ h =>
      .bind (closes h lim _) fun _ h => closes h lim _

end Xml

/-- A reporter only adds to what it has printed. -/
theorem Device.grows {rl : Limits} {color : Bool} {d d' : Device} {e : Events.Event}
    (h : d.report rl color e = .ok d') : d'.out = d.out ++ d'.out.drop d.out.length := by
  have key : d.out <+: d'.out := by
    cases d with
    | console st =>
      exact Ends.bind (f := fun x => Outcome.ok (Device.console x)) (out' := Device.out) (Console.grows rl color st _)
        (fun _ h => .ok h) _ h
    | teamcity rep =>
      exact Ends.bind (f := fun x => Outcome.ok (Device.teamcity x)) (out' := Device.out) (TeamCity.grows rl rep _)
        (fun _ h => .ok h) _ h
    | xml rep =>
      exact Ends.bind (f := fun x => Outcome.ok (Device.xml x)) (out' := Device.out) (Xml.grows rl rep _)
        (fun _ h => .ok h) _ h
  obtain ⟨t, ht⟩ := key
  rw [← ht, List.drop_left]

end Verif.Whole
