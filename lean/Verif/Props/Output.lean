import Verif.Spec.Output
import Verif.Lemmas.File
/-!
# C63: everything printed goes to the place chosen last
-/
namespace Verif.Props
open Verif.Output Verif.Output.Spec

/-- The state agrees with the view of a user. -/
private structure Agrees (s : State) (v : View) : Prop where
  files : ∃ st past, File.Inv s.files st past
  opened : s.files.files = v.opened
  closed : s.held = none → v.isOpen = none ∧ ∀ x ∈ s.files.writers, x = none
  held : ∀ i, s.held = some i → ∃ k, v.isOpen = some k ∧ s.files.at i = some (some k) ∧
    ∀ j x, s.files.at j = some x → j = i
  place : s.callback = match v.place with
    | .stdout => Callback.stdout
    | .user c => Callback.user c
    | .file _ => Callback.writer
  current : ∀ k k', v.place = .file k → v.isOpen = some k' → k = k'

private theorem agrees_start : Agrees {} {} :=
  ⟨⟨_, _, File.inv_start⟩, rfl, fun _ => ⟨rfl, by simp⟩, by simp, rfl, by simp⟩

private theorem at_append_left {w : List (Option (Option Nat))} {x : Option (Option Nat)} {i : Nat} (h : i < w.length) :
    (w ++ [x])[i]?.join = w[i]?.join := by rw [List.getElem?_append_left h]

private theorem step_agrees {maxPath : Nat} (hm : maxPath + 1 < 2 ^ 64) {s : State} {v : View} (h : Agrees s v) (op : Op)
    (ho : Openable maxPath [op]) (hl : ∀ m, op = .print m → ∀ k, v.place = .file k → v.isOpen = some k) :
    ∃ s', step maxPath s op = .ok s' ∧ Agrees s' (v.after op) ∧
      s'.files.calls = s.files.calls ++ fileCalls (v.events op) ∧ s'.others = s.others ++ otherTexts (v.events op) := by
  obtain ⟨st, past, hf⟩ := h.files
  cases op with
  | set c =>
    refine ⟨_, rfl, ⟨h.files, h.opened, h.closed, h.held, rfl, by intro k k' hk; cases hk⟩, by simp [View.events,
      fileCalls], by simp [View.events, otherTexts]⟩
  | print m =>
    cases hv : v.place with
    | stdout =>
      have hp : s.callback = .stdout := by rw [h.place, hv]
      refine ⟨{ s with others := s.others ++ [(none, m)] }, by simp only [step, Output.print, hp], ⟨h.files, h.opened, h.closed, h.held, ?_, h.current⟩, ?_, ?_⟩
      · show s.callback = _
        rw [View.after, hv, hp]
      · simp [View.events, hv, fileCalls]
      · simp [View.events, hv, otherTexts]
    | user c =>
      have hp : s.callback = .user c := by rw [h.place, hv]
      refine ⟨{ s with others := s.others ++ [(some c, m)] }, by simp only [step, Output.print, hp], ⟨h.files, h.opened, h.closed, h.held, ?_, h.current⟩, ?_, ?_⟩
      · show s.callback = _
        rw [View.after, hv, hp]
      · simp [View.events, hv, fileCalls]
      · simp [View.events, hv, otherTexts]
    | file k =>
      have hp : s.callback = .writer := by rw [h.place, hv]
      have hk := hl m rfl k hv
      cases hh : s.held with
      | none => rw [(h.closed hh).1] at hk; cases hk
      | some i =>
        obtain ⟨k', h1, h2, h3⟩ := h.held i hh
        rw [hk] at h1; cases h1
        have hu := (File.inUse_iff st k).mpr ⟨i, (hf.at_file h2).2.2⟩
        have e : File.step maxPath s.files (.write i m) =
            .ok { s.files with calls := s.files.calls ++ [.written k m] } := by
          simp [File.step, h2, File.write, hf.isOpen hu]
        obtain ⟨w', e', i'⟩ := hf.step hm (.write i m) (by intro op hop p su e; simp at hop; rw [hop] at e; cases e)
        rw [e] at e'; cases e'
        refine ⟨{ s with files := { s.files with calls := s.files.calls ++ [.written k m] } }, ?_, ?_, ?_, ?_⟩
        · rw [step, Output.print, hp]; simp only [hh, e]; rfl
        · exact ⟨⟨_, _, i'⟩, h.opened, h.closed, h.held, by rw [View.after, hv]; exact hp, h.current⟩
        · simp [View.events, hv, fileCalls]
        · simp [View.events, hv, otherTexts]
  | endRun =>
    cases hh : s.held with
    | none =>
      have hc := (h.closed hh).1
      refine ⟨s, by rw [step, endRun, hh], ⟨h.files, h.opened, fun _ => ⟨rfl, (h.closed hh).2⟩, ?_, h.place, ?_⟩,
        by simp [View.events, hc, fileCalls], by simp [View.events, hc, otherTexts]⟩
      · intro i hi; rw [hh] at hi; cases hi
      · intro k k' _ hk; cases hk
    | some i =>
      obtain ⟨k, h1, h2, h3⟩ := h.held i hh
      have hu := (File.inUse_iff st k).mpr ⟨i, (hf.at_file h2).2.2⟩
      have e : File.step maxPath s.files (.destroy i) =
          .ok { s.files with calls := s.files.calls ++ [.closed k], writers := s.files.writers.set i none } := by
        simp [File.step, h2, File.close, hf.isOpen hu]
      obtain ⟨w', e', i'⟩ := hf.step hm (.destroy i) (by intro op hop p su e; simp at hop; rw [hop] at e; cases e)
      rw [e] at e'; cases e'
      refine ⟨_, by rw [step, endRun, hh]; simp only [e]; rfl, ?_, ?_, ?_⟩
      · refine ⟨⟨_, _, i'⟩, h.opened, fun _ => ⟨rfl, ?_⟩, by simp, h.place, ?_⟩
        · intro x hx
          obtain ⟨j, hj⟩ := List.mem_iff_getElem?.mp hx
          simp only at hj
          by_cases hij : i = j
          · subst hij
            rw [List.getElem?_set_self (File.lt_of_getElem? (File.at_some h2))] at hj
            exact (Option.some.inj hj).symm
          · rw [List.getElem?_set_ne hij] at hj
            cases x with
            | none => rfl
            | some y => exact absurd (h3 j y (by rw [File.World.at, hj]; rfl)).symm hij
        · intro k k' _ hk; cases hk
      · simp [View.events, h1, fileCalls]
      · simp [View.events, h1, otherTexts]
  | out path succeeds =>
    obtain ⟨rfl, hlen, h0⟩ := ho path succeeds (List.mem_singleton.mpr rfl)
    have hopen : File.Spec.Openable maxPath [.open path true] := by
      intro op hop p su e; simp at hop; rw [hop] at e; cases e; exact ⟨rfl, hlen, h0⟩
    obtain ⟨w1, e1, i1⟩ := hf.step hm _ hopen
    have e1' : File.step maxPath s.files (.open path true) =
        .ok { writers := s.files.writers ++ [some (some s.files.files)], files := s.files.files + 1,
              calls := s.files.calls ++ [.opened s.files.files path] } := by
      simp only [File.step, File.openFile, File.pathFor_ok maxPath hm path hlen h0, Outcome.bind_ok, if_true]; rfl
    rw [e1] at e1'; cases e1'
    generalize hst1 : st.after (.open path true) = st1 at i1
    have ht : File.World.at ⟨s.files.writers ++ [some (some s.files.files)], s.files.files + 1,
        s.files.calls ++ [.opened s.files.files path]⟩ s.files.writers.length = some (some s.files.files) := by
      simp [File.World.at]
    cases hh : s.held with
    | none =>
      obtain ⟨hc1, hc2⟩ := h.closed hh
      obtain ⟨w2, e2, i2⟩ := i1.step hm (.createFrom s.files.writers.length)
        (by intro op hop p su e; simp at hop; rw [hop] at e; cases e)
      have e2' := e2
      rw [File.step, ht] at e2'
      cases e2'
      have ht2 : File.World.at ⟨(s.files.writers ++ [some (some s.files.files)]).set s.files.writers.length
            (some none) ++ [some (some s.files.files)], s.files.files + 1,
          s.files.calls ++ [.opened s.files.files path]⟩ s.files.writers.length = some none := by
        simp [File.World.at]
      obtain ⟨w3, e3, i3⟩ := i2.step hm (.destroy s.files.writers.length)
        (by intro op hop p su e; simp at hop; rw [hop] at e; cases e)
      have e3' := e3
      rw [File.step, ht2] at e3'
      simp only [File.close, Outcome.bind_ok] at e3'
      cases e3'
      refine ⟨_, by rw [step, configureOut, assignWriter, e1]; simp only [Outcome.bind_ok, hh, e2, e3]; rfl, ?_, ?_, ?_⟩
      · refine ⟨⟨_, _, i3⟩, by simp [View.after, h.opened], by simp, ?_, rfl, ?_⟩
        · intro i hi
          simp only [Option.some.injEq, List.length_append, List.length_singleton] at hi
          subst hi
          refine ⟨s.files.files, by rw [View.after, h.opened], by simp [File.World.at], ?_⟩
          intro j x hx
          have hx := File.at_some hx
          simp only at hx
          rcases Nat.lt_trichotomy j s.files.writers.length with hj | hj | hj
          · rw [List.getElem?_set_ne (by omega), List.getElem?_append_left (by simp; omega),
              List.getElem?_set_ne (by omega), List.getElem?_append_left hj] at hx
            have := hc2 _ (List.mem_iff_getElem?.mpr ⟨j, hx⟩)
            cases this
          · rw [hj, List.getElem?_set_self (by simp)] at hx
            cases hx
          · have := File.lt_of_getElem? hx
            simp at this
            omega
        · intro k k' hk hk'
          simp only [View.after, Place.file.injEq, Option.some.injEq] at hk hk'
          omega
      · simp [View.events, hc1, fileCalls, h.opened]
      · simp [View.events, hc1, otherTexts]
    | some i =>
      obtain ⟨k, h1, h2, h3⟩ := h.held i hh
      have hi := File.lt_of_getElem? (File.at_some h2)
      have hi1 : File.World.at ⟨s.files.writers ++ [some (some s.files.files)], s.files.files + 1,
        s.files.calls ++ [.opened s.files.files path]⟩ i = some (some k) := by
        rw [← h2, File.World.at, File.World.at, at_append_left hi]
      obtain ⟨w2, e2, i2⟩ := i1.step hm (.assign i s.files.writers.length)
        (by intro op hop p su e; simp at hop; rw [hop] at e; cases e)
      have e2' := e2
      rw [File.step, ht, hi1] at e2'
      simp only at e2'
      cases e2'
      have ht2 : File.World.at ⟨((s.files.writers ++ [some (some s.files.files)]).set i
            (some (some s.files.files))).set s.files.writers.length (some (some k)), s.files.files + 1,
          s.files.calls ++ [.opened s.files.files path]⟩ s.files.writers.length = some (some k) := by
        simp [File.World.at]
      have hu := (File.inUse_iff _ k).mpr ⟨_, (i2.at_file ht2).2.2⟩
      have ho2 := i2.isOpen hu
      obtain ⟨w3, e3, i3⟩ := i2.step hm (.destroy s.files.writers.length)
        (by intro op hop p su e; simp at hop; rw [hop] at e; cases e)
      have e3' := e3
      rw [File.step, ht2] at e3'
      simp only [File.close] at e3'
      rw [if_pos ho2] at e3'
      cases e3'
      refine ⟨_, by rw [step, configureOut, assignWriter, e1]; simp only [Outcome.bind_ok, hh, e2, e3]; rfl, ?_, ?_, ?_⟩
      · refine ⟨⟨_, _, i3⟩, by simp [View.after, h.opened], by simp [hh], ?_, rfl, ?_⟩
        · intro i' hi'
          simp only [hh, Option.some.injEq] at hi'
          subst hi'
          have hne : s.files.writers.length ≠ i := by omega
          refine ⟨s.files.files, by rw [View.after, h.opened], ?_, ?_⟩
          · rw [File.World.at]
            simp only
            rw [List.getElem?_set_ne hne, List.getElem?_set_ne hne, List.getElem?_set_self (by simp; omega)]
            rfl
          · intro j x hx
            have hx := File.at_some hx
            simp only at hx
            rcases Nat.lt_trichotomy j s.files.writers.length with hj | hj | hj
            · rw [List.getElem?_set_ne (by omega), List.getElem?_set_ne (by omega)] at hx
              by_cases hji : j = i
              · exact hji
              · rw [List.getElem?_set_ne (Ne.symm hji), List.getElem?_append_left hj] at hx
                exact h3 j x (by rw [File.World.at, hx]; rfl)
            · rw [hj, List.getElem?_set_self (by simp)] at hx
              cases hx
            · have := File.lt_of_getElem? hx
              simp at this
              omega
        · intro k k' hk hk'
          simp only [View.after, Place.file.injEq, Option.some.injEq] at hk hk'
          omega
      · simp [View.events, h1, fileCalls, h.opened]
      · simp [View.events, h1, otherTexts]

private theorem fileCalls_append (a b : List Event) : fileCalls (a ++ b) = fileCalls a ++ fileCalls b := by
  simp [fileCalls]

private theorem otherTexts_append (a b : List Event) : otherTexts (a ++ b) = otherTexts a ++ otherTexts b := by
  simp [otherTexts]

private theorem history_agrees {maxPath : Nat} (hm : maxPath + 1 < 2 ^ 64) (ops : List Op) : ∀ {s : State} {v : View},
    Agrees s v → Openable maxPath ops → Legal v ops →
    ∃ s', history maxPath ops s = .ok s' ∧ Agrees s' (ops.foldl View.after v) ∧
      s'.files.calls = s.files.calls ++ fileCalls (trace v ops) ∧
      s'.others = s.others ++ otherTexts (trace v ops) := by
  induction ops with
  | nil => intro s v h _ _; exact ⟨s, rfl, h, by simp [trace, fileCalls], by simp [trace, otherTexts]⟩
  | cons op ops ih =>
    intro s v h ho hl
    obtain ⟨s1, e1, a1, c1, o1⟩ := step_agrees hm h op
      (fun p su hp => ho p su (List.mem_cons.mpr (.inl (List.mem_singleton.mp hp)))) hl.1
    obtain ⟨s2, e2, a2, c2, o2⟩ := ih a1 (fun p su hp => ho p su (List.mem_cons_of_mem _ hp)) hl.2
    refine ⟨s2, by rw [history, e1]; exact e2, a2, ?_, ?_⟩
    · rw [c2, c1, trace, fileCalls_append, List.append_assoc]
    · rw [o2, o1, trace, otherTexts_append, List.append_assoc]

/-- **C63**. Everything printed goes to the place chosen last: the standard output at first, then the file of the last
`--out` or the function of the program set last. Each file is closed when the run ends or another is opened. Nothing
else is done to any file, and nothing undefined happens, as long as nothing is printed to a closed file. -/
theorem C63_output {maxPath : Nat} (hm : maxPath + 1 < 2 ^ 64) {ops : List Op} (ho : Openable maxPath ops)
    (hl : Legal {} ops) : ∃ s, history maxPath ops {} = .ok s ∧ s.files.calls = fileCalls (trace {} ops) ∧
      s.others = otherTexts (trace {} ops) := by
  obtain ⟨s, e, -, c, o⟩ := history_agrees hm ops agrees_start ho hl
  exact ⟨s, e, by simpa using c, by simpa using o⟩

/-- **C63**. When a run has ended, every file ever opened has been closed, once, and all writing to it was before. -/
theorem C63_closed {maxPath : Nat} (hm : maxPath + 1 < 2 ^ 64) {ops : List Op} (ho : Openable maxPath ops)
    (hl : Legal {} (ops ++ [.endRun])) : ∃ s, history maxPath (ops ++ [.endRun]) {} = .ok s ∧
      ∀ k < (ops.foldl View.after {}).opened, ∃ (path : Text) (texts : List Text), File.Spec.callsFor k s.files.calls =
        [.opened k path] ++ texts.map (.written k) ++ [.closed k] := by
  obtain ⟨s, e, a, -, -⟩ := history_agrees hm (ops ++ [.endRun]) agrees_start
    (by intro p su hp; simp at hp; exact ho p su hp) hl
  refine ⟨s, e, ?_⟩
  intro k hk
  obtain ⟨st, past, hf⟩ := a.files
  have hnone : s.held = none := by
    cases hh : s.held with
    | none => rfl
    | some i =>
      obtain ⟨k', h1, -⟩ := a.held i hh
      rw [List.foldl_append] at h1
      cases h1
  have ho' := a.opened
  rw [List.foldl_append] at ho'
  have ho' : s.files.files = (ops.foldl View.after {}).opened := ho'
  rw [← ho', hf.files] at hk
  refine ⟨st.paths[k], past k, ?_⟩
  rw [hf.calls k _ (List.getElem?_eq_getElem hk), if_neg]
  intro hu
  have hall := (a.closed hnone).2
  rw [hf.writers] at hall
  have := hall _ hu
  cases this

/-- **C63**: after a run with `--out`, `print_callback` still refers to the writer of the file, which is destroyed:
printing again (for example in a second run without `configure`) is undefined. -/
theorem C63_not_after_run {maxPath : Nat} (hm : maxPath + 1 < 2 ^ 64) {ops : List Op} (ho : Openable maxPath ops)
    (hl : Legal {} ops) {k : Nat} (hp : (ops.foldl View.after {}).place = .file k) (m : Text) :
    history maxPath (ops ++ [.endRun, .print m]) {} = .ub := by
  obtain ⟨s, e, a, -, -⟩ := history_agrees hm ops agrees_start ho hl
  obtain ⟨s', e', a', -, -⟩ := step_agrees hm a .endRun (by intro p su hp; simp at hp) (by intro m hm; cases hm)
  have happ : ∀ (xs ys : List Op) (s : State), history maxPath (xs ++ ys) s =
      history maxPath xs s >>= fun s => history maxPath ys s := by
    intro xs ys
    induction xs with
    | nil => intro s; rfl
    | cons op xs ih =>
      intro s
      rw [List.cons_append, history, history]
      cases step maxPath s op with
      | ok s1 => exact ih s1
      | abort => rfl
      | ub => rfl
  rw [happ, e, Outcome.bind_ok, history, e', Outcome.bind_ok, history, step, Output.print, a'.place]
  have hv : ((ops.foldl View.after {}).after .endRun).place = .file k := hp
  rw [hv]
  cases hh : s'.held with
  | none => rfl
  | some i =>
    obtain ⟨k', h1, -⟩ := a'.held i hh
    cases h1

/-- The standard output, a file, another file, a function of the program, then two runs end. -/
private def someOps : List Op :=
  [.print "a".toList, .out "f".toList true, .print "b".toList, .print "c".toList, .out "g".toList true, .print "d".toList,
    .set 5, .print "e".toList, .endRun, .print "h".toList, .out "f".toList true, .print "i".toList, .endRun]

example : Legal {} someOps := by
  simp [Legal, someOps, View.after]

example : Openable 10 someOps := by
  intro path succeeds h
  simp only [someOps, List.mem_cons, List.not_mem_nil, or_false, reduceCtorEq, false_or, Op.out.injEq] at h
  rcases h with ⟨rfl, rfl⟩ | ⟨rfl, rfl⟩ | ⟨rfl, rfl⟩ <;> decide

example : trace {} someOps =
    [.text .stdout ['a'], .opened 0 ['f'], .text (.file 0) ['b'], .text (.file 0) ['c'], .opened 1 ['g'], .closed 0,
      .text (.file 1) ['d'], .text (.user 5) ['e'], .closed 1, .text (.user 5) ['h'], .opened 2 ['f'],
      .text (.file 2) ['i'], .closed 2] := by decide

example : (([.out "f".toList true, .print "b".toList] : List Op).foldl View.after {}).place = .file 0 := rfl

end Verif.Props
