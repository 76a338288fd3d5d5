import Verif.Model.Threads
import Verif.Props.Current
/-!
# C64: tests on different threads do not disturb each other
-/
namespace Verif.Props
open Verif.Current Verif.Current.Spec Verif.Threads

/-- What a thread records when it executes its code alone, from the beginning to the end (`Current.exec`, in which there
is one thread); `none` if the program is terminated. -/
def aloneLog (i : Nat) (c : Code) : Option (List (Id × Use)) :=
  match exec c ⟨none, 0, []⟩ with
  | .ok (s, _) => some (s.log.map fun p => ((i, p.1), p.2))
  | _ => none

/-- The thread has nothing left to do. -/
def Finished (l : Local) : Prop := ∃ raised, l.control = .leave raised []

/-- Some steps of one thread. -/
private def steps (me : Nat) : Nat → Local × Option Id → Outcome (Local × Option Id)
  | 0, x => .ok x
  | n + 1, x => stepLocal me x.1 x.2 >>= steps me n

private theorem steps_add (me : Nat) (b : Nat) : ∀ (a : Nat) (x : Local × Option Id),
    steps me (a + b) x = steps me a x >>= steps me b := by
  intro a
  induction a with
  | zero => intro x; rw [Nat.zero_add]; rfl
  | succ a ih =>
    intro x
    rw [Nat.succ_add, steps, steps]
    cases stepLocal me x.1 x.2 with
    | ok y => exact ih y
    | abort => rfl
    | ub => rfl

private def tag (me : Nat) (log : List (Nat × Use)) : List (Id × Use) := log.map fun p => ((me, p.1), p.2)

/-- The steps of a piece of code add up to its execution. -/
private theorem steps_exec (me : Nat) : ∀ (c : Code) (fs : List Frame) (cur : Option Nat) (next : Nat)
    (log : List (Nat × Use)),
    (∀ s r, exec c ⟨cur, next, log⟩ = .ok (s, r) → ∃ n, steps me n (⟨.run c fs, next, tag me log⟩, cur.map (me, ·)) =
      .ok (⟨.leave r fs, s.next, tag me s.log⟩, s.current.map (me, ·))) ∧
    (exec c ⟨cur, next, log⟩ = .abort → ∃ n, steps me n (⟨.run c fs, next, tag me log⟩, cur.map (me, ·)) = .abort) := by
  intro c
  induction c with
  | done =>
    intro fs cur next log
    refine ⟨fun s r h => ?_, (fun h => by cases h)⟩
    cases h
    exact ⟨1, rfl⟩
  | raise =>
    intro fs cur next log
    refine ⟨fun s r h => ?_, (fun h => by cases h)⟩
    cases h
    exact ⟨1, rfl⟩
  | use here k ih =>
    intro fs cur next log
    cases cur with
    | none =>
      refine ⟨(fun s r h => by cases h), fun _ => ⟨1, rfl⟩⟩
    | some t =>
      have e : ∀ n, steps me (n + 1) (⟨.run (.use here k) fs, next, tag me log⟩, (some t).map (me, ·)) =
          steps me n (⟨.run k fs, next, tag me (log ++ [(t, .at here)])⟩, (some t).map (me, ·)) := by
        intro n
        rw [steps]
        simp [stepLocal, Threads.touch, tag]
      have ex : exec (.use here k) ⟨some t, next, log⟩ = exec k ⟨some t, next, log ++ [(t, .at here)]⟩ := by
        rw [exec]; rfl
      obtain ⟨h1, h2⟩ := ih fs (some t) next (log ++ [(t, .at here)])
      rw [ex]
      exact ⟨fun s r h => (h1 s r h).elim fun n hn => ⟨n + 1, (e n).trans hn⟩,
        fun h => (h2 h).elim fun n hn => ⟨n + 1, (e n).trans hn⟩⟩
  | handle body k ihb ihk =>
    intro fs cur next log
    obtain ⟨b1, b2⟩ := ihb (.handle k :: fs) cur next log
    have e : ∀ n, steps me (n + 1) (⟨.run (.handle body k) fs, next, tag me log⟩, cur.map (me, ·)) =
        steps me n (⟨.run body (.handle k :: fs), next, tag me log⟩, cur.map (me, ·)) := fun n => rfl
    rw [exec]
    cases hb : exec body ⟨cur, next, log⟩ with
    | ub => exact ⟨(fun s r h => by cases h), (fun h => by cases h)⟩
    | abort =>
      refine ⟨(fun s r h => by cases h), fun _ => ?_⟩
      obtain ⟨n, hn⟩ := b2 hb
      exact ⟨n + 1, (e n).trans hn⟩
    | ok x =>
      obtain ⟨s1, r1⟩ := x
      obtain ⟨n, hn⟩ := b1 s1 r1 hb
      obtain ⟨k1, k2⟩ := ihk fs s1.current s1.next s1.log
      have key : ∀ m, steps me (n + 1 + (m + 1)) (⟨.run (.handle body k) fs, next, tag me log⟩, cur.map (me, ·)) =
          steps me m (⟨.run k fs, s1.next, tag me s1.log⟩, s1.current.map (me, ·)) := by
        intro m
        rw [steps_add, e, hn]
        rfl
      exact ⟨fun s r h => (k1 s r h).elim fun m hm => ⟨_, (key m).trans hm⟩,
        fun h => (k2 h).elim fun m hm => ⟨_, (key m).trans hm⟩⟩
  | runTest body k ihb ihk =>
    intro fs cur next log
    obtain ⟨b1, b2⟩ := ihb (.test (cur.map (me, ·)) k :: fs) (some next) (next + 1) log
    have e : ∀ n, steps me (n + 1) (⟨.run (.runTest body k) fs, next, tag me log⟩, cur.map (me, ·)) =
        steps me n (⟨.run body (.test (cur.map (me, ·)) k :: fs), next + 1, tag me log⟩, (some next).map (me, ·)) :=
      fun n => rfl
    have hb := C47_attribution body next (next + 1) log
    generalize uses next (next + 1) body = u at hb
    obtain ⟨u1, u2, u3⟩ := u
    simp only at hb
    obtain ⟨n, hn⟩ := b1 _ _ hb
    obtain ⟨k1, k2⟩ := ihk fs cur (next + 1 + u2) (log ++ u1 ++ [(next, .closing)])
    have ex : exec (.runTest body k) ⟨cur, next, log⟩ =
        exec k ⟨cur, next + 1 + u2, log ++ u1 ++ [(next, .closing)]⟩ := by
      rw [exec]
      simp only [hb, Outcome.bind_ok, Current.touch]
    have key : ∀ m, steps me (n + 1 + (m + 1)) (⟨.run (.runTest body k) fs, next, tag me log⟩, cur.map (me, ·)) =
        steps me m (⟨.run k fs, next + 1 + u2, tag me (log ++ u1 ++ [(next, .closing)])⟩, cur.map (me, ·)) := by
      intro m
      rw [steps_add, e, hn, Outcome.bind_ok, steps]
      simp [stepLocal, Threads.touch, tag]
    rw [ex]
    exact ⟨fun s r h => (k1 s r h).elim fun m hm => ⟨_, (key m).trans hm⟩,
      fun h => (k2 h).elim fun m hm => ⟨_, (key m).trans hm⟩⟩

/-- A finished thread stays as it is. -/
private theorem steps_finished {me : Nat} {l : Local} {cur : Option Id} (h : Finished l) : ∀ n,
    steps me n (l, cur) = .ok (l, cur) := by
  obtain ⟨r, hr⟩ := h
  intro n
  induction n with
  | zero => rfl
  | succ n ih =>
    have : stepLocal me l cur = .ok (l, cur) := by unfold stepLocal; rw [hr]
    rw [steps, this]; exact ih

private theorem stepLocal_log {me : Nat} {l l' : Local} {cur cur' : Option Id} (h : stepLocal me l cur = .ok (l', cur')) :
    l.log <+: l'.log := by
  unfold stepLocal at h
  split at h
  · cases h; exact List.prefix_refl _
  · cases cur with
    | none => cases h
    | some t => cases h; exact List.prefix_append _ _
  · cases h; exact List.prefix_refl _
  · cases h; exact List.prefix_refl _
  · cases h; exact List.prefix_refl _
  · cases h; exact List.prefix_refl _
  · cases h; exact List.prefix_refl _
  · cases cur with
    | none => cases h
    | some t => cases h; exact List.prefix_append _ _

private theorem steps_log {me : Nat} : ∀ (n : Nat) {x y : Local × Option Id}, steps me n x = .ok y →
    x.1.log <+: y.1.log := by
  intro n
  induction n with
  | zero => intro x y h; cases h; exact List.prefix_refl _
  | succ n ih =>
    intro x y h
    rw [steps] at h
    cases hs : stepLocal me x.1 x.2 with
    | ok z => rw [hs] at h; exact (stepLocal_log hs).trans (ih h)
    | abort => rw [hs] at h; cases h
    | ub => rw [hs] at h; cases h

private theorem stepLocal_defined {me : Nat} {l : Local} {cur : Option Id} : stepLocal me l cur ≠ .ub := by
  intro h
  unfold stepLocal at h
  split at h
  · cases h
  · cases cur <;> cases h
  · cases h
  · cases h
  · cases h
  · cases h
  · cases h
  · cases cur <;> cases h

/-- With one variable per thread, a schedule does to each thread what its own steps do. -/
private theorem schedule_steps : ∀ (schedule : List Nat) (g : Global), g.locals.length = g.vars.length →
    (∀ g', runSchedule true schedule g = .ok g' → g'.locals.length = g.locals.length ∧
      g'.locals.length = g'.vars.length ∧
      ∀ (i : Nat) (l : Local) (cur : Option Id), g.locals[i]? = some l → g.vars[i]? = some cur →
        ∃ l' cur', g'.locals[i]? = some l' ∧ g'.vars[i]? = some cur' ∧
          steps i (schedule.count i) (l, cur) = .ok (l', cur')) ∧
    runSchedule true schedule g ≠ .ub ∧
    (runSchedule true schedule g = .abort → ∃ i l cur, g.locals[i]? = some l ∧ g.vars[i]? = some cur ∧
      steps i (schedule.count i) (l, cur) = .abort) := by
  intro schedule
  induction schedule with
  | nil =>
    intro g hg
    refine ⟨fun g' h => ?_, (fun h => by cases h), (fun h => by cases h)⟩
    cases h
    exact ⟨rfl, hg, fun i l cur h1 h2 => ⟨l, cur, h1, h2, rfl⟩⟩
  | cons j schedule ih =>
    intro g hg
    cases hl : g.locals[j]? with
    | none =>
      have e : stepGlobal true j g = .ok g := by rw [stepGlobal, hl]
      have hc : ∀ (i : Nat) (l : Local), g.locals[i]? = some l → (j :: schedule).count i = schedule.count i := by
        intro i l hi
        have : j ≠ i := fun h => by rw [h] at hl; rw [hl] at hi; cases hi
        rw [List.count_cons_of_ne this]
      obtain ⟨h1, h2, h3⟩ := ih g hg
      rw [runSchedule, e, Outcome.bind_ok]
      refine ⟨fun g' h => ⟨(h1 g' h).1, (h1 g' h).2.1, fun i l cur hi hv => ?_⟩, h2, fun h => ?_⟩
      · rw [hc i l hi]; exact (h1 g' h).2.2 i l cur hi hv
      · obtain ⟨i, l, cur, hi, hv, hs⟩ := h3 h
        exact ⟨i, l, cur, hi, hv, by rw [hc i l hi]; exact hs⟩
    | some l =>
      have hj : j < g.locals.length := (List.getElem?_eq_some_iff.mp hl).1
      have hv : g.vars[j]? = some g.vars[j] := List.getElem?_eq_getElem (by omega)
      cases hs : stepLocal j l g.vars[j] with
      | ub => exact absurd hs stepLocal_defined
      | abort =>
        have e : stepGlobal true j g = .abort := by
          unfold stepGlobal; rw [hl, show slot true j = j from rfl, hv]; simp only [hs]; rfl
        rw [runSchedule, e]
        refine ⟨(fun g' h => by cases h), (fun h => by cases h), fun _ => ⟨j, l, g.vars[j], hl, hv, ?_⟩⟩
        rw [List.count_cons_self, steps, hs]; rfl
      | ok x =>
        obtain ⟨l1, c1⟩ := x
        have e : stepGlobal true j g = .ok ⟨g.locals.set j l1, g.vars.set j c1⟩ := by
          unfold stepGlobal; rw [hl, show slot true j = j from rfl, hv]; simp only [hs]; rfl
        obtain ⟨h1, h2, h3⟩ := ih ⟨g.locals.set j l1, g.vars.set j c1⟩ (by simpa using hg)
        rw [runSchedule, e, Outcome.bind_ok]
        refine ⟨fun g' h => ?_, h2, fun h => ?_⟩
        · obtain ⟨a1, a2, a3⟩ := h1 g' h
          refine ⟨by simpa using a1, a2, ?_⟩
          intro i l' cur' hi hvi
          by_cases hij : j = i
          · subst hij
            rw [hl] at hi; cases hi
            rw [hv] at hvi; cases hvi
            rw [List.count_cons_self, steps, hs]
            exact a3 j l1 c1 (List.getElem?_set_self hj) (List.getElem?_set_self (by omega))
          · rw [List.count_cons_of_ne hij]
            exact a3 i l' cur' (by rw [List.getElem?_set_ne hij]; exact hi) (by rw [List.getElem?_set_ne hij]; exact hvi)
        · obtain ⟨i, l', cur', hi, hvi, hst⟩ := h3 h
          by_cases hij : j = i
          · subst hij
            simp only at hi hvi
            rw [List.getElem?_set_self hj] at hi
            rw [List.getElem?_set_self (by omega)] at hvi
            cases hi; cases hvi
            exact ⟨j, l, g.vars[j], hl, hv, by rw [List.count_cons_self, steps, hs]; exact hst⟩
          · simp only at hi hvi
            rw [List.getElem?_set_ne hij] at hi hvi
            exact ⟨i, l', cur', hi, hvi, by rw [List.count_cons_of_ne hij]; exact hst⟩

private theorem start_at {codes : List Code} {i : Nat} {l : Local} {cur : Option Id}
    (hl : (start codes).locals[i]? = some l) (hv : (start codes).vars[i]? = some cur) :
    ∃ c, codes[i]? = some c ∧ l = ⟨.run c [], 0, []⟩ ∧ cur = none := by
  simp only [start, List.getElem?_map, Option.map_eq_some_iff] at hl hv
  obtain ⟨c, hc, rfl⟩ := hl
  obtain ⟨_, _, rfl⟩ := hv
  exact ⟨c, hc, rfl, rfl⟩

private theorem at_start {codes : List Code} {i : Nat} {c : Code} (h : codes[i]? = some c) :
    (start codes).locals[i]? = some ⟨.run c [], 0, []⟩ ∧ (start codes).vars[i]? = some none := by
  simp [start, h]

/-- **C64**. Any number of threads, their steps in any order: as long as no thread on its own would use a test macro
outside every test, the program is not terminated; whatever a thread has recorded so far is the beginning of what
it records when it is alone, in the same tests; and all of it when the thread has finished. -/
theorem C64_threads (codes : List Code) (hs : ∀ c ∈ codes, (stray c).1 = false) (schedule : List Nat) :
    ∃ g, runSchedule true schedule (start codes) = .ok g ∧ ∀ (i : Nat) (c : Code), codes[i]? = some c →
      ∃ l log, g.locals[i]? = some l ∧ aloneLog i c = some log ∧ l.log <+: log ∧ (Finished l → l.log = log) := by
  obtain ⟨h1, h2, h3⟩ := schedule_steps schedule (start codes) (by simp [start])
  have halone : ∀ (i : Nat) (c : Code), codes[i]? = some c → ∃ n s r, exec c ⟨none, 0, []⟩ = .ok (s, r) ∧
      steps i n (⟨.run c [], 0, []⟩, none) = .ok (⟨.leave r [], s.next, tag i s.log⟩, s.current.map (i, ·)) := by
    intro i c hc
    obtain ⟨n, l, e⟩ := (C47_no_test c 0 []).2 (hs c (List.mem_iff_getElem?.mpr ⟨i, hc⟩))
    obtain ⟨m, hm⟩ := (steps_exec i c [] none 0 []).1 _ _ e
    exact ⟨m, _, _, e, hm⟩
  -- any number of steps of a thread
  have hany : ∀ (i : Nat) (c : Code), codes[i]? = some c → ∀ k, ∃ l cur log,
      steps i k (⟨.run c [], 0, []⟩, none) = .ok (l, cur) ∧ aloneLog i c = some log ∧ l.log <+: log ∧
      (Finished l → l.log = log) := by
    intro i c hc k
    obtain ⟨n, s, r, e, hn⟩ := halone i c hc
    have hlog : aloneLog i c = some (tag i s.log) := by rw [aloneLog, e]; rfl
    by_cases hk : k ≤ n
    · obtain ⟨d, rfl⟩ := Nat.exists_eq_add_of_le hk
      rw [steps_add] at hn
      cases hst : steps i k (⟨.run c [], 0, []⟩, none) with
      | abort => rw [hst] at hn; cases hn
      | ub => rw [hst] at hn; cases hn
      | ok x =>
        rw [hst, Outcome.bind_ok] at hn
        refine ⟨x.1, x.2, _, rfl, hlog, steps_log d hn, fun hf => ?_⟩
        rw [show x = (x.1, x.2) from rfl, steps_finished hf] at hn
        exact congrArg (fun y => y.1.log) (Outcome.ok.inj hn)
    · obtain ⟨d, rfl⟩ := Nat.exists_eq_add_of_le (Nat.le_of_not_le hk)
      refine ⟨⟨.leave r [], s.next, tag i s.log⟩, s.current.map (i, ·), _, ?_, hlog, List.prefix_refl _, fun _ => rfl⟩
      · rw [steps_add, hn, Outcome.bind_ok, steps_finished ⟨r, rfl⟩]
  cases hr : runSchedule true schedule (start codes) with
  | ub => exact absurd hr h2
  | abort =>
    obtain ⟨i, l, cur, hl, hv, hst⟩ := h3 hr
    obtain ⟨c, hc, rfl, rfl⟩ := start_at hl hv
    obtain ⟨l', cur', log, e, -⟩ := hany i c hc (schedule.count i)
    rw [e] at hst; cases hst
  | ok g =>
    refine ⟨g, rfl, ?_⟩
    intro i c hc
    obtain ⟨hl, hv⟩ := at_start hc
    obtain ⟨l', cur', a1, a2, a3⟩ := (h1 g hr).2.2 i _ _ hl hv
    obtain ⟨l'', cur'', log, e, b1, b2, b3⟩ := hany i c hc (schedule.count i)
    rw [a3] at e; cases e
    exact ⟨l', log, a1, b1, b2, b3⟩

/-- **C64**. Every thread finishes once it has had enough steps, however many steps the others have. -/
theorem C64_finishes (codes : List Code) (hs : ∀ c ∈ codes, (stray c).1 = false) : ∃ n, ∀ (schedule : List Nat) (g : Global),
    runSchedule true schedule (start codes) = .ok g → ∀ (i : Nat) (l : Local), g.locals[i]? = some l →
      n ≤ schedule.count i → Finished l := by
  have each : ∀ (i : Nat) (c : Code), (stray c).1 = false → ∃ n, ∀ k, n ≤ k →
      ∃ l cur, steps i k (⟨.run c [], 0, []⟩, none) = .ok (l, cur) ∧ Finished l := by
    intro i c hc
    obtain ⟨n, l, e⟩ := (C47_no_test c 0 []).2 hc
    obtain ⟨m, hm⟩ := (steps_exec i c [] none 0 []).1 _ _ e
    have hm : steps i m (⟨.run c [], 0, []⟩, none) = .ok (⟨.leave (stray c).2 [], n, tag i l⟩, none) := hm
    refine ⟨m, fun k hk => ?_⟩
    obtain ⟨d, rfl⟩ := Nat.exists_eq_add_of_le hk
    refine ⟨⟨.leave (stray c).2 [], n, tag i l⟩, none, ?_, (stray c).2, rfl⟩
    rw [steps_add, hm, Outcome.bind_ok, steps_finished ⟨(stray c).2, rfl⟩]
  have all : ∀ m, ∃ n, ∀ (i : Nat) (c : Code), i < m → codes[i]? = some c → ∀ k, n ≤ k →
      ∃ l cur, steps i k (⟨.run c [], 0, []⟩, none) = .ok (l, cur) ∧ Finished l := by
    intro m
    induction m with
    | zero => exact ⟨0, fun i c h => absurd h (Nat.not_lt_zero _)⟩
    | succ m ih =>
      obtain ⟨n, hn⟩ := ih
      cases hc : codes[m]? with
      | none =>
        refine ⟨n, fun i c h hi => ?_⟩
        have : i ≠ m := fun e => by rw [e, hc] at hi; cases hi
        exact hn i c (by omega) hi
      | some c0 =>
        obtain ⟨n0, h0⟩ := each m c0 (hs c0 (List.mem_iff_getElem?.mpr ⟨m, hc⟩))
        refine ⟨n + n0, fun i c h hi k hk => ?_⟩
        by_cases him : i = m
        · subst him
          rw [hc] at hi; cases hi
          exact h0 k (by omega)
        · exact hn i c (by omega) hi k (by omega)
  obtain ⟨n, hn⟩ := all codes.length
  refine ⟨n, ?_⟩
  intro schedule g hg i l hl hk
  obtain ⟨h1, -, -⟩ := schedule_steps schedule (start codes) (by simp [start])
  obtain ⟨b1, b2, b3⟩ := h1 g hg
  have hi : i < codes.length := by
    have := (List.getElem?_eq_some_iff.mp hl).1
    rw [b1] at this
    simpa [start] using this
  have hc : codes[i]? = some codes[i] := List.getElem?_eq_getElem hi
  obtain ⟨hs1, hs2⟩ := at_start hc
  obtain ⟨l', cur', a1, -, a3⟩ := b3 i _ _ hs1 hs2
  rw [hl] at a1; cases a1
  obtain ⟨l'', cur'', e, hf⟩ := hn i _ hi hc _ hk
  rw [a3] at e; cases e
  exact hf

/-- **C64**. A thread that uses a test macro outside every test terminates the program, at the latest when it has had
enough steps, whatever the other threads do (even if tests are running on them). -/
theorem C64_no_test (codes : List Code) {i : Nat} {c : Code} (hc : codes[i]? = some c) (hs : (stray c).1 = true) :
    ∃ n, ∀ schedule : List Nat, n ≤ schedule.count i → runSchedule true schedule (start codes) = .abort := by
  have e := (C47_no_test c 0 []).1 hs
  obtain ⟨n, hn⟩ := (steps_exec i c [] none 0 []).2 e
  have hn : steps i n (⟨.run c [], 0, []⟩, none) = .abort := hn
  refine ⟨n, fun schedule hk => ?_⟩
  obtain ⟨h1, h2, -⟩ := schedule_steps schedule (start codes) (by simp [start])
  cases hr : runSchedule true schedule (start codes) with
  | abort => rfl
  | ub => exact absurd hr h2
  | ok g =>
    exfalso
    obtain ⟨hs1, hs2⟩ := at_start hc
    obtain ⟨l', cur', -, -, a3⟩ := (h1 g hr).2.2 i _ _ hs1 hs2
    obtain ⟨d, hd⟩ := Nat.exists_eq_add_of_le hk
    rw [hd, steps_add, hn] at a3
    cases a3

/-- Two tests, each on its own thread, with two uses. -/
def twoTests : List Code := [.runTest (.use 1 (.use 2 .done)) .done, .runTest (.use 3 (.use 4 .done)) .done]

/-- **C64** needs `SNITCH_WITH_MULTITHREADING`: without it, there is an order in which a use by one thread is recorded in
the test of the other thread. -/
theorem C64_not_shared : ∃ schedule g l, runSchedule false schedule (start twoTests) = .ok g ∧ g.locals[0]? = some l ∧
    ((1, 0), Use.at 2) ∈ l.log :=
  ⟨[0, 0, 1, 0], _, _, rfl, rfl, by decide⟩

/-- The hypotheses can be met: tests that run tests, and one whose thread ends with an exception. -/
example : ∀ c ∈ twoTests ++ [nestedRuns, .raise], (stray c).1 = false := by decide

/-- The same order with a variable for each thread, and to the end. -/
example : ∃ g l l', runSchedule true [0, 0, 1, 0, 1, 0, 1, 0, 1, 0, 1, 1] (start twoTests) = .ok g ∧
    g.locals = [l, l'] ∧ Finished l ∧ l.log = [((0, 0), .at 1), ((0, 0), .at 2), ((0, 0), .closing)] ∧
    l'.log = [((1, 0), .at 3), ((1, 0), .at 4), ((1, 0), .closing)] :=
  ⟨_, _, _, rfl, rfl, ⟨false, rfl⟩, by decide, by decide⟩

/-- A thread started by a test, with a check of its own: the program is terminated. -/
example : (stray (.use 1 .done)).1 = true ∧
    runSchedule true [0, 0, 1] (start [.runTest (.use 2 .done) .done, .use 1 .done]) = .abort := by decide

end Verif.Props
