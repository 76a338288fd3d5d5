import Verif.Lemmas.File
/-!
# C39: output files

`Spec.State.after` says which writer writes to which file; `Spec.sent` the messages that have been sent
to a file. In the model (Verif/Model/File.lean) using a file that is not open is `.ub`.
-/
namespace Verif.Props
open Verif.File Verif.File.Spec

/-- **C39**: whatever is done with any number of writers, as long as the files can be opened, nothing
undefined happens, and what happens to each file is this: it is opened, the messages sent to it are
written in order, and it is closed if and only if no writer writes to it any more. No file but
those is ever used. -/
theorem C39_history (maxPath : Nat) (hm : maxPath + 1 < 2 ^ 64) (ops : List Op)
    (hop : Openable maxPath ops) : ∃ w, File.run maxPath {} ops = .ok w ∧
      (∀ (f : Nat) (path : Text), (ops.foldl State.after {}).paths[f]? = some path →
        callsFor f w.calls = [.opened f path] ++ (sent f {} ops).map (.written f) ++
          if (ops.foldl State.after {}).inUse f then [] else [.closed f]) ∧
      (∀ f : Nat, (ops.foldl State.after {}).paths.length ≤ f → callsFor f w.calls = []) ∧
      w.writers = (ops.foldl State.after {}).owns := by
  obtain ⟨w, e, h⟩ := inv_start.run hm ops hop
  exact ⟨w, e, fun f p hp => by simpa using h.calls f p hp, fun f hf => (h.unused f hf).1, h.writers⟩

/-- **C39**: no two writers write to the same file. -/
theorem C39_owner (maxPath : Nat) (hm : maxPath + 1 < 2 ^ 64) (ops : List Op)
    (hop : Openable maxPath ops) (w : World) (e : File.run maxPath {} ops = .ok w) (i j f : Nat)
    (hi : w.at i = some (some f)) (hj : w.at j = some (some f)) : i = j := by
  obtain ⟨w', e', h⟩ := inv_start.run hm ops hop
  rw [e] at e'; cases e'
  exact h.uniq i j f (h.at_file hi).2.2 (h.at_file hj).2.2

/-- **C39**: when all writers are gone, every file has been closed, once, and nothing has been written
to it afterwards. -/
theorem C39_all_closed (maxPath : Nat) (hm : maxPath + 1 < 2 ^ 64) (ops : List Op)
    (hop : Openable maxPath ops) (w : World) (e : File.run maxPath {} ops = .ok w)
    (hall : ∀ x ∈ w.writers, x = none) (f : Nat) (path : Text)
    (hp : (ops.foldl State.after {}).paths[f]? = some path) :
    callsFor f w.calls =
      [.opened f path] ++ (sent f {} ops).map (.written f) ++ [.closed f] := by
  obtain ⟨w', e', h1, _, h3⟩ := C39_history maxPath hm ops hop
  rw [e] at e'; cases e'
  rw [h1 f path hp, if_neg]
  intro hu
  rw [h3] at hall
  have := hall _ hu
  cases this

/-- **C39**: a path that is too long, and a file that cannot be opened, are reported. -/
theorem C39_errors (maxPath : Nat) (hm : maxPath + 1 < 2 ^ 64) (w : World) (path : Text)
    (succeeds : Bool) :
    (path.length > maxPath + 1 → openFile maxPath w path succeeds = .abort) ∧
    (path.length ≤ maxPath → '\x00' ∉ path → openFile maxPath w path false = .abort) := by
  constructor
  · intro h
    obtain ⟨v, e, _⟩ := Append.text_holds false (SV.holds_empty (maxPath + 1) '\x00') hm path
    have : (decide (([] : Text).length + path.length ≤ maxPath + 1)) = false := by
      simp; omega
    rw [this] at e
    simp only [openFile, pathFor, e, Outcome.bind_ok, Bool.false_eq_true, if_false, Outcome.bind_abort]
  · intro h h0
    simp only [openFile, pathFor_ok maxPath hm path h h0, Outcome.bind_ok, Bool.false_eq_true, if_false]

/-- The one length in between, `max_path_length + 1`, is neither refused nor handled: the copy has no
terminator, and `fopen` reads beyond it. (The documentation requires shorter paths.) -/
theorem C39_path_unterminated (maxPath : Nat) (hm : maxPath + 1 < 2 ^ 64) (w : World) (path : Text)
    (succeeds : Bool) (h : path.length = maxPath + 1) (h0 : '\x00' ∉ path) :
    openFile maxPath w path succeeds = .ub := by
  simp only [openFile, pathFor, fast_fresh (maxPath + 1) hm path (by omega), Outcome.bind_ok, if_true]
  rw [h, Nat.sub_self, List.replicate_zero, List.append_nil, cString_none path h0, Outcome.bind_ub]

/-- The hypotheses can be met: the writer of the second file is assigned to that of the first, is
written to, and all are destroyed. -/
example : Openable 10 [.open "a".toList true, .open "b".toList true, .assign 0 1, .write 0 "x".toList,
    .createFrom 0, .write 2 "y".toList, .write 1 "z".toList, .destroy 0, .destroy 1, .destroy 2] := by
  intro op h path succeeds e
  simp only [List.mem_cons, List.not_mem_nil, or_false] at h
  rcases h with h | h | h | h | h | h | h | h | h | h <;> rw [h] at e <;> cases e <;> decide

example : ∃ w, File.run 10 {} [.open "a".toList true, .open "b".toList true, .assign 0 1,
      .write 0 "x".toList, .createFrom 0, .write 2 "y".toList, .write 1 "z".toList, .destroy 0, .destroy 1,
      .destroy 2] = .ok w ∧ w.writers = [none, none, none] ∧
    w.calls = [.opened 0 "a".toList, .opened 1 "b".toList, .written 1 "x".toList, .written 1 "y".toList,
      .written 0 "z".toList, .closed 0, .closed 1] := by
  exact ⟨_, rfl, by decide, by decide⟩

end Verif.Props
