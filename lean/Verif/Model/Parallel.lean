import Verif.Model.Basics
/-!
# Interleaving semantics of `par_chunks_mut(n).enumerate().for_each(..)`

`decode_threaded` (`basics.rs:83-91`) and `decode_threaded_multiline` (`basics.rs:93-101`) run one task per chunk on rayon's
worker threads. Here a task is a program of single reads and writes of its own chunk (the closure only shares read-only data
besides that chunk), the memory is the whole output vector, and a schedule is any list of task numbers: every occurrence lets
that task perform one memory access. Rayon itself (work stealing, joining, propagation of panics) is not modelled beyond
this: any interleaving may happen, and a panic in a task makes the whole `for_each` panic.
-/

namespace Model
open Rust

/-- The code of one task: accesses to its slice, in any data-dependent order. -/
inductive Prog (α : Type) where
  | done
  | panic
  | read (k : Nat) (cont : α → Prog α)
  | write (k : Nat) (v : α) (next : Prog α)

namespace Prog

/-- Running a task alone on its slice. An access outside the slice panics. -/
def run {α : Type} : Prog α → List α → M (List α)
  | done, c => .ok c
  | panic, _ => crash
  | read k cont, c =>
    match c[k]? with
    | some a => (cont a).run c
    | none => crash
  | write k v next, c => if k < c.length then next.run (c.set k v) else crash

/-- The task has finished normally. -/
def isDone {α : Type} : Prog α → Bool
  | done => true
  | _ => false

/-- The task has panicked. -/
def isPanic {α : Type} : Prog α → Bool
  | panic => true
  | _ => false

end Prog

/-- The state of a parallel loop: the shared output vector and what each task still has to do. -/
structure Par (α : Type) where
  mem : List α
  progs : List (Prog α)

namespace Par

/-- Number of elements of chunk `i` of a vector of `total` elements. -/
def chunkLen (n total i : Nat) : Nat := min n (total - n * i)

/-- Task `i` performs one access: element `k` of its slice is element `n * i + k` of the vector. -/
def step {α : Type} (n : Nat) (s : Par α) (i : Nat) : Par α :=
  match s.progs[i]? with
  | some (.read k cont) =>
    if k < chunkLen n s.mem.length i then
      match s.mem[n * i + k]? with
      | some a => ⟨s.mem, s.progs.set i (cont a)⟩
      | none => ⟨s.mem, s.progs.set i .panic⟩
    else ⟨s.mem, s.progs.set i .panic⟩
  | some (.write k v next) =>
    if k < chunkLen n s.mem.length i then ⟨s.mem.set (n * i + k) v, s.progs.set i next⟩
    else ⟨s.mem, s.progs.set i .panic⟩
  | _ => s

/-- Running a schedule. -/
def exec {α : Type} (n : Nat) (s : Par α) (sched : List Nat) : Par α := sched.foldl (step n) s

/-- What `for_each` gives back: a panic as soon as some task panicked (whether or not the others ran), the vector once
every task is done, nothing yet otherwise. -/
def outcome {α : Type} (s : Par α) : Option (M (List α)) :=
  if s.progs.any Prog.isPanic then some crash
  else if s.progs.all Prog.isDone then some (.ok s.mem)
  else none

/-- The start of `out.par_chunks_mut(n)` with task `P i` on chunk `i`. -/
def start {α : Type} (n : Nat) (out : List α) (P : Nat → Prog α) : Par α :=
  ⟨out, (List.range ((out.length + n - 1) / n)).map P⟩

end Par
end Model
