import Mathlib.Logic.Function.Basic
import Mathlib.Order.Basic
/-
Model of python/qugar/dolfinx/_shim/__init__.py: `ensure_built` executed by any number of workers (threads of any number of processes)
that share the cache directory, in any order of their steps, with crashes at any point.

The lock of the threads of a process and the lock of the file make one lock for all the workers (on POSIX). Times of files are natural
numbers. The existence and the time of the library are read in one step.
-/
namespace Qugar.Py.Shim

/-- The file of the library: whether the linker has finished it, its time and the version of the sources it was built from. -/
structure Lib where
  complete : Bool
  mtime : Nat
  version : Nat
deriving DecidableEq

/-- What a worker is doing in `ensure_built`. `s` is `src_mtime`, read at the beginning. -/
inductive PC where
  /-- not called yet -/
  | start
  /-- waiting for the locks. __init__.py:141 -/
  | waiting (s : Nat)
  /-- second check, with the locks. __init__.py:144 -/
  | checking (s : Nat)
  /-- the compiler is running, and has not opened its output. __init__.py:170 -/
  | compiling
  /-- the linker is writing the library. __init__.py:170 -/
  | linking (version : Nat)
  /-- returned without taking the locks; the library it saw. __init__.py:138-139 -/
  | fast (lib : Lib)
  /-- returned with the locks; the library there was. __init__.py:144-145, 171 -/
  | slow (lib : Lib)
  /-- an exception was raised, because the compiler failed. __init__.py:170 -/
  | failed
  /-- killed -/
  | crashed
deriving DecidableEq

/-- The worker has the locks. -/
def PC.inside : PC → Bool
  | .checking _ => true
  | .compiling => true
  | .linking _ => true
  | _ => false

/-- State of the system. `builds`: number of times that a compiler was run. -/
structure State where
  lib : Option Lib
  lock : Option Nat
  pc : Nat → PC
  clock : Nat
  srcTime : Nat
  srcVersion : Nat
  builds : Nat

/-- `lib.exists() and lib.stat().st_mtime >= src_mtime`. __init__.py:138, 144. -/
def upToDate (lib : Option Lib) (s : Nat) : Option Lib :=
  match lib with
  | some l => if s ≤ l.mtime then some l else none
  | none => none

/-- The worker `p` goes to `c`. -/
def State.goto (st : State) (p : Nat) (c : PC) : State := { st with pc := Function.update st.pc p c }

/-- Kinds of steps: normal ones, failures of the compiler, crashes, and changes of the sources. -/
inductive Event where
  | normal
  | failure
  | crash
  | change
deriving DecidableEq

/-- A step. __init__.py:116-171. -/
inductive Step : State → Event → State → Prop
  /-- time passes -/
  | tick (st : State) : Step st .normal { st with clock := st.clock + 1 }
  /-- the check without locks succeeds. __init__.py:132-139 -/
  | hit {st : State} {p : Nat} {l : Lib} : st.pc p = .start → upToDate st.lib st.srcTime = some l → Step st .normal (st.goto p (.fast l))
  /-- it does not. __init__.py:132-141 -/
  | miss {st : State} {p : Nat} : st.pc p = .start → upToDate st.lib st.srcTime = none → Step st .normal (st.goto p (.waiting st.srcTime))
  /-- the locks are taken. __init__.py:141 -/
  | acquire {st : State} {p s : Nat} : st.pc p = .waiting s → st.lock = none →
    Step st .normal { st.goto p (.checking s) with lock := some p }
  /-- the second check succeeds. __init__.py:144-145 -/
  | hitLocked {st : State} {p s : Nat} {l : Lib} : st.pc p = .checking s → upToDate st.lib s = some l →
    Step st .normal { st.goto p (.slow l) with lock := none }
  /-- it does not, and the compiler is run. __init__.py:144-170 -/
  | compile {st : State} {p s : Nat} : st.pc p = .checking s → upToDate st.lib s = none →
    Step st .normal { st.goto p .compiling with builds := st.builds + 1 }
  /-- the linker opens its output -/
  | link {st : State} {p : Nat} : st.pc p = .compiling →
    Step st .normal { st.goto p (.linking st.srcVersion) with lib := some ⟨false, st.clock, st.srcVersion⟩ }
  /-- the linker finishes and the locks are released. __init__.py:170-171 -/
  | finish {st : State} {p v : Nat} : st.pc p = .linking v →
    Step st .normal { st.goto p (.slow ⟨true, st.clock, v⟩) with lib := some ⟨true, st.clock, v⟩, lock := none }
  /-- the compiler fails, without output. __init__.py:170 -/
  | fail {st : State} {p : Nat} : st.pc p = .compiling → Step st .failure { st.goto p .failed with lock := none }
  /-- the linker fails, and removes its output. __init__.py:170 -/
  | failLink {st : State} {p v : Nat} : st.pc p = .linking v → Step st .failure { st.goto p .failed with lib := none, lock := none }
  /-- the worker is killed: its lock is released by the system, and the files remain -/
  | crash {st : State} (p : Nat) : Step st .crash { st.goto p .crashed with lock := if st.lock = some p then none else st.lock }
  /-- the sources are changed, with some time -/
  | change {st : State} (time version : Nat) : Step st .change { st with srcTime := time, srcVersion := version }

/-- Executions whose events are all allowed. -/
inductive Exec (allowed : Event → Prop) : State → State → Prop
  | refl (st : State) : Exec allowed st st
  | step {st st' st'' : State} {e : Event} : Exec allowed st st' → allowed e → Step st' e st'' → Exec allowed st st''

/-- Initial states: nobody has called it. -/
structure Initial (st : State) : Prop where
  pc : ∀ p, st.pc p = .start
  lock : st.lock = none
  builds : st.builds = 0

end Qugar.Py.Shim
