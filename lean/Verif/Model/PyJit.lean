import Mathlib.Logic.Function.Basic
import Mathlib.Order.Basic
/-
Model of python/qugar/dolfinx/jit.py: `compile_forms` of one form (one name of module) executed by any number of processes that share the
cache directory, in any order of their steps, with failures and crashes at any point; `_deduped_ldshared` and the handlers of the logger.

`get_cached_module` is FFCx (external): it creates the C file with exclusive access or, if it exists, waits for the "ready" file some
number of times, and then loads the module. Every process has the version of the generator of code (QUGaR and FFCx) it runs.
-/
namespace Qugar.Py.Jit

/-- The compiled module in the cache: whether it is completely written, and the version of the generator of its code. -/
structure Module where
  complete : Bool
  version : Nat
deriving DecidableEq

/-- What a process is doing in `compile_forms`. -/
inductive PC where
  /-- not called yet -/
  | start
  /-- in `get_cached_module`: the C file existed; number of times left to look for the ready file. jit.py:249 -/
  | waiting (left : Nat)
  /-- it created the C file, and generates and compiles the code. jit.py:261-284, 116-178 -/
  | building
  /-- the module is being written. jit.py:178 -/
  | writing
  /-- the module is written. jit.py:178-187 -/
  | built
  /-- the ready file was created, and is being written. jit.py:188-190 -/
  | marking
  /-- returned, with the module that it loaded. jit.py:249-257, 295-296 -/
  | done (m : Module)
  /-- `TimeoutError`. jit.py:249 -/
  | timeout
  /-- another exception. jit.py:249, 286-293 -/
  | failed
  /-- killed -/
  | crashed
deriving DecidableEq

/-- The process created the C file and has not finished. -/
def PC.owner : PC → Bool
  | .building => true
  | .writing => true
  | .built => true
  | _ => false

/-- State of the cache directory (for this module) and of the processes. `version p` is the version of the generator in `p`, and `limit`
the number of times that processes look for the ready file (`timeout`). -/
structure State where
  cfile : Bool
  ready : Bool
  module : Option Module
  pc : Nat → PC
  version : Nat → Nat
  limit : Nat

/-- The process `p` goes to `c`. -/
def State.goto (st : State) (p : Nat) (c : PC) : State := { st with pc := Function.update st.pc p c }

/-- Kinds of steps: normal ones, failures of the compilation, failures when the ready file is written, crashes. -/
inductive Event where
  | normal
  | failure
  | ioFailure
  | crash
deriving DecidableEq

/-- A step. jit.py:247-296, 116-196. -/
inductive Step : State → Event → State → Prop
  /-- the C file is created. jit.py:249 -/
  | create {st : State} {p : Nat} : st.pc p = .start → st.cfile = false → Step st .normal { st.goto p .building with cfile := true }
  /-- it exists. jit.py:249 -/
  | wait {st : State} {p : Nat} : st.pc p = .start → st.cfile = true → Step st .normal (st.goto p (.waiting st.limit))
  /-- the ready file is found, and the module loaded. jit.py:249-257 -/
  | found {st : State} {p k : Nat} {m : Module} : st.pc p = .waiting (k + 1) → st.ready = true → st.module = some m →
    Step st .normal (st.goto p (.done m))
  /-- there is no module. jit.py:249 -/
  | lost {st : State} {p k : Nat} : st.pc p = .waiting (k + 1) → st.ready = true → st.module = none → Step st .normal (st.goto p .failed)
  /-- the ready file is not found. jit.py:249 -/
  | sleep {st : State} {p k : Nat} : st.pc p = .waiting (k + 1) → st.ready = false → Step st .normal (st.goto p (.waiting k))
  /-- too many times. jit.py:249 -/
  | timeout {st : State} {p : Nat} : st.pc p = .waiting 0 → Step st .normal (st.goto p .timeout)
  /-- the linker starts to write the module. jit.py:178 -/
  | link {st : State} {p : Nat} : st.pc p = .building → Step st .normal { st.goto p .writing with module := some ⟨false, st.version p⟩ }
  /-- it finishes. jit.py:178 -/
  | finish {st : State} {p : Nat} : st.pc p = .writing → Step st .normal { st.goto p .built with module := some ⟨true, st.version p⟩ }
  /-- the ready file is created. jit.py:188 -/
  | mark {st : State} {p : Nat} : st.pc p = .built → st.ready = false → Step st .normal { st.goto p .marking with ready := true }
  /-- it existed: an error, and the C file is removed. jit.py:188, 286-293 -/
  | marked {st : State} {p : Nat} : st.pc p = .built → st.ready = true → Step st .normal { st.goto p .failed with cfile := false }
  /-- the ready file is written and the module loaded. jit.py:189-190, 295-296 -/
  | load {st : State} {p : Nat} {m : Module} : st.pc p = .marking → st.module = some m → Step st .normal (st.goto p (.done m))
  /-- the generation or compilation fails, and the C file is removed. jit.py:286-293 -/
  | fail {st : State} {p : Nat} : st.pc p = .building → Step st .failure { st.goto p .failed with cfile := false }
  /-- the linker fails, and leaves its output or removes it. jit.py:286-293 -/
  | failLink {st : State} {p : Nat} (removed : Bool) : st.pc p = .writing →
    Step st .failure { st.goto p .failed with cfile := false, module := if removed then none else st.module }
  /-- the ready file cannot be written (e.g. no space): the C file is removed, the ready file remains. jit.py:188-190, 286-293 -/
  | failMark {st : State} {p : Nat} : st.pc p = .marking → Step st .ioFailure { st.goto p .failed with cfile := false }
  /-- the process is killed, and the files remain -/
  | crash {st : State} (p : Nat) : Step st .crash (st.goto p .crashed)

/-- Executions whose events are all allowed. -/
inductive Exec (allowed : Event → Prop) : State → State → Prop
  | refl (st : State) : Exec allowed st st
  | step {st st' st'' : State} {e : Event} : Exec allowed st st' → allowed e → Step st' e st'' → Exec allowed st st''

/-- Nobody has called it and the cache has nothing of this form. -/
structure Empty (st : State) : Prop where
  pc : ∀ p, st.pc p = .start
  cfile : st.cfile = false
  ready : st.ready = false

/-- Nobody has called it in this session, and the cache has the module from a previous one. -/
structure Cached (st : State) (m : Module) : Prop where
  pc : ∀ p, st.pc p = .start
  cfile : st.cfile = true
  ready : st.ready = true
  module : st.module = some m

/-! ### Linker command -/

/-- `dict.fromkeys(tokens)`: the first appearance of every token. jit.py:81. -/
def fromKeys (tokens : List String) : List String := tokens.foldl (fun d t => if t ∈ d then d else d ++ [t]) []

/-- How the body of a `with` ends. -/
inductive Outcome where
  | returned
  | raised
deriving DecidableEq

/-- `with _deduped_ldshared(): body`: the variable `LDSHARED` before, the tokens of that of `sysconfig`, and the body, which may change
the variable; result: the variable that the body sees, the one afterwards and how it ends. jit.py:67-89. -/
def withLdshared (env : Option (List String)) (config : List String) (body : Option (List String) → Option (List String) × Outcome) :
    Option (List String) × Option (List String) × Outcome :=
  let inner := if config = [] then env else some (fromKeys config)
  let (changed, o) := body inner
  -- finally: the variable is removed if there was none (`pop`), or takes the saved value again
  let restored := match env with
    | none => changed.filter fun _ => false
    | some saved => some saved
  (inner, restored, o)

/-- The handlers of the root logger after `_compile_objects`, with the outcome of the compilation and of the creation of the ready file;
`buffer` is the handler that writes to the string. jit.py:172-194. -/
def handlersAfter {H : Type} (old : List H) (buffer : H) (compile mark : Outcome) : List H :=
  match compile with
  | .raised => [buffer]
  | .returned =>
    match mark with
    | .raised => [buffer]
    | .returned => old

end Qugar.Py.Jit
