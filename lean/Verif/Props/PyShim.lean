import Verif.Model.PyShim
/-
C73: the library that evaluates the elements is built once and used complete, by any number of processes.
-/
namespace Qugar.Py.Shim

/-! ### Proofs -/

/-- The lock is that of the worker inside. -/
def Locked (st : State) : Prop := ∀ p, (st.pc p).inside = true ↔ st.lock = some p

theorem Locked.goto {st : State} (h : Locked st) {p : Nat} {c : PC} {lk : Option Nat} {st' : State} (hpc : st'.pc = Function.update st.pc p c)
    (hlk : st'.lock = lk) (hp : c.inside = true ↔ lk = some p) (hq : ∀ q, q ≠ p → (st.lock = some q ↔ lk = some q)) : Locked st' := by
  intro q
  rw [hpc, hlk]
  by_cases hqp : q = p
  · subst hqp
    rw [Function.update_self]
    exact hp
  · rw [Function.update_of_ne hqp, h q]
    exact hq q hqp

theorem Step.locked {st st' : State} {e : Event} (h : Locked st) (hs : Step st e st') : Locked st' := by
  have out : ∀ {p : Nat}, (st.pc p).inside = false → ∀ q, q ≠ p → (st.lock = some q ↔ st.lock = some q) := fun _ _ _ => Iff.rfl
  have own : ∀ {p : Nat}, (st.pc p).inside = true → ∀ q, q ≠ p → (st.lock = some q ↔ (none : Option Nat) = some q) := by
    intro p hp q hqp
    rw [(h p).1 hp]
    simp [Ne.symm hqp]
  have notown : ∀ {p : Nat}, (st.pc p).inside = false → st.lock ≠ some p := by
    intro p hp hl
    rw [(h p).2 hl] at hp
    simp at hp
  cases hs with
  | tick => exact h
  | hit h1 h2 =>
    refine h.goto (lk := st.lock) rfl rfl ?_ (fun _ _ => Iff.rfl)
    have := notown (by rw [h1]; rfl)
    simp [PC.inside, this]
  | miss h1 h2 =>
    refine h.goto (lk := st.lock) rfl rfl ?_ (fun _ _ => Iff.rfl)
    have := notown (by rw [h1]; rfl)
    simp [PC.inside, this]
  | @acquire p s h1 h2 =>
    refine h.goto (lk := some p) rfl rfl (by simp [PC.inside]) ?_
    intro q hq
    rw [h2]
    simp [Ne.symm hq]
  | hitLocked h1 h2 => exact h.goto (lk := none) rfl rfl (by simp [PC.inside]) (own (by rw [h1]; rfl))
  | @compile p s h1 h2 =>
    refine h.goto (lk := st.lock) rfl rfl ?_ (fun _ _ => Iff.rfl)
    have := (h p).1 (by rw [h1]; rfl)
    simp [PC.inside, this]
  | @link p h1 =>
    refine h.goto (lk := st.lock) rfl rfl ?_ (fun _ _ => Iff.rfl)
    have := (h p).1 (by rw [h1]; rfl)
    simp [PC.inside, this]
  | finish h1 => exact h.goto (lk := none) rfl rfl (by simp [PC.inside]) (own (by rw [h1]; rfl))
  | fail h1 => exact h.goto (lk := none) rfl rfl (by simp [PC.inside]) (own (by rw [h1]; rfl))
  | failLink h1 => exact h.goto (lk := none) rfl rfl (by simp [PC.inside]) (own (by rw [h1]; rfl))
  | crash p =>
    refine h.goto (lk := if st.lock = some p then none else st.lock) rfl rfl ?_ ?_
    · by_cases hl : st.lock = some p <;> simp [PC.inside, hl]
    · intro q hq
      by_cases hl : st.lock = some p
      · rw [if_pos hl, hl]
        simp [Ne.symm hq]
      · rw [if_neg hl]
  | change time version => exact h

theorem Initial.locked {st : State} (h : Initial st) : Locked st := by
  intro p
  rw [h.pc p, h.lock]
  simp [PC.inside]

theorem Exec.locked {allowed : Event → Prop} {st st' : State} (h : Locked st) (he : Exec allowed st st') : Locked st' := by
  induction he with
  | refl => exact h
  | step _ _ hs ih => exact hs.locked ih

theorem upToDate_some {lib : Option Lib} {s : Nat} {l : Lib} (h : upToDate lib s = some l) : lib = some l ∧ s ≤ l.mtime := by
  unfold upToDate at h
  split at h
  · split at h
    · next hs => cases h; exact ⟨rfl, hs⟩
    · exact absurd h (by simp)
  · exact absurd h (by simp)

theorem upToDate_of {lib : Option Lib} {s : Nat} {l : Lib} (h : lib = some l) (hs : s ≤ l.mtime) : upToDate lib s = some l := by
  rw [h]
  simp [upToDate, hs]

/-- Invariant without failures, crashes or changes of the sources. -/
structure Inv (st : State) : Prop where
  locked : Locked st
  time : st.srcTime ≤ st.clock
  src : ∀ p s, (st.pc p = .waiting s ∨ st.pc p = .checking s) → s = st.srcTime
  zero : st.builds = 0 → ∀ p, st.pc p ≠ .compiling ∧ ∀ v, st.pc p ≠ .linking v
  one : st.builds ≤ 1
  built : st.builds = 1 → (∀ p, st.pc p ≠ .compiling) → ∃ l, st.lib = some l ∧ st.srcTime ≤ l.mtime
  finished : ∀ l, st.lib = some l → l.complete = false → ∃ p v, st.pc p = .linking v
  linking : ∀ p v, st.pc p = .linking v → v = st.srcVersion
  slow : ∀ p l, st.pc p = .slow l → l.complete = true ∧ st.srcTime ≤ l.mtime
  noCrash : ∀ p, st.pc p ≠ .crashed ∧ st.pc p ≠ .failed

theorem Locked.unique {st : State} (h : Locked st) {p q : Nat} (hp : (st.pc p).inside = true) (hq : (st.pc q).inside = true) : p = q := by
  have h1 := (h p).1 hp
  have h2 := (h q).1 hq
  rw [h1] at h2
  exact Option.some.inj h2

/-- The worker `p` moves, and the others do not. -/
theorem pc_update {f : Nat → PC} {p q : Nat} {c : PC} : Function.update f p c q = if q = p then c else f q := by
  by_cases h : q = p
  · subst h; simp
  · simp [h]

theorem Step.inv {st st' : State} (h : Inv st) (hs : Step st .normal st') : Inv st' := by
  have hl := hs.locked h.locked
  generalize he : Event.normal = e at hs
  cases hs with
  | tick => exact ⟨hl, Nat.le_succ_of_le h.time, h.src, h.zero, h.one, h.built, h.finished, h.linking, h.slow, h.noCrash⟩
  | @hit p l h1 h2 =>
    refine ⟨hl, h.time, ?_, ?_, h.one, ?_, ?_, ?_, ?_, ?_⟩ <;> simp only [State.goto, pc_update]
    · intro q s hq
      split at hq
      · simp at hq
      · exact h.src q s hq
    · intro hz q
      split
      · simp
      · exact h.zero hz q
    · intro h1b hc
      refine h.built h1b ?_
      intro q hq
      have := hc q
      rw [if_neg (by rintro rfl; rw [h1] at hq; simp at hq)] at this
      exact this hq
    · intro l' hl' hc
      obtain ⟨q, v, hq⟩ := h.finished l' hl' hc
      exact ⟨q, v, by rw [if_neg (by rintro rfl; rw [h1] at hq; simp at hq)]; exact hq⟩
    · intro q v hq
      split at hq
      · simp at hq
      · exact h.linking q v hq
    · intro q l' hq
      split at hq
      · simp at hq
      · exact h.slow q l' hq
    · intro q
      split
      · simp
      · exact h.noCrash q
  | @miss p h1 h2 =>
    refine ⟨hl, h.time, ?_, ?_, h.one, ?_, ?_, ?_, ?_, ?_⟩ <;> simp only [State.goto, pc_update]
    · intro q s hq
      split at hq
      · simp at hq; exact hq.symm
      · exact h.src q s hq
    · intro hz q
      split
      · simp
      · exact h.zero hz q
    · intro h1b hc
      refine h.built h1b ?_
      intro q hq
      have := hc q
      rw [if_neg (by rintro rfl; rw [h1] at hq; simp at hq)] at this
      exact this hq
    · intro l' hl' hc
      obtain ⟨q, v, hq⟩ := h.finished l' hl' hc
      exact ⟨q, v, by rw [if_neg (by rintro rfl; rw [h1] at hq; simp at hq)]; exact hq⟩
    · intro q v hq
      split at hq
      · simp at hq
      · exact h.linking q v hq
    · intro q l' hq
      split at hq
      · simp at hq
      · exact h.slow q l' hq
    · intro q
      split
      · simp
      · exact h.noCrash q
  | @acquire p s h1 h2 =>
    refine ⟨hl, h.time, ?_, ?_, h.one, ?_, ?_, ?_, ?_, ?_⟩ <;> simp only [State.goto, pc_update]
    · intro q s' hq
      split at hq
      · simp at hq
        rw [← hq]
        exact h.src p s (Or.inl h1)
      · exact h.src q s' hq
    · intro hz q
      split
      · simp
      · exact h.zero hz q
    · intro h1b hc
      refine h.built h1b ?_
      intro q hq
      have := hc q
      rw [if_neg (by rintro rfl; rw [h1] at hq; simp at hq)] at this
      exact this hq
    · intro l' hl' hc
      obtain ⟨q, v, hq⟩ := h.finished l' hl' hc
      exact ⟨q, v, by rw [if_neg (by rintro rfl; rw [h1] at hq; simp at hq)]; exact hq⟩
    · intro q v hq
      split at hq
      · simp at hq
      · exact h.linking q v hq
    · intro q l' hq
      split at hq
      · simp at hq
      · exact h.slow q l' hq
    · intro q
      split
      · simp
      · exact h.noCrash q
  | @hitLocked p s l h1 h2 =>
    have hin : (st.pc p).inside = true := by rw [h1]; rfl
    obtain ⟨e1, e2⟩ := upToDate_some h2
    have hs := h.src p s (Or.inr h1)
    have hcomp : l.complete = true := by
      by_contra hc
      obtain ⟨q, v, hq⟩ := h.finished l e1 (by simpa using hc)
      have := h.locked.unique hin (q := q) (by rw [hq]; rfl)
      subst this
      rw [h1] at hq
      simp at hq
    refine ⟨hl, h.time, ?_, ?_, h.one, ?_, ?_, ?_, ?_, ?_⟩ <;> simp only [State.goto, pc_update]
    · intro q s hq
      split at hq
      · simp at hq
      · exact h.src q s hq
    · intro hz q
      split
      · simp
      · exact h.zero hz q
    · intro h1b hc
      refine h.built h1b ?_
      intro q hq
      have := hc q
      rw [if_neg (by rintro rfl; rw [h1] at hq; simp at hq)] at this
      exact this hq
    · intro l' hl' hc
      obtain ⟨q, v, hq⟩ := h.finished l' hl' hc
      exact ⟨q, v, by rw [if_neg (by rintro rfl; rw [h1] at hq; simp at hq)]; exact hq⟩
    · intro q v hq
      split at hq
      · simp at hq
      · exact h.linking q v hq
    · intro q l' hq
      split at hq
      · simp at hq
        rw [← hq]
        exact ⟨hcomp, by omega⟩
      · exact h.slow q l' hq
    · intro q
      split
      · simp
      · exact h.noCrash q
  | @compile p s h1 h2 =>
    have hin : (st.pc p).inside = true := by rw [h1]; rfl
    have hs := h.src p s (Or.inr h1)
    have hothers : ∀ q, st.pc q ≠ .compiling ∧ ∀ v, st.pc q ≠ .linking v := by
      intro q
      constructor
      · intro hq
        have := h.locked.unique hin (q := q) (by rw [hq]; rfl)
        subst this
        rw [h1] at hq
        simp at hq
      · intro v hq
        have := h.locked.unique hin (q := q) (by rw [hq]; rfl)
        subst this
        rw [h1] at hq
        simp at hq
    have hb : st.builds = 0 := by
      by_contra hb
      obtain ⟨l, e1, e2⟩ := h.built (by have := h.one; omega) fun q => (hothers q).1
      rw [upToDate_of e1 (by omega)] at h2
      simp at h2
    refine ⟨hl, h.time, ?_, ?_, ?_, ?_, ?_, ?_, ?_, ?_⟩ <;> simp only [State.goto, pc_update]
    · intro q s hq
      split at hq
      · simp at hq
      · exact h.src q s hq
    · intro hz
      simp at hz
    · omega
    · intro _ hc
      exact absurd (if_pos rfl) (hc p)
    · intro l' hl' hc
      obtain ⟨q, v, hq⟩ := h.finished l' hl' hc
      exact absurd hq ((hothers q).2 v)
    · intro q v hq
      split at hq
      · simp at hq
      · exact h.linking q v hq
    · intro q l' hq
      split at hq
      · simp at hq
      · exact h.slow q l' hq
    · intro q
      split
      · simp
      · exact h.noCrash q
  | @link p h1 =>
    have hb : st.builds = 1 := by
      by_contra hb
      exact (h.zero (by have := h.one; omega) p).1 h1
    refine ⟨hl, h.time, ?_, ?_, h.one, ?_, ?_, ?_, ?_, ?_⟩ <;> simp only [State.goto, pc_update]
    · intro q s hq
      split at hq
      · simp at hq
      · exact h.src q s hq
    · intro hz
      omega
    · intro _ _
      exact ⟨_, rfl, h.time⟩
    · intro l' hl' hc
      exact ⟨p, st.srcVersion, by simp⟩
    · intro q v hq
      split at hq
      · simp at hq; exact hq.symm
      · exact h.linking q v hq
    · intro q l' hq
      split at hq
      · simp at hq
      · exact h.slow q l' hq
    · intro q
      split
      · simp
      · exact h.noCrash q
  | @finish p v h1 =>
    have hin : (st.pc p).inside = true := by rw [h1]; rfl
    have hb : st.builds = 1 := by
      by_contra hb
      exact (h.zero (by have := h.one; omega) p).2 v h1
    refine ⟨hl, h.time, ?_, ?_, h.one, ?_, ?_, ?_, ?_, ?_⟩ <;> simp only [State.goto, pc_update]
    · intro q s hq
      split at hq
      · simp at hq
      · exact h.src q s hq
    · intro hz
      omega
    · intro _ _
      exact ⟨_, rfl, h.time⟩
    · intro l' hl' hc
      simp only [Option.some.injEq] at hl'
      rw [← hl'] at hc
      simp at hc
    · intro q v hq
      split at hq
      · simp at hq
      · exact h.linking q v hq
    · intro q l' hq
      split at hq
      · simp at hq
        rw [← hq]
        exact ⟨rfl, h.time⟩
      · exact h.slow q l' hq
    · intro q
      split
      · simp
      · exact h.noCrash q
  | fail => cases he
  | failLink => cases he
  | crash => cases he
  | change => cases he

theorem Initial.inv {st : State} (h : Initial st) (ht : st.srcTime ≤ st.clock) (hc : ∀ l, st.lib = some l → l.complete = true) : Inv st := by
  refine ⟨h.locked, ht, ?_, ?_, ?_, ?_, ?_, ?_, ?_, ?_⟩
  · intro p s hp
    rw [h.pc p] at hp
    simp at hp
  · intro _ p
    rw [h.pc p]
    simp
  · rw [h.builds]; omega
  · intro hb
    rw [h.builds] at hb
    simp at hb
  · intro l hl hl'
    rw [hc l hl] at hl'
    simp at hl'
  · intro p v hp
    rw [h.pc p] at hp
    simp at hp
  · intro p l hp
    rw [h.pc p] at hp
    simp at hp
  · intro p
    rw [h.pc p]
    simp

theorem Exec.inv {st st' : State} (h : Inv st) (he : Exec (fun e => e = .normal) st st') : Inv st' := by
  induction he with
  | refl => exact h
  | step _ ha hs ih => exact Step.inv ih (by rw [← ha]; exact hs)

/-! ### Theorems -/

/-- C73: in every execution with any number of workers, failures, crashes and changes of the sources, two workers are never both in the
section that checks and builds the library. -/
theorem C73_exclusive {st st' : State} (h : Initial st) (he : Exec (fun _ => True) st st') {p q : Nat}
    (hp : (st'.pc p).inside = true) (hq : (st'.pc q).inside = true) : p = q :=
  (he.locked h.locked).unique hp hq

/-- C73: in every execution without failures, crashes or changes of the sources, whatever the number of workers and the order of their
steps, the library is built at most once. -/
theorem C73_once {st st' : State} (h : Initial st) (ht : st.srcTime ≤ st.clock) (hc : ∀ l, st.lib = some l → l.complete = true)
    (he : Exec (fun e => e = .normal) st st') : st'.builds ≤ 1 :=
  (he.inv (h.inv ht hc)).one

/-- C73: in these executions, every worker that takes the locks returns with a complete library, not older than the sources; a
library in the cache is complete unless some worker is writing it, so a worker that does not take the locks has a complete library
unless it looked at it in that moment. Partial: `C73_fast_fails`. -/
theorem C73_complete_partial {st st' : State} (h : Initial st) (ht : st.srcTime ≤ st.clock) (hc : ∀ l, st.lib = some l → l.complete = true)
    (he : Exec (fun e => e = .normal) st st') :
    (∀ p l, st'.pc p = .slow l → l.complete = true ∧ st'.srcTime ≤ l.mtime) ∧
    ∀ p st'' l, Step st' .normal st'' → st'.pc p = .start → st''.pc p = .fast l → (∀ q v, st'.pc q ≠ .linking v) →
      st'.lib = some l ∧ l.complete = true ∧ st'.srcTime ≤ l.mtime := by
  have hi := he.inv (h.inv ht hc)
  refine ⟨hi.slow, ?_⟩
  intro p st'' l hs hp hp' hq
  have key : st'.lib = some l ∧ st'.srcTime ≤ l.mtime := by
    generalize hev : Event.normal = e at hs
    cases hs with
    | tick => rw [hp] at hp'; simp at hp'
    | @hit p' l' h1 h2 =>
      simp only [State.goto, pc_update] at hp'
      split at hp'
      · simp only [PC.fast.injEq] at hp'
        rw [← hp']
        exact upToDate_some h2
      · rw [hp] at hp'; simp at hp'
    | @miss p' h1 h2 =>
      simp only [State.goto, pc_update] at hp'
      split at hp'
      · simp at hp'
      · rw [hp] at hp'; simp at hp'
    | @acquire p' s h1 h2 =>
      simp only [State.goto, pc_update] at hp'
      split at hp'
      · simp at hp'
      · rw [hp] at hp'; simp at hp'
    | @hitLocked p' s l h1 h2 =>
      simp only [State.goto, pc_update] at hp'
      split at hp'
      · simp at hp'
      · rw [hp] at hp'; simp at hp'
    | @compile p' s h1 h2 =>
      simp only [State.goto, pc_update] at hp'
      split at hp'
      · simp at hp'
      · rw [hp] at hp'; simp at hp'
    | @link p' h1 =>
      simp only [State.goto, pc_update] at hp'
      split at hp'
      · simp at hp'
      · rw [hp] at hp'; simp at hp'
    | @finish p' v h1 =>
      simp only [State.goto, pc_update] at hp'
      split at hp'
      · simp at hp'
      · rw [hp] at hp'; simp at hp'
    | fail => cases hev
    | failLink => cases hev
    | crash => cases hev
    | change => cases hev
  refine ⟨key.1, ?_, key.2⟩
  by_contra hcc
  obtain ⟨q, v, hqv⟩ := hi.finished l key.1 (by simpa using hcc)
  exact hq q v hqv

/-- The initial state with an empty cache. -/
def exampleStart : State :=
  { lib := none, lock := none, pc := fun _ => .start, clock := 5, srcTime := 3, srcVersion := 1, builds := 0 }

theorem exampleStart_initial : Initial exampleStart := ⟨fun _ => rfl, rfl, rfl⟩

/-- After the worker 0 starts to write the library. -/
def exampleLinking : State :=
  { lib := some ⟨false, 5, 1⟩, lock := some 0, pc := Function.update (fun _ => .start) 0 (.linking 1), clock := 5, srcTime := 3, srcVersion := 1, builds := 1 }

theorem exampleLinking_reached : Exec (fun e => e = .normal) exampleStart exampleLinking := by
  have e1 : Exec (fun e => e = .normal) exampleStart _ := .step (.refl exampleStart) rfl (.miss (p := 0) rfl rfl)
  have e2 : Exec (fun e => e = .normal) exampleStart _ := .step e1 rfl (.acquire (p := 0) (s := 3) rfl rfl)
  have e3 : Exec (fun e => e = .normal) exampleStart _ := .step e2 rfl (.compile (p := 0) (s := 3) rfl rfl)
  have e4 : Exec (fun e => e = .normal) exampleStart _ := .step e3 rfl (.link (p := 0) rfl)
  have e5 : ∀ f : Nat → PC, Function.update (Function.update (Function.update (Function.update f 0 (.waiting 3)) 0 (.checking 3)) 0 .compiling) 0
      (.linking 1) = Function.update f 0 (.linking 1) := by
    intro f
    simp
  have e6 := congrArg (fun f : Nat → PC => State.mk (some ⟨false, 5, 1⟩) (some 0) f 5 3 1 1) (e5 fun _ => .start)
  rw [show exampleLinking = _ from e6.symm]
  exact e4

/-- C73: two processes and an empty cache, without failures or crashes: the second one may get a library that is being written. -/
theorem C73_fast_fails : Initial exampleStart ∧ ∃ st, Exec (fun e => e = .normal) exampleStart st ∧
    ∃ l, st.pc 1 = .fast l ∧ st.lib = some l ∧ l.complete = false := by
  refine ⟨exampleStart_initial, exampleLinking.goto 1 (.fast ⟨false, 5, 1⟩), ?_, ⟨false, 5, 1⟩, ?_, rfl, rfl⟩
  · exact .step exampleLinking_reached rfl (.hit (p := 1) rfl rfl)
  · simp [State.goto]

/-- Nobody is going to build the library: there is one, and all the workers look for that or an older one. -/
structure Stuck (st : State) (l : Lib) : Prop where
  lib : st.lib = some l
  time : st.srcTime ≤ l.mtime
  waiting : ∀ p s, (st.pc p = .waiting s ∨ st.pc p = .checking s) → s ≤ l.mtime
  compiling : ∀ p, st.pc p ≠ .compiling
  linking : ∀ p v, st.pc p ≠ .linking v

theorem Step.stuck {st st' : State} {e : Event} {l : Lib} (h : Stuck st l) (hne : e ≠ .change) (hs : Step st e st') :
    Stuck st' l ∧ ∀ p l', (st'.pc p = .fast l' ∨ st'.pc p = .slow l') → st'.pc p = st.pc p ∨ l' = l := by
  have upd : ∀ (p : Nat) (c : PC), (∀ s, (c = .waiting s ∨ c = .checking s) → s ≤ l.mtime) → c ≠ .compiling → (∀ v, c ≠ .linking v) →
      (∀ q s, (Function.update st.pc p c q = .waiting s ∨ Function.update st.pc p c q = .checking s) → s ≤ l.mtime) ∧
      (∀ q, Function.update st.pc p c q ≠ .compiling) ∧ ∀ q v, Function.update st.pc p c q ≠ .linking v := by
    intro p c h1 h2 h3
    refine ⟨?_, ?_, ?_⟩
    · intro q s
      rw [pc_update]
      split
      · exact h1 s
      · exact h.waiting q s
    · intro q
      rw [pc_update]
      split
      · exact h2
      · exact h.compiling q
    · intro q v
      rw [pc_update]
      split
      · exact h3 v
      · exact h.linking q v
  have seen : ∀ (p : Nat) (c : PC), (∀ l', (c = .fast l' ∨ c = .slow l') → l' = l) → ∀ q l',
      (Function.update st.pc p c q = .fast l' ∨ Function.update st.pc p c q = .slow l') → Function.update st.pc p c q = st.pc q ∨ l' = l := by
    intro p c hc q l'
    rw [pc_update]
    split
    · exact fun h => Or.inr (hc l' h)
    · exact fun _ => Or.inl rfl
  cases hs with
  | tick => exact ⟨⟨h.lib, h.time, h.waiting, h.compiling, h.linking⟩, fun p l' _ => Or.inl rfl⟩
  | @hit p l' h1 h2 =>
    obtain ⟨u1, u2, u3⟩ := upd p (.fast l') (by simp) (by simp) (by simp)
    refine ⟨⟨h.lib, h.time, u1, u2, u3⟩, seen p _ ?_⟩
    intro l'' hl
    simp only [PC.fast.injEq, reduceCtorEq, or_false] at hl
    have := (upToDate_some h2).1
    rw [h.lib] at this
    rw [← hl]
    exact (Option.some.inj this).symm
  | @miss p h1 h2 =>
    rw [upToDate_of h.lib h.time] at h2
    simp at h2
  | @acquire p s h1 h2 =>
    obtain ⟨u1, u2, u3⟩ := upd p (.checking s) (by
      intro s' hs'
      simp only [reduceCtorEq, PC.checking.injEq, false_or] at hs'
      rw [← hs']
      exact h.waiting p s (Or.inl h1)) (by simp) (by simp)
    exact ⟨⟨h.lib, h.time, u1, u2, u3⟩, seen p _ (by simp)⟩
  | @hitLocked p s l' h1 h2 =>
    obtain ⟨u1, u2, u3⟩ := upd p (.slow l') (by simp) (by simp) (by simp)
    refine ⟨⟨h.lib, h.time, u1, u2, u3⟩, seen p _ ?_⟩
    intro l'' hl
    simp only [PC.slow.injEq, reduceCtorEq, false_or] at hl
    have := (upToDate_some h2).1
    rw [h.lib] at this
    rw [← hl]
    exact (Option.some.inj this).symm
  | @compile p s h1 h2 =>
    rw [upToDate_of h.lib (h.waiting p s (Or.inr h1))] at h2
    simp at h2
  | @link p h1 => exact absurd h1 (h.compiling p)
  | @finish p v h1 => exact absurd h1 (h.linking p v)
  | @fail p h1 => exact absurd h1 (h.compiling p)
  | @failLink p v h1 => exact absurd h1 (h.linking p v)
  | crash p =>
    obtain ⟨u1, u2, u3⟩ := upd p .crashed (by simp) (by simp) (by simp)
    exact ⟨⟨h.lib, h.time, u1, u2, u3⟩, seen p _ (by simp)⟩
  | change time version => exact absurd rfl hne

/-- C73: if there is a library not older than the sources and no worker is building, then it is never replaced, whatever happens
(except changes of the sources), and all the workers that return from then on get that library — be it complete or not, built from
these sources or not. -/
theorem C73_kept {st st' : State} {l : Lib} (h : Stuck st l) (he : Exec (fun e => e ≠ .change) st st') :
    st'.lib = some l ∧ ∀ p l', st.pc p = .start → (st'.pc p = .fast l' ∨ st'.pc p = .slow l') → l' = l := by
  have key : Stuck st' l ∧ ∀ p l', (st'.pc p = .fast l' ∨ st'.pc p = .slow l') → st'.pc p = st.pc p ∨ l' = l := by
    induction he with
    | refl => exact ⟨h, fun _ _ _ => Or.inl rfl⟩
    | step _ ha hs ih =>
      obtain ⟨i1, i2⟩ := ih
      obtain ⟨j1, j2⟩ := hs.stuck i1 ha
      refine ⟨j1, ?_⟩
      intro p l' hp
      rcases j2 p l' hp with h' | h'
      · rw [h'] at hp ⊢
        exact i2 p l' hp
      · exact Or.inr h'
  refine ⟨key.1.lib, ?_⟩
  intro p l' hp hp'
  rcases key.2 p l' hp' with h' | h'
  · rw [h', hp] at hp'
    simp at hp'
  · exact h'

/-- C73: if the process that builds the library is killed while the linker writes it, then no other process ever rebuilds it: all of
them, from then on, return with the incomplete library. -/
theorem C73_crash_fails : ∃ st l, Exec (fun e => e = .normal ∨ e = .crash) exampleStart st ∧ l.complete = false ∧
    ∀ st', Exec (fun e => e ≠ .change) st st' → st'.lib = some l ∧
      ∀ p l', st.pc p = .start → (st'.pc p = .fast l' ∨ st'.pc p = .slow l') → l' = l := by
  have hmono : ∀ {a b : State}, Exec (fun e => e = .normal) a b → Exec (fun e => e = .normal ∨ e = .crash) a b := by
    intro a b h
    induction h with
    | refl => exact .refl _
    | step _ ha hs ih => exact .step ih (Or.inl ha) hs
  refine ⟨_, ⟨false, 5, 1⟩, .step (hmono exampleLinking_reached) (Or.inr rfl) (.crash 0), rfl, ?_⟩
  intro st' he
  refine C73_kept ⟨rfl, by decide, ?_, ?_, ?_⟩ he
  · intro p s hp
    simp only [exampleLinking, State.goto, pc_update] at hp
    by_cases h0 : p = 0 <;> simp [h0] at hp
  · intro p
    simp only [exampleLinking, State.goto, pc_update]
    by_cases h0 : p = 0 <;> simp [h0]
  · intro p v
    simp only [exampleLinking, State.goto, pc_update]
    by_cases h0 : p = 0 <;> simp [h0]

/-- C73: a library built from other sources (or in another environment, with another Basix) is used if its file is not older than the
new sources. -/
theorem C73_stale_fails (st : State) (h : Initial st) (l : Lib) (hl : st.lib = some l) (hv : l.version ≠ st.srcVersion)
    (ht : st.srcTime ≤ l.mtime) (st' : State) (he : Exec (fun e => e ≠ .change) st st') :
    st'.lib = some l ∧ ∀ p l', (st'.pc p = .fast l' ∨ st'.pc p = .slow l') → l'.version ≠ st.srcVersion := by
  have hs : Stuck st l := ⟨hl, ht, by intro p s hp; rw [h.pc p] at hp; simp at hp, by intro p; rw [h.pc p]; simp,
    by intro p v; rw [h.pc p]; simp⟩
  obtain ⟨h1, h2⟩ := C73_kept hs he
  exact ⟨h1, fun p l' hp => by rw [h2 p l' (h.pc p) hp]; exact hv⟩

/-- C73: if the sources are newer than the library, every worker that starts afterwards does not use it without checking with the locks, and
there it is rebuilt unless another worker did it. -/
theorem C73_rebuilt (st : State) (l : Lib) (hl : st.lib = some l) (ht : l.mtime < st.srcTime) (p : Nat) (hp : st.pc p = .start) :
    (∀ e st', Step st e st' → ∀ l', st'.pc p ≠ .fast l') ∧ Step st .normal (st.goto p (.waiting st.srcTime)) := by
  have hn : upToDate st.lib st.srcTime = none := by
    rw [hl]
    simp [upToDate, ht]
  refine ⟨?_, .miss hp hn⟩
  intro e st' hs l' hc
  have keep : ∀ {q : Nat} {c : PC}, (∀ l'', c ≠ .fast l'') → Function.update st.pc q c p ≠ .fast l' := by
    intro q c hcc
    rw [pc_update]
    split
    · exact hcc l'
    · rw [hp]; simp
  cases hs with
  | tick => rw [hp] at hc; simp at hc
  | @hit q l'' h1 h2 => rw [hn] at h2; simp at h2
  | miss => exact keep (by simp) hc
  | acquire => exact keep (by simp) hc
  | hitLocked => exact keep (by simp) hc
  | compile => exact keep (by simp) hc
  | link => exact keep (by simp) hc
  | finish => exact keep (by simp) hc
  | fail => exact keep (by simp) hc
  | failLink => exact keep (by simp) hc
  | crash => exact keep (by simp) hc
  | change => rw [hp] at hc; simp at hc

end Qugar.Py.Shim
