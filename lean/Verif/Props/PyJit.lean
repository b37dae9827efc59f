import Verif.Model.PyJit
import Mathlib.Data.List.Induction
import Mathlib.Tactic.Convert
import Mathlib.Tactic.ByContra
/-
C74: every form is compiled once, and only complete modules are loaded, by any number of processes.
-/
namespace Qugar.Py.Jit

/-! ### Proofs -/

theorem pc_update {f : Nat → PC} {p q : Nat} {c : PC} : Function.update f p c q = if q = p then c else f q := by
  by_cases h : q = p
  · subst h; simp
  · simp [h]

/-- The one that created the C file is the only owner. -/
structure Owned (st : State) : Prop where
  cfile : ∀ p, ((st.pc p).owner = true ∨ st.pc p = .marking) → st.cfile = true
  unique : ∀ p q, ((st.pc p).owner = true ∨ st.pc p = .marking) → ((st.pc q).owner = true ∨ st.pc q = .marking) → p = q

theorem Owned.keep {st st' : State} (h : Owned st) (hc : st'.cfile = st.cfile)
    (hp : ∀ q, ((st'.pc q).owner = true ∨ st'.pc q = .marking) → ((st.pc q).owner = true ∨ st.pc q = .marking)) : Owned st' := by
  constructor
  · intro q hq
    rw [hc]
    exact h.cfile q (hp q hq)
  · intro q q' hq hq'
    exact h.unique q q' (hp q hq) (hp q' hq')

theorem Owned.release {st st' : State} (h : Owned st) {p : Nat} (hp : (st.pc p).owner = true ∨ st.pc p = .marking)
    {c : PC} (hc : c.owner = false) (hc' : c ≠ .marking) (hpc : st'.pc = Function.update st.pc p c) : Owned st' := by
  have none' : ∀ q, ¬ ((st'.pc q).owner = true ∨ st'.pc q = .marking) := by
    intro q hq
    rw [hpc, pc_update] at hq
    split at hq
    · rw [hc] at hq
      rcases hq with h | h
      · simp at h
      · exact hc' h
    · next hne => exact hne (h.unique q p hq hp)
  exact ⟨fun q hq => absurd hq (none' q), fun q q' hq _ => absurd hq (none' q)⟩

theorem Step.owned {st st' : State} {e : Event} (h : Owned st) (hs : Step st e st') : Owned st' := by
  have mv : ∀ {p : Nat} {c : PC} {st'' : State}, st''.cfile = st.cfile → st''.pc = Function.update st.pc p c →
      ((c.owner = true ∨ c = .marking) → ((st.pc p).owner = true ∨ st.pc p = .marking)) → Owned st'' := by
    intro p c st'' hc hpc hcp
    refine h.keep hc ?_
    intro q hq
    rw [hpc, pc_update] at hq
    split at hq
    · next he => subst he; exact hcp hq
    · exact hq
  cases hs with
  | @create p h1 h2 =>
    have free : ∀ q, ¬ ((st.pc q).owner = true ∨ st.pc q = .marking) := by
      intro q hq
      have := h.cfile q hq
      rw [h2] at this
      simp at this
    have only : ∀ q, (((Function.update st.pc p PC.building) q).owner = true ∨ (Function.update st.pc p PC.building) q = .marking) → q = p := by
      intro q hq
      rw [pc_update] at hq
      split at hq
      · next he => exact he
      · exact absurd hq (free q)
    exact ⟨fun _ _ => rfl, fun q q' hq hq' => (only q hq).trans (only q' hq').symm⟩
  | wait h1 h2 => exact mv rfl rfl (by simp [PC.owner])
  | found h1 h2 h3 => exact mv rfl rfl (by simp [PC.owner])
  | lost h1 h2 h3 => exact mv rfl rfl (by simp [PC.owner])
  | sleep h1 h2 => exact mv rfl rfl (by simp [PC.owner])
  | timeout h1 => exact mv rfl rfl (by simp [PC.owner])
  | link h1 => exact mv rfl rfl (by simp [PC.owner, h1])
  | finish h1 => exact mv rfl rfl (by simp [PC.owner, h1])
  | mark h1 h2 => exact mv rfl rfl (by simp [PC.owner, h1])
  | @marked p h1 h2 => exact h.release (p := p) (by simp [PC.owner, h1]) (c := .failed) rfl (by simp) rfl
  | load h1 h2 => exact mv rfl rfl (by simp [PC.owner])
  | @fail p h1 => exact h.release (p := p) (by simp [PC.owner, h1]) (c := .failed) rfl (by simp) rfl
  | @failLink p r h1 => exact h.release (p := p) (by simp [PC.owner, h1]) (c := .failed) rfl (by simp) rfl
  | @failMark p h1 => exact h.release (p := p) (by simp [h1]) (c := .failed) rfl (by simp) rfl
  | crash p => exact mv (p := p) (c := .crashed) rfl rfl (by simp [PC.owner])

theorem Exec.owned {allowed : Event → Prop} {st st' : State} (h : Owned st) (he : Exec allowed st st') : Owned st' := by
  induction he with
  | refl => exact h
  | step _ _ hs ih => exact hs.owned ih

theorem Empty.owned {st : State} (h : Empty st) : Owned st :=
  ⟨fun p hp => by rw [h.pc p] at hp; simp [PC.owner] at hp, fun p q hp _ => by rw [h.pc p] at hp; simp [PC.owner] at hp⟩

theorem Cached.owned {st : State} {m : Module} (h : Cached st m) : Owned st :=
  ⟨fun p hp => by rw [h.pc p] at hp; simp [PC.owner] at hp, fun p q hp _ => by rw [h.pc p] at hp; simp [PC.owner] at hp⟩

/-- Invariant while the ready file can be written. -/
structure Inv (st : State) : Prop where
  owned : Owned st
  ready : st.ready = true → st.cfile = true ∧ (∃ m, st.module = some m ∧ m.complete = true) ∧ ∀ p, (st.pc p).owner = false
  built : ∀ p, st.pc p = .built → ∃ m, st.module = some m ∧ m.complete = true ∧ m.version = st.version p
  marking : ∀ p, st.pc p = .marking → st.ready = true
  done : ∀ p m, st.pc p = .done m → st.ready = true ∧ st.module = some m

theorem Step.inv {st st' : State} {e : Event} (h : Inv st) (hne : e ≠ .ioFailure) (hs : Step st e st') : Inv st' := by
  have ho := hs.owned h.owned
  have others : ∀ {p q : Nat}, (st.pc p).owner = true → (st.pc q).owner = true → q = p := fun hp hq => h.owned.unique _ _ (Or.inl hq) (Or.inl hp)
  -- steps that change only the position of `p`
  have mv : ∀ {p : Nat} {c : PC}, Owned (st.goto p c) → (c.owner = true → False) → c ≠ .marking →
      (∀ m, c = .done m → st.ready = true ∧ st.module = some m) → Inv (st.goto p c) := by
    intro p c ho' hc hm hd
    refine ⟨ho', ?_, ?_, ?_, ?_⟩
    · intro hr
      obtain ⟨h1, h2, h3⟩ := h.ready hr
      refine ⟨h1, h2, fun q => ?_⟩
      simp only [State.goto, pc_update]
      split
      · cases hcc : c.owner
        · rfl
        · exact absurd hcc hc
      · exact h3 q
    · intro q hq
      simp only [State.goto, pc_update] at hq ⊢
      split at hq
      · subst hq; simp [PC.owner] at hc
      · exact h.built q hq
    · intro q hq
      simp only [State.goto, pc_update] at hq ⊢
      split at hq
      · exact absurd hq hm
      · exact h.marking q hq
    · intro q m hq
      simp only [State.goto, pc_update] at hq ⊢
      split at hq
      · exact hd m hq
      · exact h.done q m hq
  cases hs with
  | @create p h1 h2 =>
    have hr : st.ready = false := by
      cases hrr : st.ready
      · rfl
      · have := (h.ready hrr).1
        rw [h2] at this
        simp at this
    refine ⟨ho, fun hr' => ?_, ?_, ?_, ?_⟩
    · simp only [State.goto] at hr'
      rw [hr] at hr'
      simp at hr'
    · intro q hq
      simp only [State.goto, pc_update] at hq ⊢
      split at hq
      · simp at hq
      · exact h.built q hq
    · intro q hq
      simp only [State.goto, pc_update] at hq ⊢
      split at hq
      · simp at hq
      · exact h.marking q hq
    · intro q m hq
      simp only [State.goto, pc_update] at hq ⊢
      split at hq
      · simp at hq
      · exact h.done q m hq
  | wait h1 h2 => exact mv ho (by simp [PC.owner]) (by simp) (by simp)
  | @found p k m h1 h2 h3 => exact mv ho (by simp [PC.owner]) (by simp) (by intro m' hm; cases hm; exact ⟨h2, h3⟩)
  | lost h1 h2 h3 => exact mv ho (by simp [PC.owner]) (by simp) (by simp)
  | sleep h1 h2 => exact mv ho (by simp [PC.owner]) (by simp) (by simp)
  | timeout h1 => exact mv ho (by simp [PC.owner]) (by simp) (by simp)
  | @link p h1 =>
    have own : (st.pc p).owner = true := by rw [h1]; rfl
    have hr : st.ready = false := by
      cases hrr : st.ready
      · rfl
      · have := (h.ready hrr).2.2 p
        rw [own] at this
        simp at this
    refine ⟨ho, fun hr' => ?_, ?_, ?_, ?_⟩
    · simp only [State.goto] at hr'
      rw [hr] at hr'
      simp at hr'
    · intro q hq
      simp only [State.goto, pc_update] at hq
      split at hq
      · simp at hq
      · next hqp => exact absurd (others own (by rw [hq]; rfl)) hqp
    · intro q hq
      simp only [State.goto, pc_update] at hq ⊢
      split at hq
      · simp at hq
      · exact h.marking q hq
    · intro q m hq
      simp only [State.goto, pc_update] at hq
      split at hq
      · simp at hq
      · have := (h.done q m hq).1
        rw [hr] at this
        simp at this
  | @finish p h1 =>
    have own : (st.pc p).owner = true := by rw [h1]; rfl
    have hr : st.ready = false := by
      cases hrr : st.ready
      · rfl
      · have := (h.ready hrr).2.2 p
        rw [own] at this
        simp at this
    refine ⟨ho, fun hr' => ?_, ?_, ?_, ?_⟩
    · simp only [State.goto] at hr'
      rw [hr] at hr'
      simp at hr'
    · intro q hq
      simp only [State.goto, pc_update] at hq ⊢
      split at hq
      · next hqp => subst hqp; exact ⟨_, rfl, rfl, rfl⟩
      · next hqp => exact absurd (others own (by rw [hq]; rfl)) hqp
    · intro q hq
      simp only [State.goto, pc_update] at hq ⊢
      split at hq
      · simp at hq
      · exact h.marking q hq
    · intro q m hq
      simp only [State.goto, pc_update] at hq
      split at hq
      · simp at hq
      · have := (h.done q m hq).1
        rw [hr] at this
        simp at this
  | @mark p h1 h2 =>
    have own : (st.pc p).owner = true := by rw [h1]; rfl
    refine ⟨ho, fun _ => ⟨h.owned.cfile p (Or.inl own), ?_, ?_⟩, ?_, fun _ _ => rfl, ?_⟩
    · obtain ⟨m, hm, hmc, _⟩ := h.built p h1
      exact ⟨m, hm, hmc⟩
    · intro q
      simp only [State.goto, pc_update]
      split
      · rfl
      · next hqp =>
        cases hq : (st.pc q).owner
        · rfl
        · exact absurd (others own hq) hqp
    · intro q hq
      simp only [State.goto, pc_update] at hq
      split at hq
      · simp at hq
      · next hqp => exact absurd (others own (by rw [hq]; rfl)) hqp
    · intro q m hq
      simp only [State.goto, pc_update] at hq
      split at hq
      · simp at hq
      · have := (h.done q m hq).1
        rw [h2] at this
        simp at this
  | @marked p h1 h2 =>
    exfalso
    have := (h.ready h2).2.2 p
    rw [h1] at this
    simp [PC.owner] at this
  | @load p m h1 h2 => exact mv ho (by simp [PC.owner]) (by simp) (by intro m' hm; cases hm; exact ⟨h.marking p h1, h2⟩)
  | @fail p h1 =>
    have own : (st.pc p).owner = true := by rw [h1]; rfl
    have hr : st.ready = false := by
      cases hrr : st.ready
      · rfl
      · have := (h.ready hrr).2.2 p
        rw [own] at this
        simp at this
    refine ⟨ho, fun hr' => ?_, ?_, ?_, ?_⟩
    · simp only [State.goto] at hr'
      rw [hr] at hr'
      simp at hr'
    · intro q hq
      simp only [State.goto, pc_update] at hq
      split at hq
      · simp at hq
      · next hqp => exact absurd (others own (by rw [hq]; rfl)) hqp
    · intro q hq
      simp only [State.goto, pc_update] at hq ⊢
      split at hq
      · simp at hq
      · exact h.marking q hq
    · intro q m hq
      simp only [State.goto, pc_update] at hq
      split at hq
      · simp at hq
      · have := (h.done q m hq).1
        rw [hr] at this
        simp at this
  | @failLink p r h1 =>
    have own : (st.pc p).owner = true := by rw [h1]; rfl
    have hr : st.ready = false := by
      cases hrr : st.ready
      · rfl
      · have := (h.ready hrr).2.2 p
        rw [own] at this
        simp at this
    refine ⟨ho, fun hr' => ?_, ?_, ?_, ?_⟩
    · simp only [State.goto] at hr'
      rw [hr] at hr'
      simp at hr'
    · intro q hq
      simp only [State.goto, pc_update] at hq
      split at hq
      · simp at hq
      · next hqp => exact absurd (others own (by rw [hq]; rfl)) hqp
    · intro q hq
      simp only [State.goto, pc_update] at hq ⊢
      split at hq
      · simp at hq
      · exact h.marking q hq
    · intro q m hq
      simp only [State.goto, pc_update] at hq
      split at hq
      · simp at hq
      · have := (h.done q m hq).1
        rw [hr] at this
        simp at this
  | failMark h1 => exact absurd rfl hne
  | crash p => exact mv (p := p) (c := .crashed) ho (by simp [PC.owner]) (by simp) (by simp)

theorem Exec.inv {allowed : Event → Prop} (ha : ¬ allowed .ioFailure) {st st' : State} (h : Inv st) (he : Exec allowed st st') : Inv st' := by
  induction he with
  | refl => exact h
  | step _ hal hs ih => exact hs.inv ih (fun h => ha (h ▸ hal))

theorem Empty.inv {st : State} (h : Empty st) : Inv st := by
  refine ⟨h.owned, ?_, ?_, ?_, ?_⟩
  · intro hr; rw [h.ready] at hr; simp at hr
  · intro p hp; rw [h.pc p] at hp; simp at hp
  · intro p hp; rw [h.pc p] at hp; simp at hp
  · intro p m hp; rw [h.pc p] at hp; simp at hp

theorem Cached.inv {st : State} {m : Module} (h : Cached st m) (hm : m.complete = true) : Inv st := by
  refine ⟨h.owned, ?_, ?_, ?_, ?_⟩
  · intro _; exact ⟨h.cfile, ⟨m, h.module, hm⟩, fun p => by rw [h.pc p]; rfl⟩
  · intro p hp; rw [h.pc p] at hp; simp at hp
  · intro p hp; rw [h.pc p] at hp; simp at hp
  · intro p m hp; rw [h.pc p] at hp; simp at hp

/-- The versions of the processes do not change. -/
theorem Step.version {st st' : State} {e : Event} (hs : Step st e st') : st'.version = st.version ∧ st'.limit = st.limit := by
  cases hs <;> exact ⟨rfl, rfl⟩

theorem Exec.version {allowed : Event → Prop} {st st' : State} (he : Exec allowed st st') : st'.version = st.version := by
  induction he with
  | refl => rfl
  | step _ _ hs ih => rw [hs.version.1, ih]

/-- The module is of some process, once it is there. -/
def FromHere (vs : Nat → Prop) (st : State) : Prop :=
  (∀ m, st.module = some m → ((∃ p, (st.pc p).owner = true ∧ st.pc p ≠ .building) ∨ st.ready = true) → vs m.version) ∧ ∀ p, vs (st.version p)

/-- Without crashes, a C file without ready file has an owner. -/
def Live (st : State) : Prop := st.cfile = true → st.ready = false → ∃ p, (st.pc p).owner = true

theorem Step.live {st st' : State} {e : Event} (hi : Inv st) (h : Live st) (hne : e ≠ .crash) (hs : Step st e st') : Live st' := by
  have mv : ∀ {p : Nat} {c : PC}, (st.pc p).owner = false → Live (st.goto p c) := by
    intro p c hp hc hr
    obtain ⟨q, hq⟩ := h hc hr
    refine ⟨q, ?_⟩
    simp only [State.goto, pc_update]
    split
    · next he => subst he; rw [hp] at hq; simp at hq
    · exact hq
  cases hs with
  | @create p h1 h2 => exact fun _ _ => ⟨p, by simp [State.goto, PC.owner]⟩
  | wait h1 h2 => exact mv (by rw [h1]; rfl)
  | found h1 h2 h3 => exact mv (by rw [h1]; rfl)
  | lost h1 h2 h3 => exact mv (by rw [h1]; rfl)
  | sleep h1 h2 => exact mv (by rw [h1]; rfl)
  | timeout h1 => exact mv (by rw [h1]; rfl)
  | @link p h1 => exact fun _ _ => ⟨p, by simp [State.goto, PC.owner]⟩
  | @finish p h1 => exact fun _ _ => ⟨p, by simp [State.goto, PC.owner]⟩
  | mark h1 h2 => exact fun _ hr => by simp at hr
  | marked h1 h2 => exact fun hc _ => by simp at hc
  | load h1 h2 => exact mv (by rw [h1]; rfl)
  | fail h1 => exact fun hc _ => by simp at hc
  | failLink r h1 => exact fun hc _ => by simp at hc
  | failMark h1 => exact fun hc _ => by simp at hc
  | crash p => exact absurd rfl hne

/-! ### Theorems -/

/-- C74: whatever the schedule, the failures and the crashes, at most one process at a time compiles the form. -/
theorem C74_exclusive {st st' : State} (h : Empty st) (he : Exec (fun _ => True) st st') {p q : Nat}
    (hp : st'.pc p = .building ∨ st'.pc p = .writing ∨ st'.pc p = .built ∨ st'.pc p = .marking)
    (hq : st'.pc q = .building ∨ st'.pc q = .writing ∨ st'.pc q = .built ∨ st'.pc q = .marking) : p = q := by
  have key : ∀ {r : Nat}, (st'.pc r = .building ∨ st'.pc r = .writing ∨ st'.pc r = .built ∨ st'.pc r = .marking) →
      (st'.pc r).owner = true ∨ st'.pc r = .marking := by
    rintro r (h | h | h | h)
    · left; rw [h]; rfl
    · left; rw [h]; rfl
    · left; rw [h]; rfl
    · right; exact h
  exact (he.owned h.owned).unique p q (key hp) (key hq)

/-- C74: whatever the schedule, the failures of the compiler and the crashes, all the processes that return have loaded the same module,
which is complete and is still in the cache. -/
theorem C74_complete {st st' : State} (h : Empty st) (he : Exec (fun e => e ≠ .ioFailure) st st') {p : Nat} {m : Module}
    (hp : st'.pc p = .done m) : m.complete = true ∧ st'.module = some m ∧ ∀ q m', st'.pc q = .done m' → m' = m := by
  have hi := he.inv (by simp) h.inv
  obtain ⟨hr, hm⟩ := hi.done p m hp
  obtain ⟨_, ⟨m', hm', hc⟩, _⟩ := hi.ready hr
  rw [hm] at hm'
  cases hm'
  refine ⟨hc, hm, fun q m'' hq => ?_⟩
  have := (hi.done q m'' hq).2
  rw [hm] at this
  exact (Option.some.inj this).symm

/-- C74: once there is a ready module, nobody compiles it again, and everybody that arrives later gets it or is killed: there are no
failures, and no timeouts if one may look at least once. -/
theorem C74_cached {st st' : State} {m : Module} (h : Cached st m) (hm : m.complete = true) (hl : 0 < st.limit)
    (he : Exec (fun e => e ≠ .ioFailure) st st') (p : Nat) :
    st'.pc p = .start ∨ st'.pc p = .waiting st.limit ∨ st'.pc p = .done m ∨ st'.pc p = .crashed := by
  have hi : Inv st' := he.inv (by simp) (h.inv hm)
  suffices st'.cfile = true ∧ st'.ready = true ∧ st'.module = some m ∧ st'.limit = st.limit ∧ ∀ p,
      st'.pc p = .start ∨ st'.pc p = .waiting st.limit ∨ st'.pc p = .done m ∨ st'.pc p = .crashed from this.2.2.2.2 p
  clear hi
  induction he with
  | refl => exact ⟨h.cfile, h.ready, h.module, rfl, fun p => Or.inl (h.pc p)⟩
  | @step st₁ st₂ e _ hal hs ih =>
    obtain ⟨hc, hr, hmd, hli, hpc⟩ := ih
    have mv : ∀ {q : Nat} {c : PC}, (c = .start ∨ c = .waiting st.limit ∨ c = .done m ∨ c = .crashed) → ∀ p,
        (st₁.goto q c).pc p = .start ∨ (st₁.goto q c).pc p = .waiting st.limit ∨ (st₁.goto q c).pc p = .done m ∨
        (st₁.goto q c).pc p = .crashed := by
      intro q c hcc p
      simp only [State.goto, pc_update]
      split
      · exact hcc
      · exact hpc p
    cases hs with
    | create h1 h2 => rw [hc] at h2; simp at h2
    | wait h1 h2 => exact ⟨hc, hr, hmd, hli, mv (by rw [hli]; simp)⟩
    | @found q k m' h1 h2 h3 =>
      rw [hmd] at h3
      cases h3
      exact ⟨hc, hr, hmd, hli, mv (by simp)⟩
    | lost h1 h2 h3 => rw [hmd] at h3; simp at h3
    | sleep h1 h2 => rw [hr] at h2; simp at h2
    | @timeout q h1 =>
      rcases hpc q with h' | h' | h' | h' <;> rw [h1] at h' <;> simp at h'
      omega
    | @link q h1 => rcases hpc q with h' | h' | h' | h' <;> rw [h1] at h' <;> simp at h'
    | @finish q h1 => rcases hpc q with h' | h' | h' | h' <;> rw [h1] at h' <;> simp at h'
    | @mark q h1 h2 => rcases hpc q with h' | h' | h' | h' <;> rw [h1] at h' <;> simp at h'
    | @marked q h1 h2 => rcases hpc q with h' | h' | h' | h' <;> rw [h1] at h' <;> simp at h'
    | @load q m h1 h2 => rcases hpc q with h' | h' | h' | h' <;> rw [h1] at h' <;> simp at h'
    | @fail q h1 => rcases hpc q with h' | h' | h' | h' <;> rw [h1] at h' <;> simp at h'
    | @failLink q r h1 => rcases hpc q with h' | h' | h' | h' <;> rw [h1] at h' <;> simp at h'
    | failMark h1 => exact absurd rfl hal
    | crash q => exact ⟨hc, hr, hmd, hli, mv (by simp)⟩

/-- C74: without crashes, a process that waits either finds the module ready or waits for one that is compiling it: the cache is never left
blocked, also after failures, and the next process that calls compiles the form again. -/
theorem C74_not_blocked_partial {st st' : State} (h : Empty st) (he : Exec (fun e => e = .normal ∨ e = .failure) st st')
    (hr : st'.ready = false) :
    (∃ p, st'.pc p = .building ∨ st'.pc p = .writing ∨ st'.pc p = .built) ∨
    ∀ p, st'.pc p = .start → ∃ st'', Step st' .normal st'' ∧ st''.pc p = .building := by
  have hl : Inv st' ∧ Live st' := by
    clear hr
    induction he with
    | refl => exact ⟨h.inv, fun hc => by rw [h.cfile] at hc; simp at hc⟩
    | step _ hal hs ih =>
      refine ⟨hs.inv ih.1 ?_, hs.live ih.1 ih.2 ?_⟩ <;> rcases hal with rfl | rfl <;> simp
  cases hc : st'.cfile
  · right
    intro p hp
    exact ⟨_, .create hp hc, by simp [State.goto]⟩
  · left
    obtain ⟨p, hp⟩ := hl.2 hc hr
    refine ⟨p, ?_⟩
    cases hpc : st'.pc p <;> rw [hpc] at hp <;> simp [PC.owner] at hp ⊢

/-- C74: if all the processes run the same version of the generator and the cache had nothing of this form, the modules that are loaded are of
that version. -/
theorem C74_version_partial {st st' : State} (h : Empty st) (v : Nat) (hv : ∀ p, st.version p = v)
    (he : Exec (fun e => e ≠ .ioFailure) st st') {p : Nat} {m : Module} (hp : st'.pc p = .done m) : m.version = v := by
  have hi := he.inv (by simp) h.inv
  obtain ⟨hr, hm⟩ := hi.done p m hp
  have key : st'.ready = true → ∀ m, st'.module = some m → m.version = v := by
    clear hi hr hm hp
    induction he with
    | refl => intro hr; rw [h.ready] at hr; simp at hr
    | @step st₁ st₂ e he₁ hal hs ih =>
      have hi := he₁.inv (by simp) h.inv
      have hver := he₁.version
      cases hs with
      | create h1 h2 => exact ih
      | wait h1 h2 => exact ih
      | found h1 h2 h3 => exact ih
      | lost h1 h2 h3 => exact ih
      | sleep h1 h2 => exact ih
      | timeout h1 => exact ih
      | @link q h1 =>
        intro hr m hm
        cases hm
        exact (congrFun hver q).trans (hv q)
      | @finish q h1 =>
        intro hr m hm
        cases hm
        exact (congrFun hver q).trans (hv q)
      | @mark q h1 h2 =>
        intro _ m hm
        obtain ⟨m', hm', _, hver'⟩ := hi.built q h1
        have hmm : st₁.module = some m := hm
        rw [hmm] at hm'
        cases hm'
        rw [hver', hver, hv q]
      | marked h1 h2 => exact ih
      | load h1 h2 => exact ih
      | fail h1 => exact ih
      | @failLink q r h1 =>
        intro hr
        have := (hi.ready hr).2.2 q
        rw [h1] at this
        simp [PC.owner] at this
      | failMark h1 => exact absurd rfl hal
      | crash q => exact ih
  exact key hr m hm

/-! ### What fails -/

/-- C74: the name of the module does not depend on the version of QUGaR: a process with another version loads the module of the old one,
together with the data of the integrals (offsets, tables) generated by the new one. -/
theorem C74_version_fails {st : State} {m : Module} (h : Cached st m) (hl : 0 < st.limit) (p : Nat) (hv : st.version p ≠ m.version) :
    ∃ st', Exec (fun e => e = .normal) st st' ∧ st'.pc p = .done m ∧ m.version ≠ st'.version p := by
  obtain ⟨k, hk⟩ : ∃ k, st.limit = k + 1 := ⟨st.limit - 1, by omega⟩
  refine ⟨(st.goto p (.waiting st.limit)).goto p (.done m), .step (.step (.refl st) rfl (.wait (h.pc p) h.cfile)) rfl ?_, ?_, Ne.symm hv⟩
  · refine .found (k := k) ?_ h.ready h.module
    simp [State.goto, hk]
  · simp [State.goto]

/-- The cache after a crash of the process that was compiling. -/
structure Blocked (st : State) : Prop where
  cfile : st.cfile = true
  ready : st.ready = false
  free : ∀ p, (st.pc p).owner = false ∧ st.pc p ≠ .marking ∧ ∀ m, st.pc p ≠ .done m

theorem Step.blocked {st st' : State} {e : Event} (h : Blocked st) (hs : Step st e st') : Blocked st' := by
  have mv : ∀ {p : Nat} {c : PC}, c.owner = false → c ≠ .marking → (∀ m, c ≠ .done m) → Blocked (st.goto p c) := by
    intro p c h1 h2 h3
    refine ⟨h.cfile, h.ready, fun q => ?_⟩
    simp only [State.goto, pc_update]
    split
    · exact ⟨h1, h2, h3⟩
    · exact h.free q
  have noOwner : ∀ {p : Nat}, (st.pc p).owner = true → False := fun {p} hp => by
    have := (h.free p).1
    rw [hp] at this
    simp at this
  cases hs with
  | create h1 h2 => rw [h.cfile] at h2; simp at h2
  | wait h1 h2 => exact mv rfl (by simp) (by simp)
  | found h1 h2 h3 => rw [h.ready] at h2; simp at h2
  | lost h1 h2 h3 => exact mv rfl (by simp) (by simp)
  | sleep h1 h2 => exact mv rfl (by simp) (by simp)
  | timeout h1 => exact mv rfl (by simp) (by simp)
  | link h1 => exact (noOwner (by rw [h1]; rfl)).elim
  | finish h1 => exact (noOwner (by rw [h1]; rfl)).elim
  | mark h1 h2 => exact (noOwner (by rw [h1]; rfl)).elim
  | marked h1 h2 => exact (noOwner (by rw [h1]; rfl)).elim
  | @load p m h1 h2 => exact absurd h1 (h.free p).2.1
  | fail h1 => exact (noOwner (by rw [h1]; rfl)).elim
  | failLink r h1 => exact (noOwner (by rw [h1]; rfl)).elim
  | @failMark p h1 => exact absurd h1 (h.free p).2.1
  | crash p => exact mv (p := p) (c := .crashed) rfl (by simp) (by simp)

/-- An empty cache: all the processes have the version 7. -/
def exampleStart : State := ⟨false, false, none, fun _ => .start, fun _ => 7, 2⟩

theorem exampleStart_empty : Empty exampleStart := ⟨fun _ => rfl, rfl, rfl⟩

/-- C74: if the process that compiles is killed, the form cannot be compiled any more with this cache: whatever happens afterwards, nobody
returns. -/
theorem C74_crash_fails : ∃ st, Exec (fun e => e = .normal ∨ e = .crash) exampleStart st ∧
    ∀ st', Exec (fun _ => True) st st' → ∀ p m, st'.pc p ≠ .done m := by
  refine ⟨State.goto { exampleStart.goto 0 .building with cfile := true } 0 .crashed, ?_, ?_⟩
  · exact .step (.step (.refl _) (Or.inl rfl) (.create (p := 0) rfl rfl)) (Or.inr rfl) (.crash 0)
  · intro st' he p m
    refine ((?_ : Blocked st').free p).2.2 m
    induction he with
    | refl =>
      refine ⟨rfl, rfl, fun q => ?_⟩
      simp only [State.goto, exampleStart, pc_update]
      split <;> simp [PC.owner]
    | step _ _ hs ih => exact hs.blocked ih

/-- A process `p` of `exampleStart` compiles the form, and the ready file cannot be written. -/
def exampleIo : State :=
  { exampleStart with pc := Function.update exampleStart.pc 0 .failed, ready := true, module := some ⟨true, 7⟩ }

theorem exampleIo_reached : Exec (fun e => e = .normal ∨ e = .ioFailure) exampleStart exampleIo := by
  have h1 := Exec.step (allowed := fun e => e = .normal ∨ e = .ioFailure) (.refl exampleStart) (Or.inl rfl) (.create (p := 0) rfl rfl)
  have h2 := h1.step (Or.inl rfl) (.link (p := 0) (by simp [State.goto]))
  have h3 := h2.step (Or.inl rfl) (.finish (p := 0) (by simp [State.goto]))
  have h4 := h3.step (Or.inl rfl) (.mark (p := 0) (by simp [State.goto]) rfl)
  have h5 := h4.step (Or.inr rfl) (.failMark (p := 0) (by simp [State.goto]))
  convert h5 using 1
  simp [exampleIo, State.goto, exampleStart]

/-- The ready file is left from a failed compilation: nobody that compiles succeeds. -/
structure Spoiled (st : State) : Prop where
  ready : st.ready = true
  marking : ∀ p, st.pc p ≠ .marking

theorem Step.spoiled {st st' : State} {e : Event} (h : Spoiled st) (hs : Step st e st') : Spoiled st' := by
  have mv : ∀ {p : Nat} {c : PC} {st'' : State}, st''.ready = st.ready → st''.pc = Function.update st.pc p c → c ≠ .marking → Spoiled st'' := by
    intro p c st'' h1 h2 h3
    refine ⟨h1.trans h.ready, fun q => ?_⟩
    rw [h2, pc_update]
    split
    · exact h3
    · exact h.marking q
  cases hs with
  | create h1 h2 => exact mv rfl rfl (by simp)
  | wait h1 h2 => exact mv rfl rfl (by simp)
  | found h1 h2 h3 => exact mv rfl rfl (by simp)
  | lost h1 h2 h3 => exact mv rfl rfl (by simp)
  | sleep h1 h2 => exact mv rfl rfl (by simp)
  | timeout h1 => exact mv rfl rfl (by simp)
  | link h1 => exact mv rfl rfl (by simp)
  | finish h1 => exact mv rfl rfl (by simp)
  | mark h1 h2 => rw [h.ready] at h2; simp at h2
  | marked h1 h2 => exact mv rfl rfl (by simp)
  | load h1 h2 => exact mv rfl rfl (by simp)
  | fail h1 => exact mv rfl rfl (by simp)
  | failLink r h1 => exact mv rfl rfl (by simp)
  | failMark h1 => exact mv rfl rfl (by simp)
  | crash p => exact mv (p := p) (c := .crashed) rfl rfl (by simp)

theorem Spoiled.never {st st' : State} (h : Spoiled st) (he : Exec (fun _ => True) st st') : Spoiled st' := by
  induction he with
  | refl => exact h
  | step _ _ hs ih => exact hs.spoiled ih

/-- C74: if the ready file cannot be written, it remains and the C file is removed: from then on, every process that compiles the form ends in
an error, and processes that arrive meanwhile load modules that are not complete. -/
theorem C74_ready_fails : ∃ st, Exec (fun e => e = .normal ∨ e = .ioFailure) exampleStart st ∧
    (∀ st', Exec (fun _ => True) st st' → ∀ p, st'.pc p = .built → ∀ e st'', Step st' e st'' → st''.pc p = .built ∨ st''.pc p = .failed ∨ st''.pc p = .crashed) ∧
    ∃ st' p, Exec (fun e => e = .normal) st st' ∧ st'.pc p = .done ⟨false, 7⟩ := by
  refine ⟨exampleIo, exampleIo_reached, ?_, ?_⟩
  · intro st' he p hp e st'' hs
    have hsp : Spoiled st' := Spoiled.never ⟨rfl, fun q => by
      simp only [exampleIo, exampleStart, pc_update]
      split <;> simp⟩ he
    have mv : ∀ {q : Nat} {c : PC} {s : State}, s.pc = Function.update st'.pc q c → st'.pc q ≠ .built →
        s.pc p = .built ∨ s.pc p = .failed ∨ s.pc p = .crashed := by
      intro q c s hpc hq
      rw [hpc, pc_update]
      split
      · next hh => subst hh; exact absurd hp hq
      · exact Or.inl hp
    cases hs with
    | create h1 h2 => exact mv rfl (by rw [h1]; simp)
    | wait h1 h2 => exact mv rfl (by rw [h1]; simp)
    | found h1 h2 h3 => exact mv rfl (by rw [h1]; simp)
    | lost h1 h2 h3 => exact mv rfl (by rw [h1]; simp)
    | sleep h1 h2 => exact mv rfl (by rw [h1]; simp)
    | timeout h1 => exact mv rfl (by rw [h1]; simp)
    | link h1 => exact mv rfl (by rw [h1]; simp)
    | finish h1 => exact mv rfl (by rw [h1]; simp)
    | mark h1 h2 => rw [hsp.ready] at h2; simp at h2
    | @marked q h1 h2 =>
      simp only [State.goto, pc_update]
      split
      · exact Or.inr (Or.inl rfl)
      · exact Or.inl hp
    | load h1 h2 => exact mv rfl (by rw [h1]; simp)
    | fail h1 => exact mv rfl (by rw [h1]; simp)
    | failLink r h1 => exact mv rfl (by rw [h1]; simp)
    | failMark h1 => exact mv rfl (by rw [h1]; simp)
    | crash q =>
      simp only [State.goto, pc_update]
      split
      · exact Or.inr (Or.inr rfl)
      · exact Or.inl hp
  · have h1 := Exec.step (allowed := fun e => e = .normal) (.refl exampleIo) rfl (.create (p := 1) (by simp [exampleIo, exampleStart]) rfl)
    have h2 := h1.step rfl (.link (p := 1) (by simp [State.goto]))
    have h3 := h2.step rfl (.wait (p := 2) (by simp [State.goto, exampleIo, exampleStart]) rfl)
    have h4 := h3.step rfl (.found (p := 2) (k := 1) (m := ⟨false, 7⟩) (by simp [State.goto, exampleIo, exampleStart]) rfl rfl)
    exact ⟨_, 2, h4, by simp [State.goto]⟩

/-- A complete execution meets the hypotheses: one process compiles and another waits, and both load the same module. -/
example : ∃ st, Exec (fun e => e ≠ .ioFailure) exampleStart st ∧ st.pc 0 = .done ⟨true, 7⟩ ∧ st.pc 1 = .done ⟨true, 7⟩ := by
  have h1 := Exec.step (allowed := fun e => e ≠ .ioFailure) (.refl exampleStart) (by simp) (.create (p := 0) rfl rfl)
  have h2 := h1.step (by simp) (.wait (p := 1) (by simp [State.goto, exampleStart]) rfl)
  have h3 := h2.step (by simp) (.link (p := 0) (by simp [State.goto]))
  have h4 := h3.step (by simp) (.sleep (p := 1) (k := 1) (by simp [State.goto, exampleStart]) rfl)
  have h5 := h4.step (by simp) (.finish (p := 0) (by simp [State.goto]))
  have h6 := h5.step (by simp) (.mark (p := 0) (by simp [State.goto]) rfl)
  have h7 := h6.step (by simp) (.found (p := 1) (k := 0) (m := ⟨true, 7⟩) (by simp [State.goto]) rfl rfl)
  have h8 := h7.step (by simp) (.load (p := 0) (m := ⟨true, 7⟩) (by simp [State.goto]) rfl)
  exact ⟨_, h8, by simp [State.goto], by simp [State.goto]⟩

/-! ### Linker command and logger -/

theorem fromKeys_append (l : List String) (t : String) : fromKeys (l ++ [t]) = if t ∈ fromKeys l then fromKeys l else fromKeys l ++ [t] := by
  unfold fromKeys
  rw [List.foldl_append]
  rfl

/-- C74: in every outcome the environment is left as it was. The compilation sees the configured command with every token once: the
tokens are the same, and each is where it first appears. -/
theorem C74_ldshared (env : Option (List String)) (config : List String) (body : Option (List String) → Option (List String) × Outcome) :
    (withLdshared env config body).2.1 = env ∧
    (withLdshared env config body).2.2 = (body (withLdshared env config body).1).2 ∧
    (config ≠ [] → ∃ l, (withLdshared env config body).1 = some l ∧ l.Nodup ∧ (∀ t, t ∈ l ↔ t ∈ config) ∧ l.Sublist config ∧
      ∀ t before after, config = before ++ t :: after → t ∉ before → ∃ rest, l = fromKeys before ++ t :: rest) := by
  refine ⟨by cases env <;> simp [withLdshared], rfl, fun hc => ⟨fromKeys config, by simp [withLdshared, hc], ?_⟩⟩
  clear hc
  refine ⟨?_, ?_, ?_, ?_⟩
  · induction config using List.reverseRecOn with
    | nil => exact List.nodup_nil
    | append_singleton l t ih =>
      rw [fromKeys_append]
      split
      · exact ih
      · next h => exact List.nodup_append.2 ⟨ih, by simp, fun x hx y hy hxy => by
          rw [List.mem_singleton] at hy
          exact h (by rwa [← hy, ← hxy])⟩
  · intro t
    induction config using List.reverseRecOn with
    | nil => simp [fromKeys]
    | append_singleton l u ih =>
      rw [fromKeys_append]
      split
      · next h =>
        rw [ih, List.mem_append, List.mem_singleton]
        constructor
        · exact Or.inl
        · rintro (h' | rfl)
          · exact h'
          · exact ih.1 h
      · rw [List.mem_append, List.mem_append, ih]
  · induction config using List.reverseRecOn with
    | nil => exact List.Sublist.refl _
    | append_singleton l u ih =>
      rw [fromKeys_append]
      split
      · exact ih.trans (List.sublist_append_left l [u])
      · exact ih.append (List.Sublist.refl [u])
  · intro t before after
    induction after using List.reverseRecOn generalizing config with
    | nil =>
      rintro rfl hb
      refine ⟨[], ?_⟩
      rw [fromKeys_append]
      have hmem : t ∉ fromKeys before := by
        intro h
        have hsub : ∀ (l : List String), ∀ x ∈ fromKeys l, x ∈ l := by
          intro l
          induction l using List.reverseRecOn with
          | nil => simp [fromKeys]
          | append_singleton l u ih =>
            intro x hx
            rw [fromKeys_append] at hx
            split at hx
            · exact List.mem_append_left _ (ih x hx)
            · rcases List.mem_append.1 hx with h | h
              · exact List.mem_append_left _ (ih x h)
              · exact List.mem_append_right _ h
        exact hb (hsub before t h)
      rw [if_neg hmem]
    | append_singleton a u ih =>
      rintro rfl hb
      obtain ⟨rest, hr⟩ := ih (config := before ++ t :: a) rfl hb
      rw [show before ++ t :: (a ++ [u]) = (before ++ t :: a) ++ [u] by simp, fromKeys_append, hr]
      split
      · exact ⟨rest, rfl⟩
      · exact ⟨rest ++ [u], by simp⟩

/-- C74: removing repeated tokens changes commands with options of two tokens: with `-arch x86_64 -arch arm64` (universal builds of
Python) the second option loses its name, and the linker takes its value as a file. -/
theorem C74_ldshared_fails : fromKeys ["cc", "-arch", "x86_64", "-arch", "arm64"] = ["cc", "-arch", "x86_64", "arm64"] := by
  decide +kernel

/-- C74: the handlers of the root logger are the same after a successful compilation. -/
theorem C74_handlers_partial {H : Type} (old : List H) (buffer : H) : handlersAfter old buffer .returned .returned = old := rfl

/-- C74: after a failed one the logger writes to a buffer that nobody reads, until the end of the process. -/
theorem C74_handlers_fail {H : Type} (old : List H) (buffer : H) (hn : old ≠ [buffer]) (compile mark : Outcome)
    (h : compile = .raised ∨ mark = .raised) : handlersAfter old buffer compile mark ≠ old := by
  rcases h with rfl | rfl
  · exact Ne.symm hn
  · cases compile <;> exact Ne.symm hn

example : handlersAfter ["file", "screen"] "buffer" .raised .returned ≠ ["file", "screen"] :=
  C74_handlers_fail _ _ (by decide) _ _ (Or.inl rfl)

end Qugar.Py.Jit
