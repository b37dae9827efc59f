import Verif.Model.PyViews
import Mathlib.Tactic.Ring
import Mathlib.Data.List.Forall2
/-
Property theorems C86 (objects and arrays of the Python module keep their contents): the program on reference-counted memory refines
the program on immutable values.
-/
namespace Qugar.Py.Life
open Spec.Views

/-! ### Reference counts -/

def refCount (i : Nat) (o : Option Obj) : Nat := match o with | some o => o.refs.count i | none => 0

def cnt (h : List (Option Obj)) (i : Nat) : Nat := (h.map (refCount i)).sum

def rcOf (h : List (Option Obj)) (i : Nat) : Nat := match get h i with | some o => o.rc | none => 0

structure Inv (h : List (Option Obj)) (V : List Nat) : Prop where
  count : ∀ i, rcOf h i = V.count i + cnt h i
  pos : ∀ i o, get h i = some o → 0 < o.rc
  older : ∀ i o, get h i = some o → ∀ r ∈ o.refs, r < i

theorem get_lt {h : List (Option Obj)} {i : Nat} {o : Obj} (hg : get h i = some o) : i < h.length := by
  rcases Nat.lt_or_ge i h.length with hl | hl
  · exact hl
  · simp [get, List.getElem?_eq_none hl] at hg

theorem get_set_eq {h : List (Option Obj)} {i : Nat} (x : Option Obj) (hi : i < h.length) : get (h.set i x) i = x := by
  simp [get, List.getElem?_set, hi]

theorem get_set_ne {h : List (Option Obj)} {i j : Nat} (x : Option Obj) (hij : i ≠ j) : get (h.set i x) j = get h j := by
  simp [get, List.getElem?_set, hij]

theorem cnt_set (h : List (Option Obj)) (i j : Nat) (x : Option Obj) (o : Obj) (hg : get h i = some o) :
    cnt (h.set i x) j + o.refs.count j = cnt h j + refCount j x := by
  induction h generalizing i with
  | nil => simp [get] at hg
  | cons a t ih =>
    cases i with
    | zero =>
      simp only [get, List.getElem?_cons_zero, Option.join_some] at hg
      subst hg
      simp only [cnt, List.set_cons_zero, List.map_cons, List.sum_cons, refCount]
      omega
    | succ i =>
      have := ih i (by simpa [get] using hg)
      simp only [cnt, List.set_cons_succ, List.map_cons, List.sum_cons] at this ⊢
      omega

theorem Inv.alive {h : List (Option Obj)} {V : List Nat} (hI : Inv h V) {i : Nat} (hi : i ∈ V) : ∃ o, get h i = some o := by
  have h1 := hI.count i
  have h2 : 0 < V.count i := List.count_pos_iff.2 hi
  unfold rcOf at h1
  cases hg : get h i with
  | some o => exact ⟨o, rfl⟩
  | none =>
    rw [hg] at h1
    simp only at h1
    omega

theorem cnt_pos {h : List (Option Obj)} {i r : Nat} {o : Obj} (hg : get h i = some o) (hr : r ∈ o.refs) : 0 < cnt h r := by
  have := cnt_set h i r none o hg
  have h2 : 0 < o.refs.count r := List.count_pos_iff.2 hr
  simp only [refCount] at this
  omega

theorem Inv.refs_alive {h : List (Option Obj)} {V : List Nat} (hI : Inv h V) {i r : Nat} {o : Obj} (hg : get h i = some o)
    (hr : r ∈ o.refs) : ∃ o', get h r = some o' := by
  have h1 := hI.count r
  have h2 := cnt_pos hg hr
  unfold rcOf at h1
  cases hg' : get h r with
  | some o => exact ⟨o, rfl⟩
  | none =>
    rw [hg'] at h1
    simp only at h1
    omega

/-- Nothing of an object that is alive in `h'` has changed. -/
def Ext (h h' : List (Option Obj)) : Prop :=
  ∀ i o', get h' i = some o' → ∃ o, get h i = some o ∧ o.refs = o'.refs ∧ o.mem = o'.mem

theorem release_spec (V : List Nat) : ∀ (n : Nat) (h : List (Option Obj)) (L : List Nat), weight h ≤ n → Inv h (L ++ V) →
    ∃ h', release h L = some h' ∧ Inv h' V ∧ Ext h h' := by
  intro n
  induction n with
  | zero =>
    intro h L hw hI
    cases L with
    | nil => exact ⟨h, by rw [release], hI, fun i o ho => ⟨o, ho, rfl, rfl⟩⟩
    | cons i rest =>
      exfalso
      obtain ⟨o, ho⟩ := hI.alive (i := i) (by simp)
      have := weight_set h i o none ho (hI.pos i o ho)
      omega
  | succ n ih =>
    intro h L hw hI
    cases L with
    | nil => exact ⟨h, by rw [release], hI, fun i o ho => ⟨o, ho, rfl, rfl⟩⟩
    | cons i rest =>
      obtain ⟨o, ho⟩ := hI.alive (i := i) (by simp)
      have hpos := hI.pos i o ho
      have hlt := get_lt ho
      have hrc : rcOf h i = o.rc := by simp [rcOf, ho]
      by_cases h1 : o.rc = 1
      · have hw' := weight_set h i o none ho (by simp only; omega)
        have hI' : Inv (h.set i none) ((o.refs ++ rest) ++ V) := by
          refine ⟨fun j => ?_, fun j oj hj => ?_, fun j oj hj => ?_⟩
          · have hc := hI.count j
            have hs := cnt_set h i j none o ho
            simp only [refCount] at hs
            simp only [List.count_append, List.cons_append, List.count_cons] at hc ⊢
            by_cases hij : i = j
            · subst hij
              simp only [beq_self_eq_true, if_true] at hc
              have : rcOf (h.set i none) i = 0 := by simp [rcOf, get_set_eq none hlt]
              omega
            · have hb : (i == j) = false := by simpa using hij
              have : rcOf (h.set i none) j = rcOf h j := by simp [rcOf, get_set_ne none hij]
              rw [hb] at hc
              simp only [Bool.false_eq_true, if_false] at hc
              omega
          · by_cases hij : i = j
            · subst hij
              rw [get_set_eq none hlt] at hj
              simp at hj
            · rw [get_set_ne none hij] at hj
              exact hI.pos j oj hj
          · by_cases hij : i = j
            · subst hij
              rw [get_set_eq none hlt] at hj
              simp at hj
            · rw [get_set_ne none hij] at hj
              exact hI.older j oj hj
        obtain ⟨h', hr, hI2, hE⟩ := ih (h.set i none) (o.refs ++ rest) (by omega) hI'
        refine ⟨h', ?_, hI2, fun j oj hj => ?_⟩
        · rw [release]
          split
          · rename_i hn
            rw [ho] at hn
            simp at hn
          · rename_i o2 ho2
            rw [ho] at ho2
            cases ho2
            rw [dif_neg (by omega), dif_pos h1]
            exact hr
        · obtain ⟨o2, ho2, he⟩ := hE j oj hj
          by_cases hij : i = j
          · subst hij
            rw [get_set_eq none hlt] at ho2
            simp at ho2
          · rw [get_set_ne none hij] at ho2
            exact ⟨o2, ho2, he⟩
      · have hw' := weight_set h i o (some { o with rc := o.rc - 1 }) ho (by simp only; omega)
        have hI' : Inv (h.set i (some { o with rc := o.rc - 1 })) (rest ++ V) := by
          refine ⟨fun j => ?_, fun j oj hj => ?_, fun j oj hj => ?_⟩
          · have hc := hI.count j
            have hs := cnt_set h i j (some { o with rc := o.rc - 1 }) o ho
            simp only [refCount] at hs
            simp only [List.count_append, List.cons_append, List.count_cons] at hc ⊢
            by_cases hij : i = j
            · subst hij
              simp only [beq_self_eq_true, if_true] at hc
              have : rcOf (h.set i (some { o with rc := o.rc - 1 })) i = o.rc - 1 := by simp [rcOf, get_set_eq _ hlt]
              omega
            · have hb : (i == j) = false := by simpa using hij
              have : rcOf (h.set i (some { o with rc := o.rc - 1 })) j = rcOf h j := by simp [rcOf, get_set_ne _ hij]
              rw [hb] at hc
              simp only [Bool.false_eq_true, if_false] at hc
              omega
          · by_cases hij : i = j
            · subst hij
              rw [get_set_eq _ hlt] at hj
              cases hj
              simp only
              omega
            · rw [get_set_ne _ hij] at hj
              exact hI.pos j oj hj
          · by_cases hij : i = j
            · subst hij
              rw [get_set_eq _ hlt] at hj
              cases hj
              exact hI.older i o ho
            · rw [get_set_ne _ hij] at hj
              exact hI.older j oj hj
        obtain ⟨h', hr, hI2, hE⟩ := ih _ rest (by omega) hI'
        refine ⟨h', ?_, hI2, fun j oj hj => ?_⟩
        · rw [release]
          split
          · rename_i hn
            rw [ho] at hn
            simp at hn
          · rename_i o2 ho2
            rw [ho] at ho2
            cases ho2
            rw [dif_neg (by omega), dif_neg h1]
            exact hr
        · obtain ⟨o2, ho2, he⟩ := hE j oj hj
          by_cases hij : i = j
          · subst hij
            rw [get_set_eq _ hlt] at ho2
            cases ho2
            exact ⟨o, ho, he⟩
          · rw [get_set_ne _ hij] at ho2
            exact ⟨o2, ho2, he⟩

/-- The objects of `h` are still there. -/
def Keep (h h' : List (Option Obj)) : Prop :=
  ∀ i o, get h i = some o → ∃ o', get h' i = some o' ∧ o'.refs = o.refs ∧ o'.mem = o.mem

theorem Keep.trans {h h' h'' : List (Option Obj)} (h1 : Keep h h') (h2 : Keep h' h'') : Keep h h'' := by
  intro i o ho
  obtain ⟨o1, g1, r1, m1⟩ := h1 i o ho
  obtain ⟨o2, g2, r2, m2⟩ := h2 i o1 g1
  exact ⟨o2, g2, r2.trans r1, m2.trans m1⟩

theorem Keep.refl (h : List (Option Obj)) : Keep h h := fun _ o ho => ⟨o, ho, rfl, rfl⟩

theorem incref_spec {h : List (Option Obj)} {V : List Nat} (hI : Inv h V) {i : Nat} {o : Obj} (ho : get h i = some o) :
    ∃ h', incref h i = some h' ∧ Inv h' (i :: V) ∧ Keep h h' ∧ Ext h h' ∧ h'.length = h.length := by
  have hlt := get_lt ho
  refine ⟨h.set i (some { o with rc := o.rc + 1 }), by rw [incref, ho], ⟨fun j => ?_, fun j oj hj => ?_, fun j oj hj => ?_⟩,
    fun j oj hj => ?_, fun j oj hj => ?_, by simp⟩
  · have hc := hI.count j
    have hs := cnt_set h i j (some { o with rc := o.rc + 1 }) o ho
    simp only [refCount] at hs
    simp only [List.count_cons]
    by_cases hij : i = j
    · subst hij
      simp only [beq_self_eq_true, if_true]
      have h1 : rcOf (h.set i (some { o with rc := o.rc + 1 })) i = o.rc + 1 := by simp [rcOf, get_set_eq _ hlt]
      have h2 : rcOf h i = o.rc := by simp [rcOf, ho]
      omega
    · have hb : (i == j) = false := by simpa using hij
      have : rcOf (h.set i (some { o with rc := o.rc + 1 })) j = rcOf h j := by simp [rcOf, get_set_ne _ hij]
      rw [hb]
      simp only [Bool.false_eq_true, if_false]
      omega
  · by_cases hij : i = j
    · subst hij
      rw [get_set_eq _ hlt] at hj
      cases hj
      simp
    · rw [get_set_ne _ hij] at hj
      exact hI.pos j oj hj
  · by_cases hij : i = j
    · subst hij
      rw [get_set_eq _ hlt] at hj
      cases hj
      exact hI.older i o ho
    · rw [get_set_ne _ hij] at hj
      exact hI.older j oj hj
  · by_cases hij : i = j
    · subst hij
      rw [ho] at hj
      cases hj
      exact ⟨_, get_set_eq _ hlt, rfl, rfl⟩
    · exact ⟨oj, by rw [get_set_ne _ hij]; exact hj, rfl, rfl⟩
  · by_cases hij : i = j
    · subst hij
      rw [get_set_eq _ hlt] at hj
      cases hj
      exact ⟨o, ho, rfl, rfl⟩
    · rw [get_set_ne _ hij] at hj
      exact ⟨oj, hj, rfl, rfl⟩

theorem Ext.trans {h h' h'' : List (Option Obj)} (h1 : Ext h h') (h2 : Ext h' h'') : Ext h h'' := by
  intro i o ho
  obtain ⟨o1, g1, r1, m1⟩ := h2 i o ho
  obtain ⟨o2, g2, r2, m2⟩ := h1 i o1 g1
  exact ⟨o2, g2, r2.trans r1, m2.trans m1⟩

theorem increfs_spec (refs : List Nat) : ∀ (h : List (Option Obj)) (V : List Nat), Inv h V → (∀ r ∈ refs, ∃ o, get h r = some o) →
    ∃ h', refs.foldlM incref h = some h' ∧ Inv h' (refs ++ V) ∧ Keep h h' ∧ Ext h h' ∧ h'.length = h.length := by
  induction refs with
  | nil => exact fun h V hI _ => ⟨h, rfl, hI, Keep.refl h, fun i o ho => ⟨o, ho, rfl, rfl⟩, rfl⟩
  | cons r rs ih =>
    intro h V hI hr
    obtain ⟨o, ho⟩ := hr r (by simp)
    obtain ⟨h1, e1, I1, K1, E1, l1⟩ := incref_spec hI ho
    obtain ⟨h2, e2, I2, K2, E2, l2⟩ := ih h1 (r :: V) I1 (fun r' hr' => by
      obtain ⟨o', ho'⟩ := hr r' (by simp [hr'])
      obtain ⟨o2, ho2, _⟩ := K1 r' o' ho'
      exact ⟨o2, ho2⟩)
    refine ⟨h2, ?_, ⟨fun i => ?_, I2.pos, I2.older⟩, K1.trans K2, E1.trans E2, l2.trans l1⟩
    · rw [List.foldlM_cons, e1]
      exact e2
    · have := I2.count i
      simp only [List.count_append, List.count_cons, List.cons_append] at this ⊢
      omega

theorem get_append_lt {h : List (Option Obj)} (x : Option Obj) {i : Nat} (hi : i < h.length) : get (h ++ [x]) i = get h i := by
  simp [get, List.getElem?_append_left hi]

theorem get_append_eq (h : List (Option Obj)) (x : Option Obj) : get (h ++ [x]) h.length = x := by
  simp [get]

theorem alloc_spec {s : State} (hI : Inv s.heap s.vars) (refs : List Nat) (p : Payload)
    (hr : ∀ r ∈ refs, ∃ o, get s.heap r = some o) :
    ∃ s', alloc s refs p = some s' ∧ Inv s'.heap s'.vars ∧ Keep s.heap s'.heap ∧ s'.stack = s.stack ∧
      ∃ i, s'.vars = s.vars ++ [i] ∧ (∃ o, get s'.heap i = some o ∧ o.refs = refs ∧ o.mem = p) ∧
        ∀ j o, get s'.heap j = some o → (j = i ∧ o.mem = p) ∨ ∃ o', get s.heap j = some o' ∧ o'.mem = o.mem := by
  obtain ⟨h, e, I, K, E, l⟩ := increfs_spec refs s.heap s.vars hI hr
  have hlen0 : get h h.length = none := by simp [get]
  have hnew := get_append_eq h (some { rc := 1, refs := refs, mem := p })
  refine ⟨{ s with heap := h ++ [some { rc := 1, refs := refs, mem := p }], vars := s.vars ++ [h.length] }, ?_, ⟨fun j => ?_,
    fun j oj hj => ?_, fun j oj hj => ?_⟩, fun j oj hj => ?_, rfl, h.length, rfl, ⟨_, hnew, rfl, rfl⟩, fun j oj hj => ?_⟩
  · simp [alloc, e]
  · have hc := I.count j
    have hs : cnt (h ++ [some { rc := 1, refs := refs, mem := p }]) j = cnt h j + refs.count j := by
      simp [cnt, refCount]
    simp only [List.count_append, List.count_cons, List.count_nil] at hc ⊢
    rw [hs]
    rcases Nat.lt_trichotomy j h.length with hj | hj | hj
    · have : rcOf (h ++ [some { rc := 1, refs := refs, mem := p }]) j = rcOf h j := by simp [rcOf, get_append_lt _ hj]
      have hb : (h.length == j) = false := by simp; omega
      rw [hb]
      simp only [Bool.false_eq_true, if_false]
      omega
    · subst hj
      have h1 : rcOf (h ++ [some { rc := 1, refs := refs, mem := p }]) h.length = 1 := by simp [rcOf, hnew]
      have h2 : rcOf h h.length = 0 := by simp [rcOf, hlen0]
      simp only [beq_self_eq_true, if_true]
      omega
    · have h1 : rcOf (h ++ [some { rc := 1, refs := refs, mem := p }]) j = 0 := by
        simp [rcOf, get, List.getElem?_append_right (show h.length ≤ j by omega),
          List.getElem?_eq_none (show [some ({ rc := 1, refs := refs, mem := p } : Obj)].length ≤ j - h.length by simp; omega)]
      have h2 : rcOf h j = 0 := by simp [rcOf, get, List.getElem?_eq_none (show h.length ≤ j by omega)]
      have hb : (h.length == j) = false := by simp; omega
      rw [hb]
      simp only [Bool.false_eq_true, if_false]
      omega
  · have hjl : j < (h ++ [some ({ rc := 1, refs := refs, mem := p } : Obj)]).length := get_lt hj
    simp only [List.length_append, List.length_cons, List.length_nil] at hjl
    rcases Nat.lt_or_ge j h.length with hjl' | hjl'
    · exact I.pos j oj (by rw [get_append_lt _ hjl'] at hj; exact hj)
    · have : j = h.length := by omega
      subst this
      rw [hnew] at hj
      cases hj
      exact Nat.one_pos
  · have hjl : j < (h ++ [some ({ rc := 1, refs := refs, mem := p } : Obj)]).length := get_lt hj
    simp only [List.length_append, List.length_cons, List.length_nil] at hjl
    rcases Nat.lt_or_ge j h.length with hjl' | hjl'
    · exact I.older j oj (by rw [get_append_lt _ hjl'] at hj; exact hj)
    · have : j = h.length := by omega
      subst this
      rw [hnew] at hj
      cases hj
      intro r hrr
      obtain ⟨o, ho⟩ := hr r hrr
      have := get_lt ho
      omega
  · obtain ⟨o', ho', hrr, hm⟩ := K j oj hj
    exact ⟨o', by rw [get_append_lt _ (get_lt ho')]; exact ho', hrr, hm⟩
  · have hjl : j < (h ++ [some ({ rc := 1, refs := refs, mem := p } : Obj)]).length := get_lt hj
    simp only [List.length_append, List.length_cons, List.length_nil] at hjl
    rcases Nat.lt_or_ge j h.length with hjl' | hjl'
    · right
      obtain ⟨o', ho', _, hm⟩ := E j oj (by rw [get_append_lt _ hjl'] at hj; exact hj)
      exact ⟨o', ho', hm⟩
    · left
      have : j = h.length := by omega
      subst this
      rw [hnew] at hj
      cases hj
      exact ⟨rfl, rfl⟩

/-! ### The value of an object -/

/-- The array `i` keeps the object `p` alive. -/
def Keeps (h : List (Option Obj)) (o : Obj) (p : Nat) : Prop :=
  p ∈ o.refs ∨ ∃ q ∈ o.refs, ∃ oq, get h q = some oq ∧ p ∈ oq.refs

def cppOf (d : Data) : Payload := .cpp (store d).1 (store d).2.1 (store d).2.2

inductive Den (h : List (Option Obj)) (i : Nat) : Val → Prop
  | data (o : Obj) (d : Data) : get h i = some o → o.mem = cppOf d → d.ok → Den h i (.data d)
  | sub (o : Obj) (p : Nat) (op : Obj) (br : List (List ℚ)) : get h i = some o → o.mem = .sub p br.length (br.length + 1) →
      p ∈ o.refs → get h p = some op → op.mem = cppOf (.grid br) →
      Den h i (.data (.box (br.map (·.headD 0)) (br.map (·.getLastD 0))))
  | own (o : Obj) (shape : List Nat) (e : List ℚ) : get h i = some o → o.mem = .own shape e → Den h i (.arr shape e)
  | view (o : Obj) (p k : Nat) (shape : List Nat) (e : List ℚ) : get h i = some o → o.mem = .view (.buf p k) shape →
      Keeps h o p → load h p k = some e → Den h i (.arr shape e)
  | stack (o : Obj) (shape : List Nat) (e : List ℚ) : get h i = some o → o.mem = .view .stack shape → Den h i (.arr shape e)
  | func (o : Obj) (n : Nat) : get h i = some o → o.mem = .cpp .func [] [n] → Den h i (.func n)
  | domain (o : Obj) (f g : Nat) (of og : Obj) (n : Nat) (br : List (List ℚ)) : get h i = some o → o.mem = .cpp .domain [] [] →
      o.refs = [f, g] → get h f = some of → of.mem = .cpp .func [] [n] → get h g = some og → og.mem = cppOf (.grid br) →
      (Data.grid br).ok → Den h i (.domain n br)

theorem load_congr {h h' : List (Option Obj)} {p : Nat} {o o' : Obj} (ho : get h p = some o) (ho' : get h' p = some o')
    (hm : o'.mem = o.mem) (k : Nat) : load h' p k = load h p k := by
  obtain ⟨rc, refs, mem⟩ := o
  obtain ⟨rc', refs', mem'⟩ := o'
  simp only at hm
  subst hm
  unfold load
  rw [ho, ho']
  cases mem' <;> rfl

/-- Objects that are in both memories are the same. -/
def Agree (h h' : List (Option Obj)) : Prop :=
  ∀ i o o', get h i = some o → get h' i = some o' → o'.refs = o.refs ∧ o'.mem = o.mem

theorem Ext.agree {h h' : List (Option Obj)} (hE : Ext h h') : Agree h h' := by
  intro i o o' ho ho'
  obtain ⟨o2, ho2, hr, hm⟩ := hE i o' ho'
  rw [ho] at ho2
  cases ho2
  exact ⟨hr.symm, hm.symm⟩

theorem Keep.agree {h h' : List (Option Obj)} (hK : Keep h h') : Agree h h' := by
  intro i o o' ho ho'
  obtain ⟨o2, ho2, hr, hm⟩ := hK i o ho
  rw [ho'] at ho2
  cases ho2
  exact ⟨hr, hm⟩

theorem Den.alive {h : List (Option Obj)} {i : Nat} {v : Val} (hd : Den h i v) : ∃ o, get h i = some o := by
  cases hd <;> exact ⟨_, by assumption⟩

theorem Den.mono {h h' : List (Option Obj)} {V : List Nat} (hI : Inv h' V) (hE : Agree h h') {i : Nat} {v : Val} (hd : Den h i v)
    {o' : Obj} (ho' : get h' i = some o') : Den h' i v := by
  obtain ⟨o0, ho0⟩ := hd.alive
  obtain ⟨hr0', hm0'⟩ := hE i o0 o' ho0 ho'
  have hr0 := hr0'.symm
  have hm0 := hm0'.symm
  have key : ∀ {j : Nat} {oj : Obj}, get h j = some oj → (∃ oj', get h' j = some oj') →
      ∃ oj', get h' j = some oj' ∧ oj'.refs = oj.refs ∧ oj'.mem = oj.mem := by
    intro j oj hj hj'
    obtain ⟨oj', hoj'⟩ := hj'
    exact ⟨oj', hoj', hE j oj oj' hj hoj'⟩
  cases hd with
  | data o d ho hm hok =>
    rw [ho0] at ho
    cases ho
    exact .data o' d ho' (hm0.symm.trans hm) hok
  | sub o p op br ho hm hp hop hmp =>
    rw [ho0] at ho
    cases ho
    obtain ⟨op', hop', hrp, hmp'⟩ := key hop (hI.refs_alive ho' (hr0 ▸ hp))
    exact .sub o' p op' br ho' (hm0.symm.trans hm) (hr0 ▸ hp) hop' (hmp'.trans hmp)
  | own o shape e ho hm =>
    rw [ho0] at ho
    cases ho
    exact .own o' shape e ho' (hm0.symm.trans hm)
  | stack o shape e ho hm =>
    rw [ho0] at ho
    cases ho
    exact .stack o' shape e ho' (hm0.symm.trans hm)
  | func o n ho hm =>
    rw [ho0] at ho
    cases ho
    exact .func o' n ho' (hm0.symm.trans hm)
  | view o p k shape e ho hm hk hl =>
    rw [ho0] at ho
    cases ho
    have hop : ∃ op, get h p = some op := by
      unfold load at hl
      cases hg : get h p with
      | some op => exact ⟨op, rfl⟩
      | none => rw [hg] at hl; simp at hl
    obtain ⟨op, hop⟩ := hop
    have hk' : Keeps h' o' p ∧ ∃ op', get h' p = some op' := by
      rcases hk with hk | ⟨q, hq, oq, hoq, hpq⟩
      · exact ⟨Or.inl (hr0 ▸ hk), hI.refs_alive ho' (hr0 ▸ hk)⟩
      · obtain ⟨oq', hoq', hrq, _⟩ := key hoq (hI.refs_alive ho' (hr0 ▸ hq))
        exact ⟨Or.inr ⟨q, hr0 ▸ hq, oq', hoq', hrq ▸ hpq⟩, hI.refs_alive hoq' (hrq ▸ hpq)⟩
    obtain ⟨op', hop', _, hmp⟩ := key hop hk'.2
    exact .view o' p k shape e ho' (hm0.symm.trans hm) hk'.1 ((load_congr hop hop' hmp k).trans hl)
  | domain o f g of og n br ho hm hr hf hmf hg hmg hok =>
    rw [ho0] at ho
    cases ho
    have hr' : o'.refs = [f, g] := hr0.symm.trans hr
    obtain ⟨of', hof', _, hmf'⟩ := key hf (hI.refs_alive ho' (by simp [hr']))
    obtain ⟨og', hog', _, hmg'⟩ := key hg (hI.refs_alive ho' (by simp [hr']))
    exact .domain o' f g of' og' n br ho' (hm0.symm.trans hm) hr' hof' (hmf'.trans hmf) hog' (hmg'.trans hmg) hok

/-! ### Attributes -/

/-- The export `e` of an object with buffers `bufs` stands for the value `y`. -/
def ExpDen (d : Data) (bufs : List (List ℚ)) : Export → Val → Prop
  | .buffer k shape p, y => ∃ e, bufs[k]? = some e ∧ y = .arr shape e ∧ (match p with | .referenceInternal => True | .automatic => False)
  | .locals e shape p, y => match p with
    | .referenceInternal => ∃ e', y = .arr shape e'
    | .automatic => y = .arr shape e
  | .inner a b, y => ∃ br, d = .grid br ∧ a = br.length ∧ b = br.length + 1 ∧
      y = .data (.box (br.map (·.headD 0)) (br.map (·.getLastD 0)))
  | .child _, _ => False

theorem length_flatten {n : Nat} {l : List (List ℚ)} (h : rows n l) : l.flatten.length = l.length * n := by
  obtain ⟨_, hl⟩ := h
  induction l with
  | nil => simp
  | cons a t ih =>
    have h1 := ih (fun r hr => hl r (by simp [hr]))
    have h2 := hl a (by simp)
    simp only [List.flatten_cons, List.length_append, List.length_cons, h1, h2]
    ring

theorem points_den (d : Data) (bufs : List (List ℚ)) (k n : Nat) (l : List (List ℚ)) (h : rows n l) (hb : bufs[k]? = some l.flatten) :
    ExpDen d bufs (pointsArray k n l.flatten) (mat n l) := by
  unfold pointsArray mat
  have hlen := length_flatten h
  split
  · rename_i he
    have h0 : l.flatten.length = 0 := by simpa [List.isEmpty_iff, List.eq_nil_iff_length_eq_zero] using he
    have hl : l.length = 0 := by
      rw [hlen] at h0
      rcases Nat.mul_eq_zero.1 h0 with h1 | h1
      · exact h1
      · have := h.1; omega
    exact ⟨_, hb, by rw [hl], trivial⟩
  · refine ⟨_, hb, ?_, trivial⟩
    rw [hlen, Nat.mul_div_cancel _ h.1]

theorem conn_den (d : Data) (bufs : List (List ℚ)) (k n : Nat) (l : List (List ℚ)) (h : rows n l) (hb : bufs[k]? = some l.flatten) :
    ExpDen d bufs (connArray k n l.flatten) (mat n l) := points_den d bufs k n l h hb

theorem vec_den (d : Data) (bufs : List (List ℚ)) (k : Nat) (l : List ℚ) (hb : bufs[k]? = some l) :
    ExpDen d bufs (vecArray k l) (vec l) := ⟨l, hb, rfl, trivial⟩

theorem interleave_eq (lo hi : List ℚ) (h : lo.length = hi.length) :
    ((List.range lo.length).flatMap fun d => [lo.getD d 0, hi.getD d 0]) = (List.zipWith (fun a b => [a, b]) lo hi).flatten := by
  induction lo generalizing hi with
  | nil => simp
  | cons a t ih =>
    cases hi with
    | nil => simp at h
    | cons b t' =>
      have := ih t' (by simpa using h)
      rw [List.length_cons, List.range_succ_eq_map, List.flatMap_cons, List.flatMap_map]
      simp only [List.getD_cons_zero, List.zipWith_cons_cons, List.flatten_cons]
      rw [← this]
      rfl

/-- The exports of a C++ object stand for its attributes. -/
theorem exports_data (d : Data) (hok : d.ok) (a : Attr) :
    match attr (.data d) a with
    | none => exports (store d).1 (store d).2.1 (store d).2.2 a = none
    | some y => ∃ e, exports (store d).1 (store d).2.1 (store d).2.2 a = some e ∧ ExpDen d (store d).2.1 e y := by
  cases d with
  | box lo hi =>
    cases a
    case asArray =>
      refine ⟨_, rfl, ?_⟩
      have hl : lo.length = hi.length := hok
      have := interleave_eq lo hi hl
      simp only [ExpDen, store, mat, List.getD_cons_zero, List.getD_cons_succ, this, List.length_zipWith, ← hl, Nat.min_self]
    case minCorner => exact ⟨_, rfl, vec_den _ _ 0 lo rfl⟩
    case maxCorner => exact ⟨_, rfl, vec_den _ _ 1 hi rfl⟩
    case midPoint =>
      refine ⟨_, rfl, ?_⟩
      have hl : lo.length = hi.length := hok
      simp only [ExpDen, store, vec, List.getD_cons_zero, List.length_zipWith, ← hl, Nat.min_self]
      exact ⟨_, rfl⟩
    all_goals rfl
  | grid br =>
    cases a
    case domain => exact ⟨_, rfl, br, rfl, rfl, rfl, rfl⟩
    case numCells =>
      refine ⟨_, rfl, ?_⟩
      simp [ExpDen, store, vec]
    case cellBreaks dir =>
      simp only [attr]
      rcases Nat.lt_or_ge dir br.length with hd | hd
      · rw [List.getElem?_eq_getElem hd]
        refine ⟨vecArray dir br[dir], ?_, vec_den _ _ dir _ ?_⟩
        · simp [exports, store, hd, List.getD_eq_getElem?_getD, List.getElem?_append_left hd]
        · simp [store, List.getElem?_append_left hd, hd]
      · rw [List.getElem?_eq_none hd]
        simp [exports, store, Nat.not_lt.2 hd]
    all_goals rfl
  | quad dim pts w =>
    cases a
    case points => exact ⟨_, rfl, points_den _ _ 0 dim pts hok rfl⟩
    case weights => exact ⟨_, rfl, vec_den _ _ 1 w rfl⟩
    all_goals rfl
  | cutCells dim cells npts pts w =>
    cases a
    case points => exact ⟨_, rfl, points_den _ _ 2 dim pts hok rfl⟩
    case weights => exact ⟨_, rfl, vec_den _ _ 3 w rfl⟩
    case cells => exact ⟨_, rfl, vec_den _ _ 0 cells rfl⟩
    case nPts => exact ⟨_, rfl, vec_den _ _ 1 npts rfl⟩
    all_goals rfl
  | cutIso dim cells facets npts pts w =>
    cases a
    case points => exact ⟨_, rfl, points_den _ _ 3 dim pts hok rfl⟩
    case weights => exact ⟨_, rfl, vec_den _ _ 4 w rfl⟩
    case cells => exact ⟨_, rfl, vec_den _ _ 0 cells rfl⟩
    case facets => exact ⟨_, rfl, vec_den _ _ 1 facets rfl⟩
    case nPts => exact ⟨_, rfl, vec_den _ _ 2 npts rfl⟩
    all_goals rfl
  | cutUnf dim cells npts pts w normals =>
    cases a
    case points => exact ⟨_, rfl, points_den _ _ 2 dim pts hok.1 rfl⟩
    case weights => exact ⟨_, rfl, vec_den _ _ 3 w rfl⟩
    case cells => exact ⟨_, rfl, vec_den _ _ 0 cells rfl⟩
    case nPts => exact ⟨_, rfl, vec_den _ _ 1 npts rfl⟩
    case normals => exact ⟨_, rfl, points_den _ _ 4 dim normals hok.2 rfl⟩
    all_goals rfl
  | mesh range ppc order pts conn wires =>
    cases a
    case points => exact ⟨_, rfl, points_den _ _ 0 range pts hok.1 rfl⟩
    case cellsConn => exact ⟨_, rfl, conn_den _ _ 1 ppc conn hok.2.1 rfl⟩
    case wireConn => exact ⟨_, rfl, conn_den _ _ 2 order wires hok.2.2 rfl⟩
    all_goals rfl

/-! ### One step -/

/-- The variables of the memory stand for the values. -/
structure Rel (s : State) (vals : List Val) : Prop where
  inv : Inv s.heap s.vars
  vars : List.Forall₂ (Den s.heap) s.vars vals

theorem Rel.push {s s' : State} {vals : List Val} (hR : Rel s vals) (hI : Inv s'.heap s'.vars) (hK : Keep s.heap s'.heap) {i : Nat}
    (hv : s'.vars = s.vars ++ [i]) {v : Val} (hd : Den s'.heap i v) : Rel s' (vals ++ [v]) := by
  refine ⟨hI, ?_⟩
  rw [hv]
  refine List.rel_append ?_ (List.Forall₂.cons hd List.Forall₂.nil)
  refine hR.vars.imp (fun j w hj => ?_)
  obtain ⟨o, ho⟩ := hj.alive
  obtain ⟨o', ho', _⟩ := hK j o ho
  exact hj.mono hI hK.agree ho'

theorem Rel.stack {s : State} {vals : List Val} (hR : Rel s vals) (j : List ℚ) : Rel { s with stack := j } vals := ⟨hR.inv, hR.vars⟩

/-- No array is a view of the stack. -/
def Clean (s : State) : Prop := ∀ i o sh, get s.heap i = some o → o.mem ≠ .view .stack sh

theorem alloc_rel {s : State} {vals : List Val} (hR : Rel s vals) (refs : List Nat) (p : Payload)
    (hr : ∀ r ∈ refs, ∃ o, get s.heap r = some o) (v : Val)
    (hd : ∀ h' i o, Keep s.heap h' → get h' i = some o → o.refs = refs → o.mem = p → Den h' i v) :
    ∃ s', alloc s refs p = some s' ∧ Rel s' (vals ++ [v]) ∧ (Clean s → (∀ sh, p ≠ .view .stack sh) → Clean s') := by
  obtain ⟨s', e, hI, hK, _, i, hv, ⟨o, ho, hrf, hm⟩, hall⟩ := alloc_spec hR.inv refs p hr
  refine ⟨s', e, hR.push hI hK hv (hd _ i o hK ho hrf hm), fun hC hp j oj sh hj hmj => ?_⟩
  rcases hall j oj hj with ⟨_, hm'⟩ | ⟨o', ho', hm'⟩
  · exact hp sh (hm'.symm.trans hmj)
  · exact hC j o' sh ho' (hm'.trans hmj)

theorem var_den {s : State} {vals : List Val} (hR : Rel s vals) (k : Nat) :
    (s.vars[k]? = none ∧ vals[k]? = none) ∨ ∃ i v, s.vars[k]? = some i ∧ vals[k]? = some v ∧ Den s.heap i v := by
  have hlen := hR.vars.length_eq
  rcases Nat.lt_or_ge k s.vars.length with hk | hk
  · right
    exact ⟨s.vars[k], vals[k], List.getElem?_eq_getElem hk, List.getElem?_eq_getElem (hlen ▸ hk),
      hR.vars.get hk (hlen ▸ hk)⟩
  · left
    exact ⟨List.getElem?_eq_none hk, List.getElem?_eq_none (hlen ▸ hk)⟩

theorem incref_rel {s : State} {vals : List Val} (hR : Rel s vals) {i : Nat} {v : Val} (hd : Den s.heap i v) :
    ∃ h, incref s.heap i = some h ∧ Rel { s with heap := h, vars := s.vars ++ [i] } (vals ++ [v]) ∧
      (Clean s → Clean { s with heap := h, vars := s.vars ++ [i] }) := by
  obtain ⟨o, ho⟩ := hd.alive
  obtain ⟨h, e, hI, hK, hE, _⟩ := incref_spec hR.inv ho
  obtain ⟨o', ho', _⟩ := hK i o ho
  have hI' : Inv h (s.vars ++ [i]) := ⟨fun j => by
    have := hI.count j
    simp only [List.count_append, List.count_cons, List.count_nil] at this ⊢
    omega, hI.pos, hI.older⟩
  refine ⟨h, e, hR.push (s' := { s with heap := h, vars := s.vars ++ [i] }) hI' hK rfl (hd.mono hI' hK.agree ho'), ?_⟩
  intro hC j oj sh hj hm
  obtain ⟨oj', hoj', _, hm'⟩ := hE j oj hj
  exact hC j oj' sh hoj' (hm'.trans hm)

/-- The operations that take the middle point of a box. -/
def isMid : Op → Bool
  | .take _ .midPoint _ => true
  | _ => false

theorem points_ne (k n : Nat) (b en : List ℚ) (sh : List Nat) (p : Policy) : pointsArray k n b ≠ .locals en sh p := by
  unfold pointsArray
  split <;> simp

theorem conn_ne (k n : Nat) (b en : List ℚ) (sh : List Nat) (p : Policy) : connArray k n b ≠ .locals en sh p := by
  unfold connArray
  split <;> simp

theorem locals_mid (c : Cls) (bufs : List (List ℚ)) (sizes : List Nat) (a : Attr) (en : List ℚ) (shape : List Nat)
    (hx : exports c bufs sizes a = some (.locals en shape .referenceInternal)) : a = .midPoint := by
  cases c <;> cases a <;> first
    | rfl
    | (simp [exports, points_ne, conn_ne, vecArray] at hx; done)

theorem wrap_rel {s : State} {vals : List Val} (hR : Rel s vals) {i : Nat} {o : Obj} (ho : get s.heap i = some o) (d : Data)
    (bufs : List (List ℚ)) (loc : Nat → Nat × Nat)
    (hloc : ∀ k e, bufs[k]? = some e → load s.heap (loc k).1 (loc k).2 = some e ∧ ((loc k).1 = i ∨ (loc k).1 ∈ o.refs))
    (e : Export) (y : Val) (he : ExpDen d bufs e y) (hin : ∀ br, d = .grid br → o.mem = cppOf (.grid br))
    (a : Attr) (c : Cls) (sizes : List Nat) (hx : exports c bufs sizes a = some e) :
    ∃ s', (match e with
        | .buffer k shape p => wrapBuffer s i (loc k) shape p
        | .locals e shape p => wrapLocals s i e shape p
        | .inner x y => alloc s [i] (.sub i x y)
        | .child k =>
          match o.refs[k]? with
          | none => none
          | some j => (incref s.heap j).map fun h => { s with heap := h, vars := s.vars ++ [j] }) = some s' ∧
      Rel s' (vals ++ [y]) ∧ (Clean s → a ≠ .midPoint → Clean s') := by
  cases e with
  | buffer k shape p =>
    obtain ⟨en, hb, rfl, hp⟩ := he
    cases p with
    | automatic => exact hp.elim
    | referenceInternal =>
      obtain ⟨hl, hk⟩ := hloc k en hb
      obtain ⟨s', e1, h1, h2⟩ := alloc_rel hR [i] (.view (.buf (loc k).1 (loc k).2) shape) (fun r hr => by
        simp only [List.mem_singleton] at hr
        subst hr
        exact ⟨o, ho⟩) (.arr shape en) (fun h' j oj hK hj hrf hm => by
          obtain ⟨o', ho', hr', hm'⟩ := hK i o ho
          refine .view oj _ _ shape en hj hm ?_ ?_
          · rcases hk with hk | hk
            · left
              simp [hrf, hk]
            · right
              exact ⟨i, by simp [hrf], o', ho', hr' ▸ hk⟩
          · have hop : ∃ op, get s.heap (loc k).1 = some op := by
              unfold load at hl
              cases hg : get s.heap (loc k).1 with
              | some op => exact ⟨op, rfl⟩
              | none => rw [hg] at hl; simp at hl
            obtain ⟨op, hop⟩ := hop
            obtain ⟨op', hop', _, hmp⟩ := hK _ op hop
            exact (load_congr hop hop' hmp _).trans hl)
      exact ⟨s', e1, h1, fun hC _ => h2 hC (fun sh => by simp)⟩
  | locals en shape p =>
    cases p with
    | automatic =>
      simp only [ExpDen] at he
      subst he
      obtain ⟨s', e1, h1, h2⟩ := alloc_rel hR [] (.own shape en) (by simp) (.arr shape en)
        (fun h' j oj _ hj _ hm => .own oj shape en hj hm)
      exact ⟨s', e1, h1, fun hC _ => h2 hC (fun sh => by simp)⟩
    | referenceInternal =>
      obtain ⟨e', rfl⟩ := he
      obtain ⟨s', e1, h1, h2⟩ := alloc_rel (hR.stack en) [i] (.view .stack shape) (fun r hr => by
        simp only [List.mem_singleton] at hr
        subst hr
        exact ⟨o, ho⟩) (.arr shape e') (fun h' j oj _ hj _ hm => .stack oj shape e' hj hm)
      refine ⟨s', e1, h1, fun _ hmid => ?_⟩
      exfalso
      apply hmid
      exact locals_mid c bufs sizes a en shape hx
  | inner x z =>
    obtain ⟨br, hd, rfl, rfl, rfl⟩ := he
    have hm := hin br hd
    obtain ⟨s', e1, h1, h2⟩ := alloc_rel hR [i] (.sub i br.length (br.length + 1)) (fun r hr => by
        simp only [List.mem_singleton] at hr
        subst hr
        exact ⟨o, ho⟩) _ (fun h' j oj hK hj hrf hmj => by
          obtain ⟨o', ho', hr', hm'⟩ := hK i o ho
          exact .sub oj i o' br hj hmj (by simp [hrf]) ho' (hm'.trans hm))
    exact ⟨s', e1, h1, fun hC _ => h2 hC (fun sh => by simp)⟩
  | child k => exact he.elim

theorem take_rel {s : State} {vals : List Val} (hR : Rel s vals) (v : Nat) (a : Attr) (junk : List ℚ) :
    ∃ s', take s v a junk = some s' ∧ Rel s' (Spec.Views.step vals (.take v a junk)) ∧ (Clean s → a ≠ .midPoint → Clean s') := by
  rcases var_den hR v with ⟨h1, h2⟩ | ⟨i, x, h1, h2, hd⟩
  · simp only [take, Spec.Views.step, h1, h2]
    exact ⟨s, rfl, hR, fun hC _ => hC⟩
  · obtain ⟨o, ho⟩ := hd.alive
    simp only [take, Spec.Views.step, h1, h2, ho]
    cases hd with
    | data o2 d ho2 hm hok =>
      rw [ho] at ho2
      cases ho2
      have hres : resolve s.heap i o = some (some ((store d).1, (store d).2.1, (store d).2.2, fun k => (i, k))) := by
        unfold resolve
        rw [hm]
        rfl
      rw [hres]
      have hx := exports_data d hok a
      cases ha : attr (.data d) a with
      | none =>
        rw [ha] at hx
        simp only at hx
        simp only [hx]
        exact ⟨_, rfl, hR.stack junk, fun hC _ => hC⟩
      | some y =>
        rw [ha] at hx
        obtain ⟨e, he, hde⟩ := hx
        simp only [he]
        obtain ⟨s', e1, e2, e3⟩ := wrap_rel (hR.stack junk) ho d (store d).2.1 (fun k => (i, k)) (fun k en hk => by
          refine ⟨?_, Or.inl rfl⟩
          obtain ⟨rc, refs, mem⟩ := o
          simp only at hm
          subst hm
          simp only [load, ho, cppOf]
          exact hk) e y hde (fun br hbr => by subst hbr; exact hm) a _ _ he
        refine ⟨s', ?_, e2, fun hC hmid => e3 hC hmid⟩
        rw [← e1]
        cases e <;> rfl
    | sub o2 p op br ho2 hm hp hop hmp =>
      rw [ho] at ho2
      cases ho2
      have hl : ∀ k e, (store (.grid br)).2.1[k]? = some e → load s.heap p k = some e := by
        intro k e hk
        obtain ⟨rc, refs, mem⟩ := op
        simp only at hmp
        subst hmp
        simp only [load, hop, cppOf]
        exact hk
      have hl0 := hl br.length (br.map (·.headD 0)) (by simp [store])
      have hl1 := hl (br.length + 1) (br.map (·.getLastD 0)) (by simp [store])
      have hres : resolve s.heap i o = some (some (.box, [br.map (·.headD 0), br.map (·.getLastD 0)], [],
          fun k => (p, if k = 0 then br.length else br.length + 1))) := by
        unfold resolve
        rw [hm]
        simp only [hl0, hl1]
      rw [hres]
      have hok : (Data.box (br.map (·.headD 0)) (br.map (·.getLastD 0))).ok := by simp [Data.ok]
      have hx := exports_data _ hok a
      cases ha : attr (.data (.box (br.map (·.headD 0)) (br.map (·.getLastD 0)))) a with
      | none =>
        rw [ha] at hx
        simp only [store] at hx
        simp only [hx]
        exact ⟨_, rfl, hR.stack junk, fun hC _ => hC⟩
      | some y =>
        rw [ha] at hx
        obtain ⟨e, he, hde⟩ := hx
        simp only [store] at he hde
        simp only [he]
        obtain ⟨s', e1, e2, e3⟩ := wrap_rel (hR.stack junk) ho _ _ (fun k => (p, if k = 0 then br.length else br.length + 1))
          (fun k en hk => by
            refine ⟨?_, Or.inr hp⟩
            match k, hk with
            | 0, hk =>
              simp only [List.getElem?_cons_zero, Option.some.injEq] at hk
              subst hk
              exact hl0
            | 1, hk =>
              simp only [List.getElem?_cons_succ, List.getElem?_cons_zero, Option.some.injEq] at hk
              subst hk
              exact hl1
            | k + 2, hk => simp at hk) e y hde (fun br' hbr => by simp at hbr) a _ _ he
        refine ⟨s', ?_, e2, fun hC hmid => e3 hC hmid⟩
        rw [← e1]
        cases e <;> rfl
    | own o2 shape e ho2 hm =>
      rw [ho] at ho2
      cases ho2
      have hres : resolve s.heap i o = some none := by
        unfold resolve
        rw [hm]
      rw [hres]
      exact ⟨_, rfl, by simpa [attr] using hR.stack junk, fun hC _ => hC⟩
    | view o2 p k shape e ho2 hm hk hl =>
      rw [ho] at ho2
      cases ho2
      have hres : resolve s.heap i o = some none := by
        unfold resolve
        rw [hm]
      rw [hres]
      exact ⟨_, rfl, by simpa [attr] using hR.stack junk, fun hC _ => hC⟩
    | stack o2 shape e ho2 hm =>
      rw [ho] at ho2
      cases ho2
      have hres : resolve s.heap i o = some none := by
        unfold resolve
        rw [hm]
      rw [hres]
      exact ⟨_, rfl, by simpa [attr] using hR.stack junk, fun hC _ => hC⟩
    | func o2 n ho2 hm =>
      rw [ho] at ho2
      cases ho2
      have hres : resolve s.heap i o = some (some (.func, [], [n], fun k => (i, k))) := by
        unfold resolve
        rw [hm]
      rw [hres]
      have hx : exports .func [] [n] a = none := by cases a <;> rfl
      simp only [hx]
      exact ⟨_, rfl, by simpa [attr] using hR.stack junk, fun hC _ => hC⟩
    | domain o2 f g of og n br ho2 hm hr hf hmf hg hmg hok =>
      rw [ho] at ho2
      cases ho2
      have hres : resolve s.heap i o = some (some (.domain, [], [], fun k => (i, k))) := by
        unfold resolve
        rw [hm]
      rw [hres]
      have hR' := hR.stack junk
      cases a
      case grid =>
        obtain ⟨h, e1, e2, e3⟩ := incref_rel hR' (i := g) (v := .data (.grid br)) (.data og _ hg hmg hok)
        refine ⟨_, ?_, e2, fun hC _ => e3 hC⟩
        simp only [exports, hr, List.getElem?_cons_succ, List.getElem?_cons_zero]
        exact congrArg (Option.map _) e1
      case implFunc =>
        obtain ⟨h, e1, e2, e3⟩ := incref_rel hR' (i := f) (v := .func n) (.func of n hf hmf)
        refine ⟨_, ?_, e2, fun hC _ => e3 hC⟩
        simp only [exports, hr, List.getElem?_cons_zero]
        exact congrArg (Option.map _) e1
      all_goals exact ⟨_, rfl, hR', fun hC _ => hC⟩

theorem clsOf_den {s : State} {vals : List Val} (hR : Rel s vals) (k : Nat) :
    (clsOf s k = none ∧ (∀ n, vals[k]? ≠ some (.func n)) ∧ ∀ br, vals[k]? = some (.data (.grid br)) → False) ∨
    ∃ i o c bufs sizes, clsOf s k = some (i, c) ∧ get s.heap i = some o ∧ o.mem = .cpp c bufs sizes ∧
      (∀ n, vals[k]? = some (.func n) ↔ c = .func ∧ sizes = [n] ∧ bufs = []) ∧
      (∀ br, vals[k]? = some (.data (.grid br)) ↔ c = .grid ∧ o.mem = cppOf (.grid br)) ∧
      (c = .grid → ∃ br, vals[k]? = some (.data (.grid br)) ∧ (Data.grid br).ok) ∧
      (c = .func → ∃ n, vals[k]? = some (.func n)) := by
  unfold clsOf
  rcases var_den hR k with ⟨h1, h2⟩ | ⟨i, v, h1, h2, hd⟩
  · left
    simp [h1, h2]
  · cases hd with
    | data o d ho hm hok =>
      right
      obtain ⟨rc, refs, mem⟩ := o
      simp only at hm
      subst hm
      refine ⟨i, _, (store d).1, (store d).2.1, (store d).2.2, ?_, ho, rfl, ?_, ?_, ?_, ?_⟩
      · simp only [h1, ho, cppOf]
      · intro n
        rw [h2]
        cases d <;> simp [store]
      · intro br
        rw [h2]
        cases d <;> simp [store, cppOf]
        rename_i b
        constructor
        · rintro rfl
          exact ⟨rfl, rfl⟩
        · intro hb
          exact (List.append_inj hb.1 hb.2).1
      · intro hc
        rw [h2]
        cases d <;> simp only [store, reduceCtorEq] at hc
        exact ⟨_, rfl, hok⟩
      · intro hc
        cases d <;> simp only [store, reduceCtorEq] at hc
    | sub o p op br ho hm hp hop hmp =>
      left
      obtain ⟨rc, refs, mem⟩ := o
      simp only at hm
      subst hm
      simp [h1, h2, ho]
    | own o shape e ho hm =>
      left
      obtain ⟨rc, refs, mem⟩ := o
      simp only at hm
      subst hm
      simp [h1, h2, ho]
    | view o p k shape e ho hm hk hl =>
      left
      obtain ⟨rc, refs, mem⟩ := o
      simp only at hm
      subst hm
      simp [h1, h2, ho]
    | stack o shape e ho hm =>
      left
      obtain ⟨rc, refs, mem⟩ := o
      simp only at hm
      subst hm
      simp [h1, h2, ho]
    | func o n ho hm =>
      right
      obtain ⟨rc, refs, mem⟩ := o
      simp only at hm
      subst hm
      refine ⟨i, _, .func, [], [n], ?_, ho, rfl, ?_, ?_, ?_, ?_⟩
      · simp only [h1, ho]
      · intro n'
        rw [h2]
        simp
      · intro br
        rw [h2]
        simp
      · intro hc
        simp at hc
      · exact fun _ => ⟨n, h2⟩
    | domain o f g of og n br ho hm hr hf hmf hg hmg hok =>
      right
      obtain ⟨rc, refs, mem⟩ := o
      simp only at hm
      subst hm
      refine ⟨i, _, .domain, [], [], ?_, ho, rfl, ?_, ?_, ?_, ?_⟩
      · simp only [h1, ho]
      · intro n'
        rw [h2]
        simp
      · intro br
        rw [h2]
        simp
      · intro hc
        simp at hc
      · intro hc
        simp at hc

theorem funcArgs_den {s : State} {vals : List Val} (hR : Rel s vals) (args : List Nat) :
    (funcArgs s args = none ∧ args.all (isFuncVar vals) = false) ∨
    ∃ refs, funcArgs s args = some refs ∧ (∀ r ∈ refs, ∃ o, get s.heap r = some o) ∧
      args.all (isFuncVar vals) = true := by
  induction args with
  | nil => exact Or.inr ⟨[], rfl, by simp, rfl⟩
  | cons k t ih =>
    unfold funcArgs at ih ⊢
    rw [List.mapM_cons, List.all_cons]
    rcases clsOf_den hR k with ⟨h1, h2, _⟩ | ⟨i, o, c, bufs, sizes, h1, ho, hm, hf, hg, hgr, hfn⟩
    · left
      rw [h1]
      refine ⟨rfl, ?_⟩
      have : isFuncVar vals k = false := by
        unfold isFuncVar
        cases hv : vals[k]? with
        | none => rfl
        | some v =>
          cases v with
          | func n => exact absurd hv (h2 n)
          | _ => rfl
      rw [this, Bool.false_and]
    · rw [h1]
      by_cases hc : c = .func
      · subst hc
        obtain ⟨n, hn⟩ := hfn rfl
        have hv : isFuncVar vals k = true := by
          unfold isFuncVar
          rw [hn]
          rfl
        rw [hv]
        simp only [Bool.true_and]
        rcases ih with ⟨e1, e2⟩ | ⟨refs, e1, e2, e3⟩
        · left
          rw [e1]
          exact ⟨rfl, e2⟩
        · right
          rw [e1]
          refine ⟨i :: refs, rfl, ?_, e3⟩
          intro r hr
          rcases List.mem_cons.1 hr with rfl | hr
          · exact ⟨o, ho⟩
          · exact e2 r hr
      · left
        constructor
        · cases c <;> first | exact absurd rfl hc | rfl
        · have : isFuncVar vals k = false := by
            unfold isFuncVar
            cases hv : vals[k]? with
            | none => rfl
            | some v =>
              cases v with
              | func n => exact absurd ((hf n).1 hv).1 hc
              | _ => rfl
          rw [this, Bool.false_and]

theorem count_eraseIdx (l : List Nat) (k x : Nat) (h : l[k]? = some x) (i : Nat) : l.count i = (x :: l.eraseIdx k).count i := by
  induction l generalizing k with
  | nil => simp at h
  | cons a t ih =>
    cases k with
    | zero =>
      simp only [List.getElem?_cons_zero, Option.some.injEq] at h
      subst h
      simp
    | succ k =>
      have := ih k (by simpa using h)
      simp only [List.eraseIdx_cons_succ, List.count_cons] at this ⊢
      omega

theorem forall₂_eraseIdx {α β : Type} {R : α → β → Prop} {l : List α} {l' : List β} (h : List.Forall₂ R l l') (k : Nat) :
    List.Forall₂ R (l.eraseIdx k) (l'.eraseIdx k) := by
  induction h generalizing k with
  | nil => simp
  | cons h1 h2 ih =>
    cases k with
    | zero => simpa using h2
    | succ k => simpa using ⟨h1, ih k⟩

theorem step_rel {s : State} {vals : List Val} (hR : Rel s vals) (op : Op) (hok : op.ok) :
    ∃ s', step s op = some s' ∧ Rel s' (Spec.Views.step vals op) ∧ (Clean s → isMid op = false → Clean s') := by
  cases op with
  | new d =>
    obtain ⟨s', e1, e2, e3⟩ := alloc_rel hR [] (cppOf d) (by simp) (.data d) (fun h' i o _ ho _ hm => .data o d ho hm hok)
    exact ⟨s', e1, e2, fun hC _ => e3 hC (fun sh => by simp [cppOf])⟩
  | newArray sh e =>
    obtain ⟨s', e1, e2, e3⟩ := alloc_rel hR [] (.own sh e) (by simp) (.arr sh e) (fun h' i o _ ho _ hm => .own o sh e ho hm)
    exact ⟨s', e1, e2, fun hC _ => e3 hC (fun sh => by simp)⟩
  | newFunc n args =>
    simp only [step, Spec.Views.step]
    rcases funcArgs_den hR args with ⟨e1, e2⟩ | ⟨refs, e1, e2, e3⟩
    · rw [e1, e2]
      exact ⟨s, rfl, hR, fun hC _ => hC⟩
    · rw [e1, e3]
      obtain ⟨s', a1, a2, a3⟩ := alloc_rel hR refs (.cpp .func [] [n]) e2 (.func n) (fun h' i o _ ho _ hm => .func o n ho hm)
      exact ⟨s', a1, a2, fun hC _ => a3 hC (fun sh => by simp)⟩
  | newDomain phi grid =>
    simp only [step, Spec.Views.step]
    have hno : ∀ (w : List Val), w = vals → ∃ s', some s = some s' ∧ Rel s' w ∧
        (Clean s → isMid (.newDomain phi grid) = false → Clean s') := by
      rintro w rfl
      exact ⟨s, rfl, hR, fun hC _ => hC⟩
    rcases clsOf_den hR phi with ⟨h1, h2, _⟩ | ⟨i, o, c, bufs, sizes, h1, ho, hm, hf, _, _, hfn⟩
    · rw [h1]
      refine hno _ ?_
      cases hv : vals[phi]? with
      | none => rfl
      | some v =>
        cases v with
        | func n => exact absurd hv (h2 n)
        | _ => rfl
    · rw [h1]
      by_cases hc : c = .func
      · subst hc
        obtain ⟨n, hn⟩ := hfn rfl
        obtain ⟨_, hs, hb⟩ := (hf n).1 hn
        subst hs hb
        rw [hn]
        rcases clsOf_den hR grid with ⟨g1, _, g2⟩ | ⟨j, oj, cj, bj, sj, g1, gho, ghm, _, ggr, ghr, _⟩
        · rw [g1]
          refine hno _ ?_
          cases hv : vals[grid]? with
          | none => rfl
          | some v =>
            cases v with
            | data d =>
              cases d with
              | grid br => exact (g2 br hv).elim
              | _ => rfl
            | _ => rfl
        · rw [g1]
          by_cases hcj : cj = .grid
          · subst hcj
            obtain ⟨br, hbr, hbok⟩ := ghr rfl
            have hgm := ((ggr br).1 hbr).2
            rw [hbr]
            obtain ⟨s', a1, a2, a3⟩ := alloc_rel hR [i, j] (.cpp .domain [] []) (by
              intro r hr
              simp only [List.mem_cons, List.not_mem_nil, or_false] at hr
              rcases hr with rfl | rfl
              · exact ⟨o, ho⟩
              · exact ⟨oj, gho⟩) (.domain n br) (fun h' q oq hK hq hrq hmq => by
                obtain ⟨oi', hoi', _, hmi'⟩ := hK i o ho
                obtain ⟨oj', hoj', _, hmj'⟩ := hK j oj gho
                exact .domain oq i j oi' oj' n br hq hmq hrq hoi' (hmi'.trans hm) hoj' (hmj'.trans hgm) hbok)
            exact ⟨s', a1, a2, fun hC _ => a3 hC (fun sh => by simp)⟩
          · have hx : (match vals[grid]? with | some (.data (.grid b)) => vals ++ [Val.domain n b] | _ => vals) = vals := by
              cases hv : vals[grid]? with
              | none => rfl
              | some v =>
                cases v with
                | data d =>
                  cases d with
                  | grid br => exact absurd ((ggr br).1 hv).1 hcj
                  | _ => rfl
                | _ => rfl
            have hy : (match vals[grid]? with
                | some (.data (.grid b)) => vals ++ [Val.domain n b]
                | _ => vals) = (match some (Val.func n), vals[grid]? with
                | some (.func f), some (.data (.grid b)) => vals ++ [.domain f b]
                | _, _ => vals) := by
              cases hv : vals[grid]? with
              | none => rfl
              | some v =>
                cases v with
                | data d => cases d <;> rfl
                | _ => rfl
            obtain ⟨s', b1, b2, b3⟩ := hno _ (hy.symm.trans hx)
            refine ⟨s', ?_, b2, b3⟩
            rw [← b1]
            cases cj <;> first | exact absurd rfl hcj | rfl
      · have hy : (match vals[phi]?, vals[grid]? with
            | some (.func f), some (.data (.grid b)) => vals ++ [Val.domain f b]
            | _, _ => vals) = vals := by
          cases hv : vals[phi]? with
          | none => rfl
          | some v =>
            cases v with
            | func n => exact absurd ((hf n).1 hv).1 hc
            | _ => rfl
        obtain ⟨s', b1, b2, b3⟩ := hno _ hy
        refine ⟨s', ?_, b2, b3⟩
        rw [← b1]
        cases c <;> first | exact absurd rfl hc | rfl
  | take v a junk =>
    obtain ⟨s', e1, e2, e3⟩ := take_rel hR v a junk
    refine ⟨s', e1, e2, fun hC hmid => e3 hC ?_⟩
    rintro rfl
    simp [isMid] at hmid
  | dup v =>
    rcases var_den hR v with ⟨h1, h2⟩ | ⟨i, x, h1, h2, hd⟩
    · simp only [step, Spec.Views.step, h1, h2]
      exact ⟨s, rfl, hR, fun hC _ => hC⟩
    · obtain ⟨h, e1, e2, e3⟩ := incref_rel hR hd
      simp only [step, Spec.Views.step, h1, h2, e1]
      exact ⟨_, rfl, e2, fun hC _ => e3 hC⟩
  | drop v =>
    rcases var_den hR v with ⟨h1, h2⟩ | ⟨i, x, h1, h2, hd⟩
    · simp only [step, Spec.Views.step, h1]
      refine ⟨s, rfl, ?_, fun hC _ => hC⟩
      have : vals.eraseIdx v = vals := List.eraseIdx_of_length_le (List.getElem?_eq_none_iff.1 h2)
      rw [this]
      exact hR
    · have hI : Inv s.heap ([i] ++ s.vars.eraseIdx v) := ⟨fun j => by
        rw [hR.inv.count j, count_eraseIdx _ _ _ h1 j]
        rfl, hR.inv.pos, hR.inv.older⟩
      obtain ⟨h, e1, e2, e3⟩ := release_spec (s.vars.eraseIdx v) _ s.heap [i] (Nat.le_refl _) hI
      simp only [step, Spec.Views.step, h1, e1]
      refine ⟨_, rfl, ⟨e2, ?_⟩, ?_⟩
      · have hall := forall₂_eraseIdx hR.vars v
        have hmem : ∀ j ∈ s.vars.eraseIdx v, ∃ o, get h j = some o := fun j hj => e2.alive hj
        have key : ∀ (l : List Nat) (l' : List Val), List.Forall₂ (Den s.heap) l l' → (∀ j ∈ l, ∃ o, get h j = some o) →
            List.Forall₂ (Den h) l l' := by
          intro l l' hl
          induction hl with
          | nil => exact fun _ => .nil
          | cons h1 h2 ih =>
            intro hm
            obtain ⟨o, ho⟩ := hm _ List.mem_cons_self
            exact .cons (h1.mono e2 e3.agree ho) (ih (fun j hj => hm j (by simp [hj])))
        exact key _ _ hall hmem
      · intro hC _ j oj sh hj hm
        obtain ⟨o', ho', _, hm'⟩ := e3 j oj hj
        exact hC j o' sh ho' (hm'.trans hm)

theorem run_rel (h : List Op) (hok : ∀ op ∈ h, op.ok) : ∃ s, run h = some s ∧ Rel s (Spec.Views.run h) ∧
    ((∀ op ∈ h, isMid op = false) → Clean s) := by
  unfold run Spec.Views.run
  have key : ∀ (l : List Op) (s : State) (vals : List Val), (∀ op ∈ l, op.ok) → Rel s vals →
      ∃ s', l.foldlM step s = some s' ∧ Rel s' (l.foldl Spec.Views.step vals) ∧
        (Clean s → (∀ op ∈ l, isMid op = false) → Clean s') := by
    intro l
    induction l with
    | nil => exact fun s vals _ hR => ⟨s, rfl, hR, fun hC _ => hC⟩
    | cons op t ih =>
      intro s vals hl hR
      obtain ⟨s1, e1, e2, e3⟩ := step_rel hR op (hl op (by simp))
      obtain ⟨s2, f1, f2, f3⟩ := ih s1 _ (fun o ho => hl o (by simp [ho])) e2
      refine ⟨s2, ?_, f2, fun hC hm => f3 (e3 hC (hm op (by simp))) (fun o ho => hm o (by simp [ho]))⟩
      rw [List.foldlM_cons, e1]
      exact f1
  obtain ⟨s, e1, e2, e3⟩ := key h init [] hok ⟨⟨fun i => by simp [init, rcOf, get, cnt], fun i o ho => by simp [init, get] at ho,
    fun i o ho => by simp [init, get] at ho⟩, .nil⟩
  exact ⟨s, e1, e2, fun hm => e3 (fun i o sh ho => by simp [init, get] at ho) hm⟩

/-! ### Property theorems -/

theorem read_den {s : State} {vals : List Val} (hR : Rel s vals) (k : Nat) :
    (∃ i o sh, s.vars[k]? = some i ∧ get s.heap i = some o ∧ o.mem = .view .stack sh ∧ read s k = some (some (sh, s.stack)) ∧
      ∃ e, (vals[k]?).bind Val.array = some (sh, e)) ∨
    read s k = some ((vals[k]?).bind Val.array) := by
  unfold read
  rcases var_den hR k with ⟨h1, h2⟩ | ⟨i, v, h1, h2, hd⟩
  · right
    rw [h1, h2]
    rfl
  · rw [h1, h2]
    cases hd with
    | data o d ho hm hok => right; simp only [ho, hm]; rfl
    | sub o p op br ho hm hp hop hmp => right; simp only [ho, hm]; rfl
    | own o shape e ho hm => right; simp only [ho, hm]; rfl
    | view o p k shape e ho hm hk hl => right; simp only [ho, hm, hl]; rfl
    | stack o shape e ho hm =>
      left
      exact ⟨i, o, shape, rfl, ho, hm, by simp only [ho, hm], e, rfl⟩
    | func o n ho hm => right; simp only [ho, hm]; rfl
    | domain o f g of og n br ho hm hr hf hmf hg hmg hok => right; simp only [ho, hm]; rfl

/-- C86: whatever a program creates, takes, copies and drops, in any order, no freed memory is accessed (neither by the operations nor
by reading the arrays still held), and no object is destroyed twice. -/
theorem C86_memory_safe (h : List Op) (hok : ∀ op ∈ h, op.ok) : ∃ s, run h = some s ∧ ∀ k, read s k ≠ none := by
  obtain ⟨s, e, hR, _⟩ := run_rel h hok
  refine ⟨s, e, fun k hk => ?_⟩
  rcases read_den hR k with ⟨_, _, _, _, _, _, h1, _⟩ | h1 <;> simp [h1] at hk

/-- C86: in a program that does not take middle points of boxes, every array held by a variable has the contents it had when it was
taken, whatever happened since to the object it was taken from: the variables are those of the program on immutable values. -/
theorem C86_values (h : List Op) (hok : ∀ op ∈ h, op.ok) (hmid : ∀ op ∈ h, ∀ v junk, op ≠ .take v .midPoint junk) :
    ∃ s, run h = some s ∧ s.vars.length = (Spec.Views.run h).length ∧
      ∀ k, read s k = some (((Spec.Views.run h)[k]?).bind Val.array) := by
  obtain ⟨s, e, hR, hC⟩ := run_rel h hok
  have hC' : Clean s := hC (fun op hop => by
    unfold isMid
    split
    · rename_i v junk
      exact absurd rfl (hmid _ hop v junk)
    · rfl)
  refine ⟨s, e, hR.vars.length_eq, fun k => ?_⟩
  rcases read_den hR k with ⟨i, o, sh, _, ho, hm, _⟩ | h1
  · exact absurd hm (hC' i o sh ho)
  · exact h1

/-- C86: also in programs that take middle points, the other arrays have their contents, and the arrays of middle points have the right
shape: what is wrong are their entries, which are those of the stack. -/
theorem C86_values_mid (h : List Op) (hok : ∀ op ∈ h, op.ok) :
    ∃ s, run h = some s ∧ s.vars.length = (Spec.Views.run h).length ∧
      ∀ k, read s k = some (((Spec.Views.run h)[k]?).bind Val.array) ∨
        ∃ shape e, ((Spec.Views.run h)[k]?).bind Val.array = some (shape, e) ∧ read s k = some (some (shape, s.stack)) := by
  obtain ⟨s, e, hR, _⟩ := run_rel h hok
  refine ⟨s, e, hR.vars.length_eq, fun k => ?_⟩
  rcases read_den hR k with ⟨i, o, sh, _, _, _, hr, e, he⟩ | h1
  · exact Or.inr ⟨sh, e, he, hr⟩
  · exact Or.inl h1

/-- The objects a program can still use: those held by variables, and those they keep. -/
inductive Reach (s : State) : Nat → Prop
  | var (i : Nat) : i ∈ s.vars → Reach s i
  | ref (i j : Nat) (o : Obj) : Reach s j → get s.heap j = some o → i ∈ o.refs → Reach s i

/-- C86: nothing is kept in memory that the program cannot use any more. -/
theorem C86_no_leak (h : List Op) (hok : ∀ op ∈ h, op.ok) : ∃ s, run h = some s ∧ ∀ i o, get s.heap i = some o → Reach s i := by
  obtain ⟨s, e, hR, _⟩ := run_rel h hok
  refine ⟨s, e, ?_⟩
  have key : ∀ n i o, s.heap.length - i ≤ n → get s.heap i = some o → Reach s i := by
    intro n
    induction n with
    | zero =>
      intro i o hn ho
      have := get_lt ho
      omega
    | succ n ih =>
      intro i o hn ho
      have hc := hR.inv.count i
      have hp := hR.inv.pos i o ho
      have hrc : rcOf s.heap i = o.rc := by simp [rcOf, ho]
      by_cases hv : i ∈ s.vars
      · exact .var i hv
      · have hv0 : s.vars.count i = 0 := List.count_eq_zero.2 hv
        have hcnt : 0 < cnt s.heap i := by omega
        have : ∃ j oj, get s.heap j = some oj ∧ i ∈ oj.refs := by
          unfold cnt at hcnt
          have hex : ∃ x ∈ s.heap, 0 < refCount i x := by
            by_contra hno
            have hz : ∀ (l : List (Option Obj)), (∀ x ∈ l, x ∈ s.heap) → (l.map (refCount i)).sum = 0 := by
              intro l
              induction l with
              | nil => simp
              | cons a t ih =>
                intro hl
                have h1 := ih (fun x hx => hl x (by simp [hx]))
                have h2 : ¬ 0 < refCount i a := fun hh => hno ⟨a, hl a (by simp), hh⟩
                simp only [List.map_cons, List.sum_cons]
                omega
            have := hz s.heap (fun _ hx => hx)
            omega
          obtain ⟨x, hx, hpos⟩ := hex
          obtain ⟨j, hj, hjx⟩ := List.getElem_of_mem hx
          cases x with
          | none => simp [refCount] at hpos
          | some oj =>
            refine ⟨j, oj, ?_, List.count_pos_iff.1 hpos⟩
            simp [get, List.getElem?_eq_getElem hj, hjx]
        obtain ⟨j, oj, hoj, hij⟩ := this
        have hlt := hR.inv.older j oj hoj i hij
        have hjl := get_lt hoj
        exact .ref i j oj (ih j oj (by omega) hoj) hoj hij
  exact fun i o ho => key _ i o (Nat.le_refl _) ho

/-- C86: a program that has dropped all its variables holds no memory. -/
theorem C86_all_freed (h : List Op) (hok : ∀ op ∈ h, op.ok) (hv : Spec.Views.run h = []) :
    ∃ s, run h = some s ∧ ∀ i, get s.heap i = none := by
  obtain ⟨s, e, hR, _⟩ := run_rel h hok
  obtain ⟨s', e', hL⟩ := C86_no_leak h hok
  rw [e] at e'
  cases e'
  refine ⟨s, e, fun i => ?_⟩
  cases hg : get s.heap i with
  | none => rfl
  | some o =>
    have hvars : s.vars = [] := List.eq_nil_of_length_eq_zero (by rw [hR.vars.length_eq, hv]; rfl)
    have : ∀ j, ¬ Reach s j := by
      intro j hj
      induction hj with
      | var j hj => simp [hvars] at hj
      | ref _ _ _ _ _ _ ih => exact ih
    exact absurd (hL i o hg) (this i)

/-- C86 fails for the middle points of boxes: the array is a view of a point that no longer exists, and its entries are whatever the
last call of an attribute has left there. common.cpp:81-87. -/
theorem C86_mid_point_fails (lo hi junk junk' : List ℚ) :
    ∃ s, run [.new (.box lo hi), .take 0 .midPoint junk, .take 0 .minCorner junk'] = some s ∧
      read s 1 = some (some ([lo.length], junk')) := by
  exact ⟨_, rfl, rfl⟩

/-- C86: what a middle point should be. -/
theorem C86_mid_point_spec (lo hi junk junk' : List ℚ) :
    ((Spec.Views.run [.new (.box lo hi), .take 0 .midPoint junk, .take 0 .minCorner junk'])[1]?).bind Val.array =
      some ([(List.zipWith (fun a b => (a + b) / 2) lo hi).length], List.zipWith (fun a b => (a + b) / 2) lo hi) := rfl

/-- C86 is about programs like this one: a domain is made of a function and a grid, the grid, its domain and the corner of the domain are
taken, and everything but the corner is dropped. -/
example : ∃ s, run [.newFunc 7 [], .new (.grid [[0, 1, 3], [2, 5]]), .newDomain 0 1, .take 2 .grid [], .take 3 .domain [9],
      .take 4 .maxCorner [8], .drop 0, .drop 0, .drop 0, .drop 0, .drop 0] = some s ∧
    s.vars.length = 1 ∧ read s 0 = some (some ([2], [3, 5])) := by
  obtain ⟨s, e, hl, hr⟩ := C86_values [.newFunc 7 [], .new (.grid [[0, 1, 3], [2, 5]]), .newDomain 0 1, .take 2 .grid [],
      .take 3 .domain [9], .take 4 .maxCorner [8], .drop 0, .drop 0, .drop 0, .drop 0, .drop 0]
    (by simp [Op.ok, Data.ok]) (by simp)
  exact ⟨s, e, hl, hr 0⟩

example : ((Spec.Views.run [.newFunc 7 [], .new (.grid [[0, 1, 3], [2, 5]]), .newDomain 0 1, .take 2 .grid [], .take 3 .domain [9],
      .take 4 .maxCorner [8], .drop 0, .drop 0, .drop 0, .drop 0, .drop 0])[0]?).bind Val.array = some ([2], [3, 5]) := rfl

/-- A quadrature that is dropped while its points are held, then the points are dropped: nothing is left. -/
example : ∃ s, run [.new (.quad 2 [[0, 1], [1, 1]] [1, 1]), .take 0 .points [], .drop 0] = some s ∧
    read s 0 = some (some ([2, 2], [0, 1, 1, 1])) := by
  obtain ⟨s, e, _, hr⟩ := C86_values [.new (.quad 2 [[0, 1], [1, 1]] [1, 1]), .take 0 .points [], .drop 0]
    (by simp [Op.ok, Data.ok, rows]) (by simp)
  exact ⟨s, e, hr 0⟩

example : ∃ s, run [.new (.quad 2 [[0, 1], [1, 1]] [1, 1]), .take 0 .points [], .drop 0, .drop 0] = some s ∧ ∀ i, get s.heap i = none :=
  C86_all_freed _ (by simp [Op.ok, Data.ok, rows]) rfl

end Qugar.Py.Life
