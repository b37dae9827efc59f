import Verif.Model.PyFormsHeap
import Verif.Props.PyForms
/-
C89: compiling forms does not change what other forms, or the same one, mean.
-/
namespace Qugar.Py.Forms

/-! ### Specification -/

/-- Histories of calls of `form_custom` with forms of `fs`, with any failures. -/
inductive Hist {E : Type} (entities : Data → Int → E) (boundary : E) (fs : List Nat) (h0 : Heap) : Heap → Prop
  | start : Hist entities boundary fs h0 h0
  | call {h : Heap} (f : Nat) (hf : f ∈ fs) (fate : Fate) : Hist entities boundary fs h0 h →
      Hist entities boundary fs h0 (h.compile entities boundary f fate).1

/-- Histories in which every call returns. -/
inductive Good {E : Type} (entities : Data → Int → E) (boundary : E) (fs : List Nat) (h0 : Heap) : Heap → Prop
  | start : Good entities boundary fs h0 h0
  | call {h : Heap} (f : Nat) (hf : f ∈ fs) : Good entities boundary fs h0 h →
      (h.compile entities boundary f .fine).2.isSome = true → Good entities boundary fs h0 (h.compile entities boundary f .fine).1

/-- The forms do not share integrals nor dictionaries of metadata, neither with each other nor inside, and their objects exist. -/
structure Separate (h : Heap) (fs : List Nat) : Prop where
  bound : ∀ f ∈ fs, ∀ r ∈ h.forms f, r < h.nextObj ∧ (h.objs r).dict < h.nextDict
  inside : ∀ f ∈ fs, ((h.forms f).map fun r => (h.objs r).dict).Nodup
  apart : ∀ f ∈ fs, ∀ g ∈ fs, f ≠ g → ∀ r ∈ h.forms f, ∀ s ∈ h.forms g, (h.objs r).dict ≠ (h.objs s).dict

/-- Where DOLFINx integrates an integral of a compiled form with a number: the entities of the first subdomain with that number. -/
def Compiled.where {E : Type} (c : Compiled E) (k : Nat) : Option E :=
  match c.integrals[k]? with
  | some ⟨kind, .num n, _, _, _⟩ => ((c.subdomains kind).find? fun p => p.1 = n).map Prod.snd
  | _ => none

/-! ### The loop -/

theorem modify_none {l : List Integral} (h : ∀ i ∈ l, isEverywhere i = false) : modify l = l := by
  have key : ∀ (l done : List Integral), (∀ i ∈ l, isEverywhere i = false) → modifyFrom done l = done ++ l := by
    intro l
    induction l with
    | nil => intro done _; simp [modifyFrom]
    | cons i l ih =>
      intro done h
      rw [modifyFrom, if_neg (by rw [h i (List.mem_cons_self ..)]; simp), ih _ fun j hj => h j (List.mem_cons_of_mem _ hj)]
      simp
  simpa [modify] using key l [] h

theorem modify_not_everywhere (l : List Integral) : ∀ j ∈ modify l, isEverywhere j = false := by
  intro j hj
  obtain ⟨hlen, h1, h2, -⟩ := C72_numbers l
  obtain ⟨k, hk, rfl⟩ := List.mem_iff_getElem.1 hj
  have hk' : k < l.length := by omega
  have hl : l[k]? = some l[k] := by simp
  cases h : isEverywhere l[k] with
  | false =>
    have := h1 k _ hl h
    rw [List.getElem?_eq_getElem hk, Option.some.injEq] at this
    rw [this, h]
  | true =>
    obtain ⟨n, e, hn, -⟩ := h2 k _ hl h
    rw [List.getElem?_eq_getElem hk, Option.some.injEq] at e
    rw [e, isEverywhere]
    have : n ≠ -1 := by omega
    simp [this]

theorem modify_modify (l : List Integral) : modify (modify l) = modify l := modify_none (modify_not_everywhere l)

theorem restored_modify (l : List Integral) : restored (modify l) = modify l := by
  rw [restored]
  refine (List.map_congr_left fun i hi => ?_).trans (List.map_id _)
  rw [if_neg (by rw [modify_not_everywhere l i hi]; simp)]
  rfl

theorem restored_restored (l : List Integral) : restored (restored l) = restored l := by
  rw [restored, restored, List.map_map]
  refine List.map_congr_left fun i _ => ?_
  simp only [Function.comp]
  by_cases h : isEverywhere i = true
  · have : isEverywhere { i with data := .sid i.sid } = true := h
    simp [h, this]
  · simp [h]

theorem subdomains_eq {E : Type} (entities : Data → Int → E) (boundary : E) (l : List Integral) (k : Kind) :
    subdomains entities boundary l k = subdomainsOf entities boundary (modify l) k := rfl

/-- What the loop does in memory. -/
structure LoopSpec (h h' : Heap) (f : Nat) (done rs old : List Nat) : Prop where
  forms : h'.forms = h.forms
  objs : h.nextObj ≤ h'.nextObj
  dicts : h.nextDict ≤ h'.nextDict
  same : ∀ s < h.nextObj, (h'.objs s).dict = (h.objs s).dict
  frame : ∀ s < h.nextObj, (h.objs s).dict < h.nextDict → (∀ r ∈ rs, (h.objs r).dict ≠ (h.objs s).dict) → h'.integral s = h.integral s
  view : h'.view f = modifyFrom (done.map h.integral) (rs.map h.integral)
  kept : old.map h'.integral = restored (rs.map h.integral)
  oldBound : ∀ r ∈ old, r < h'.nextObj ∧ (h'.objs r).dict < h'.nextDict
  oldDict : ∀ r ∈ old, (h'.objs r).dict ∈ rs.map (fun r => (h.objs r).dict) ∨ h.nextDict ≤ (h'.objs r).dict
  oldNodup : (old.map fun r => (h'.objs r).dict).Nodup

theorem modifyLoop_spec (f : Nat) : ∀ (rs : List Nat) (h : Heap) (done : List Nat), h.forms f = done ++ rs →
    (∀ r ∈ done ++ rs, r < h.nextObj ∧ (h.objs r).dict < h.nextDict) → ((done ++ rs).map fun r => (h.objs r).dict).Nodup →
    LoopSpec h (Heap.modifyLoop f h rs).1 f done rs (Heap.modifyLoop f h rs).2
  | [], h, done, hf, hb, hn => by
    refine ⟨rfl, Nat.le_refl _, Nat.le_refl _, fun _ _ => rfl, fun _ _ _ _ => rfl, ?_, rfl, by simp [Heap.modifyLoop], by simp [Heap.modifyLoop],
      by simp [Heap.modifyLoop]⟩
    simp [Heap.modifyLoop, Heap.view, hf, modifyFrom]
  | r :: rs, h, done, hf, hb, hn => by
    have hr := hb r (by simp)
    have hne : ∀ s ∈ rs, (h.objs s).dict ≠ (h.objs r).dict := by
      intro s hs he
      rw [List.map_append, List.nodup_append] at hn
      have := hn.2.1
      rw [List.map_cons, List.nodup_cons] at this
      exact this.1 (List.mem_map.2 ⟨s, hs, he⟩)
    have hnd : ∀ s ∈ done, (h.objs s).dict ≠ (h.objs r).dict := by
      intro s hs he
      rw [List.map_append, List.nodup_append] at hn
      exact hn.2.2 _ (List.mem_map.2 ⟨s, hs, rfl⟩) _ (List.mem_map.2 ⟨r, List.mem_cons_self .., rfl⟩) he
    have hrs : r ∉ rs := fun h' => hne r h' rfl
    have hrd : r ∉ done := fun h' => hnd r h' rfl
    cases hev : isEverywhere (h.integral r) with
    | false =>
      obtain ⟨p1, p2, p3, p4, p5, p6, p7, p8, p9, p10⟩ := modifyLoop_spec f rs h (done ++ [r]) (by simp [hf]) (by simpa using hb) (by simpa using hn)
      have e : Heap.modifyLoop f h (r :: rs) = ((Heap.modifyLoop f h rs).1, r :: (Heap.modifyLoop f h rs).2) := by
        rw [Heap.modifyLoop, hev]
        simp
      rw [e]
      have hint : (Heap.modifyLoop f h rs).1.integral r = h.integral r := p5 r hr.1 hr.2 hne
      refine ⟨p1, p2, p3, p4, fun s h1 h2 h3 => p5 s h1 h2 fun t ht => h3 t (List.mem_cons_of_mem _ ht), ?_, ?_, ?_, ?_, ?_⟩
      · rw [p6, List.map_cons, modifyFrom, if_neg (by rw [hev]; simp), List.map_append, List.map_singleton]
      · rw [List.map_cons, p7, hint]
        simp [restored, hev]
      · intro s hs
        rcases List.mem_cons.1 hs with rfl | hs
        · exact ⟨Nat.lt_of_lt_of_le hr.1 p2, by rw [p4 s hr.1]; exact Nat.lt_of_lt_of_le hr.2 p3⟩
        · exact p8 s hs
      · intro s hs
        rcases List.mem_cons.1 hs with rfl | hs
        · exact .inl (by rw [p4 s hr.1]; simp)
        · rcases p9 s hs with h' | h'
          · exact .inl (by rw [List.map_cons]; exact List.mem_cons_of_mem _ h')
          · exact .inr h'
      · rw [List.map_cons, List.nodup_cons]
        refine ⟨?_, p10⟩
        rw [p4 r hr.1]
        intro h'
        obtain ⟨s, hs, he⟩ := List.mem_map.1 h'
        rcases p9 s hs with h'' | h''
        · obtain ⟨t, ht, he'⟩ := List.mem_map.1 h''
          exact hne t ht (he'.trans he)
        · rw [he] at h''
          omega
    | true =>
      -- the memory after the reconstruction and the modification
      let o := h.objs r
      let h2 : Heap := (h.reconstruct r).1.mark f r
      have e : Heap.modifyLoop f h (r :: rs) = ((Heap.modifyLoop f h2 rs).1, h.nextObj :: (Heap.modifyLoop f h2 rs).2) := by
        rw [Heap.modifyLoop, hev]
        rfl
      have hdict : ∀ s < h.nextObj, (h2.objs s).dict = (h.objs s).dict := by
        intro s hs
        by_cases hsr : s = r
        · subst hsr
          simp [h2, Heap.mark, Heap.reconstruct, Function.update_of_ne (Nat.ne_of_lt hs)]
        · simp [h2, Heap.mark, Heap.reconstruct, Function.update_of_ne (Nat.ne_of_lt hs), Function.update_of_ne hsr]
      have hrecon : ∀ s < h.nextObj, (h.objs s).dict < h.nextDict → (h.reconstruct r).1.integral s = h.integral s := by
        intro s hs hd
        simp [Heap.integral, Heap.reconstruct, Function.update_of_ne (Nat.ne_of_lt hs), Function.update_of_ne (Nat.ne_of_lt hd)]
      have hother : ∀ s < h.nextObj, (h.objs s).dict < h.nextDict → (h.objs s).dict ≠ (h.objs r).dict → h2.integral s = h.integral s := by
        intro s hs hd hds
        have hsr : s ≠ r := fun h' => hds (by rw [h'])
        simp [h2, Heap.integral, Heap.mark, Heap.reconstruct, Function.update_of_ne (Nat.ne_of_lt hs), Function.update_of_ne (Nat.ne_of_lt hd),
          Function.update_of_ne hsr, Function.update_of_ne (Nat.ne_of_lt hr.1), Function.update_of_ne hds]
      have hview : (h.reconstruct r).1.view f = (done ++ r :: rs).map h.integral := by
        rw [Heap.view]
        show (h.forms f).map _ = _
        rw [hf]
        exact List.map_congr_left fun s hs => hrecon s (hb s hs).1 (hb s hs).2
      have hself : h2.integral r = { h.integral r with data := .nothing, sid := .num (nextId ((done ++ r :: rs).map h.integral)), flag := true } := by
        rw [← hview]
        simp [h2, Heap.integral, Heap.mark, Heap.reconstruct, Function.update_of_ne (Nat.ne_of_lt hr.1)]
      have hnew : h2.integral h.nextObj = { h.integral r with data := .sid (h.integral r).sid } ∧ (h2.objs h.nextObj).dict = h.nextDict := by
        have h1 : h.nextObj ≠ r := (Nat.ne_of_lt hr.1).symm
        have h3 : h.nextDict ≠ (h.objs r).dict := (Nat.ne_of_lt hr.2).symm
        constructor
        · simp [h2, Heap.integral, Heap.mark, Heap.reconstruct, Function.update_of_ne h1, Function.update_of_ne h1.symm, Function.update_of_ne h3]
        · simp [h2, Heap.mark, Heap.reconstruct, Function.update_of_ne h1]
      have hno : h2.nextObj = h.nextObj + 1 := rfl
      have hnd2 : h2.nextDict = h.nextDict + 1 := rfl
      obtain ⟨p1, p2, p3, p4, p5, p6, p7, p8, p9, p10⟩ := modifyLoop_spec f rs h2 (done ++ [r]) (by show h.forms f = _; simp [hf])
        (by
          intro s hs
          have hs' : s ∈ done ++ r :: rs := by simpa using hs
          have := hb s hs'
          rw [hno, hnd2, hdict s this.1]
          omega)
        (by
          have : (done ++ [r] ++ rs).map (fun r => (h2.objs r).dict) = (done ++ r :: rs).map fun r => (h.objs r).dict := by
            rw [List.append_assoc, List.singleton_append]
            exact List.map_congr_left fun s hs => hdict s (hb s hs).1
          rw [this]
          exact hn)
      rw [e]
      show LoopSpec h (Heap.modifyLoop f h2 rs).1 f done (r :: rs) (h.nextObj :: (Heap.modifyLoop f h2 rs).2)
      have hrsd : ∀ s ∈ rs, (h2.objs s).dict = (h.objs s).dict := fun s hs => hdict s (hb s (by simp [hs])).1
      have hrsm : (rs.map fun r => (h2.objs r).dict) = rs.map fun r => (h.objs r).dict := List.map_congr_left hrsd
      have hrsi : rs.map h2.integral = rs.map h.integral :=
        List.map_congr_left fun s hs => hother s (hb s (by simp [hs])).1 (hb s (by simp [hs])).2 (hne s hs)
      have hdi : done.map h2.integral = done.map h.integral :=
        List.map_congr_left fun s hs => hother s (hb s (by simp [hs])).1 (hb s (by simp [hs])).2 (hnd s hs)
      rw [hno] at p2 p4 p5
      rw [hnd2] at p3 p5 p9
      have hfresh : (Heap.modifyLoop f h2 rs).1.integral h.nextObj = h2.integral h.nextObj :=
        p5 h.nextObj (Nat.lt_succ_self _) (by rw [hnew.2]; exact Nat.lt_succ_self _) fun s hs => by
          rw [hrsd s hs, hnew.2]
          exact Nat.ne_of_lt (hb s (by simp [hs])).2
      have hfd : ((Heap.modifyLoop f h2 rs).1.objs h.nextObj).dict = h.nextDict := (p4 _ (Nat.lt_succ_self _)).trans hnew.2
      refine ⟨p1, by omega, by omega, fun s hs => (p4 s (by omega)).trans (hdict s hs), ?_, ?_, ?_, ?_, ?_, ?_⟩
      · intro s h1 h3 h4
        rw [p5 s (by omega) (by rw [hdict s h1]; omega) fun t ht => by
          rw [hrsd t ht, hdict s h1]
          exact h4 t (List.mem_cons_of_mem _ ht)]
        exact hother s h1 h3 (h4 r (List.mem_cons_self ..)).symm
      · rw [p6, List.map_cons, modifyFrom, if_pos hev, List.map_append, List.map_singleton, hself, hrsi, hdi]
        rw [List.map_append, List.map_cons]
      · rw [List.map_cons, p7, hfresh, hnew.1, hrsi]
        simp [restored, hev]
      · intro s hs
        rcases List.mem_cons.1 hs with rfl | hs
        · rw [hfd]
          omega
        · exact p8 s hs
      · intro s hs
        rcases List.mem_cons.1 hs with rfl | hs
        · exact .inr (Nat.le_of_eq hfd.symm)
        · rcases p9 s hs with h' | h'
          · rw [hrsm] at h'
            exact .inl (by rw [List.map_cons]; exact List.mem_cons_of_mem _ h')
          · exact .inr (by omega)
      · rw [List.map_cons, List.nodup_cons]
        refine ⟨?_, p10⟩
        rw [hfd]
        intro h'
        obtain ⟨s, hs, he⟩ := List.mem_map.1 h'
        rcases p9 s hs with h'' | h''
        · rw [hrsm] at h''
          obtain ⟨t, ht, he'⟩ := List.mem_map.1 h''
          have := (hb t (by simp [ht])).2
          rw [he', he] at this
          omega
        · rw [he] at h''
          omega

/-! ### Histories -/

variable {E : Type}

/-- The compiled form, from the integrals after the modification. -/
def outcome (entities : Data → Int → E) (boundary : E) (m : List Integral) : Fate → Option (Compiled E)
  | .fine =>
    match subdomainsOf entities boundary m .cell, subdomainsOf entities boundary m .exterior, subdomainsOf entities boundary m .interior with
    | some c, some e, some i => some ⟨m, fun k => match k with | .cell => c | .exterior => e | .interior => i⟩
    | _, _, _ => none
  | _ => none

theorem compile_cases (entities : Data → Int → E) (boundary : E) (h : Heap) (f : Nat) (fate : Fate) :
    (h.compile entities boundary f fate).2 = outcome entities boundary ((Heap.modifyLoop f h (h.forms f)).1.view f) fate ∧
    ((h.compile entities boundary f fate).1 = (Heap.modifyLoop f h (h.forms f)).1 ∨
      (h.compile entities boundary f fate).1 = { (Heap.modifyLoop f h (h.forms f)).1 with
        forms := Function.update (Heap.modifyLoop f h (h.forms f)).1.forms f (Heap.modifyLoop f h (h.forms f)).2 }) ∧
    ((h.compile entities boundary f fate).2.isSome = true →
      (h.compile entities boundary f fate).1 = { (Heap.modifyLoop f h (h.forms f)).1 with
        forms := Function.update (Heap.modifyLoop f h (h.forms f)).1.forms f (Heap.modifyLoop f h (h.forms f)).2 }) := by
  unfold Heap.compile outcome
  generalize Heap.modifyLoop f h (h.forms f) = x
  simp only
  cases fate <;> cases subdomainsOf entities boundary (x.1.view f) .cell <;> cases subdomainsOf entities boundary (x.1.view f) .exterior <;>
    cases subdomainsOf entities boundary (x.1.view f) .interior <;> simp <;> (funext k; cases k <;> rfl)

/-- The memory after a call. -/
theorem compile_spec (entities : Data → Int → E) (boundary : E) {fs : List Nat} {h : Heap} (hs : Separate h fs) {f : Nat} (hf : f ∈ fs)
    (fate : Fate) :
    (h.compile entities boundary f fate).2 = outcome entities boundary (modify (h.view f)) fate ∧
    Separate (h.compile entities boundary f fate).1 fs ∧
    (∀ g ∈ fs, g ≠ f → (h.compile entities boundary f fate).1.view g = h.view g) ∧
    ((h.compile entities boundary f fate).1.view f = modify (h.view f) ∨ (h.compile entities boundary f fate).1.view f = restored (h.view f)) ∧
    ((h.compile entities boundary f fate).2.isSome = true → (h.compile entities boundary f fate).1.view f = restored (h.view f)) := by
  obtain ⟨c1, c2, c3⟩ := compile_cases entities boundary h f fate
  obtain ⟨p1, p2, p3, p4, p5, p6, p7, p8, p9, p10⟩ := modifyLoop_spec f (h.forms f) h [] rfl (by simpa using hs.bound f hf) (by simpa using hs.inside f hf)
  have hm : (Heap.modifyLoop f h (h.forms f)).1.view f = modify (h.view f) := by rw [p6]; rfl
  rw [hm] at c1
  generalize hx : Heap.modifyLoop f h (h.forms f) = x at *
  -- the other forms
  have hoth : ∀ g ∈ fs, g ≠ f → (h.forms g).map x.1.integral = h.view g := by
    intro g hg hgf
    refine List.map_congr_left fun s hs' => ?_
    obtain ⟨b1, b2⟩ := hs.bound g hg s hs'
    exact p5 s b1 b2 fun r hr => hs.apart f hf g hg (fun h => hgf h.symm) r hr s hs'
  have sep1 : Separate x.1 fs := by
    refine ⟨?_, ?_, ?_⟩
    · intro g hg r hr
      rw [p1] at hr
      obtain ⟨b1, b2⟩ := hs.bound g hg r hr
      rw [p4 r b1]
      omega
    · intro g hg
      rw [p1, List.map_congr_left fun r hr => p4 r (hs.bound g hg r hr).1]
      exact hs.inside g hg
    · intro g hg g' hg' hne r hr s hs'
      rw [p1] at hr hs'
      rw [p4 r (hs.bound g hg r hr).1, p4 s (hs.bound g' hg' s hs').1]
      exact hs.apart g hg g' hg' hne r hr s hs'
  have hold : ∀ g ∈ fs, g ≠ f → ∀ r ∈ x.2, ∀ s ∈ h.forms g, (x.1.objs r).dict ≠ (x.1.objs s).dict := by
    intro g hg hne r hr s hs' he
    obtain ⟨b1, b2⟩ := hs.bound g hg s hs'
    rw [p4 s b1] at he
    rcases p9 r hr with h' | h'
    · obtain ⟨t, ht, h''⟩ := List.mem_map.1 h'
      exact hs.apart f hf g hg (fun h => hne h.symm) t ht s hs' (h''.trans he)
    · omega
  have sep2 : Separate { x.1 with forms := Function.update x.1.forms f x.2 } fs := by
    have hfg : ∀ g, (Function.update x.1.forms f x.2) g = if g = f then x.2 else h.forms g := by
      intro g
      by_cases hgf : g = f
      · subst hgf; simp
      · rw [Function.update_of_ne hgf, if_neg hgf, p1]
    refine ⟨?_, ?_, ?_⟩
    · intro g hg r hr
      simp only [hfg] at hr
      split at hr
      · exact p8 r hr
      · obtain ⟨b1, b2⟩ := hs.bound g hg r hr
        show r < x.1.nextObj ∧ (x.1.objs r).dict < x.1.nextDict
        rw [p4 r b1]
        omega
    · intro g hg
      simp only [hfg]
      split
      · exact p10
      · rw [List.map_congr_left fun r hr => p4 r (hs.bound g hg r hr).1]
        exact hs.inside g hg
    · intro g hg g' hg' hne r hr s hs'
      simp only [hfg] at hr hs'
      show (x.1.objs r).dict ≠ (x.1.objs s).dict
      split at hr
      · next hgf =>
        rw [if_neg (fun h => hne (hgf.trans h.symm))] at hs'
        exact hold g' hg' (fun h => hne (hgf.trans h.symm)) r hr s hs'
      · next hgf =>
        split at hs'
        · exact (hold g hg hgf s hs' r hr).symm
        · rw [p4 r (hs.bound g hg r hr).1, p4 s (hs.bound g' hg' s hs').1]
          exact hs.apart g hg g' hg' hne r hr s hs'
  have v1 : ∀ g ∈ fs, g ≠ f → x.1.view g = h.view g := by
    intro g hg hgf
    rw [Heap.view, p1]
    exact hoth g hg hgf
  have v2 : ∀ g ∈ fs, g ≠ f → Heap.view { x.1 with forms := Function.update x.1.forms f x.2 } g = h.view g := by
    intro g hg hgf
    rw [Heap.view]
    show ((Function.update x.1.forms f x.2) g).map x.1.integral = _
    rw [Function.update_of_ne hgf, p1]
    exact hoth g hg hgf
  have w2 : Heap.view { x.1 with forms := Function.update x.1.forms f x.2 } f = restored (h.view f) := by
    rw [Heap.view]
    show ((Function.update x.1.forms f x.2) f).map x.1.integral = _
    rw [Function.update_self, p7]
    rfl
  refine ⟨c1, ?_, ?_, ?_, ?_⟩
  · rcases c2 with c2 | c2 <;> rw [c2] <;> assumption
  · rcases c2 with c2 | c2 <;> rw [c2] <;> assumption
  · rcases c2 with c2 | c2 <;> rw [c2]
    · exact .inl hm
    · exact .inr w2
  · intro h'
    rw [c3 h']
    exact w2

/-- What the forms look like after a history. -/
theorem Hist.views {entities : Data → Int → E} {boundary : E} {fs : List Nat} {h0 h : Heap} (hs : Separate h0 fs)
    (hh : Hist entities boundary fs h0 h) : Separate h fs ∧
      ∀ f ∈ fs, h.view f = h0.view f ∨ h.view f = restored (h0.view f) ∨ h.view f = modify (h0.view f) := by
  induction hh with
  | start => exact ⟨hs, fun f _ => .inl rfl⟩
  | @call h f hf fate _ ih =>
    obtain ⟨ih1, ih2⟩ := ih
    obtain ⟨-, s1, s2, s3, -⟩ := compile_spec entities boundary ih1 hf fate
    refine ⟨s1, fun g hg => ?_⟩
    by_cases hgf : g = f
    · subst hgf
      have hr := (C72_restored_partial (h0.view g)).2.2
      rcases s3 with s3 | s3 <;> rcases ih2 g hg with i | i | i <;> rw [s3, i]
      · exact .inr (.inr rfl)
      · exact .inr (.inr hr)
      · exact .inr (.inr (modify_modify _))
      · exact .inr (.inl rfl)
      · exact .inr (.inl (restored_restored _))
      · exact .inr (.inr (restored_modify _))
    · rw [s2 g hg hgf]
      exact ih2 g hg

/-- **C89**: whatever forms were compiled before, in any order, any number of times and with any failures, compiling a form gives exactly
what compiling it first would have given, if the forms do not share integrals or metadata. -/
theorem C89_history_partial {entities : Data → Int → E} {boundary : E} {fs : List Nat} {h0 h : Heap} (hs : Separate h0 fs)
    (hh : Hist entities boundary fs h0 h) (f : Nat) (hf : f ∈ fs) (fate : Fate) :
    (h.compile entities boundary f fate).2 = (h0.compile entities boundary f fate).2 := by
  obtain ⟨h1, h2⟩ := hh.views hs
  rw [(compile_spec entities boundary h1 hf fate).1, (compile_spec entities boundary hs hf fate).1]
  have hr := (C72_restored_partial (h0.view f)).2.2
  rcases h2 f hf with i | i | i <;> rw [i]
  · rw [hr]
  · rw [modify_modify]

/-- **C89**: after calls that returned, the forms have the integrals they had, except for the subdomain data of those over the whole boundary
(C72_restored_fails). -/
theorem C89_forms_partial {entities : Data → Int → E} {boundary : E} {fs : List Nat} {h0 h : Heap} (hs : Separate h0 fs)
    (hh : Good entities boundary fs h0 h) (f : Nat) (hf : f ∈ fs) : (h.view f).length = (h0.view f).length ∧
    ∀ (k : Nat) i, (h0.view f)[k]? = some i → ∃ d, (h.view f)[k]? = some { i with data := d } ∧ (isEverywhere i = false → d = i.data) := by
  have key : Separate h fs ∧ ∀ f ∈ fs, h.view f = h0.view f ∨ h.view f = restored (h0.view f) := by
    induction hh with
    | start => exact ⟨hs, fun f _ => .inl rfl⟩
    | @call h f hf _ hret ih =>
      obtain ⟨ih1, ih2⟩ := ih
      obtain ⟨-, s1, s2, -, s4⟩ := compile_spec entities boundary ih1 hf .fine
      refine ⟨s1, fun g hg => ?_⟩
      by_cases hgf : g = f
      · subst hgf
        rw [s4 hret]
        rcases ih2 g hg with i | i <;> rw [i]
        · exact .inr rfl
        · exact .inr (restored_restored _)
      · rw [s2 g hg hgf]
        exact ih2 g hg
  rcases key.2 f hf with i | i <;> rw [i]
  · exact ⟨rfl, fun k i hi => ⟨i.data, hi, fun _ => rfl⟩⟩
  · obtain ⟨r1, r2, -⟩ := C72_restored_partial (h0.view f)
    refine ⟨r1, fun k i hi => ?_⟩
    obtain ⟨d, e1, e2, -⟩ := r2 k i hi
    exact ⟨d, e1, e2⟩

/-- **C89**: in particular (with C72), each integral over the whole boundary is integrated there and the others on their own subdomain, in
every compilation of the history. -/
theorem C89_where_partial {entities : Data → Int → E} {boundary : E} {fs : List Nat} {h0 h : Heap} (hs : Separate h0 fs)
    (hh : Hist entities boundary fs h0 h) (f : Nat) (hf : f ∈ fs) (hflag : ∀ i ∈ h0.view f, i.flag = false)
    (hnum : ∀ i ∈ h0.view f, i.kind = .exterior → ∀ ids, i.sid ≠ .tuple ids) (fate : Fate) (c : Compiled E)
    (hc : (h.compile entities boundary f fate).2 = some c) :
    c.integrals.length = (h0.view f).length ∧
    ∀ (k : Nat) i, (h0.view f)[k]? = some i → i.kind = .exterior →
      (isEverywhere i = true → c.where k = some boundary) ∧
      (isEverywhere i = false → i.data ≠ .nothing → ∀ n, i.sid = .num n → c.where k = some (entities i.data n)) := by
  rw [C89_history_partial hs hh f hf fate, (compile_spec entities boundary hs hf fate).1] at hc
  obtain ⟨hi, hsub⟩ : c.integrals = modify (h0.view f) ∧ subdomains entities boundary (h0.view f) .exterior = some (c.subdomains .exterior) := by
    rw [subdomains_eq]
    cases fate with
    | jit => simp [outcome] at hc
    | late => simp [outcome] at hc
    | fine =>
      unfold outcome at hc
      revert hc
      cases subdomainsOf entities boundary (modify (h0.view f)) .cell <;> cases subdomainsOf entities boundary (modify (h0.view f)) .exterior <;>
        cases subdomainsOf entities boundary (modify (h0.view f)) .interior <;> intro hc <;> simp only [Option.some.injEq, reduceCtorEq] at hc
      subst hc
      exact ⟨rfl, rfl⟩
  obtain ⟨n1, n2, n3, -⟩ := C72_numbers (h0.view f)
  obtain ⟨-, s2, s3, s4⟩ := C72_subdomains entities boundary (h0.view f) hflag hnum hsub
  have find : ∀ (r : List (Int × E)) (n : Int) (e : E), (n, e) ∈ r → (∀ e', (n, e') ∈ r → e' = e) →
      ((r.find? fun p => p.1 = n).map Prod.snd) = some e := by
    intro r n e hm hu
    cases hfd : r.find? fun p => p.1 = n with
    | none =>
      rw [List.find?_eq_none] at hfd
      exact absurd (hfd (n, e) hm) (by simp)
    | some p =>
      have h1 := List.find?_some hfd
      have h2 := List.mem_of_find?_eq_some hfd
      obtain ⟨a, b⟩ := p
      obtain rfl : a = n := by simpa using h1
      rw [Option.map_some, hu b h2]
  have one : ∀ j ∈ h0.view f, j.kind = .exterior → isEverywhere j = false → j.data ≠ .nothing → ∀ i ∈ h0.view f, i.kind = .exterior →
      isEverywhere i = false → i.data ≠ .nothing → j.data = i.data := by
    have mem : ∀ i ∈ h0.view f, i.kind = .exterior → isEverywhere i = false → i ∈ (modify (h0.view f)).filter fun i => i.kind = .exterior := by
      intro i hi hk he
      obtain ⟨k, hk'⟩ := List.getElem?_of_mem hi
      exact List.mem_filter.2 ⟨List.mem_of_getElem? (n2 k i hk' he), by simpa using hk⟩
    intro j hj j1 j2 j3 i hi' i1 i2 i3
    have mj := mem j hj j1 j2
    have mi := mem i hi' i1 i2
    rw [subdomains] at hsub
    simp only at hsub
    revert hsub mj mi
    cases (modify (h0.view f)).filter fun i => i.kind = .exterior with
    | nil => simp
    | cons a as =>
      intro mj mi hsub
      have hall : (as.all fun j => j.data = .nothing || j.data = a.data) = true := by
        by_contra hcon
        rw [Bool.not_eq_true] at hcon
        simp [hcon] at hsub
      rw [List.all_eq_true] at hall
      have first : ∀ x ∈ a :: as, x.data ≠ .nothing → x.data = a.data := by
        intro x hx hx'
        rcases List.mem_cons.1 hx with rfl | hx
        · rfl
        · have := hall x hx
          simpa [hx'] using this
      rw [first j mj j3, first i mi i3]
  refine ⟨by rw [hi, n1], fun k i hk hki => ⟨fun hev => ?_, fun hev hd n hn => ?_⟩⟩
  · obtain ⟨n, e1, -, -⟩ := n3 k i hk hev
    obtain ⟨n', e2, e3, e4⟩ := s2 k i _ hk e1 hev
    obtain rfl : n = n' := by simpa using e2
    rw [Compiled.where, hi, e1]
    simp only [hki]
    exact find _ _ _ e3 e4
  · have e1 := n2 k i hk hev
    have hmem := s3 i (List.mem_of_getElem? hk) hki hev hd n hn
    rw [Compiled.where, hi, e1]
    obtain ⟨kind, sid, data, flag, rest⟩ := i
    simp only at hki hn hd hmem ⊢
    subst hki hn
    refine find _ _ _ hmem fun e' he' => ?_
    rcases s4 _ he' with ⟨j, hj, j1, j2, j3, j4, j5⟩ | ⟨rfl, k', i', j', hk', hj', hev', hsid⟩
    · simp only at j5
      rw [j5, one j hj j1 j2 j3 _ (List.mem_of_getElem? hk) rfl hev hd]
    · obtain ⟨m, e2, -, hlt⟩ := n3 k' i' hk' hev'
      rw [hj', Option.some.injEq] at e2
      subst e2
      have := hlt _ (List.mem_of_getElem? hk) rfl n rfl
      simp only [Sid.num.injEq] at hsid
      omega

/-! ### What fails otherwise -/

/-- `v*ds` (form 0), `v*ds(0)` with tags (form 1), and `v*ds(1)` without tags, of the same measure as form 0 (form 2). -/
def shared : Heap where
  objs := fun r => if r = 0 then ⟨.exterior, .everywhere, .nothing, 0, 5⟩ else if r = 1 then ⟨.exterior, .num 0, .tags 7, 1, 5⟩ else
    ⟨.exterior, .num 1, .nothing, 0, 6⟩
  flags := fun _ => false
  forms := fun f => if f = 0 then [0] else if f = 1 then [1] else if f = 2 then [2] else []
  nextObj := 3
  nextDict := 2

/-- Entities: numbers of facets. -/
def facetsOf (d : Data) (n : Int) : List Int := if d = .tags 7 then [10 + n] else []

/-- **C89 fails** for forms that share an integral: `F = b + a` integrates `v*ds` over the boundary, unless `a` is compiled before: then
`v*ds` is integrated over the facets with the tag 0. -/
theorem C89_shared_fails :
    (((shared.sum 1 0 3).compile facetsOf [1, 2, 3] 3 .fine).2.map fun c => (c.where 0, c.where 1)) = some (some [10], some [1, 2, 3]) ∧
    (((shared.sum 1 0 3).compile facetsOf [1, 2, 3] 0 .fine).2.map fun c => c.where 0) = some (some [1, 2, 3]) ∧
    ((((shared.sum 1 0 3).compile facetsOf [1, 2, 3] 0 .fine).1.compile facetsOf [1, 2, 3] 3 .fine).2.map fun c => (c.where 0, c.where 1)) =
      some (some [10], some [10]) := by
  decide +kernel

/-- **C89 fails** for integrals of the same measure: `v*ds(1)`, without tags, is over no facets; after `v*ds` is compiled, or in a sum with
it, it is integrated over the whole boundary. -/
theorem C89_metadata_fails :
    ((shared.compile facetsOf [1, 2, 3] 2 .fine).2.map fun c => (c.subdomains .exterior, c.where 0)) = some ([], none) ∧
    (((shared.compile facetsOf [1, 2, 3] 0 .fine).1.compile facetsOf [1, 2, 3] 2 .fine).2.map fun c => c.where 0) = some (some [1, 2, 3]) ∧
    (((shared.sum 0 2 3).compile facetsOf [1, 2, 3] 3 .fine).2.map fun c => (c.where 0, c.where 1)) =
      some (some [1, 2, 3], some [1, 2, 3]) := by
  decide +kernel

/-- **C89 fails** if the compiler raises: the form keeps the number and the mark, and in a sum made afterwards its integral is over the facets
with a tag. -/
theorem C89_failure_fails :
    shared.view 0 = [⟨.exterior, .everywhere, .nothing, false, 5⟩] ∧
    (shared.compile facetsOf [1, 2, 3] 0 .jit).1.view 0 = [⟨.exterior, .num 0, .nothing, true, 5⟩] ∧
    (shared.compile facetsOf [1, 2, 3] 0 .late).1.view 0 = [⟨.exterior, .everywhere, .sid .everywhere, false, 5⟩] ∧
    ((((shared.compile facetsOf [1, 2, 3] 0 .jit).1.sum 1 0 3).compile facetsOf [1, 2, 3] 3 .fine).2.map fun c => (c.where 0, c.where 1)) =
      some (some [10], some [10]) := by
  decide +kernel

/-- **C89 fails** for the options: the dictionary of the caller gets the scalar type, and has it when it is used again elsewhere. -/
theorem C89_options_fails {V : Type} (d : String → Option V) (dtype : V) :
    (setScalarType (some d) dtype).1 = some (setScalarType (some d) dtype).2 ∧
    ((setScalarType (some d) dtype).1.bind fun d' => d' "scalar_type") = some dtype ∧
    (∀ k, k ≠ "scalar_type" → ((setScalarType (some d) dtype).1.bind fun d' => d' k) = d k) ∧
    (setScalarType (none : Option (String → Option V)) dtype).1 = none := by
  refine ⟨rfl, by simp [setScalarType], fun k hk => by simp [setScalarType, Function.update_of_ne hk], rfl⟩

/-! ### Instances -/

/-- A form with two integrals over the boundary and one with tags, and another form. -/
def apart : Heap where
  objs := fun r => if r = 0 then ⟨.exterior, .num 4, .tags 7, 0, 5⟩ else if r = 1 then ⟨.exterior, .everywhere, .nothing, 1, 6⟩ else
    if r = 2 then ⟨.exterior, .num (-1), .tags 7, 2, 7⟩ else ⟨.exterior, .everywhere, .tags 7, 3, 8⟩
  flags := fun _ => false
  forms := fun f => if f = 0 then [0, 1, 2] else [3]
  nextObj := 4
  nextDict := 4

theorem apart_separate : Separate apart [0, 1] := by
  refine ⟨?_, ?_, ?_⟩ <;> decide +kernel

/-- A history with a failure, and what the compilation gives after it. -/
def later : Heap :=
  ((((apart.compile facetsOf [1, 2, 3] 0 .fine).1.compile facetsOf [1, 2, 3] 1 .late).1.compile facetsOf [1, 2, 3] 0 .jit).1.compile
    facetsOf [1, 2, 3] 1 .fine).1

theorem later_hist : Hist facetsOf [1, 2, 3] [0, 1] apart later :=
  .call 1 (by simp) .fine (.call 0 (by simp) .jit (.call 1 (by simp) .late (.call 0 (by simp) .fine .start)))

example : later.view 0 ≠ apart.view 0 ∧
    ((later.compile facetsOf [1, 2, 3] 0 .fine).2.map fun c => ([c.where 0, c.where 1, c.where 2], c.subdomains .exterior)) =
      some ([some [14], some [1, 2, 3], some [1, 2, 3]], [(4, [14]), (5, [1, 2, 3]), (6, [1, 2, 3])]) := by
  decide +kernel

example : (later.compile facetsOf [1, 2, 3] 0 .fine).2 = (apart.compile facetsOf [1, 2, 3] 0 .fine).2 :=
  C89_history_partial apart_separate later_hist 0 (by simp) .fine

example : Good facetsOf [1, 2, 3] [0, 1] apart ((apart.compile facetsOf [1, 2, 3] 0 .fine).1.compile facetsOf [1, 2, 3] 1 .fine).1 :=
  .call 1 (by simp) (.call 0 (by simp) .start (by decide +kernel)) (by decide +kernel)

example : (∀ i ∈ apart.view 0, i.flag = false) ∧ (∀ i ∈ apart.view 0, i.kind = .exterior → ∀ ids, i.sid ≠ .tuple ids) := by
  have : apart.view 0 = [⟨.exterior, .num 4, .tags 7, false, 5⟩, ⟨.exterior, .everywhere, .nothing, false, 6⟩,
    ⟨.exterior, .num (-1), .tags 7, false, 7⟩] := by decide +kernel
  rw [this]
  refine ⟨by decide +kernel, fun i hi _ ids => ?_⟩
  simp only [List.mem_cons, List.not_mem_nil, or_false] at hi
  rcases hi with rfl | rfl | rfl <;> simp

end Qugar.Py.Forms
