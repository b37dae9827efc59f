import Verif.Model.PySolve
import Verif.Props.PyPacker
/-
Property theorems C79 (solving problems: python/qugar/dolfinx/petsc.py, the dictionaries of custom_coefficients.py and
_dolfinx_patches.py).
-/
namespace Qugar.Py.Solve
open Qugar.Py.Pack (Slot Input)

variable {K W Bc Mat Vec Opts : Type}

/-! ### Specification -/

/-- What is assumed of a form: in every state of the world, DOLFINx gives for every integral the coefficients with the rows and columns
of the integral, and the integral is as C67 needs it. -/
def Form.Ok (f : Form K W) : Prop := ∀ w, List.Forall₂ (fun i d => Input.Ok { i with old := d }) f.integrals (f.dlf w)

/-- The coefficients of a form in the present world: one array per integral, each one packed from scratch. -/
def Form.IsPacked [NatCast K] (f : Form K W) (w : W) (c : Coeffs K) : Prop :=
  List.Forall₂ (fun (p : Input K × List (List K)) m => Pack.pack { p.1 with old := p.2 } = some m) (List.zip f.integrals (f.dlf w)) c

/-- A residual: the vector of the form, plus the lifting, with the boundary conditions. -/
def Backend.rhs [AddMonoid Vec] (B : Backend K W Bc Mat Vec Opts) (a l : Nat) (w : W) (cA cb : Coeffs K) (bcs : List Bc) (x : Option Vec) :
    Vec :=
  B.setBc bcs w x (B.ghosts (B.vector l w (.one cb) + B.lifting a w (.one cA) bcs x))

/-! ### Packing and updating -/

theorem mapM_forall₂ {α β : Type} (g : α → Option β) (l : List α) (r : List β) :
    l.mapM g = some r ↔ List.Forall₂ (fun a b => g a = some b) l r := by
  induction l generalizing r with
  | nil =>
    cases r <;> simp
  | cons a l ih =>
    rw [List.mapM_cons]
    constructor
    · intro h
      cases hg : g a with
      | none => rw [hg] at h; cases h
      | some b =>
        rw [hg] at h
        cases hl : l.mapM g with
        | none => rw [hl] at h; cases h
        | some s =>
          rw [hl] at h
          cases h
          exact .cons hg ((ih s).1 hl)
    · intro h
      cases h with
      | cons h1 h2 => rw [h1, (ih _).2 h2]; rfl

theorem Form.pack_iff [NatCast K] (f : Form K W) (w : W) (c : Coeffs K) : f.pack w = some c ↔ f.IsPacked w c := mapM_forall₂ _ _ _

theorem pack_all_ok [NatCast K] (is : List (Input K)) (ds : List (List (List K)))
    (h : List.Forall₂ (fun i d => Input.Ok { i with old := d }) is ds) :
    ∃ c, List.Forall₂ (fun (p : Input K × List (List K)) m => Pack.pack { p.1 with old := p.2 } = some m) (List.zip is ds) c := by
  induction h with
  | nil => exact ⟨[], .nil⟩
  | cons h1 _ ih =>
    obtain ⟨c, hc⟩ := ih
    obtain ⟨m, hm, -⟩ := Pack.pack_spec _ h1
    exact ⟨m :: c, .cons hm hc⟩

theorem update_all_ok [NatCast K] (is : List (Input K)) (d0 d1 : List (List (List K))) (c : Coeffs K)
    (h0 : List.Forall₂ (fun i d => Input.Ok { i with old := d }) is d0) (h1 : List.Forall₂ (fun i d => Input.Ok { i with old := d }) is d1)
    (hc : List.Forall₂ (fun (p : Input K × List (List K)) m => Pack.pack { p.1 with old := p.2 } = some m) (List.zip is d0) c) :
    ∃ c', (List.zip (List.zip is d1) c).mapM (fun p => Pack.update p.1.1 p.1.2 p.2) = some c' ∧
      List.Forall₂ (fun (p : Input K × List (List K)) m => Pack.pack { p.1 with old := p.2 } = some m) (List.zip is d1) c' := by
  induction h0 generalizing d1 c with
  | nil =>
    cases h1
    exact ⟨[], by simp, .nil⟩
  | @cons i d is ds hi his ih =>
    cases h1 with
    | @cons _ e _ es he hes =>
      cases hc with
      | @cons _ m _ ms hm hms =>
        obtain ⟨c', a1, a2⟩ := ih es ms hes hms
        obtain ⟨m', b1, b2⟩ := Pack.C67_update { i with old := d } hi e he.old_rows he.old_cols m hm
        refine ⟨m' :: c', ?_, .cons b2 a2⟩
        simp only [List.zip_cons_cons, List.mapM_cons]
        have b1' : Pack.update i e m = some m' := b1
        rw [b1', a1]
        rfl

theorem Form.packed [NatCast K] {f : Form K W} (hf : f.Ok) (w : W) : ∃ c, f.IsPacked w c := pack_all_ok _ _ (hf w)

theorem Form.IsPacked.unique [NatCast K] {f : Form K W} {w : W} {c c' : Coeffs K} (h : f.IsPacked w c) (h' : f.IsPacked w c') : c = c' := by
  have := ((Form.pack_iff f w c).2 h).symm.trans ((Form.pack_iff f w c').2 h')
  simpa using this

/-- **C79** (`update_coefficients`): coefficients packed in any past state of the world, updated now, are the ones packed now. -/
theorem C79_update [NatCast K] (f : Form K W) (hf : f.Ok) (w0 w : W) (c : Coeffs K) (hc : f.IsPacked w0 c) :
    ∃ c', f.update w c = some c' ∧ f.IsPacked w c' :=
  update_all_ok _ _ _ c (hf w0) (hf w) hc

/-! ### Linear problems -/

/-- The problem solved in a sequence of states of the world. -/
def Linear.history [NatCast K] [AddMonoid Mat] [AddMonoid Vec] (B : Backend K W Bc Mat Vec Opts) (p : Linear K W Bc Mat Vec Opts)
    (ws : List W) : Option (Linear K W Bc Mat Vec Opts) :=
  ws.foldlM (fun p w => p.solve B w) p

theorem Linear.solve_spec [NatCast K] [AddMonoid Mat] [AddMonoid Vec] (B : Backend K W Bc Mat Vec Opts) (w : W)
    (p : Linear K W Bc Mat Vec Opts) (ha : p.a.Ok) (hl : p.l.Ok) :
    ∃ q cA cb, p.solve B w = some q ∧ p.a.IsPacked w cA ∧ p.l.IsPacked w cb ∧
      q = { p with A := B.matrix p.a.id w (.one cA) p.bcs, b := B.rhs p.a.id p.l.id w cA cb p.bcs none,
                   u := B.ksp p.opts (B.matrix p.a.id w (.one cA) p.bcs) (B.rhs p.a.id p.l.id w cA cb p.bcs none) } := by
  obtain ⟨cA, hA⟩ := Form.packed ha w
  obtain ⟨cb, hb⟩ := Form.packed hl w
  refine ⟨_, cA, cb, ?_, hA, hb, rfl⟩
  have h1 : packAll w (.one p.a) = some (.one cA) := by rw [packAll, (Form.pack_iff _ _ _).2 hA]; rfl
  have h2 : packAll w (.one p.l) = some (.one cb) := by rw [packAll, (Form.pack_iff _ _ _).2 hb]; rfl
  unfold Linear.solve
  rw [h1, h2]
  simp only [Option.bind_eq_bind, Option.bind_some, zero_add, Backend.rhs]

/-- **C79** (`LinearProblem.solve`): after any sequence of solutions in any states of the world, solving gives the matrix and the right
hand side of the present state, assembled once with coefficients packed now, and the solution of that system with the options of the
problem; nothing of the earlier solutions (or of the initial contents of `A`, `b` and `u`) remains. -/
theorem C79_linear [NatCast K] [AddMonoid Mat] [AddMonoid Vec] (B : Backend K W Bc Mat Vec Opts) (p : Linear K W Bc Mat Vec Opts)
    (ha : p.a.Ok) (hl : p.l.Ok) (ws : List W) (w : W) :
    ∃ q cA cb, p.history B (ws ++ [w]) = some q ∧ p.a.IsPacked w cA ∧ p.l.IsPacked w cb ∧
      q.A = B.matrix p.a.id w (.one cA) p.bcs ∧ q.b = B.rhs p.a.id p.l.id w cA cb p.bcs none ∧ q.u = B.ksp p.opts q.A q.b := by
  have key : ∀ ws : List W, ∃ q, p.history B ws = some q ∧ q.a = p.a ∧ q.l = p.l ∧ q.bcs = p.bcs ∧ q.opts = p.opts := by
    intro ws
    unfold Linear.history
    have gen : ∀ p0 : Linear K W Bc Mat Vec Opts, p0.a = p.a → p0.l = p.l → p0.bcs = p.bcs → p0.opts = p.opts →
        ∃ q, ws.foldlM (fun p w => p.solve B w) p0 = some q ∧ q.a = p.a ∧ q.l = p.l ∧ q.bcs = p.bcs ∧ q.opts = p.opts := by
      induction ws with
      | nil => exact fun p0 e1 e2 e3 e4 => ⟨p0, rfl, e1, e2, e3, e4⟩
      | cons v ws ih =>
        intro p0 e1 e2 e3 e4
        obtain ⟨q, cA, cb, s1, -, -, s2⟩ := p0.solve_spec B v (e1 ▸ ha) (e2 ▸ hl)
        obtain ⟨r, r1, r2⟩ := ih q (by rw [s2]; exact e1) (by rw [s2]; exact e2) (by rw [s2]; exact e3) (by rw [s2]; exact e4)
        refine ⟨r, ?_, r2⟩
        rw [List.foldlM_cons, s1]
        exact r1
    exact gen p rfl rfl rfl rfl
  obtain ⟨q, h1, h2, h3, h4, h5⟩ := key ws
  obtain ⟨r, cA, cb, s1, s2, s3, s4⟩ := q.solve_spec B w (h2 ▸ ha) (h3 ▸ hl)
  rw [h2] at s2
  rw [h3] at s3
  refine ⟨r, cA, cb, ?_, s2, s3, ?_, ?_, ?_⟩
  · unfold Linear.history at h1 ⊢
    rw [List.foldlM_append, h1]
    simp only [Option.bind_eq_bind, Option.bind_some, List.foldlM_cons, s1, List.foldlM_nil]
    rfl
  · rw [s4, ← h2, ← h4]
  · rw [s4, ← h2, ← h3, ← h4]
  · rw [s4, ← h5]

/-! ### Nonlinear problems -/

/-- What Newton's method calls. -/
inductive Call (W Vec : Type)
  | residual (w : W) (x : Vec)
  | jacobian (w : W)

/-- The result of a call. -/
inductive Out (Mat Vec : Type)
  | vec (b : Vec)
  | mat (A : Mat)

/-- A sequence of calls on the same problem: the results. -/
def Nonlinear.run [NatCast K] [AddMonoid Mat] [AddMonoid Vec] (B : Backend K W Bc Mat Vec Opts) (p : Nonlinear K W Bc) :
    List (Call W Vec) → Option (List (Out Mat Vec))
  | [] => some []
  | .residual w x :: l => (p.residual B w x).bind fun r => (r.1.run B l).map (.vec r.2 :: ·)
  | .jacobian w :: l => (p.jacobian B w).bind fun r => (r.1.run B l).map (.mat r.2 :: ·)

/-- What a call must give: the residual or the Jacobian with coefficients packed from scratch in the state of the world of the call. -/
def Correct [NatCast K] [AddMonoid Vec] (B : Backend K W Bc Mat Vec Opts) (a l : Form K W) (bcs : List Bc) :
    Call W Vec → Out Mat Vec → Prop
  | .residual w x, .vec b => ∃ cA cb, a.IsPacked w cA ∧ l.IsPacked w cb ∧ b = B.rhs a.id l.id w cA cb bcs (some x)
  | .jacobian w, .mat A => ∃ cA, a.IsPacked w cA ∧ A = B.matrix a.id w (.one cA) bcs
  | _, _ => False

/-- Coefficients that were packed at some time. -/
def Cached [NatCast K] (f : Form K W) (c : Option (CoeffsTree K)) : Prop := c = none ∨ ∃ w0 c0, c = some (.one c0) ∧ f.IsPacked w0 c0

theorem getCoeffs_spec [NatCast K] (f : Form K W) (hf : f.Ok) (c : Option (CoeffsTree K)) (hc : Cached f c) (w : W) :
    ∃ c', getCoeffs w f c = some (.one c') ∧ f.IsPacked w c' := by
  rcases hc with rfl | ⟨w0, c0, rfl, h0⟩
  · obtain ⟨c, hc⟩ := Form.packed hf w
    refine ⟨c, ?_, hc⟩
    rw [getCoeffs, packAll, (Form.pack_iff _ _ _).2 hc]; rfl
  · obtain ⟨c', h1, h2⟩ := C79_update f hf w0 w c0 h0
    refine ⟨c', ?_, h2⟩
    rw [getCoeffs, updateAll, h1]; rfl

theorem Nonlinear.run_spec [NatCast K] [AddMonoid Mat] [AddMonoid Vec] (B : Backend K W Bc Mat Vec Opts) (calls : List (Call W Vec))
    (p : Nonlinear K W Bc) (ha : p.a.Ok) (hl : p.l.Ok) (hA : Cached p.a p.cA) (hb : Cached p.l p.cb) :
    ∃ outs, p.run B calls = some outs ∧ List.Forall₂ (Correct B p.a p.l p.bcs) calls outs := by
  induction calls generalizing p with
  | nil => exact ⟨[], rfl, .nil⟩
  | cons call calls ih =>
    cases call with
    | residual w x =>
      obtain ⟨cb, b1, b2⟩ := getCoeffs_spec p.l hl p.cb hb w
      obtain ⟨cA, a1, a2⟩ := getCoeffs_spec p.a ha p.cA hA w
      have hr : p.residual B w x = some ({ p with cA := some (.one cA), cb := some (.one cb) }, B.rhs p.a.id p.l.id w cA cb p.bcs (some x)) := by
        unfold Nonlinear.residual
        rw [b1, a1]
        simp only [Option.bind_eq_bind, Option.bind_some, zero_add, Backend.rhs]
      obtain ⟨outs, o1, o2⟩ := ih { p with cA := some (.one cA), cb := some (.one cb) } ha hl (.inr ⟨w, cA, rfl, a2⟩) (.inr ⟨w, cb, rfl, b2⟩)
      refine ⟨.vec _ :: outs, ?_, .cons ⟨cA, cb, a2, b2, rfl⟩ o2⟩
      rw [Nonlinear.run, hr]
      simp only [Option.bind_some, o1]
      rfl
    | jacobian w =>
      obtain ⟨cA, a1, a2⟩ := getCoeffs_spec p.a ha p.cA hA w
      have hr : p.jacobian B w = some ({ p with cA := some (.one cA) }, B.matrix p.a.id w (.one cA) p.bcs) := by
        unfold Nonlinear.jacobian
        rw [a1]
        simp only [Option.bind_eq_bind, Option.bind_some, zero_add]
      obtain ⟨outs, o1, o2⟩ := ih { p with cA := some (.one cA) } ha hl (.inr ⟨w, cA, rfl, a2⟩) hb
      refine ⟨.mat _ :: outs, ?_, .cons ⟨cA, a2, rfl⟩ o2⟩
      rw [Nonlinear.run, hr]
      simp only [Option.bind_some, o1]
      rfl

/-- **C79** (`NonlinearProblem.F` and `J`): in any sequence of calls, in any order and with any changes of the coefficients between
them, every residual and every Jacobian is the one that coefficients packed from scratch at the time of the call give. -/
theorem C79_nonlinear [NatCast K] [AddMonoid Mat] [AddMonoid Vec] (B : Backend K W Bc Mat Vec Opts) (a l : Form K W) (bcs : List Bc)
    (ha : a.Ok) (hl : l.Ok) (calls : List (Call W Vec)) :
    ∃ outs : List (Out Mat Vec), (Nonlinear.mk a l bcs none none).run B calls = some outs ∧
      List.Forall₂ (Correct B a l bcs) calls outs :=
  Nonlinear.run_spec B calls ⟨a, l, bcs, none, none⟩ ha hl (.inl rfl) (.inl rfl)

/-- **C79** (lists of forms): packing a list of forms works, but every second call for a list of forms with an integral fails, whatever
the coefficients are: the list of dictionaries is used as a dictionary. -/
theorem C79_lists_fail [NatCast K] (l : List (Form K W)) (hok : ∀ f ∈ l, f.Ok) (hne : ∃ f ∈ l, f.integrals ≠ []) (w0 w : W) :
    ∃ c, packAll w0 (.many (l.map .one)) = some c ∧ updateAll w c (.many (l.map .one)) = none := by
  have hpack : ∃ cs, packList w0 (l.map .one) = some cs := by
    clear hne
    induction l with
    | nil => exact ⟨[], by simp [packList]⟩
    | cons f l ih =>
      obtain ⟨cs, hcs⟩ := ih fun g hg => hok g (List.mem_cons_of_mem _ hg)
      obtain ⟨c, hc⟩ := Form.packed (hok f (List.mem_cons_self ..)) w0
      refine ⟨.one c :: cs, ?_⟩
      rw [List.map_cons, packList, packAll, (Form.pack_iff _ _ _).2 hc, hcs]
      rfl
  obtain ⟨cs, hcs⟩ := hpack
  refine ⟨.many cs, by rw [packAll, hcs]; rfl, ?_⟩
  have hup : updateList w (.many cs) (l.map .one) = none := by
    clear hcs
    induction l with
    | nil => obtain ⟨f, hf, -⟩ := hne; simp at hf
    | cons f l ih =>
      rw [List.map_cons, updateList, updateAll]
      by_cases h : f.integrals = []
      · obtain ⟨g, hg, hg'⟩ := hne
        rcases List.mem_cons.1 hg with rfl | hg
        · exact absurd h hg'
        · rw [ih (fun g hg => hok g (List.mem_cons_of_mem _ hg)) ⟨g, hg, hg'⟩]
          simp [h]
      · have : f.dlf w ≠ [] := by
          intro hd
          have := (hok f (List.mem_cons_self ..) w).length_eq
          rw [hd] at this
          exact h (List.length_eq_zero_iff.1 this)
        rw [if_neg (by tauto)]
        rfl
  rw [updateAll, hup]; rfl

/-! ### Options and default arguments -/

theorem optionsOf_setOption (db : List ((Nat × String) × String)) (addr : Nat) (kv : String × String) :
    optionsOf (setOption db addr kv) addr = (optionsOf db addr).filter (fun e => !(e.1 == kv.1)) ++ [kv] := by
  unfold optionsOf setOption
  rw [List.filter_append, List.map_append]
  congr 1
  · rw [List.filter_filter, List.filter_map, List.filter_filter]
    congr 1
    apply List.filter_congr
    intro e _
    by_cases h : e.1.1 = addr
    · by_cases h2 : e.1.2 = kv.1
      · have : e.1 = (addr, kv.1) := Prod.ext h h2
        simp [this]
      · have : e.1 ≠ (addr, kv.1) := fun he => h2 (congrArg Prod.snd he)
        simp [h, h2, this]
    · have hb : (e.1.1 == addr) = false := beq_eq_false_iff_ne.2 h
      simp only [Function.comp_apply, hb, Bool.false_and, Bool.and_false]
  · simp

theorem optionsOf_setOption_ne (db : List ((Nat × String) × String)) {addr a : Nat} (h : a ≠ addr) (kv : String × String) :
    optionsOf (setOption db addr kv) a = optionsOf db a := by
  unfold optionsOf setOption
  rw [List.filter_append, List.map_append, List.filter_filter]
  have : ([((addr, kv.1), kv.2)].filter fun e => e.1.1 == a) = [] := by simp [Ne.symm h]
  rw [this, List.map_nil, List.append_nil]
  congr 1
  apply List.filter_congr
  intro e _
  by_cases h1 : e.1.1 = a
  · have : e.1 ≠ (addr, kv.1) := fun he => h (h1.symm.trans (congrArg Prod.fst he))
    simp [this]
  · simp [h1]

theorem optionsOf_setOptions (opts : List (String × String)) (db : List ((Nat × String) × String)) (addr a : Nat) (h : a ≠ addr) :
    optionsOf (opts.foldl (fun db kv => setOption db addr kv) db) a = optionsOf db a := by
  induction opts generalizing db with
  | nil => rfl
  | cons kv opts ih => rw [List.foldl_cons, ih, optionsOf_setOption_ne _ h]

theorem optionsOf_foldl (opts : List (String × String)) (db : List ((Nat × String) × String)) (addr : Nat)
    (hn : (opts.map Prod.fst).Nodup) :
    optionsOf (opts.foldl (fun db kv => setOption db addr kv) db) addr =
      (optionsOf db addr).filter (fun e => !((opts.map Prod.fst).contains e.1)) ++ opts := by
  induction opts generalizing db with
  | nil => simp
  | cons kv opts ih =>
    rw [List.map_cons, List.nodup_cons] at hn
    rw [List.foldl_cons, ih _ hn.2, optionsOf_setOption, List.filter_append, List.filter_filter, List.append_assoc]
    congr 1
    · apply List.filter_congr
      intro e _
      simp only [List.map_cons, List.contains_cons, Bool.not_or]
      rw [Bool.and_comm]
    · have : ([kv].filter fun e => !((opts.map Prod.fst).contains e.1)) = [kv] := by
        rw [List.filter_singleton]
        have : (opts.map Prod.fst).contains kv.1 = false := by simpa using hn.1
        rw [this]; rfl
      rw [this]; rfl

/-- A program creates and deletes problems. -/
inductive Event (Bc : Type)
  | create (addr : Nat) (bcs : Option (List Bc)) (petscOptions : Option (List (String × String)))
  | delete (p : Problem Bc)

/-- The state after the events. -/
def events (s : Shared Bc) (l : List (Event Bc)) : Option (Shared Bc) :=
  l.foldlM (fun s e => match e with
    | .create a b o => (create s a b o).map Prod.fst
    | .delete p => some (delete s p)) s

/-- The addresses that the events have given to problems. -/
def Event.addr? : Event Bc → Option Nat
  | .create a _ _ => some a
  | .delete _ => none

theorem optionsOf_events (l : List (Event Bc)) (s s' : Shared Bc) (h : events s l = some s') (addr : Nat)
    (hfresh : addr ∉ l.filterMap Event.addr?) : optionsOf s'.options addr = optionsOf s.options addr := by
  induction l generalizing s with
  | nil => cases h; rfl
  | cons e l ih =>
    unfold events at h
    rw [List.foldlM_cons] at h
    cases e with
    | delete p =>
      rw [List.filterMap_cons_none rfl] at hfresh
      exact (ih (delete s p) h hfresh).trans rfl
    | create a b o =>
      rw [show (Event.create a b o :: l).filterMap Event.addr? = a :: l.filterMap Event.addr? from rfl, List.mem_cons, not_or] at hfresh
      simp only [create] at h
      by_cases hu : a ∈ s.used
      · rw [if_pos hu] at h; cases h
      · rw [if_neg hu] at h
        refine (ih _ h hfresh.2).trans ?_
        exact optionsOf_setOptions _ _ _ _ hfresh.1

/-- **C79** (options; partial): a problem has exactly the options that it is given, if its address has never been the one of another
problem. What is missing: an address that was used before (see `C79_options_fail`). -/
theorem C79_options_partial (l : List (Event Bc)) (s : Shared Bc) (h : events ⟨[], [], []⟩ l = some s) (addr : Nat)
    (hfresh : addr ∉ l.filterMap Event.addr?) (hfree : addr ∉ s.used) (bcs : Option (List Bc)) (opts : Option (List (String × String)))
    (hn : ((opts.getD []).map Prod.fst).Nodup) :
    ∃ s' p, create s addr bcs opts = some (s', p) ∧ p.solverOptions = opts.getD [] ∧
      ∀ a, a ≠ addr → optionsOf s'.options a = optionsOf s.options a := by
  have h0 := optionsOf_events l _ s h addr hfresh
  refine ⟨_, _, if_neg hfree, ?_, ?_⟩
  · show optionsOf ((opts.getD []).foldl (fun db kv => setOption db addr kv) s.options) addr = _
    rw [optionsOf_foldl _ _ _ hn, h0]
    rfl
  · intro a ha
    exact optionsOf_setOptions _ _ _ _ ha

/-- **C79** (options): a problem that is created without options at the address of a deleted one solves with the options of the deleted
one. -/
theorem C79_options_fail (s : Shared Bc) (addr : Nat) (hfree : addr ∉ s.used) (bcs : Option (List Bc)) (opts : List (String × String))
    (hn : (opts.map Prod.fst).Nodup) :
    ∃ s1 p1 s2 p2, create s addr bcs (some opts) = some (s1, p1) ∧ create (delete s1 p1) addr bcs none = some (s2, p2) ∧
      ∀ kv ∈ opts, kv ∈ p2.solverOptions := by
  refine ⟨_, _, _, _, if_neg hfree, if_neg (by simp [delete]), ?_⟩
  · intro kv hkv
    show kv ∈ optionsOf (opts.foldl (fun db kv => setOption db addr kv) s.options) addr
    rw [optionsOf_foldl _ _ _ hn]
    exact List.mem_append_right _ hkv

/-- **C79** (default arguments): a boundary condition appended to the conditions of a problem created without them is one of every other
such problem, also of the ones created before and of the ones created later. -/
theorem C79_default_bcs_fail (s s1 : Shared Bc) (a : Nat) (o : Option (List (String × String))) (p : Problem Bc)
    (h : create s a none o = some (s1, p)) (bc : Bc) (q : Problem Bc) (hq : q.ownBcs = none) :
    bc ∈ q.bcs (p.append s1 bc).1 := by
  unfold create at h
  by_cases hu : a ∈ s.used
  · rw [if_pos hu] at h; cases h
  · rw [if_neg hu] at h
    cases h
    simp [Problem.bcs, hq, Problem.append]

/-! ### Data of the integrals -/

/-- **C79** (`_build_position_to_data`): if the data are the ones of the form (every integral of the form has data of its type with its
subdomain, and no two data of a type have the same subdomain), the data found for a position are the data of the integral at that
position. -/
theorem C79_data (form : Ffcx) (data : List Data) (type position : Nat) (name : String) (sid : Int) (d : Data)
    (h : (form type)[position]? = some (name, sid)) (hd : d ∈ data) (ht : d.type = type) (hs : sid ∈ d.ids)
    (huniq : ∀ d1 ∈ data, ∀ d2 ∈ data, d1.type = d2.type → sid ∈ d1.ids → sid ∈ d2.ids → d1 = d2) :
    positionToData form data type position = some d := by
  unfold positionToData
  rw [h, Option.bind_some]
  cases hf : data.find? fun d => d.type == type && d.ids.contains sid with
  | none =>
    have := List.find?_eq_none.1 hf d hd
    simp [ht, hs] at this
  | some d' =>
    have h1 := List.mem_of_find?_eq_some hf
    have h2 := List.find?_some hf
    simp only [Bool.and_eq_true, beq_iff_eq, List.contains_iff_mem] at h2
    rw [huniq d' h1 d hd (h2.1.trans ht.symm) h2.2 hs]

/-! ### assemble_scalar -/

/-- **C79** (`apply_patches`): with DOLFINx 0.10, a program that imports `assemble_scalar` after the patches gives C++ the coefficients
that it is asked to use; applying the patches again changes nothing; with other versions nothing is changed. -/
theorem C79_assemble_scalar {C D : Type} (n : Names) (hcons : n.fem = n.assembleModule) (pk : C) (pc : D) (asCoeffs : C → D)
    (constants : Option C) (coeffs : Option D) :
    (n.version.startsWith "0.10." →
      (applyPatches n).fem.call pk pc asCoeffs constants coeffs = (constants.getD pk, coeffs.getD pc) ∧
      ∃ f, (importName (applyPatches n)).user = n.user ++ [f] ∧
        f.call pk pc asCoeffs constants coeffs = (constants.getD pk, coeffs.getD pc)) ∧
    applyPatches (applyPatches n) = applyPatches n ∧
    (¬ n.version.startsWith "0.10." → applyPatches n = n) := by
  have hv : (applyPatches n).version = n.version := by
    unfold applyPatches; split_ifs <;> rfl
  have hp : n.version.startsWith "0.10." → (applyPatches n).fem = .patched ∧ (applyPatches n).assembleModule = .patched := by
    intro h
    unfold applyPatches
    rw [if_neg (by simpa using h)]
    by_cases h2 : n.assembleModule = .patched
    · rw [if_pos h2, hcons]; exact ⟨h2, h2⟩
    · rw [if_neg h2]; exact ⟨rfl, rfl⟩
  have hu : (applyPatches n).user = n.user := by
    unfold applyPatches; split_ifs <;> rfl
  have hc : Fn.call .patched pk pc asCoeffs constants coeffs = (constants.getD pk, coeffs.getD pc) := by
    cases coeffs <;> rfl
  refine ⟨fun h => ⟨by rw [(hp h).1, hc], .patched, ?_, ?_⟩, ?_, fun h => if_pos h⟩
  · simp only [importName, hu, (hp h).1]
  · exact hc
  · by_cases h : n.version.startsWith "0.10." = true
    · rw [applyPatches, if_neg (by rw [hv]; simpa using h), if_pos (hp h).2]
    · rw [applyPatches, if_pos (by rw [hv]; exact h)]

/-- **C79** (`apply_patches`): a name imported before the patches is the function of DOLFINx: it uses the constants instead of the
coefficients that it is given. -/
theorem C79_early_import_fails {C D : Type} (n : Names) (h : n.fem = .original) (pk : C) (pc : D) (asCoeffs : C → D)
    (constants : Option C) (coeffs : D) :
    ∃ f, (applyPatches (importName n)).user = n.user ++ [f] ∧
      f.call pk pc asCoeffs constants (some coeffs) = (constants.getD pk, asCoeffs (constants.getD pk)) := by
  refine ⟨.original, ?_, rfl⟩
  unfold applyPatches importName
  split_ifs <;> simp [h]

/-! ### Examples -/

/-- A form with one integral: four cells, one empty, two cut. -/
def exForm : Form Int Int where
  id := 7
  integrals := [Pack.exInput ⟨1, 2⟩ []]
  dlf := fun w => [[[w, 2], [3, w], [5, 6], [7, w]]]

theorem exInput_facts : [1, 3].Nodup ∧ (∀ e ∈ [1, 3], e < 4) ∧ (∀ e ∈ [0], e < 4) ∧ (∀ e ∈ [1, 3], e ∉ [0]) := by decide

theorem exForm_ok : exForm.Ok := by
  intro w
  refine .cons ⟨⟨.inl rfl, .inr rfl⟩, rfl, ?_, exInput_facts.1, exInput_facts.2.1, exInput_facts.2.2.1, exInput_facts.2.2.2, ?_⟩ .nil
  · intro r hr
    simp at hr
    rcases hr with rfl | rfl | rfl | rfl <;> rfl
  · intro q hq
    obtain rfl := List.mem_singleton.1 hq
    refine ⟨rfl, rfl, by simp [Pack.exQuad], by simp [Pack.exQuad], rfl, ?_⟩
    intro l hl
    simp only [Pack.exQuad, Option.some.injEq] at hl
    subst hl; rfl

/-- The slots that are numbers of an array of coefficients, added. -/
def exSum : CoeffsTree Int → Int
  | .one c => (c.map fun m => (m.map fun s => match s with | .num x => x | .off _ _ => 0).sum).sum
  | .many _ => 0

/-- A backend of numbers. -/
def exBackend : Backend Int Int Int Int Int Int where
  matrix := fun id w c bcs => id + w + exSum c + bcs.sum
  vector := fun _ w c => w * exSum c
  lifting := fun _ _ c _ x => exSum c + x.getD 0
  ghosts := id
  setBc := fun bcs _ _ b => b + bcs.sum
  ksp := fun o A b => o * b - A

/-- A linear problem with garbage in `A`, `b` and `u`. -/
def exLinear (A b u : Int) : Linear Int Int Int Int Int Int := ⟨exForm, exForm, [3], 2, A, b, u⟩

/-- A nonlinear problem. -/
def exNonlinear : Nonlinear Int Int Int := ⟨exForm, exForm, [3], none, none⟩

/-- The number of a result. -/
def exShow : Out Int Int → Int
  | .vec b => b
  | .mat A => A

example : positionToData (fun _ => [("a", -1), ("b", 3), ("b", 4)]) [⟨"a", 0, [-1]⟩, ⟨"c", 1, [3]⟩, ⟨"b", 0, [3, 4]⟩] 0 2 =
    some ⟨"b", 0, [3, 4]⟩ := by decide +kernel

example : ((create (⟨[], [], []⟩ : Shared Nat) 5 none (some [("ksp_type", "preonly")])).bind fun r =>
    (create (delete r.1 r.2) 5 none none).map fun r => r.2.solverOptions) = some [("ksp_type", "preonly")] := by decide +kernel

end Qugar.Py.Solve
