import Verif.Props.OrderCalled

/-!
# C105: models outside a problem have no influence on it
-/

namespace Sloth
open PyM

/-! ## Calls that write to one model only -/

/-- The other models, all quantities that were there and the problem are as before. -/
structure Only (m : MRef) (w w' : World) : Prop where
  ms : ∀ (j : MRef) (mo : ModelObj), j ≠ m → w.ms[j]? = some mo → w'.ms[j]? = some mo
  qs : ∀ (r : Ref) (q : Quantity), w.qs[r]? = some q → w'.qs[r]? = some q
  pr : w'.pr = w.pr

theorem only_pre (m : MRef) : PreRel (Only m) where
  refl := fun _ => ⟨fun _ _ _ h => h, fun _ _ h => h, rfl⟩
  trans := fun _ _ _ h h' => ⟨fun j mo hj hm => h'.ms j mo hj (h.ms j mo hj hm), fun r q hq => h'.qs r q (h.qs r q hq), h'.pr.trans h.pr⟩

namespace Only
variable (m : MRef)

theorem newQ (q : Quantity) : Pres (Only m) (newQ q) := fun w =>
  ⟨fun _ _ _ h => h, fun r x h => by
    have := (List.getElem?_eq_some_iff.mp h).1
    show (w.qs ++ [q])[r]? = some x
    rw [List.getElem?_append_left this, h], rfl⟩

theorem newE (e : EqObj) : Pres (Only m) (newE e) := fun _ => ⟨fun _ _ _ h => h, fun _ _ h => h, rfl⟩

theorem setM (mo : ModelObj) : Pres (Only m) (setM m mo) := fun w =>
  ⟨fun j x hj h => by
    show (w.ms.set m mo)[j]? = some x
    rw [List.getElem?_set_ne (Ne.symm hj), h], fun _ _ h => h, rfl⟩

theorem setP (p : PRef) (x : Ports) : Pres (Only m) (setP p x) := fun _ => ⟨fun _ _ _ h => h, fun _ _ h => h, rfl⟩

theorem newP (x : Ports) : Pres (Only m) (newP x) := fun _ => ⟨fun _ _ _ h => h, fun _ _ h => h, rfl⟩

theorem newM (mo : ModelObj) : Pres (Only m) (newM mo) := fun w =>
  ⟨fun j x _ h => by
    show (w.ms ++ [mo])[j]? = some x
    rw [List.getElem?_append_left (List.getElem?_eq_some_iff.mp h).1, h], fun _ _ h => h, rfl⟩

theorem tagIf (b : Bool) : Pres (Only m) (tagIf b) := fun w => by
  obtain ⟨t, u, h⟩ := tagIf_run b w
  rw [h]
  exact ⟨fun _ _ _ h => h, fun _ _ h => h, rfl⟩

theorem setAttr (a : String) (v : Attr) : Pres (Only m) (setAttr m a v) :=
  (only_pre m).bind ((only_pre m).getM m) fun _ => setM m _

theorem expose (mo : ModelObj) (r : Ref) (t : String) : Pres (Only m) (expose m mo r t) := by
  unfold Sloth.expose
  split
  · exact setM m _
  · split
    · exact setM m _
    · exact (only_pre m).raise _

theorem createVariable (a : VarArgs) : Pres (Only m) (createVariable m a) :=
  (only_pre m).bind ((only_pre m).getM m) fun _ => (only_pre m).bind (newQ m _) fun _ => (only_pre m).bind (setM m _) fun _ =>
    (only_pre m).bind ((only_pre m).when _ (expose m _ _ _)) fun _ => (only_pre m).ret _

theorem createParameter (a : ParArgs) : Pres (Only m) (createParameter m a) :=
  (only_pre m).bind ((only_pre m).getM m) fun _ => (only_pre m).bind (newQ m _) fun _ => (only_pre m).bind (setM m _) fun _ => (only_pre m).ret _

theorem createConstant (a : ParArgs) : Pres (Only m) (createConstant m a) :=
  (only_pre m).bind ((only_pre m).getM m) fun _ => (only_pre m).bind (newQ m _) fun _ => (only_pre m).bind (setM m _) fun _ => (only_pre m).ret _

theorem createEquation (n d : String) (a : Option ResArg) (c : Bool) : Pres (Only m) (createEquation m n d a c) :=
  have S := only_pre m
  S.bind (S.getM m) fun _ => S.bind (tagIf m _) fun _ => S.bind (tagIf m _) fun _ => S.bind (S.lift _) fun _ => S.bind (S.lift _) fun _ =>
    S.bind (S.when _ (S.lift _)) fun _ => S.bind (newE m _) fun _ => S.bind (setM m _) fun _ => S.ret _

theorem incorporate (s : MRef) (fl : IncFlags) : Pres (Only m) (incorporate m s fl) :=
  have S := only_pre m
  S.incorporate m s fl
    (fun _ => S.bind (S.getM m) fun _ => S.bind (S.getQ _) fun _ => S.bind (newQ m _) fun _ => S.bind (setM m _) fun _ => S.bind (S.when _ (S.raise _)) fun _ => setAttr m _ _)
    (fun _ => S.bind (S.getM m) fun _ => S.bind (S.getQ _) fun _ => S.bind (newQ m _) fun _ => S.bind (setM m _) fun _ => setAttr m _ _)
    (fun _ => S.bind (S.getM m) fun _ => S.bind (S.getQ _) fun _ => S.bind (newQ m _) fun _ => S.bind (setM m _) fun _ => setAttr m _ _)
    (fun _ _ _ => S.bind (S.getM m) fun _ => S.bind (S.getE _) fun _ => S.bind (S.lift _) fun _ => S.bind (newE m _) fun _ => S.bind (setM m _) fun _ => setAttr m _ _)

theorem setInlets (l : List MRef) (n : String) : Pres (Only m) (setInlets m l n) :=
  have S := only_pre m
  S.bind (S.getM m) fun _ => S.bind (S.getP _) fun _ => S.bind (setP m _ _) fun _ => setM m _

theorem createModelConnection (o i : List Ref) (a : ResArg) : Pres (Only m) (createModelConnection m o i a) :=
  have S := only_pre m
  S.bind (S.getM m) fun _ => S.bind (S.collect _ fun _ => S.getQ _) fun _ => S.bind (S.collect _ fun _ => S.getQ _) fun _ => S.bind (S.when _ (S.raise _)) fun _ =>
    S.bind (tagIf m _) fun _ => S.bind (S.lift _) fun _ => S.bind (tagIf m _) fun _ => S.bind (S.lift _) fun _ => S.bind (S.lift _) fun _ =>
    S.bind (newE m _) fun _ => S.bind (setM m _) fun _ => S.ret _

theorem newModel (n d : String) (b : Body) (p : Option PRef) : Pres (Only m) (newModel n d b p) :=
  (only_pre m).bind ((only_pre m).getP _) fun _ => newM m _

end Only

/-- The statement assigns no value and no domain. -/
def Cmd.quiet : Cmd → Bool
  | .setValue .. => false
  | .distribute _ => false
  | _ => true

/-- The body assigns no value and no domain. -/
def Body.quiet (b : Body) : Bool := (b.cons ++ b.pars ++ b.vars ++ b.eqns).all Cmd.quiet

namespace Only
variable (m : MRef)

theorem cmd {c : Cmd} (h : c.quiet = true) : Pres (Only m) (c.run m) := by
  have S := only_pre m
  cases c with
  | var a x => exact S.bind (createVariable m x) fun _ => setAttr m _ _
  | par a x => exact S.bind (createParameter m x) fun _ => setAttr m _ _
  | con a x => exact S.bind (createConstant m x) fun _ => setAttr m _ _
  | eqn a n d st c => exact S.bind (fun w => S.refl w) fun _ => S.bind (createEquation m n d _ c) fun _ => setAttr m _ _
  | setValue p v u => cases h
  | distribute p => cases h
  | fail e => exact S.raise e

theorem cmds {l : List Cmd} (h : ∀ c ∈ l, c.quiet = true) : Pres (Only m) (each l (Cmd.run m)) := by
  have S := only_pre m
  induction l with
  | nil => exact S.ret ()
  | cons a t ih => exact S.bind (cmd m (h a (by simp))) fun _ => ih fun c hc => h c (by simp [hc])

theorem totalizeInlets : Pres (Only m) (totalizeInlets m) := by
  have S := only_pre m
  have he : ∀ a d u l, Pres (Only m) (ensureInlet m a d u l) := fun a d u l => S.bind (S.getM m) fun _ => S.when _ (cmd m rfl)
  have hf : ∀ a l, Pres (Only m) (fixInlets m a l) := fun a l => S.each l fun s =>
    S.bind (S.lookupM s _) fun _ => S.bind (S.lift _) fun _ => S.bind (createEquation m _ _ _ _) fun _ => S.ret _
  have hn : ∀ a l, Pres (Only m) (inletNodes a l) := fun a l => S.collect l fun s => S.bind (S.lookupM s _) fun _ => S.ret _
  have ht : ∀ a ns st, Pres (Only m) (totalizeMin m a ns st) := fun a ns st => S.bind (S.lookupM m _) fun _ => S.bind (S.lift _) fun _ => S.bind (S.lift _) fun _ =>
    S.bind (createEquation m _ _ _ _) fun _ => setAttr m _ _
  exact S.bind (he _ _ _ _) fun _ => S.bind (he _ _ _ _) fun _ => S.bind (he _ _ _ _) fun _ => S.bind (he _ _ _ _) fun _ => S.bind (he _ _ _ _) fun _ =>
    S.bind (S.getM m) fun _ => S.bind (S.each _ fun s => incorporate m s _) fun _ => S.bind (S.getM m) fun _ => S.bind (S.getP _) fun _ =>
    S.when _ (S.bind (hn _ _) fun _ => S.bind (hf _ _) fun _ => S.bind (S.rethrow (hn _ _) _) fun _ => S.bind (S.rethrow (hf _ _) _) fun _ =>
      S.bind (ht _ _ _) fun _ => ht _ _ _)

theorem seq {α β : Type} {x : PyM α} {f : α → PyM β} {w : World} (hx : Only m w (x w).2) (hf : ∀ a w', x w = (.ok a, w') → Only m w' (f a w').2) :
    Only m w ((x >>= f) w).2 := by
  rw [PyM.bind_run]
  cases h : x w with
  | mk r w1 =>
    rw [h] at hx
    cases r with
    | ok a => exact (only_pre m).trans _ _ _ hx (hf a w1 h)
    | error e => exact hx

theorem call {w : World} {mo : ModelObj} (hm : w.ms[m]? = some mo) (h : mo.body.quiet = true) : Only m w (Model.call m w).2 := by
  have S := only_pre m
  unfold Body.quiet at h
  simp only [List.all_append, Bool.and_eq_true, List.all_eq_true] at h
  obtain ⟨⟨⟨h1, h2⟩, h3⟩, h4⟩ := h
  have hl : ∀ {l : List Cmd} {a b : World}, PyM.each l (Cmd.run m) a = (.ok (), b) → a.Le b := fun {l a b} e => by
    have := le_stable.cmds m l a
    rw [e] at this; exact this
  unfold Model.call
  rw [PyM.bind_of_ok (getM_of hm)]
  refine seq m (cmds m h1 w) fun ⟨⟩ w1 e1 => seq m (cmds m h2 w1) fun ⟨⟩ w2 e2 => seq m (cmds m h3 w2) fun ⟨⟩ w3 e3 => seq m (S.getM m w3) fun mo' w4 e4 => ?_
  obtain ⟨x, hx, hle⟩ := (((hl e1).trans (hl e2)).trans (hl e3)).ms m mo hm
  rw [getM_of hx] at e4; cases e4
  exact S.bind (S.when _ (totalizeInlets m)) (fun _ => cmds m (by rw [hle.body]; exact h4)) w3

end Only

/-! ## Resolving in two heaps -/

theorem Apartment.untouched {w v : World} {l : List MRef} (h : Apartment w l) (hv : v.WF) (hu : ∀ k ∈ l, ∀ mo, w.ms[k]? = some mo → Untouched mo.name w v) : Apartment v l := by
  cases l with
  | nil => exact ⟨hv, nofun, .nil⟩
  | cons a t =>
    obtain ⟨ma, hma⟩ := h.exists (k := a) (by simp)
    refine ⟨hv, fun k hk => ?_, h.names.mono (hu a (by simp) ma hma).le fun k hk => h.exists hk⟩
    obtain ⟨mo, hm⟩ := h.exists hk
    exact (h.sc k hk).mono h.wf hm (hu k hk mo hm)

/-- The calls end alike. -/
theorem calls_same {w : World} {l : List MRef} (h : Apartment w l) {u v : World} (hu : Apartment u l) (hv : Apartment v l)
    (hwu : ∀ k ∈ l, ∀ mo, w.ms[k]? = some mo → Untouched mo.name w u) (hwv : ∀ k ∈ l, ∀ mo, w.ms[k]? = some mo → Untouched mo.name w v) :
    (each l Model.call u).1 = (each l Model.call v).1 := by
  induction l generalizing u v with
  | nil => rfl
  | cons a t ih =>
    obtain ⟨ma, hma⟩ := h.exists (k := a) (by simp)
    have hs := sim_untouched h.wf (h.sc a (by simp)) hma (hwu a (by simp) ma hma) (hwv a (by simp) ma hma)
    have hn : ∀ {x : World}, Apartment x (a :: t) → (∀ k ∈ a :: t, ∀ mo, w.ms[k]? = some mo → Untouched mo.name w x) → ∀ k ∈ t, ∀ mo, w.ms[k]? = some mo →
        Untouched mo.name w (Model.call a x).2 := fun {x} hx hwx k hk mo hmo =>
      (hwx k (by simp [hk]) mo hmo).trans (call_untouched hx.wf (hx.sc a (by simp)) ((hwx a (by simp) ma hma).ms a ma hma rfl)
        ((List.pairwise_cons.mp h.names).1 k hk ma mo hma hmo))
    have hu1 := hu.call
    have hv1 := hv.call
    have nu := hn hu hwu
    have nv := hn hv hwv
    rw [each_cons, PyM.bind_run, PyM.bind_run]
    obtain ⟨L, -, -, -, -, h5⟩ := hs.call
    cases cu : Model.call a u with
    | mk x u1 =>
      cases cv : Model.call a v with
      | mk y v1 =>
        rw [cu] at h5 hu1 nu
        rw [cv] at h5 hv1 nv
        rcases h5.cases with ⟨e, e1, e2⟩ | ⟨_, _, e0, e1, e2⟩
        · cases e1; cases e2; rfl
        · cases e0; cases e1
          exact ih h.tail hu1 hv1 nu nv

/-- Every model has its twin when the calls are made in both heaps. -/
theorem calls_twins {w : World} {l : List MRef} (h : Apartment w l) {u v u1 v1 : World} (hu : Apartment u l) (hv : Apartment v l)
    (hwu : ∀ k ∈ l, ∀ mo, w.ms[k]? = some mo → Untouched mo.name w u) (hwv : ∀ k ∈ l, ∀ mo, w.ms[k]? = some mo → Untouched mo.name w v)
    (h1 : each l Model.call u = (.ok (), u1)) (h2 : each l Model.call v = (.ok (), v1)) :
    ∀ k ∈ l, ∃ L, Sim k k L u1 v1 ∧ ∀ mo r, w.ms[k]? = some mo → OwnId w mo.name r r → L r r := fun k hk => by
  obtain ⟨mo, hm⟩ := h.exists hk
  have tu := hwu k hk mo hm
  have tv := hwv k hk mo hm
  obtain ⟨up, uk, a1, a2, a3⟩ := each_split hu h1 hk (tu.ms k mo hm rfl)
  obtain ⟨vp, vk, b1, b2, b3⟩ := each_split hv h2 hk (tv.ms k mo hm rfl)
  obtain ⟨v', hv', L, k1, k2⟩ := (sim_untouched h.wf (h.sc k hk) hm (tu.trans a1) (tv.trans b1)).call_ok a2
  rw [b2] at hv'; cases hv'
  obtain ⟨mk, -, hmk, -, -⟩ := k2.mo
  have hnk : mk.name = mo.name := names_le ((tu.trans a1).le.trans (by have := le_stable.call k up; rw [a2] at this; exact this)) hm hmk
  refine ⟨L, k2.frame hmk (by rw [hnk]; exact a3) (by rw [hnk]; exact b3), fun mo' r hm' ho => ?_⟩
  rw [hm] at hm'; cases hm'
  exact k1 r r ho

theorem foldlM_error {α γ : Type} {f : γ → α → Except Err γ} {l : List α} {x : Err} (hf : ∀ a ∈ l, ∀ g e, f g a = .error e → e = x) (g : γ) {e : Err}
    (h : l.foldlM f g = .error e) : e = x := by
  induction l generalizing g with
  | nil => cases h
  | cons a t ih =>
    rw [List.foldlM_cons] at h
    cases hg : f g a with
    | error y =>
      rw [hg] at h
      cases h
      exact hf a (by simp) g e hg
    | ok g1 =>
      rw [hg] at h
      exact ih (fun b hb => hf b (by simp [hb])) g1 h

/-- The sweep fails for one reason only when every model has a twin. -/
theorem gather_error {w v : World} {l : List MRef} (h : ∀ k ∈ l, ∃ L, Sim k k L w v) {g0 : Gather} {e : Err} (hg : l.foldlM (Gather.model w) g0 = .error e) : e = .attributeError := by
  refine foldlM_error (fun k hk g e he => ?_) g0 hg
  obtain ⟨L, hs⟩ := h k hk
  obtain ⟨mo, no, h1, h2, h3⟩ := hs.mo
  unfold Gather.model at he
  rw [h1] at he
  refine foldlM_error (fun r hr g e he => ?_) g he
  obtain ⟨x, -, e1, f, g1, -, -, g4⟩ := (forall₂_exists h3.eqns.values).1 r hr
  unfold Gather.eqn at he
  rw [g1] at he
  simp only at he
  cases ho : e1.objects with
  | none =>
    rw [ho] at he
    cases he
    rfl
  | some d =>
    rw [ho] at he
    refine foldlM_error (fun y hy g e he => ?_) _ he
    rw [ho] at g4
    cases hf : f.objects with
    | none => rw [hf] at g4; cases g4
    | some d' =>
      rw [hf] at g4
      cases g4 with
      | some hd =>
        obtain ⟨z, -, q1, q2, n1, -⟩ := (forall₂_exists hd.values).1 y hy
        unfold Gather.obj at he
        rw [n1] at he
        simp only at he
        split at he
        · cases he
        · split at he <;> cases he

/-- The same equations of two heaps, in the same order. -/
def Spec.SameList (w v : World) (l l' : List ERef) : Prop := List.Forall₂ (Spec.SameEqnAt w v) l l'

/-- Two blocks of two heaps state the same system, in the same order. -/
structure Spec.SameBlock (w v : World) (b b' : Block) : Prop where
  equations : Spec.SameList w v b.equations b'.equations
  expressions : b.equationsList = b'.equationsList
  vars : b.variableDict = b'.variableDict
  pars : b.parameterDict = b'.parameterDict
  names : b.varList = b'.varList
  linear : Spec.SameList w v b.linear b'.linear
  nonlinear : Spec.SameList w v b.nonlinear b'.nonlinear
  differential : Spec.SameList w v b.differential b'.differential
  tail : b.linearTail = b'.linearTail

theorem Spec.SameList.of_twins {w v : World} {l l' : List ERef} (h : List.Forall₂ (EqTwin w v) l l') : Spec.SameList w v l l' :=
  h.imp fun _ _ ⟨e, f, h1, h2, h3, _⟩ => ⟨e, f, h1, h2, h3⟩

theorem Spec.SameBlock.system {w v : World} {b b' : Block} (h : Spec.SameBlock w v b b') : Spec.SameSystemIn w v b b' :=
  ⟨⟨_, h.equations, .refl _⟩, by rw [h.expressions], by rw [h.vars], by rw [h.pars], by rw [h.names], ⟨_, h.linear, .refl _⟩, ⟨_, h.nonlinear, .refl _⟩,
    ⟨_, h.differential, .refl _⟩, h.tail⟩

/-- Resolving in two heaps in which the models of the problem are as in a third: it ends alike, with the same system. -/
theorem resolve_twins {w u v : World} (h : Apartment w (dvalues w.pr.models)) (hpu : u.pr = w.pr) (hpv : v.pr = w.pr) (hu : u.WF) (hv : v.WF)
    (hwu : ∀ k ∈ dvalues w.pr.models, ∀ mo, w.ms[k]? = some mo → Untouched mo.name w u)
    (hwv : ∀ k ∈ dvalues w.pr.models, ∀ mo, w.ms[k]? = some mo → Untouched mo.name w v) :
    (resolve u).1 = (resolve v).1 ∧ ∀ u1, resolve u = (.ok (), u1) → ∃ v1 b b', resolve v = (.ok (), v1) ∧ u1.pr.block = some b ∧ v1.pr.block = some b' ∧
      u1.pr.timeName = v1.pr.timeName ∧ Spec.SameBlock u1 v1 b b' ∧ (∀ x ∈ b.parameterDict, x ∈ w.pr.parameterDict) ∧
      ∀ k ∈ dvalues w.pr.models, ∀ mo (r : Ref) (q : Quantity), w.ms[k]? = some mo → w.qs[r]? = some q → q.owner = mo.name →
        ∃ q1 q2, u1.qs[r]? = some q1 ∧ v1.qs[r]? = some q2 ∧ q1.Same q2 := by
  have au := h.untouched hu hwu
  have av := h.untouched hv hwv
  have hsame := calls_same h au av hwu hwv
  have eu : reloadModels u = each (dvalues w.pr.models) Model.call u := by
    show each (dvalues u.pr.models) Model.call u = _
    rw [hpu]
  have ev : reloadModels v = each (dvalues w.pr.models) Model.call v := by
    show each (dvalues v.pr.models) Model.call v = _
    rw [hpv]
  have pu := reloadModels_pr u
  have pv := reloadModels_pr v
  unfold resolve
  cases cu : each (dvalues w.pr.models) Model.call u with
  | mk x u1 =>
    cases cv : each (dvalues w.pr.models) Model.call v with
    | mk y v1 =>
      rw [cu, cv] at hsame
      rw [cu] at eu
      rw [cv] at ev
      rw [eu, hpu] at pu
      rw [ev, hpv] at pv
      simp only at hsame pu pv
      subst hsame
      cases x with
      | error e =>
        rw [PyM.bind_of_error eu, PyM.bind_of_error ev]
        exact ⟨rfl, fun u1 h => by cases h⟩
      | ok a =>
        cases a
        have ht := calls_twins h au av hwu hwv cu cv
        have hsim : ∀ k ∈ dvalues w.pr.models, ∃ L, Sim k k L u1 v1 := fun k hk => by
          obtain ⟨L, hL, -⟩ := ht k hk
          exact ⟨L, hL⟩
        rw [PyM.bind_of_ok eu, PyM.bind_of_ok ev]
        have hsim' : ∀ k ∈ dvalues w.pr.models, ∃ L, Sim k k L v1 u1 := fun k hk => by
          obtain ⟨L, hL, -⟩ := calls_twins h av au hwv hwu cv cu k hk
          exact ⟨L, hL⟩
        cases hg : (dvalues w.pr.models).foldlM (Gather.model u1) {} with
        | error e =>
          cases hg' : (dvalues w.pr.models).foldlM (Gather.model v1) {} with
          | ok g' =>
            obtain ⟨g, k⟩ := gather_twins hsim' hg'
            rw [hg] at k; cases k
          | error e' =>
            rw [PyM.bind_of_error (e := e) (w1 := u1) (by unfold buildEquationBlock; rw [pu, hg]), PyM.bind_of_error (e := e') (w1 := v1) (by unfold buildEquationBlock; rw [pv, hg']),
              gather_error hsim hg, gather_error hsim' hg']
            exact ⟨rfl, fun u1 h => by cases h⟩
        | ok g =>
          obtain ⟨g', hg'⟩ := gather_twins hsim hg
          have kg := Gather.gather (w := u1) (g := g) (by rw [pu]; exact hg)
          have kg' := Gather.gather (w := v1) (g := g') (by rw [pv]; exact hg')
          rw [pu] at kg
          rw [pv] at kg'
          have he := eqnsOf_twins hsim
          have hn : ∀ s, g.varNames.contains s = g'.varNames.contains s := fun s => by
            rw [Bool.eq_iff_iff, List.contains_iff_mem, List.contains_iff_mem, kg.2.1, kg'.2.1, namesOf_twins (objsOf_twins he)]
          have hn' : ∀ s, g.parNames.contains s = g'.parNames.contains s := fun s => by
            rw [Bool.eq_iff_iff, List.contains_iff_mem, List.contains_iff_mem, kg.2.2, kg'.2.2, namesOf_twins (objsOf_twins he)]
          rw [← kg.1, ← kg'.1] at he
          rw [PyM.bind_of_ok (a := ()) (by unfold buildEquationBlock; rw [pu, hg]), PyM.bind_of_ok (a := ()) (by unfold buildEquationBlock; rw [pv, hg'])]
          unfold callBlock
          simp only [Block.call, Block.mk', Block.assignGroups]
          rw [← getEquationList_twins he]
          cases hl : Block.getEquationList u1.es none .rhs g.eqs with
          | error e => exact ⟨rfl, fun u1 h => by cases h⟩
          | ok ss =>
            refine ⟨rfl, fun u2 h => ?_⟩
            cases h
            refine ⟨_, _, _, rfl, rfl, rfl, rfl, ⟨.of_twins he, rfl, ?_, ?_, ?_, .of_twins (group_twins he), .of_twins (group_twins he), .of_twins (group_twins he), rfl⟩, ?_, ?_⟩
            · simp only [hn]
            · simp only [hn']
            · simp only [hn]
            · intro x hx
              exact (List.mem_filter.mp hx).1
            · intro k hk mo r q hm hq ho
              obtain ⟨L, b1, b2⟩ := ht k hk
              exact b1.same r r (b2 mo r hm ⟨rfl, q, hq, ho⟩)

/-! ## Sessions that concern other models -/

/-- The parameters the problem knows belong to models of names it knows. -/
def World.Owners (w : World) (p : ProblemObj) : Prop := ∀ x ∈ p.parameterDict, ∃ q, w.qs[x.2]? = some q ∧ q.owner ∈ dkeys p.models

theorem owners_stable : Stable { pr := fun _ => True } (fun w w' => w.WF ∧ w.Owners w.pr → w'.WF ∧ w'.Owners w'.pr) :=
  prInv_stable (fun _ => True) World.Owners (fun w w' p h hp x hx => by
    obtain ⟨q, h1, h2⟩ := hp x hx
    obtain ⟨q', h3, h4⟩ := h.qs _ _ h1
    exact ⟨q', h3, by rw [h4.owner]; exact h2⟩) (fun w k p _ hw hs hp => by
    cases hs with
    | model m mo hm =>
      intro x hx
      rcases mem_dupdate hx with hx | hx
      · obtain ⟨q, h1, h2⟩ := hp x hx
        exact ⟨q, h1, (mem_dkeys_dset ..).mpr (.inr h2)⟩
      · obtain ⟨q, h1, -, -, h4⟩ := (hw.ms m mo hm).pars.2 x hx
        exact ⟨q, h1, (mem_dkeys_dset ..).mpr (.inl h4)⟩
    | time l => exact hp
    | initial c => exact hp
    | conn k r => exact hp
    | build g h => exact hp
    | call b b' h h' => exact hp)

theorem reachable_owners {w : World} (h : Reachable w) : w.Owners w.pr := by
  obtain ⟨ops, rfl⟩ := h
  exact (owners_stable.history ops (fun o _ => by cases o <;> simp [Op.Allowed]) World.init ⟨init_wf, fun x hx => by simp [World.init] at hx⟩).2

/-- The model is none of the problem's, by its name. -/
def Spec.Elsewhere (w : World) (m : MRef) : Prop := ∀ mo, w.ms[m]? = some mo → mo.name ∉ dkeys w.pr.models

/-- The call concerns models the problem does not hold: it makes a new model or a new dictionary of ports, or it declares something in a model of another name,
incorporates into it, sets its inlets or calls it, or it sets the value of a quantity of such a model.  The body of a model that is called (the statement that is
run) assigns no values or domains, or the model is self-contained. -/
def Spec.Bystander (w : World) : Op → Prop
  | .newPorts => True
  | .newModel .. => True
  | .var m _ => Spec.Elsewhere w m
  | .par m _ => Spec.Elsewhere w m
  | .con m _ => Spec.Elsewhere w m
  | .eqn m .. => Spec.Elsewhere w m
  | .cmd m c => Spec.Elsewhere w m ∧ (c.quiet = true ∨ Spec.SelfContained w m ∧ c.Alike c)
  | .setValue r _ _ => ∀ q, w.qs[r]? = some q → q.owner ∉ dkeys w.pr.models
  | .incorporate m _ _ => Spec.Elsewhere w m
  | .setInlets m _ _ => Spec.Elsewhere w m
  | .modelConn m .. => Spec.Elsewhere w m
  | .call m => Spec.Elsewhere w m ∧ ((∀ mo, w.ms[m]? = some mo → mo.body.quiet = true) ∨ Spec.SelfContained w m)
  | _ => False

/-- All calls of the session concern models the problem does not hold. -/
def Spec.Bystanders (w : World) : List Op → Prop
  | [] => True
  | o :: t => Spec.Bystander w o ∧ Spec.Bystanders (o.run w).2 t

theorem Only.untouched {m : MRef} {w w' : World} (h : Only m w w') (hl : w.Le w') (hm : Spec.Elsewhere w m) {nm : String} (hn : nm ∈ dkeys w.pr.models) : Untouched nm w w' :=
  ⟨hl, fun j mo hj hjn => h.ms j mo (by
    rintro rfl
    exact hm mo hj (by rw [hjn]; exact hn)) hj, fun r q hq _ => h.qs r q hq⟩

theorem Step.untouched {m : MRef} {w w' : World} {D : Ref → Prop} {nm nm' : String} {mo : ModelObj} (hm : w.ms[m]? = some mo)
    (h : Step m (fun r => ∃ s, OwnId w nm' r s) w w' D) (hmn : mo.name = nm') (hn : nm' ≠ nm) : Untouched nm w w' := by
  refine ⟨h.le, fun j x hx hj => (h.ms j ?_).trans hx, fun r q hq ho => ?_⟩
  · rintro rfl
    rw [hm] at hx; cases hx
    exact hn (hmn.symm.trans hj)
  · rw [h.qs r (List.getElem?_eq_some_iff.mp hq).1, hq]
    rintro ⟨s, -, q', hq', ho'⟩
    rw [hq] at hq'; cases hq'
    exact hn (ho'.symm.trans ho)

/-- A call that concerns other models leaves the problem and models of the names it holds alone. -/
theorem bystander_untouched {w : World} (hw : w.WF) {o : Op} (h : Spec.Bystander w o) {nm : String} (hn : nm ∈ dkeys w.pr.models) : Untouched nm w (o.run w).2 := by
  have hl : w.Le (o.run w).2 := le_stable.op o (by cases o <;> simp [Op.Allowed]) w
  have out : ∀ m, Spec.Elsewhere w m → Pres (Only m) o.run → Untouched nm w (o.run w).2 := fun m hm hp => (hp w).untouched hl hm hn
  cases o with
  | newPorts => exact out w.ms.length (fun mo hmo => by simp at hmo) ((only_pre _).void (Only.newP _ _))
  | newModel n d b p => exact out w.ms.length (fun mo hmo => by simp at hmo) ((only_pre _).void (Only.newModel _ n d b p))
  | var m a => exact out m h ((only_pre m).void (Only.createVariable m a))
  | par m a => exact out m h ((only_pre m).void (Only.createParameter m a))
  | con m a => exact out m h ((only_pre m).void (Only.createConstant m a))
  | eqn m n d a c => exact out m h ((only_pre m).void (Only.createEquation m n d a c))
  | cmd m c =>
    obtain ⟨h1, h2 | ⟨h2, h3⟩⟩ := h
    · exact out m h1 (Only.cmd m h2)
    · obtain ⟨mo, hm, -⟩ := id h2
      obtain ⟨L, -, -, k, -, -⟩ := (sim_untouched hw h2 hm (.refl _ _) (.refl _ _)).run h3
      exact k.untouched hm rfl fun e => h1 mo hm (by rw [e]; exact hn)
  | setValue r v u =>
    refine ⟨hl, fun j mo hj _ => ?_, fun i q hq ho => ?_⟩
    · show (setValueM r v u w).2.ms[j]? = some mo
      rcases setValueM_run r v u w with ⟨x, hx⟩ | ⟨q, q', hq, hs, hx⟩ <;> rw [hx] <;> exact hj
    · show (setValueM r v u w).2.qs[i]? = some q
      rcases setValueM_run r v u w with ⟨x, hx⟩ | ⟨p, p', hp, hs, hx⟩ <;> rw [hx]
      · exact hq
      · have : r ≠ i := by
          rintro rfl
          rw [hq] at hp; cases hp
          exact h q hq (by rw [ho]; exact hn)
        simp only
        rw [List.getElem?_set_ne this, hq]
  | incorporate m s fl => exact out m h (Only.incorporate m s fl)
  | setInlets m l n => exact out m h (Only.setInlets m l n)
  | modelConn m o i a => exact out m h ((only_pre m).void (Only.createModelConnection m o i a))
  | call m =>
    obtain ⟨h1, h2 | h2⟩ := h
    · cases hm : w.ms[m]? with
      | none =>
        have : (Op.call m).run w = (.error (.exception "dangling"), w) := by
          show Model.call m w = _
          unfold Model.call
          rw [PyM.bind_of_error (getM_none hm)]
        rw [this]
        exact .refl _ _
      | some mo => exact (Only.call m hm (h2 mo hm)).untouched hl h1 hn
    · obtain ⟨mo, hm, -⟩ := id h2
      exact call_untouched hw h2 hm fun e => h1 mo hm (by rw [e]; exact hn)
  | connect s m o i a => exact h.elim
  | addModels t => exact h.elim
  | initial c => exact h.elim
  | time n => exact h.elim
  | resolve => exact h.elim

theorem bystander_pr {w : World} {o : Op} (h : Spec.Bystander w o) : (o.run w).2.pr = w.pr :=
  samePr_stable.op o (by cases o <;> simp_all [Op.Allowed, Spec.Bystander]) w

theorem bystanders_untouched {w : World} (hw : w.WF) {ops : List Op} (h : Spec.Bystanders w ops) :
    (history ops w).WF ∧ (history ops w).pr = w.pr ∧ ∀ nm ∈ dkeys w.pr.models, Untouched nm w (history ops w) := by
  induction ops generalizing w with
  | nil => exact ⟨hw, rfl, fun _ _ => .refl _ _⟩
  | cons o t ih =>
    have hp := bystander_pr h.1
    have hw1 : (o.run w).2.WF := (wf_elem.stable trivial).op o (by cases o <;> simp [Op.Allowed]) w hw
    obtain ⟨h1, h2, h3⟩ := ih hw1 h.2
    exact ⟨h1, h2.trans hp, fun nm hn => (bystander_untouched hw h.1 hn).trans (h3 nm (by rw [hp]; exact hn))⟩

/-- C105: whatever is done with models the problem does not hold, the problem of self-contained models resolves (or fails to) as before: it ends with the same
exception or with a block of the same equations, expressions, variables, parameters and groups in the same order, the problem is of the same type, the test of
the degrees of freedom has the same outcome, and the quantities of its models agree. -/
theorem bystanders_no_influence {w : World} (hr : Reachable w) (hsc : ∀ m ∈ dvalues w.pr.models, Spec.SelfContained w m) {ops : List Op} (hb : Spec.Bystanders w ops) :
    (resolve w).1 = (resolve (history ops w)).1 ∧
    ∀ w1, resolve w = (.ok (), w1) → ∃ v1 b b', resolve (history ops w) = (.ok (), v1) ∧ w1.pr.block = some b ∧ v1.pr.block = some b' ∧ Spec.SameBlock w1 v1 b b' ∧
      b.problemType = b'.problemType ∧ (∀ sr, (dofTest sr w1).1 = (dofTest sr v1).1) ∧
      ∀ (r : Ref) (q : Quantity), w.qs[r]? = some q → q.owner ∈ dkeys w.pr.models → ∃ q1 q2, w1.qs[r]? = some q1 ∧ v1.qs[r]? = some q2 ∧ q1.Same q2 := by
  have hw := reachable_wf hr
  have hp := reachable_problem hr
  have ho := reachable_owners hr
  obtain ⟨k1, k2, k3⟩ := bystanders_untouched hw hb
  have hnames : ∀ nm ∈ dkeys w.pr.models, ∃ k ∈ dvalues w.pr.models, ∃ mo, w.ms[k]? = some mo ∧ mo.name = nm := fun nm hn => by
    obtain ⟨x, hx, rfl⟩ := List.mem_map.mp hn
    obtain ⟨mo, h1, h2⟩ := hp.models.2 x hx
    exact ⟨x.2, List.mem_map.mpr ⟨x, hx, rfl⟩, mo, h1, h2⟩
  have hmem : ∀ k ∈ dvalues w.pr.models, ∀ mo, w.ms[k]? = some mo → mo.name ∈ dkeys w.pr.models := fun k hk mo hm => by
    obtain ⟨x, hx, rfl⟩ := List.mem_map.mp hk
    obtain ⟨mo', h1, h2⟩ := hp.models.2 x hx
    rw [hm] at h1; cases h1
    rw [h2]
    exact List.mem_map.mpr ⟨x, hx, rfl⟩
  have hap : Apartment w (dvalues w.pr.models) := by
    refine ⟨hw, hsc, pairwise_of_values ?_⟩
    have hn : w.pr.models.Pairwise fun x y => x.1 ≠ y.1 := List.pairwise_map.mp hp.models.1
    refine hn.imp_of_mem fun {x y} hx hy hxy ma mb hma hmb => ?_
    obtain ⟨m1, a1, a2⟩ := hp.models.2 x hx
    obtain ⟨m2, b1, b2⟩ := hp.models.2 y hy
    rw [hma] at a1; cases a1
    rw [hmb] at b1; cases b1
    rw [a2, b2]
    exact hxy
  obtain ⟨h1, h2⟩ := resolve_twins hap rfl k2 hw k1 (fun _ _ _ _ => .refl _ _) fun k hk mo hm => k3 _ (hmem k hk mo hm)
  refine ⟨h1, fun w1 hw1 => ?_⟩
  obtain ⟨v1, b, b', a1, a2, a3, a4, a5, a6, a7⟩ := h2 w1 hw1
  have hq : ∀ (r : Ref) (q : Quantity), w.qs[r]? = some q → q.owner ∈ dkeys w.pr.models → ∃ q1 q2, w1.qs[r]? = some q1 ∧ v1.qs[r]? = some q2 ∧ q1.Same q2 := fun r q hq hn => by
    obtain ⟨k, hk, mo, hm, hmn⟩ := hnames _ hn
    exact a7 k hk mo r q hm hq hmn.symm
  refine ⟨v1, b, b', a1, a2, a3, a5, a5.system.problemType, fun sr => ?_, hq⟩
  unfold dofTest
  rw [a2, a3]
  simp only
  rw [a4, a5.system.timeDeclared, a5.names, a5.expressions, unspecParams_twins (w := w1) (v := v1), a5.pars]
  · split
    · rfl
    · split <;> rfl
  · intro r hr
    obtain ⟨x, hx, rfl⟩ := List.mem_map.mp hr
    obtain ⟨q, b1, b2⟩ := ho x (a6 x hx)
    obtain ⟨q1, q2, c1, c2, c3⟩ := hq x.2 q b1 b2
    exact ⟨q1, q2, c1, c2, c3.isSpecified⟩

/-! ## Cases -/

/-- A test for `Spec.Elsewhere`. -/
def Ex.away (w : World) (m : MRef) : Bool :=
  match w.ms[m]? with
  | none => true
  | some mo => !(dkeys w.pr.models).contains mo.name

theorem Ex.away_sound {w : World} {m : MRef} (h : Ex.away w m = true) : Spec.Elsewhere w m := fun mo hm hn => by
  unfold Ex.away at h
  rw [hm] at h
  simp only [Bool.not_eq_true', List.contains_eq_mem, decide_eq_false_iff_not] at h
  exact h hn

/-- A test for the calls made below. -/
def Ex.guest (w : World) : Op → Bool
  | .newModel .. => true
  | .par m _ => Ex.away w m
  | .setValue r _ _ => match w.qs[r]? with
    | none => true
    | some q => !(dkeys w.pr.models).contains q.owner
  | .call m => Ex.away w m && match w.ms[m]? with
    | none => true
    | some mo => mo.body.quiet || (decide (mo.body = Ex.tank "" "" none) && Ex.contained w m)
  | _ => false

theorem Ex.guest_sound {w : World} {o : Op} (h : Ex.guest w o = true) : Spec.Bystander w o := by
  cases o with
  | newModel => trivial
  | par m a => exact Ex.away_sound h
  | setValue r v u =>
    intro q hq hn
    simp only [Ex.guest, hq, Bool.not_eq_true', List.contains_eq_mem, decide_eq_false_iff_not] at h
    exact h hn
  | call m =>
    simp only [Ex.guest, Bool.and_eq_true] at h
    refine ⟨Ex.away_sound h.1, ?_⟩
    have h2 := h.2
    cases hm : w.ms[m]? with
    | none => exact .inl nofun
    | some mo =>
      rw [hm] at h2
      simp only [Bool.or_eq_true, Bool.and_eq_true, decide_eq_true_eq] at h2
      rcases h2 with h2 | ⟨h2, h3⟩
      · exact .inl fun x hx => by cases hx; exact h2
      · exact .inr (Ex.contained_sound h3 fun x hx => by rw [hm] at hx; cases hx; rw [h2]; exact Ex.tank_alike _ _ _ _ _ _)
  | _ => simp [Ex.guest] at h

def Ex.guests (w : World) : List Op → Bool
  | [] => true
  | o :: t => Ex.guest w o && Ex.guests (o.run w).2 t

theorem Ex.guests_sound {w : World} {ops : List Op} (h : Ex.guests w ops = true) : Spec.Bystanders w ops := by
  induction ops generalizing w with
  | nil => trivial
  | cons o t ih =>
    simp only [Ex.guests, Bool.and_eq_true] at h
    exact ⟨Ex.guest_sound h.1, ih h.2⟩

/-- Two tanks in a problem. -/
def Ex.hosted : List Op := Ex.tanks ++ [.addModels (.list [.leaf 0, .leaf 1])]

/-- A third tank is made, called, given another parameter and a value, and a model that reads the level of the first tank is made and called. -/
def Ex.party : List Op := [.newModel "c" "" (Ex.tank "" "" none) none, .call 2, .par 2 { name := "k", units := Tmpl.dimless }, .setValue 9 (.float 5) none,
  .newModel "d" "" { vars := [Ex.dv "y"], eqns := [.eqn "e" "e" "" (.eqn (Ex.at_ "y") (.q { model := some 0, attr := "h" })) false] } none, .call 3]

example : ∃ w1, Reachable (history Ex.hosted World.init) ∧ (∀ m ∈ dvalues (history Ex.hosted World.init).pr.models, Spec.SelfContained (history Ex.hosted World.init) m) ∧
    Spec.Bystanders (history Ex.hosted World.init) Ex.party ∧ resolve (history Ex.hosted World.init) = (.ok (), w1) ∧
    (history Ex.hosted World.init).qs.length = 8 ∧ (history Ex.party (history Ex.hosted World.init)).qs.length = 14 ∧
    (history Ex.party (history Ex.hosted World.init)).es.length = 4 ∧ (w1.pr.block.map fun b => b.equations.length) = some 2 := by
  refine ⟨_, ⟨_, rfl⟩, ?_, Ex.guests_sound (by decide +kernel), run_ok (by decide +kernel), by decide +kernel, by decide +kernel, by decide +kernel, by decide +kernel⟩
  have h : ((history Ex.hosted World.init).ms.map fun mo => mo.body) = [Ex.tank "" "" none, Ex.tank "" "" none] := by decide +kernel
  have hp : dvalues (history Ex.hosted World.init).pr.models = [0, 1] := by decide +kernel
  have hc : ∀ m ∈ [0, 1], Ex.contained (history Ex.hosted World.init) m = true := by decide +kernel
  intro m hm
  rw [hp] at hm
  refine Ex.contained_sound (hc m hm) fun mo hmo => ?_
  have : mo.body ∈ (history Ex.hosted World.init).ms.map fun mo => mo.body := List.mem_map.mpr ⟨mo, List.mem_of_getElem? hmo, rfl⟩
  rw [h] at this
  simp only [List.mem_cons, List.not_mem_nil, or_false, or_self] at this
  rw [this]
  exact Ex.tank_alike _ _ _ _ _ _

/-- A parameter without a value. -/
def Ex.loose : Body where
  pars := [.par "p" { name := "p", units := Tmpl.dimless }]
  vars := [Ex.dv "x"]
  eqns := [.eqn "e" "e" "" (.eqn (Ex.at_ "x") (Ex.at_ "p")) true]

theorem Ex.loose_alike : Ex.loose.Alike Ex.loose where
  cons := .nil
  pars := .cons (.par _ rfl rfl rfl) .nil
  vars := .cons (.var _ rfl rfl rfl rfl rfl) .nil
  eqns := .cons (.eqn _ _ _ _ (by decide) ⟨rfl, rfl⟩) .nil

/-- A problem of one model, and another model that assigns a value to the first one's parameter. -/
def Ex.meddled : List Op := [.newModel "a" "" Ex.loose none, .newModel "c" "" { vars := [.setValue { model := some 0, attr := "p" } (.float 3) none] } none, .call 0, .addModels (.leaf 0)]

/-- A model outside the problem that assigns values to quantities of the problem's models does influence it, although they are self-contained: the test of the
degrees of freedom changes its outcome. -/
theorem meddling_influences : ∃ w, Reachable w ∧ (∀ m ∈ dvalues w.pr.models, Spec.SelfContained w m) ∧ Spec.Elsewhere w 1 ∧
    (dofTest (fun _ => []) (resolve w).2).1 = .error (.exception "UNDER") ∧ (dofTest (fun _ => []) (resolve (history [.call 1] w)).2).1 = .ok () := by
  refine ⟨history Ex.meddled World.init, ⟨_, rfl⟩, ?_, Ex.away_sound (by decide +kernel), by decide +kernel, by decide +kernel⟩
  have h : ((history Ex.meddled World.init).ms[0]?.map fun mo => mo.body) = some Ex.loose := by decide +kernel
  have hp : dvalues (history Ex.meddled World.init).pr.models = [0] := by decide +kernel
  have hc : Ex.contained (history Ex.meddled World.init) 0 = true := by decide +kernel
  intro m hm
  rw [hp] at hm
  simp only [List.mem_singleton] at hm
  subst hm
  refine Ex.contained_sound hc fun mo hmo => ?_
  rw [hmo] at h
  simp only [Option.map_some, Option.some.injEq] at h
  rw [h]
  exact Ex.loose_alike

end Sloth
