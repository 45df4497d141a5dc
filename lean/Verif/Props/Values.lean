import Verif.Props.Blocks
import Verif.Props.Resolve
import Verif.Props.Several

/-!
# Values given to quantities and the system that is solved (C93)

Expressions take the values of specified quantities when they are evaluated.  `resolve` evaluates the statements of the declaration methods again, so that
values given in between reach the solver; statements made from outside are not evaluated again.
-/

namespace Sloth
open PyM UnitObj

/-! ## What is to be shown -/

/-- The quantity a name in the body of model `m` refers to now. -/
def Spec.named (w : World) (m : MRef) (p : APath) : Option Quantity :=
  (w.ms[p.model.getD m]?).bind fun mo => (dget mo.attrs p.attr).bind fun a => match a with
    | .qty r => w.qs[r]?
    | .eqn _ => none

section
variable {K : Type} [Field K] [LinearOrder K]

/-- The value of an expression with the values the quantities have now. -/
def Spec.now (I : Interp K) (w : World) (m : MRef) (ρ : Atom → K) : AExpr → Option K
  | .q p => (Spec.named w m p).map fun q => if q.isSpecified then (q.value : K) else ρ (.v q.name)
  | .bin op a b => do Spec.opVal I op (← Spec.now I w m ρ a) (← Spec.now I w m ρ b)
  | .binN op a n => do Spec.opVal I op (← Spec.now I w m ρ a) (n : K)
  | .nbin op n a => do Spec.opVal I op (n : K) (← Spec.now I w m ρ a)
  | .fn f a => do I.fn f (← Spec.now I w m ρ a)
  | .mmN isMax a n => do
    let x ← Spec.now I w m ρ a
    some (if isMax then max x (n : K) else min x (n : K))
  | .diff x t => do
    let q ← Spec.named w m x
    let u ← Spec.named w m (t.getD x)
    some (if q.isSpecified then 0 else ρ (.d q.name u.name))

/-- What is handed to a solver for a statement: the expression, or the right side of an equality (C49). -/
def Spec.handedNow (I : Interp K) (w : World) (m : MRef) (ρ : Atom → K) : AStmt → Option K
  | .res e => Spec.now I w m ρ e
  | .eqn _ r => Spec.now I w m ρ r
  | .eqnNum _ q => some (q : K)
end

/-- The quantities of the model are declared when it is made; its methods only state equations. -/
def Spec.Equational (w : World) (m : MRef) : Prop :=
  ∃ mo, w.ms[m]? = some mo ∧ mo.inlets = [] ∧ mo.body.cons = [] ∧ mo.body.pars = [] ∧ mo.body.vars = [] ∧
    ∀ c ∈ mo.body.eqns, ∃ attr name d st ck, c = .eqn attr name d st ck

/-! ## Looking up -/

theorem lookup_named {w : World} {m : MRef} {p : APath} {x : Ref × Quantity} (h : w.lookup m p = .ok x) : Spec.named w m p = some x.2 := by
  unfold World.lookup at h
  unfold Spec.named
  split at h
  · simp at h
  · next mo hm =>
    rw [hm]
    split at h
    · simp at h
    · simp at h
    · next r ha =>
      split at h
      · simp at h
      · next q hq =>
        simp only [Except.ok.injEq] at h
        simp [ha, hq, ← h]

theorem toPy_now {K : Type} [Field K] [LinearOrder K] (I : Interp K) {w : World} {m : MRef} (ρ : Atom → K) {a : AExpr} {e : PyExpr}
    (h : a.toPy w m = .ok e) : Spec.val I ρ e = Spec.now I w m ρ a := by
  induction a generalizing e with
  | q p =>
    simp only [AExpr.toPy, bind_eq_ok, Except.ok.injEq] at h
    obtain ⟨x, hx, rfl⟩ := h
    simp [Spec.val, Spec.now, lookup_named hx, Spec.qVal]
  | bin op a b iha ihb =>
    simp only [AExpr.toPy, bind_eq_ok, Except.ok.injEq] at h
    obtain ⟨x, hx, y, hy, rfl⟩ := h
    simp [Spec.val, Spec.now, iha hx, ihb hy]
  | binN op a n iha =>
    simp only [AExpr.toPy, bind_eq_ok, Except.ok.injEq] at h
    obtain ⟨x, hx, rfl⟩ := h
    simp [Spec.val, Spec.now, iha hx]
  | nbin op n a iha =>
    simp only [AExpr.toPy, bind_eq_ok, Except.ok.injEq] at h
    obtain ⟨x, hx, rfl⟩ := h
    simp [Spec.val, Spec.now, iha hx]
  | fn f a iha =>
    simp only [AExpr.toPy, bind_eq_ok, Except.ok.injEq] at h
    obtain ⟨x, hx, rfl⟩ := h
    simp [Spec.val, Spec.now, iha hx]
  | mmN k a n iha =>
    simp only [AExpr.toPy, bind_eq_ok, Except.ok.injEq] at h
    obtain ⟨x, hx, rfl⟩ := h
    simp [Spec.val, Spec.now, iha hx]
  | diff x t =>
    cases t with
    | none =>
      simp only [AExpr.toPy, bind_eq_ok, Except.ok.injEq] at h
      obtain ⟨x, hx, rfl⟩ := h
      simp [Spec.val, Spec.now, lookup_named hx]
    | some t =>
      simp only [AExpr.toPy, bind_eq_ok, Except.ok.injEq] at h
      obtain ⟨x, hx, y, hy, rfl⟩ := h
      obtain ⟨yr, y⟩ := y
      simp [Spec.val, Spec.now, lookup_named hx, lookup_named hy]

theorem toStmt_now {K : Type} [Field K] [LinearOrder K] (I : Interp K) {w : World} {m : MRef} (ρ : Atom → K) {a : AStmt} {st : Stmt}
    (h : a.toStmt w m = .ok st) : Spec.sideVal I ρ .rhs st = Spec.handedNow I w m ρ a := by
  cases a with
  | eqn l r =>
    simp only [AStmt.toStmt, bind_eq_ok, Except.ok.injEq] at h
    obtain ⟨x, hx, y, hy, rfl⟩ := h
    exact toPy_now I ρ hy
  | eqnNum l q =>
    simp only [AStmt.toStmt, bind_eq_ok, Except.ok.injEq] at h
    obtain ⟨x, hx, rfl⟩ := h
    rfl
  | res e =>
    simp only [AStmt.toStmt, bind_eq_ok, Except.ok.injEq] at h
    obtain ⟨x, hx, rfl⟩ := h
    exact toPy_now I ρ hx

/-! ## Stating equations -/

/-- Quantities are as before and no attribute became a quantity. -/
structure Stated (w w' : World) : Prop where
  qs : w'.qs = w.qs
  len : w'.ms.length = w.ms.length
  ms : ∀ (k : MRef) (mo : ModelObj), w.ms[k]? = some mo → ∃ mo', w'.ms[k]? = some mo' ∧ mo'.name = mo.name ∧ mo'.body = mo.body ∧
    mo'.inlets = mo.inlets ∧ ∀ a r, dget mo'.attrs a = some (.qty r) → dget mo.attrs a = some (.qty r)

theorem Stated.refl (w : World) : Stated w w := ⟨rfl, rfl, fun _ mo h => ⟨mo, h, rfl, rfl, rfl, fun _ _ h => h⟩⟩

theorem Stated.trans {a b c : World} (h : Stated a b) (h' : Stated b c) : Stated a c :=
  ⟨h'.qs.trans h.qs, h'.len.trans h.len, fun k mo hk => by
    obtain ⟨mo1, h1, a1, a2, a3, a4⟩ := h.ms k mo hk
    obtain ⟨mo2, h2, b1, b2, b3, b4⟩ := h'.ms k mo1 h1
    exact ⟨mo2, h2, b1.trans a1, b2.trans a2, b3.trans a3, fun x r hx => a4 x r (b4 x r hx)⟩⟩

theorem Stated.lookup {w w' : World} (h : Stated w w') {m : MRef} {p : APath} {x : Ref × Quantity} (hx : w'.lookup m p = .ok x) :
    w.lookup m p = .ok x := by
  unfold World.lookup at hx ⊢
  cases hm : w.ms[p.model.getD m]? with
  | none =>
    have : w'.ms[p.model.getD m]? = none := by
      rw [List.getElem?_eq_none_iff] at hm ⊢
      rw [h.len]; exact hm
    rw [this] at hx; cases hx
  | some mo =>
    obtain ⟨mo', h1, _, _, _, h2⟩ := h.ms _ mo hm
    rw [h1] at hx
    simp only at hx ⊢
    split at hx
    · cases hx
    · cases hx
    · next r ha => rw [h2 _ _ ha]; rw [h.qs] at hx; exact hx

theorem Stated.toPy {w w' : World} (h : Stated w w') {m : MRef} {a : AExpr} {e : PyExpr} (he : a.toPy w' m = .ok e) : a.toPy w m = .ok e := by
  induction a generalizing e with
  | q p =>
    simp only [AExpr.toPy, bind_eq_ok] at he ⊢
    obtain ⟨x, hx, he⟩ := he
    exact ⟨x, h.lookup hx, he⟩
  | bin op a b iha ihb =>
    simp only [AExpr.toPy, bind_eq_ok] at he ⊢
    obtain ⟨x, hx, y, hy, he⟩ := he
    exact ⟨x, iha hx, y, ihb hy, he⟩
  | diff x t =>
    cases t with
    | none =>
      simp only [AExpr.toPy, bind_eq_ok] at he ⊢
      obtain ⟨x, hx, he⟩ := he
      exact ⟨x, h.lookup hx, he⟩
    | some t =>
      simp only [AExpr.toPy, bind_eq_ok] at he ⊢
      obtain ⟨x, hx, y, hy, he⟩ := he
      exact ⟨x, h.lookup hx, y, h.lookup hy, he⟩
  | _ =>
    rename_i ih
    simp only [AExpr.toPy, bind_eq_ok] at he ⊢
    obtain ⟨x, hx, he⟩ := he
    exact ⟨x, ih hx, he⟩

theorem Stated.toStmt {w w' : World} (h : Stated w w') {m : MRef} {a : AStmt} {st : Stmt} (he : a.toStmt w' m = .ok st) : a.toStmt w m = .ok st := by
  cases a with
  | eqn l r =>
    simp only [AStmt.toStmt, bind_eq_ok] at he ⊢
    obtain ⟨x, hx, y, hy, he⟩ := he
    exact ⟨x, h.toPy hx, y, h.toPy hy, he⟩
  | _ =>
    simp only [AStmt.toStmt, bind_eq_ok] at he ⊢
    obtain ⟨x, hx, he⟩ := he
    exact ⟨x, h.toPy hx, he⟩

/-- What a statement in the body of a model that returns has done. -/
theorem eqn_run {w w' : World} {m : MRef} {attr n d : String} {st : AStmt} {ck : Bool} (h : (Cmd.eqn attr n d st ck).run m w = (.ok (), w')) :
    ∃ (mo mo' : ModelObj) (st' : Stmt) (e : EqObj), w.ms[m]? = some mo ∧ st.toStmt w m = .ok st' ∧ e.States st' ∧
      w'.es = w.es ++ [e] ∧ w'.qs = w.qs ∧ w'.ms = w.ms.set m mo' ∧ mo'.name = mo.name ∧ mo'.body = mo.body ∧ mo'.inlets = mo.inlets ∧
      mo'.attrs = dset mo.attrs attr (.eqn w.es.length) ∧ mo'.eqns = dset mo.eqns e.name w.es.length ∧ (n ≠ "" → e.name = n ++ "_" ++ mo.name) := by
  simp only [Cmd.run, PyM.bind_ok, AStmt.eval, Prod.mk.injEq, bind_eq_ok] at h
  obtain ⟨x, _, ⟨⟨st', hst, ha⟩, rfl⟩, r, w1, h1, h2⟩ := h
  cases hm : w.ms[m]? with
  | none => rw [createEquation_none hm] at h1; simp at h1
  | some mo =>
    obtain ⟨e, he, hs1⟩ := created_states st' ha h1
    rcases createEquation_run hm n d (some x) ck with ⟨y, u, hc⟩ | ⟨t, t', e0, e', u, hc, hi, hs, _⟩ <;> rw [hc] at h1
    · simp at h1
    · simp only [Prod.mk.injEq, Except.ok.injEq] at h1
      obtain ⟨rfl, rfl⟩ := h1
      have hee : e = e' := by
        simp [World.withM, World.addE, World.withUid] at he
        exact he.symm
      subst hee
      rw [setAttr_run (withM_getM (w := (w.withUid u).addE e) hm _)] at h2
      simp only [Prod.mk.injEq, true_and] at h2
      subst h2
      refine ⟨mo, { mo.storeEqn e.name w.es.length with attrs := dset (mo.storeEqn e.name w.es.length).attrs attr (.eqn w.es.length) }, st', e, rfl, hst, hs1.1, rfl, rfl, by simp only [World.withM, World.addE, World.withUid, List.set_set], rfl, rfl, rfl, rfl, rfl, fun hn => ?_⟩
      obtain ⟨k, _, rfl⟩ := EqObj.sweep_ok hs
      simp only [(EqObj.init_fields hi).1]
      rw [if_neg hn]

theorem eqn_stated {w w' : World} {m : MRef} {attr n d : String} {st : AStmt} {ck : Bool} (h : (Cmd.eqn attr n d st ck).run m w = (.ok (), w')) : Stated w w' := by
  obtain ⟨mo, mo', st', e, hm, _, _, _, hq, hms, h1, h2, h3, h4, _⟩ := eqn_run h
  refine ⟨hq, by rw [hms, List.length_set], fun k x hk => ?_⟩
  by_cases hkm : k = m
  · subst hkm
    rw [hm] at hk; cases hk
    refine ⟨mo', by rw [hms]; simp [(List.getElem?_eq_some_iff.mp hm).1], h1, h2, h3, fun a r ha => ?_⟩
    rw [h4] at ha
    by_cases hx : a = attr
    · subst hx; rw [dget_dset_self] at ha; cases ha
    · rwa [dget_dset_ne _ _ (Ne.symm hx)] at ha
  · exact ⟨x, by rw [hms, List.getElem?_set_ne (Ne.symm hkm)]; exact hk, rfl, rfl, rfl, fun _ _ h => h⟩

/-- The model has an equation of this name that stands for the statement. -/
def Kept (w : World) (m : MRef) (key : String) (st : Stmt) : Prop :=
  ∃ mo r e, w.ms[m]? = some mo ∧ dget mo.eqns key = some r ∧ w.es[r]? = some e ∧ e.States st

theorem Kept.eqn {w w' : World} {m k : MRef} {key : String} {s : Stmt} (hk : Kept w m key s) {attr n d : String} {st : AStmt} {ck : Bool}
    (h : (Cmd.eqn attr n d st ck).run k w = (.ok (), w')) (hne : k = m → ∀ mo, w.ms[m]? = some mo → n ++ "_" ++ mo.name ≠ key ∧ n ≠ "") : Kept w' m key s := by
  obtain ⟨mo, r, e, h1, h2, h3, h4⟩ := hk
  obtain ⟨mo0, mo', st', e', hm, _, _, hes, _, hms, _, _, _, _, heq, hname⟩ := eqn_run h
  have hlt := (List.getElem?_eq_some_iff.mp h3).1
  have he' : w'.es[r]? = some e := by rw [hes, List.getElem?_append_left hlt]; exact h3
  by_cases hkm : k = m
  · subst hkm
    rw [hm] at h1; cases h1
    obtain ⟨n1, n2⟩ := hne rfl mo hm
    refine ⟨mo', r, e, by rw [hms]; simp [(List.getElem?_eq_some_iff.mp hm).1], ?_, he', h4⟩
    rw [heq, hname n2, dget_dset_ne _ _ n1]
    exact h2
  · exact ⟨mo, r, e, by rw [hms, List.getElem?_set_ne hkm]; exact h1, h2, he', h4⟩

/-- Names of the equations in a body. -/
def Spec.eqnNames (l : List Cmd) : List String := l.filterMap fun c => match c with
  | .eqn _ n _ _ _ => some n
  | _ => none

theorem mem_eqnNames {l : List Cmd} {a n d : String} {st : AStmt} {ck : Bool} (h : Cmd.eqn a n d st ck ∈ l) : n ∈ Spec.eqnNames l :=
  List.mem_filterMap.2 ⟨_, h, rfl⟩

theorem name_append_ne {a b o : String} (h : a ≠ b) : a ++ "_" ++ o ≠ b ++ "_" ++ o := fun hh => by
  have := congrArg String.toList hh
  simp only [String.toList_append, List.append_left_inj] at this
  exact h (String.toList_inj.mp this)

/-- Statements of model `k` one after the other. -/
theorem cmds_stated {w0 w w' : World} {k : MRef} {l : List Cmd} (hl : ∀ c ∈ l, ∃ attr name d st ck, c = .eqn attr name d st ck) (h0 : Stated w0 w)
    (h : each l (Cmd.run k) w = (.ok (), w')) :
    Stated w0 w' ∧
    (∀ {m : MRef} {key : String} {s : Stmt}, Kept w m key s → k ≠ m → Kept w' m key s) ∧
    ∀ {mo : ModelObj} {n : String}, w0.ms[k]? = some mo → n ≠ "" → (∀ n' ∈ Spec.eqnNames l, n' ≠ "") →
      ((∀ s, n ∉ Spec.eqnNames l → Kept w k (n ++ "_" ++ mo.name) s → Kept w' k (n ++ "_" ++ mo.name) s) ∧
      ∀ attr d st ck, Cmd.eqn attr n d st ck ∈ l → (Spec.eqnNames l).Nodup → ∃ s, st.toStmt w0 k = .ok s ∧ Kept w' k (n ++ "_" ++ mo.name) s) := by
  induction l generalizing w with
  | nil =>
    cases h
    exact ⟨h0, fun h _ => h, fun _ _ _ => ⟨fun _ _ h => h, fun _ _ _ _ h => by cases h⟩⟩
  | cons c t ih =>
    obtain ⟨attr, n0, d, st, ck, rfl⟩ := hl c (by simp)
    rw [PyM.each_cons, PyM.bind_ok] at h
    obtain ⟨_, w1, h1, h2⟩ := h
    have hs1 : Stated w0 w1 := h0.trans (eqn_stated h1)
    obtain ⟨i1, i2, i3⟩ := ih (fun c hc => hl c (by simp [hc])) hs1 h2
    refine ⟨i1, fun hk hne => i2 (hk.eqn h1 fun h => absurd h hne) hne, fun {mo n} hmo hn hns => ?_⟩
    obtain ⟨mo1, g1, g2, _⟩ := h0.ms k mo hmo
    have hns' : n0 ≠ "" ∧ ∀ n' ∈ Spec.eqnNames t, n' ≠ "" := by
      constructor
      · exact hns n0 (by simp [Spec.eqnNames])
      · exact fun n' h => hns n' (by simp only [Spec.eqnNames, List.filterMap_cons]; exact List.mem_cons_of_mem _ h)
    refine ⟨fun s hnot hk => ?_, fun attr' d' st2 ck' hc hnd => ?_⟩
    · have hnot' : n ≠ n0 ∧ n ∉ Spec.eqnNames t := by simpa [Spec.eqnNames] using hnot
      refine (i3 hmo hn hns'.2).1 s hnot'.2 (hk.eqn h1 fun _ mo' hmo' => ⟨?_, hns'.1⟩)
      rw [g1] at hmo'; cases hmo'
      rw [g2]
      exact name_append_ne (Ne.symm hnot'.1)
    · have hnd' : n0 ∉ Spec.eqnNames t ∧ (Spec.eqnNames t).Nodup := by
        simpa [Spec.eqnNames] using hnd
      rcases List.mem_cons.1 hc with hc | hc
      · cases hc
        obtain ⟨mo2, mo', st', e, hm, hst, hstates, hes, _, hms, _, _, _, _, heq, hname⟩ := eqn_run h1
        rw [g1] at hm; cases hm
        refine ⟨st', h0.toStmt hst, (i3 hmo hn hns'.2).1 st' hnd'.1 ⟨mo', w.es.length, e, by rw [hms]; simp [(List.getElem?_eq_some_iff.mp g1).1], ?_, by rw [hes]; simp, hstates⟩⟩
        rw [heq, hname hn, g2, dget_dset_self]
      · exact (i3 hmo hn hns'.2).2 attr' d' st2 ck' hc hnd'.2

theorem Spec.Equational.stated {w w' : World} {m : MRef} (h : Spec.Equational w m) (hs : Stated w w') : Spec.Equational w' m := by
  obtain ⟨mo, h1, h2, h3, h4, h5, h6⟩ := h
  obtain ⟨mo', g1, _, g3, g4, _⟩ := hs.ms m mo h1
  exact ⟨mo', g1, g4.trans h2, by rw [g3]; exact h3, by rw [g3]; exact h4, by rw [g3]; exact h5, by rw [g3]; exact h6⟩

/-- Calls of models that only state equations. -/
theorem calls_stated {w0 w w' : World} {l : List MRef} (hl : ∀ m ∈ l, Spec.Equational w0 m) (h0 : Stated w0 w) (h : each l Model.call w = (.ok (), w')) :
    Stated w0 w' ∧ ∀ {m : MRef} {mo : ModelObj} {attr n d : String} {st : AStmt} {ck : Bool}, w0.ms[m]? = some mo → Cmd.eqn attr n d st ck ∈ mo.body.eqns →
      (Spec.eqnNames mo.body.eqns).Nodup → (∀ n' ∈ Spec.eqnNames mo.body.eqns, n' ≠ "") →
      (m ∈ l ∨ ∃ s, st.toStmt w0 m = .ok s ∧ Kept w m (n ++ "_" ++ mo.name) s) → ∃ s, st.toStmt w0 m = .ok s ∧ Kept w' m (n ++ "_" ++ mo.name) s := by
  induction l generalizing w with
  | nil =>
    cases h
    exact ⟨h0, fun _ _ _ _ h => h.resolve_left (by simp)⟩
  | cons k t ih =>
    rw [PyM.each_cons, PyM.bind_ok] at h
    obtain ⟨_, w1, h1, h2⟩ := h
    obtain ⟨mk, e1, e2, e3, e4, e5, e6⟩ := hl k (by simp)
    obtain ⟨mk', f1, f2, f3, f4, _⟩ := h0.ms k mk e1
    rw [call_each f1 (f4.trans e2), f3, Spec.cmds, e3, e4, e5] at h1
    obtain ⟨s1, s2, s3⟩ := cmds_stated e6 h0 h1
    obtain ⟨i1, i2⟩ := ih (fun m hm => hl m (by simp [hm])) s1 h2
    refine ⟨i1, fun {m mo attr n d st ck} hmo hc hnd hns hor => i2 hmo hc hnd hns ?_⟩
    have hn : n ≠ "" := hns n (mem_eqnNames hc)
    by_cases hkm : k = m
    · subst hkm
      rw [hmo] at e1; cases e1
      obtain ⟨s, q1, q2⟩ := (s3 hmo hn hns).2 attr d st ck hc hnd
      exact Or.inr ⟨s, q1, q2⟩
    · rcases hor with hor | ⟨s, q1, q2⟩
      · exact Or.inl ((List.mem_cons.1 hor).resolve_left (Ne.symm hkm))
      · exact Or.inr ⟨s, q1, s2 q2 hkm⟩

theorem values_core {w w' : World} (h : resolve w = (.ok (), w')) (hp : ∀ m ∈ dvalues w.pr.models, Spec.Equational w m)
    {m : MRef} (hmem : m ∈ dvalues w.pr.models) {mo : ModelObj} (hmo : w.ms[m]? = some mo) (hnd : (Spec.eqnNames mo.body.eqns).Nodup)
    (hns : ∀ n' ∈ Spec.eqnNames mo.body.eqns, n' ≠ "") {attr n d : String} {st : AStmt} {ck : Bool} (hc : Cmd.eqn attr n d st ck ∈ mo.body.eqns) :
    ∃ (b : Block) (mo' : ModelObj) (i : Nat) (r : ERef) (s : SObj), w'.pr.block = some b ∧ w'.ms[m]? = some mo' ∧ dget mo'.eqns (n ++ "_" ++ mo.name) = some r ∧
      b.equations[i]? = some r ∧ b.equationsList[i]? = some s ∧ w'.qs = w.qs ∧
      (∃ st0, st.toStmt w m = .ok st0) ∧ ∀ {K : Type} [Field K] [LinearOrder K] (I : Interp K) (ρ : Atom → K), s.expr.eval I ρ = Spec.handedNow I w m ρ st := by
  obtain ⟨b, g, hb, hg, hmod, _, _, _, hga, _, _, _, _, hl⟩ := resolved_block h
  obtain ⟨w1, g1, b1, hre, hpr, _, hw', _, _⟩ := resolve_ok h
  obtain ⟨hst, hkept⟩ := calls_stated hp (Stated.refl w) hre
  obtain ⟨s0, hs0, mo', r, e, k1, k2, k3, k4⟩ := hkept hmo hc hnd hns (Or.inl hmem)
  have hms : w'.ms[m]? = some mo' := by rw [hw']; exact k1
  have hes : w'.es[r]? = some e := by rw [hw']; exact k3
  have hin : r ∈ b.equations := by
    obtain ⟨ls, hfl, hf⟩ := gather_equations hga hg
    rw [hfl, List.mem_flatten]
    have hmem' : m ∈ dvalues w'.pr.models := by rw [hmod]; exact hmem
    obtain ⟨j, hj, hjm⟩ := List.getElem_of_mem hmem'
    have hj' : j < ls.length := by rw [← hf.length_eq]; exact hj
    have := List.Forall₂.get hf (i := j) hj hj'
    simp only [List.get_eq_getElem, hjm] at this
    obtain ⟨mo2, q1, q2⟩ := this
    rw [hms] at q1; cases q1
    refine ⟨ls[j], List.getElem_mem hj', ?_⟩
    rw [q2]
    exact List.mem_map.2 ⟨_, mem_of_dget k2, rfl⟩
  obtain ⟨i, hi, hir⟩ := List.getElem_of_mem hin
  have hf := getEquationList_ok hl
  have hlt : i < b.equationsList.length := by rw [← hf.length_eq]; exact hi
  have := List.Forall₂.get hf (i := i) hi hlt
  simp only [List.get_eq_getElem, hir] at this
  obtain ⟨e2, q1, q2⟩ := this
  rw [hes] at q1; cases q1
  refine ⟨b, mo', i, r, b.equationsList[i], hb, hms, k2, by rw [List.getElem?_eq_getElem hi, hir], List.getElem?_eq_getElem hlt, by rw [hw']; exact hst.qs, ⟨s0, hs0⟩, ?_⟩
  intro K _ _ I ρ
  obtain ⟨s, hs, hv⟩ := (k4 I ρ).2 .rhs
  rw [q2] at hs; cases hs
  rw [hv, toStmt_now I ρ hs0]

/-- C93: when the methods of the models of a problem only state equations (quantities are declared and given values elsewhere), `resolve` hands on, for every
named statement of every model, an expression with the values the quantities have at that moment, whatever values they had when the model was called before. -/
theorem values_reach_solver {w w' : World} (h : resolve w = (.ok (), w')) (hp : ∀ m ∈ dvalues w.pr.models, Spec.Equational w m)
    {m : MRef} (hmem : m ∈ dvalues w.pr.models) {mo : ModelObj} (hmo : w.ms[m]? = some mo) (hnd : (Spec.eqnNames mo.body.eqns).Nodup)
    (hns : ∀ n' ∈ Spec.eqnNames mo.body.eqns, n' ≠ "") {attr n d : String} {st : AStmt} {ck : Bool} (hc : Cmd.eqn attr n d st ck ∈ mo.body.eqns) :
    ∃ (b : Block) (mo' : ModelObj) (i : Nat) (r : ERef) (s : SObj), w'.pr.block = some b ∧ w'.ms[m]? = some mo' ∧ dget mo'.eqns (n ++ "_" ++ mo.name) = some r ∧
      b.equations[i]? = some r ∧ b.equationsList[i]? = some s ∧ w'.qs = w.qs ∧
      ∀ {K : Type} [Field K] [LinearOrder K] (I : Interp K) (ρ : Atom → K), s.expr.eval I ρ = Spec.handedNow I w m ρ st := by
  obtain ⟨b, mo', i, r, s, h1, h2, h3, h4, h5, h6, _, h8⟩ := values_core h hp hmem hmo hnd hns hc
  exact ⟨b, mo', i, r, s, h1, h2, h3, h4, h5, h6, h8⟩

/-- A model that declares its quantities when it is made (as `__init__` does in the tests) and states `x - p` in `DeclareEquations`, resolved once
with the value 2 of `p`. -/
def Ex.valued : List Op := [.newModel "m" "" { eqns := [Ex.eq_ "e" (.res (.bin .sub (Ex.at_ "x") (Ex.at_ "p")))] } none, .cmd 0 (Ex.dp "p"), .cmd 0 (Ex.dv "x"),
  .setValue 0 (.float 2) none, .call 0, .addModels (.leaf 0), .resolve, .setValue 0 (.float 5) none]

theorem Ex.valued_ok : ∃ w', resolve (history Ex.valued World.init) = (.ok (), w') := ⟨_, run_ok (by decide +kernel)⟩

theorem Ex.valued_mo : ∃ mo, (history Ex.valued World.init).ms[0]? = some mo ∧ mo.inlets = [] ∧
    mo.body = { eqns := [Ex.eq_ "e" (.res (.bin .sub (Ex.at_ "x") (Ex.at_ "p")))] } := by
  have : ((history Ex.valued World.init).ms[0]?.map fun mo => (mo.inlets, mo.body)) =
    some ([], { eqns := [Ex.eq_ "e" (.res (.bin .sub (Ex.at_ "x") (Ex.at_ "p")))] }) := by decide +kernel
  simp only [Option.map_eq_some_iff, Prod.mk.injEq] at this
  obtain ⟨mo, h1, h2, h3⟩ := this
  exact ⟨mo, h1, h2, h3⟩

/-- The hypotheses are met, and after the value 5 is given what is solved is `x - 5`. -/
theorem values_reach_solver_use : ∃ w' b s, resolve (history Ex.valued World.init) = (.ok (), w') ∧ w'.pr.block = some b ∧ s ∈ b.equationsList ∧
    ∀ {K : Type} [Field K] [LinearOrder K] (I : Interp K) (ρ : Atom → K), s.expr.eval I ρ = some (ρ (.v "x_m") - 5) := by
  obtain ⟨w', h⟩ := Ex.valued_ok
  obtain ⟨mo, h1, h2, h3⟩ := Ex.valued_mo
  have hl : dvalues (history Ex.valued World.init).pr.models = [0] := by decide +kernel
  have he : Spec.Equational (history Ex.valued World.init) 0 := by
    refine ⟨mo, h1, h2, by rw [h3], by rw [h3], by rw [h3], fun c hc => ?_⟩
    rw [h3] at hc
    simp only [List.mem_singleton] at hc
    exact ⟨_, _, _, _, _, hc⟩
  obtain ⟨b, mo', i, r, s, hb, _, _, _, hs, _, hv⟩ := values_reach_solver h (fun m hm => by rw [hl, List.mem_singleton] at hm; subst hm; exact he)
    (by rw [hl]; exact List.mem_singleton.2 rfl) h1 (by rw [h3]; decide) (by rw [h3]; decide) (by rw [h3]; exact List.mem_singleton.2 rfl)
  refine ⟨w', b, s, h, hb, List.mem_of_getElem? hs, fun {K} _ _ I ρ => ?_⟩
  have h4 : ((Spec.named (history Ex.valued World.init) 0 { attr := "x" }).map fun q => (q.isSpecified, q.name)) = some (false, "x_m") := by decide +kernel
  have h5 : ((Spec.named (history Ex.valued World.init) 0 { attr := "p" }).map fun q => (q.isSpecified, q.value)) = some (true, 5) := by decide +kernel
  simp only [Option.map_eq_some_iff, Prod.mk.injEq] at h4 h5
  obtain ⟨x, hx, x1, x2⟩ := h4
  obtain ⟨y, hy, y1, y2⟩ := h5
  rw [hv I ρ]
  simp [Spec.handedNow, Spec.now, Ex.at_, hx, hy, x1, x2, y1, y2, Spec.opVal]

/-- C93 fails for statements made from outside: values given after the statement do not reach the solver, however often the problem is resolved. -/
theorem outside_values_ignored {w w1 w2 : World} (h : resolve w = (.ok (), w1)) (hp : ∀ m ∈ dvalues w.pr.models, Spec.Bare w m)
    (ops : List (Ref × SVArg × Option UnitObj)) (h2 : resolve (history (ops.map fun o => .setValue o.1 o.2.1 o.2.2) w1) = (.ok (), w2)) :
    ∃ b1 b2, w1.pr.block = some b1 ∧ w2.pr.block = some b2 ∧ b2.equations = b1.equations ∧ b2.equationsList = b1.equationsList := by
  have hh : ∀ (ops : List (Ref × SVArg × Option UnitObj)) (w : World), (history (ops.map fun o => .setValue o.1 o.2.1 o.2.2) w).ms = w.ms ∧
      (history (ops.map fun o => .setValue o.1 o.2.1 o.2.2) w).es = w.es ∧ (history (ops.map fun o => .setValue o.1 o.2.1 o.2.2) w).pr = w.pr := by
    intro ops
    induction ops with
    | nil => exact fun w => ⟨rfl, rfl, rfl⟩
    | cons o t ih =>
      intro w
      have hs : (Op.run (.setValue o.1 o.2.1 o.2.2) w).2.ms = w.ms ∧ (Op.run (.setValue o.1 o.2.1 o.2.2) w).2.es = w.es ∧
          (Op.run (.setValue o.1 o.2.1 o.2.2) w).2.pr = w.pr := by
        rcases setValueM_run o.1 o.2.1 o.2.2 w with ⟨x, hx⟩ | ⟨q, q', hq, hs, hx⟩ <;> simp [Op.run, hx]
      obtain ⟨i1, i2, i3⟩ := ih (Op.run (.setValue o.1 o.2.1 o.2.2) w).2
      exact ⟨i1.trans hs.1, i2.trans hs.2.1, i3.trans hs.2.2⟩
  obtain ⟨m1, m2, m3⟩ := hh ops w1
  generalize history (ops.map fun o => Op.setValue o.1 o.2.1 o.2.2) w1 = w0 at h2 m1 m2 m3
  obtain ⟨v1, g1, b1, a1, a2, a3, rfl, a5, a6⟩ := resolve_ok h
  have hr : ∀ w : World, (∀ m ∈ dvalues w.pr.models, Spec.Bare w m) → reloadModels w = (.ok (), w) := fun w h => calls_bare h
  rw [hr w hp] at a1
  cases a1
  obtain ⟨v2, g2, b2, c1, c2, c3, rfl, c5, c6⟩ := resolve_ok h2
  have hp2 : ∀ m ∈ dvalues w0.pr.models, Spec.Bare w0 m := by
    intro m hm
    rw [m3] at hm
    obtain ⟨mo, q1, q2⟩ := hp m hm
    exact ⟨mo, by rw [m1]; exact q1, q2⟩
  rw [hr w0 hp2] at c1
  cases c1
  obtain ⟨l1, f1, f2⟩ := gather_equations a3 rfl
  obtain ⟨l2, f3, f4⟩ := gather_equations c3 rfl
  have hll : l2 = l1 := by
    rw [m1, m3] at f4
    refine List.right_unique_forall₂' (fun {a x y} hx hy => ?_) f4 f2
    obtain ⟨mo, q1, q2⟩ := hx
    obtain ⟨mo', q3, q4⟩ := hy
    simp only at q1
    rw [q1] at q3; cases q3
    rw [q2, q4]
  have hg : g2.eqs = g1.eqs := by rw [f3, f1, hll]
  refine ⟨b1, b2, rfl, rfl, by rw [c6, a6]; exact hg, ?_⟩
  rw [hg, m2] at c5
  simp only at c5
  rw [a5] at c5
  exact (Except.ok.inj c5).symm

/-- The same model with the equation stated from outside. -/
def Ex.outside : List Op := [.newModel "m" "" {} none, .cmd 0 (Ex.dp "p"), .cmd 0 (Ex.dv "x"), .setValue 0 (.float 2) none,
  .cmd 0 (Ex.eq_ "e" (.res (.bin .sub (Ex.at_ "x") (Ex.at_ "p")))), .addModels (.leaf 0)]

example : (resolve (history Ex.outside World.init)).1 = .ok () ∧
    (resolve (history [.setValue 0 (.float 5) none] (resolve (history Ex.outside World.init)).2)).1 = .ok () ∧
    (∀ m ∈ dvalues (history Ex.outside World.init).pr.models, Spec.Bare (history Ex.outside World.init) m) ∧
    ((history [.setValue 0 (.float 5) none] (resolve (history Ex.outside World.init)).2).qs[0]?.map Quantity.value) = some 5 := by
  refine ⟨by decide +kernel, by decide +kernel, ?_, by decide +kernel⟩
  have h : dvalues (history Ex.outside World.init).pr.models = [0] := by decide +kernel
  rw [h]
  intro m hm
  rw [List.mem_singleton] at hm; subst hm
  have : ((history Ex.outside World.init).ms[0]?.map fun mo => (mo.inlets, mo.body)) = some ([], ({} : Body)) := by decide +kernel
  simp only [Option.map_eq_some_iff, Prod.mk.injEq] at this
  obtain ⟨mo, h1, h2, h3⟩ := this
  exact ⟨mo, h1, h2, h3⟩

/-! ## Values given when a quantity is declared -/

/-- Attribute, class, name, unit and value of a declaration. -/
def Spec.declares : Cmd → Option (String × Kind × String × UnitObj × Rat)
  | .var attr a => some (attr, .variable, a.name, a.units, a.value)
  | .par attr a => some (attr, .parameter, a.name, a.units, a.value)
  | .con attr a => some (attr, .constant, a.name, a.units, a.value)
  | _ => none

/-- C93: a declared quantity has the class, name, unit and value (a variable also the bounds and the exposure) it was declared with, but does not count as specified. -/
theorem declared_quantity {w w' : World} {m : MRef} {mo : ModelObj} (hm : w.ms[m]? = some mo) {c : Cmd} (h : c.run m w = (.ok (), w'))
    {attr n : String} {k : Kind} {u : UnitObj} {v : Rat} (hc : Spec.declares c = some (attr, k, n, u, v)) :
    ∃ q, Spec.named w' m { attr := attr } = some q ∧ q.kind = k ∧ q.name = n ++ "_" ++ mo.name ∧ q.units = u ∧ q.value = v ∧ q.isSpecified = false ∧
      q.owner = mo.name ∧ ∀ at_ a, c = .var at_ a → q.lowerBound = a.lower ∧ q.upperBound = a.upper ∧ q.isExposed = a.exposed ∧ q.vtype = a.vtype := by
  have hlt := (List.getElem?_eq_some_iff.mp hm).1
  have key : ∀ (q : Quantity) (mo1 : ModelObj) (w' : World),
      setAttr m attr (.qty w.qs.length) ((w.addQ q).withM m mo1) = (.ok (), w') → Spec.named w' m { attr := attr } = some q := by
    intro q mo1 w' h
    rw [setAttr_run (withM_getM (w := w.addQ q) hm _)] at h
    simp only [Prod.mk.injEq, true_and] at h
    subst h
    simp [Spec.named, World.withM, World.addQ, hlt]
  cases c with
  | var at_ a =>
    simp only [Spec.declares, Option.some.injEq, Prod.mk.injEq] at hc
    obtain ⟨rfl, rfl, rfl, rfl, rfl⟩ := hc
    simp only [Cmd.run, PyM.bind_ok] at h
    obtain ⟨r, w1, h1, h2⟩ := h
    rw [createVariable_run hm] at h1
    simp only [Prod.mk.injEq] at h1
    obtain ⟨h1, rfl⟩ := h1
    split at h1
    · cases h1
    · cases h1
      exact ⟨a.quantity mo.name, key _ _ _ h2, rfl, rfl, rfl, rfl, rfl, rfl, fun _ _ h => by cases h; exact ⟨rfl, rfl, rfl, rfl⟩⟩
  | par at_ a =>
    simp only [Spec.declares, Option.some.injEq, Prod.mk.injEq] at hc
    obtain ⟨rfl, rfl, rfl, rfl, rfl⟩ := hc
    simp only [Cmd.run, PyM.bind_ok] at h
    obtain ⟨r, w1, h1, h2⟩ := h
    rw [createParameter_run hm] at h1
    simp only [Prod.mk.injEq] at h1
    obtain ⟨h1, rfl⟩ := h1
    cases h1
    exact ⟨a.parameter mo.name, key _ _ _ h2, rfl, rfl, rfl, rfl, rfl, rfl, fun _ _ h => (by cases h)⟩
  | con at_ a =>
    simp only [Spec.declares, Option.some.injEq, Prod.mk.injEq] at hc
    obtain ⟨rfl, rfl, rfl, rfl, rfl⟩ := hc
    simp only [Cmd.run, PyM.bind_ok] at h
    obtain ⟨r, w1, h1, h2⟩ := h
    rw [createConstant_run hm] at h1
    simp only [Prod.mk.injEq] at h1
    obtain ⟨h1, rfl⟩ := h1
    cases h1
    exact ⟨a.constant mo.name, key _ _ _ h2, rfl, rfl, rfl, rfl, rfl, rfl, fun _ _ h => (by cases h)⟩
  | _ => simp [Spec.declares] at hc

/-- C93 fails for values given in the declaration: the quantity enters expressions by its name, as an unknown, whatever value it was declared with. -/
theorem declared_value_ignored {w w' : World} {m : MRef} {mo : ModelObj} (hm : w.ms[m]? = some mo) {c : Cmd} (h : c.run m w = (.ok (), w'))
    {attr n : String} {k : Kind} {u : UnitObj} {v : Rat} (hc : Spec.declares c = some (attr, k, n, u, v))
    {K : Type} [Field K] [LinearOrder K] (I : Interp K) (ρ : Atom → K) :
    Spec.now I w' m ρ (.q { attr := attr }) = some (ρ (.v (n ++ "_" ++ mo.name))) := by
  obtain ⟨q, h1, _, h3, _, _, h6, _⟩ := declared_quantity hm h hc
  simp [Spec.now, h1, h3, h6]

example : ∃ mo w', (history Ex.outside World.init).ms[0]? = some mo ∧
    (Cmd.con "g" { name := "g", units := Tmpl.m_s, value := 9 }).run 0 (history Ex.outside World.init) = (.ok (), w') :=
  ⟨_, _, (Option.some_get (by decide +kernel : (history Ex.outside World.init).ms[0]?.isSome)).symm, run_ok (by decide +kernel)⟩

/-! ## Several problems over models that state equations -/

theorem eqn_stated_any (w : World) (m : MRef) (attr n d : String) (st : AStmt) (ck : Bool) : Stated w ((Cmd.eqn attr n d st ck).run m w).2 := by
  cases hr : (Cmd.eqn attr n d st ck).run m w with
  | mk r w' =>
    cases r with
    | ok x => exact eqn_stated hr
    | error y =>
      simp only [Cmd.run, PyM.bind_run, AStmt.eval] at hr
      cases ha : (st.toStmt w m >>= Stmt.arg) with
      | error z =>
        rw [ha] at hr
        simp only [Prod.mk.injEq] at hr
        rw [← hr.2]; exact .refl w
      | ok x =>
        rw [ha] at hr
        simp only at hr
        cases hm : w.ms[m]? with
        | none =>
          rw [createEquation_none hm] at hr
          simp only [Prod.mk.injEq] at hr
          rw [← hr.2]; exact .refl w
        | some mo =>
          rcases createEquation_run hm n d (some x) ck with ⟨y, u, hc⟩ | ⟨t, t', e0, e', u, hc, _⟩ <;> rw [hc] at hr
          · simp only [Prod.mk.injEq] at hr
            rw [← hr.2]
            exact ⟨rfl, rfl, fun _ mo h => ⟨mo, h, rfl, rfl, rfl, fun _ _ h => h⟩⟩
          · simp only at hr
            rw [setAttr_run (withM_getM (w := (w.withUid u).addE e') hm _)] at hr
            cases hr

/-- All models there are declare their quantities elsewhere and only state equations in their methods. -/
def Spec.OnlyEquations (w : World) : Prop := ∀ (m : MRef) (mo : ModelObj), w.ms[m]? = some mo → Spec.Equational w m

theorem Spec.OnlyEquations.stated {w w' : World} (h : Spec.OnlyEquations w) (hs : Stated w w') : Spec.OnlyEquations w' := by
  intro m mo' hm
  cases hm0 : w.ms[m]? with
  | none =>
    rw [List.getElem?_eq_none_iff] at hm0
    have := (List.getElem?_eq_some_iff.mp hm).1
    rw [hs.len] at this
    exact absurd this (by omega)
  | some mo => exact (h m mo hm0).stated hs

theorem cmds_stated_any (m : MRef) {l : List Cmd} (hl : ∀ c ∈ l, ∃ attr name d st ck, c = .eqn attr name d st ck) (w : World) : Stated w (each l (Cmd.run m) w).2 := by
  induction l generalizing w with
  | nil => exact .refl w
  | cons c t ih =>
    obtain ⟨attr, n, d, st, ck, rfl⟩ := hl c (by simp)
    rw [PyM.each_cons, PyM.bind_run]
    have h1 := eqn_stated_any w m attr n d st ck
    cases hr : (Cmd.eqn attr n d st ck).run m w with
    | mk r w1 =>
      rw [hr] at h1
      cases r with
      | error e => exact h1
      | ok x => exact h1.trans (ih (fun c hc => hl c (by simp [hc])) w1)

theorem call_stated_any {w : World} (h : Spec.OnlyEquations w) (m : MRef) : Stated w (Model.call m w).2 := by
  cases hm : w.ms[m]? with
  | none =>
    unfold Model.call
    rw [PyM.bind_of_error (getM_none hm)]; exact .refl w
  | some mo =>
    obtain ⟨mo', h1, h2, h3, h4, h5, h6⟩ := h m mo hm
    rw [call_each h1 h2, Spec.cmds, h3, h4, h5]
    exact cmds_stated_any m h6 w

theorem calls_stated_any {w : World} (h : Spec.OnlyEquations w) (l : List MRef) : Stated w (each l Model.call w).2 := by
  induction l generalizing w with
  | nil => exact .refl w
  | cons m t ih =>
    rw [PyM.each_cons, PyM.bind_run]
    have h1 := call_stated_any h m
    cases hr : Model.call m w with
    | mk r w1 =>
      rw [hr] at h1
      cases r with
      | error e => exact h1
      | ok x => exact h1.trans (ih (h.stated h1))

theorem Stated.pr {w w' : World} (h : Stated w w') (p p' : ProblemObj) : Stated (w.withPr p) (w'.withPr p') := ⟨h.qs, h.len, h.ms⟩

theorem resolve_stated_any {w : World} (h : Spec.OnlyEquations w) : Stated w (resolve w).2 := by
  have h1 := calls_stated_any h (dvalues w.pr.models)
  unfold resolve
  rw [PyM.bind_run]
  rw [show reloadModels w = each (dvalues w.pr.models) Model.call w from rfl]
  cases hr : each (dvalues w.pr.models) Model.call w with
  | mk r w1 =>
    rw [hr] at h1
    cases r with
    | error e => exact h1
    | ok x =>
      refine h1.trans ?_
      simp only
      rw [PyM.bind_run]
      unfold buildEquationBlock callBlock
      split
      · rename_i h2
        split at h2
        · cases h2
        · cases h2
          simp only
          split
          · exact ⟨rfl, rfl, fun _ mo h => ⟨mo, h, rfl, rfl, rfl, fun _ _ h => h⟩⟩
          · exact ⟨rfl, rfl, fun _ mo h => ⟨mo, h, rfl, rfl, rfl, fun _ _ h => h⟩⟩
      · rename_i h2
        split at h2
        · cases h2; exact .refl w1
        · cases h2

/-- Calls that concern problems, and calls of models. -/
def Spec.ProblemOrCall (o : MOp) : Prop := Spec.ProblemOnly o ∨ ∃ i m, o = .on i (.call m)

theorem run_stated {o : MOp} (ho : Spec.ProblemOrCall o) {s : Many} (h : Spec.OnlyEquations s.w) : Stated s.w (o.run s).w := by
  cases o with
  | newProblem n => exact .refl _
  | on i o =>
    simp only [MOp.run]
    cases hi : s.prs[i]? with
    | none => unfold Many.on; rw [hi]; exact .refl _
    | some p =>
      rw [Many.on_some hi]
      refine Stated.pr (p := s.w.pr) (w := s.w.withPr p) ?_ _
      have h' : Spec.OnlyEquations (s.w.withPr p) := h
      rcases ho with h0 | ⟨j, m, h0⟩
      · cases o <;> simp only [Spec.ProblemOnly] at h0
        · obtain ⟨q, h1, _⟩ := addModels_heap _ (s.w.withPr p)
          simp only [Op.run]
          rw [h1]
          exact (Stated.refl (s.w.withPr p)).pr p q
        · exact (Stated.refl (s.w.withPr p)).pr p _
        · exact (Stated.refl (s.w.withPr p)).pr p _
        · exact resolve_stated_any h'
      · simp only [MOp.on.injEq] at h0
        rw [h0.2]
        exact call_stated_any h' m

theorem history_stated {ops : List MOp} (ho : ∀ o ∈ ops, Spec.ProblemOrCall o) {s : Many} (h : Spec.OnlyEquations s.w) : Stated s.w (Many.history ops s).w := by
  induction ops generalizing s with
  | nil => exact .refl _
  | cons o t ih =>
    have h1 := run_stated (ho o (by simp)) h
    exact h1.trans (ih (fun o ho' => ho o (by simp [ho'])) (h.stated h1))

/-- **C90 (partial).** For models with methods that state equations: whatever problems are made, extended and resolved and whatever models are called in between (also
with exceptions), a problem that is then resolved hands on the statements of its models with the values the quantities had at the start. -/
theorem shared_values_partial {ops : List MOp} (ho : ∀ o ∈ ops, Spec.ProblemOrCall o) {s s2 : Many} (h : Spec.OnlyEquations s.w) {j : Nat} {p : ProblemObj}
    (hp : (Many.history ops s).prs[j]? = some p) (hr : (Many.history ops s).on j resolve = (.ok (), s2)) {m : MRef} (hmem : m ∈ dvalues p.models)
    {mo : ModelObj} (hmo : s.w.ms[m]? = some mo) (hall : ∀ k ∈ dvalues p.models, ∃ mo, s.w.ms[k]? = some mo)
    (hnd : (Spec.eqnNames mo.body.eqns).Nodup) (hns : ∀ n' ∈ Spec.eqnNames mo.body.eqns, n' ≠ "")
    {attr n d : String} {st : AStmt} {ck : Bool} (hc : Cmd.eqn attr n d st ck ∈ mo.body.eqns) :
    ∃ (p2 : ProblemObj) (b : Block) (mo' : ModelObj) (i : Nat) (r : ERef) (e : SObj), s2.prs[j]? = some p2 ∧ p2.block = some b ∧ s2.w.ms[m]? = some mo' ∧
      dget mo'.eqns (n ++ "_" ++ mo.name) = some r ∧ b.equations[i]? = some r ∧ b.equationsList[i]? = some e ∧ s2.w.qs = s.w.qs ∧
      ∀ {K : Type} [Field K] [LinearOrder K] (I : Interp K) (ρ : Atom → K), e.expr.eval I ρ = Spec.handedNow I s.w m ρ st := by
  have hs := history_stated ho h
  have ho1 := h.stated hs
  generalize Many.history ops s = s1 at *
  rw [Many.on_some hp, Prod.mk.injEq] at hr
  obtain ⟨h1, rfl⟩ := hr
  have hres : resolve (s1.w.withPr p) = (.ok (), (resolve (s1.w.withPr p)).2) := Prod.ext h1 rfl
  obtain ⟨mo1, g1, g2, g3, _⟩ := hs.ms m mo hmo
  obtain ⟨b, mo', i, r, e, k1, k2, k3, k4, k5, k6, ⟨st0, k7⟩, k8⟩ := values_core hres
    (fun k hk => (by
      obtain ⟨mk, hk'⟩ := hall k hk
      obtain ⟨mk1, hk1, _⟩ := hs.ms k mk hk'
      exact ho1 k mk1 hk1))
    hmem (mo := mo1) g1 (by rw [g3]; exact hnd) (by rw [g3]; exact hns) (by rw [g3]; exact hc)
  have hjl : j < s1.prs.length := (List.getElem?_eq_some_iff.mp hp).1
  refine ⟨_, b, mo', i, r, e, by simp [hjl], k1, k2, by rw [← g2]; exact k3, k4, k5, k6.trans hs.qs, fun {K} _ _ I ρ => ?_⟩
  have k9 : st.toStmt s.w m = .ok st0 := Stated.toStmt (hs.trans ⟨rfl, rfl, fun _ mo h => ⟨mo, h, rfl, rfl, rfl, fun _ _ h => h⟩⟩ : Stated s.w (s1.w.withPr p)) k7
  rw [k8 I ρ, ← toStmt_now I ρ k7, ← toStmt_now I ρ k9]

/-- The model of `Ex.valued` in two problems, called and resolved several times. -/
def Ex.twoProblems : List MOp := [.newProblem "p", .newProblem "q"] ++ (Ex.valued.take 5).map (.on 0) ++ [.on 0 (.addModels (.leaf 0)), .on 1 (.addModels (.leaf 0))]
def Ex.between : List MOp := [.on 0 .resolve, .on 1 (.call 0), .on 1 .resolve, .newProblem "r", .on 0 .resolve]

example : (∀ o ∈ Ex.between, Spec.ProblemOrCall o) ∧ Spec.OnlyEquations (Many.history Ex.twoProblems { w := World.init }).w ∧
    ((Many.history Ex.between (Many.history Ex.twoProblems { w := World.init })).prs[1]?.map fun p => dvalues p.models) = some [0] ∧
    ((Many.history Ex.between (Many.history Ex.twoProblems { w := World.init })).on 1 resolve).1.toOption = some () := by
  refine ⟨?_, ?_, by decide +kernel, by decide +kernel⟩
  · intro o ho
    simp only [Ex.between, List.mem_cons, List.not_mem_nil, or_false] at ho
    rcases ho with rfl | rfl | rfl | rfl | rfl
    · exact .inl trivial
    · exact .inr ⟨_, _, rfl⟩
    · exact .inl trivial
    · exact .inl trivial
    · exact .inl trivial
  · have : ((Many.history Ex.twoProblems { w := World.init }).w.ms.map fun mo => (mo.inlets, mo.body)) =
      [([], { eqns := [Ex.eq_ "e" (.res (.bin .sub (Ex.at_ "x") (Ex.at_ "p")))] })] := by decide +kernel
    intro m mo hm
    have h1 : (((Many.history Ex.twoProblems { w := World.init }).w.ms.map fun mo => (mo.inlets, mo.body))[m]?) = some (mo.inlets, mo.body) := by
      rw [List.getElem?_map, hm]; rfl
    rw [this] at h1
    have h2 := List.mem_of_getElem? h1
    simp only [List.mem_singleton, Prod.mk.injEq] at h2
    refine ⟨mo, hm, h2.1, by rw [h2.2], by rw [h2.2], by rw [h2.2], fun c hc => ?_⟩
    rw [h2.2] at hc
    simp only [List.mem_singleton] at hc
    exact ⟨_, _, _, _, _, hc⟩

end Sloth
