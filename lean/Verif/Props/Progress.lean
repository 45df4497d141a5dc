import Verif.Props.ZeroDivision
import Verif.Props.Reports
import Verif.Props.Carried
import Verif.Props.Raises
import Verif.Props.Problems

/-!
# Sound programs do not raise (C102)

C10, C94 and C98 say what can go wrong when an exception is raised.  Here is the other direction: what a user has to observe so that nothing is raised.
Expressions whose units agree, that have a value somewhere, and that differentiate only with respect to unspecified quantities are accepted; a model class
whose methods declare quantities before they use them and state only such equations can be called, any number of times; a problem of such models can be resolved.
-/

namespace Sloth
open PyM

/-! ## Expressions -/

/-- No derivative is taken with respect to a quantity that has a value. -/
def Spec.FreeBelow : PyExpr → Prop
  | .q _ _ => True
  | .bin _ a b => FreeBelow a ∧ FreeBelow b
  | .binN _ a _ | .nbin _ _ a | .fn _ a | .mmN _ a _ => FreeBelow a
  | .diff _ _ none => True
  | .diff _ _ (some (_, t)) => t.isSpecified = false

/-- The two exceptions of `Diff` are raised only for a quantity without domain or for a specified independent variable. -/
theorem diff_refused (e : PyExpr) (hu : Spec.AllUnits UReachSI e) (hf : Spec.FreeBelow e) {err : Err} (h : e.build = .error err)
    (he : err = .absentRequiredObject ∨ err = .valueError) : Spec.dim e = none := by
  induction e with
  | q r x => simp [PyExpr.build] at h
  | bin op a b iha ihb =>
    simp only [PyExpr.build, bind_eq_error] at h
    rcases h with h | ⟨m, hm, h | ⟨k, hk, h⟩⟩
    · have := iha hu.1 hf.1 h
      cases op <;> simp [Spec.dim, this]
    · have := ihb hu.2 hf.2 h
      cases op <;> simp [Spec.dim, this]
    · rcases op_node_err (expr_unit_si a hu.1 hm) (expr_unit_si b hu.2 hk) h with ⟨rfl, -⟩ | rfl <;> simp at he
  | binN op a q iha =>
    simp only [PyExpr.build, bind_eq_error] at h
    rcases h with h | ⟨m, hm, h⟩
    · have := iha hu hf h
      cases op <;> simp [Spec.dim, this]
    · have := op_num_err h; subst this; simp at he
  | nbin op q a iha =>
    simp only [PyExpr.build, bind_eq_error] at h
    rcases h with h | ⟨m, hm, h⟩
    · have := iha hu hf h
      cases op <;> simp [Spec.dim, this]
    · rcases rop_err h with rfl | ⟨rfl, -⟩ <;> simp at he
  | fn f a iha =>
    simp only [PyExpr.build, bind_eq_error] at h
    rcases h with h | ⟨m, hm, h⟩
    · simp [Spec.dim, iha hu hf h]
    · simp only [applyFn, wrapper] at h
      split at h
      · simp at h
      · simp at h; subst h; simp at he
  | mmN isMax a q iha =>
    simp only [PyExpr.build, bind_eq_error] at h
    rcases h with h | ⟨m, hm, h⟩
    · simp [Spec.dim, iha hu hf h]
    · obtain ⟨r, hr, _⟩ := mmN_eq isMax m q
      rw [hr] at h; simp at h
  | diff r x ind =>
    simp only [PyExpr.build, Quantity.diff] at h
    split at h
    · unfold diffNode at h
      cases ind with
      | none => simp at h
      | some p =>
        obtain ⟨r', t⟩ := p
        simp only at h
        split at h
        · rename_i ht
          have : t.isSpecified = false := hf
          rw [this] at ht; cases ht
        · simp at h
    · rename_i hd
      cases ind with
      | none => simp [Spec.dim, hd]
      | some p => simp [Spec.dim, hd]

section
variable {K : Type} [Field K] [LinearOrder K] [IsStrictOrderedRing K]

/-- An expression in SI units of dimension `d` that has a value for some values of the unspecified quantities. -/
structure Spec.Fit (I : Interp K) (e : PyExpr) (d : Spec.Dim) : Prop where
  units : Spec.AllUnits UReachSI e
  powers : Spec.PlainPowers e
  dim : Spec.dim e = some d
  free : Spec.FreeBelow e
  value : ∃ ρ v, Spec.val I ρ e = some v

/-- C102: an expression whose units agree and that has a value somewhere is accepted. -/
theorem expr_accepted (I : Interp K) (hI : Spec.NoNegativePowers I) {e : PyExpr} {d : Spec.Dim} (h : Spec.Fit I e d) : ∃ n, e.build = .ok n := by
  cases hb : e.build with
  | ok n => exact ⟨n, rfl⟩
  | error err =>
    exfalso
    obtain ⟨h1, h2⟩ := expr_refused_partial e h.units h.powers hb
    rcases h1 with rfl | rfl | rfl | rfl | rfl
    · exact absurd h.dim (by simp [h2 (.inl rfl)])
    · exact absurd h.dim (by simp [h2 (.inr rfl)])
    · obtain ⟨ρ, v, hv⟩ := h.value
      rw [zero_division_undefined I hI ρ e h.units hb] at hv; cases hv
    · exact absurd h.dim (by simp [diff_refused e h.units h.free hb (.inl rfl)])
    · exact absurd h.dim (by simp [diff_refused e h.units h.free hb (.inr rfl)])

end

/-! ## Model classes -/

/-- The quantities a model has so far, under the names of its attributes. -/
abbrev Spec.Ctx := Dict String Quantity

/-- What the expression of a body means when the attributes of the model itself are these quantities (identities are left out). -/
def Spec.under (Γ : Spec.Ctx) : AExpr → Option PyExpr
  | .q p => if p.model = none then (dget Γ p.attr).map (.q 0) else none
  | .bin op a b => do some (.bin op (← under Γ a) (← under Γ b))
  | .binN op a n => do some (.binN op (← under Γ a) n)
  | .nbin op n a => do some (.nbin op n (← under Γ a))
  | .fn f a => do some (.fn f (← under Γ a))
  | .mmN k a n => do some (.mmN k (← under Γ a) n)
  | .diff x none => if x.model = none then (dget Γ x.attr).map (.diff 0 · none) else none
  | .diff x (some t) =>
    if x.model = none ∧ t.model = none then do some (.diff 0 (← dget Γ x.attr) (some (0, ← dget Γ t.attr))) else none

section
variable {K : Type} [Field K] [LinearOrder K] [IsStrictOrderedRing K]

/-- A statement whose sides have the same dimension and a value somewhere. -/
def Spec.Says (I : Interp K) (Γ : Spec.Ctx) : AStmt → Prop
  | .eqn l r => ∃ l' r' d, Spec.under Γ l = some l' ∧ Spec.under Γ r = some r' ∧ Spec.Fit I (.bin .sub l' r') d
  | .eqnNum l _ => ∃ l' d, Spec.under Γ l = some l' ∧ Spec.Fit I l' d
  | .res e => ∃ e' d, Spec.under Γ e = some e' ∧ Spec.Fit I e' d

/-- What the statements of a body have to observe; `o` is the name of the model. -/
inductive Spec.Step (I : Interp K) (o : String) (Γ : Spec.Ctx) : Cmd → Spec.Ctx → Prop
  | var (x : String) (a : VarArgs) (h : a.exposed = true → a.vtype = "input" ∨ a.vtype = "output") :
      Step I o Γ (.var x a) (dset Γ x (mkVariable (a.name ++ "_" ++ o) a.units a.description a.lower a.upper a.value a.exposed a.vtype
        (if a.latex = "" then a.name else a.latex) o))
  | par (x : String) (a : ParArgs) :
      Step I o Γ (.par x a) (dset Γ x (mkParameter (a.name ++ "_" ++ o) a.units a.description a.value (if a.latex = "" then a.name else a.latex) false o))
  | con (x : String) (a : ParArgs) :
      Step I o Γ (.con x a) (dset Γ x (mkConstant (a.name ++ "_" ++ o) a.units a.description a.value (if a.latex = "" then a.name else a.latex) false o))
  | float (x : String) (v : Rat) (u : Option UnitObj) (q : Quantity) (h : dget Γ x = some q) :
      Step I o Γ (.setValue { attr := x } (.float v) u) (dset Γ x { q with value := v, isSpecified := true })
  | int (x : String) (v : Int) (q : Quantity) (h : dget Γ x = some q) :
      Step I o Γ (.setValue { attr := x } (.int v) none) (dset Γ x { q with value := v, isSpecified := true })
  | dist (x : String) (q : Quantity) (h : dget Γ x = some q) : Step I o Γ (.distribute { attr := x }) (dset Γ x { q with hasDomain := true })
  | eqn (x name description : String) (st : AStmt) (check : Bool) (hx : dget Γ x = none) (h : Spec.Says I Γ st) :
      Step I o Γ (.eqn x name description st check) Γ

/-- The statements one after the other. -/
def Spec.Steps (I : Interp K) (o : String) : Spec.Ctx → List Cmd → Prop
  | _, [] => True
  | Γ, c :: t => ∃ Γ', Spec.Step I o Γ c Γ' ∧ Spec.Steps I o Γ' t

/-- A model class, as instantiated under the name `o`, whose four methods observe this. -/
def Spec.SoundClass (I : Interp K) (o : String) (b : Body) : Prop := Spec.Steps I o [] (b.cons ++ b.pars ++ b.vars ++ b.eqns)

/-- The identities forgotten. -/
def PyExpr.blank : PyExpr → PyExpr
  | .q _ x => .q 0 x
  | .bin op a b => .bin op a.blank b.blank
  | .binN op a n => .binN op a.blank n
  | .nbin op n a => .nbin op n a.blank
  | .fn f a => .fn f a.blank
  | .mmN k a n => .mmN k a.blank n
  | .diff _ x none => .diff 0 x none
  | .diff _ x (some t) => .diff 0 x (some (0, t.2))

omit [Field K] [LinearOrder K] [IsStrictOrderedRing K] in
theorem blank_dim (e : PyExpr) : Spec.dim e.blank = Spec.dim e := by
  induction e with
  | q r x => rfl
  | bin op a b iha ihb => cases op <;> simp [PyExpr.blank, Spec.dim, iha, ihb]
  | binN op a n iha => cases op <;> simp [PyExpr.blank, Spec.dim, iha]
  | nbin op n a iha => cases op <;> simp [PyExpr.blank, Spec.dim, iha]
  | fn f a iha => simp [PyExpr.blank, Spec.dim, iha]
  | mmN k a n iha => simp [PyExpr.blank, Spec.dim, iha]
  | diff r x t => cases t <;> rfl

theorem blank_val (I : Interp K) (ρ : Atom → K) (e : PyExpr) : Spec.val I ρ e.blank = Spec.val I ρ e := by
  induction e with
  | q r x => rfl
  | bin op a b iha ihb => simp [PyExpr.blank, Spec.val, iha, ihb]
  | binN op a n iha => simp [PyExpr.blank, Spec.val, iha]
  | nbin op n a iha => simp [PyExpr.blank, Spec.val, iha]
  | fn f a iha => simp [PyExpr.blank, Spec.val, iha]
  | mmN k a n iha => simp [PyExpr.blank, Spec.val, iha]
  | diff r x t => cases t <;> rfl

theorem blank_units (P : UnitObj → Prop) (e : PyExpr) : Spec.AllUnits P e.blank ↔ Spec.AllUnits P e := by
  induction e with
  | q r x => rfl
  | bin op a b iha ihb => simp only [PyExpr.blank, Spec.AllUnits, iha, ihb]
  | binN op a n iha => exact iha
  | nbin op n a iha => exact iha
  | fn f a iha => exact iha
  | mmN k a n iha => exact iha
  | diff r x t => cases t <;> rfl

theorem blank_powers (e : PyExpr) : Spec.PlainPowers e.blank ↔ Spec.PlainPowers e := by
  induction e with
  | q r x => rfl
  | bin op a b iha ihb => simp only [PyExpr.blank, Spec.PlainPowers, iha, ihb, blank_dim]
  | binN op a n iha => exact iha
  | nbin op n a iha => exact iha
  | fn f a iha => exact iha
  | mmN k a n iha => exact iha
  | diff r x t => cases t <;> exact Iff.rfl

theorem blank_free (e : PyExpr) : Spec.FreeBelow e.blank ↔ Spec.FreeBelow e := by
  induction e with
  | q r x => rfl
  | bin op a b iha ihb => simp only [PyExpr.blank, Spec.FreeBelow, iha, ihb]
  | binN op a n iha => exact iha
  | nbin op n a iha => exact iha
  | fn f a iha => exact iha
  | mmN k a n iha => exact iha
  | diff r x t => cases t <;> exact Iff.rfl

theorem Spec.Fit.unblank {I : Interp K} {e : PyExpr} {d : Spec.Dim} (h : Spec.Fit I e.blank d) : Spec.Fit I e d where
  units := (blank_units _ e).1 h.units
  powers := (blank_powers e).1 h.powers
  dim := (blank_dim e).symm.trans h.dim
  free := (blank_free e).1 h.free
  value := by
    obtain ⟨ρ, v, hv⟩ := h.value
    exact ⟨ρ, v, (blank_val I ρ e).symm.trans hv⟩

/-- The attributes of the model are these quantities, each an object of its own. -/
def Knows (Γ : Spec.Ctx) (o : String) (m : MRef) (w : World) : Prop :=
  ∃ mo : ModelObj, w.ms[m]? = some mo ∧ mo.name = o ∧
    (∀ a q, dget Γ a = some q → ∃ r : Ref, dget mo.attrs a = some (.qty r) ∧ w.qs[r]? = some q ∧ q.name ∈ mo.declared) ∧
    ∀ (a b : String) (r : Ref), (dget Γ a).isSome = true → (dget Γ b).isSome = true → dget mo.attrs a = some (.qty r) → dget mo.attrs b = some (.qty r) → a = b

theorem Knows.lookup {Γ : Spec.Ctx} {o : String} {m : MRef} {w : World} (h : Knows Γ o m w) {x : APath} (hx : x.model = none) {q : Quantity}
    (hq : dget Γ x.attr = some q) : ∃ r : Ref, w.lookup m x = .ok (r, q) ∧ w.qs[r]? = some q := by
  obtain ⟨mo, hm, -, ha, -⟩ := h
  obtain ⟨r, h1, h2, -⟩ := ha _ _ hq
  refine ⟨r, ?_, h2⟩
  unfold World.lookup
  simp only [hx, Option.getD_none, hm, h1, h2]

/-- All quantities of the expression are declared in the model. -/
def Among (mo : ModelObj) (w : World) (e : PyExpr) : Prop := ∀ p ∈ Spec.quantities e, w.qs[p.1]? = some p.2 ∧ p.2.name ∈ mo.declared

theorem Knows.toPy {Γ : Spec.Ctx} {o : String} {m : MRef} {w : World} (h : Knows Γ o m w) {mo : ModelObj} (hm : w.ms[m]? = some mo) (x : AExpr) {e : PyExpr}
    (hx : Spec.under Γ x = some e) : ∃ e', x.toPy w m = .ok e' ∧ e'.blank = e ∧ Among mo w e' := by
  have hname : ∀ (y : APath) (r : Ref) (q : Quantity), w.lookup m y = .ok (r, q) → y.model = none → (∃ q', dget Γ y.attr = some q') → w.qs[r]? = some q ∧ q.name ∈ mo.declared := by
    intro y r q hl hy ⟨q', hq'⟩
    obtain ⟨mo', hm', -, ha, -⟩ := h
    obtain rfl : mo = mo' := Option.some.inj (hm.symm.trans hm')
    obtain ⟨r', h1, h2, h3⟩ := ha _ _ hq'
    unfold World.lookup at hl
    simp only [hy, Option.getD_none, hm, h1, h2] at hl
    cases hl
    exact ⟨h2, h3⟩
  induction x generalizing e with
  | q p =>
    simp only [Spec.under] at hx
    split at hx
    · rename_i hp
      obtain ⟨q, hq, rfl⟩ := Option.map_eq_some_iff.1 hx
      obtain ⟨r, h1, h2⟩ := h.lookup hp hq
      refine ⟨.q r q, by simp [AExpr.toPy, h1], rfl, ?_⟩
      intro p' hp'
      simp only [Spec.quantities, List.mem_singleton] at hp'
      subst hp'
      exact hname _ _ _ h1 hp ⟨q, hq⟩
    · cases hx
  | bin op a b iha ihb =>
    simp only [Spec.under, Option.bind_eq_bind, Option.bind_eq_some_iff, Option.some.injEq] at hx
    obtain ⟨a', ha, b', hb, rfl⟩ := hx
    obtain ⟨x, h1, h2, h3⟩ := iha ha
    obtain ⟨y, k1, k2, k3⟩ := ihb hb
    refine ⟨.bin op x y, by simp [AExpr.toPy, h1, k1], by simp [PyExpr.blank, h2, k2], fun p hp => ?_⟩
    exact (List.mem_append.1 hp).elim (h3 p) (k3 p)
  | binN op a n iha =>
    simp only [Spec.under, Option.bind_eq_bind, Option.bind_eq_some_iff, Option.some.injEq] at hx
    obtain ⟨a', ha, rfl⟩ := hx
    obtain ⟨x, h1, h2, h3⟩ := iha ha
    exact ⟨.binN op x n, by simp [AExpr.toPy, h1], by simp [PyExpr.blank, h2], h3⟩
  | nbin op n a iha =>
    simp only [Spec.under, Option.bind_eq_bind, Option.bind_eq_some_iff, Option.some.injEq] at hx
    obtain ⟨a', ha, rfl⟩ := hx
    obtain ⟨x, h1, h2, h3⟩ := iha ha
    exact ⟨.nbin op n x, by simp [AExpr.toPy, h1], by simp [PyExpr.blank, h2], h3⟩
  | fn f a iha =>
    simp only [Spec.under, Option.bind_eq_bind, Option.bind_eq_some_iff, Option.some.injEq] at hx
    obtain ⟨a', ha, rfl⟩ := hx
    obtain ⟨x, h1, h2, h3⟩ := iha ha
    exact ⟨.fn f x, by simp [AExpr.toPy, h1], by simp [PyExpr.blank, h2], h3⟩
  | mmN k a n iha =>
    simp only [Spec.under, Option.bind_eq_bind, Option.bind_eq_some_iff, Option.some.injEq] at hx
    obtain ⟨a', ha, rfl⟩ := hx
    obtain ⟨x, h1, h2, h3⟩ := iha ha
    exact ⟨.mmN k x n, by simp [AExpr.toPy, h1], by simp [PyExpr.blank, h2], h3⟩
  | diff x t =>
    cases t with
    | none =>
      simp only [Spec.under] at hx
      split at hx
      · rename_i hp
        obtain ⟨q, hq, rfl⟩ := Option.map_eq_some_iff.1 hx
        obtain ⟨r, h1, h2⟩ := h.lookup hp hq
        refine ⟨.diff r q none, by simp [AExpr.toPy, h1], rfl, ?_⟩
        intro p' hp'
        simp only [Spec.quantities, List.mem_singleton] at hp'
        subst hp'
        exact hname _ _ _ h1 hp ⟨q, hq⟩
      · cases hx
    | some t =>
      simp only [Spec.under] at hx
      split at hx
      · rename_i hp
        simp only [Option.bind_eq_bind, Option.bind_eq_some_iff, Option.some.injEq] at hx
        obtain ⟨q, hq, q', hq', rfl⟩ := hx
        obtain ⟨r, h1, h2⟩ := h.lookup hp.1 hq
        obtain ⟨r', h1', h2'⟩ := h.lookup hp.2 hq'
        refine ⟨.diff r q (some (r', q')), by simp [AExpr.toPy, h1, h1'], rfl, ?_⟩
        intro p' hp'
        simp only [Spec.quantities, List.mem_singleton] at hp'
        subst hp'
        exact hname _ _ _ h1 hp.1 ⟨q, hq⟩
      · cases hx

/-- A statement that observes the rules can be stated, and mentions only what the model has declared. -/
theorem Knows.stmt (I : Interp K) (hI : Spec.NoNegativePowers I) {Γ : Spec.Ctx} {o : String} {m : MRef} {w : World} (h : Knows Γ o m w) {mo : ModelObj}
    (hm : w.ms[m]? = some mo) {st : AStmt} (hs : Spec.Says I Γ st) :
    ∃ st' a, st.toStmt w m = .ok st' ∧ st'.arg = .ok a ∧ (∀ t e, (EqObj.setResidual t e a).1 = .ok ()) ∧
      ∀ x ∈ Spec.parts st', Among mo w x := by
  have hfin : ∀ (e : EqObj) (n : ENode), e.expr = some n → (EqObj.finish e).1 = .ok () := fun e n hn => by unfold EqObj.finish; rw [hn]
  cases st with
  | eqn l r =>
    obtain ⟨l', r', d, hl, hr, hf⟩ := hs
    obtain ⟨l1, h1, rfl, h3⟩ := h.toPy hm l hl
    obtain ⟨r1, k1, rfl, k3⟩ := h.toPy hm r hr
    obtain ⟨n, hn⟩ := expr_accepted I hI (Spec.Fit.unblank (e := .bin .sub l1 r1) hf)
    simp only [PyExpr.build, bind_eq_ok] at hn
    obtain ⟨a, ha, b, hb, hn⟩ := hn
    refine ⟨.eqn l1 r1, .eqn a b, by simp [AStmt.toStmt, h1, k1], by simp [Stmt.arg, ha, hb], fun t e => ?_, ?_⟩
    · have hd : a.sub (.node b) = .ok n := hn
      simp only [EqObj.setResidual, hd]
      exact hfin _ n rfl
    · simp only [Spec.parts, List.mem_cons, List.not_mem_nil, or_false, forall_eq_or_imp, forall_eq]
      exact ⟨h3, k3⟩
  | eqnNum l q =>
    obtain ⟨l', d, hl, hf⟩ := hs
    obtain ⟨l1, h1, rfl, h3⟩ := h.toPy hm l hl
    have hf := hf.unblank
    obtain ⟨a, ha⟩ := expr_accepted I hI hf
    have ua := expr_unit_si l1 hf.units ha
    refine ⟨.eqnNum l1 q, .eqnNum a q, by simp [AStmt.toStmt, h1], by simp [Stmt.arg, ha], fun t e => ?_, ?_⟩
    · obtain ⟨n, hd⟩ : ∃ n, a.sub (.node (EqObj.numNode t q a.unit)) = .ok n := by
        simp only [ENode.sub, EqObj.numNode, sub_SI ua ua]
        simp
      simp only [EqObj.setResidual, hd]
      exact hfin _ n rfl
    · simp only [Spec.parts, List.mem_cons, List.not_mem_nil, or_false, forall_eq]
      exact h3
  | res x =>
    obtain ⟨l', d, hl, hf⟩ := hs
    obtain ⟨l1, h1, rfl, h3⟩ := h.toPy hm x hl
    obtain ⟨a, ha⟩ := expr_accepted I hI hf.unblank
    refine ⟨.res l1, .node a, by simp [AStmt.toStmt, h1], by simp [Stmt.arg, ha], fun t e => ?_, ?_⟩
    · simp only [EqObj.setResidual]
      exact hfin _ a rfl
    · simp only [Spec.parts, List.mem_cons, List.not_mem_nil, or_false, forall_eq]
      exact h3

/-- A declaration adds what it says. -/
theorem Knows.add {Γ : Spec.Ctx} {o : String} {m : MRef} {w : World} (h : Knows Γ o m w) {mo mo' : ModelObj} (hm : w.ms[m]? = some mo) {x : String} {q : Quantity}
    (hn : mo'.name = mo.name) (ha : mo'.attrs = dset mo.attrs x (.qty w.qs.length)) (hd : ∀ k ∈ mo.declared, k ∈ mo'.declared) (hq : q.name ∈ mo'.declared) :
    Knows (dset Γ x q) o m ((w.addQ q).withM m mo') := by
  obtain ⟨mo1, hm1, ho, h1, h2⟩ := h
  obtain rfl : mo = mo1 := Option.some.inj (hm.symm.trans hm1)
  have hlt : ∀ (a : String) (r : Ref), (dget Γ a).isSome = true → dget mo.attrs a = some (.qty r) → r < w.qs.length := by
    intro a r hs hr
    obtain ⟨q', hq'⟩ := Option.isSome_iff_exists.1 hs
    obtain ⟨r', k1, k2, -⟩ := h1 a q' hq'
    rw [hr] at k1; cases k1
    exact (List.getElem?_eq_some_iff.1 k2).1
  refine ⟨mo', withM_getM (w := w.addQ q) hm mo', hn.trans ho, ?_, ?_⟩
  · intro a q' hg
    rw [ha]
    by_cases hax : a = x
    · subst hax
      rw [dget_dset_self] at hg; cases hg
      exact ⟨w.qs.length, dget_dset_self _ _ _, by simp [World.withM, World.addQ], hq⟩
    · rw [dget_dset_ne _ _ (Ne.symm hax)] at hg
      obtain ⟨r, k1, k2, k3⟩ := h1 a q' hg
      refine ⟨r, by rw [dget_dset_ne _ _ (Ne.symm hax)]; exact k1, ?_, hd _ k3⟩
      show (w.qs ++ [q])[r]? = some q'
      rw [List.getElem?_append_left (List.getElem?_eq_some_iff.1 k2).1]; exact k2
  · intro a b r hsa hsb hra hrb
    rw [ha] at hra hrb
    by_cases hax : a = x
    · by_cases hbx : b = x
      · rw [hax, hbx]
      · subst hax
        rw [dget_dset_self] at hra; cases hra
        rw [dget_dset_ne _ _ (Ne.symm hbx)] at hrb hsb
        exact absurd (hlt b _ hsb hrb) (lt_irrefl _)
    · rw [dget_dset_ne _ _ (Ne.symm hax)] at hra hsa
      by_cases hbx : b = x
      · subst hbx
        rw [dget_dset_self] at hrb; cases hrb
        exact absurd (hlt a _ hsa hra) (lt_irrefl _)
      · rw [dget_dset_ne _ _ (Ne.symm hbx)] at hrb hsb
        exact h2 a b r hsa hsb hra hrb

/-- So does changing one of the quantities. -/
theorem Knows.change {Γ : Spec.Ctx} {o : String} {m : MRef} {w : World} (h : Knows Γ o m w) {x : String} {q q' : Quantity} {r : Ref} (hx : dget Γ x = some q)
    (hl : w.lookup m { attr := x } = .ok (r, q)) (hn : q'.name = q.name) : Knows (dset Γ x q') o m { w with qs := w.qs.set r q' } := by
  obtain ⟨mo, hm, ho, h1, h2⟩ := h
  have hr : dget mo.attrs x = some (.qty r) := by
    obtain ⟨r', k1, k2, -⟩ := h1 x q hx
    unfold World.lookup at hl
    simp only [Option.getD_none, hm, k1, k2] at hl
    cases hl
    exact k1
  have hmem : ∀ a, (dget (dset Γ x q') a).isSome = true → (dget Γ a).isSome = true := by
    intro a hs
    by_cases hax : a = x
    · subst hax; rw [hx]; rfl
    · rwa [dget_dset_ne _ _ (Ne.symm hax)] at hs
  refine ⟨mo, hm, ho, ?_, fun a b s hsa hsb => h2 a b s (hmem a hsa) (hmem b hsb)⟩
  intro a q1 hg
  by_cases hax : a = x
  · subst hax
    rw [dget_dset_self] at hg; cases hg
    obtain ⟨r', k1, k2, k3⟩ := h1 a q hx
    obtain rfl : r' = r := by rw [hr] at k1; cases k1; rfl
    refine ⟨r', k1, ?_, hn ▸ k3⟩
    show (w.qs.set r' q')[r']? = some q'
    exact List.getElem?_set_self (List.getElem?_eq_some_iff.1 k2).1
  · rw [dget_dset_ne _ _ (Ne.symm hax)] at hg
    obtain ⟨s, k1, k2, k3⟩ := h1 a q1 hg
    refine ⟨s, k1, ?_, k3⟩
    have hne : r ≠ s := by
      rintro rfl
      exact hax (h2 a x r (by rw [hg]; rfl) (by rw [hx]; rfl) k1 hr)
    show (w.qs.set r q')[s]? = some q1
    rw [List.getElem?_set_ne hne]; exact k2

omit [Field K] [LinearOrder K] [IsStrictOrderedRing K] in
/-- An equation between declared quantities is taken. -/
theorem createEquation_accepts {w : World} {m : MRef} {mo : ModelObj} (hm : w.ms[m]? = some mo) (name description : String) (check : Bool) {st : Stmt}
    {a : ResArg} (ha : st.arg = .ok a) (hok : ∀ tag e, (EqObj.setResidual tag e a).1 = .ok ())
    (hd : ∀ x ∈ Spec.parts st, ∀ p ∈ Spec.quantities x, Spec.Declared mo p.2.name) :
    ∃ e u, createEquation m name description (some a) check w =
      (.ok w.es.length, ((w.withUid u).addE e).withM m (mo.storeEqn e.name w.es.length)) ∧
      ∀ d, e.objects = some d → ∀ p ∈ d, ∃ x ∈ Spec.parts st, ∃ y ∈ Spec.quantities x, y.1 = p.2 := by
  unfold createEquation
  rw [PyM.bind_of_ok (getM_of hm)]
  obtain ⟨t, u, ht⟩ := tagIf_run (name == "") w
  rw [PyM.bind_of_ok ht]
  obtain ⟨t', u', ht'⟩ := tagIf_run (ResArg.needsTag (some a)) (w.withUid u)
  rw [PyM.bind_of_ok ht']
  have h1 := hok t' { name := if name = "" then t else name, description }
  obtain ⟨e1, he1⟩ : ∃ e1, EqObj.setResidual t' { name := if name = "" then t else name, description } a = (.ok (), e1) := ⟨_, Prod.ext h1 rfl⟩
  have hi : EqObj.init t t' name description (some a) mo.name = .ok { e1 with owner := mo.name } := by simp only [EqObj.init, he1]
  obtain ⟨n, hn, _, _, _, _, _, _, hq, _⟩ := stmt_free st t' _ e1 ha he1
  rw [hi, PyM.bind_lift_ok]
  have hs : EqObj.sweep { e1 with owner := mo.name, name := e1.name ++ "_" ++ mo.name } =
      .ok { e1 with owner := mo.name, name := e1.name ++ "_" ++ mo.name, objects := some n.symMap } := by
    simp only [EqObj.sweep, hn]
  rw [hs, PyM.bind_lift_ok]
  have hall : (dkeys n.symMap).all (fun k => mo.declared.contains k) = true := by
    rw [List.all_eq_true]
    intro s hs
    obtain ⟨x, hx, p, hp, rfl⟩ := (hq s).mp hs
    exact List.contains_iff_mem.mpr ((declared_iff mo _).2 (hd x hx p hp))
  refine ⟨{ e1 with owner := mo.name, name := e1.name ++ "_" ++ mo.name, objects := some n.symMap }, u', ?_, ?_⟩
  swap
  · obtain ⟨n', hn', hnd, hmap⟩ := Stmt.maps st ha he1
    obtain rfl : n = n' := Option.some.inj (hn.symm.trans hn')
    intro d hd p hp
    cases hd
    have h := hmap p.1
    rw [dget_of_mem hnd hp] at h
    have h := mem_of_dget h.symm
    simp only [List.mem_reverse, List.mem_map, Spec.occurring, List.mem_flatMap] at h
    obtain ⟨y, ⟨x, hx, hy⟩, hp'⟩ := h
    exact ⟨x, hx, y, hy, congrArg Prod.snd hp'⟩
  cases check with
  | false => rfl
  | true =>
    simp only [PyM.when_true, ModelObj.checkEquation]
    rw [if_pos hall]
    rfl

/-- Equations refer to existing quantities. -/
def Spec.Grounded (w : World) : Prop := ∀ e ∈ w.es, ∀ d, e.objects = some d → ∀ p ∈ d, p.2 < w.qs.length

omit [Field K] [LinearOrder K] [IsStrictOrderedRing K] in
theorem Spec.Grounded.keep {w w' : World} (h : Spec.Grounded w) (he : w'.es = w.es) (hq : w.qs.length ≤ w'.qs.length) : Spec.Grounded w' :=
  fun e hm d hd p hp => lt_of_lt_of_le (h e (he ▸ hm) d hd p hp) hq

omit [Field K] [LinearOrder K] [IsStrictOrderedRing K] in
theorem Spec.Grounded.more {w w' : World} (h : Spec.Grounded w) {e : EqObj} (he : w'.es = w.es ++ [e]) (hq : w.qs.length ≤ w'.qs.length)
    (hd : ∀ d, e.objects = some d → ∀ p ∈ d, p.2 < w'.qs.length) : Spec.Grounded w' := fun x hx d hxd p hp => by
  rw [he, List.mem_append, List.mem_singleton] at hx
  rcases hx with hx | rfl
  · exact lt_of_lt_of_le (h x hx d hxd p hp) hq
  · exact hd d hxd p hp

/-- What calls of sound classes keep. -/
def Keeps (w w' : World) : Prop := (Spec.Grounded w → Spec.Grounded w') ∧ w'.ms.length = w.ms.length

omit [Field K] [LinearOrder K] [IsStrictOrderedRing K] in
theorem Keeps.trans {a b c : World} (h : Keeps a b) (h' : Keeps b c) : Keeps a c := ⟨h'.1 ∘ h.1, h'.2.trans h.2⟩

/-- A statement that observes the rules does not raise and does what it says. -/
theorem Knows.step (I : Interp K) (hI : Spec.NoNegativePowers I) {Γ Γ' : Spec.Ctx} {o : String} {m : MRef} {w : World} (h : Knows Γ o m w) {c : Cmd}
    (hc : Spec.Step I o Γ c Γ') : ∃ w', c.run m w = (.ok (), w') ∧ Knows Γ' o m w' ∧ Keeps w w' := by
  obtain ⟨mo, hm, ho, h1, h2⟩ := id h
  subst ho
  cases hc with
  | var x a ha =>
    have hrun := createVariable_run hm a
    rw [if_neg (by rintro ⟨k1, k2, k3⟩; rcases ha k1 with k | k <;> contradiction)] at hrun
    have hg := withM_getM (w := w.addQ (a.quantity mo.name)) hm ((mo.storeVar (a.quantity mo.name).name w.qs.length).exposeAs a w.qs.length)
    have he : Cmd.run m (.var x a) w = (.ok (), (w.addQ (a.quantity mo.name)).withM m { ((mo.storeVar (a.quantity mo.name).name w.qs.length).exposeAs a w.qs.length) with
        attrs := dset ((mo.storeVar (a.quantity mo.name).name w.qs.length).exposeAs a w.qs.length).attrs x (.qty w.qs.length) }) := by
      show (createVariable m a >>= fun r => setAttr m x (.qty r)) w = _
      rw [PyM.bind_of_ok hrun, setAttr_run hg, World.withM_withM]
    refine ⟨_, he, h.add hm (q := a.quantity mo.name) ?_ ?_ ?_ ?_, ⟨fun hg => hg.keep rfl (by simp [World.withM, World.addQ]), by simp [World.withM, World.addQ]⟩⟩
    · simp only [ModelObj.exposeAs]; split_ifs <;> rfl
    · simp only [ModelObj.exposeAs]; split_ifs <;> rfl
    · intro k hk
      have : k ∈ (mo.storeVar (a.quantity mo.name).name w.qs.length).declared := by
        simp only [ModelObj.declared, ModelObj.storeVar, List.mem_append, mem_dkeys_dset] at hk ⊢
        tauto
      simp only [ModelObj.exposeAs]; split_ifs <;> exact this
    · have : (a.quantity mo.name).name ∈ (mo.storeVar (a.quantity mo.name).name w.qs.length).declared := by
        simp [ModelObj.declared, ModelObj.storeVar, List.mem_append, mem_dkeys_dset]
      simp only [ModelObj.exposeAs]; split_ifs <;> exact this
  | par x a =>
    have hg := withM_getM (w := w.addQ (a.parameter mo.name)) hm (mo.storePar (a.parameter mo.name).name w.qs.length)
    have he : Cmd.run m (.par x a) w = (.ok (), (w.addQ (a.parameter mo.name)).withM m { (mo.storePar (a.parameter mo.name).name w.qs.length) with
        attrs := dset mo.attrs x (.qty w.qs.length) }) := by
      show (createParameter m a >>= fun r => setAttr m x (.qty r)) w = _
      rw [PyM.bind_of_ok (createParameter_run hm a), setAttr_run hg, World.withM_withM]
      rfl
    refine ⟨_, he, h.add hm (q := a.parameter mo.name) rfl rfl (fun k hk => ?_) ?_, ⟨fun hg => hg.keep rfl (by simp [World.withM, World.addQ]), by simp [World.withM, World.addQ]⟩⟩
    · simp only [ModelObj.declared, ModelObj.storePar, List.mem_append, mem_dkeys_dset] at hk ⊢
      tauto
    · simp [ModelObj.declared, ModelObj.storePar, List.mem_append, mem_dkeys_dset]
  | con x a =>
    have hg := withM_getM (w := w.addQ (a.constant mo.name)) hm (mo.storeCon (a.constant mo.name).name w.qs.length)
    have he : Cmd.run m (.con x a) w = (.ok (), (w.addQ (a.constant mo.name)).withM m { (mo.storeCon (a.constant mo.name).name w.qs.length) with
        attrs := dset mo.attrs x (.qty w.qs.length) }) := by
      show (createConstant m a >>= fun r => setAttr m x (.qty r)) w = _
      rw [PyM.bind_of_ok (createConstant_run hm a), setAttr_run hg, World.withM_withM]
      rfl
    refine ⟨_, he, h.add hm (q := a.constant mo.name) rfl rfl (fun k hk => ?_) ?_, ⟨fun hg => hg.keep rfl (by simp [World.withM, World.addQ]), by simp [World.withM, World.addQ]⟩⟩
    · simp only [ModelObj.declared, ModelObj.storeCon, List.mem_append, mem_dkeys_dset] at hk ⊢
      tauto
    · simp [ModelObj.declared, ModelObj.storeCon, List.mem_append, mem_dkeys_dset]
  | float x v u q hx =>
    obtain ⟨r, hl, hq⟩ := h.lookup (x := { attr := x }) rfl hx
    refine ⟨_, ?_, h.change (q' := { q with value := v, isSpecified := true }) hx hl rfl, ⟨fun hg => hg.keep rfl (by simp), rfl⟩⟩
    show (lookupM m { attr := x } >>= fun y => AVal.eval m (.float v) >>= fun v => setValueM y.1 v u) w = _
    rw [PyM.bind_of_ok (a := (r, q)) (w1 := w) (by unfold lookupM; rw [hl])]
    rw [PyM.bind_of_ok (a := .float v) (w1 := w) (by rfl)]
    unfold setValueM
    rw [PyM.bind_of_ok (getQ_of hq)]
    rfl
  | int x v q hx =>
    obtain ⟨r, hl, hq⟩ := h.lookup (x := { attr := x }) rfl hx
    refine ⟨_, ?_, h.change (q' := { q with value := v, isSpecified := true }) hx hl rfl, ⟨fun hg => hg.keep rfl (by simp), rfl⟩⟩
    show (lookupM m { attr := x } >>= fun y => AVal.eval m (.int v) >>= fun v => setValueM y.1 v none) w = _
    rw [PyM.bind_of_ok (a := (r, q)) (w1 := w) (by unfold lookupM; rw [hl])]
    rw [PyM.bind_of_ok (a := .int v) (w1 := w) (by rfl)]
    unfold setValueM
    rw [PyM.bind_of_ok (getQ_of hq)]
    rfl
  | dist x q hx =>
    obtain ⟨r, hl, hq⟩ := h.lookup (x := { attr := x }) rfl hx
    refine ⟨_, ?_, h.change (q' := { q with hasDomain := true }) hx hl rfl, ⟨fun hg => hg.keep rfl (by simp), rfl⟩⟩
    show (lookupM m { attr := x } >>= fun y => distributeM y.1) w = _
    rw [PyM.bind_of_ok (a := (r, q)) (w1 := w) (by unfold lookupM; rw [hl])]
    unfold distributeM
    rw [PyM.bind_of_ok (getQ_of hq)]
    rfl
  | eqn x name description st check hx hs =>
    obtain ⟨st', a, k1, k2, k3, k4⟩ := h.stmt I hI hm hs
    have hev : st.eval m w = (.ok a, w) := by
      unfold AStmt.eval
      rw [k1]
      exact Prod.ext k2 rfl
    have hdecl : ∀ x ∈ Spec.parts st', ∀ p ∈ Spec.quantities x, Spec.Declared mo p.2.name := fun y hy p hp => (declared_iff mo _).1 (k4 y hy p hp).2
    obtain ⟨e', u, hce, hobj⟩ := createEquation_accepts hm name description check k2 k3 hdecl
    have hg := withM_getM (w := (w.withUid u).addE e') hm (mo.storeEqn e'.name w.es.length)
    refine ⟨((w.withUid u).addE e').withM m { (mo.storeEqn e'.name w.es.length) with attrs := dset mo.attrs x (.eqn w.es.length) }, ?_, ?_, ⟨fun hgr => hgr.more rfl le_rfl fun d hd p hp => ?_, by simp [World.withM, World.addE, World.withUid]⟩⟩
    · show (st.eval m >>= fun a => createEquation m name description (some a) check >>= fun r => setAttr m x (.eqn r)) w = _
      rw [PyM.bind_of_ok hev, PyM.bind_of_ok hce, setAttr_run hg, World.withM_withM]
      rfl
    · have hne : ∀ a, (dget Γ a).isSome = true → a ≠ x := by rintro a ha rfl; rw [hx] at ha; cases ha
      refine ⟨_, withM_getM (w := (w.withUid u).addE e') hm _, rfl, ?_, ?_⟩
      · intro b q hq
        obtain ⟨r, g1, g2, g3⟩ := h1 b q hq
        refine ⟨r, ?_, g2, g3⟩
        show dget (dset mo.attrs x _) b = _
        rw [dget_dset_ne _ _ (Ne.symm (hne b (by rw [hq]; rfl)))]; exact g1
      · intro b c r hb hc hrb hrc
        have g1 : dget (dset mo.attrs x (.eqn w.es.length)) b = some (.qty r) := hrb
        have g2 : dget (dset mo.attrs x (.eqn w.es.length)) c = some (.qty r) := hrc
        rw [dget_dset_ne _ _ (Ne.symm (hne b hb))] at g1
        rw [dget_dset_ne _ _ (Ne.symm (hne c hc))] at g2
        exact h2 b c r hb hc g1 g2

    · obtain ⟨y, hy, z, hz, hzp⟩ := hobj d hd p hp
      rw [← hzp]
      exact (List.getElem?_eq_some_iff.1 (k4 y hy z hz).1).1

/-- Several statements. -/
theorem Knows.steps (I : Interp K) (hI : Spec.NoNegativePowers I) {o : String} {m : MRef} (l t : List Cmd) : ∀ {Γ : Spec.Ctx} {w : World}, Knows Γ o m w →
    Spec.Steps I o Γ (l ++ t) → ∃ w' Γ', each l (Cmd.run m) w = (.ok (), w') ∧ Knows Γ' o m w' ∧ Spec.Steps I o Γ' t ∧ Keeps w w' := by
  induction l with
  | nil => exact fun {Γ w} h hs => ⟨w, Γ, rfl, h, hs, id, rfl⟩
  | cons c l ih =>
    intro Γ w h hs
    obtain ⟨Γ1, h1, h2⟩ := hs
    obtain ⟨w1, r1, k1, g1⟩ := h.step I hI h1
    obtain ⟨w2, Γ2, r2, k2, s2, g2⟩ := ih k1 h2
    refine ⟨w2, Γ2, ?_, k2, s2, g1.trans g2⟩
    show (Cmd.run m c >>= fun _ => each l (Cmd.run m)) w = _
    rw [PyM.bind_of_ok r1, r2]

/-- C102: a model without inlets whose class observes the rules can be called at any time, so also repeatedly. -/
theorem call_accepted (I : Interp K) (hI : Spec.NoNegativePowers I) {w : World} {m : MRef} {mo : ModelObj} (hm : w.ms[m]? = some mo) (hi : mo.inlets = [])
    (hb : Spec.SoundClass I mo.name mo.body) : ∃ w', Model.call m w = (.ok (), w') ∧ Keeps w w' := by
  have h0 : Knows [] mo.name m w := ⟨mo, hm, rfl, fun a q h => by simp [dget] at h, fun a b r h => by simp [dget] at h⟩
  have hb : Spec.Steps I mo.name [] (mo.body.cons ++ (mo.body.pars ++ (mo.body.vars ++ (mo.body.eqns ++ [])))) := by
    simpa [Spec.SoundClass, List.append_assoc] using hb
  have hk : ∀ l, Pres Onward (each l (Cmd.run m)) := fun l w => ⟨le_stable.cmds m l w, (sameInlets_elem.stable trivial).cmds m l w⟩
  obtain ⟨w1, Γ1, r1, k1, s1, g1⟩ := h0.steps I hI _ _ hb
  obtain ⟨w2, Γ2, r2, k2, s2, g2⟩ := k1.steps I hI _ _ s1
  obtain ⟨w3, Γ3, r3, k3, s3, g3⟩ := k2.steps I hI _ _ s2
  obtain ⟨w4, Γ4, r4, k4, s4, g4⟩ := k3.steps I hI _ _ s3
  have o1 := hk mo.body.cons w
  have o2 := hk mo.body.pars w1
  have o3 := hk mo.body.vars w2
  rw [r1] at o1; rw [r2] at o2; rw [r3] at o3
  obtain ⟨mo', hm', hin⟩ := (onward_preRel.trans _ _ _ (onward_preRel.trans _ _ _ o1 o2) o3).2 m mo hm
  obtain ⟨mo'', hm'', hle⟩ := (onward_preRel.trans _ _ _ (onward_preRel.trans _ _ _ o1 o2) o3).1.ms m mo hm
  obtain rfl : mo' = mo'' := Option.some.inj (hm'.symm.trans hm'')
  refine ⟨w4, ?_, ((g1.trans g2).trans g3).trans g4⟩
  unfold Model.call
  rw [PyM.bind_of_ok (getM_of hm), PyM.bind_of_ok r1, PyM.bind_of_ok r2, PyM.bind_of_ok r3, PyM.bind_of_ok (getM_of hm'), hin, hi]
  rw [PyM.bind_of_ok (a := ()) (w1 := w3) (by rfl), hle.body, r4]

/-- What holds at any time of a session of sound classes. -/
structure Spec.Good (I : Interp K) (w : World) : Prop where
  whole : w.Whole
  pr : w.pr.WF w
  grounded : Spec.Grounded w
  ports : 0 < w.ps.length
  models : ∀ (m : MRef) (mo : ModelObj), w.ms[m]? = some mo → mo.inlets = [] ∧ Spec.SoundClass I mo.name mo.body

theorem reload_accepted (I : Interp K) (hI : Spec.NoNegativePowers I) : ∀ (l : List MRef) (w : World),
    (∀ m ∈ l, ∃ mo, w.ms[m]? = some mo ∧ mo.inlets = [] ∧ Spec.SoundClass I mo.name mo.body) →
    ∃ w', each l Model.call w = (.ok (), w') ∧ Keeps w w'
  | [], w, _ => ⟨w, rfl, id, rfl⟩
  | m :: t, w, hl => by
    obtain ⟨mo, hm, hi, hb⟩ := hl m (List.mem_cons_self ..)
    obtain ⟨w1, r1, g1⟩ := call_accepted I hI hm hi hb
    have o1 : w.Le w1 ∧ SameInlets w w1 := by
      have h1 := le_stable.call m w
      have h2 := (sameInlets_elem.stable trivial).call m w
      rw [r1] at h1 h2
      exact ⟨h1, h2⟩
    obtain ⟨w2, r2, g2⟩ := reload_accepted I hI t w1 fun k hk => by
      obtain ⟨mo, hm, hi, hb⟩ := hl k (List.mem_cons_of_mem _ hk)
      obtain ⟨m1, h1, e1⟩ := o1.2 k mo hm
      obtain ⟨m2, h2, e2⟩ := o1.1.ms k mo hm
      obtain rfl : m1 = m2 := Option.some.inj (h1.symm.trans h2)
      exact ⟨m1, h1, e1.trans hi, by rw [e2.name, e2.body]; exact hb⟩
    refine ⟨w2, ?_, g1.trans g2⟩
    show (Model.call m >>= fun _ => each t Model.call) w = _
    rw [PyM.bind_of_ok r1, r2]

/-- C102: a problem of models that observe the rules can be resolved. -/
theorem resolve_accepted (I : Interp K) (hI : Spec.NoNegativePowers I) {w : World} (hw : w.Whole) (hp : w.pr.WF w) (hg : Spec.Grounded w)
    (hm : ∀ m ∈ dvalues w.pr.models, ∀ mo, w.ms[m]? = some mo → mo.inlets = [] ∧ Spec.SoundClass I mo.name mo.body) :
    ∃ w', resolve w = (.ok (), w') ∧ Keeps w w' := by
  have hex : ∀ m ∈ dvalues w.pr.models, ∃ mo, w.ms[m]? = some mo := fun m h => by
    obtain ⟨x, hx, rfl⟩ := List.mem_map.mp h
    obtain ⟨mo, hmo, _⟩ := hp.models.2 x hx
    exact ⟨mo, hmo⟩
  obtain ⟨w1, r1, g1⟩ := reload_accepted I hI (dvalues w.pr.models) w fun m h => by
    obtain ⟨mo, hmo⟩ := hex m h
    exact ⟨mo, hmo, hm m h mo hmo⟩
  have hrel : reloadModels w = (.ok (), w1) := r1
  have hr0 : ∀ {R : World → World → Prop}, Stable {} R → R w (reloadModels w).2 := fun S => S.bind S.getPr (fun _ => S.each _ fun _ => S.call _) w
  have hr : ∀ {R : World → World → Prop}, Stable {} R → R w w1 := fun S => by
    have := hr0 S
    rwa [hrel] at this
  have hw1 : w1.Whole := ⟨hr (wf_elem.stable trivial) hw.1, hr (sided_elem.stable trivial) hw.2⟩
  have hpr : w1.pr = w.pr := by have := reloadModels_pr w; rwa [hrel] at this
  have hle : w.Le w1 := hr le_stable
  obtain ⟨g, hgat⟩ := Gather.gather_ok hw1.1 (dvalues w1.pr.models) (fun m h => by
      obtain ⟨mo, hmo⟩ := hex m (hpr ▸ h)
      obtain ⟨mo', hmo', -⟩ := hle.ms m mo hmo
      exact (List.getElem?_eq_some_iff.1 hmo').1)
    (fun r e he d hd x hx => by
      obtain ⟨p, hpd, rfl⟩ := List.mem_map.mp hx
      exact g1.1 hg e (List.mem_of_getElem? he) d hd p hpd) {}
  have heqs : ∀ r ∈ g.eqs, ∃ e, w1.es[r]? = some e := fun r h => by
    rw [(Gather.gather hgat).1, List.mem_flatMap] at h
    obtain ⟨m, hm, h⟩ := h
    unfold Gather.eqnsOf at h
    split at h
    · rename_i mo hmo
      obtain ⟨p, hp, rfl⟩ := List.mem_map.mp h
      obtain ⟨e, he, _⟩ := (hw1.1.ms m mo hmo).eqns.2 p hp
      exact ⟨e, he⟩
    · cases h
  have hlist : ∀ l : List ERef, (∀ r ∈ l, ∃ e, w1.es[r]? = some e) → ∃ ss, Block.getEquationList w1.es none .rhs l = .ok ss := by
    intro l
    induction l with
    | nil => exact fun _ => ⟨[], rfl⟩
    | cons r t ih =>
      intro h
      obtain ⟨e, he⟩ := h r (List.mem_cons_self ..)
      obtain ⟨ss, hss⟩ := ih fun x hx => h x (List.mem_cons_of_mem _ hx)
      obtain ⟨s, hs⟩ : ∃ s, e.symbolicObject none .rhs = .ok s := by
        obtain ⟨n, hn, _⟩ := hw1.1.es r e he
        have hsd := hw1.2 e (List.mem_of_getElem? he)
        cases hf : e.form with
        | residual => simp [EqObj.symbolicObject, EqObj.getNode, hf, hn]
        | elementary =>
          obtain ⟨p, hp⟩ := Option.ne_none_iff_exists'.1 (hsd hf)
          simp [EqObj.symbolicObject, EqObj.getNode, hf, hp]
      exact ⟨s :: ss, by simp [Block.getEquationList, he, hs, hss]⟩
  obtain ⟨ss, hss⟩ := hlist g.eqs heqs
  unfold resolve
  rw [PyM.bind_of_ok hrel]
  have hb : ∃ w2, buildEquationBlock w1 = (.ok (), w2) ∧ w2.es = w1.es ∧ w2.qs = w1.qs ∧ w2.ms = w1.ms ∧ ∃ b, w2.pr.block = some b ∧ b.equations = g.eqs := by
    unfold buildEquationBlock
    rw [hgat]
    exact ⟨_, rfl, rfl, rfl, rfl, _, rfl, rfl⟩
  obtain ⟨w2, r2, e2, q2, m2, b, hb, hbe⟩ := hb
  rw [PyM.bind_of_ok r2]
  have hcall : ∃ b', b.call w2.es = .ok b' := by
    unfold Block.call
    rw [e2, hbe, hss]
    exact ⟨_, rfl⟩
  obtain ⟨b', hb'⟩ := hcall
  unfold callBlock
  simp only [hb, hb']
  exact ⟨_, rfl, fun h => (g1.1 h).keep e2 (by rw [← q2]), (congrArg List.length m2).trans g1.2⟩

/-! ## Sessions -/

/-- The sides have the same dimension and a value somewhere. -/
def Spec.Sides (I : Interp K) : Stmt → Prop
  | .eqn l r => ∃ d, Spec.Fit I (.bin .sub l r) d
  | .eqnNum l _ => ∃ d, Spec.Fit I l d
  | .res e => ∃ d, Spec.Fit I e d

/-- The quantities of a statement made from outside exist and are at present as the statement has them. -/
def Spec.Standing (w : World) (st : Stmt) : Prop := ∀ e ∈ Spec.parts st, ∀ p ∈ Spec.quantities e, w.qs[p.1]? = some p.2

/-- One or several variables among these. -/
def Spec.Offered (l : List Ref) (a : ConnArg) : Prop := (∃ r : Ref, a = .var r ∨ ∃ t, a = .list (r :: t)) ∧ ∀ r ∈ a.refs, r ∈ l

/-- The variables are in SI units, all of one dimension. -/
def Spec.OfDim (w : World) (d : Spec.Dim) (a : ConnArg) : Prop := ∀ r ∈ a.refs, ∃ q, w.qs[r]? = some q ∧ UReachSI q.units ∧ q.units.dimVec = d

/-- The calls a careful user makes: classes observe the rules, quantities are exposed as input or output only, values are numbers, connections are between
exposed outputs and exposed inputs of the same dimension (or come with an expression), declarations and statements from outside follow the rules of those in classes, and whatever is
named exists. -/
def Spec.Careful (I : Interp K) (w : World) : Op → Prop
  | .newPorts | .initial _ | .time _ | .resolve => True
  | .newModel n _ b p => Spec.SoundClass I n b ∧ ∀ r : PRef, p = some r → r < w.ps.length
  | .var m a => m < w.ms.length ∧ (a.exposed = true → a.vtype = "input" ∨ a.vtype = "output")
  | .par m _ | .con m _ | .call m => m < w.ms.length
  | .setValue r (.float _) _ | .setValue r (.int _) none => r < w.qs.length
  | .connect (.model m1) m2 a b none => ∃ mo mi d, w.ms[m1]? = some mo ∧ w.ms[m2]? = some mi ∧ Spec.Offered mo.expOut a ∧ Spec.Offered mi.expIn b ∧
      Spec.OfDim w d a ∧ Spec.OfDim w d b
  | .connect (.model m1) m2 a b (some x) => ∃ mo mi st, w.ms[m1]? = some mo ∧ w.ms[m2]? = some mi ∧ Spec.Offered mo.expOut a ∧ Spec.Offered mi.expIn b ∧
      st.arg = .ok x ∧ Spec.Standing w st ∧ Spec.Sides I st
  | .eqn m _ _ (some a) _ => ∃ mo st, w.ms[m]? = some mo ∧ st.arg = .ok a ∧ Spec.Standing w st ∧ Spec.Sides I st ∧
      ∀ e ∈ Spec.parts st, ∀ p ∈ Spec.quantities e, p.2.name ∈ mo.declared
  | .cmd m c => ∃ o Γ Γ', Knows Γ o m w ∧ Spec.Step I o Γ c Γ'
  | .addModels t => ∀ m ∈ Spec.leaves t, m < w.ms.length
  | _ => False

/-- All calls of a session are such. -/
def Spec.CarefulSession (I : Interp K) : World → List Op → Prop
  | _, [] => True
  | w, o :: t => Spec.Careful I w o ∧ Spec.CarefulSession I (o.run w).2 t

/-- No call of the session raises. -/
def Spec.AllReturn : World → List Op → Prop
  | _, [] => True
  | w, o :: t => (o.run w).1 = .ok () ∧ Spec.AllReturn (o.run w).2 t

/-- A node of dimension `d` over existing quantities. -/
def NodeOf (w : World) (d : Spec.Dim) (n : ENode) : Prop := UReachSI n.unit ∧ n.unit.dimVec = d ∧ ∀ p ∈ n.symMap, p.2 < w.qs.length

omit [Field K] [LinearOrder K] [IsStrictOrderedRing K] in
theorem dupdate_below {N : Nat} {a b : Dict String Ref} (ha : ∀ p ∈ a, p.2 < N) (hb : ∀ p ∈ b, p.2 < N) : ∀ p ∈ dupdate a b, p.2 < N := by
  induction b generalizing a with
  | nil => exact ha
  | cons x t ih =>
    refine ih (a := dset a x.1 x.2) (fun p hp => ?_) fun p hp => hb p (List.mem_cons_of_mem _ hp)
    rcases mem_dset hp with ⟨-, h2⟩ | h
    · rw [h2]; exact hb x List.mem_cons_self
    · exact ha p h

omit [Field K] [LinearOrder K] [IsStrictOrderedRing K] in
theorem collect_calls {w : World} {d : Spec.Dim} : ∀ (l : List Ref), (∀ r ∈ l, ∃ q, w.qs[r]? = some q ∧ UReachSI q.units ∧ q.units.dimVec = d) →
    ∃ ns, collect l (fun r => do
      let q ← getQ r
      PyM.pure (q.call r)) w = (.ok ns, w) ∧ ns.length = l.length ∧ ∀ n ∈ ns, NodeOf w d n
  | [], _ => ⟨[], rfl, rfl, by simp⟩
  | r :: t, h => by
    obtain ⟨q, hq, hu, hd⟩ := h r List.mem_cons_self
    obtain ⟨ns, hc, hl, hn⟩ := collect_calls t fun r hr => h r (List.mem_cons_of_mem _ hr)
    obtain ⟨m1, m2, m3⟩ := call_maps r q
    refine ⟨q.call r :: ns, ?_, by simp [hl], ?_⟩
    · show ((((getQ r >>= fun q => PyM.pure (q.call r)) >>= fun b => collect t (fun r => do
        let q ← getQ r
        PyM.pure (q.call r)) >>= fun bs => PyM.pure (b :: bs)) w)) = _
      rw [PyM.bind_of_ok (a := q.call r) (w1 := w) (by rw [PyM.bind_of_ok (getQ_of hq)]; rfl), PyM.bind_of_ok hc]
      rfl
    · intro n hm
      rcases List.mem_cons.1 hm with rfl | hm
      · refine ⟨m3.2.1 ▸ hu, by rw [m3.2.1]; exact hd, fun p hp => ?_⟩
        rw [m1] at hp
        rw [List.mem_singleton.1 hp]
        exact (List.getElem?_eq_some_iff.1 hq).1
      · exact hn n hm

omit [Field K] [LinearOrder K] [IsStrictOrderedRing K] in
theorem collect_variables {w : World} : ∀ (l : List Ref), (∀ r ∈ l, ∃ q, w.qs[r]? = some q ∧ q.kind = .variable) →
    ∃ qs, collect l getQ w = (.ok qs, w) ∧ qs.all (fun q => q.kind == .variable) = true
  | [], _ => ⟨[], rfl, rfl⟩
  | r :: t, h => by
    obtain ⟨q, hq, hk⟩ := h r List.mem_cons_self
    obtain ⟨qs, hc, hl⟩ := collect_variables t fun r hr => h r (List.mem_cons_of_mem _ hr)
    refine ⟨q :: qs, ?_, by simp [hk]; simpa using hl⟩
    show ((getQ r >>= fun b => collect t getQ >>= fun bs => PyM.pure (b :: bs)) w) = _
    rw [PyM.bind_of_ok (getQ_of hq), PyM.bind_of_ok hc]
    rfl

omit [Field K] [LinearOrder K] [IsStrictOrderedRing K] in
theorem foldl_nodes {w : World} {d : Spec.Dim} : ∀ (l : List ENode) (a : ENode), NodeOf w d a → (∀ n ∈ l, NodeOf w d n) →
    ∃ n, l.foldlM (fun acc b => acc.add (.node b)) a = .ok n ∧ NodeOf w d n
  | [], a, ha, _ => ⟨a, rfl, ha⟩
  | b :: t, a, ha, h => by
    obtain ⟨b1, b2, b3⟩ := h b List.mem_cons_self
    have hadd : a.unit.add b.unit = .ok a.unit := by rw [add_SI ha.1 b1, if_pos (by rw [ha.2.1, b2])]
    obtain ⟨n, hn, hu, hs⟩ : ∃ n, a.add (.node b) = .ok n ∧ n.unit = a.unit ∧ n.symMap = dupdate a.symMap b.symMap := by
      simp only [ENode.add, hadd]
      exact ⟨_, rfl, rfl, rfl⟩
    obtain ⟨m, hm, k⟩ := foldl_nodes t n ⟨hu ▸ ha.1, by rw [hu]; exact ha.2.1, by rw [hs]; exact dupdate_below ha.2.2 b3⟩ fun n hn => h n (List.mem_cons_of_mem _ hn)
    exact ⟨m, by rw [List.foldlM_cons, hn]; exact hm, k⟩

omit [Field K] [LinearOrder K] [IsStrictOrderedRing K] in
theorem sumNodes_accepted {w : World} {d : Spec.Dim} {l : List ENode} (hl : l ≠ []) (h : ∀ n ∈ l, NodeOf w d n) : ∃ n, sumNodes l = .ok (some n) ∧ NodeOf w d n := by
  cases l with
  | nil => exact absurd rfl hl
  | cons a t =>
    have ha := h a List.mem_cons_self
    obtain ⟨b, hb, k⟩ : ∃ b, a.radd (.num 0) = .ok b ∧ NodeOf w d b := ⟨_, rfl, ha.1, ha.2.1, ha.2.2⟩
    obtain ⟨n, hn, hk⟩ := foldl_nodes t b k fun n hn => h n (List.mem_cons_of_mem _ hn)
    exact ⟨n, by
      simp only [sumNodes, hb]
      change (List.foldlM (fun acc b => acc.add (.node b)) b t >>= fun y => .ok (some y)) = _
      rw [hn]; rfl, hk⟩

omit [Field K] [LinearOrder K] [IsStrictOrderedRing K] in
/-- The expression of a connection between variables of one dimension. -/
theorem connExpr_accepted {w : World} {d : Spec.Dim} {ins outs : List Ref} (hi : ins ≠ []) (ho : outs ≠ [])
    (h : ∀ r ∈ ins ++ outs, ∃ q, w.qs[r]? = some q ∧ UReachSI q.units ∧ q.units.dimVec = d) :
    ∃ n, connExpr ins outs none w = (.ok (.node n), w) ∧ ∀ p ∈ n.symMap, p.2 < w.qs.length := by
  obtain ⟨ni, c1, l1, k1⟩ := collect_calls ins fun r hr => h r (List.mem_append_left _ hr)
  obtain ⟨no, c2, l2, k2⟩ := collect_calls outs fun r hr => h r (List.mem_append_right _ hr)
  have e1 : ni ≠ [] := by rintro rfl; exact hi (List.length_eq_zero_iff.1 l1.symm)
  have e2 : no ≠ [] := by rintro rfl; exact ho (List.length_eq_zero_iff.1 l2.symm)
  obtain ⟨a, ha, ka⟩ := sumNodes_accepted e1 k1
  obtain ⟨b, hb, kb⟩ := sumNodes_accepted e2 k2
  have hsub : a.unit.sub b.unit = .ok a.unit := by
    rw [sub_SI ka.1 kb.1, if_pos (by rw [ka.2.1, kb.2.1])]
  obtain ⟨n, hn, hsn⟩ : ∃ n, a.sub (.node b) = .ok n ∧ n.symMap = dupdate a.symMap b.symMap := by
    simp only [ENode.sub, hsub]
    exact ⟨_, rfl, rfl⟩
  refine ⟨n, ?_, by rw [hsn]; exact dupdate_below ka.2.2 kb.2.2⟩
  unfold connExpr
  simp only
  rw [PyM.bind_of_ok c1, PyM.bind_of_ok c2, ha, PyM.bind_lift_ok, hb, PyM.bind_lift_ok]
  simp only [sumDiff, hn]
  rfl

omit [Field K] [LinearOrder K] [IsStrictOrderedRing K] in
theorem Spec.Offered.arg {l : List Ref} {a : ConnArg} (h : Spec.Offered l a) : a.exposedIn l = .ok true ∧ a.refs ≠ [] ∧ ∀ n, a ≠ .node n := by
  obtain ⟨⟨r, rfl | ⟨t, rfl⟩⟩, h2⟩ := h
  · simp [ConnArg.exposedIn, ConnArg.refs] at h2 ⊢
    exact h2
  · refine ⟨?_, by simp [ConnArg.refs], by simp⟩
    simp only [ConnArg.exposedIn, Except.ok.injEq, List.all_eq_true]
    exact fun x hx => List.contains_iff_mem.mpr (h2 x hx)

/-- Stating `x` succeeds and gives an expression over existing quantities. -/
def Statable (w : World) (x : ResArg) : Prop := ∀ t e, (EqObj.setResidual t e x).1 = .ok () ∧
  ∃ n, (EqObj.setResidual t e x).2.expr = some n ∧ ∀ p ∈ n.symMap, p.2 < w.qs.length

omit [Field K] [LinearOrder K] [IsStrictOrderedRing K] in
/-- A connection that observes the rules is made. -/
theorem connect_accepted {w : World} (hw : w.WF) {m1 m2 : MRef} {mo mi : ModelObj} {a b : ConnArg} {x : Option ResArg} {y : ResArg} (h1 : w.ms[m1]? = some mo)
    (h2 : w.ms[m2]? = some mi) (ha : Spec.Offered mo.expOut a) (hb : Spec.Offered mi.expIn b) (hx : connExpr b.refs a.refs x w = (.ok y, w)) (hy : Statable w y) :
    ∃ w', createConnection (.model m1) m2 a b x w = (.ok (), w') ∧ Keeps w w' := by
  obtain ⟨e2, na, na'⟩ := ha.arg
  obtain ⟨e1, nb, nb'⟩ := hb.arg
  obtain ⟨qo, ho, ko⟩ := collect_variables (w := w) a.refs fun r hr => by
    obtain ⟨q, c1, c2, -⟩ := (hw.ms m1 mo h1).expOut r (ha.2 r hr)
    exact ⟨q, c1, c2⟩
  obtain ⟨qi, hi, ki⟩ := collect_variables (w := w) b.refs fun r hr => by
    obtain ⟨q, c1, c2, -⟩ := (hw.ms m2 mi h2).expIn r (hb.2 r hr)
    exact ⟨q, c1, c2⟩
  have hm : ∃ e w1, createModelConnection m2 a.refs b.refs y w = (.ok w.es.length, w1) ∧ w1.es = w.es ++ [e] ∧ w1.qs = w.qs ∧
      (∀ d, e.objects = some d → ∀ p ∈ d, p.2 < w.qs.length) ∧ ∃ mi', w1.ms = w.ms.set m2 mi' := by
    unfold createModelConnection
    rw [PyM.bind_of_ok (getM_of h2), PyM.bind_of_ok ho, PyM.bind_of_ok hi]
    rw [PyM.bind_of_ok (a := ()) (w1 := w) (by rw [ko, ki]; rfl)]
    obtain ⟨t1, u1, ht1⟩ := tagIf_run (ResArg.needsTag (some y)) w
    rw [PyM.bind_of_ok ht1]
    obtain ⟨e1, he1⟩ : ∃ e1, EqObj.init "" t1 (joinNames qo ++ "--->" ++ joinNames qi) ("[" ++ joinNames qo ++ "--->" ++ joinNames qi ++ "]") (some y) = .ok e1 := by
      unfold EqObj.init
      simp only
      generalize ({ name := _, description := _ } : EqObj) = e0
      have k1 := (hy t1 e0).1
      obtain ⟨k2, hk2⟩ : ∃ e1, EqObj.setResidual t1 e0 y = (.ok (), e1) := ⟨_, Prod.ext k1 rfl⟩
      rw [hk2]
      exact ⟨_, rfl⟩
    rw [he1, PyM.bind_lift_ok]
    obtain ⟨t2, u2, ht2⟩ := tagIf_run (ResArg.needsTag (some y)) (w.withUid u1)
    rw [PyM.bind_of_ok ht2]
    obtain ⟨k1, n, k2, k3⟩ := hy t2 e1
    rw [k1, PyM.bind_lift_ok]
    have hs : (EqObj.setResidual t2 e1 y).2.sweep = .ok { (EqObj.setResidual t2 e1 y).2 with objects := some n.symMap } := by
      simp only [EqObj.sweep, k2]
    rw [hs, PyM.bind_lift_ok]
    refine ⟨_, _, rfl, rfl, rfl, fun d hd p hp => ?_, _, rfl⟩
    cases hd
    exact k3 p hp
  obtain ⟨e, w1, r1, he, hq, hob, mi', hms⟩ := hm
  have g1 : ∃ mo1, w1.ms[m1]? = some mo1 := by
    have : m1 < w1.ms.length := by rw [hms, List.length_set]; exact (List.getElem?_eq_some_iff.1 h1).1
    exact ⟨_, List.getElem?_eq_getElem this⟩
  have g2 : ∃ mo1, w1.ms[m2]? = some mo1 := by
    have : m2 < w1.ms.length := by rw [hms, List.length_set]; exact (List.getElem?_eq_some_iff.1 h2).1
    exact ⟨_, List.getElem?_eq_getElem this⟩
  obtain ⟨x1, g1⟩ := g1
  obtain ⟨x2, g2⟩ := g2
  have hcon : ∃ p, createConnection (.model m1) m2 a b x w = (.ok (), { w1 with pr := p }) := by
    have hv : createConnection (.model m1) m2 a b x = connectVars (.model m1) m2 a b x := by
      cases a with
      | node k => exact absurd rfl (na' k)
      | var r => cases b <;> rfl
      | list l => cases b <;> rfl
    rw [hv]
    unfold connectVars
    simp only
    rw [PyM.bind_of_ok (getM_of h2), e1, PyM.bind_lift_ok, PyM.bind_of_ok (getM_of h1), e2, PyM.bind_lift_ok]
    rw [PyM.bind_of_ok (a := ()) (w1 := w) (by rfl)]
    rw [PyM.bind_of_ok hx]
    unfold createDirectConnection
    rw [PyM.bind_of_ok ho, PyM.bind_of_ok hi, PyM.bind_of_ok r1, PyM.bind_of_ok (getM_of g1), PyM.bind_of_ok (getM_of g2)]
    exact ⟨_, rfl⟩
  obtain ⟨p, hcon⟩ := hcon
  refine ⟨_, hcon, fun hg => hg.more (e := e) he (by simp [hq]) fun d hd' x hx => ?_, by simp [hms]⟩
  rw [show ({ w1 with pr := p } : World).qs = w.qs from hq]
  exact hob d hd' x hx

/-- A statement whose sides fit is taken. -/
theorem Spec.Sides.fits (I : Interp K) (hI : Spec.NoNegativePowers I) {st : Stmt} (h : Spec.Sides I st) {a : ResArg} (ha : st.arg = .ok a) :
    ∀ t e, (EqObj.setResidual t e a).1 = .ok () := by
  have hfin : ∀ (e : EqObj) (n : ENode), e.expr = some n → (EqObj.finish e).1 = .ok () := fun e n hn => by unfold EqObj.finish; rw [hn]
  intro t e
  cases st with
  | eqn l r =>
    obtain ⟨d, hf⟩ := h
    obtain ⟨n, hn⟩ := expr_accepted I hI hf
    simp only [PyExpr.build, bind_eq_ok] at hn
    obtain ⟨x, hx, y, hy, hn⟩ := hn
    simp only [Stmt.arg, hx, hy] at ha
    cases ha
    have hd : x.sub (.node y) = .ok n := hn
    simp only [EqObj.setResidual, hd]
    exact hfin _ n rfl
  | eqnNum l q =>
    obtain ⟨d, hf⟩ := h
    obtain ⟨x, hx⟩ := expr_accepted I hI hf
    have ux := expr_unit_si l hf.units hx
    simp only [Stmt.arg, hx] at ha
    cases ha
    obtain ⟨n, hd⟩ : ∃ n, x.sub (.node (EqObj.numNode t q x.unit)) = .ok n := by
      simp only [ENode.sub, EqObj.numNode, sub_SI ux ux]
      simp
    simp only [EqObj.setResidual, hd]
    exact hfin _ n rfl
  | res x =>
    obtain ⟨d, hf⟩ := h
    obtain ⟨n, hn⟩ := expr_accepted I hI hf
    simp only [Stmt.arg, hn] at ha
    cases ha
    simp only [EqObj.setResidual]
    exact hfin _ n rfl

theorem Spec.Sides.statable (I : Interp K) (hI : Spec.NoNegativePowers I) {w : World} {st : Stmt} (h : Spec.Sides I st) (hp : Spec.Standing w st) {a : ResArg}
    (ha : st.arg = .ok a) : Statable w a := fun t e => by
  have h1 := h.fits I hI ha t e
  obtain ⟨n, hn, hnd, hmap⟩ := Stmt.maps st ha (Prod.ext h1 rfl : EqObj.setResidual t e a = (.ok (), (EqObj.setResidual t e a).2))
  refine ⟨h1, n, hn, fun p hpm => ?_⟩
  have h := hmap p.1
  rw [dget_of_mem hnd hpm] at h
  have h := mem_of_dget h.symm
  simp only [List.mem_reverse, List.mem_map, Spec.occurring, List.mem_flatMap] at h
  obtain ⟨y, ⟨x, hx, hy⟩, hp'⟩ := h
  rw [← congrArg Prod.snd hp']
  exact (List.getElem?_eq_some_iff.1 (hp x hx y hy)).1

omit [Field K] [LinearOrder K] [IsStrictOrderedRing K] in
mutual
theorem addModels_accepted : (t : MTree) → (w : World) → (∀ m ∈ Spec.leaves t, m < w.ms.length) → ∃ p, addModels t w = (.ok (), { w with pr := p })
  | .leaf m, w, h => by
    have hm : w.ms[m]? = some (w.ms[m]'(h m (by simp [Spec.leaves]))) := List.getElem?_eq_getElem _
    rw [addModels]
    unfold addModel
    rw [PyM.bind_of_ok (getM_of hm)]
    exact ⟨_, rfl⟩
  | .list l, w, h => by
    rw [addModels]
    exact addModelsList_accepted l w (by simpa [Spec.leaves] using h)
theorem addModelsList_accepted : (l : List MTree) → (w : World) → (∀ m ∈ Spec.leavesList l, m < w.ms.length) → ∃ p, addModelsList l w = (.ok (), { w with pr := p })
  | [], w, _ => by rw [addModelsList]; exact ⟨w.pr, rfl⟩
  | t :: ts, w, h => by
    simp only [Spec.leavesList, List.mem_append] at h
    obtain ⟨p, hp⟩ := addModels_accepted t w fun m hm => h m (.inl hm)
    obtain ⟨p', hp'⟩ := addModelsList_accepted ts { w with pr := p } fun m hm => h m (.inr hm)
    rw [addModelsList]
    rw [PyM.bind_of_ok hp, hp']
    exact ⟨_, rfl⟩
end

omit [Field K] [LinearOrder K] [IsStrictOrderedRing K] in
theorem void_returns {α : Type} {x : PyM α} {w w1 : World} {a : α} (h : x w = (.ok a, w1)) : x.void w = (.ok (), w1) := by
  unfold PyM.void
  rw [PyM.bind_of_ok h]
  rfl

/-- One careful call. -/
theorem careful_run (I : Interp K) (hI : Spec.NoNegativePowers I) {w : World} (hw : Spec.Good I w) {o : Op} (ho : Spec.Careful I w o) :
    ∃ w', o.run w = (.ok (), w') ∧ (Spec.Grounded w → Spec.Grounded w') ∧
      ∀ (m : MRef) (mo : ModelObj), w'.ms[m]? = some mo → m < w.ms.length ∨ (mo.inlets = [] ∧ Spec.SoundClass I mo.name mo.body) := by
  have hk : ∀ {w' : World}, o.run w = (.ok (), w') → Keeps w w' → ∃ w', o.run w = (.ok (), w') ∧ (Spec.Grounded w → Spec.Grounded w') ∧
      ∀ (m : MRef) (mo : ModelObj), w'.ms[m]? = some mo → m < w.ms.length ∨ (mo.inlets = [] ∧ Spec.SoundClass I mo.name mo.body) :=
    fun h k => ⟨_, h, k.1, fun m mo hm => .inl (k.2 ▸ (List.getElem?_eq_some_iff.1 hm).1)⟩
  have hget : ∀ m : MRef, m < w.ms.length → ∃ mo, w.ms[m]? = some mo := fun m h => ⟨_, List.getElem?_eq_getElem h⟩
  cases o with
  | newPorts => exact hk rfl ⟨fun h => h.keep rfl le_rfl, rfl⟩
  | newModel n d b p =>
    have hp : (p.getD 0 : Nat) < w.ps.length := by
      cases p with
      | none => exact hw.ports
      | some r => exact ho.2 r rfl
    have hps : w.ps[p.getD 0]? = some (w.ps[p.getD 0]'hp) := List.getElem?_eq_getElem _
    have hrun : newModel n d b p w = (.ok w.ms.length, { w with ms := w.ms ++ [{ name := n, description := d, body := b, ports := p.getD 0 }] }) := by
      unfold newModel
      rw [PyM.bind_of_ok (getP_of hps)]
      rfl
    refine ⟨_, void_returns hrun, fun h => h.keep rfl le_rfl, fun m mo hm => ?_⟩
    by_cases hl : m < w.ms.length
    · exact .inl hl
    · refine .inr ?_
      have hm : (w.ms ++ [{ name := n, description := d, body := b, ports := p.getD 0 }])[m]? = some mo := hm
      rw [List.getElem?_append_right (Nat.le_of_not_lt hl)] at hm
      have hm := List.mem_singleton.1 (List.mem_of_getElem? hm)
      subst hm
      exact ⟨rfl, ho.1⟩
  | var m a =>
    obtain ⟨mo, hm⟩ := hget m ho.1
    have hrun := createVariable_run hm a
    rw [if_neg (by rintro ⟨k1, k2, k3⟩; rcases ho.2 k1 with k | k <;> contradiction)] at hrun
    refine hk (void_returns hrun) ⟨fun hg => hg.keep rfl (by simp [World.withM, World.addQ]), by simp [World.withM, World.addQ]⟩
  | par m a =>
    obtain ⟨mo, hm⟩ := hget m ho
    refine hk (void_returns (createParameter_run hm a)) ⟨fun hg => hg.keep rfl (by simp [World.withM, World.addQ]), by simp [World.withM, World.addQ]⟩
  | con m a =>
    obtain ⟨mo, hm⟩ := hget m ho
    refine hk (void_returns (createConstant_run hm a)) ⟨fun hg => hg.keep rfl (by simp [World.withM, World.addQ]), by simp [World.withM, World.addQ]⟩
  | setValue r v u =>
    have hset : ∀ q' : Quantity, (∃ q, w.qs[r]? = some q ∧ q.setValue v u = .ok q') → ∃ w', (Op.setValue r v u).run w = (.ok (), w') ∧ Keeps w w' := by
      rintro q' ⟨q, hq, hv⟩
      refine ⟨{ w with qs := w.qs.set r q' }, ?_, fun hg => hg.keep rfl (by simp), rfl⟩
      show setValueM r v u w = _
      unfold setValueM
      rw [PyM.bind_of_ok (getQ_of hq), hv]
      rfl
    cases v with
    | float x =>
      have hq : w.qs[r]? = some (w.qs[r]'ho) := List.getElem?_eq_getElem _
      obtain ⟨w', h1, h2⟩ := hset _ ⟨_, hq, rfl⟩
      exact hk h1 h2
    | int x =>
      cases u with
      | none =>
        have hq : w.qs[r]? = some (w.qs[r]'ho) := List.getElem?_eq_getElem _
        obtain ⟨w', h1, h2⟩ := hset _ ⟨_, hq, rfl⟩
        exact hk h1 h2
      | some u => exact ho.elim
    | qty q => exact ho.elim
    | other => exact ho.elim
  | call m =>
    obtain ⟨mo, hm⟩ := hget m ho
    obtain ⟨w', h1, h2⟩ := call_accepted I hI hm (hw.models m mo hm).1 (hw.models m mo hm).2
    exact hk h1 h2
  | connect src m2 a b e =>
    cases src with
    | model m1 =>
      cases e with
      | none =>
        obtain ⟨mo, mi, d, h1, h2, h3, h4, h5, h6⟩ := ho
        obtain ⟨n, hn, hobj⟩ := connExpr_accepted (w := w) (d := d) h4.arg.2.1 h3.arg.2.1 fun r hr => by
          rcases List.mem_append.1 hr with h | h
          · exact h6 r h
          · exact h5 r h
        obtain ⟨w', k1, k2⟩ := connect_accepted hw.whole.1 h1 h2 h3 h4 hn fun t e => ⟨by simp [EqObj.setResidual, EqObj.finish], n, by simp [EqObj.setResidual, EqObj.finish], hobj⟩
        exact hk k1 k2
      | some x =>
        obtain ⟨mo, mi, st, h1, h2, h3, h4, h5, h6, h7⟩ := ho
        obtain ⟨w', k1, k2⟩ := connect_accepted (x := some x) hw.whole.1 h1 h2 h3 h4 rfl (h7.statable I hI h6 h5)
        exact hk k1 k2
    | str s => exact ho.elim
    | other => exact ho.elim
  | addModels t =>
    obtain ⟨p, hp⟩ := addModels_accepted t w ho
    exact hk hp ⟨fun h => h.keep rfl le_rfl, rfl⟩
  | initial c => exact hk rfl ⟨fun h => h.keep rfl le_rfl, rfl⟩
  | time n => exact hk rfl ⟨fun h => h.keep rfl le_rfl, rfl⟩
  | resolve =>
    obtain ⟨w', h1, h2⟩ := resolve_accepted I hI hw.whole hw.pr hw.grounded fun m _ mo hm => hw.models m mo hm
    exact hk h1 h2
  | eqn m n d a c =>
    cases a with
    | none => exact ho.elim
    | some a =>
    obtain ⟨mo, st, hm, ha, hp, hs, hd⟩ := ho
    obtain ⟨e, u, hrun, hobj⟩ := createEquation_accepts hm n d c ha (hs.fits I hI ha) fun x hx p hp => (declared_iff mo _).1 (hd x hx p hp)
    refine hk (void_returns hrun) ⟨fun hgr => hgr.more (e := e) rfl le_rfl fun d hd q hq => ?_, by simp [World.withM, World.addE, World.withUid]⟩
    obtain ⟨y, hy, z, hz, hzp⟩ := hobj d hd q hq
    rw [← hzp]
    exact (List.getElem?_eq_some_iff.1 (hp y hy z hz)).1
  | cmd m c =>
    obtain ⟨o, Γ, Γ', hkn, hs⟩ := ho
    obtain ⟨w', h1, -, h2⟩ := hkn.step I hI hs
    exact hk h1 h2
  | incorporate m s fl => exact ho.elim
  | setInlets m l n => exact ho.elim
  | modelConn m o i a => exact ho.elim

theorem careful_good (I : Interp K) (hI : Spec.NoNegativePowers I) {w : World} (hw : Spec.Good I w) {o : Op} (ho : Spec.Careful I w o) :
    (o.run w).1 = .ok () ∧ Spec.Good I (o.run w).2 := by
  obtain ⟨w', hrun, hg, hms⟩ := careful_run I hI hw ho
  have hst : ∀ {A : Allow} {R : World → World → Prop}, Stable A R → o.Allowed A → R w w' := fun S h => by
    have := S.op o h w
    rwa [hrun] at this
  have hall : o.Allowed {} := by cases o <;> simp [Op.Allowed]
  have hinl : o.Allowed { inl := False } := by cases o <;> first | exact ho.elim | simp [Op.Allowed]
  have hle : w.Le w' := hst le_stable hall
  have hin : SameInlets w w' := hst (sameInlets_elem.stable trivial) hinl
  have hwf : w'.WF := hst (wf_elem.stable trivial) hall hw.whole.1
  rw [hrun]
  refine ⟨rfl, ⟨hwf, hst (sided_elem.stable trivial) hall hw.whole.2⟩, (hst problem_stable (by cases o <;> simp [Op.Allowed]) ⟨hw.whole.1, hw.pr⟩).2, hg hw.grounded,
    lt_of_lt_of_le hw.ports hle.ps, fun m mo hm => ?_⟩
  rcases hms m mo hm with hl | h
  · have h0 : w.ms[m]? = some (w.ms[m]'hl) := List.getElem?_eq_getElem _
    obtain ⟨m1, k1, e1⟩ := hin m _ h0
    obtain ⟨m2, k2, e2⟩ := hle.ms m _ h0
    obtain rfl : mo = m1 := Option.some.inj (hm.symm.trans k1)
    obtain rfl : mo = m2 := Option.some.inj (hm.symm.trans k2)
    have := hw.models m _ h0
    exact ⟨e1.trans this.1, by rw [e2.name, e2.body]; exact this.2⟩
  · exact h

theorem careful_all (I : Interp K) (hI : Spec.NoNegativePowers I) (ops : List Op) : ∀ {w : World}, Spec.Good I w → Spec.CarefulSession I w ops →
    Spec.AllReturn w ops ∧ Spec.Good I (history ops w) := by
  induction ops with
  | nil => exact fun h _ => ⟨trivial, h⟩
  | cons o t ih =>
    intro w h hs
    obtain ⟨h1, h2⟩ := careful_good I hI h hs.1
    obtain ⟨h3, h4⟩ := ih h2 hs.2
    exact ⟨⟨h1, h3⟩, h4⟩

theorem good_init (I : Interp K) : Spec.Good I World.init := by
  have hr : Reachable World.init := ⟨[], rfl⟩
  refine ⟨reachable_whole hr, reachable_problem hr, ?_, by simp [World.init], ?_⟩
  · intro e he; simp [World.init] at he
  · intro m mo hm; simp [World.init] at hm

/-- C102: in a session of a careful user no call raises. -/
theorem careful_sessions_return (I : Interp K) (hI : Spec.NoNegativePowers I) (ops : List Op) (h : Spec.CarefulSession I World.init ops) :
    Spec.AllReturn World.init ops := (careful_all I hI ops (good_init I) h).1

/-- C102: and a simulation of the problem of such a session reports what the numerical solver found, when this finds something and the problem is well posed. -/
theorem careful_run_reports (ext : Ext K) (I : Interp K) (hI : Spec.NoNegativePowers I) (ops : List Op) (h : Spec.CarefulSession I World.init ops) {i : SRef}
    (a : RunArgs) {s : SimWorld K} (hs : s.w = history (ops ++ [.resolve]) World.init) {o : SimObj K} {c : Conf} {d : Dict String Rat} {b : Block} {k : ProblemKind}
    (ho : s.sims[i]? = some o) (hoc : o.conf = some c) (hc : Spec.Standard c d) (hb : s.w.pr.block = some b) (hk : b.problemType = some k)
    (hkk : k = .linear ∨ k = .nonlinear) (hd : d = [] ∨ ∀ n ∈ b.varList, (dget d n).isSome = true)
    (hsan : a.sanity = true → (dofTest ext.sr s.w).1 = .ok ()) (hpy : ∀ e ∈ b.equationsList, e.isPy = false) {x : List K}
    (hx : ext.symSys (k == .linear) b.varList b.equationsList (Spec.startAt d b.varList) = .ok (x, true)) :
    ∃ s' o' D, runSimulation ext I i a s = (.ok (), s') ∧ s'.sims[i]? = some o' ∧ o'.output = some (.dict D) ∧ Spec.Reports b.varList x D := by
  have hg := (careful_all I hI ops (good_init I) h).2
  have h1 := (careful_good I hI hg (o := .resolve) trivial).1
  have h2 : (Op.resolve.run (history ops World.init)).2 = s.w := by rw [hs]; simp [history]
  exact wellposed_run ext I a (w := history ops World.init) ⟨ops, rfl⟩ (Prod.ext h1 h2) ho hoc hc hb hk hkk hd hsan hpy hx

end

/-! ## Samples -/

section
variable {K : Type} [Field K] [LinearOrder K] [IsStrictOrderedRing K]
omit [IsStrictOrderedRing K] in
theorem says_of_tests {I : Interp K} {Γ : Spec.Ctx} {l r : AExpr} (h : ∃ e : PyExpr, (do some (.bin .sub (← Spec.under Γ l) (← Spec.under Γ r))) = some e ∧
    Spec.AllUnits UReachSI e ∧ Spec.PlainPowers e ∧ Spec.FreeBelow e ∧ (Spec.dim e).isSome = true ∧ (Spec.val I (fun _ => 1) e).isSome = true) :
    Spec.Says I Γ (.eqn l r) := by
  obtain ⟨e, he, h1, h2, h3, h4, h5⟩ := h
  simp only [Option.bind_eq_bind, Option.bind_eq_some_iff, Option.some.injEq] at he
  obtain ⟨a, ha, b, hb, rfl⟩ := he
  obtain ⟨d, hd⟩ := Option.isSome_iff_exists.1 h4
  obtain ⟨v, hv⟩ := Option.isSome_iff_exists.1 h5
  exact ⟨a, b, d, ha, hb, h1, h2, hd, h3, _, v, hv⟩
end

namespace Ex
/-- A class: a length given as parameter, an exposed length equal to it, and a ratio. -/
def source : Body where
  pars := [.par "k" { name := "k", units := Tmpl.m }, .setValue { attr := "k" } (.int 6) none]
  vars := [.var "x" { name := "x", units := Tmpl.m, exposed := true, vtype := "output" }, .var "n" { name := "n", units := Tmpl.dimless }]
  eqns := [.eqn "e1" "e1" "" (.eqn (at_ "x") (at_ "k")) true, .eqn "e2" "e2" "" (.eqn (.binN .mul (.bin .div (at_ "x") (at_ "k")) 2) (at_ "n")) true]

/-- A class with an exposed input. -/
def sink : Body where
  vars := [.var "y" { name := "y", units := Tmpl.m, exposed := true, vtype := "input" }, .var "z" { name := "z", units := Tmpl.m }]
  eqns := [.eqn "e" "e" "" (.eqn (at_ "z") (.binN .mul (at_ "y") 3)) true]
end Ex

theorem Ex.source_sound : Spec.SoundClass (Interp.min (K := Rat)) "a" Ex.source := by
  refine ⟨_, .par _ _, _, .int _ _ _ rfl, _, .var _ _ (fun _ => .inr rfl), _, .var _ _ (by simp), _, .eqn _ _ _ _ _ rfl ?_, _, .eqn _ _ _ _ _ rfl ?_, trivial⟩
  · exact says_of_tests ⟨_, rfl, ⟨m_si, m_si⟩, by simp [Spec.PlainPowers], by simp [Spec.FreeBelow], by rfl, by rfl⟩
  · refine says_of_tests ⟨_, rfl, ⟨⟨m_si, m_si⟩, dimless_reach⟩, by simp [Spec.PlainPowers], by simp [Spec.FreeBelow], by decide +kernel, by decide +kernel⟩

theorem Ex.sink_sound : Spec.SoundClass (Interp.min (K := Rat)) "b" Ex.sink := by
  refine ⟨_, .var _ _ (fun _ => .inl rfl), _, .var _ _ (by simp), _, .eqn _ _ _ _ _ rfl ?_, trivial⟩
  exact says_of_tests ⟨_, rfl, ⟨m_si, m_si⟩, by simp [Spec.PlainPowers], by simp [Spec.FreeBelow], by rfl, by decide +kernel⟩

/-- The two models, resolved, connected, and resolved again after the parameter is changed. -/
def Ex.flowsheet : List Op := [.newModel "a" "" Ex.source none, .newModel "b" "" Ex.sink none, .call 0, .call 1, .addModels (.list [.leaf 0, .leaf 1]), .resolve,
  .connect (.model 0) 1 (.var 6) (.var 8) none, .setValue 5 (.float 7) none, .resolve]

example : Spec.CarefulSession (Interp.min (K := Rat)) World.init Ex.flowsheet := by
  refine ⟨⟨Ex.source_sound, by simp⟩, ⟨Ex.sink_sound, by simp⟩, ?_, ?_, ?_, trivial, ?_, ?_, trivial, trivial⟩
  · show (0 : Nat) < _; decide +kernel
  · show (1 : Nat) < _; decide +kernel
  · show ∀ m ∈ [(0 : Nat), 1], m < _
    decide +kernel
  · generalize hw : (Op.run _ _).2 = w
    have h1 : (w.ms[0]?.map (·.expOut)) = some [1, 6] := by subst hw; decide +kernel
    have h2 : (w.ms[1]?.map (·.expIn)) = some [3, 8] := by subst hw; decide +kernel
    have h3 : (w.qs[6]?.map (·.units)) = some Tmpl.m := by subst hw; decide +kernel
    have h4 : (w.qs[8]?.map (·.units)) = some Tmpl.m := by subst hw; decide +kernel
    obtain ⟨mo, hmo, k1⟩ := Option.map_eq_some_iff.1 h1
    obtain ⟨mi, hmi, k2⟩ := Option.map_eq_some_iff.1 h2
    obtain ⟨q, hq, k3⟩ := Option.map_eq_some_iff.1 h3
    obtain ⟨q', hq', k4⟩ := Option.map_eq_some_iff.1 h4
    refine ⟨mo, mi, Tmpl.m.dimVec, hmo, hmi, ⟨⟨6, .inl rfl⟩, by rw [k1]; decide⟩, ⟨⟨8, .inl rfl⟩, by rw [k2]; decide⟩, fun r hr => ?_, fun r hr => ?_⟩
    · obtain rfl := List.mem_singleton.1 hr
      exact ⟨q, hq, k3 ▸ Ex.m_si, by rw [k3]⟩
    · obtain rfl := List.mem_singleton.1 hr
      exact ⟨q', hq', k4 ▸ Ex.m_si, by rw [k4]⟩
  · show (5 : Nat) < _; decide +kernel

/-- A model without a class: its declarations and equations come from outside, one through attributes and one through the objects. -/
def Ex.lenX : VarArgs := { name := "x", units := Tmpl.m, exposed := true, vtype := "output" }
def Ex.lenY : VarArgs := { name := "y", units := Tmpl.m, exposed := true, vtype := "output" }
def Ex.lenZ : VarArgs := { name := "z", units := Tmpl.m, exposed := true, vtype := "input" }
/-- `z() - 2*x()` -/
def Ex.doubled : Stmt := .res (.bin .sub (.q 2 (Ex.lenZ.quantity "b")) (.nbin .mul 2 (.q 0 (Ex.lenX.quantity "a"))))
def Ex.byHand : List Op := [.newModel "a" "" {} none, .cmd 0 (.var "x" Ex.lenX), .cmd 0 (.var "y" Ex.lenY),
  .cmd 0 (.eqn "e" "e" "" (.eqn (Ex.at_ "x") (.binN .mul (Ex.at_ "y") 2)) true),
  .eqn 0 "f" "" ((Stmt.eqnNum (.q 1 (Ex.lenY.quantity "a")) 3).arg.toOption) true,
  .newModel "b" "" {} none, .var 1 Ex.lenZ, .connect (.model 0) 1 (.list [0, 1]) (.var 2) none,
  .connect (.model 0) 1 (.var 0) (.var 2) (Ex.doubled.arg.toOption), .addModels (.list [.leaf 0, .leaf 1]), .resolve]

example : Spec.CarefulSession (Interp.min (K := Rat)) World.init Ex.byHand := by
  have hempty : ∀ n, Spec.SoundClass (Interp.min (K := Rat)) n {} := fun n => trivial
  have hI : Spec.NoNegativePowers (Interp.min (K := Rat)) := noNegativePowers_min
  have next : ∀ {Γ Γ' : Spec.Ctx} {w : World} {c : Cmd}, Knows Γ "a" 0 w → Spec.Step (Interp.min (K := Rat)) "a" Γ c Γ' → Knows Γ' "a" 0 (Op.run (.cmd 0 c) w).2 := by
    intro Γ Γ' w c h hc
    obtain ⟨w', r, k, -⟩ := h.step _ hI hc
    have e : (Op.run (.cmd 0 c) w).2 = w' := congrArg Prod.snd r
    rw [e]; exact k
  have K0 : Knows [] "a" 0 (Op.run (.newModel "a" "" {} none) World.init).2 := ⟨_, by rfl, rfl, by simp [dget], by simp [dget]⟩
  have s1 : Spec.Step (Interp.min (K := Rat)) "a" [] (.var "x" Ex.lenX) [("x", Ex.lenX.quantity "a")] := .var _ _ (fun _ => .inr rfl)
  have s2 : Spec.Step (Interp.min (K := Rat)) "a" [("x", Ex.lenX.quantity "a")] (.var "y" Ex.lenY) [("x", Ex.lenX.quantity "a"), ("y", Ex.lenY.quantity "a")] :=
    .var _ _ (fun _ => .inr rfl)
  have s3 : Spec.Step (Interp.min (K := Rat)) "a" [("x", Ex.lenX.quantity "a"), ("y", Ex.lenY.quantity "a")]
      (.eqn "e" "e" "" (.eqn (Ex.at_ "x") (.binN .mul (Ex.at_ "y") 2)) true) [("x", Ex.lenX.quantity "a"), ("y", Ex.lenY.quantity "a")] :=
    .eqn _ _ _ _ _ rfl (says_of_tests ⟨_, rfl, ⟨Ex.m_si, Ex.m_si⟩, by simp [Spec.PlainPowers], by simp [Spec.FreeBelow], by rfl, by decide +kernel⟩)
  have K1 := next K0 s1
  have K2 := next K1 s2
  have K3 := next K2 s3
  refine ⟨⟨hempty _, by simp⟩, ⟨_, _, _, K0, s1⟩, ⟨_, _, _, K1, s2⟩, ⟨_, _, _, K2, s3⟩, ?_, ⟨hempty _, by simp⟩, ?_, ?_, ?_, ?_, trivial, trivial⟩
  · obtain ⟨mo, hm, -, ha, -⟩ := K3
    obtain ⟨r, h1, h2, h3⟩ := ha "y" _ rfl
    refine ⟨mo, .eqnNum (.q 1 (Ex.lenY.quantity "a")) 3, hm, by rfl, fun e he p hp => ?_, ⟨_, ⟨Ex.m_si, trivial, rfl, trivial, fun _ => 1, _, rfl⟩⟩, fun e he p hp => ?_⟩
    · simp only [Spec.parts, List.mem_singleton] at he
      subst he
      simp only [Spec.quantities, List.mem_singleton] at hp
      subst hp
      decide +kernel
    · simp only [Spec.parts, List.mem_singleton] at he
      subst he
      simp only [Spec.quantities, List.mem_singleton] at hp
      subst hp
      exact h3
  · exact ⟨by show (1 : Nat) < _; decide +kernel, fun _ => .inl rfl⟩
  · generalize hw : (Op.run _ _).2 = w
    have h1 : (w.ms[0]?.map (·.expOut)) = some [0, 1] := by subst hw; decide +kernel
    have h2 : (w.ms[1]?.map (·.expIn)) = some [2] := by subst hw; decide +kernel
    have h3 : ∀ r ∈ [(0 : Nat), 1, 2], (w.qs[r]?.map (·.units)) = some Tmpl.m := by subst hw; decide +kernel
    obtain ⟨mo, hmo, k1⟩ := Option.map_eq_some_iff.1 h1
    obtain ⟨mi, hmi, k2⟩ := Option.map_eq_some_iff.1 h2
    refine ⟨mo, mi, Tmpl.m.dimVec, hmo, hmi, ⟨⟨0, .inr ⟨[1], rfl⟩⟩, by rw [k1]; decide⟩, ⟨⟨2, .inl rfl⟩, by rw [k2]; decide⟩, fun r hr => ?_, fun r hr => ?_⟩
    · have hr : r = 0 ∨ r = 1 := by simpa [ConnArg.refs] using hr
      obtain ⟨q, hq, k3⟩ := Option.map_eq_some_iff.1 (h3 r (by rcases hr with rfl | rfl <;> decide))
      exact ⟨q, hq, k3 ▸ Ex.m_si, by rw [k3]⟩
    · obtain rfl := List.mem_singleton.1 hr
      obtain ⟨q, hq, k3⟩ := Option.map_eq_some_iff.1 (h3 2 (by decide))
      exact ⟨q, hq, k3 ▸ Ex.m_si, by rw [k3]⟩
  · generalize hw : (Op.run _ _).2 = w
    have h1 : (w.ms[0]?.map (·.expOut)) = some [0, 1] := by subst hw; decide +kernel
    have h2 : (w.ms[1]?.map (·.expIn)) = some [2] := by subst hw; decide +kernel
    have h3 : w.qs[2]? = some (Ex.lenZ.quantity "b") ∧ w.qs[0]? = some (Ex.lenX.quantity "a") := by subst hw; decide +kernel
    obtain ⟨mo, hmo, k1⟩ := Option.map_eq_some_iff.1 h1
    obtain ⟨mi, hmi, k2⟩ := Option.map_eq_some_iff.1 h2
    obtain ⟨n, hn⟩ : ∃ n, Ex.doubled.arg = .ok n := ⟨_, rfl⟩
    rw [hn]
    refine ⟨mo, mi, Ex.doubled, hmo, hmi, ⟨⟨0, .inl rfl⟩, by rw [k1]; decide⟩, ⟨⟨2, .inl rfl⟩, by rw [k2]; decide⟩, hn, fun e he p hp => ?_, ?_⟩
    · simp only [Ex.doubled, Spec.parts, List.mem_singleton] at he
      subst he
      simp only [Spec.quantities, List.mem_append, List.mem_singleton] at hp
      rcases hp with rfl | rfl
      · exact h3.1
      · exact h3.2
    · exact ⟨_, ⟨⟨Ex.m_si, Ex.m_si⟩, by simp [Spec.PlainPowers], rfl, by simp [Spec.FreeBelow], fun _ => 1, _, rfl⟩⟩
  · show ∀ m ∈ [(0 : Nat), 1], m < _
    decide +kernel
end Sloth
