import Verif.Lemmas.Expr
import Mathlib.Tactic.Linarith

/-!
# Properties of expressions (C10-C19)

`e.build` is what the package computes for the user expression `e`; `Spec.dim`, `Spec.val`, `Spec.quantities`,
`Spec.hasDeriv` say what `e` means.
-/

namespace Sloth
open UnitObj

/-! Sample quantities for the examples. -/
namespace Ex
def x : Quantity := mkVariable "x" Tmpl.m (latex := "x") (hasDomain := true)
def y : Quantity := mkVariable "y" Tmpl.m (latex := "y")
def t : Quantity := mkVariable "t" Tmpl.s (latex := "t")
/-- a specified length, 2 m -/
def p : Quantity := mkParameter "p" Tmpl.m (value := 2) (isSpecified := true) (latex := "p")
/-- a specified pure number, 2 -/
def k : Quantity := mkParameter "k" Tmpl.dimless (value := 2) (isSpecified := true) (latex := "k")
/-- an unspecified pure number -/
def w : Quantity := mkVariable "w" Tmpl.dimless (latex := "w")
abbrev X : PyExpr := .q 0 x
abbrev Y : PyExpr := .q 1 y
abbrev T : PyExpr := .q 2 t
abbrev P : PyExpr := .q 3 p
abbrev C : PyExpr := .q 4 k
abbrev W : PyExpr := .q 5 w
abbrev DX : PyExpr := .diff 0 x (some (2, t))
theorem m_si : UReachSI Tmpl.m := .init _ _ _ (by decide +kernel) (by simp [dkeys]; exact ⟨.m, rfl⟩)
theorem s_si : UReachSI Tmpl.s := .init _ _ _ (by decide +kernel) (by simp [dkeys]; exact ⟨.s, rfl⟩)
/-- an interpretation over the rationals -/
def I : Interp ℚ where
  fn f v := if f = .abs then some |v| else none
  pow a b := if b.den = 1 then (if a = 0 ∧ b.num < 0 then none else some (a ^ b.num)) else none
  pow_int a n := by
    by_cases h : a = 0 ∧ n < 0 <;> simp [h]
end Ex

/-! ## C10 -/

/-- C10 fails for a non-literal exponent: `x()**k()` with `x` a length and `k` the specified pure number 2 is a
length, not an area (the literal `x()**2` is an area). -/
theorem expr_power_dimension_wrong :
    ∃ (x k : Quantity) (n n' : ENode), k.isSpecified = true ∧ k.value = 2 ∧ k.units.dimVec = Spec.Dim.one ∧
      (PyExpr.bin .pow (.q 0 x) (.q 1 k)).build = .ok n ∧ n.unit.dimVec ≠ Spec.Dim.pow x.units.dimVec 2 ∧
      (PyExpr.binN .pow (.q 0 x) 2).build = .ok n' ∧ n'.unit.dimVec = Spec.Dim.pow x.units.dimVec 2 :=
  ⟨Ex.x, Ex.k, _, _, rfl, rfl, by decide +kernel, rfl, by decide +kernel, rfl, by decide +kernel⟩

/-- C10 (partial): a built expression over SI quantities is dimensionally well formed and carries exactly its dimension,
provided non-literal exponents are only put on pure numbers.  Missing: non-literal exponents on dimensional bases, where
the code keeps the base's dimension (see `expr_power_dimension_wrong`). -/
theorem expr_dimension_partial (e : PyExpr) (hu : Spec.AllUnits UReachSI e) (hp : Spec.PlainPowers e) {n : ENode}
    (h : e.build = .ok n) : UReachSI n.unit ∧ Spec.dim e = some n.unit.dimVec := by
  induction e generalizing n with
  | q r x =>
    simp only [PyExpr.build, Except.ok.injEq] at h; subst h
    rw [(call_maps r x).2.2.2.1]; exact ⟨hu, rfl⟩
  | bin op a b iha ihb =>
    simp only [PyExpr.build, bind_eq_ok] at h
    obtain ⟨m, hm, k, hk, h⟩ := h
    obtain ⟨um, dm⟩ := iha hu.1 hp.1 hm
    obtain ⟨uk, dk⟩ := ihb hu.2 hp.2.1 hk
    obtain ⟨un, hn⟩ := op_node_unit um uk h
    refine ⟨un, ?_⟩
    cases op with
    | add => obtain ⟨h1, h2⟩ := hn; simp [Spec.dim, dm, dk, h1, h2]
    | sub => obtain ⟨h1, h2⟩ := hn; simp [Spec.dim, dm, dk, h1, h2]
    | mul => simp only at hn; simp [Spec.dim, dm, dk, hn]
    | div => simp only at hn; simp [Spec.dim, dm, dk, hn]
    | pow =>
      obtain ⟨h1, h2⟩ := hn
      have h3 := hp.2.2 rfl _ dm
      simp [Spec.dim, dm, dk, h1, h2, h3]
  | binN op a q iha =>
    simp only [PyExpr.build, bind_eq_ok] at h
    obtain ⟨m, hm, h⟩ := h
    obtain ⟨um, dm⟩ := iha hu hp hm
    obtain ⟨un, hn⟩ := op_num_unit um h
    refine ⟨un, ?_⟩
    cases op <;> simp [Spec.dim, dm, hn]
  | nbin op q a iha =>
    simp only [PyExpr.build, bind_eq_ok] at h
    obtain ⟨m, hm, h⟩ := h
    obtain ⟨um, dm⟩ := iha hu hp hm
    obtain ⟨un, hne, hn⟩ := rop_unit um h
    refine ⟨un, ?_⟩
    cases op <;> simp [Spec.dim, dm, hn] at hne ⊢
  | fn f a iha =>
    simp only [PyExpr.build, bind_eq_ok] at h
    obtain ⟨m, hm, h⟩ := h
    obtain ⟨um, dm⟩ := iha hu hp hm
    obtain ⟨h1, h2⟩ := fn_unit um h
    rw [h1]; refine ⟨um, ?_⟩
    simp [Spec.dim, dm, h2]
  | mmN isMax a q iha =>
    simp only [PyExpr.build, bind_eq_ok] at h
    obtain ⟨m, hm, h⟩ := h
    obtain ⟨um, dm⟩ := iha hu hp hm
    obtain ⟨r, hr, hunit, _⟩ := mmN_eq isMax m q
    rw [hr] at h; simp only [Except.ok.injEq] at h; subst h
    rw [hunit]; exact ⟨um, dm⟩
  | diff r x ind =>
    have hx : UReachSI x.units := by cases ind with | none => exact hu | some p => exact hu.1
    have ht : ∀ p, ind = some p → UReachSI p.2.units := by rintro p rfl; exact hu.2
    obtain ⟨un, hd, hn⟩ := diff_unit hx ht h
    refine ⟨un, ?_⟩
    cases ind with
    | none => simp [Spec.dim, hd, hn]
    | some p => simp [Spec.dim, hd, hn]

example : ∃ n, (PyExpr.bin .add (.bin .div (.binN .pow Ex.X 2) Ex.Y) (.bin .mul Ex.P (.fn .exp (.bin .div Ex.X Ex.Y)))).build = .ok n ∧
    n.unit.dimVec = Spec.Dim.base .m := ok_sat (by decide +kernel)
example :
    Spec.AllUnits UReachSI (PyExpr.bin .add (.bin .div (.binN .pow Ex.X 2) Ex.Y) (.bin .mul Ex.P (.fn .exp (.bin .div Ex.X Ex.Y)))) ∧
    Spec.PlainPowers (PyExpr.bin .add (.bin .div (.binN .pow Ex.X 2) Ex.Y) (.bin .mul Ex.P (.fn .exp (.bin .div Ex.X Ex.Y)))) :=
  ⟨by simp only [Spec.AllUnits]; exact ⟨⟨Ex.m_si, Ex.m_si⟩, Ex.m_si, Ex.m_si, Ex.m_si⟩,
    by simp [Spec.PlainPowers]⟩

/-- C10: without any restriction on powers, a built expression over SI quantities has an SI unit. -/
theorem expr_unit_si (e : PyExpr) (hu : Spec.AllUnits UReachSI e) {n : ENode} (h : e.build = .ok n) : UReachSI n.unit := by
  induction e generalizing n with
  | q r x =>
    simp only [PyExpr.build, Except.ok.injEq] at h; subst h
    rw [(call_maps r x).2.2.2.1]; exact hu
  | bin op a b iha ihb =>
    simp only [PyExpr.build, bind_eq_ok] at h
    obtain ⟨m, hm, k, hk, h⟩ := h
    exact (op_node_unit (iha hu.1 hm) (ihb hu.2 hk) h).1
  | binN op a q iha =>
    simp only [PyExpr.build, bind_eq_ok] at h
    obtain ⟨m, hm, h⟩ := h
    exact (op_num_unit (iha hu hm) h).1
  | nbin op q a iha =>
    simp only [PyExpr.build, bind_eq_ok] at h
    obtain ⟨m, hm, h⟩ := h
    exact (rop_unit (iha hu hm) h).1
  | fn f a iha =>
    simp only [PyExpr.build, bind_eq_ok] at h
    obtain ⟨m, hm, h⟩ := h
    rw [(fn_unit (iha hu hm) h).1]; exact iha hu hm
  | mmN isMax a q iha =>
    simp only [PyExpr.build, bind_eq_ok] at h
    obtain ⟨m, hm, h⟩ := h
    obtain ⟨r, hr, hunit, _⟩ := mmN_eq isMax m q
    rw [hr] at h; simp only [Except.ok.injEq] at h; subst h
    rw [hunit]; exact iha hu hm
  | diff r x ind =>
    have hx : UReachSI x.units := by cases ind with | none => exact hu | some p => exact hu.1
    have ht : ∀ p, ind = some p → UReachSI p.2.units := by rintro p rfl; exact hu.2
    exact (diff_unit hx ht h).1

/-- C10: a sum or difference of built operands succeeds iff their dimensions agree and raises
`DimensionalCoherenceError` otherwise; a dimensional exponent raises `DimensionalCoherenceError`. -/
theorem expr_sum_gate (a b : PyExpr) (ha : Spec.AllUnits UReachSI a) (hb : Spec.AllUnits UReachSI b) {m n : ENode}
    (hm : a.build = .ok m) (hn : b.build = .ok n) :
    (m.unit.dimVec = n.unit.dimVec → ∃ r r', (PyExpr.bin .add a b).build = .ok r ∧ (PyExpr.bin .sub a b).build = .ok r') ∧
    (m.unit.dimVec ≠ n.unit.dimVec → (PyExpr.bin .add a b).build = .error .dimensionalCoherence ∧
      (PyExpr.bin .sub a b).build = .error .dimensionalCoherence) ∧
    (n.unit.dimVec ≠ Spec.Dim.one → (PyExpr.bin .pow a b).build = .error .dimensionalCoherence) := by
  have um := expr_unit_si a ha hm
  have un := expr_unit_si b hb hn
  simp only [PyExpr.build, hm, hn, ok_bind, ENode.op, ENode.add, ENode.sub, ENode.pow, add_SI um un, sub_SI um un, dimless_iff un]
  refine ⟨fun h => ?_, fun h => ?_, fun h => ?_⟩
  · simp [h]
  · simp [h]
  · simp [h]

example : (PyExpr.bin .add Ex.X Ex.T).build = .error .dimensionalCoherence ∧
    (PyExpr.bin .pow Ex.X Ex.T).build = .error .dimensionalCoherence ∧
    (PyExpr.bin .sub Ex.X Ex.Y).build.isOk = true := by decide +kernel

theorem op_node_err {m n : ENode} {op : BOp} {err : Err} (um : UReachSI m.unit) (un : UReachSI n.unit)
    (h : m.op op (.node n) = .error err) :
    (err = .dimensionalCoherence ∧ ((op = .add ∨ op = .sub) ∧ m.unit.dimVec ≠ n.unit.dimVec ∨ op = .pow ∧ n.unit.dimVec ≠ Spec.Dim.one)) ∨
    err = .zeroDivision := by
  cases op <;> simp only [ENode.op, ENode.add, ENode.sub, ENode.mul, ENode.div, ENode.pow, add_SI um un, sub_SI um un] at h
  · split at h
    · simp at h
    · rename_i hne; simp at h; subst h; exact Or.inl ⟨rfl, Or.inl ⟨by simp, hne⟩⟩
  · split at h
    · simp at h
    · rename_i hne; simp at h; subst h; exact Or.inl ⟨rfl, Or.inl ⟨by simp, hne⟩⟩
  · simp at h
  · simp only [bind_eq_error, SObj.div, reduceCtorEq, and_false, exists_false, or_false] at h
    split at h
    · simp at h; exact Or.inr h.symm
    · simp at h
  · split at h
    · rename_i hd
      simp only [bind_eq_error, SObj.pow, reduceCtorEq, and_false, exists_false, or_false, UnitObj.pow, hd, if_true] at h
      split at h
      · simp at h; exact Or.inr h.symm
      · simp at h
    · rename_i hd
      rw [dimless_iff un] at hd
      simp at h; subst h; exact Or.inl ⟨rfl, Or.inr ⟨rfl, hd⟩⟩

theorem op_num_err {m : ENode} {op : BOp} {q : ℚ} {err : Err} (h : m.op op (.num q) = .error err) : err = .zeroDivision := by
  cases op <;> simp only [ENode.op, ENode.add, ENode.sub, ENode.mul, ENode.div, ENode.pow, reduceCtorEq] at h
  · simp only [bind_eq_error, SObj.div, reduceCtorEq, and_false, exists_false, or_false] at h
    split at h
    · simp at h; exact h.symm
    · simp at h
  · simp only [bind_eq_error, SObj.pow, reduceCtorEq, and_false, exists_false, or_false, UnitObj.pow] at h
    split at h
    · simp at h; exact h.symm
    · simp at h

theorem rop_err {m : ENode} {op : BOp} {q : ℚ} {err : Err} (h : m.rop op q = .error err) :
    err = .zeroDivision ∨ (err = .typeError ∧ op = .pow) := by
  cases op with
  | add => simp [ENode.rop, ENode.radd, ENode.add] at h
  | sub => simp [ENode.rop, ENode.rsub, ENode.mul, ENode.add] at h
  | mul => simp [ENode.rop, ENode.rmul, ENode.mul] at h
  | div =>
    simp only [ENode.rop, ENode.rdiv, bind_eq_error] at h
    rcases h with h | ⟨a, _, h⟩
    · exact Or.inl (op_num_err (op := .pow) h)
    · simp [ENode.mul] at h
  | pow => simp [ENode.rop] at h; exact Or.inr ⟨h.symm, rfl⟩

/-- C10, completeness of the check: an SI expression can only be refused with one of five exceptions, and when it is
refused with `DimensionalCoherenceError` or `TypeError` it is not dimensionally well formed (non-literal exponents as above). -/
theorem expr_refused_partial (e : PyExpr) (hu : Spec.AllUnits UReachSI e) (hp : Spec.PlainPowers e) {err : Err}
    (h : e.build = .error err) :
    (err = .dimensionalCoherence ∨ err = .typeError ∨ err = .zeroDivision ∨ err = .absentRequiredObject ∨ err = .valueError) ∧
    (err = .dimensionalCoherence ∨ err = .typeError → Spec.dim e = none) := by
  induction e with
  | q r x => simp [PyExpr.build] at h
  | bin op a b iha ihb =>
    simp only [PyExpr.build, bind_eq_error] at h
    rcases h with h | ⟨m, hm, h | ⟨k, hk, h⟩⟩
    · obtain ⟨h1, h2⟩ := iha hu.1 hp.1 h
      refine ⟨h1, fun he => ?_⟩
      have := h2 he
      cases op <;> simp [Spec.dim, this]
    · obtain ⟨h1, h2⟩ := ihb hu.2 hp.2.1 h
      refine ⟨h1, fun he => ?_⟩
      have := h2 he
      cases op <;> simp [Spec.dim, this]
    · obtain ⟨um, dm⟩ := expr_dimension_partial a hu.1 hp.1 hm
      obtain ⟨uk, dk⟩ := expr_dimension_partial b hu.2 hp.2.1 hk
      rcases op_node_err um uk h with ⟨rfl, ⟨rfl | rfl, hne⟩ | ⟨rfl, hne⟩⟩ | rfl
      · exact ⟨by simp, fun _ => by simp [Spec.dim, dm, dk, hne]⟩
      · exact ⟨by simp, fun _ => by simp [Spec.dim, dm, dk, hne]⟩
      · exact ⟨by simp, fun _ => by simp [Spec.dim, dm, dk, hne]⟩
      · exact ⟨by simp, by simp⟩
  | binN op a q iha =>
    simp only [PyExpr.build, bind_eq_error] at h
    rcases h with h | ⟨m, hm, h⟩
    · obtain ⟨h1, h2⟩ := iha hu hp h
      refine ⟨h1, fun he => ?_⟩
      have := h2 he
      cases op <;> simp [Spec.dim, this]
    · have := op_num_err h; subst this; exact ⟨by simp, by simp⟩
  | nbin op q a iha =>
    simp only [PyExpr.build, bind_eq_error] at h
    rcases h with h | ⟨m, hm, h⟩
    · obtain ⟨h1, h2⟩ := iha hu hp h
      refine ⟨h1, fun he => ?_⟩
      have := h2 he
      cases op <;> simp [Spec.dim, this]
    · rcases rop_err h with rfl | ⟨rfl, rfl⟩
      · exact ⟨by simp, by simp⟩
      · exact ⟨by simp, by simp [Spec.dim]⟩
  | fn f a iha =>
    simp only [PyExpr.build, bind_eq_error] at h
    rcases h with h | ⟨m, hm, h⟩
    · obtain ⟨h1, h2⟩ := iha hu hp h
      exact ⟨h1, fun he => by simp [Spec.dim, h2 he]⟩
    · obtain ⟨um, dm⟩ := expr_dimension_partial a hu hp hm
      simp only [applyFn, wrapper] at h
      split at h
      · simp at h
      · rename_i hd
        simp at h; subst h
        have hne : m.unit.dimVec ≠ Spec.Dim.one := by
          intro hc; exact hd (Or.inl ((dimless_iff um).mpr hc))
        exact ⟨by simp, fun _ => by simp [Spec.dim, dm, hne]⟩
  | mmN isMax a q iha =>
    simp only [PyExpr.build, bind_eq_error] at h
    rcases h with h | ⟨m, hm, h⟩
    · obtain ⟨h1, h2⟩ := iha hu hp h
      exact ⟨h1, fun he => by simp [Spec.dim, h2 he]⟩
    · obtain ⟨r, hr, _⟩ := mmN_eq isMax m q
      rw [hr] at h; simp at h
  | diff r x ind =>
    simp only [PyExpr.build, Quantity.diff] at h
    split at h
    · unfold diffNode at h
      cases ind with
      | none => simp at h
      | some p =>
        simp only at h
        split at h
        · simp at h; subst h; exact ⟨by simp, by simp⟩
        · simp at h
    · simp at h; subst h; exact ⟨by simp, by simp⟩

example : (PyExpr.nbin .pow 2 Ex.X).build = .error .typeError ∧ (PyExpr.fn .log Ex.X).build = .error .typeError ∧
    (PyExpr.binN .div Ex.P 0).build = .error .zeroDivision ∧ (PyExpr.diff 1 Ex.y none).build = .error .absentRequiredObject ∧
    (PyExpr.diff 0 Ex.x (some (4, Ex.k))).build = .error .valueError := by decide +kernel

/-! ## C11, C12 -/

section
variable {K : Type} [Field K] [LinearOrder K]

/-- C11: the symbolic object of a built node has the value of the source expression, for every interpretation of the functions
and every assignment. -/
theorem expr_value (I : Interp K) (ρ : Atom → K) (e : PyExpr) {n : ENode} (h : e.build = .ok n) :
    n.sym.expr.eval I ρ = Spec.val I ρ e := by
  induction e generalizing n with
  | q r x =>
    simp only [PyExpr.build, Except.ok.injEq] at h; subst h
    unfold Quantity.call
    cases hx : x.isSpecified <;> simp [Spec.val, Spec.qVal, hx, Sym.eval, SObj.num]
  | bin op a b iha ihb =>
    simp only [PyExpr.build, bind_eq_ok] at h
    obtain ⟨m, hm, k, hk, h⟩ := h
    rw [(op_node_eval I ρ h).1, iha hm, ihb hk]; rfl
  | binN op a q iha =>
    simp only [PyExpr.build, bind_eq_ok] at h
    obtain ⟨m, hm, h⟩ := h
    rw [(op_num_eval I ρ h).1, iha hm]; rfl
  | nbin op q a iha =>
    simp only [PyExpr.build, bind_eq_ok] at h
    obtain ⟨m, hm, h⟩ := h
    rw [(rop_eval I ρ h).1, iha hm]; rfl
  | fn f a iha =>
    simp only [PyExpr.build, bind_eq_ok] at h
    obtain ⟨m, hm, h⟩ := h
    rw [(fn_ok h).1]; simp only [Sym.eval, iha hm]; rfl
  | mmN isMax a q iha =>
    simp only [PyExpr.build, bind_eq_ok] at h
    obtain ⟨m, hm, h⟩ := h
    obtain ⟨r, hr, _, hs, _⟩ := mmN_eq isMax m q
    rw [hr] at h; simp only [Except.ok.injEq] at h; subst h
    rw [hs]; simp only [Sym.eval, iha hm, Spec.val]; rfl
  | diff r x ind =>
    rw [(diff_node h).1]
    cases ind <;> cases hx : x.isSpecified <;> simp [Spec.val, hx, Sym.eval, indName]

/-- C11: the fully symbolic representation has that same value when specified quantities are assigned their own value. -/
theorem expr_repr_value (I : Interp K) (ρ : Atom → K) (e : PyExpr) {n : ENode} (h : e.build = .ok n)
    (hc : Spec.Consistent ρ e) : n.repr.eval I ρ = Spec.val I ρ e := by
  induction e generalizing n with
  | q r x =>
    simp only [PyExpr.build, Except.ok.injEq] at h; subst h
    rw [(call_maps r x).2.2.2.2]
    cases hx : x.isSpecified
    · simp [Spec.val, Spec.qVal, hx, Sym.eval]
    · simp [Spec.val, Spec.qVal, hx, Sym.eval, hc hx]
  | bin op a b iha ihb =>
    simp only [PyExpr.build, bind_eq_ok] at h
    obtain ⟨m, hm, k, hk, h⟩ := h
    rw [(op_node_eval I ρ h).2, iha hm hc.1, ihb hk hc.2]; rfl
  | binN op a q iha =>
    simp only [PyExpr.build, bind_eq_ok] at h
    obtain ⟨m, hm, h⟩ := h
    rw [(op_num_eval I ρ h).2, iha hm hc]; rfl
  | nbin op q a iha =>
    simp only [PyExpr.build, bind_eq_ok] at h
    obtain ⟨m, hm, h⟩ := h
    rw [(rop_eval I ρ h).2, iha hm hc]; rfl
  | fn f a iha =>
    simp only [PyExpr.build, bind_eq_ok] at h
    obtain ⟨m, hm, h⟩ := h
    rw [(fn_ok h).2.1]; simp only [Sym.eval, iha hm hc]; rfl
  | mmN isMax a q iha =>
    simp only [PyExpr.build, bind_eq_ok] at h
    obtain ⟨m, hm, h⟩ := h
    obtain ⟨r, hr, _, _, hs, _⟩ := mmN_eq isMax m q
    rw [hr] at h; simp only [Except.ok.injEq] at h; subst h
    rw [hs]; simp only [Sym.eval, expr_value I ρ a hm, Spec.val]; rfl
  | diff r x ind =>
    rw [(diff_node h).2.1]
    cases ind with
    | none =>
      cases hx : x.isSpecified
      · simp [Spec.val, hx, Sym.eval, indName]
      · simp only [Spec.val, hx, Sym.eval, indName, if_true]; rw [hc hx]
    | some p =>
      cases hx : x.isSpecified
      · simp [Spec.val, hx, Sym.eval, indName]
      · simp only [Spec.val, hx, Sym.eval, indName, if_true]; rw [hc hx]

/-- `2 - (x*p)/y` with `x = 3`, `p = 2` m specified, `y = 4` is `1/2`. -/
example : ∃ n, (PyExpr.nbin .sub 2 (.bin .div (.bin .mul Ex.X Ex.P) Ex.Y)).build = .ok n ∧
    n.sym.expr.eval Ex.I (fun a => if a = .v "x" then 3 else 4) = some (1/2) := ⟨_, rfl, by decide +kernel⟩
example : Spec.Consistent (fun a => if a = .v "p" then (2 : ℚ) else 4) (PyExpr.bin .mul Ex.X Ex.P) :=
  ⟨fun h => by simp [Ex.x, mkVariable] at h, fun _ => by decide +kernel⟩

/-- C12: number-on-the-left operators, for every node: the value is that of the arithmetic operation and the
dimension that of the node (its inverse for a division).  A division may raise `ZeroDivisionError`, and only a
number equal to zero on the right can cause it; there is no `number ** node`. -/
theorem reflected_operators (m : ENode) (hm : UReachSI m.unit) (q : ℚ) :
    (∃ r, m.rop .add q = .ok r ∧ r.unit.dimVec = m.unit.dimVec ∧ ∀ (I : Interp K) ρ x, m.sym.expr.eval I ρ = some x → r.sym.expr.eval I ρ = some (q + x)) ∧
    (∃ r, m.rop .sub q = .ok r ∧ r.unit.dimVec = m.unit.dimVec ∧ ∀ (I : Interp K) ρ x, m.sym.expr.eval I ρ = some x → r.sym.expr.eval I ρ = some (q - x)) ∧
    (∃ r, m.rop .mul q = .ok r ∧ r.unit.dimVec = m.unit.dimVec ∧ ∀ (I : Interp K) ρ x, m.sym.expr.eval I ρ = some x → r.sym.expr.eval I ρ = some (q * x)) ∧
    ((m.sym.isPy = true → m.sym.expr.ratEval ≠ some 0) →
      ∃ r, m.rop .div q = .ok r ∧ r.unit.dimVec = Spec.Dim.div Spec.Dim.one m.unit.dimVec ∧
        ∀ (I : Interp K) ρ x, m.sym.expr.eval I ρ = some x → x ≠ 0 → r.sym.expr.eval I ρ = some (q / x)) ∧
    m.rop .pow q = .error .typeError := by
  refine ⟨⟨_, rfl, rfl, fun I ρ x hx => ?_⟩, ⟨_, rfl, rfl, fun I ρ x hx => ?_⟩, ⟨_, rfl, rfl, fun I ρ x hx => ?_⟩, fun hz => ?_, rfl⟩
  · rw [(rop_eval I ρ (m := m) (op := .add) (q := q) rfl).1, hx]; rfl
  · rw [(rop_eval I ρ (m := m) (op := .sub) (q := q) rfl).1, hx]; rfl
  · rw [(rop_eval I ρ (m := m) (op := .mul) (q := q) rfl).1, hx]; rfl
  · have hok : ∃ r, m.rop .div q = .ok r := by
      simp only [ENode.rop, ENode.rdiv, ENode.pow, SObj.pow, SObj.num, Sym.ratEval, UnitObj.pow, ENode.mul]
      rw [if_neg]
      · exact ⟨_, rfl⟩
      · intro h
        simp only [Bool.and_eq_true, beq_iff_eq] at h
        exact hz h.1.1.1 h.1.2
    obtain ⟨r, hr⟩ := hok
    refine ⟨r, hr, by simpa using (rop_unit hm hr).2.2, fun I ρ x hx hx0 => ?_⟩
    rw [(rop_eval I ρ hr).1, hx]; simp [Spec.opVal, hx0]

example : ∃ r, (Ex.x.call 0).rop .div 6 = .ok r ∧ r.sym.expr.eval Ex.I (fun _ => 3) = some 2 ∧
    r.unit.dimVec = Spec.Dim.pow (.base .m) (-1) := ⟨_, rfl, by decide +kernel, by decide +kernel⟩

end

/-! ## C13 -/

theorem dget_append {α β : Type} [DecidableEq α] (a b : Dict α β) (k : α) : dget (a ++ b) k = (dget a k).or (dget b k) := by
  induction a with
  | nil => simp
  | cons p t ih =>
    obtain ⟨k', v⟩ := p
    simp only [List.cons_append, dget_cons]
    split
    · simp
    · exact ih

/-- C13 (partial): the symbolic map of a built node has each name once and sends a name to the last quantity of that name in the
expression, and to nothing when no quantity of the expression has it; the variable map does the same for the unspecified
quantities.  Missing: the independent variable of a derivative is in neither map (`diff_omits_independent_variable`). -/
theorem expr_maps_partial (e : PyExpr) {n : ENode} (h : e.build = .ok n) :
    DNodup n.symMap ∧ DNodup n.varMap ∧
    (∀ s, dget n.symMap s = dget ((Spec.quantities e).map fun p => (p.2.name, p.1)).reverse s) ∧
    (∀ s, dget n.varMap s = dget (((Spec.quantities e).filter fun p => !p.2.isSpecified).map fun p => (p.2.name, p.1)).reverse s) := by
  induction e generalizing n with
  | q r x =>
    simp only [PyExpr.build, Except.ok.injEq] at h; subst h
    obtain ⟨h1, h2, _⟩ := call_maps r x
    rw [h1, h2]
    cases hx : x.isSpecified <;> simp [Spec.quantities, hx, DNodup, dkeys]
  | bin op a b iha ihb =>
    simp only [PyExpr.build, bind_eq_ok] at h
    obtain ⟨m, hm, k, hk, h⟩ := h
    obtain ⟨a1, a2, a3, a4⟩ := iha hm
    obtain ⟨b1, b2, b3, b4⟩ := ihb hk
    obtain ⟨_, _, h1, h2, _⟩ := op_node_ok h
    rw [h1, h2]
    refine ⟨a1.dupdate _, a2.dupdate _, fun s => ?_, fun s => ?_⟩
    · rw [dget_dupdate _ b1, a3, b3, Spec.quantities, List.map_append, List.reverse_append, dget_append]
    · rw [dget_dupdate _ b2, a4, b4, Spec.quantities, List.filter_append, List.map_append, List.reverse_append, dget_append]
  | binN op a q iha =>
    simp only [PyExpr.build, bind_eq_ok] at h
    obtain ⟨m, hm, h⟩ := h
    obtain ⟨_, _, h1, h2, _⟩ := op_num_ok h
    rw [h1, h2]; exact iha hm
  | nbin op q a iha =>
    simp only [PyExpr.build, bind_eq_ok] at h
    obtain ⟨m, hm, h⟩ := h
    obtain ⟨h1, h2, _⟩ := rop_maps h
    rw [h1, h2]; exact iha hm
  | fn f a iha =>
    simp only [PyExpr.build, bind_eq_ok] at h
    obtain ⟨m, hm, h⟩ := h
    obtain ⟨_, _, h1, h2, _⟩ := fn_ok h
    rw [h1, h2]; exact iha hm
  | mmN isMax a q iha =>
    simp only [PyExpr.build, bind_eq_ok] at h
    obtain ⟨m, hm, h⟩ := h
    obtain ⟨r, hr, _, _, _, h1, h2, _⟩ := mmN_eq isMax m q
    rw [hr] at h; simp only [Except.ok.injEq] at h; subst h
    obtain ⟨a1, a2, a3, a4⟩ := iha hm
    rw [h1, h2]
    refine ⟨(DNodup.nil.dupdate _).dupdate _, (DNodup.nil.dupdate _).dupdate _, fun s => ?_, fun s => ?_⟩
    · rw [dupdate_nil, dget_dupdate _ a1, a3]; simp [Spec.quantities]
    · rw [dupdate_nil, dget_dupdate _ a2, a4]; simp [Spec.quantities]
  | diff r x ind =>
    obtain ⟨_, _, h1, h2, _⟩ := diff_node h
    rw [h1, h2]
    cases hx : x.isSpecified <;> simp [Spec.quantities, hx, DNodup, dkeys]

theorem mem_map_reverse {l : List (Ref × Quantity)} {s : String} :
    s ∈ dkeys (l.map fun p => (p.2.name, p.1)).reverse ↔ ∃ p ∈ l, p.2.name = s := by
  simp [dkeys]

/-- C13, on names: exactly the names of the quantities of the expression, and of the unspecified ones. -/
theorem expr_names_partial (e : PyExpr) {n : ENode} (h : e.build = .ok n) (s : String) :
    (s ∈ dkeys n.symMap ↔ ∃ p ∈ Spec.quantities e, p.2.name = s) ∧
    (s ∈ dkeys n.varMap ↔ ∃ p ∈ Spec.quantities e, p.2.isSpecified = false ∧ p.2.name = s) := by
  obtain ⟨_, _, h3, h4⟩ := expr_maps_partial e h
  constructor
  · rw [← dget_isSome_iff, h3, dget_isSome_iff, mem_map_reverse]
  · rw [← dget_isSome_iff, h4, dget_isSome_iff, mem_map_reverse]
    simp [and_assoc]

example : ∃ n, (PyExpr.bin .add (.bin .mul Ex.X Ex.C) Ex.P).build = .ok n ∧ dkeys n.symMap = ["x", "k", "p"] ∧ dkeys n.varMap = ["x"] :=
  ok_sat (by decide +kernel)

/-- C13 fails for the independent variable of a derivative: it is part of the expression but of neither map. -/
theorem diff_omits_independent_variable : ∃ (r rt : Ref) (x t : Quantity) (n : ENode),
    (PyExpr.diff r x (some (rt, t))).build = .ok n ∧ t.isSpecified = false ∧ n.repr = .atom (.d x.name t.name) ∧
    t.name ∉ dkeys n.symMap ∧ t.name ∉ dkeys n.varMap :=
  ⟨0, 2, Ex.x, Ex.t, _, rfl, rfl, rfl, by decide +kernel, by decide +kernel⟩

/-! ## C14 -/

/-- Exactly one of three. -/
def EqType.One (t : EqType) : Prop :=
  (t.linear = true ∧ t.nonlinear = false ∧ t.differential = false) ∨
  (t.linear = false ∧ t.nonlinear = true ∧ t.differential = false) ∨
  (t.linear = false ∧ t.nonlinear = false ∧ t.differential = true)

theorem EqType.prec_one (a b : EqType) : (a.prec b).One := by
  unfold EqType.prec EqType.One
  split
  · simp [EqType.diff]
  · split <;> simp [EqType.nonlin, EqType.lin]

/-- C14: every built node is of exactly one class. -/
theorem expr_one_class (e : PyExpr) {n : ENode} (h : e.build = .ok n) : n.ty.One := by
  induction e generalizing n with
  | q r x =>
    simp only [PyExpr.build, Except.ok.injEq] at h; subst h
    rw [(call_maps r x).2.2.1]; simp [EqType.One, EqType.lin]
  | bin op a b iha ihb =>
    simp only [PyExpr.build, bind_eq_ok] at h
    obtain ⟨m, hm, k, hk, h⟩ := h
    have ht := (op_node_ok h).2.2.2.2
    have hmul : (m.mulType k).One := by
      unfold ENode.mulType
      split
      · exact iha hm
      · split
        · exact ihb hk
        · simp [EqType.One, EqType.nonlin]
    rw [ht]
    cases op <;> first | exact EqType.prec_one _ _ | exact hmul
  | binN op a q iha =>
    simp only [PyExpr.build, bind_eq_ok] at h
    obtain ⟨m, hm, h⟩ := h
    rw [(op_num_ok h).2.2.2.2]
    split
    · exact EqType.prec_one _ _
    · exact iha hm
  | nbin op q a iha =>
    simp only [PyExpr.build, bind_eq_ok] at h
    obtain ⟨m, hm, h⟩ := h
    rw [(rop_maps h).2.2]
    split
    · exact EqType.prec_one _ _
    · exact iha hm
  | fn f a iha =>
    simp only [PyExpr.build, bind_eq_ok] at h
    obtain ⟨m, hm, h⟩ := h
    rw [(fn_ok h).2.2.2.2.1]; simp [EqType.One, EqType.nonlin]
  | mmN isMax a q iha =>
    simp only [PyExpr.build, bind_eq_ok] at h
    obtain ⟨m, hm, h⟩ := h
    obtain ⟨r, hr, _, _, _, _, _, hty⟩ := mmN_eq isMax m q
    rw [hr] at h; simp only [Except.ok.injEq] at h; subst h
    rw [hty]; simp [EqType.One, EqType.lin]
  | diff r x ind =>
    rw [(diff_node h).2.2.2.2]; simp [EqType.One, EqType.diff]

example : ∃ n, (PyExpr.bin .add Ex.DX (.bin .div (.bin .mul Ex.X Ex.X) (.bin .mul Ex.T Ex.X))).build = .ok n ∧ n.ty = .diff :=
  ok_sat (by decide +kernel)

end Sloth
