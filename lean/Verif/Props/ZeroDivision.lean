import Verif.Props.Expressions
import Mathlib.Tactic.NormNum

/-!
# Divisions by zero (C94)

A node of specified quantities holds a Python number, and dividing Python numbers by zero raises `ZeroDivisionError` while the expression is written.
-/

namespace Sloth
variable {K : Type} [Field K] [LinearOrder K] [IsStrictOrderedRing K]

/-- The number computed is the value of the expression. -/
theorem ratEval_sound (I : Interp K) (ρ : Atom → K) {s : Sym} {q : ℚ} (h : s.ratEval = some q) : s.eval I ρ = some (q : K) := by
  induction s generalizing q with
  | num x => simp only [Sym.ratEval, Option.some.injEq] at h; subst h; rfl
  | atom a => simp [Sym.ratEval] at h
  | add a b iha ihb =>
    simp only [Sym.ratEval, Option.bind_eq_bind, Option.bind_eq_some_iff, Option.some.injEq] at h
    obtain ⟨x, hx, y, hy, rfl⟩ := h
    simp [Sym.eval, iha hx, ihb hy]
  | sub a b iha ihb =>
    simp only [Sym.ratEval, Option.bind_eq_bind, Option.bind_eq_some_iff, Option.some.injEq] at h
    obtain ⟨x, hx, y, hy, rfl⟩ := h
    simp [Sym.eval, iha hx, ihb hy]
  | mul a b iha ihb =>
    simp only [Sym.ratEval, Option.bind_eq_bind, Option.bind_eq_some_iff, Option.some.injEq] at h
    obtain ⟨x, hx, y, hy, rfl⟩ := h
    simp [Sym.eval, iha hx, ihb hy]
  | div a b iha ihb =>
    simp only [Sym.ratEval, Option.bind_eq_bind, Option.bind_eq_some_iff] at h
    obtain ⟨x, hx, y, hy, h⟩ := h
    split at h
    · cases h
    · next h0 =>
      simp only [Option.some.injEq] at h; subst h
      simp [Sym.eval, iha hx, ihb hy, h0]
  | pow a b iha ihb =>
    simp only [Sym.ratEval, Option.bind_eq_bind, Option.bind_eq_some_iff] at h
    obtain ⟨x, hx, y, hy, h⟩ := h
    split at h
    · next hd =>
      split at h
      · cases h
      · next hz =>
        simp only [Option.some.injEq] at h; subst h
        have hyn : y = (y.num : ℚ) := (Rat.den_eq_one_iff y).mp hd |>.symm
        simp only [Sym.eval, iha hx, ihb hy, Option.bind_eq_bind, Option.bind_some]
        have hc : ((y : ℚ) : K) = ((y.num : ℤ) : K) := by
          conv_lhs => rw [hyn]
          simp
        rw [hc, I.pow_int, if_neg]
        · simp
        · rintro ⟨h1, h2⟩
          exact hz ⟨by exact_mod_cast h1, Rat.num_neg.mp h2⟩
    · cases h
  | fn f a iha => simp [Sym.ratEval] at h
  | mm k a b iha ihb =>
    simp only [Sym.ratEval, Option.bind_eq_bind, Option.bind_eq_some_iff, Option.some.injEq] at h
    obtain ⟨x, hx, y, hy, rfl⟩ := h
    cases k <;> simp [Sym.eval, iha hx, ihb hy]

theorem div_zero {a b : SObj} {x : Err} (h : a.div b = .error x) : b.expr.ratEval = some 0 := by
  unfold SObj.div at h
  split at h
  · next hc => simp only [Bool.and_eq_true, beq_iff_eq] at hc; exact hc.2
  · cases h

theorem pow_zero_neg {a b : SObj} {x : Err} (h : a.pow b = .error x) : a.expr.ratEval = some 0 ∧ ∃ y, b.expr.ratEval = some y ∧ y < 0 := by
  unfold SObj.pow at h
  split at h
  · next hc =>
    simp only [Bool.and_eq_true, beq_iff_eq] at hc
    refine ⟨hc.1.2, ?_⟩
    have := hc.2
    unfold SObj.isNeg at this
    split at this
    · next y hy => exact ⟨y, hy, of_decide_eq_true this⟩
    · cases this
  · cases h

/-- Zero has no negative powers (true of real powers). -/
def Spec.NoNegativePowers (I : Interp K) : Prop := ∀ y : K, y < 0 → I.pow 0 y = none

/-- C94: `ZeroDivisionError` is only raised for expressions that have no value, whatever the unspecified quantities are. -/
theorem zero_division_undefined (I : Interp K) (hI : Spec.NoNegativePowers I) (ρ : Atom → K) (e : PyExpr) (hu : Spec.AllUnits UReachSI e)
    (h : e.build = .error .zeroDivision) : Spec.val I ρ e = none := by
  induction e with
  | q r x => simp [PyExpr.build] at h
  | bin op a b iha ihb =>
    simp only [PyExpr.build, bind_eq_error] at h
    rcases h with h | ⟨m, hm, h | ⟨n, hn, h⟩⟩
    · simp [Spec.val, iha hu.1 h]
    · rw [Spec.val, ihb hu.2 h]; cases Spec.val I ρ a <;> rfl
    · have va := expr_value I ρ a hm
      have vb := expr_value I ρ b hn
      have um := expr_unit_si a hu.1 hm
      have un := expr_unit_si b hu.2 hn
      cases op <;> simp only [ENode.op, ENode.add, ENode.sub, ENode.mul, ENode.div, ENode.pow, add_SI um un, sub_SI um un] at h
      · split at h <;> simp at h
      · split at h <;> simp at h
      · simp at h
      · simp only [bind_eq_error, reduceCtorEq, and_false, exists_false, or_false] at h
        have := ratEval_sound I ρ (div_zero h)
        rw [vb] at this
        rw [Spec.val, this]
        cases Spec.val I ρ a <;> simp [Spec.opVal]
      · split at h
        · next hd =>
          simp only [bind_eq_error, reduceCtorEq, and_false, exists_false, or_false, UnitObj.pow, hd, if_true] at h
          obtain ⟨h1, y, h2, h3⟩ := pow_zero_neg h
          have e1 := ratEval_sound I ρ h1
          have e2 := ratEval_sound I ρ h2
          rw [va] at e1; rw [vb] at e2
          rw [Spec.val, e1, e2]
          simp only [Option.bind_eq_bind, Option.bind_some, Spec.opVal, Rat.cast_zero]
          exact hI _ (by exact_mod_cast h3)
        · cases h
  | binN op a n iha =>
    simp only [PyExpr.build, bind_eq_error] at h
    rcases h with h | ⟨m, hm, h⟩
    · simp [Spec.val, iha hu h]
    · have va := expr_value I ρ a hm
      cases op <;> simp only [ENode.op, ENode.add, ENode.sub, ENode.mul, ENode.div, ENode.pow, reduceCtorEq] at h
      · simp only [bind_eq_error, reduceCtorEq, and_false, exists_false, or_false] at h
        have hz := div_zero h
        simp only [SObj.num, Sym.ratEval, Option.some.injEq] at hz
        subst hz
        rw [Spec.val]
        cases Spec.val I ρ a <;> simp [Spec.opVal]
      · simp only [bind_eq_error, reduceCtorEq, and_false, exists_false, or_false, UnitObj.pow] at h
        obtain ⟨h1, y, h2, h3⟩ := pow_zero_neg h
        simp only [SObj.num, Sym.ratEval, Option.some.injEq] at h2
        subst h2
        have e1 := ratEval_sound I ρ h1
        rw [va] at e1
        rw [Spec.val, e1]
        simp only [Option.bind_eq_bind, Option.bind_some, Spec.opVal, Rat.cast_zero]
        exact hI _ (by exact_mod_cast h3)
  | nbin op n a iha =>
    simp only [PyExpr.build, bind_eq_error] at h
    rcases h with h | ⟨m, hm, h⟩
    · simp [Spec.val, iha hu h]
    · have va := expr_value I ρ a hm
      cases op with
      | add => simp [ENode.rop, ENode.radd, ENode.add] at h
      | sub => simp [ENode.rop, ENode.rsub, ENode.mul, ENode.add] at h
      | mul => simp [ENode.rop, ENode.rmul, ENode.mul] at h
      | pow => simp [ENode.rop] at h
      | div =>
        simp only [ENode.rop, ENode.rdiv, bind_eq_error] at h
        rcases h with h | ⟨r, _, h⟩
        · simp only [ENode.pow, bind_eq_error, reduceCtorEq, and_false, exists_false, or_false, UnitObj.pow] at h
          have e1 := ratEval_sound I ρ (pow_zero_neg h).1
          rw [va] at e1
          rw [Spec.val, e1]
          simp [Spec.opVal]
        · simp [ENode.mul] at h
  | fn f a iha =>
    simp only [PyExpr.build, bind_eq_error] at h
    rcases h with h | ⟨m, hm, h⟩
    · simp [Spec.val, iha hu h]
    · simp only [applyFn, wrapper] at h
      split at h <;> cases h
  | mmN k a n iha =>
    simp only [PyExpr.build, bind_eq_error] at h
    rcases h with h | ⟨m, hm, h⟩
    · simp [Spec.val, iha hu h]
    · simp [minMax, MArg.isNum, MArg.isNode, MArg.unit?] at h
  | diff r x ind =>
    simp only [PyExpr.build, Quantity.diff] at h
    split at h
    · cases ind with
      | none => simp [diffNode] at h
      | some t =>
        simp only [diffNode] at h
        split at h <;> simp at h
    · cases h

/-- Arithmetic of specified quantities with literal integer powers. -/
def Spec.Arithmetic : PyExpr → Prop
  | .q _ x => x.isSpecified = true
  | .bin op a b => op ≠ .pow ∧ Spec.Arithmetic a ∧ Spec.Arithmetic b
  | .binN op a n => (op = .pow → n.den = 1) ∧ Spec.Arithmetic a
  | .nbin _ _ a => Spec.Arithmetic a
  | _ => False

theorem arithmetic_number (e : PyExpr) (ha : Spec.Arithmetic e) {n : ENode} (h : e.build = .ok n) :
    n.sym.isPy = true ∧ ∃ v : ℚ, n.sym.expr.ratEval = some v := by
  induction e generalizing n with
  | q r x =>
    simp only [PyExpr.build, Except.ok.injEq] at h; subst h
    have hx : x.isSpecified = true := ha
    unfold Quantity.call
    rw [if_neg (by rw [hx]; decide)]
    exact ⟨rfl, x.value, rfl⟩
  | bin op a b iha ihb =>
    simp only [PyExpr.build, bind_eq_ok] at h
    obtain ⟨m1, h1, m2, h2, h⟩ := h
    obtain ⟨hop, ha, hb⟩ := ha
    obtain ⟨p1, v1, q1⟩ := iha ha h1
    obtain ⟨p2, v2, q2⟩ := ihb hb h2
    have hs := (op_node_ok h).1
    cases op with
    | pow => exact absurd rfl hop
    | div =>
      rw [hs]
      simp only [p1, p2, Bool.and_self, true_and]
      simp only [ENode.op, ENode.div, bind_eq_ok, SObj.div] at h
      obtain ⟨s, hs2, _⟩ := h
      split at hs2
      · cases hs2
      · next hz =>
        simp only [p1, p2, q2, Bool.and_self, Bool.true_and, beq_iff_eq, Option.some.injEq] at hz
        exact ⟨v1 / v2, by simp [opSym, Sym.ratEval, q1, q2, hz]⟩
    | add => rw [hs]; exact ⟨by simp [p1, p2], v1 + v2, by simp [opSym, Sym.ratEval, q1, q2]⟩
    | sub => rw [hs]; exact ⟨by simp [p1, p2], v1 - v2, by simp [opSym, Sym.ratEval, q1, q2]⟩
    | mul => rw [hs]; exact ⟨by simp [p1, p2], v1 * v2, by simp [opSym, Sym.ratEval, q1, q2]⟩
  | binN op a k iha =>
    simp only [PyExpr.build, bind_eq_ok] at h
    obtain ⟨m1, h1, h⟩ := h
    obtain ⟨hop, ha⟩ := ha
    obtain ⟨p1, v1, q1⟩ := iha ha h1
    have hs := (op_num_ok h).1
    cases op with
    | pow =>
      rw [hs]
      simp only [p1, Bool.and_self, true_and]
      simp only [ENode.op, ENode.pow, bind_eq_ok, SObj.pow] at h
      obtain ⟨s, hs2, _⟩ := h
      split at hs2
      · cases hs2
      · next hz =>
        simp only [p1, q1, SObj.num, Sym.ratEval, SObj.isNeg, Bool.and_self, Bool.true_and, Bool.and_eq_true, beq_iff_eq, Option.some.injEq, decide_eq_true_eq] at hz
        refine ⟨v1 ^ k.num, ?_⟩
        simp [opSym, Sym.ratEval, q1, hop rfl]
        exact fun h => not_lt.mp fun h2 => hz ⟨h, h2⟩
    | div =>
      rw [hs]
      simp only [p1, Bool.and_self, true_and]
      simp only [ENode.op, ENode.div, bind_eq_ok, SObj.div] at h
      obtain ⟨s, hs2, _⟩ := h
      split at hs2
      · cases hs2
      · next hz =>
        simp only [p1, SObj.num, Sym.ratEval, Bool.and_self, Bool.true_and, beq_iff_eq, Option.some.injEq] at hz
        exact ⟨v1 / k, by simp [opSym, Sym.ratEval, q1, hz]⟩
    | add => rw [hs]; exact ⟨by simp [p1], v1 + k, by simp [opSym, Sym.ratEval, q1]⟩
    | sub => rw [hs]; exact ⟨by simp [p1], v1 - k, by simp [opSym, Sym.ratEval, q1]⟩
    | mul => rw [hs]; exact ⟨by simp [p1], v1 * k, by simp [opSym, Sym.ratEval, q1]⟩
  | nbin op k a iha =>
    simp only [PyExpr.build, bind_eq_ok] at h
    obtain ⟨m1, h1, h⟩ := h
    obtain ⟨p1, v1, q1⟩ := iha ha h1
    cases op with
    | add =>
      simp only [ENode.rop, ENode.radd, ENode.add, Except.ok.injEq] at h; subst h
      exact ⟨by simp [SObj.add, p1, SObj.num], v1 + k, by simp [SObj.add, SObj.num, Sym.ratEval, q1]⟩
    | sub =>
      simp only [ENode.rop, ENode.rsub, ENode.mul, ENode.add, ok_bind, Except.ok.injEq] at h; subst h
      exact ⟨by simp [SObj.add, SObj.mul, p1, SObj.num], v1 * (-1) + k, by simp [SObj.add, SObj.mul, SObj.num, Sym.ratEval, q1]⟩
    | mul =>
      simp only [ENode.rop, ENode.rmul, ENode.mul, Except.ok.injEq] at h; subst h
      exact ⟨by simp [SObj.mul, p1, SObj.num], v1 * k, by simp [SObj.mul, SObj.num, Sym.ratEval, q1]⟩
    | pow => simp [ENode.rop] at h
    | div =>
      simp only [ENode.rop, ENode.rdiv, ENode.pow, bind_eq_ok, SObj.pow, UnitObj.pow, ENode.mul] at h
      obtain ⟨m2, ⟨s, hs2, u, _, hm2⟩, h⟩ := h
      simp only [Except.ok.injEq] at h hm2
      subst hm2
      subst h
      split at hs2
      · cases hs2
      · next hz =>
        simp only [Except.ok.injEq] at hs2; subst hs2
        simp only [p1, q1, SObj.num, Sym.ratEval, SObj.isNeg, Bool.and_self, Bool.true_and, Bool.and_eq_true, beq_iff_eq, Option.some.injEq, decide_eq_true_eq] at hz
        have hv : v1 ≠ 0 := fun h => hz ⟨h, by norm_num⟩
        exact ⟨by simp [SObj.mul, p1, SObj.num], v1 ^ (-1 : ℤ) * k, by simp [SObj.mul, SObj.num, Sym.ratEval, q1, hv]⟩
  | fn f a => exact ha.elim
  | mmN k a n => exact ha.elim
  | diff r x ind => exact ha.elim

/-- C94: arithmetic of specified quantities that is accepted has a value, the same in every interpretation. -/
theorem accepted_arithmetic_defined (e : PyExpr) (ha : Spec.Arithmetic e) {n : ENode} (h : e.build = .ok n) :
    ∃ v : ℚ, ∀ {K : Type} [Field K] [LinearOrder K] [IsStrictOrderedRing K] (I : Interp K) (ρ : Atom → K), Spec.val I ρ e = some (v : K) := by
  obtain ⟨_, v, hv⟩ := arithmetic_number e ha h
  exact ⟨v, fun I ρ => by rw [← expr_value I ρ e h]; exact ratEval_sound I ρ hv⟩

/-- 2 metres minus 2. -/
def Ex.nought : PyExpr := .binN .sub Ex.P 2

/-- C94 fails with unspecified quantities: `x / (p - 2)` is accepted for `p = 2`, though it has no value for any `x`. -/
theorem zero_divisor_accepted : (∃ n, (PyExpr.bin .div Ex.X Ex.nought).build = .ok n) ∧
    ∀ {K : Type} [Field K] [LinearOrder K] (I : Interp K) (ρ : Atom → K), Spec.val I ρ (PyExpr.bin .div Ex.X Ex.nought) = none := by
  refine ⟨⟨_, rfl⟩, fun {K} _ _ I ρ => ?_⟩
  simp [Spec.val, Ex.nought, Ex.X, Ex.P, Ex.p, Ex.x, Spec.qVal, mkParameter, mkVariable, Spec.opVal]

example : (PyExpr.bin .div Ex.P Ex.nought).build = .error .zeroDivision ∧ (PyExpr.nbin .div 3 Ex.nought).build = .error .zeroDivision ∧
    (PyExpr.binN .pow Ex.nought (-1)).build = .error .zeroDivision ∧ (PyExpr.bin .div Ex.P (.binN .add Ex.nought 1)).build.isOk = true ∧
    Spec.AllUnits UReachSI (PyExpr.bin .div Ex.P Ex.nought) ∧ Spec.Arithmetic (.bin .div Ex.P (.binN .add Ex.nought 1)) :=
  ⟨by decide +kernel, by decide +kernel, by decide +kernel, by decide +kernel, ⟨Ex.m_si, Ex.m_si⟩,
    ⟨by decide, rfl, fun h => (by cases h), fun h => (by cases h), rfl⟩⟩

/-- Interpretations with that property exist. -/
theorem noNegativePowers_min : Spec.NoNegativePowers (Interp.min (K := K)) := by
  intro y hy
  unfold Interp.min
  simp only
  split
  · next h =>
    rw [if_pos]
    refine ⟨trivial, ?_⟩
    have := h.choose_spec
    rw [this] at hy
    exact_mod_cast hy
  · rfl

end Sloth
