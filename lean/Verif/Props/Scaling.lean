import Verif.Props.Equations
import Mathlib.Analysis.SpecialFunctions.Pow.Real
import Mathlib.Tactic.Ring

/-!
# Accepted equations do not depend on the choice of units (C86)

A change of the units in which numbers are given multiplies every number of dimension `d` by a positive factor `s d`, multiplicative in `d`.
-/

namespace Sloth
open UnitObj

namespace Spec

section
variable {K : Type} [Field K] [LinearOrder K]

/-- A change of units: the factor by which numbers of each dimension are multiplied. -/
structure Rescaling (I : Interp K) where
  s : Dim → K
  pos : ∀ d, 0 < s d
  mul : ∀ a b, s (Dim.mul a b) = s a * s b
  /-- literal powers of numbers of dimension `d` are numbers of dimension `d ^ n` -/
  pow : ∀ d (n : ℚ) x, I.pow (s d * x) (n : K) = (I.pow x (n : K)).map (s (Dim.pow d n) * ·)

/-- The numbers of an assignment in the other units; `D` tells the dimension of the atoms. -/
def rescale (s : Dim → K) (D : Atom → Dim) (ρ : Atom → K) : Atom → K := fun a => s (D a) * ρ a

/-- Value of an expression when all its quantities, specified or not, are read from the assignment. -/
def freeVal (I : Interp K) (ρ : Atom → K) : PyExpr → Option K
  | .q _ x => some (ρ (.v x.name))
  | .bin op a b => do opVal I op (← freeVal I ρ a) (← freeVal I ρ b)
  | .binN op a n => do opVal I op (← freeVal I ρ a) (n : K)
  | .nbin op n a => do opVal I op (n : K) (← freeVal I ρ a)
  | .fn f a => do I.fn f (← freeVal I ρ a)
  | .mmN isMax a n => do
    let x ← freeVal I ρ a
    some (if isMax then max x (n : K) else min x (n : K))
  | .diff _ x none => some (ρ (.d x.name x.name))
  | .diff _ x (some (_, t)) => some (ρ (.d x.name t.name))

end

/-- `D` gives the quantities and derivatives of the expression their dimension (in particular, quantities of the same name have the same). -/
def Typed (D : Atom → Dim) : PyExpr → Prop
  | .q _ x => D (.v x.name) = x.units.dimVec
  | .bin _ a b => Typed D a ∧ Typed D b
  | .binN _ a _ | .nbin _ _ a | .fn _ a | .mmN _ a _ => Typed D a
  | .diff _ x none => D (.d x.name x.name) = Dim.one
  | .diff _ x (some (_, t)) => D (.d x.name t.name) = Dim.div x.units.dimVec t.units.dimVec

/-- Numbers are only added to, subtracted from or compared with pure numbers (or are zero), and the values of specified quantities do
not enter `Min` and `Max`. -/
def PureLiterals : PyExpr → Prop
  | .q _ _ | .diff _ _ _ => True
  | .bin _ a b => PureLiterals a ∧ PureLiterals b
  | .binN op a n | .nbin op n a => PureLiterals a ∧ (op = .add ∨ op = .sub → n = 0 ∨ dim a = some Dim.one)
  | .fn _ a => PureLiterals a
  | .mmN _ a n => PureLiterals a ∧ (n = 0 ∨ dim a = some Dim.one) ∧ ∀ p ∈ quantities a, p.2.isSpecified = false

end Spec

section
variable {K : Type} [Field K] [LinearOrder K]

theorem val_free (I : Interp K) (ρ : Atom → K) (e : PyExpr) (h : ∀ p ∈ Spec.quantities e, p.2.isSpecified = false) :
    Spec.val I ρ e = Spec.freeVal I ρ e := by
  induction e with
  | q r x =>
    have hx : x.isSpecified = false := h (r, x) (by simp [Spec.quantities])
    simp [Spec.val, Spec.freeVal, Spec.qVal, hx]
  | bin op a b iha ihb =>
    simp only [Spec.val, Spec.freeVal]
    rw [iha fun p hp => h p (by simp [Spec.quantities, hp]), ihb fun p hp => h p (by simp [Spec.quantities, hp])]
  | binN op a n iha => simp only [Spec.val, Spec.freeVal]; rw [iha h]
  | nbin op n a iha => simp only [Spec.val, Spec.freeVal]; rw [iha h]
  | fn f a iha => simp only [Spec.val, Spec.freeVal]; rw [iha h]
  | mmN m a n iha => simp only [Spec.val, Spec.freeVal]; rw [iha h]
  | diff r x ind =>
    have hx : x.isSpecified = false := h (r, x) (by simp [Spec.quantities])
    rcases ind with _ | ⟨_, t⟩ <;> simp [Spec.val, Spec.freeVal, hx]

/-- The symbolic representation of a built node has the value of the expression with all quantities read from the assignment. -/
theorem expr_repr_free (I : Interp K) (ρ : Atom → K) (e : PyExpr) {n : ENode} (h : e.build = .ok n) (hl : Spec.PureLiterals e) :
    n.repr.eval I ρ = Spec.freeVal I ρ e := by
  induction e generalizing n with
  | q r x =>
    simp only [PyExpr.build, Except.ok.injEq] at h; subst h
    rw [(call_maps r x).2.2.2.2]; rfl
  | bin op a b iha ihb =>
    simp only [PyExpr.build, bind_eq_ok] at h
    obtain ⟨m, hm, k, hk, h⟩ := h
    rw [(op_node_eval I ρ h).2, iha hm hl.1, ihb hk hl.2]; rfl
  | binN op a q iha =>
    simp only [PyExpr.build, bind_eq_ok] at h
    obtain ⟨m, hm, h⟩ := h
    rw [(op_num_eval I ρ h).2, iha hm hl.1]; rfl
  | nbin op q a iha =>
    simp only [PyExpr.build, bind_eq_ok] at h
    obtain ⟨m, hm, h⟩ := h
    rw [(rop_eval I ρ h).2, iha hm hl.1]; rfl
  | fn f a iha =>
    simp only [PyExpr.build, bind_eq_ok] at h
    obtain ⟨m, hm, h⟩ := h
    rw [(fn_ok h).2.1]; simp only [Sym.eval, iha hm hl]; rfl
  | mmN isMax a q iha =>
    simp only [PyExpr.build, bind_eq_ok] at h
    obtain ⟨m, hm, h⟩ := h
    obtain ⟨r, hr, _, _, hs, _⟩ := mmN_eq isMax m q
    rw [hr] at h; simp only [Except.ok.injEq] at h; subst h
    rw [hs]; simp only [Sym.eval, expr_value I ρ a hm, val_free I ρ a hl.2.2, Spec.freeVal]; rfl
  | diff r x ind =>
    rw [(diff_node h).2.1]
    rcases ind with _ | ⟨_, t⟩ <;> rfl

namespace Spec.Rescaling
variable {I : Interp K} (S : Rescaling I)

theorem ne (d : Dim) : S.s d ≠ 0 := (S.pos d).ne'

theorem one : S.s Dim.one = 1 := by
  have h := S.mul Dim.one Dim.one
  have e : Dim.mul Dim.one Dim.one = Dim.one := by funext d; simp [Dim.mul, Dim.one]
  rw [e] at h
  exact mul_left_cancel₀ (S.ne _) (by rw [← h, mul_one])

theorem div (a b : Dim) : S.s (Dim.div a b) = S.s a / S.s b := by
  have h := S.mul (Dim.div a b) b
  have e : Dim.mul (Dim.div a b) b = a := by funext d; simp [Dim.mul, Dim.div]
  rw [e] at h
  rw [h, mul_div_cancel_right₀ _ (S.ne _)]

end Spec.Rescaling

/-- Expressions that have a dimension scale with it. -/
theorem freeVal_rescaled [IsStrictOrderedRing K] {I : Interp K} (S : Spec.Rescaling I) {D : Atom → Spec.Dim} (ρ : Atom → K) (e : PyExpr) {d : Spec.Dim} (hd : Spec.dim e = some d)
    (ht : Spec.Typed D e) (hl : Spec.PureLiterals e) :
    Spec.freeVal I (Spec.rescale S.s D ρ) e = (Spec.freeVal I ρ e).map (S.s d * ·) := by
  induction e generalizing d with
  | q r x =>
    simp only [Spec.dim, Option.some.injEq] at hd; subst hd
    show some (S.s (D _) * _) = _
    rw [show D _ = _ from ht]; rfl
  | bin op a b iha ihb =>
    have key : ∃ da db, Spec.dim a = some da ∧ Spec.dim b = some db ∧
        ∀ x y, Spec.opVal I op (S.s da * x) (S.s db * y) = (Spec.opVal I op x y).map (S.s d * ·) := by
      cases ha : Spec.dim a with
      | none => cases op <;> simp [Spec.dim, ha] at hd
      | some da =>
        cases hb : Spec.dim b with
        | none => cases op <;> simp [Spec.dim, ha, hb] at hd
        | some db =>
          refine ⟨da, db, rfl, rfl, fun x y => ?_⟩
          cases op with
          | add =>
            simp [Spec.dim, ha, hb] at hd
            obtain ⟨rfl, rfl⟩ := hd
            simp [Spec.opVal, mul_add]
          | sub =>
            simp [Spec.dim, ha, hb] at hd
            obtain ⟨rfl, rfl⟩ := hd
            simp [Spec.opVal, mul_sub]
          | mul =>
            simp [Spec.dim, ha, hb] at hd
            subst hd
            simp [Spec.opVal, S.mul]; ring
          | div =>
            simp [Spec.dim, ha, hb] at hd
            subst hd
            by_cases hy : y = 0
            · simp [Spec.opVal, hy]
            · simp only [Spec.opVal, mul_eq_zero, S.ne, hy, or_self, if_false, Option.map_some, S.div]
              rw [mul_div_mul_comm]
          | pow =>
            simp [Spec.dim, ha, hb] at hd
            obtain ⟨⟨rfl, rfl⟩, rfl⟩ := hd
            simp [Spec.opVal, S.one]
    obtain ⟨da, db, ha, hb, hop⟩ := key
    simp only [Spec.freeVal]
    rw [iha ha ht.1 hl.1, ihb hb ht.2 hl.2]
    cases Spec.freeVal I ρ a with
    | none => rfl
    | some x =>
      cases Spec.freeVal I ρ b with
      | none => rfl
      | some y => exact hop x y
  | binN op a n iha =>
    have key : ∃ da, Spec.dim a = some da ∧ ∀ x, Spec.opVal I op (S.s da * x) (n : K) = (Spec.opVal I op x (n : K)).map (S.s d * ·) := by
      cases ha : Spec.dim a with
      | none => cases op <;> simp [Spec.dim, ha] at hd
      | some da =>
        refine ⟨da, rfl, fun x => ?_⟩
        cases op with
        | add =>
          simp [Spec.dim, ha] at hd; subst hd
          rcases hl.2 (Or.inl rfl) with rfl | h
          · simp [Spec.opVal]
          · rw [ha] at h; cases h; simp [Spec.opVal, S.one]
        | sub =>
          simp [Spec.dim, ha] at hd; subst hd
          rcases hl.2 (Or.inr rfl) with rfl | h
          · simp [Spec.opVal]
          · rw [ha] at h; cases h; simp [Spec.opVal, S.one]
        | mul =>
          simp [Spec.dim, ha] at hd; subst hd
          simp [Spec.opVal, mul_assoc]
        | div =>
          simp [Spec.dim, ha] at hd; subst hd
          by_cases hn : (n : K) = 0
          · simp [Spec.opVal, hn]
          · simp [Spec.opVal, hn, mul_div_assoc]
        | pow =>
          simp [Spec.dim, ha] at hd; subst hd
          exact S.pow _ _ _
    obtain ⟨da, ha, hop⟩ := key
    simp only [Spec.freeVal]
    rw [iha ha ht hl.1]
    cases Spec.freeVal I ρ a with
    | none => rfl
    | some x => exact hop x
  | nbin op n a iha =>
    have key : ∃ da, Spec.dim a = some da ∧ ∀ x, Spec.opVal I op (n : K) (S.s da * x) = (Spec.opVal I op (n : K) x).map (S.s d * ·) := by
      cases ha : Spec.dim a with
      | none => cases op <;> simp [Spec.dim, ha] at hd
      | some da =>
        refine ⟨da, rfl, fun x => ?_⟩
        cases op with
        | add =>
          simp [Spec.dim, ha] at hd; subst hd
          rcases hl.2 (Or.inl rfl) with rfl | h
          · simp [Spec.opVal]
          · rw [ha] at h; cases h; simp [Spec.opVal, S.one]
        | sub =>
          simp [Spec.dim, ha] at hd; subst hd
          rcases hl.2 (Or.inr rfl) with rfl | h
          · simp [Spec.opVal]
          · rw [ha] at h; cases h; simp [Spec.opVal, S.one]
        | mul =>
          simp [Spec.dim, ha] at hd; subst hd
          simp [Spec.opVal]; ring
        | div =>
          simp [Spec.dim, ha] at hd; subst hd
          by_cases hx : x = 0
          · simp [Spec.opVal, hx]
          · simp only [Spec.opVal, mul_eq_zero, S.ne, hx, or_self, if_false, Option.map_some, S.div, S.one]
            rw [div_mul_div_comm, one_mul]
        | pow => simp [Spec.dim] at hd
    obtain ⟨da, ha, hop⟩ := key
    simp only [Spec.freeVal]
    rw [iha ha ht hl.1]
    cases Spec.freeVal I ρ a with
    | none => rfl
    | some x => exact hop x
  | fn f a iha =>
    cases ha : Spec.dim a with
    | none => simp [Spec.dim, ha] at hd
    | some da =>
      simp [Spec.dim, ha] at hd
      obtain ⟨rfl, rfl⟩ := hd
      simp only [Spec.freeVal]
      rw [iha ha ht hl]
      simp [S.one]
  | mmN isMax a n iha =>
    simp only [Spec.dim] at hd
    simp only [Spec.freeVal]
    rw [iha hd ht hl.1]
    cases Spec.freeVal I ρ a with
    | none => rfl
    | some x =>
      rcases hl.2.1 with rfl | h
      · cases isMax
        · have := mul_min_of_nonneg x 0 (S.pos d).le
          simp [this]
        · have := mul_max_of_nonneg x 0 (S.pos d).le
          simp [this]
      · rw [hd] at h; cases h; simp [S.one]
  | diff r x ind =>
    rcases ind with _ | ⟨_, t⟩
    · simp only [Spec.dim] at hd
      split at hd <;> simp at hd
      subst hd
      show some (S.s (D _) * _) = _
      rw [show D _ = _ from ht]; rfl
    · simp only [Spec.dim] at hd
      split at hd <;> simp at hd
      subst hd
      show some (S.s (D _) * _) = _
      rw [show D _ = _ from ht]; rfl

/-- C86 (partial): the value of an accepted expression scales with the dimension the package gives it, whatever the units.  Missing: numbers added to
dimensional expressions and non-literal powers of dimensional expressions, where it fails. -/
theorem expr_scales_partial [IsStrictOrderedRing K] {I : Interp K} (S : Spec.Rescaling I) {D : Atom → Spec.Dim} (ρ : Atom → K) (e : PyExpr)
    (hu : Spec.AllUnits UReachSI e) (hp : Spec.PlainPowers e) (ht : Spec.Typed D e) (hl : Spec.PureLiterals e) {n : ENode} (h : e.build = .ok n) :
    n.repr.eval I (Spec.rescale S.s D ρ) = (n.repr.eval I ρ).map (S.s n.unit.dimVec * ·) := by
  rw [expr_repr_free I _ e h hl, expr_repr_free I _ e h hl]
  exact freeVal_rescaled S ρ e (expr_dimension_partial e hu hp h).2 ht hl

/-- The number on the right of a statement is a pure number or zero where the left side is dimensional. -/
def Spec.PureStmt : Stmt → Prop
  | .eqnNum l q => q = 0 ∨ Spec.dim l = some Spec.Dim.one
  | _ => True

/-- C86 (partial): the residual of an accepted equation scales with its dimension, so whether the equation holds does not depend on the units in which the
numbers are given.  Missing as in `expr_scales_partial`. -/
theorem equation_units_partial [IsStrictOrderedRing K] {I : Interp K} (S : Spec.Rescaling I) {D : Atom → Spec.Dim} (ρ : Atom → K) (st : Stmt)
    (hs : ∀ x ∈ Spec.parts st, Spec.AllUnits UReachSI x ∧ Spec.PlainPowers x ∧ Spec.Typed D x ∧ Spec.PureLiterals x) (hq : Spec.PureStmt st)
    (tag : String) (e e' : EqObj) {a : ResArg} (ha : st.arg = .ok a) (h : e.setResidual tag a = (.ok (), e')) :
    ∃ n, e'.expr = some n ∧ n.repr.eval I (Spec.rescale S.s D ρ) = (n.repr.eval I ρ).map (S.s n.unit.dimVec * ·) ∧
      (n.repr.eval I (Spec.rescale S.s D ρ) = some 0 ↔ n.repr.eval I ρ = some 0) := by
  suffices hm : ∃ n, e'.expr = some n ∧ n.repr.eval I (Spec.rescale S.s D ρ) = (n.repr.eval I ρ).map (S.s n.unit.dimVec * ·) by
    obtain ⟨n, h1, h2⟩ := hm
    refine ⟨n, h1, h2, ?_⟩
    rw [h2]
    cases n.repr.eval I ρ with
    | none => simp
    | some v => simp [S.ne]
  cases st with
  | eqn l r =>
    simp only [Stmt.arg, bind_eq_ok, Except.ok.injEq] at ha
    obtain ⟨nl, hl, nr, hr, rfl⟩ := ha
    simp only [EqObj.setResidual] at h
    split at h
    · simp at h
    · rename_i d hd
      have he : e'.expr = some d := by
        obtain ⟨n, hn, h'⟩ := EqObj.finish_ok h
        rw [h']
      obtain ⟨ul, pl, tl, ll⟩ := hs l (by simp [Spec.parts])
      obtain ⟨ur, pr, tr, lr⟩ := hs r (by simp [Spec.parts])
      refine ⟨d, he, expr_scales_partial S ρ (.bin .sub l r) ⟨ul, ur⟩ ⟨pl, pr, by simp⟩ ⟨tl, tr⟩ ⟨ll, lr⟩ ?_⟩
      simp only [PyExpr.build, hl, hr, ok_bind]
      exact hd
  | eqnNum l q =>
    simp only [Stmt.arg, bind_eq_ok, Except.ok.injEq] at ha
    obtain ⟨nl, hl, rfl⟩ := ha
    simp only [EqObj.setResidual] at h
    split at h
    · simp at h
    · rename_i d hd
      have he : e'.expr = some d := by
        obtain ⟨n, hn, h'⟩ := EqObj.finish_ok h
        rw [h']
      obtain ⟨ul, pl, tl, ll⟩ := hs l (by simp [Spec.parts])
      refine ⟨d, he, ?_⟩
      have hu := expr_dimension_partial l ul pl hl
      have hdu : d.unit.dimVec = nl.unit.dimVec := (op_node_unit (m := nl) (op := .sub) hu.1 (show UReachSI (EqObj.numNode tag q nl.unit).unit from hu.1) hd).2.2
      have hv : ∀ ρ : Atom → K, d.repr.eval I ρ = (nl.repr.eval I ρ).bind fun x => some (x - (q : K)) := fun ρ =>
        (op_node_eval I ρ (m := nl) (op := .sub) hd).2
      rw [hv, hv, hdu, expr_scales_partial S ρ l ul pl tl ll hl]
      cases nl.repr.eval I ρ with
      | none => rfl
      | some x =>
        rcases hq with rfl | h1
        · simp
        · rw [hu.2, Option.some.injEq] at h1
          simp [h1, S.one]
  | res x =>
    simp only [Stmt.arg, bind_eq_ok, Except.ok.injEq] at ha
    obtain ⟨nl, hl, rfl⟩ := ha
    simp only [EqObj.setResidual] at h
    have he : e'.expr = some nl := by
      obtain ⟨n, hn, h'⟩ := EqObj.finish_ok h
      rw [h']
    obtain ⟨ul, pl, tl, ll⟩ := hs x (by simp [Spec.parts])
    exact ⟨nl, he, expr_scales_partial S ρ x ul pl tl ll hl⟩

/-! ## Where it fails -/

/-- C86 fails for numbers: `x() == q` is accepted for every quantity `x` and number `q`; where it holds it no longer holds with the numbers of other units,
unless these measure `x` alike (or `q` is zero). -/
theorem literal_depends_on_units {I : Interp K} [CharZero K] (S : Spec.Rescaling I) (D : Atom → Spec.Dim) (r : Ref) (x : Quantity) (q : ℚ) (hx : UReachSI x.units)
    (hD : D (.v x.name) = x.units.dimVec) (hs : S.s x.units.dimVec ≠ 1) (hq : q ≠ 0) (tag : String) (e : EqObj) :
    ∃ e' n, e.setResidual tag (.eqnNum (x.call r) q) = (.ok (), e') ∧ e'.expr = some n ∧ ∀ ρ : Atom → K, n.repr.eval I ρ = some 0 →
      n.repr.eval I (Spec.rescale S.s D ρ) ≠ some 0 := by
  have hu : (x.call r).unit = x.units := (call_maps r x).2.2.2.1
  obtain ⟨_, e', d, c, he, hd, hc, _⟩ := equation_coherent tag e (x.call r) (x.call r) q (hu ▸ hx) (hu ▸ hx)
  refine ⟨e', d, he, hd, fun ρ h0 h1 => ?_⟩
  have hsub : (x.call r).sub (.node (EqObj.numNode tag q (x.call r).unit)) = .ok d := by
    simp only [EqObj.setResidual] at he
    split at he
    · simp at he
    · rename_i d' hd'
      obtain ⟨n, hn, h'⟩ := EqObj.finish_ok he
      rw [h'] at hd
      simp only [Option.some.injEq] at hd
      rw [hd', hd]
  have hv : ∀ ρ : Atom → K, d.repr.eval I ρ = some (ρ (.v x.name) - (q : K)) := fun ρ => by
    rw [(op_node_eval I ρ (m := x.call r) (op := .sub) hsub).2, (call_maps r x).2.2.2.2]; rfl
  rw [hv, Option.some.injEq, sub_eq_zero] at h0 h1
  simp only [Spec.rescale, hD, h0] at h1
  have hqK : (q : K) ≠ 0 := by exact_mod_cast hq
  exact hs (mul_right_cancel₀ hqK (by rw [h1, one_mul]))

/-- C86 fails for powers with an exponent that is not a literal: `x()**k() == y()` is accepted for a length `x`, a pure number `k` and a length `y`; with `k` equal
to 2 and `x` and `y` equal to 1 it holds, but no longer when another unit of length is used. -/
theorem power_depends_on_units {I : Interp K} [CharZero K] (S : Spec.Rescaling I) (hs : S.s Tmpl.m.dimVec ≠ 1) :
    ∃ st : Stmt, ∃ a e' n, ∃ D : Atom → Spec.Dim, ∃ ρ : Atom → K, st.arg = .ok a ∧ ({ name := "e" } : EqObj).setResidual "" a = (.ok (), e') ∧ e'.expr = some n ∧
      (∀ x ∈ Spec.parts st, Spec.AllUnits UReachSI x ∧ Spec.Typed D x ∧ Spec.PureLiterals x) ∧ n.repr.eval I ρ = some 0 ∧
      n.repr.eval I (Spec.rescale S.s D ρ) ≠ some 0 := by
  refine ⟨.eqn (.bin .pow Ex.X (.q 5 Ex.w)) Ex.Y, _, _, _, fun a => if a = .v "w" then Spec.Dim.one else Tmpl.m.dimVec,
    fun a => if a = .v "w" then 2 else 1, rfl, rfl, rfl, ?_, ?_, ?_⟩
  · intro x hx
    simp only [Spec.parts, List.mem_cons, List.not_mem_nil, or_false] at hx
    rcases hx with rfl | rfl
    · exact ⟨⟨Ex.m_si, dimless_reach⟩, ⟨rfl, show Spec.Dim.one = Tmpl.dimless.dimVec by decide +kernel⟩, trivial, trivial⟩
    · exact ⟨Ex.m_si, rfl, trivial⟩
  · show ((I.pow 1 2).bind fun v => some (v - 1)) = some 0
    rw [show (2 : K) = ((2 : ℤ) : K) by norm_num, I.pow_int]
    simp
  · show ((I.pow (S.s Tmpl.m.dimVec * 1) (S.s Spec.Dim.one * 2)).bind fun v => some (v - S.s Tmpl.m.dimVec * 1)) ≠ some 0
    rw [S.one, one_mul, mul_one, show (2 : K) = ((2 : ℤ) : K) by norm_num, I.pow_int, if_neg (by simp)]
    intro h
    simp only [Option.bind_some, Option.some.injEq, sub_eq_zero] at h
    have h2 : S.s Tmpl.m.dimVec * S.s Tmpl.m.dimVec = S.s Tmpl.m.dimVec * 1 := by
      rw [mul_one, ← pow_two]; exact_mod_cast h
    exact hs (mul_left_cancel₀ (S.ne _) h2)
end

/-! ## Real numbers -/

/-- The real numbers with their usual powers and functions. -/
noncomputable def Ex.realI : Interp ℝ where
  fn f v := match f with
    | .abs => some |v|
    | .exp => some (Real.exp v)
    | _ => none
  pow x y := if x = 0 ∧ y < 0 then none else some (x ^ y)
  pow_int x n := by
    by_cases h : x = 0 ∧ n < 0
    · rw [if_pos h, if_pos (by exact_mod_cast h)]
    · rw [if_neg h, if_neg (by exact_mod_cast h), Real.rpow_intCast]

/-- The logarithm of the factor of a dimension, `u b` being that of the factor of the base unit `b`. -/
noncomputable def Spec.logFactor (u : Spec.Base → ℝ) (d : Spec.Dim) : ℝ :=
  d .m * u .m + d .kg * u .kg + d .s * u .s + d .A * u .A + d .K * u .K + d .mol * u .mol + d .cd * u .cd

theorem mul_rpow_pos {c : ℝ} (hc : 0 < c) (x y : ℝ) : (c * x) ^ y = c ^ y * x ^ y := by
  rcases lt_or_ge x 0 with h | h
  · have hcx : c * x < 0 := mul_neg_of_pos_of_neg hc h
    rw [Real.rpow_def_of_neg hcx, Real.rpow_def_of_neg h, Real.rpow_def_of_pos hc, Real.log_mul hc.ne' h.ne, add_mul, Real.exp_add]
    ring
  · exact Real.mul_rpow hc.le h

/-- Every choice of factors of the seven base units is a change of units. -/
noncomputable def Spec.realRescaling (u : Spec.Base → ℝ) : Spec.Rescaling Ex.realI where
  s d := Real.exp (Spec.logFactor u d)
  pos d := Real.exp_pos _
  mul a b := by
    rw [← Real.exp_add]; congr 1
    simp only [Spec.logFactor, Spec.Dim.mul]; push_cast; ring
  pow d n x := by
    have hne : Real.exp (Spec.logFactor u d) ≠ 0 := (Real.exp_pos _).ne'
    simp only [Ex.realI, mul_eq_zero, hne, false_or]
    split
    · rfl
    · rw [mul_rpow_pos (Real.exp_pos _), ← Real.exp_mul]
      simp only [Option.map_some, Option.some.injEq]
      congr 2
      simp only [Spec.logFactor, Spec.Dim.pow]; push_cast; ring

/-- Centimetres instead of metres: the factor of lengths is not 1. -/
example : ∃ S : Spec.Rescaling Ex.realI, S.s Tmpl.m.dimVec ≠ 1 ∧ S.s Tmpl.m.dimVec = 100 := by
  have h : (Spec.realRescaling fun b => if b = .m then Real.log 100 else 0).s Tmpl.m.dimVec = 100 := by
    have e : Tmpl.m.dimVec = Spec.Dim.base .m := by decide +kernel
    rw [e]
    simp [Spec.realRescaling, Spec.logFactor, Spec.Dim.base, Real.exp_log]
  exact ⟨_, by rw [h]; norm_num, h⟩

/-- `x() == 5` metres is not `x() == 5` centimetres. -/
example : ∃ (S : Spec.Rescaling Ex.realI) (D : Atom → Spec.Dim), UReachSI Ex.x.units ∧ D (.v Ex.x.name) = Ex.x.units.dimVec ∧ S.s Ex.x.units.dimVec ≠ 1 := by
  have h : (Spec.realRescaling fun b => if b = .m then Real.log 100 else 0).s Tmpl.m.dimVec = 100 := by
    have e : Tmpl.m.dimVec = Spec.Dim.base .m := by decide +kernel
    rw [e]
    simp [Spec.realRescaling, Spec.logFactor, Spec.Dim.base, Real.exp_log]
  exact ⟨_, fun _ => Ex.x.units.dimVec, Ex.m_si, rfl, by show _ ≠ (1 : ℝ); rw [show Ex.x.units.dimVec = Tmpl.m.dimVec from rfl, h]; norm_num⟩

theorem Ex.setResidual_runs {e : EqObj} {tag : String} {a : ResArg} (h : (e.setResidual tag a).1.toOption.isSome = true) :
    ∃ e', e.setResidual tag a = (.ok (), e') := by
  cases h' : (e.setResidual tag a).1 with
  | error x => rw [h'] at h; simp [Except.toOption] at h
  | ok u => exact ⟨_, Prod.ext h' rfl⟩

/-- The hypotheses for the equation `dx/dt == (x*x)/(y*t) - 0` of lengths and times. -/
example : ∃ (D : Atom → Spec.Dim) (a : ResArg),
    let st : Stmt := .eqn Ex.DX (.binN .sub (.bin .div (.binN .pow Ex.X 2) (.bin .mul Ex.Y Ex.T)) 0)
    (∀ x ∈ Spec.parts st, Spec.AllUnits UReachSI x ∧ Spec.PlainPowers x ∧ Spec.Typed D x ∧ Spec.PureLiterals x) ∧ Spec.PureStmt st ∧
      st.arg = .ok a ∧ ∃ e', ({ name := "e" } : EqObj).setResidual "" a = (.ok (), e') := by
  refine ⟨fun a => if a = .v "t" then Tmpl.s.dimVec else if a = .d "x" "t" then Spec.Dim.div Tmpl.m.dimVec Tmpl.s.dimVec else Tmpl.m.dimVec, _, ?_, trivial, rfl, Ex.setResidual_runs (by decide +kernel)⟩
  intro x hx
  simp only [Spec.parts, List.mem_cons, List.not_mem_nil, or_false] at hx
  rcases hx with rfl | rfl
  · exact ⟨⟨Ex.m_si, Ex.s_si⟩, trivial, rfl, trivial⟩
  · refine ⟨⟨Ex.m_si, Ex.m_si, Ex.s_si⟩, ⟨trivial, ⟨trivial, trivial, by simp⟩, by simp⟩, ⟨rfl, rfl, rfl⟩, ⟨⟨trivial, by simp⟩, trivial, trivial⟩, fun _ => Or.inl rfl⟩

end Sloth
