import Verif.Lemmas.Node
import Mathlib.Algebra.BigOperators.Ring.Finset
import Mathlib.Algebra.BigOperators.Group.Finset.Basic
import Mathlib.Tactic.Ring

/-! Helper lemmas on user expressions. -/

namespace Sloth

section
variable {K : Type} [Field K] [LinearOrder K]

theorem pow_neg_one (I : Interp K) (x : K) : I.pow x ((-1 : ℚ) : K) = if x = 0 then none else some x⁻¹ := by
  have h := I.pow_int x (-1)
  have hc : (((-1 : ℤ)) : K) = ((-1 : ℚ) : K) := by simp
  rw [hc] at h
  rw [h]; simp

/-! ### shape of operator results -/

theorem SObj.div_ok {a b s : SObj} (h : a.div b = .ok s) : s = ⟨a.isPy && b.isPy, .div a.expr b.expr⟩ := by
  unfold SObj.div at h
  split at h
  · simp at h
  · simpa using h.symm

theorem SObj.pow_ok {a b s : SObj} (h : a.pow b = .ok s) : s = ⟨a.isPy && b.isPy, .pow a.expr b.expr⟩ := by
  unfold SObj.pow at h
  split at h
  · simp at h
  · simpa using h.symm

/-- The tree built by an operator. -/
def opSym : BOp → Sym → Sym → Sym
  | .add => .add | .sub => .sub | .mul => .mul | .div => .div | .pow => .pow

theorem op_node_ok {m n r : ENode} {op : BOp} (h : m.op op (.node n) = .ok r) :
    r.sym = ⟨m.sym.isPy && n.sym.isPy, opSym op m.sym.expr n.sym.expr⟩ ∧ r.repr = opSym op m.repr n.repr ∧
    r.symMap = dupdate m.symMap n.symMap ∧ r.varMap = dupdate m.varMap n.varMap ∧
      r.ty = match op with
        | .add | .sub => m.ty.prec n.ty
        | .mul | .div => m.mulType n
        | .pow => m.ty.prec .nonlin := by
  cases op <;> simp only [ENode.op, ENode.add, ENode.sub, ENode.mul, ENode.div, ENode.pow] at h
  · rw [bind_eq_ok] at h; obtain ⟨u, _, h⟩ := h; simp only [Except.ok.injEq] at h; subst h; exact ⟨rfl, rfl, rfl, rfl, rfl⟩
  · rw [bind_eq_ok] at h; obtain ⟨u, _, h⟩ := h; simp only [Except.ok.injEq] at h; subst h; exact ⟨rfl, rfl, rfl, rfl, rfl⟩
  · simp only [Except.ok.injEq] at h; subst h; exact ⟨rfl, rfl, rfl, rfl, rfl⟩
  · rw [bind_eq_ok] at h; obtain ⟨s, hs, h⟩ := h; simp only [Except.ok.injEq] at h; subst h
    exact ⟨SObj.div_ok hs, rfl, rfl, rfl, rfl⟩
  · split at h
    · simp only [bind_eq_ok, Except.ok.injEq] at h
      obtain ⟨s, hs, u, _, h⟩ := h; subst h; exact ⟨SObj.pow_ok hs, rfl, rfl, rfl, rfl⟩
    · simp at h

theorem op_num_ok {m r : ENode} {op : BOp} {q : ℚ} (h : m.op op (.num q) = .ok r) :
    r.sym = ⟨m.sym.isPy && true, opSym op m.sym.expr (.num q)⟩ ∧ r.repr = opSym op m.repr (.num q) ∧
    r.symMap = m.symMap ∧ r.varMap = m.varMap ∧ r.ty = if op = .pow then m.ty.prec .nonlin else m.ty := by
  cases op <;> simp only [ENode.op, ENode.add, ENode.sub, ENode.mul, ENode.div, ENode.pow] at h
  · simp only [Except.ok.injEq] at h; subst h; exact ⟨rfl, rfl, rfl, rfl, rfl⟩
  · simp only [Except.ok.injEq] at h; subst h; exact ⟨rfl, rfl, rfl, rfl, rfl⟩
  · simp only [Except.ok.injEq] at h; subst h; exact ⟨rfl, rfl, rfl, rfl, rfl⟩
  · rw [bind_eq_ok] at h; obtain ⟨s, hs, h⟩ := h; simp only [Except.ok.injEq] at h; subst h
    exact ⟨SObj.div_ok hs, rfl, rfl, rfl, rfl⟩
  · simp only [bind_eq_ok, Except.ok.injEq] at h
    obtain ⟨s, hs, u, _, h⟩ := h; subst h; exact ⟨SObj.pow_ok hs, rfl, rfl, rfl, rfl⟩

/-! ### values of operator results -/

theorem opSym_eval (I : Interp K) (ρ : Atom → K) (op : BOp) (a b : Sym) :
    (opSym op a b).eval I ρ = (a.eval I ρ).bind fun x => (b.eval I ρ).bind fun y => Spec.opVal I op x y := by
  cases op <;> rfl

theorem op_node_eval (I : Interp K) (ρ : Atom → K) {m n r : ENode} {op : BOp} (h : m.op op (.node n) = .ok r) :
    r.sym.expr.eval I ρ = (m.sym.expr.eval I ρ).bind (fun x => (n.sym.expr.eval I ρ).bind fun y => Spec.opVal I op x y) ∧
    r.repr.eval I ρ = (m.repr.eval I ρ).bind fun x => (n.repr.eval I ρ).bind fun y => Spec.opVal I op x y := by
  obtain ⟨h1, h2, _⟩ := op_node_ok h
  rw [h1, h2]; exact ⟨opSym_eval .., opSym_eval ..⟩

theorem op_num_eval (I : Interp K) (ρ : Atom → K) {m r : ENode} {op : BOp} {q : ℚ} (h : m.op op (.num q) = .ok r) :
    r.sym.expr.eval I ρ = (m.sym.expr.eval I ρ).bind (fun x => Spec.opVal I op x (q : K)) ∧
    r.repr.eval I ρ = (m.repr.eval I ρ).bind (fun x => Spec.opVal I op x (q : K)) := by
  obtain ⟨h1, h2, _⟩ := op_num_ok h
  rw [h1, h2]; exact ⟨opSym_eval .., opSym_eval ..⟩

theorem rop_eval (I : Interp K) (ρ : Atom → K) {m r : ENode} {op : BOp} {q : ℚ} (h : m.rop op q = .ok r) :
    r.sym.expr.eval I ρ = (m.sym.expr.eval I ρ).bind (fun x => Spec.opVal I op (q : K) x) ∧
    r.repr.eval I ρ = (m.repr.eval I ρ).bind (fun x => Spec.opVal I op (q : K) x) := by
  cases op with
  | add =>
    simp only [ENode.rop, ENode.radd, ENode.add, Except.ok.injEq] at h; subst h
    constructor
    · show ((m.sym.expr.eval I ρ).bind fun x => some (x + (q : K))) = _
      congr 1; funext x; simp [Spec.opVal, add_comm]
    · show ((m.repr.eval I ρ).bind fun x => some (x + (q : K))) = _
      congr 1; funext x; simp [Spec.opVal, add_comm]
  | sub =>
    simp only [ENode.rop, ENode.rsub, ENode.mul, ok_bind, ENode.add, Except.ok.injEq] at h; subst h
    constructor
    · show (((m.sym.expr.eval I ρ).bind fun x => some (x * ((-1 : ℚ) : K))).bind fun x => some (x + (q : K))) = _
      cases m.sym.expr.eval I ρ <;> simp [Spec.opVal]; ring
    · show (((m.repr.eval I ρ).bind fun x => some (x * ((-1 : ℚ) : K))).bind fun x => some (x + (q : K))) = _
      cases m.repr.eval I ρ <;> simp [Spec.opVal]; ring
  | mul =>
    simp only [ENode.rop, ENode.rmul, ENode.mul, Except.ok.injEq] at h; subst h
    constructor
    · show ((m.sym.expr.eval I ρ).bind fun x => some (x * (q : K))) = _
      congr 1; funext x; simp [Spec.opVal, mul_comm]
    · show ((m.repr.eval I ρ).bind fun x => some (x * (q : K))) = _
      congr 1; funext x; simp [Spec.opVal, mul_comm]
  | div =>
    simp only [ENode.rop, ENode.rdiv, bind_eq_ok] at h
    obtain ⟨a, ha, h⟩ := h
    have h1 := op_num_eval I ρ (m := m) (op := .pow) (q := -1) ha
    simp only [ENode.mul, Except.ok.injEq] at h; subst h
    constructor
    · show ((a.sym.expr.eval I ρ).bind fun x => some (x * (q : K))) = _
      rw [h1.1]
      cases m.sym.expr.eval I ρ with
      | none => rfl
      | some x =>
        simp only [Option.bind_some, Spec.opVal, pow_neg_one]
        by_cases hx : x = 0 <;> simp [hx, div_eq_mul_inv, mul_comm]
    · show ((a.repr.eval I ρ).bind fun x => some (x * (q : K))) = _
      rw [h1.2]
      cases m.repr.eval I ρ with
      | none => rfl
      | some x =>
        simp only [Option.bind_some, Spec.opVal, pow_neg_one]
        by_cases hx : x = 0 <;> simp [hx, div_eq_mul_inv, mul_comm]
  | pow => simp [ENode.rop] at h

theorem rop_maps {m r : ENode} {op : BOp} {q : ℚ} (h : m.rop op q = .ok r) :
    r.symMap = m.symMap ∧ r.varMap = m.varMap ∧ r.ty = if op = .div then m.ty.prec .nonlin else m.ty := by
  cases op with
  | add => simp only [ENode.rop, ENode.radd, ENode.add, Except.ok.injEq] at h; subst h; exact ⟨rfl, rfl, rfl⟩
  | sub =>
    simp only [ENode.rop, ENode.rsub, ENode.mul, ok_bind, ENode.add, Except.ok.injEq] at h; subst h
    exact ⟨rfl, rfl, rfl⟩
  | mul => simp only [ENode.rop, ENode.rmul, ENode.mul, Except.ok.injEq] at h; subst h; exact ⟨rfl, rfl, rfl⟩
  | div =>
    simp only [ENode.rop, ENode.rdiv, bind_eq_ok] at h
    obtain ⟨a, ha, h⟩ := h
    have h1 := (op_num_ok (m := m) (op := .pow) (q := -1) ha).2.2
    simp only [ENode.mul, Except.ok.injEq] at h; subst h
    simpa using h1
  | pow => simp [ENode.rop] at h

theorem fn_ok {f : Fn} {m r : ENode} (h : applyFn f (.node m) = .ok r) :
    r.sym = ⟨false, .fn f m.sym.expr⟩ ∧ r.repr = .fn f m.repr ∧ r.symMap = m.symMap ∧ r.varMap = m.varMap ∧
      r.ty = .nonlin ∧ r.unit = m.unit := by
  simp only [applyFn, wrapper] at h
  split at h
  · simp only [Except.ok.injEq] at h
    subst h; exact ⟨rfl, rfl, rfl, rfl, rfl, rfl⟩
  · simp at h


theorem call_maps (r : Ref) (x : Quantity) :
    (x.call r).symMap = [(x.name, r)] ∧ (x.call r).varMap = (if x.isSpecified then [] else [(x.name, r)]) ∧
      (x.call r).ty = .lin ∧ (x.call r).unit = x.units ∧ (x.call r).repr = .var x.name := by
  unfold Quantity.call
  cases hx : x.isSpecified <;> simp

/-- Name of the variable of differentiation. -/
def indName (x : Quantity) : Option (Ref × Quantity) → String
  | none => x.name
  | some p => p.2.name

theorem diff_node {r : Ref} {x : Quantity} {ind : Option (Ref × Quantity)} {n : ENode} (h : x.diff r ind = .ok n) :
    n.sym = ⟨false, if x.isSpecified then .num 0 else .atom (.d x.name (indName x ind))⟩ ∧
    n.repr = .atom (.d x.name (indName x ind)) ∧
    n.symMap = [(x.name, r)] ∧ n.varMap = (if x.isSpecified then [] else [(x.name, r)]) ∧ n.ty = .diff := by
  have hc := call_maps r x
  unfold Quantity.diff at h
  split at h
  · unfold diffNode at h
    cases ind with
    | none =>
      simp only [ok_bind, Except.ok.injEq] at h
      subst h; exact ⟨rfl, rfl, hc.1, hc.2.1, rfl⟩
    | some p =>
      simp only at h
      split at h
      · simp at h
      · simp only [ok_bind, Except.ok.injEq] at h
        subst h; exact ⟨rfl, rfl, hc.1, hc.2.1, rfl⟩
  · simp at h

end
end Sloth
