import Verif.Lemmas.Expr
import Verif.Props.Expressions

/-!
# The texts of expressions (C112)

Every node carries a text (`name`) and a LaTeX text.  They are compared with the usual way of writing an expression, with brackets
where the reading would otherwise be another one (`Spec.inLine`, `Spec.inTex`).
-/

namespace Sloth

namespace Spec

/-- How tightly the outermost operation of an expression written in one line binds: 0 sums, 1 products, 2 powers, 3 everything else. -/
def opLevel : BOp → Nat
  | .add | .sub => 0
  | .mul | .div => 1
  | .pow => 2
def binds : PyExpr → Nat
  | .bin op _ _ | .binN op _ _ | .nbin op _ _ => opLevel op
  | _ => 3

def opSign : BOp → String
  | .add => "+" | .sub => "-" | .mul => "*" | .div => "/" | .pow => "**"
def fnWord : Fn → String
  | .log => "Log" | .log10 => "Log10" | .sqrt => "Sqrt" | .abs => "Abs" | .exp => "Exp" | .sin => "Sin" | .cos => "Cos" | .tan => "Tan"

/-- Does an operand that binds at level `l` need brackets on the left of the operator? -/
def needsL : BOp → Nat → Bool
  | .add, _ | .sub, _ => false
  | .mul, l | .div, l => l == 0
  | .pow, l => l ≤ 2
/-- ... on the right? (`a+(b-c)` and `a*(b/c)` mean the same without, and powers are read from the right.) -/
def needsR : BOp → Nat → Bool
  | .add, _ => false
  | .sub, l | .mul, l => l == 0
  | .div, l | .pow, l => l ≤ 1

def inBrackets (b : Bool) (s : String) : String := if b then "(" ++ s ++ ")" else s

/-- An expression written in one line, with the brackets it needs.  A number is written as Python does; a negative one needs no brackets
on the right of an operator. -/
def inLine : PyExpr → String
  | .q _ x => x.name
  | .bin op a b => inBrackets (needsL op (binds a)) (inLine a) ++ opSign op ++ inBrackets (needsR op (binds b)) (inLine b)
  | .binN op a n => inBrackets (needsL op (binds a)) (inLine a) ++ opSign op ++ numStr n
  | .nbin op n a => numStr n ++ opSign op ++ inBrackets (needsR op (binds a)) (inLine a)
  | .fn f a => fnWord f ++ "(" ++ inLine a ++ ")"
  | .mmN isMax a n => (if isMax then "Max" else "Min") ++ "(" ++ inLine a ++ "," ++ numStr n ++ ")"
  | .diff _ x _ => "Diff(" ++ x.name ++ ")"

/-- No part of the expression needs brackets. -/
def NoBrackets : PyExpr → Prop
  | .q _ _ | .diff _ _ _ => True
  | .bin op a b => needsL op (binds a) = false ∧ needsR op (binds b) = false ∧ NoBrackets a ∧ NoBrackets b
  | .binN op a _ => needsL op (binds a) = false ∧ NoBrackets a
  | .nbin op _ a => needsR op (binds a) = false ∧ NoBrackets a
  | .fn _ a | .mmN _ a _ => NoBrackets a

/-- The same expression with the numbers on the left of an operator brought to its right: `n + a` as `a + n`, `n - a` as `a*(-1) + n`,
`n / a` as `a**(-1) * n`. -/
def turned : PyExpr → PyExpr
  | .q r x => .q r x
  | .bin op a b => .bin op (turned a) (turned b)
  | .binN op a n => .binN op (turned a) n
  | .nbin .add n a => .binN .add (turned a) n
  | .nbin .sub n a => .binN .add (.binN .mul (turned a) (-1)) n
  | .nbin .mul n a => .binN .mul (turned a) n
  | .nbin .div n a => .binN .mul (.binN .pow (turned a) (-1)) n
  | .nbin .pow n a => .nbin .pow n (turned a)
  | .fn f a => .fn f (turned a)
  | .mmN isMax a n => .mmN isMax (turned a) n
  | .diff r x ind => .diff r x ind

/-- Neither `Min`/`Max` nor derivatives of specified quantities. -/
def Arith : PyExpr → Prop
  | .q _ _ => True
  | .bin _ a b => Arith a ∧ Arith b
  | .binN _ a _ | .nbin _ _ a | .fn _ a => Arith a
  | .mmN _ _ _ => False
  | .diff _ x _ => x.isSpecified = false

/-- LaTeX: a quotient is a fraction and needs no brackets in a product. -/
def texLevel : PyExpr → Nat
  | .bin .div _ _ | .binN .div _ _ | .nbin .div _ _ => 2
  | e => binds e

/-- What `^` is followed by: the text itself if it is one letter, else the text in braces. -/
def upstairs (s : String) : String := if s.length = 1 then s else "{" ++ s ++ "}"

def texJoin : BOp → String → String → String
  | .add, s, t => s ++ "+" ++ t
  | .sub, s, t => s ++ "-" ++ t
  | .mul, s, t => s ++ "*" ++ t
  | .div, s, t => "\\frac{" ++ s ++ "}{" ++ t ++ "}"
  | .pow, s, t => s ++ "^" ++ upstairs t
/-- Brackets around an operand in LaTeX; both parts of a fraction and an exponent in braces need none. -/
def texL : BOp → Nat → Bool
  | .div, _ => false
  | op, l => needsL op l
def texR : BOp → Nat → Bool
  | .div, _ | .pow, _ => false
  | op, l => needsR op l

/-- An expression written in LaTeX, with the brackets and braces it needs. -/
def inTex : PyExpr → String
  | .q _ x => x.latex
  | .bin op a b => texJoin op (inBrackets (texL op (texLevel a)) (inTex a)) (inBrackets (texR op (texLevel b)) (inTex b))
  | .binN op a n => texJoin op (inBrackets (texL op (texLevel a)) (inTex a)) (numStr n)
  | .nbin op n a => texJoin op (numStr n) (inBrackets (texR op (texLevel a)) (inTex a))
  | .fn f a => fnWord f ++ "(" ++ inTex a ++ ")"
  | .mmN isMax a n => (if isMax then "Max" else "Min") ++ "(" ++ inTex a ++ "," ++ numStr n ++ ")"
  | .diff _ x _ => "Diff(" ++ x.name ++ ")"

/-- No part of the expression needs brackets or braces in LaTeX. -/
def TexPlain : PyExpr → Prop
  | .q _ _ | .diff _ _ _ => True
  | .bin op a b => texL op (texLevel a) = false ∧ texR op (texLevel b) = false ∧ (op = .pow → (inTex b).length = 1) ∧ TexPlain a ∧ TexPlain b
  | .binN op a n => texL op (texLevel a) = false ∧ (op = .pow → (numStr n).length = 1) ∧ TexPlain a
  | .nbin op _ a => texR op (texLevel a) = false ∧ (op = .pow → (inTex a).length = 1) ∧ TexPlain a
  | .fn _ a | .mmN _ a _ => TexPlain a

end Spec

/-! ## Turning numbers to the right changes nothing -/

theorem turned_build (e : PyExpr) : (Spec.turned e).build = e.build := by
  induction e with
  | q r x => rfl
  | bin op a b iha ihb => simp only [Spec.turned, PyExpr.build, iha, ihb]
  | binN op a n ih => simp only [Spec.turned, PyExpr.build, ih]
  | nbin op n a ih =>
    cases op <;> simp only [Spec.turned, PyExpr.build, ih] <;> cases a.build <;> rfl
  | fn f a ih => simp only [Spec.turned, PyExpr.build, ih]
  | mmN i a n ih => simp only [Spec.turned, PyExpr.build, ih]
  | diff r x ind => rfl

theorem turned_arith (e : PyExpr) (h : Spec.Arith e) : Spec.Arith (Spec.turned e) := by
  induction e with
  | q r x => exact h
  | bin op a b iha ihb => exact ⟨iha h.1, ihb h.2⟩
  | binN op a n ih => exact ih h
  | nbin op n a ih => cases op <;> exact ih h
  | fn f a ih => exact ih h
  | mmN i a n ih => exact h
  | diff r x ind => exact h

section
variable {K : Type} [Field K] [LinearOrder K] [IsStrictOrderedRing K]

omit [IsStrictOrderedRing K] in
/-- The turned expression has the same value. -/
theorem turned_val (I : Interp K) (ρ : Atom → K) (e : PyExpr) : Spec.val I ρ (Spec.turned e) = Spec.val I ρ e := by
  induction e with
  | q r x => rfl
  | bin op a b iha ihb => simp only [Spec.turned, Spec.val, iha, ihb]
  | binN op a n ih => simp only [Spec.turned, Spec.val, ih]
  | nbin op n a ih =>
    cases op <;> simp only [Spec.turned, Spec.val, ih] <;> cases hv : Spec.val I ρ a <;> try rfl
    · simp [Spec.opVal, add_comm]
    · rename_i v; simp [Spec.opVal]; ring
    · simp [Spec.opVal, mul_comm]
    · rename_i v
      have hp := I.pow_int v (-1)
      simp only [Int.cast_neg, Int.cast_one] at hp
      by_cases h0 : v = 0
      · subst h0
        have hq : I.pow 0 (-1) = none := by rw [hp]; simp
        simp [Spec.opVal, hq]
      · simp [Spec.opVal, hp, h0, div_eq_mul_inv, mul_comm]
  | fn f a ih => simp only [Spec.turned, Spec.val, ih]
  | mmN i a n ih => simp only [Spec.turned, Spec.val, ih]
  | diff r x ind => rfl
end

/-! ## Text of each operator -/

/-- The LaTeX text the operators make. -/
def texOf : BOp → String → String → String
  | .add, s, t => s ++ "+" ++ t
  | .sub, s, t => s ++ "-" ++ t
  | .mul, s, t => s ++ "*" ++ t
  | .div, s, t => "\\frac{" ++ s ++ "}{" ++ t ++ "}"
  | .pow, s, t => s ++ "^" ++ t
/-- Texts of an operand. -/
def Opnd.texts : Opnd → Option (String × String)
  | .node b => some (b.name, b.latex)
  | .num q => some (numStr q, numStr q)
  | .other => none

theorem op_texts {a n : ENode} {op : BOp} {o : Opnd} (h : a.op op o = .ok n) {s t : String}
    (ho : o.texts = some (s, t)) : n.name = a.name ++ Spec.opSign op ++ s ∧ n.latex = texOf op a.latex t := by
  cases o with
  | other => cases ho
  | node b =>
    cases ho
    cases op <;> simp only [ENode.op, ENode.add, ENode.sub, ENode.mul, ENode.div, ENode.pow] at h
    · cases hu : a.unit.add b.unit <;> rw [hu] at h <;> cases h; exact ⟨rfl, rfl⟩
    · cases hu : a.unit.sub b.unit <;> rw [hu] at h <;> cases h; exact ⟨rfl, rfl⟩
    · cases h; exact ⟨rfl, rfl⟩
    · cases hu : a.sym.div b.sym <;> rw [hu] at h <;> cases h; exact ⟨rfl, rfl⟩
    · split at h
      · cases hs : a.sym.pow b.sym <;> rw [hs] at h
        · cases h
        · cases hu : a.unit.pow (.unit b.unit) <;> simp only [hu] at h <;> cases h; exact ⟨rfl, rfl⟩
      · cases h
  | num q =>
    cases ho
    cases op <;> simp only [ENode.op, ENode.add, ENode.sub, ENode.mul, ENode.div, ENode.pow] at h
    · cases h; exact ⟨rfl, rfl⟩
    · cases h; exact ⟨rfl, rfl⟩
    · cases h; exact ⟨rfl, rfl⟩
    · cases hu : a.sym.div (.num q) <;> rw [hu] at h <;> cases h; exact ⟨rfl, rfl⟩
    · cases hs : a.sym.pow (.num q) <;> rw [hs] at h
      · cases h
      · cases hu : a.unit.pow (.num q) <;> simp only [hu] at h <;> cases h; exact ⟨rfl, rfl⟩

theorem fn_texts {f : Fn} {a n : ENode} (h : applyFn f (.node a) = .ok n) :
    n.name = Spec.fnWord f ++ "(" ++ a.name ++ ")" ∧ n.latex = Spec.fnWord f ++ "(" ++ a.latex ++ ")" := by
  simp only [applyFn, wrapper] at h
  split at h
  · cases h; cases f <;> exact ⟨rfl, rfl⟩
  · cases h

theorem diff_texts {r : Ref} {x : Quantity} {ind : Option (Ref × Quantity)} {n : ENode} (h : x.diff r ind = .ok n) (hx : x.isSpecified = false) :
    n.name = "Diff(" ++ x.name ++ ")" ∧ n.latex = "Diff(" ++ x.name ++ ")" := by
  unfold Quantity.diff at h
  by_cases hd : x.hasDomain = true
  · rw [if_pos hd] at h
    unfold diffNode at h
    rcases ind with _ | ⟨r', t⟩
    · injection h with h; subst h; simp [leafStr, hx]
    · cases ht : t.isSpecified
      · simp only [ht] at h; injection h with h; subst h; simp [leafStr, hx]
      · simp only [ht] at h; cases h
  · rw [if_neg hd] at h; cases h

theorem call_texts (r : Ref) (x : Quantity) : (x.call r).name = x.name ∧ (x.call r).latex = x.latex := by
  unfold Quantity.call; split <;> exact ⟨rfl, rfl⟩

/-! ## The two texts -/

theorem bracket_length (b : Bool) (s : String) : (Spec.inBrackets b s).length = s.length + (if b then 2 else 0) := by
  cases b
  · simp [Spec.inBrackets]
  · simp only [Spec.inBrackets, if_true, String.length_append]
    have h1 : ("(" : String).length = 1 := by decide
    have h2 : (")" : String).length = 1 := by decide
    omega

theorem upstairs_length (s : String) : (Spec.upstairs s).length = s.length + (if s.length = 1 then 0 else 2) := by
  unfold Spec.upstairs
  split
  · rfl
  · simp only [String.length_append]
    have h1 : ("{" : String).length = 1 := by decide
    have h2 : ("}" : String).length = 1 := by decide
    omega

/-- Numbers stand on the right of operators only. -/
def Turned : PyExpr → Prop
  | .q _ _ | .diff _ _ _ => True
  | .bin _ a b => Turned a ∧ Turned b
  | .nbin op _ a => op = .pow ∧ Turned a
  | .binN _ a _ | .fn _ a | .mmN _ a _ => Turned a

theorem turned_turned (e : PyExpr) : Turned (Spec.turned e) := by
  induction e with
  | q r x => trivial
  | bin op a b iha ihb => exact ⟨iha, ihb⟩
  | binN op a n ih => exact ih
  | nbin op n a ih => cases op <;> first | exact ih | exact ⟨rfl, ih⟩
  | fn f a ih => exact ih
  | mmN i a n ih => exact ih
  | diff r x ind => trivial

theorem line_aux (e : PyExpr) (he : Spec.Arith e) (ht : Turned e) {n : ENode} (h : e.build = .ok n) :
    (Spec.NoBrackets e ∧ n.name = Spec.inLine e) ∨ (¬ Spec.NoBrackets e ∧ n.name.length < (Spec.inLine e).length) := by
  induction e generalizing n with
  | q r x =>
    simp only [PyExpr.build, Except.ok.injEq] at h; subst h
    exact .inl ⟨trivial, (call_texts r x).1⟩
  | bin op a b iha ihb =>
    simp only [PyExpr.build] at h
    cases ha : a.build with
    | error _ => rw [ha] at h; cases h
    | ok p =>
      cases hb : b.build with
      | error _ => rw [ha, hb] at h; cases h
      | ok q =>
        rw [ha, hb] at h
        have hn := (op_texts (a := p) (o := .node q) h rfl).1
        have A := iha he.1 ht.1 ha
        have B := ihb he.2 ht.2 hb
        have la : p.name.length ≤ (Spec.inLine a).length := by rcases A with ⟨-, e⟩ | ⟨-, e⟩; rw [e]; exact e.le
        have lb : q.name.length ≤ (Spec.inLine b).length := by rcases B with ⟨-, e⟩ | ⟨-, e⟩; rw [e]; exact e.le
        have L1 := bracket_length (Spec.needsL op (Spec.binds a)) (Spec.inLine a)
        have L2 := bracket_length (Spec.needsR op (Spec.binds b)) (Spec.inLine b)
        by_cases hc : Spec.NoBrackets (.bin op a b)
        · refine .inl ⟨hc, ?_⟩
          obtain ⟨c1, c2, c3, c4⟩ := hc
          have e1 := A.resolve_right (fun x => x.1 c3)
          have e2 := B.resolve_right (fun x => x.1 c4)
          rw [hn, e1.2, e2.2]; simp [Spec.inLine, c1, c2, Spec.inBrackets]
        · refine .inr ⟨hc, ?_⟩
          rw [hn]
          simp only [Spec.inLine, String.length_append]
          have : ¬ (Spec.needsL op (Spec.binds a) = false) ∨ ¬ (Spec.needsR op (Spec.binds b) = false) ∨ ¬ Spec.NoBrackets a ∨ ¬ Spec.NoBrackets b := by
            by_contra hcon
            push Not at hcon
            exact hc hcon
          rcases this with k | k | k | k
          · simp only [Bool.not_eq_false] at k; rw [k] at L1; simp only [if_true] at L1; rw [k]; split at L2 <;> omega
          · simp only [Bool.not_eq_false] at k; rw [k] at L2; simp only [if_true] at L2; rw [k]; split at L1 <;> omega
          · have := (A.resolve_left (fun x => k x.1)).2; split at L1 <;> split at L2 <;> omega
          · have := (B.resolve_left (fun x => k x.1)).2; split at L1 <;> split at L2 <;> omega
  | binN op a m ih =>
    simp only [PyExpr.build] at h
    cases ha : a.build with
    | error _ => rw [ha] at h; cases h
    | ok p =>
      rw [ha] at h
      have hn := (op_texts (a := p) (o := .num m) h rfl).1
      have A := ih he ht ha
      have la : p.name.length ≤ (Spec.inLine a).length := by rcases A with ⟨-, e⟩ | ⟨-, e⟩; rw [e]; exact e.le
      have L1 := bracket_length (Spec.needsL op (Spec.binds a)) (Spec.inLine a)
      by_cases hc : Spec.NoBrackets (.binN op a m)
      · refine .inl ⟨hc, ?_⟩
        obtain ⟨c1, c3⟩ := hc
        have e1 := A.resolve_right (fun x => x.1 c3)
        rw [hn, e1.2]; simp [Spec.inLine, c1, Spec.inBrackets]
      · refine .inr ⟨hc, ?_⟩
        rw [hn]
        simp only [Spec.inLine, String.length_append]
        have : ¬ (Spec.needsL op (Spec.binds a) = false) ∨ ¬ Spec.NoBrackets a := by
          by_contra hcon
          push Not at hcon
          exact hc hcon
        rcases this with k | k
        · simp only [Bool.not_eq_false] at k; rw [k] at L1; simp only [if_true] at L1; rw [k]; omega
        · have := (A.resolve_left (fun x => k x.1)).2; split at L1 <;> omega
  | nbin op m a ih =>
    obtain ⟨rfl, -⟩ := ht
    simp only [PyExpr.build] at h
    cases ha : a.build <;> rw [ha] at h <;> cases h
  | fn f a ih =>
    simp only [PyExpr.build] at h
    cases ha : a.build with
    | error _ => rw [ha] at h; cases h
    | ok p =>
      rw [ha] at h
      have hn := (fn_texts h).1
      rcases ih he ht ha with ⟨c, e⟩ | ⟨c, e⟩
      · exact .inl ⟨c, by rw [hn, e]; rfl⟩
      · refine .inr ⟨c, ?_⟩
        rw [hn]; simp only [Spec.inLine, String.length_append]; omega
  | mmN i a m ih => exact he.elim
  | diff r x ind => exact .inl ⟨trivial, (diff_texts h he).1⟩

theorem tex_aux (e : PyExpr) (he : Spec.Arith e) (ht : Turned e) {n : ENode} (h : e.build = .ok n) :
    (Spec.TexPlain e ∧ n.latex = Spec.inTex e) ∨ (¬ Spec.TexPlain e ∧ n.latex.length < (Spec.inTex e).length) := by
  induction e generalizing n with
  | q r x =>
    simp only [PyExpr.build, Except.ok.injEq] at h; subst h
    exact .inl ⟨trivial, (call_texts r x).2⟩
  | bin op a b iha ihb =>
    simp only [PyExpr.build] at h
    cases ha : a.build with
    | error _ => rw [ha] at h; cases h
    | ok p =>
      cases hb : b.build with
      | error _ => rw [ha, hb] at h; cases h
      | ok q =>
        rw [ha, hb] at h
        have hn := (op_texts (a := p) (o := .node q) h rfl).2
        have A := iha he.1 ht.1 ha
        have B := ihb he.2 ht.2 hb
        have la : p.latex.length ≤ (Spec.inTex a).length := by rcases A with ⟨-, e⟩ | ⟨-, e⟩; rw [e]; exact e.le
        have lb : q.latex.length ≤ (Spec.inTex b).length := by rcases B with ⟨-, e⟩ | ⟨-, e⟩; rw [e]; exact e.le
        have L1 := bracket_length (Spec.texL op (Spec.texLevel a)) (Spec.inTex a)
        have L2 := bracket_length (Spec.texR op (Spec.texLevel b)) (Spec.inTex b)
        have L3 := upstairs_length (Spec.inBrackets (Spec.texR op (Spec.texLevel b)) (Spec.inTex b))
        have hp0 : op = .pow → Spec.texR op (Spec.texLevel b) = false := by rintro rfl; rfl
        by_cases hc : Spec.TexPlain (.bin op a b)
        · refine .inl ⟨hc, ?_⟩
          obtain ⟨c1, c2, c5, c3, c4⟩ := hc
          have e1 := A.resolve_right (fun x => x.1 c3)
          have e2 := B.resolve_right (fun x => x.1 c4)
          rw [hn, e1.2, e2.2]
          simp only [Spec.inTex, c1, c2, Spec.inBrackets]
          cases op <;> simp [Spec.texJoin, Spec.upstairs, texOf]
          simp [c5 rfl]
        · refine .inr ⟨hc, ?_⟩
          rw [hn]
          have : ¬ (Spec.texL op (Spec.texLevel a) = false) ∨ ¬ (Spec.texR op (Spec.texLevel b) = false) ∨ ¬ (op = .pow → (Spec.inTex b).length = 1) ∨
              ¬ Spec.TexPlain a ∨ ¬ Spec.TexPlain b := by
            by_contra hcon
            simp only [not_or, not_not] at hcon
            exact hc hcon
          rcases this with k | k | k | k | k
          · simp only [Bool.not_eq_false] at k; rw [k] at L1; simp only [if_true] at L1
            cases op <;> simp only [Spec.inTex, Spec.texJoin, texOf, String.length_append, k] <;> (try split at L3) <;> split at L2 <;> omega
          · simp only [Bool.not_eq_false] at k; rw [k] at L2 L3; simp only [if_true] at L2
            cases op <;> simp only [Spec.inTex, Spec.texJoin, texOf, String.length_append, k] <;> (try split at L3) <;> split at L1 <;> omega
          · push Not at k
            obtain ⟨rfl, k⟩ := k
            simp only [hp0 rfl, Bool.false_eq_true, if_false, Nat.add_zero] at L2
            rw [hp0 rfl, if_neg (by rw [L2]; exact k)] at L3
            simp only [Spec.inTex, Spec.texJoin, texOf, String.length_append, hp0 rfl]
            split at L1 <;> omega
          · have := (A.resolve_left (fun x => k x.1)).2
            cases op <;> simp only [Spec.inTex, Spec.texJoin, texOf, String.length_append] <;> (try split at L3) <;> split at L1 <;> split at L2 <;> omega
          · have := (B.resolve_left (fun x => k x.1)).2
            cases op <;> simp only [Spec.inTex, Spec.texJoin, texOf, String.length_append] <;> (try split at L3) <;> split at L1 <;> split at L2 <;> omega
  | binN op a m ih =>
    simp only [PyExpr.build] at h
    cases ha : a.build with
    | error _ => rw [ha] at h; cases h
    | ok p =>
      rw [ha] at h
      have hn := (op_texts (a := p) (o := .num m) h rfl).2
      have A := ih he ht ha
      have la : p.latex.length ≤ (Spec.inTex a).length := by rcases A with ⟨-, e⟩ | ⟨-, e⟩; rw [e]; exact e.le
      have L1 := bracket_length (Spec.texL op (Spec.texLevel a)) (Spec.inTex a)
      have L3 := upstairs_length (numStr m)
      by_cases hc : Spec.TexPlain (.binN op a m)
      · refine .inl ⟨hc, ?_⟩
        obtain ⟨c1, c5, c3⟩ := hc
        have e1 := A.resolve_right (fun x => x.1 c3)
        rw [hn, e1.2]
        simp only [Spec.inTex, c1, Spec.inBrackets]
        cases op <;> simp [Spec.texJoin, Spec.upstairs, texOf]
        simp [c5 rfl]
      · refine .inr ⟨hc, ?_⟩
        rw [hn]
        have : ¬ (Spec.texL op (Spec.texLevel a) = false) ∨ ¬ (op = .pow → (numStr m).length = 1) ∨ ¬ Spec.TexPlain a := by
          by_contra hcon
          simp only [not_or, not_not] at hcon
          exact hc hcon
        rcases this with k | k | k
        · simp only [Bool.not_eq_false] at k; rw [k] at L1; simp only [if_true] at L1
          cases op <;> simp only [Spec.inTex, Spec.texJoin, texOf, String.length_append, k] <;> split at L3 <;> omega
        · push Not at k
          obtain ⟨rfl, k⟩ := k
          rw [if_neg k] at L3
          simp only [Spec.inTex, Spec.texJoin, texOf, String.length_append]
          split at L1 <;> omega
        · have := (A.resolve_left (fun x => k x.1)).2
          cases op <;> simp only [Spec.inTex, Spec.texJoin, texOf, String.length_append] <;> split at L3 <;> split at L1 <;> omega
  | nbin op m a ih =>
    obtain ⟨rfl, -⟩ := ht
    simp only [PyExpr.build] at h
    cases ha : a.build <;> rw [ha] at h <;> cases h
  | fn f a ih =>
    simp only [PyExpr.build] at h
    cases ha : a.build with
    | error _ => rw [ha] at h; cases h
    | ok p =>
      rw [ha] at h
      have hn := (fn_texts h).2
      rcases ih he ht ha with ⟨c, e⟩ | ⟨c, e⟩
      · exact .inl ⟨c, by rw [hn, e]; rfl⟩
      · refine .inr ⟨c, ?_⟩
        rw [hn]; simp only [Spec.inTex, String.length_append]; omega
  | mmN i a m ih => exact he.elim
  | diff r x ind => exact .inl ⟨trivial, (diff_texts h he).2⟩

/-! ## C112 -/

/-- C112 (partial): the text of a node is the usual writing of the expression (numbers on the left of operators brought to the right, which
changes no value) exactly if this writing needs no brackets.  Missing: expressions that need brackets, where the text loses them (this
theorem, and `text_ambiguous`), and `Min`/`Max` (`extremum_texts`). -/
theorem line_text_partial (e : PyExpr) (he : Spec.Arith e) {n : ENode} (h : e.build = .ok n) :
    (n.name = Spec.inLine (Spec.turned e) ↔ Spec.NoBrackets (Spec.turned e)) ∧
      ∀ {K : Type} [Field K] [LinearOrder K] [IsStrictOrderedRing K] (I : Interp K) (ρ : Atom → K),
        Spec.val I ρ (Spec.turned e) = Spec.val I ρ e := by
  refine ⟨?_, fun I ρ => turned_val I ρ e⟩
  rcases line_aux _ (turned_arith e he) (turned_turned e) ((turned_build e).trans h) with ⟨c, t⟩ | ⟨c, t⟩
  · exact ⟨fun _ => c, fun _ => t⟩
  · exact ⟨fun k => absurd (congrArg String.length k) (by omega), fun k => absurd k c⟩

/-- C112 (partial): the same for the LaTeX text, where exponents of more than one letter need braces.  Missing: expressions that need brackets
or braces, and `Min`/`Max`. -/
theorem tex_text_partial (e : PyExpr) (he : Spec.Arith e) {n : ENode} (h : e.build = .ok n) :
    n.latex = Spec.inTex (Spec.turned e) ↔ Spec.TexPlain (Spec.turned e) := by
  rcases tex_aux _ (turned_arith e he) (turned_turned e) ((turned_build e).trans h) with ⟨c, t⟩ | ⟨c, t⟩
  · exact ⟨fun _ => c, fun _ => t⟩
  · exact ⟨fun k => absurd (congrArg String.length k) (by omega), fun k => absurd k c⟩

/-- Whatever `a`, `b`, `c` are: `(a+b)*c` and `a+b*c` have the same text and the same LaTeX text. -/
theorem sum_times_text {a b c : PyExpr} {n n' : ENode} (h : (PyExpr.bin .mul (.bin .add a b) c).build = .ok n)
    (h' : (PyExpr.bin .add a (.bin .mul b c)).build = .ok n') : n.name = n'.name ∧ n.latex = n'.latex := by
  simp only [PyExpr.build] at h h'
  cases ha : a.build with
  | error _ => rw [ha] at h; cases h
  | ok p =>
    cases hb : b.build with
    | error _ => rw [ha, hb] at h; cases h
    | ok q =>
      cases hc : c.build with
      | error _ => rw [ha, hb, hc] at h'; cases h'
      | ok r =>
        rw [ha, hb, hc] at h h'
        have k1 : (p.op .add (.node q) >>= fun m => m.op .mul (.node r)) = .ok n := h
        have k2 : (q.op .mul (.node r) >>= fun m => p.op .add (.node m)) = .ok n' := h'
        cases h1 : p.op .add (.node q) with
        | error _ => rw [h1] at k1; cases k1
        | ok m =>
          cases h2 : q.op .mul (.node r) with
          | error _ => rw [h2] at k2; cases k2
          | ok m' =>
            rw [h1] at k1; rw [h2] at k2
            have t1 := op_texts (o := .node q) h1 rfl
            have t2 := op_texts (a := m) (op := .mul) (o := .node r) (n := n) k1 rfl
            have t3 := op_texts (o := .node r) h2 rfl
            have t4 := op_texts (a := p) (op := .add) (o := .node m') (n := n') k2 rfl
            refine ⟨?_, ?_⟩
            · rw [t2.1, t1.1, t4.1, t3.1]; simp [String.append_assoc]
            · rw [t2.2, t1.2, t4.2, t3.2]; simp [texOf, String.append_assoc]

/-- C112 fails in the code: no way of reading the texts (or the LaTeX texts) gives the value of every expression, whatever the reading. -/
theorem text_ambiguous :
    (¬ ∃ read : String → (Atom → ℚ) → Option ℚ, ∀ (e : PyExpr) (n : ENode) (ρ : Atom → ℚ), e.build = .ok n → read n.name ρ = Spec.val Ex.I ρ e) ∧
      ¬ ∃ read : String → (Atom → ℚ) → Option ℚ, ∀ (e : PyExpr) (n : ENode) (ρ : Atom → ℚ), e.build = .ok n → read n.latex ρ = Spec.val Ex.I ρ e := by
  let e1 : PyExpr := .bin .mul (.bin .add Ex.W Ex.W) Ex.W
  let e2 : PyExpr := .bin .add Ex.W (.bin .mul Ex.W Ex.W)
  have b1 : ∃ n, e1.build = .ok n := ⟨_, rfl⟩
  have b2 : ∃ n, e2.build = .ok n := by
    have h : e2.build.toOption.isSome = true := by decide +kernel
    cases hb : e2.build with
    | error _ => rw [hb] at h; cases h
    | ok n => exact ⟨n, rfl⟩
  obtain ⟨n1, b1⟩ := b1
  obtain ⟨n2, b2⟩ := b2
  have ht := sum_times_text b1 b2
  have v1 : Spec.val Ex.I (fun _ => 2) e1 = some 8 := by decide +kernel
  have v2 : Spec.val Ex.I (fun _ => 2) e2 = some 6 := by decide +kernel
  constructor
  · rintro ⟨read, h⟩
    have k1 := h e1 n1 (fun _ => 2) b1
    have k2 := h e2 n2 (fun _ => 2) b2
    rw [ht.1, k2, v1, v2] at k1
    exact absurd k1 (by decide +kernel)
  · rintro ⟨read, h⟩
    have k1 := h e1 n1 (fun _ => 2) b1
    have k2 := h e2 n2 (fun _ => 2) b2
    rw [ht.2, k2, v1, v2] at k1
    exact absurd k1 (by decide +kernel)

/-- `Min(a, m)` and `Max(a, m)`: the text joins those of `a` and `m` without anything between them, and the LaTeX text mentions neither. -/
theorem extremum_texts {isMax : Bool} {a : PyExpr} {m : Rat} {p n : ENode} (ha : a.build = .ok p) (h : (PyExpr.mmN isMax a m).build = .ok n) :
    n.name = (if isMax then "max" else "min") ++ "\\right (" ++ p.name ++ numStr m ++ ")" ∧ n.latex = (if isMax then "max" else "min") ++ "\\right )" := by
  simp only [PyExpr.build, ha] at h
  change minMax isMax (.node p) [.num m] = .ok n at h
  have : ∃ u, n = _ := ⟨(), (Except.ok.inj h).symm⟩
  obtain ⟨-, rfl⟩ := this
  refine ⟨?_, rfl⟩
  simp [pyJoin, MArg.nm, String.append_assoc]

namespace Ex
/-- `x*y/z**2 - Sin(x)`-like: `w*w/w**2 - Sin(w)` needs no brackets, in LaTeX neither -/
def plainText : PyExpr := .bin .sub (.bin .div (.bin .mul W W) (.binN .pow W 2)) (.fn .sin W)
/-- `3 - (w + w)*w` needs brackets -/
def bracketText : PyExpr := .nbin .sub 3 (.bin .mul (.bin .add W W) W)
/-- `w**10` needs braces in LaTeX -/
def braceText : PyExpr := .binN .pow W 10
/-- two variables whose names differ by a digit -/
def w1 : Quantity := mkVariable "w1" Tmpl.dimless (latex := "w1")
end Ex

/-- The hypotheses are met and both sides of the equivalences occur. -/
example : Spec.Arith Ex.plainText ∧ (Ex.plainText.build.toOption.map fun n => (n.name, n.latex)) = some ("w*w/w**2-Sin(w)", "\\frac{w*w}{w^2}-Sin(w)") ∧
    Spec.inLine (Spec.turned Ex.plainText) = "w*w/w**2-Sin(w)" ∧ Spec.inTex (Spec.turned Ex.plainText) = "\\frac{w*w}{w^2}-Sin(w)" :=
  ⟨⟨⟨⟨trivial, trivial⟩, trivial⟩, trivial⟩, by decide +kernel, by decide +kernel, by decide +kernel⟩

example : (∃ n, Ex.bracketText.build = .ok n ∧ Spec.Arith Ex.bracketText ∧ n.name = "w+w*w*-1+3") ∧
    Spec.inLine (Spec.turned Ex.bracketText) = "(w+w)*w*-1+3" ∧ ¬ Spec.NoBrackets (Spec.turned Ex.bracketText) :=
  ⟨⟨_, rfl, ⟨⟨trivial, trivial⟩, trivial⟩, by decide +kernel⟩, by decide +kernel, fun h => absurd h.2.2.1 (by decide)⟩

example : (∃ n, Ex.braceText.build = .ok n ∧ n.name = "w**10" ∧ n.latex = "w^10") ∧ Spec.inLine (Spec.turned Ex.braceText) = "w**10" ∧
    Spec.inTex (Spec.turned Ex.braceText) = "w^{10}" :=
  ⟨⟨_, rfl, by decide +kernel, by decide +kernel⟩, by decide +kernel, by decide +kernel⟩

/-- `Min(w1(), 5)` and `Min(w(), 15)` have the same text. -/
example : ∃ n n', (PyExpr.mmN false (.q 6 Ex.w1) 5).build = .ok n ∧ (PyExpr.mmN false Ex.W 15).build = .ok n' ∧ n.name = n'.name :=
  ⟨_, _, rfl, rfl, by decide +kernel⟩

end Sloth
