import Verif.Props.Raises

/-!
# Sessions that use existing objects only meet existing objects (C108)
-/

namespace Sloth
open PyM

/-! ## References that exist -/

/-- How many quantities, equations, models and `ports` dictionaries there are. -/
structure Sizes where
  q : Nat
  e : Nat
  m : Nat
  p : Nat

def World.sizes (w : World) : Sizes := ⟨w.qs.length, w.es.length, w.ms.length, w.ps.length⟩

/-- Objects are never removed. -/
structure Sizes.Le (s t : Sizes) : Prop where
  q : s.q ≤ t.q
  e : s.e ≤ t.e
  m : s.m ≤ t.m
  p : s.p ≤ t.p

theorem Sizes.Le.refl (s : Sizes) : s.Le s := ⟨le_refl _, le_refl _, le_refl _, le_refl _⟩
theorem Sizes.Le.trans {a b c : Sizes} (h : a.Le b) (k : b.Le c) : a.Le c := ⟨h.q.trans k.q, h.e.trans k.e, h.m.trans k.m, h.p.trans k.p⟩

namespace Spec

/-- All below. -/
def Below (n : Nat) (l : List Nat) : Prop := ∀ r ∈ l, r < n

/-- The quantities of a node exist. -/
def NodeIn (s : Sizes) (n : ENode) : Prop := Below s.q (dvalues n.symMap) ∧ Below s.q (dvalues n.varMap)

/-- The quantities of an equation exist. -/
structure EqIn (s : Sizes) (e : EqObj) : Prop where
  expr : ∀ n, e.expr = some n → NodeIn s n
  elem : ∀ l r, e.elem = some (l, r) → NodeIn s l ∧ NodeIn s r
  objects : ∀ d, e.objects = some d → Below s.q (dvalues d)

/-- The quantities of the argument of an equation exist. -/
def ArgIn (s : Sizes) : ResArg → Prop
  | .eqn l r => NodeIn s l ∧ NodeIn s r
  | .eqnNum l _ | .eqnOther l | .node l => NodeIn s l
  | .other => True

/-- The object behind an attribute exists. -/
def AttrIn (s : Sizes) : Attr → Prop
  | .qty r => r < s.q
  | .eqn r => r < s.e

/-- The model named, if any, exists. -/
def PathIn (s : Sizes) (p : APath) : Prop := ∀ m, p.model = some m → m < s.m

/-- The models an expression names exist. -/
def ExprIn (s : Sizes) : AExpr → Prop
  | .q p => PathIn s p
  | .bin _ a b => ExprIn s a ∧ ExprIn s b
  | .binN _ a _ | .nbin _ _ a | .fn _ a | .mmN _ a _ => ExprIn s a
  | .diff x t => PathIn s x ∧ ∀ p, t = some p → PathIn s p

/-- The same for statements. -/
def StmtIn (s : Sizes) : AStmt → Prop
  | .eqn l r => ExprIn s l ∧ ExprIn s r
  | .eqnNum l _ | .res l => ExprIn s l

/-- The same for commands; the exception of a failing command is one of Python's. -/
def CmdIn (s : Sizes) : Cmd → Prop
  | .var _ _ | .par _ _ | .con _ _ => True
  | .eqn _ _ _ st _ => StmtIn s st
  | .setValue p v _ => PathIn s p ∧ ∀ q, v = .qty q → PathIn s q
  | .distribute p => PathIn s p
  | .fail e => e ≠ noObject

def BodyIn (s : Sizes) (b : Body) : Prop := ∀ c ∈ b.cons ++ b.pars ++ b.vars ++ b.eqns, CmdIn s c

/-- All objects a model refers to exist. -/
structure ModelIn (s : Sizes) (mo : ModelObj) : Prop where
  body : BodyIn s mo.body
  vars : Below s.q (dvalues mo.vars)
  pars : Below s.q (dvalues mo.pars)
  cons : Below s.q (dvalues mo.cons)
  eqns : Below s.e (dvalues mo.eqns)
  expIn : Below s.q mo.expIn
  expOut : Below s.q mo.expOut
  inlets : Below s.m mo.inlets
  ports : mo.ports < s.p
  attrs : ∀ a ∈ dvalues mo.attrs, AttrIn s a

def PortsIn (s : Sizes) (p : Ports) : Prop := ∀ l ∈ dvalues p, Below s.m l

/-- All objects an equation block refers to exist. -/
structure BlockIn (s : Sizes) (b : Block) : Prop where
  equations : Below s.e b.equations
  variableDict : Below s.q (dvalues b.variableDict)
  parameterDict : Below s.q (dvalues b.parameterDict)
  linear : Below s.e b.linear
  nonlinear : Below s.e b.nonlinear
  differential : Below s.e b.differential
  linearTail : ∀ l ∈ b.linearTail, Below s.e l

/-- All objects the problem refers to exist. -/
structure ProblemIn (s : Sizes) (p : ProblemObj) : Prop where
  models : Below s.m (dvalues p.models)
  connections : Below s.e (dvalues p.connections)
  variableDict : Below s.q (dvalues p.variableDict)
  parameterDict : Below s.q (dvalues p.parameterDict)
  equationList : ∀ l, p.equationList = some l → Below s.e l
  block : ∀ b, p.block = some b → BlockIn s b

/-- Every reference in the heap leads to an object. -/
structure Linked (w : World) : Prop where
  ms : ∀ mo ∈ w.ms, ModelIn w.sizes mo
  es : ∀ e ∈ w.es, EqIn w.sizes e
  ps : ∀ p ∈ w.ps, PortsIn w.sizes p
  pr : ProblemIn w.sizes w.pr
  default : 0 < w.ps.length

mutual
/-- The models of a nested list exist. -/
def TreeIn (s : Sizes) : MTree → Prop
  | .leaf m => m < s.m
  | .list l => TreesIn s l
def TreesIn (s : Sizes) : List MTree → Prop
  | [] => True
  | t :: ts => TreeIn s t ∧ TreesIn s ts
end

def SrcIn (s : Sizes) : ConnSrc → Prop
  | .model m => m < s.m
  | _ => True

def SideIn (s : Sizes) : ConnArg → Prop
  | .var r => r < s.q
  | .list l => Below s.q l
  | .node n => NodeIn s n

/-- A call whose arguments are objects that exist, as Python's always are. -/
def Uses (s : Sizes) : Op → Prop
  | .newPorts | .initial _ | .time _ | .resolve => True
  | .newModel _ _ b p => BodyIn s b ∧ ∀ r, p = some r → r < s.p
  | .var m _ | .par m _ | .con m _ | .call m => m < s.m
  | .eqn m _ _ a _ => m < s.m ∧ ∀ x, a = some x → ArgIn s x
  | .cmd m c => m < s.m ∧ CmdIn s c
  | .setValue r _ _ => r < s.q
  | .incorporate m k _ => m < s.m ∧ k < s.m
  | .setInlets m l _ => m < s.m ∧ Below s.m l
  | .modelConn m o i a => m < s.m ∧ Below s.q o ∧ Below s.q i ∧ ArgIn s a
  | .connect c m o i a => SrcIn s c ∧ m < s.m ∧ SideIn s o ∧ SideIn s i ∧ ∀ x, a = some x → ArgIn s x
  | .addModels t => TreeIn s t

/-- A session of such calls. -/
def Sensible : List Op → World → Prop
  | [], _ => True
  | o :: t, w => Uses w.sizes o ∧ Sensible t (o.run w).2

end Spec
open Spec

/-! ## References stay good -/

section
variable {s t : Sizes} (h : s.Le t)
include h

theorem NodeIn.mono {n : ENode} (k : NodeIn s n) : NodeIn t n := ⟨fun r hr => (k.1 r hr).trans_le h.q, fun r hr => (k.2 r hr).trans_le h.q⟩
theorem EqIn.mono {e : EqObj} (k : EqIn s e) : EqIn t e :=
  ⟨fun n hn => NodeIn.mono h (k.expr n hn), fun l r hn => (k.elem l r hn).imp (NodeIn.mono h) (NodeIn.mono h), fun d hd r hr => (k.objects d hd r hr).trans_le h.q⟩
theorem ArgIn.mono {a : ResArg} (k : ArgIn s a) : ArgIn t a := by
  cases a with
  | eqn l r => exact k.imp (NodeIn.mono h) (NodeIn.mono h)
  | other => trivial
  | _ => exact NodeIn.mono h k
theorem AttrIn.mono {a : Attr} (k : AttrIn s a) : AttrIn t a := by
  cases a with
  | qty r => exact lt_of_lt_of_le k h.q
  | eqn r => exact lt_of_lt_of_le k h.e
theorem PathIn.mono {p : APath} (k : PathIn s p) : PathIn t p := fun m hm => (k m hm).trans_le h.m
theorem ExprIn.mono {a : AExpr} (k : ExprIn s a) : ExprIn t a := by
  induction a with
  | q p => exact PathIn.mono h k
  | bin o a b iha ihb => exact ⟨iha k.1, ihb k.2⟩
  | binN o a n ih => exact ih k
  | nbin o n a ih => exact ih k
  | fn f a ih => exact ih k
  | mmN b a n ih => exact ih k
  | diff x t => exact ⟨PathIn.mono h k.1, fun p hp => PathIn.mono h (k.2 p hp)⟩
theorem CmdIn.mono {c : Cmd} (k : CmdIn s c) : CmdIn t c := by
  cases c with
  | eqn a n d st c =>
    cases st with
    | eqn l r => exact k.imp (ExprIn.mono h) (ExprIn.mono h)
    | eqnNum l q => exact ExprIn.mono h (s := s) k
    | res l => exact ExprIn.mono h (s := s) k
  | setValue p v u => exact ⟨PathIn.mono h k.1, fun q hq => PathIn.mono h (k.2 q hq)⟩
  | distribute p => exact PathIn.mono h (s := s) k
  | fail e => exact k
  | _ => trivial
theorem ModelIn.mono {mo : ModelObj} (k : ModelIn s mo) : ModelIn t mo where
  body := fun c hc => CmdIn.mono h (k.body c hc)
  vars := fun r hr => (k.vars r hr).trans_le h.q
  pars := fun r hr => (k.pars r hr).trans_le h.q
  cons := fun r hr => (k.cons r hr).trans_le h.q
  eqns := fun r hr => (k.eqns r hr).trans_le h.e
  expIn := fun r hr => (k.expIn r hr).trans_le h.q
  expOut := fun r hr => (k.expOut r hr).trans_le h.q
  inlets := fun r hr => (k.inlets r hr).trans_le h.m
  ports := k.ports.trans_le h.p
  attrs := fun a ha => AttrIn.mono h (k.attrs a ha)
theorem PortsIn.mono {p : Ports} (k : PortsIn s p) : PortsIn t p := fun l hl r hr => (k l hl r hr).trans_le h.m
theorem BlockIn.mono {b : Block} (k : BlockIn s b) : BlockIn t b where
  equations := fun r hr => (k.equations r hr).trans_le h.e
  variableDict := fun r hr => (k.variableDict r hr).trans_le h.q
  parameterDict := fun r hr => (k.parameterDict r hr).trans_le h.q
  linear := fun r hr => (k.linear r hr).trans_le h.e
  nonlinear := fun r hr => (k.nonlinear r hr).trans_le h.e
  differential := fun r hr => (k.differential r hr).trans_le h.e
  linearTail := fun l hl r hr => (k.linearTail l hl r hr).trans_le h.e
theorem ProblemIn.mono {p : ProblemObj} (k : ProblemIn s p) : ProblemIn t p where
  models := fun r hr => (k.models r hr).trans_le h.m
  connections := fun r hr => (k.connections r hr).trans_le h.e
  variableDict := fun r hr => (k.variableDict r hr).trans_le h.q
  parameterDict := fun r hr => (k.parameterDict r hr).trans_le h.q
  equationList := fun l hl r hr => (k.equationList l hl r hr).trans_le h.e
  block := fun b hb => BlockIn.mono h (k.block b hb)
theorem below_q {l : List Ref} (k : Below s.q l) : Below t.q l := fun r hr => (k r hr).trans_le h.q
theorem below_m {l : List MRef} (k : Below s.m l) : Below t.m l := fun r hr => (k r hr).trans_le h.m
end

theorem below_dset {n : Nat} {d : Dict String Nat} {k : String} {v : Nat} (h : Below n (dvalues d)) (hv : v < n) : Below n (dvalues (dset d k v)) := fun r hr => by
  obtain ⟨⟨x, y⟩, hp, rfl⟩ := List.mem_map.mp hr
  rcases mem_dset hp with ⟨_, rfl⟩ | hp
  · exact hv
  · exact h _ (List.mem_map.mpr ⟨_, hp, rfl⟩)

theorem below_dupdate {n : Nat} {d e : Dict String Nat} (h : Below n (dvalues d)) (k : Below n (dvalues e)) : Below n (dvalues (dupdate d e)) := fun r hr => by
  obtain ⟨p, hp, rfl⟩ := List.mem_map.mp hr
  rcases mem_dupdate hp with hp | hp
  · exact h _ (List.mem_map.mpr ⟨_, hp, rfl⟩)
  · exact k _ (List.mem_map.mpr ⟨_, hp, rfl⟩)

theorem below_nil (n : Nat) : Below n [] := fun _ h => by cases h

/-! ## Calls that meet existing objects only -/

/-- From this heap the call keeps the heap linked, removes nothing, gives a value as described, and does not meet a missing object. -/
structure Meets {α : Type} (Q : Sizes → α → Prop) (x : PyM α) (w : World) : Prop where
  grows : w.sizes.Le (x w).2.sizes
  linked : Linked (x w).2
  val : ∀ a, (x w).1 = .ok a → Q (x w).2.sizes a
  err : (x w).1 ≠ .error noObject

namespace Meets
variable {α β : Type} {w : World}

theorem ret {Q : Sizes → α → Prop} (hw : Linked w) {a : α} (ha : Q w.sizes a) : Meets Q (PyM.pure a) w :=
  ⟨.refl _, hw, fun b hb => by cases hb; exact ha, fun h => by cases h⟩

theorem bind {Q : Sizes → α → Prop} {R : Sizes → β → Prop} {x : PyM α} {f : α → PyM β} (hx : Meets Q x w)
    (hf : ∀ a w', w.sizes.Le w'.sizes → Linked w' → Q w'.sizes a → Meets R (f a) w') : Meets R (x >>= f) w := by
  have h : (x >>= f) w = _ := PyM.bind_run ..
  rcases hr : x w with ⟨e | a, w1⟩
  · obtain ⟨g, l, _, n⟩ := hx
    rw [hr] at h g l n
    exact ⟨by rw [h]; exact g, by rw [h]; exact l, fun a ha => (by rw [h] at ha; cases ha), fun he => by rw [h] at he; cases he; exact n rfl⟩
  · obtain ⟨g, l, v, n⟩ := hx
    rw [hr] at h g l v
    obtain ⟨g', l', v', n'⟩ := hf a w1 g l (v a rfl)
    exact ⟨by rw [h]; exact g.trans g', by rw [h]; exact l', fun b hb => by rw [h] at hb ⊢; exact v' b hb, fun he => by rw [h] at he; exact n' he⟩

theorem weaken {Q R : Sizes → α → Prop} {x : PyM α} (hx : Meets Q x w) (h : ∀ s a, Q s a → R s a) : Meets R x w :=
  ⟨hx.grows, hx.linked, fun a ha => h _ _ (hx.val a ha), hx.err⟩

theorem raise {Q : Sizes → α → Prop} (hw : Linked w) {e : Err} (he : e ≠ noObject) : Meets Q (PyM.raise e) w :=
  ⟨.refl _, hw, fun b hb => (by cases hb), fun h => by cases h; exact he rfl⟩

theorem lift {Q : Sizes → α → Prop} (hw : Linked w) {x : Except Err α} (he : x ≠ .error noObject) (hq : ∀ a, x = .ok a → Q w.sizes a) : Meets Q (PyM.lift x) w :=
  ⟨.refl _, hw, hq, he⟩

theorem getM (hw : Linked w) {m : MRef} (hm : m < w.sizes.m) : Meets ModelIn (PyM.getM m) w := by
  have h : PyM.getM m w = (.ok w.ms[m], w) := getM_of (List.getElem?_eq_getElem hm)
  exact ⟨by rw [h]; exact .refl _, by rw [h]; exact hw, fun a ha => by rw [h] at ha ⊢; cases ha; exact hw.ms _ (List.getElem_mem _), fun he => by rw [h] at he; cases he⟩

theorem getE (hw : Linked w) {r : ERef} (hr : r < w.sizes.e) : Meets EqIn (PyM.getE r) w := by
  have h : PyM.getE r w = (.ok w.es[r], w) := by unfold PyM.getE; rw [List.getElem?_eq_getElem hr]
  exact ⟨by rw [h]; exact .refl _, by rw [h]; exact hw, fun a ha => by rw [h] at ha ⊢; cases ha; exact hw.es _ (List.getElem_mem _), fun he => by rw [h] at he; cases he⟩

theorem getQ (hw : Linked w) {r : Ref} (hr : r < w.sizes.q) : Meets (fun _ _ => True) (PyM.getQ r) w := by
  have h : PyM.getQ r w = (.ok w.qs[r], w) := by unfold PyM.getQ; rw [List.getElem?_eq_getElem hr]
  exact ⟨by rw [h]; exact .refl _, by rw [h]; exact hw, fun _ _ => trivial, fun he => by rw [h] at he; cases he⟩

theorem getP (hw : Linked w) {r : PRef} (hr : r < w.sizes.p) : Meets PortsIn (PyM.getP r) w := by
  have h : PyM.getP r w = (.ok w.ps[r], w) := by unfold PyM.getP; rw [List.getElem?_eq_getElem hr]
  exact ⟨by rw [h]; exact .refl _, by rw [h]; exact hw, fun a ha => by rw [h] at ha ⊢; cases ha; exact hw.ps _ (List.getElem_mem _), fun he => by rw [h] at he; cases he⟩

theorem getPr (hw : Linked w) : Meets ProblemIn PyM.getPr w :=
  ⟨.refl _, hw, fun a ha => by cases ha; exact hw.pr, fun he => by cases he⟩

theorem setM (hw : Linked w) (m : MRef) {mo : ModelObj} (hm : ModelIn w.sizes mo) : Meets (fun _ _ => True) (PyM.setM m mo) w := by
  have hs : (PyM.setM m mo w).2.sizes = w.sizes := by simp [PyM.setM, World.sizes]
  refine ⟨by rw [hs]; exact .refl _, ?_, fun _ _ => trivial, fun h => by cases h⟩
  exact ⟨fun x hx => by
      rw [hs]
      rcases List.mem_or_eq_of_mem_set hx with hx | rfl
      · exact hw.ms x hx
      · exact hm,
    fun e he => by rw [hs]; exact hw.es e he, fun p hp => by rw [hs]; exact hw.ps p hp, by rw [hs]; exact hw.pr, hw.default⟩

theorem setP (hw : Linked w) (r : PRef) {p : Ports} (hp : PortsIn w.sizes p) : Meets (fun _ _ => True) (PyM.setP r p) w := by
  have hs : (PyM.setP r p w).2.sizes = w.sizes := by simp [PyM.setP, World.sizes]
  refine ⟨by rw [hs]; exact .refl _, ?_, fun _ _ => trivial, fun h => by cases h⟩
  exact ⟨fun x hx => by rw [hs]; exact hw.ms x hx,
    fun e he => by rw [hs]; exact hw.es e he, fun x hx => by
      rw [hs]
      rcases List.mem_or_eq_of_mem_set hx with hx | rfl
      · exact hw.ps x hx
      · exact hp, by rw [hs]; exact hw.pr, by simpa [PyM.setP] using hw.default⟩

theorem setQ (hw : Linked w) (r : Ref) (q : Quantity) : Meets (fun _ _ => True) (PyM.setQ r q) w := by
  have hs : (PyM.setQ r q w).2.sizes = w.sizes := by simp [PyM.setQ, World.sizes]
  refine ⟨by rw [hs]; exact .refl _, ?_, fun _ _ => trivial, fun h => by cases h⟩
  exact ⟨fun x hx => by rw [hs]; exact hw.ms x hx,
    fun e he => by rw [hs]; exact hw.es e he, fun p hp => by rw [hs]; exact hw.ps p hp, by rw [hs]; exact hw.pr, hw.default⟩

theorem setPr (hw : Linked w) {p : ProblemObj} (hp : ProblemIn w.sizes p) : Meets (fun _ _ => True) (PyM.setPr p) w :=
  ⟨.refl _, ⟨hw.ms, hw.es, hw.ps, hp, hw.default⟩, fun _ _ => trivial, fun h => by cases h⟩

/-- A heap with more objects. -/
theorem more {w w' : World} (hw : Linked w) (h : w.sizes.Le w'.sizes) (hm : ∀ mo ∈ w'.ms, mo ∈ w.ms ∨ ModelIn w'.sizes mo) (he : ∀ e ∈ w'.es, e ∈ w.es ∨ EqIn w'.sizes e)
    (hp : ∀ p ∈ w'.ps, p ∈ w.ps ∨ PortsIn w'.sizes p) (hr : w'.pr = w.pr) : Linked w' :=
  ⟨fun x hx => (hm x hx).elim (fun hx => ModelIn.mono h (hw.ms x hx)) id, fun x hx => (he x hx).elim (fun hx => EqIn.mono h (hw.es x hx)) id,
    fun x hx => (hp x hx).elim (fun hx => PortsIn.mono h (hw.ps x hx)) id, by rw [hr]; exact ProblemIn.mono h hw.pr, lt_of_lt_of_le hw.default h.p⟩

theorem newQ (hw : Linked w) (q : Quantity) : Meets (fun s r => r < s.q) (PyM.newQ q) w := by
  have hg : w.sizes.Le (PyM.newQ q w).2.sizes := ⟨by simp [PyM.newQ, World.sizes], le_refl _, le_refl _, le_refl _⟩
  exact ⟨hg, more hw hg (fun _ => Or.inl) (fun _ => Or.inl) (fun _ => Or.inl) rfl, fun r hr => by cases hr; simp [PyM.newQ, World.sizes], fun h => by cases h⟩

theorem newE (hw : Linked w) {e : EqObj} (he : EqIn w.sizes e) : Meets (fun s r => r < s.e) (PyM.newE e) w := by
  have hg : w.sizes.Le (PyM.newE e w).2.sizes := ⟨le_refl _, by simp [PyM.newE, World.sizes], le_refl _, le_refl _⟩
  refine ⟨hg, more hw hg (fun _ => Or.inl) (fun x hx => ?_) (fun _ => Or.inl) rfl, fun r hr => by cases hr; simp [PyM.newE, World.sizes], fun h => by cases h⟩
  rcases List.mem_append.mp hx with hx | hx
  · exact .inl hx
  · rw [List.mem_singleton.mp hx]; exact .inr (EqIn.mono hg he)

theorem newM (hw : Linked w) {mo : ModelObj} (hm : ModelIn w.sizes mo) : Meets (fun s r => r < s.m) (PyM.newM mo) w := by
  have hg : w.sizes.Le (PyM.newM mo w).2.sizes := ⟨le_refl _, le_refl _, by simp [PyM.newM, World.sizes], le_refl _⟩
  refine ⟨hg, more hw hg (fun x hx => ?_) (fun _ => Or.inl) (fun _ => Or.inl) rfl, fun r hr => by cases hr; simp [PyM.newM, World.sizes], fun h => by cases h⟩
  rcases List.mem_append.mp hx with hx | hx
  · exact .inl hx
  · rw [List.mem_singleton.mp hx]; exact .inr (ModelIn.mono hg hm)

theorem newP (hw : Linked w) {p : Ports} (hp : PortsIn w.sizes p) : Meets (fun s r => r < s.p) (PyM.newP p) w := by
  have hg : w.sizes.Le (PyM.newP p w).2.sizes := ⟨le_refl _, le_refl _, le_refl _, by simp [PyM.newP, World.sizes]⟩
  refine ⟨hg, more hw hg (fun _ => Or.inl) (fun _ => Or.inl) (fun x hx => ?_) rfl, fun r hr => by cases hr; simp [PyM.newP, World.sizes], fun h => by cases h⟩
  rcases List.mem_append.mp hx with hx | hx
  · exact .inl hx
  · rw [List.mem_singleton.mp hx]; exact .inr (PortsIn.mono hg hp)

theorem tagIf (hw : Linked w) (b : Bool) : Meets (fun _ _ => True) (PyM.tagIf b) w := by
  cases b
  · exact ⟨.refl _, hw, fun _ _ => trivial, fun h => by cases h⟩
  · exact ⟨.refl _, ⟨hw.ms, hw.es, hw.ps, hw.pr, hw.default⟩, fun _ _ => trivial, fun h => by cases h⟩

theorem ptagIf (hw : Linked w) (b : Bool) : Meets (fun _ _ => True) (PyM.ptagIf b) w := by
  cases b
  · exact ⟨.refl _, hw, fun _ _ => trivial, fun h => by cases h⟩
  · exact ⟨.refl _, ⟨hw.ms, hw.es, hw.ps, hw.pr, hw.default⟩, fun _ _ => trivial, fun h => by cases h⟩

theorem when {b : Bool} {x : PyM Unit} (hw : Linked w) (hx : b = true → Meets (fun _ _ => True) x w) : Meets (fun _ _ => True) (PyM.when b x) w := by
  cases b
  · exact ret hw trivial
  · exact hx rfl

theorem rethrow {Q : Sizes → α → Prop} {x : PyM α} {e : Err} (hx : Meets Q x w) (he : e ≠ noObject) : Meets Q (PyM.rethrow x e) w := by
  obtain ⟨g, l, v, n⟩ := hx
  rcases hr : x w with ⟨e' | a, w1⟩
  · have h : PyM.rethrow x e w = (.error e, w1) := by simp only [PyM.rethrow, hr]
    rw [hr] at g l
    exact ⟨by rw [h]; exact g, by rw [h]; exact l, fun b hb => (by rw [h] at hb; cases hb), fun hb => by rw [h] at hb; cases hb; exact he rfl⟩
  · have h : PyM.rethrow x e w = x w := by simp only [PyM.rethrow, hr]
    exact ⟨by rw [h]; exact g, by rw [h]; exact l, by rw [h]; exact v, by rw [h]; exact n⟩

theorem void {Q : Sizes → α → Prop} {x : PyM α} (hx : Meets Q x w) : Meets (fun _ _ => True) x.void w := hx.bind fun _ _ _ hw _ => ret hw trivial

theorem each {f : α → PyM Unit} : ∀ (l : List α) {w : World}, Linked w → (∀ a ∈ l, ∀ w', w.sizes.Le w'.sizes → Linked w' → Meets (fun _ _ => True) (f a) w') →
    Meets (fun _ _ => True) (PyM.each l f) w
  | [], _, hw, _ => ret hw trivial
  | a :: t, w, hw, hf => (hf a (List.mem_cons_self ..) w (.refl _) hw).bind fun _ w' hg hw' _ =>
      each t hw' fun b hb w'' h h' => hf b (List.mem_cons_of_mem _ hb) w'' (hg.trans h) h'

theorem collect {Q : Sizes → β → Prop} (hQ : ∀ (s t : Sizes) (b : β), s.Le t → Q s b → Q t b) {f : α → PyM β} :
    ∀ (l : List α) {w : World}, Linked w → (∀ a ∈ l, ∀ w', w.sizes.Le w'.sizes → Linked w' → Meets Q (f a) w') →
    Meets (fun s r => ∀ b ∈ r, Q s b) (PyM.collect l f) w
  | [], _, hw, _ => ret hw fun _ h => by cases h
  | a :: t, w, hw, hf => (hf a (List.mem_cons_self ..) w (.refl _) hw).bind fun b w' hg hw' hb =>
      Meets.bind (Q := fun s r => ∀ b ∈ r, Q s b) (collect hQ t hw' fun b hb w'' h h' => hf b (List.mem_cons_of_mem _ hb) w'' (hg.trans h) h') fun bs w'' hg' hw'' hbs =>
        ret hw'' fun c hc => (List.mem_cons.mp hc).elim (fun h => by rw [h]; exact hQ _ _ _ hg' hb) (hbs c)
end Meets

/-! ## Expressions and equations -/

theorem Errs.sane {α : Type} {l : List Err} {x : Except Err α} (h : Errs l x) (hl : noObject ∉ l) : x ≠ .error noObject := fun he => hl (h _ he)

section
variable {s : Sizes}

theorem nodeIn_call {r : Ref} (h : r < s.q) (q : Quantity) : NodeIn s (q.call r) := by
  unfold Quantity.call
  split <;> refine ⟨fun x hx => ?_, fun x hx => ?_⟩ <;> simp [dvalues] at hx <;> rw [hx] <;> exact h

theorem nodeIn_upd {a b n : ENode} (ha : NodeIn s a) (hb : NodeIn s b) (h : n.symMap = dupdate a.symMap b.symMap) (k : n.varMap = dupdate a.varMap b.varMap) : NodeIn s n :=
  ⟨by rw [h]; exact below_dupdate ha.1 hb.1, by rw [k]; exact below_dupdate ha.2 hb.2⟩

theorem nodeIn_same {a n : ENode} (ha : NodeIn s a) (h : n.symMap = a.symMap) (k : n.varMap = a.varMap) : NodeIn s n := ⟨by rw [h]; exact ha.1, by rw [k]; exact ha.2⟩

theorem nodeIn_add {a b n : ENode} (ha : NodeIn s a) (hb : NodeIn s b) (h : a.add (.node b) = .ok n) : NodeIn s n := by
  simp only [ENode.add, bind_eq_ok, Except.ok.injEq] at h
  obtain ⟨_, _, rfl⟩ := h
  exact nodeIn_upd ha hb rfl rfl

theorem nodeIn_sub {a b n : ENode} (ha : NodeIn s a) (hb : NodeIn s b) (h : a.sub (.node b) = .ok n) : NodeIn s n := by
  simp only [ENode.sub, bind_eq_ok, Except.ok.injEq] at h
  obtain ⟨_, _, rfl⟩ := h
  exact nodeIn_upd ha hb rfl rfl

theorem nodeIn_op {a b n : ENode} {op : BOp} (ha : NodeIn s a) (hb : NodeIn s b) (h : a.op op (.node b) = .ok n) : NodeIn s n := by
  cases op with
  | add => exact nodeIn_add ha hb h
  | sub => exact nodeIn_sub ha hb h
  | mul =>
    simp only [ENode.op, ENode.mul, Except.ok.injEq] at h
    subst h
    exact nodeIn_upd ha hb rfl rfl
  | div =>
    simp only [ENode.op, ENode.div, bind_eq_ok, Except.ok.injEq] at h
    obtain ⟨_, _, rfl⟩ := h
    exact nodeIn_upd ha hb rfl rfl
  | pow =>
    simp only [ENode.op, ENode.pow] at h
    split at h
    · simp only [bind_eq_ok, Except.ok.injEq] at h
      obtain ⟨_, _, _, _, rfl⟩ := h
      exact nodeIn_upd ha hb rfl rfl
    · cases h

theorem nodeIn_pow {a n : ENode} {q : Rat} (ha : NodeIn s a) (h : a.pow (.num q) = .ok n) : NodeIn s n := by
  simp only [ENode.pow, bind_eq_ok, Except.ok.injEq] at h
  obtain ⟨_, _, _, _, rfl⟩ := h
  exact nodeIn_same ha rfl rfl

theorem nodeIn_opN {a n : ENode} {op : BOp} {q : Rat} (ha : NodeIn s a) (h : a.op op (.num q) = .ok n) : NodeIn s n := by
  cases op with
  | add | sub | mul => cases h; exact nodeIn_same ha rfl rfl
  | div =>
    simp only [ENode.op, ENode.div, bind_eq_ok, Except.ok.injEq] at h
    obtain ⟨_, _, rfl⟩ := h
    exact nodeIn_same ha rfl rfl
  | pow => exact nodeIn_pow ha h

theorem nodeIn_rop {a n : ENode} {op : BOp} {q : Rat} (ha : NodeIn s a) (h : a.rop op q = .ok n) : NodeIn s n := by
  cases op with
  | add | mul | sub => cases h; exact nodeIn_same ha rfl rfl
  | div =>
    simp only [ENode.rop, ENode.rdiv, bind_eq_ok] at h
    obtain ⟨b, hb, h⟩ := h
    cases h
    exact nodeIn_same (nodeIn_pow ha hb) rfl rfl
  | pow => cases h

/-- The quantities of an expression exist. -/
def Spec.PyIn (s : Sizes) : PyExpr → Prop
  | .q r _ => r < s.q
  | .bin _ a b => PyIn s a ∧ PyIn s b
  | .binN _ a _ | .nbin _ _ a | .fn _ a | .mmN _ a _ => PyIn s a
  | .diff r _ _ => r < s.q

theorem nodeIn_build {x : PyExpr} (hx : PyIn s x) {n : ENode} (h : x.build = .ok n) : NodeIn s n := by
  induction x generalizing n with
  | q r x => cases h; exact nodeIn_call hx x
  | bin op a b iha ihb =>
    simp only [PyExpr.build, bind_eq_ok] at h
    obtain ⟨_, h1, _, h2, h⟩ := h
    exact nodeIn_op (iha hx.1 h1) (ihb hx.2 h2) h
  | binN op a q ih =>
    simp only [PyExpr.build, bind_eq_ok] at h
    obtain ⟨_, h1, h⟩ := h
    exact nodeIn_opN (ih hx h1) h
  | nbin op q a ih =>
    simp only [PyExpr.build, bind_eq_ok] at h
    obtain ⟨_, h1, h⟩ := h
    exact nodeIn_rop (ih hx h1) h
  | fn f a ih =>
    simp only [PyExpr.build, bind_eq_ok, applyFn, wrapper] at h
    obtain ⟨_, h1, h⟩ := h
    split at h
    · cases h; exact nodeIn_same (ih hx h1) rfl rfl
    · cases h
  | mmN k a q ih =>
    simp only [PyExpr.build, bind_eq_ok, minMax] at h
    obtain ⟨b, h1, h⟩ := h
    cases h
    have hb := ih hx h1
    exact ⟨below_dupdate (below_dupdate (below_nil _) hb.1) (below_nil _), below_dupdate (below_dupdate (below_nil _) hb.2) (below_nil _)⟩
  | diff r x ind =>
    have hc := nodeIn_call (s := s) hx x
    simp only [PyExpr.build, Quantity.diff] at h
    split at h
    · unfold diffNode at h
      rcases ind with _ | ⟨_, t⟩
      · cases h
        exact nodeIn_same hc rfl rfl
      · simp only at h
        split at h
        · cases h
        · cases h
          exact nodeIn_same hc rfl rfl
    · cases h

theorem argIn_stmt {st : Stmt} (hs : ∀ x ∈ Spec.parts st, PyIn s x) {a : ResArg} (h : st.arg = .ok a) : ArgIn s a := by
  cases st with
  | eqn l r =>
    simp only [Stmt.arg, bind_eq_ok, Except.ok.injEq] at h
    obtain ⟨x, hx, y, hy, rfl⟩ := h
    exact ⟨nodeIn_build (hs l (by simp [Spec.parts])) hx, nodeIn_build (hs r (by simp [Spec.parts])) hy⟩
  | eqnNum l q =>
    simp only [Stmt.arg, bind_eq_ok, Except.ok.injEq] at h
    obtain ⟨x, hx, rfl⟩ := h
    exact nodeIn_build (hs l (by simp [Spec.parts])) hx
  | res l =>
    simp only [Stmt.arg, bind_eq_ok, Except.ok.injEq] at h
    obtain ⟨x, hx, rfl⟩ := h
    exact nodeIn_build (hs l (by simp [Spec.parts])) hx

theorem eqIn_finish {e : EqObj} (h : EqIn s e) : EqIn s e.finish.2 := by
  unfold EqObj.finish
  split
  · exact ⟨h.expr, h.elem, fun d hd => by cases hd⟩
  · exact h

theorem eqIn_setResidual {t : String} {e : EqObj} {a : ResArg} (he : EqIn s e) (ha : ArgIn s a) : EqIn s (e.setResidual t a).2 := by
  have hn : ∀ q u, NodeIn s (EqObj.numNode t q u) := fun q u => ⟨below_nil _, below_nil _⟩
  cases a with
  | eqn l r =>
    simp only [EqObj.setResidual]
    split
    · exact ⟨he.expr, fun x y h => by cases h; exact ha, he.objects⟩
    · rename_i d hd
      exact eqIn_finish ⟨fun n h => by cases h; exact nodeIn_sub ha.1 ha.2 hd, fun x y h => by cases h; exact ha, he.objects⟩
  | eqnNum l q =>
    simp only [EqObj.setResidual]
    split
    · exact ⟨he.expr, fun x y h => by cases h; exact ⟨ha, hn _ _⟩, he.objects⟩
    · rename_i d hd
      exact eqIn_finish ⟨fun n h => by cases h; exact nodeIn_sub ha (hn _ _) hd, fun x y h => by cases h; exact ⟨ha, hn _ _⟩, he.objects⟩
  | eqnOther l => exact eqIn_finish ⟨he.expr, he.elem, he.objects⟩
  | node n => exact eqIn_finish ⟨fun n h => by cases h; exact ha, he.elem, he.objects⟩
  | other => exact he

theorem eqIn_sweep {e e' : EqObj} (he : EqIn s e) (h : e.sweep = .ok e') : EqIn s e' := by
  obtain ⟨n, hn, rfl⟩ := EqObj.sweep_ok h
  exact ⟨he.expr, he.elem, fun d hd => by cases hd; exact (he.expr n hn).1⟩

theorem eqIn_init {t t' n d o : String} {a : Option ResArg} {e : EqObj} (ha : ∀ x, a = some x → ArgIn s x) (h : EqObj.init t t' n d a o = .ok e) : EqIn s e := by
  have h0 : ∀ e0 : EqObj, e0.expr = none → e0.elem = none → e0.objects = some [] → EqIn s e0 := fun e0 h1 h2 h3 =>
    ⟨fun n hn => (by rw [h1] at hn; cases hn), fun l r hn => (by rw [h2] at hn; cases hn), fun d hd => by rw [h3] at hd; cases hd; exact below_nil _⟩
  unfold EqObj.init at h
  simp only at h
  split at h
  · cases h; exact h0 _ rfl rfl rfl
  · rename_i x
    split at h
    · rename_i u e1 h1
      cases h
      have h2 : ∀ e0 : EqObj, EqIn s e0 → e0.setResidual t' x = (.ok u, e1) → EqIn s e1 := fun e0 he h1 => by
        have := eqIn_setResidual (t := t') he (ha x rfl)
        rwa [h1] at this
      have h2 := h2 _ (h0 _ rfl rfl rfl) h1
      exact ⟨h2.expr, h2.elem, h2.objects⟩
    · cases h

theorem below_mapOf {n : Nat} {whole m : Dict String Ref} {l : List String} (hw : Below n (dvalues whole)) (h : EqObj.mapOf whole l = .ok m) : Below n (dvalues m) := fun r hr => by
  obtain ⟨hn, _, h2⟩ := mapOf_ok h
  obtain ⟨⟨k, v⟩, hp, rfl⟩ := List.mem_map.mp hr
  exact hw _ (List.mem_map.mpr ⟨_, mem_of_dget (h2 k v (dget_of_mem hn hp)), rfl⟩)

theorem eqIn_convert {e e' : EqObj} {names : Dict String String} {whole : Dict String Ref} (he : EqIn s e) (hw : Below s.q (dvalues whole)) (h : e.convert names whole = .ok e') :
    EqIn s e' := by
  unfold EqObj.convert at h
  split at h
  · rename_i n hn
    simp only [EqObj.convertNode, bind_eq_ok] at h
    obtain ⟨y, _, el, hel, mp, hmp, hsw⟩ := h
    refine eqIn_sweep ?_ hsw
    refine ⟨fun k hk => ?_, fun l r hlr => ?_, he.objects⟩
    · cases hk; exact ⟨below_mapOf hw hmp, (he.expr n hn).2⟩
    · simp only at hlr
      subst hlr
      unfold EqObj.convertElem at hel
      split at hel
      · cases hel
      · rename_i l0 r0 h0
        split at hel
        · cases hel
        · simp only [bind_eq_ok, Except.ok.injEq, Option.some.injEq, Prod.mk.injEq] at hel
          obtain ⟨ml, hml, mr, hmr, rfl, rfl⟩ := hel
          obtain ⟨hl, hr⟩ := he.elem _ _ h0
          exact ⟨⟨below_mapOf hw hml, hl.2⟩, below_mapOf hw hmr, hr.2⟩
  · cases h
end

theorem lookup_sane {w : World} (hw : Linked w) {m : MRef} (hm : m < w.sizes.m) {p : APath} (hp : PathIn w.sizes p) :
    w.lookup m p ≠ .error noObject ∧ ∀ x, w.lookup m p = .ok x → x.1 < w.sizes.q := by
  have hlt : p.model.getD m < w.ms.length := by
    cases h : p.model with
    | none => exact hm
    | some k => exact hp k h
  unfold World.lookup
  rw [List.getElem?_eq_getElem hlt]
  simp only
  split
  · exact ⟨fun h => (by cases h), fun _ h => by cases h⟩
  · exact ⟨fun h => (by cases h), fun _ h => by cases h⟩
  · rename_i r hr
    have hr : AttrIn w.sizes (.qty r) := (hw.ms _ (List.getElem_mem hlt)).attrs _ (List.mem_map.mpr ⟨_, mem_of_dget hr, rfl⟩)
    rw [List.getElem?_eq_getElem (show r < w.qs.length from hr)]
    exact ⟨fun h => (by cases h), fun _ h => by cases h; exact hr⟩

/-- Not ending with a missing object, and giving something of the kind. -/
def Sane {α : Type} (Q : α → Prop) (x : Except Err α) : Prop := x ≠ .error noObject ∧ ∀ a, x = .ok a → Q a

theorem Sane.bind {α β : Type} {Q : α → Prop} {R : β → Prop} {x : Except Err α} {f : α → Except Err β} (hx : Sane Q x) (hf : ∀ a, Q a → Sane R (f a)) : Sane R (x >>= f) := by
  cases x with
  | ok a => exact hf a (hx.2 a rfl)
  | error e => exact ⟨fun h => by cases h; exact hx.1 rfl, fun _ h => by cases h⟩

theorem Sane.ok {α : Type} {Q : α → Prop} {a : α} (h : Q a) : Sane Q (.ok a) := ⟨fun h => (by cases h), fun _ hb => by cases hb; exact h⟩

theorem toPy_sane {w : World} (hw : Linked w) {m : MRef} (hm : m < w.sizes.m) {x : AExpr} (hx : ExprIn w.sizes x) : Sane (PyIn w.sizes) (x.toPy w m) := by
  have hl : ∀ p, PathIn w.sizes p → Sane (fun x => x.1 < w.sizes.q) (w.lookup m p) := fun p hp => lookup_sane hw hm hp
  induction x with
  | q p => exact (hl p hx).bind fun _ h => .ok h
  | bin op a b iha ihb => exact (iha hx.1).bind fun _ h1 => (ihb hx.2).bind fun _ h2 => .ok ⟨h1, h2⟩
  | binN op a n ih => exact (ih hx).bind fun _ h => .ok h
  | nbin op n a ih => exact (ih hx).bind fun _ h => .ok h
  | fn f a ih => exact (ih hx).bind fun _ h => .ok h
  | mmN k a n ih => exact (ih hx).bind fun _ h => .ok h
  | diff x t =>
    cases t with
    | none => exact (hl x hx.1).bind fun _ h => .ok h
    | some t => exact (hl x hx.1).bind fun _ h => (hl t (hx.2 t rfl)).bind fun _ _ => .ok h

theorem eval_sane {w : World} (hw : Linked w) {m : MRef} (hm : m < w.sizes.m) {st : AStmt} (hx : StmtIn w.sizes st) : Meets ArgIn (st.eval m) w := by
  have h1 : Sane (fun st => ∀ x ∈ Spec.parts st, PyIn w.sizes x) (st.toStmt w m) := by
    cases st with
    | eqn l r => exact (toPy_sane hw hm hx.1).bind fun _ h1 => (toPy_sane hw hm hx.2).bind fun _ h2 => .ok (by simp [Spec.parts, h1, h2])
    | eqnNum l q => exact (toPy_sane hw hm (x := l) hx).bind fun _ h1 => .ok (by simp [Spec.parts, h1])
    | res l => exact (toPy_sane hw hm (x := l) hx).bind fun _ h1 => .ok (by simp [Spec.parts, h1])
  have h2 := h1.bind (R := ArgIn w.sizes) fun st h => ⟨(errs_stmt st).sane (by decide), fun a ha => argIn_stmt h ha⟩
  exact ⟨.refl _, hw, h2.2, h2.1⟩


/-! ## Calls on models -/

/-- Nothing is said about the value. -/
abbrev Any {α : Type} : Sizes → α → Prop := fun _ _ => True

section
variable {w : World} (hw : Linked w)
include hw

omit hw in
theorem modelIn_attr {s : Sizes} {mo : ModelObj} (h : ModelIn s mo) (a : String) {v : Attr} (hv : AttrIn s v) : ModelIn s { mo with attrs := dset mo.attrs a v } :=
  ⟨h.body, h.vars, h.pars, h.cons, h.eqns, h.expIn, h.expOut, h.inlets, h.ports, fun x hx => by
    obtain ⟨⟨k, y⟩, hp, rfl⟩ := List.mem_map.mp hx
    rcases mem_dset hp with ⟨_, rfl⟩ | hp
    · exact hv
    · exact h.attrs _ (List.mem_map.mpr ⟨_, hp, rfl⟩)⟩

omit hw in
theorem modelIn_var {s : Sizes} {mo : ModelObj} (h : ModelIn s mo) (a : String) {v : Ref} (hv : v < s.q) : ModelIn s { mo with vars := dset mo.vars a v } :=
  { h with vars := below_dset h.vars hv }
omit hw in
theorem modelIn_par {s : Sizes} {mo : ModelObj} (h : ModelIn s mo) (a : String) {v : Ref} (hv : v < s.q) : ModelIn s { mo with pars := dset mo.pars a v } :=
  { h with pars := below_dset h.pars hv }
omit hw in
theorem modelIn_con {s : Sizes} {mo : ModelObj} (h : ModelIn s mo) (a : String) {v : Ref} (hv : v < s.q) : ModelIn s { mo with cons := dset mo.cons a v } :=
  { h with cons := below_dset h.cons hv }
omit hw in
theorem modelIn_eqn {s : Sizes} {mo : ModelObj} (h : ModelIn s mo) (a : String) {v : ERef} (hv : v < s.e) : ModelIn s { mo with eqns := dset mo.eqns a v } :=
  { h with eqns := below_dset h.eqns hv }

theorem setAttr_meets {m : MRef} (hm : m < w.sizes.m) (a : String) {v : Attr} (hv : AttrIn w.sizes v) : Meets Any (setAttr m a v) w :=
  (Meets.getM hw hm).bind fun _ _ hg hw' hmo => .setM hw' m (modelIn_attr hmo a (AttrIn.mono hg hv))

theorem expose_meets (m : MRef) {mo : ModelObj} (hm : ModelIn w.sizes mo) {r : Ref} (hr : r < w.sizes.q) (t : String) : Meets Any (expose m mo r t) w := by
  have ha : ∀ l : List Ref, Below w.sizes.q l → Below w.sizes.q (l ++ [r]) := fun l hl x hx =>
    (List.mem_append.mp hx).elim (hl x) fun h => by rw [List.mem_singleton.mp h]; exact hr
  unfold expose
  split
  · exact .setM hw m { hm with expIn := ha _ hm.expIn }
  · split
    · exact .setM hw m { hm with expOut := ha _ hm.expOut }
    · exact .raise hw (by decide)

theorem createVariable_meets {m : MRef} (hm : m < w.sizes.m) (a : VarArgs) : Meets (fun s r => r < s.q) (createVariable m a) w :=
  (Meets.getM hw hm).bind fun mo _ _ hw1 hmo => (Meets.newQ hw1 _).bind fun r w2 hg2 hw2 hr => by
    have hmo2 := ModelIn.mono hg2 hmo
    have hmo3 : ∀ k, ModelIn w2.sizes { mo with vars := dset mo.vars k r } := fun k => { hmo2 with vars := below_dset hmo2.vars hr }
    exact (Meets.setM hw2 m (hmo3 _)).bind fun _ w3 hg3 hw3 _ =>
      (Meets.when hw3 fun _ => expose_meets hw3 m (ModelIn.mono hg3 (hmo3 _)) (lt_of_lt_of_le hr hg3.q) _).bind fun _ w4 hg4 hw4 _ =>
        .ret hw4 (lt_of_lt_of_le hr (hg3.trans hg4).q)

theorem createParameter_meets {m : MRef} (hm : m < w.sizes.m) (a : ParArgs) : Meets (fun s r => r < s.q) (createParameter m a) w :=
  (Meets.getM hw hm).bind fun mo _ _ hw1 hmo => (Meets.newQ hw1 _).bind fun r w2 hg2 hw2 hr => by
    have hmo2 := ModelIn.mono hg2 hmo
    exact (Meets.setM hw2 m (modelIn_par hmo2 _ hr)).bind fun _ w3 hg3 hw3 _ => .ret hw3 (lt_of_lt_of_le hr hg3.q)

theorem createConstant_meets {m : MRef} (hm : m < w.sizes.m) (a : ParArgs) : Meets (fun s r => r < s.q) (createConstant m a) w :=
  (Meets.getM hw hm).bind fun mo _ _ hw1 hmo => (Meets.newQ hw1 _).bind fun r w2 hg2 hw2 hr => by
    have hmo2 := ModelIn.mono hg2 hmo
    exact (Meets.setM hw2 m (modelIn_con hmo2 _ hr)).bind fun _ w3 hg3 hw3 _ => .ret hw3 (lt_of_lt_of_le hr hg3.q)
end

theorem noObject_ofRes (a : Option ResArg) (c : Bool) : noObject ∉ Spec.ofRes a c := by
  cases c <;> rcases a with _ | a <;> first | decide | (cases a <;> simp [Spec.ofRes])

theorem init_sane (t t' n d o : String) (a : Option ResArg) : EqObj.init t t' n d a o ≠ .error noObject := by
  intro h
  unfold EqObj.init at h
  simp only at h
  split at h
  · cases h
  · rename_i a
    split at h
    · cases h
    · rename_i x e' hx
      cases h
      have hr : ∀ e0 : EqObj, e0.expr = none → e0.setResidual t' a = (.error noObject, e') → False := fun e0 h0 h1 => by
        have := errs_setResidual t' e0 h0 a
        rw [h1] at this
        exact noObject_ofRes _ _ (this _ rfl)
      exact hr _ rfl hx

theorem sweep_sane (e : EqObj) : e.sweep ≠ .error noObject := by
  unfold EqObj.sweep
  split <;> intro h <;> cases h

theorem check_sane (mo : ModelObj) (e : EqObj) : mo.checkEquation e ≠ .error noObject := by
  unfold ModelObj.checkEquation
  split
  · intro h; cases h
  · split <;> intro h <;> cases h

theorem createEquation_meets {w : World} (hw : Linked w) {m : MRef} (hm : m < w.sizes.m) (n d : String) {a : Option ResArg} (ha : ∀ x, a = some x → ArgIn w.sizes x) (c : Bool) :
    Meets (fun s r => r < s.e) (createEquation m n d a c) w :=
  (Meets.getM hw hm).bind fun mo _ g1 hw1 hmo => (Meets.tagIf hw1 _).bind fun t _ g2 hw2 _ => (Meets.tagIf hw2 _).bind fun t' w3 g3 hw3 _ =>
    (Meets.lift (Q := EqIn) hw3 (init_sane _ _ _ _ _ _) fun e he => eqIn_init (fun x hx => ArgIn.mono (g1.trans (g2.trans g3)) (ha x hx)) he).bind fun e w4 g4 hw4 he =>
    (Meets.lift (Q := EqIn) hw4 (sweep_sane _) fun e' he' => eqIn_sweep (e := { e with name := e.name ++ "_" ++ mo.name }) ⟨he.expr, he.elem, he.objects⟩ he').bind
      fun e' w5 g5 hw5 he' =>
    (Meets.when hw5 fun _ => .lift (Q := Any) hw5 (check_sane _ _) fun _ _ => trivial).bind fun _ w6 g6 hw6 _ =>
    (Meets.newE hw6 (EqIn.mono g6 he')).bind fun r w7 g7 hw7 hr => by
      have hmo' := ModelIn.mono (g2.trans (g3.trans (g4.trans (g5.trans (g6.trans g7))))) hmo
      exact (Meets.setM hw7 m (modelIn_eqn hmo' _ hr)).bind fun _ w8 g8 hw8 _ => .ret hw8 (lt_of_lt_of_le hr g8.e)

section
variable {w : World} (hw : Linked w)
include hw

theorem lookupM_meets {m : MRef} (hm : m < w.sizes.m) {p : APath} (hp : PathIn w.sizes p) : Meets (fun s x => x.1 < s.q) (lookupM m p) w :=
  ⟨.refl _, hw, (lookup_sane hw hm hp).2, (lookup_sane hw hm hp).1⟩

omit hw in
theorem noObject_ofVal (v : SVArg) (u : Option UnitObj) : noObject ∉ Spec.ofVal v u := by
  cases v <;> cases u <;> simp [Spec.ofVal]

theorem setValueM_meets {r : Ref} (hr : r < w.sizes.q) (v : SVArg) (u : Option UnitObj) : Meets Any (setValueM r v u) w :=
  (Meets.getQ hw hr).bind fun q _ _ hw1 _ => (Meets.lift (Q := Any) hw1 ((errs_setValue q v u).sane (noObject_ofVal v u)) fun _ _ => trivial).bind fun _ _ _ hw2 _ => .setQ hw2 _ _

theorem distributeM_meets {r : Ref} (hr : r < w.sizes.q) : Meets Any (distributeM r) w :=
  (Meets.getQ hw hr).bind fun _ _ _ hw1 _ => .setQ hw1 _ _

theorem cmd_meets {m : MRef} (hm : m < w.sizes.m) {c : Cmd} (hc : CmdIn w.sizes c) : Meets Any (c.run m) w := by
  cases c with
  | var s a => exact (createVariable_meets hw hm a).bind fun _ _ g h1 hr => setAttr_meets h1 (lt_of_lt_of_le hm g.m) _ hr
  | par s a => exact (createParameter_meets hw hm a).bind fun _ _ g h1 hr => setAttr_meets h1 (lt_of_lt_of_le hm g.m) _ hr
  | con s a => exact (createConstant_meets hw hm a).bind fun _ _ g h1 hr => setAttr_meets h1 (lt_of_lt_of_le hm g.m) _ hr
  | eqn s n d st c =>
    exact (eval_sane hw hm hc).bind fun a w1 g1 h1 ha => (createEquation_meets h1 (lt_of_lt_of_le hm g1.m) n d (fun x hx => by cases hx; exact ha) c).bind
      fun r w2 g2 h2 hr => setAttr_meets h2 (lt_of_lt_of_le hm (g1.trans g2).m) _ hr
  | setValue p v u =>
    refine (lookupM_meets hw hm hc.1).bind fun x w1 g1 h1 hx => Meets.bind (Q := Any) ?_ fun v w2 g2 h2 _ => setValueM_meets h2 (lt_of_lt_of_le hx g2.q) v u
    cases v with
    | qty q => exact (lookupM_meets h1 (lt_of_lt_of_le hm g1.m) (PathIn.mono g1 (hc.2 q rfl))).bind fun _ _ _ h2 _ => .ret h2 trivial
    | _ => exact .ret h1 trivial
  | distribute p => exact (lookupM_meets hw hm (p := p) hc).bind fun x _ _ h1 hx => distributeM_meets h1 hx
  | fail e => exact .raise hw hc

theorem cmds_meets {m : MRef} (hm : m < w.sizes.m) {l : List Cmd} (hl : ∀ c ∈ l, CmdIn w.sizes c) : Meets Any (each l (Cmd.run m)) w :=
  .each l hw fun c hc _ g h => cmd_meets h (lt_of_lt_of_le hm g.m) (CmdIn.mono g (hl c hc))

/-! ## Incorporation, inlets -/

theorem addObject_meets {m : MRef} (hm : m < w.sizes.m) {r : Ref} (hr : r < w.sizes.q) (rw' : Bool) (v : ModelObj → Quantity → Ref → ModelObj)
    (hv : ∀ s mo q r, ModelIn s mo → r < s.q → ModelIn s (v mo q r)) (y : Quantity → PyM Unit) (hy : ∀ q w, Linked w → Meets Any (y q) w) : Meets Any (do
      let mo ← PyM.getM m
      let q ← PyM.getQ r
      let q' := { q with name := newName rw' q.name q.owner mo.name, owner := mo.name }
      let r' ← newQ q'
      setM m (v mo q' r')
      y q
      setAttr m (objectName q.name q.owner) (.qty r')) w :=
  (Meets.getM hw hm).bind fun mo _ g1 h1 hmo => (Meets.getQ h1 (lt_of_lt_of_le hr g1.q)).bind fun q _ g2 h2 _ => (Meets.newQ h2 _).bind fun r' _ g3 h3 hr' =>
    (Meets.setM h3 m (hv _ mo _ r' (ModelIn.mono (g2.trans g3) hmo) hr')).bind fun _ w4 g4 h4 _ => (hy q w4 h4).bind fun _ w5 g5 h5 _ =>
      setAttr_meets h5 (lt_of_lt_of_le hm (g1.trans (g2.trans (g3.trans (g4.trans g5)))).m) _ (lt_of_lt_of_le hr' (g4.trans g5).q)

theorem addVariable_meets {m : MRef} (hm : m < w.sizes.m) {r : Ref} (hr : r < w.sizes.q) (b : Bool) : Meets Any (addVariableDirectly m b r) w :=
  addObject_meets hw hm hr b (fun mo q r => { mo with vars := dset mo.vars q.name r }) (fun _ _ _ _ h k => { h with vars := below_dset h.vars k })
    (fun q => PyM.when q.isExposed (raise .keyError)) fun _ _ h => .when h fun _ => .raise h (by decide)

theorem addParameter_meets {m : MRef} (hm : m < w.sizes.m) {r : Ref} (hr : r < w.sizes.q) (b : Bool) : Meets Any (addParameterDirectly m b r) w :=
  addObject_meets hw hm hr b (fun mo q r => { mo with pars := dset mo.pars q.name r }) (fun _ _ _ _ h k => { h with pars := below_dset h.pars k })
    (fun _ => PyM.pure ()) fun _ _ h => .ret h trivial

theorem addConstant_meets {m : MRef} (hm : m < w.sizes.m) {r : Ref} (hr : r < w.sizes.q) (b : Bool) : Meets Any (addConstantDirectly m b r) w :=
  addObject_meets hw hm hr b (fun mo q r => { mo with cons := dset mo.cons q.name r }) (fun _ _ _ _ h k => { h with cons := below_dset h.cons k })
    (fun _ => PyM.pure ()) fun _ _ h => .ret h trivial

theorem addEquation_meets {m : MRef} (hm : m < w.sizes.m) {r : ERef} (hr : r < w.sizes.e) (names : Dict String String) {whole : Dict String Ref}
    (hwh : Below w.sizes.q (dvalues whole)) (b : Bool) : Meets Any (addEquationDirectly m names whole b r) w :=
  (Meets.getM hw hm).bind fun mo w1 g1 h1 hmo => (Meets.getE h1 (lt_of_lt_of_le hr g1.e)).bind fun e w2 g2 h2 he =>
    (Meets.lift (Q := EqIn) h2 ((errs_convert _ _ _).sane (by decide)) fun e' he' =>
      eqIn_convert (e := { e with name := newName b e.name e.owner mo.name, owner := mo.name }) ⟨he.expr, he.elem, he.objects⟩ (below_q (g1.trans g2) hwh) he').bind fun e' w3 g3 h3 he' =>
    (Meets.newE h3 he').bind fun r' w4 g4 h4 hr' => by
      have hmo' := ModelIn.mono (g2.trans (g3.trans g4)) hmo
      exact (Meets.setM h4 m (modelIn_eqn hmo' _ hr')).bind fun _ w5 g5 h5 _ =>
        setAttr_meets h5 (lt_of_lt_of_le hm (g1.trans (g2.trans (g3.trans (g4.trans g5)))).m) _ (lt_of_lt_of_le hr' g5.e)

theorem incorporate_meets {m k : MRef} (hm : m < w.sizes.m) (hk : k < w.sizes.m) (fl : IncFlags) : Meets Any (incorporate m k fl) w :=
  (Meets.getM hw hk).bind fun s1 w1 g1 h1 k1 => (Meets.when h1 fun _ => .each _ h1 fun r hr _ g h => addVariable_meets h (lt_of_lt_of_le hm (g1.trans g).m) (lt_of_lt_of_le (k1.vars r hr) g.q) _).bind
    fun _ w2 g2 h2 _ => (Meets.getM h2 (lt_of_lt_of_le hk (g1.trans g2).m)).bind fun s3 w3 g3 h3 k3 => by
    have g3' := g1.trans (g2.trans g3)
    exact (Meets.when h3 fun _ => .each _ h3 fun r hr _ g h => addParameter_meets h (lt_of_lt_of_le hm (g3'.trans g).m) (lt_of_lt_of_le (k3.pars r hr) g.q) _).bind
      fun _ w4 g4 h4 _ => (Meets.getM h4 (lt_of_lt_of_le hk (g3'.trans g4).m)).bind fun s5 w5 g5 h5 k5 => by
      have g5' := g3'.trans (g4.trans g5)
      exact (Meets.when h5 fun _ => .each _ h5 fun r hr _ g h => addConstant_meets h (lt_of_lt_of_le hm (g5'.trans g).m) (lt_of_lt_of_le (k5.cons r hr) g.q) _).bind
        fun _ w6 g6 h6 _ => (Meets.getM h6 (lt_of_lt_of_le hk (g5'.trans g6).m)).bind fun s7 w7 g7 h7 k7 =>
        (Meets.getM h7 (lt_of_lt_of_le hm (g5'.trans (g6.trans g7)).m)).bind fun mo w8 g8 h8 k8 =>
          .when h8 fun _ => .each _ h8 fun r hr _ g h => addEquation_meets h (lt_of_lt_of_le hm (g5'.trans (g6.trans (g7.trans (g8.trans g)))).m)
            (lt_of_lt_of_le (k7.eqns r hr) (g8.trans g).e) _ (below_q g (below_dupdate (below_dupdate (below_dupdate (below_nil _) k8.cons) k8.pars) k8.vars)) _

theorem setInlets_meets {m : MRef} (hm : m < w.sizes.m) {l : List MRef} (hl : Below w.sizes.m l) (n : String) : Meets Any (setInlets m l n) w :=
  (Meets.getM hw hm).bind fun mo w1 g1 h1 hmo => (Meets.getP h1 hmo.ports).bind fun p w2 g2 h2 hp => by
    have hl2 := below_m (g1.trans g2) hl
    have hp' : PortsIn w2.sizes (dset p n ((dget p n).getD [] ++ l)) := fun x hx => by
      obtain ⟨⟨k, y⟩, hk, rfl⟩ := List.mem_map.mp hx
      rcases mem_dset hk with ⟨_, rfl⟩ | hk
      · intro r hr
        rcases List.mem_append.mp hr with hr | hr
        · cases hd : dget p n with
          | none => rw [hd] at hr; cases hr
          | some x => rw [hd] at hr; exact hp x (List.mem_map.mpr ⟨_, mem_of_dget hd, rfl⟩) r hr
        · exact hl2 r hr
      · exact hp _ (List.mem_map.mpr ⟨_, hk, rfl⟩)
    refine (Meets.setP h2 _ hp').bind fun _ w3 g3 h3 _ => ?_
    have hmo3 := ModelIn.mono (g2.trans g3) hmo
    have hin : Below w3.sizes.m (mo.inlets ++ (dvalues (dset p n ((dget p n).getD [] ++ l))).flatten) := fun r hr => by
      rcases List.mem_append.mp hr with hr | hr
      · exact hmo3.inlets r hr
      · obtain ⟨x, hx, hr⟩ := List.mem_flatten.mp hr
        exact lt_of_lt_of_le (hp' x hx r hr) g3.m
    exact .setM h3 m { hmo3 with inlets := hin }

/-! ## Totalization, calls of models -/

omit hw in
theorem pathIn_own (s : Sizes) (a : String) : PathIn s { attr := a } := fun _ h => by cases h

theorem ensureInlet_meets {m : MRef} (hm : m < w.sizes.m) (a d : String) (u : UnitObj) (l : String) : Meets Any (ensureInlet m a d u l) w :=
  (Meets.getM hw hm).bind fun _ _ g h1 _ => .when h1 fun _ => cmd_meets h1 (lt_of_lt_of_le hm g.m) trivial

theorem inletNodes_meets (a : String) {l : List MRef} (hl : Below w.sizes.m l) : Meets (fun s r => ∀ n ∈ r, NodeIn s n) (inletNodes a l) w :=
  .collect (Q := NodeIn) (fun _ _ _ h k => NodeIn.mono h k) l hw fun s hs _ g h => (lookupM_meets h (lt_of_lt_of_le (hl s hs) g.m) (pathIn_own _ _)).bind
    fun x _ _ h2 hx => .ret h2 (nodeIn_call hx _)

theorem fixInlets_meets {m : MRef} (hm : m < w.sizes.m) (a : String) {l : List MRef} (hl : Below w.sizes.m l) : Meets Any (fixInlets m a l) w :=
  .each l hw fun s hs _ g h => (lookupM_meets h (lt_of_lt_of_le (hl s hs) g.m) (pathIn_own _ _)).bind fun x _ g1 h1 hx =>
    (Meets.lift (Q := NodeIn) h1 (fun h => by cases h) fun n hn => by cases hn; exact nodeIn_same (nodeIn_call hx x.2) rfl rfl).bind fun n _ g2 h2 hn =>
      (createEquation_meets h2 (lt_of_lt_of_le hm (g.trans (g1.trans g2)).m) _ _ (fun y hy => by cases hy; exact hn) _).bind fun _ _ _ h3 _ => .ret h3 trivial

theorem totalizeMin_meets {m : MRef} (hm : m < w.sizes.m) (a : String) (ns : List ENode) (s : String) : Meets Any (totalizeMin m a ns s) w :=
  (lookupM_meets hw hm (pathIn_own _ _)).bind fun x _ g1 h1 hx =>
    (Meets.lift (Q := fun _ _ => False) h1 (fun h => by
      cases ns with
      | nil => cases h
      | cons a t =>
        have h1 : (MArg.node a :: t.map MArg.node).all MArg.isNode = true := by rw [List.all_eq_true]; simp [MArg.isNode, MArg.isNum]
        have h2 : (MArg.node a :: t.map MArg.node).all MArg.isNum = false := rfl
        simp only [minNodes, minMax, h1, h2, if_true, Bool.false_eq_true, if_false] at h
        cases h) fun k hk => by
      obtain ⟨y, hy⟩ := minNodes_error ns
      rw [hy] at hk; cases hk).bind fun _ _ _ _ hf => hf.elim

theorem totalize_meets {m : MRef} (hm : m < w.sizes.m) : Meets Any (totalizeInlets m) w := by
  refine (ensureInlet_meets hw hm _ _ _ _).bind fun _ w1 g1 h1 _ => (ensureInlet_meets h1 (lt_of_lt_of_le hm g1.m) _ _ _ _).bind fun _ w2 g2 h2 _ => ?_
  have k2 := g1.trans g2
  refine (ensureInlet_meets h2 (lt_of_lt_of_le hm k2.m) _ _ _ _).bind fun _ w3 g3 h3 _ => ?_
  have k3 := k2.trans g3
  refine (ensureInlet_meets h3 (lt_of_lt_of_le hm k3.m) _ _ _ _).bind fun _ w4 g4 h4 _ => ?_
  have k4 := k3.trans g4
  refine (ensureInlet_meets h4 (lt_of_lt_of_le hm k4.m) _ _ _ _).bind fun _ w5 g5 h5 _ => ?_
  have k5 := k4.trans g5
  refine (Meets.getM h5 (lt_of_lt_of_le hm k5.m)).bind fun mo w6 g6 h6 hmo => ?_
  have k6 := k5.trans g6
  refine Meets.bind (Q := Any) (.each _ h6 fun s hs _ g h => incorporate_meets h (lt_of_lt_of_le hm (k6.trans g).m) (lt_of_lt_of_le (hmo.inlets s hs) g.m) _) fun _ w7 g7 h7 _ => ?_
  have k7 := k6.trans g7
  refine (Meets.getM h7 (lt_of_lt_of_le hm k7.m)).bind fun mo w8 g8 h8 hmo => ?_
  have k8 := k7.trans g8
  refine (Meets.getP h8 hmo.ports).bind fun p w9 g9 h9 _ => .when h9 fun _ => ?_
  have k9 := k8.trans g9
  have hi := below_m g9 hmo.inlets
  refine (inletNodes_meets h9 "P" hi).bind fun ps w10 g10 h10 _ => (fixInlets_meets h10 (lt_of_lt_of_le hm (k9.trans g10).m) "P" (below_m g10 hi)).bind fun _ w11 g11 h11 _ => ?_
  have k11 := g10.trans g11
  refine ((inletNodes_meets h11 "T" (below_m k11 hi)).rethrow (by decide)).bind fun ts w12 g12 h12 _ => ?_
  have k12 := k11.trans g12
  refine ((fixInlets_meets h12 (lt_of_lt_of_le hm (k9.trans k12).m) "T" (below_m k12 hi)).rethrow (by decide)).bind fun _ w13 g13 h13 _ => ?_
  have k13 := k9.trans (k12.trans g13)
  exact (totalizeMin_meets h13 (lt_of_lt_of_le hm k13.m) _ _ _).bind fun _ w14 g14 h14 _ => totalizeMin_meets h14 (lt_of_lt_of_le hm (k13.trans g14).m) _ _ _

theorem call_meets {m : MRef} (hm : m < w.sizes.m) : Meets Any (Model.call m) w := by
  refine (Meets.getM hw hm).bind fun mo w1 g1 h1 hmo => ?_
  have hb : ∀ {w' : World}, w1.sizes.Le w'.sizes → Linked w' → ∀ l, (∀ c ∈ l, c ∈ mo.body.cons ++ mo.body.pars ++ mo.body.vars ++ mo.body.eqns) →
      Meets Any (each l (Cmd.run m)) w' := fun g h l hl => cmds_meets h (lt_of_lt_of_le hm (g1.trans g).m) fun c hc => CmdIn.mono g (hmo.body c (hl c hc))
  refine (hb (.refl _) h1 _ fun c hc => by simp [hc]).bind fun _ w2 g2 h2 _ => (hb g2 h2 _ fun c hc => by simp [hc]).bind fun _ w3 g3 h3 _ =>
    (hb (g2.trans g3) h3 _ fun c hc => by simp [hc]).bind fun _ w4 g4 h4 _ => ?_
  have k4 := g1.trans (g2.trans (g3.trans g4))
  exact (Meets.getM h4 (lt_of_lt_of_le hm k4.m)).bind fun mo' w5 g5 h5 hmo' =>
    (Meets.when h5 fun _ => totalize_meets h5 (lt_of_lt_of_le hm (k4.trans g5).m)).bind fun _ w6 g6 h6 _ =>
      cmds_meets h6 (lt_of_lt_of_le hm (k4.trans (g5.trans g6)).m) fun c hc => CmdIn.mono g6 (hmo'.body c (by simp [hc]))

/-! ## Connections -/

theorem modelConn_meets {m : MRef} (hm : m < w.sizes.m) {o i : List Ref} (ho : Below w.sizes.q o) (hi : Below w.sizes.q i) {a : ResArg} (ha : ArgIn w.sizes a) :
    Meets (fun s r => r < s.e) (createModelConnection m o i a) w := by
  refine (Meets.getM hw hm).bind fun mo w1 g1 h1 hmo => ?_
  refine Meets.bind (Q := Any) ((Meets.collect (Q := Any) (fun _ _ _ _ _ => trivial) o h1 fun r hr _ g h => .getQ h (lt_of_lt_of_le (ho r hr) (g1.trans g).q)).weaken fun _ _ _ => trivial)
    fun qo w2 g2 h2 _ => ?_
  refine Meets.bind (Q := Any) ((Meets.collect (Q := Any) (fun _ _ _ _ _ => trivial) i h2 fun r hr _ g h => .getQ h (lt_of_lt_of_le (hi r hr) (g1.trans (g2.trans g)).q)).weaken
    fun _ _ _ => trivial) fun qi w3 g3 h3 _ => ?_
  refine (Meets.when h3 fun _ => .raise h3 (by decide)).bind fun _ w4 g4 h4 _ => (Meets.tagIf h4 _).bind fun t w5 g5 h5 _ => ?_
  have k5 := g1.trans (g2.trans (g3.trans (g4.trans g5)))
  refine (Meets.lift (Q := fun s e => EqIn s e ∧ ∃ n, e.expr = some n) h5 (init_sane _ _ _ _ _ _) fun e he => ⟨eqIn_init (fun x hx => by cases hx; exact ArgIn.mono k5 ha) he, ?_⟩).bind
    fun e w6 g6 h6 he => ?_
  · obtain ⟨e0, e1, _, h1, rfl⟩ := EqObj.init_fresh he
    obtain ⟨n, hn⟩ := setResidual_expr h1
    exact ⟨n, hn⟩
  refine (Meets.tagIf h6 _).bind fun t' w7 g7 h7 _ => ?_
  have k7 := k5.trans (g6.trans g7)
  have hs : (e.setResidual t' a).1 ≠ .error noObject := by
    cases a with
    | eqnOther l =>
      obtain ⟨n, hn⟩ := he.2
      simp only [EqObj.setResidual, EqObj.finish, hn]
      exact fun h => by cases h
    | _ => exact (errs_setResidual' t' e _ (by simp)).sane (noObject_ofRes _ _)
  refine (Meets.lift (Q := Any) h7 hs fun _ _ => trivial).bind fun _ w8 g8 h8 _ => ?_
  have he8 := eqIn_setResidual (t := t') (EqIn.mono (g7.trans g8) he.1) (ArgIn.mono (k7.trans g8) ha)
  refine (Meets.lift (Q := EqIn) h8 (sweep_sane _) fun x hx => eqIn_sweep he8 hx).bind fun x w9 g9 h9 hx => (Meets.newE h9 hx).bind fun r w10 g10 h10 hr => ?_
  have hmo' := ModelIn.mono (g2.trans (g3.trans (g4.trans (g5.trans (g6.trans (g7.trans (g8.trans (g9.trans g10)))))))) hmo
  exact (Meets.setM h10 m (modelIn_eqn hmo' _ hr)).bind fun _ w11 g11 h11 _ => .ret h11 (lt_of_lt_of_le hr g11.e)

omit hw in
theorem sumNodes_sane {s : Sizes} {l : List ENode} (hl : ∀ n ∈ l, NodeIn s n) : Sane (fun o => ∀ n, o = some n → NodeIn s n) (sumNodes l) := by
  cases l with
  | nil => exact .ok fun _ h => by cases h
  | cons a t =>
    have hf : ∀ (t : List ENode) (x : ENode), NodeIn s x → (∀ n ∈ t, NodeIn s n) → Sane (NodeIn s) (t.foldlM (fun acc b => acc.add (.node b)) x) := by
      intro t
      induction t with
      | nil => exact fun x hx _ => .ok hx
      | cons b t ih =>
        exact fun x hx ht => Sane.bind (Q := NodeIn s) ⟨(errs_add x b).sane (by decide), fun n hn => nodeIn_add hx (ht b (List.mem_cons_self ..)) hn⟩
          fun y hy => ih y hy fun n hn => ht n (List.mem_cons_of_mem _ hn)
    exact Sane.bind (Q := NodeIn s) (.ok (nodeIn_same (hl a (List.mem_cons_self ..)) rfl rfl)) fun x hx =>
      (hf t x hx fun n hn => hl n (List.mem_cons_of_mem _ hn)).bind fun y hy => .ok fun n hn => by cases hn; exact hy

theorem connExpr_meets {i o : List Ref} (hi : Below w.sizes.q i) (ho : Below w.sizes.q o) {a : Option ResArg} (ha : ∀ x, a = some x → ArgIn w.sizes x) :
    Meets ArgIn (connExpr i o a) w := by
  cases a with
  | some a => exact .ret hw (ha a rfl)
  | none =>
    have hc : ∀ {w' : World}, w.sizes.Le w'.sizes → Linked w' → ∀ l, Below w.sizes.q l → Meets (fun s r => ∀ n ∈ r, NodeIn s n) (PyM.collect l fun r => do
        let q ← PyM.getQ r
        PyM.pure (q.call r)) w' := fun g h l hl =>
      .collect (Q := NodeIn) (fun _ _ _ h k => NodeIn.mono h k) l h fun r hr _ g' h' => by
        have hr' := lt_of_lt_of_le (hl r hr) (g.trans g').q
        exact (Meets.getQ h' hr').bind fun q _ g2 h2 _ => .ret h2 (nodeIn_call (lt_of_lt_of_le hr' g2.q) q)
    refine (hc (.refl _) hw i hi).bind fun ni w1 g1 h1 hni => (hc g1 h1 o ho).bind fun no w2 g2 h2 hno => ?_
    refine (Meets.lift (Q := fun s x => ∀ n, x = some n → NodeIn s n) h2 (sumNodes_sane fun n hn => NodeIn.mono g2 (hni n hn)).1
      (sumNodes_sane fun n hn => NodeIn.mono g2 (hni n hn)).2).bind fun a w3 g3 h3 ha => ?_
    refine (Meets.lift (Q := fun s x => ∀ n, x = some n → NodeIn s n) h3 (sumNodes_sane fun n hn => NodeIn.mono g3 (hno n hn)).1
      (sumNodes_sane fun n hn => NodeIn.mono g3 (hno n hn)).2).bind fun b w4 g4 h4 hb => ?_
    have ha : ∀ n, a = some n → NodeIn w4.sizes n := fun n hn => NodeIn.mono g4 (ha n hn)
    have h : Sane (ArgIn w4.sizes) (sumDiff a b) := by
      cases a with
      | none =>
        cases b with
        | none => exact .ok trivial
        | some b => exact .ok (nodeIn_same (hb b rfl) rfl rfl)
      | some a =>
        cases b with
        | none => exact .ok (nodeIn_same (ha a rfl) rfl rfl)
        | some b => exact Sane.bind (Q := NodeIn w4.sizes) ⟨(errs_sub a b).sane (by decide), fun n hn => nodeIn_sub (ha a rfl) (hb b rfl) hn⟩ fun n hn => .ok hn
    exact .lift h4 h.1 h.2

omit hw in
theorem refs_below {s : Sizes} {a : ConnArg} (h : SideIn s a) : Below s.q a.refs := by
  cases a with
  | var r => exact fun x hx => by rw [List.mem_singleton.mp hx]; exact h
  | list l => exact h
  | node n => exact below_nil _

omit hw in
theorem exposedIn_sane (a : ConnArg) (l : List Ref) : a.exposedIn l ≠ .error noObject := by
  cases a with
  | var r => exact fun h => by cases h
  | list l => exact fun h => by cases h
  | node n =>
    unfold ConnArg.exposedIn
    simp only
    split <;> intro h <;> cases h

theorem connectVars_meets {c : ConnSrc} (hc : SrcIn w.sizes c) {m : MRef} (hm : m < w.sizes.m) {o i : ConnArg} (ho : SideIn w.sizes o) (hi : SideIn w.sizes i) {a : Option ResArg}
    (ha : ∀ x, a = some x → ArgIn w.sizes x) : Meets Any (connectVars c m o i a) w := by
  have hx : exposedError o i ≠ noObject := by cases o <;> cases i <;> simp [exposedError]
  have hlift : ∀ {w' : World} (x : ConnArg) (l : List Ref), Linked w' → Meets Any (PyM.lift (x.exposedIn l)) w' := fun x l h => .lift h (exposedIn_sane x l) fun _ _ => trivial
  have hother : Meets Any (do
      let mi ← PyM.getM m
      let bi ← PyM.lift (i.exposedIn mi.expIn)
      PyM.when (!(o.isEmptyList && bi)) (raise .attributeError)
      let e ← connExpr i.refs o.refs a
      let _ ← createModelConnection m o.refs i.refs e
      raise .attributeError : PyM Unit) w := by
    refine (Meets.getM hw hm).bind fun mi w1 g1 h1 _ => (hlift i _ h1).bind fun bi w2 g2 h2 _ => (Meets.when h2 fun _ => .raise h2 (by decide)).bind fun _ w3 g3 h3 _ => ?_
    have k3 := g1.trans (g2.trans g3)
    refine (connExpr_meets h3 (below_q k3 (refs_below hi)) (below_q k3 (refs_below ho)) fun x hx => ArgIn.mono k3 (ha x hx)).bind fun e w4 g4 h4 he => ?_
    have k4 := k3.trans g4
    exact (modelConn_meets h4 (lt_of_lt_of_le hm k4.m) (below_q k4 (refs_below ho)) (below_q k4 (refs_below hi)) he).bind fun _ _ _ h5 _ => .raise h5 (by decide)
  cases c with
  | str s => exact hother
  | other => exact hother
  | model m1 =>
    refine (Meets.getM hw hm).bind fun mi w1 g1 h1 _ => (hlift i _ h1).bind fun bi w2 g2 h2 _ => ?_
    have k2 := g1.trans g2
    refine (Meets.getM h2 (lt_of_lt_of_le hc k2.m)).bind fun mo w3 g3 h3 _ => (hlift o _ h3).bind fun bo w4 g4 h4 _ =>
      (Meets.when h4 fun _ => .raise h4 hx).bind fun _ w5 g5 h5 _ => ?_
    have k5 := k2.trans (g3.trans (g4.trans g5))
    refine (connExpr_meets h5 (below_q k5 (refs_below hi)) (below_q k5 (refs_below ho)) fun x hx => ArgIn.mono k5 (ha x hx)).bind fun e w6 g6 h6 he => ?_
    have k6 := k5.trans g6
    have hcol : ∀ {w' : World}, w.sizes.Le w'.sizes → Linked w' → ∀ l, Below w.sizes.q l → Meets Any (PyM.collect l PyM.getQ) w' := fun g h l hl =>
      (Meets.collect (Q := Any) (fun _ _ _ _ _ => trivial) l h fun r hr _ g' h' => .getQ h' (lt_of_lt_of_le (hl r hr) (g.trans g').q)).weaken fun _ _ _ => trivial
    refine (hcol k6 h6 _ (refs_below ho)).bind fun qo w7 g7 h7 _ => (hcol (k6.trans g7) h7 _ (refs_below hi)).bind fun qi w8 g8 h8 _ => ?_
    have k8 := k6.trans (g7.trans g8)
    refine (modelConn_meets h8 (lt_of_lt_of_le hm k8.m) (below_q k8 (refs_below ho)) (below_q k8 (refs_below hi)) (ArgIn.mono (g7.trans g8) he)).bind fun r w9 g9 h9 hr => ?_
    have k9 := k8.trans g9
    refine (Meets.getM h9 (lt_of_lt_of_le hc k9.m)).bind fun _ w10 g10 h10 _ => (Meets.getM h10 (lt_of_lt_of_le hm (k9.trans g10).m)).bind fun _ w11 g11 h11 _ =>
      (Meets.getPr h11).bind fun p w12 g12 h12 hp => ?_
    have hp' : ∀ k, ProblemIn w12.sizes { p with connections := dset p.connections k r } := fun k =>
      { hp with connections := below_dset hp.connections (lt_of_lt_of_le hr (g10.trans (g11.trans g12)).e) }
    exact .setPr h12 (hp' _)

theorem connect_meets {c : ConnSrc} (hc : SrcIn w.sizes c) {m : MRef} (hm : m < w.sizes.m) {o i : ConnArg} (ho : SideIn w.sizes o) (hi : SideIn w.sizes i) {a : Option ResArg}
    (ha : ∀ x, a = some x → ArgIn w.sizes x) : Meets Any (createConnection c m o i a) w := by
  unfold createConnection
  split
  · rename_i o i
    have ht : Meets Any c.text w := by
      cases c with
      | str s => exact (Meets.ptagIf hw _).bind fun _ _ _ h _ => .ret h trivial
      | model k => exact (Meets.getM hw hc).bind fun _ _ _ h _ => .ret h trivial
      | other => exact .raise hw (by decide)
    refine ht.bind fun s w1 g1 h1 _ => (Meets.getM h1 (lt_of_lt_of_le hm g1.m)).bind fun mi w2 g2 h2 _ => ?_
    have k2 := g1.trans g2
    exact (Meets.lift (Q := NodeIn) h2 ((errs_sub i o).sane (by decide)) fun n hn => nodeIn_sub (NodeIn.mono k2 hi) (NodeIn.mono k2 ho) hn).bind fun d w3 g3 h3 hd =>
      (createEquation_meets h3 (lt_of_lt_of_le hm (k2.trans g3).m) _ _ (fun x hx => by cases hx; exact hd) _).bind fun _ _ _ h4 _ => .ret h4 trivial
  · exact connectVars_meets hw hc hm ho hi ha

/-! ## The problem -/

theorem addModel_meets {m : MRef} (hm : m < w.sizes.m) : Meets Any (addModel m) w :=
  (Meets.getM hw hm).bind fun mo w1 g1 h1 hmo => (Meets.getPr h1).bind fun p w2 g2 h2 hp => by
    have hmo' := ModelIn.mono g2 hmo
    have hp' : ProblemIn w2.sizes { p with models := dset p.models mo.name m, variableDict := dupdate p.variableDict mo.vars, parameterDict := dupdate p.parameterDict mo.pars } :=
      { hp with models := below_dset hp.models (lt_of_lt_of_le hm (g1.trans g2).m), variableDict := below_dupdate hp.variableDict hmo'.vars,
                parameterDict := below_dupdate hp.parameterDict hmo'.pars }
    exact .setPr h2 hp'
end

mutual
theorem treeIn_mono {s t : Sizes} (h : s.Le t) : (x : MTree) → TreeIn s x → TreeIn t x
  | .leaf _, k => by rw [TreeIn] at k ⊢; exact lt_of_lt_of_le k h.m
  | .list l, k => by rw [TreeIn] at k ⊢; exact treesIn_mono h l k
theorem treesIn_mono {s t : Sizes} (h : s.Le t) : (l : List MTree) → TreesIn s l → TreesIn t l
  | [], _ => by rw [TreesIn]; trivial
  | x :: l, k => by rw [TreesIn] at k ⊢; exact ⟨treeIn_mono h x k.1, treesIn_mono h l k.2⟩
end

mutual
theorem addModels_meets : (t : MTree) → {w : World} → Linked w → TreeIn w.sizes t → Meets Any (addModels t) w
  | .leaf m, _, hw, h => by rw [addModels]; rw [TreeIn] at h; exact addModel_meets hw h
  | .list l, _, hw, h => by rw [addModels]; rw [TreeIn] at h; exact addModelsList_meets l hw h
theorem addModelsList_meets : (l : List MTree) → {w : World} → Linked w → TreesIn w.sizes l → Meets Any (addModelsList l) w
  | [], _, hw, _ => by rw [addModelsList]; exact .ret hw trivial
  | t :: ts, _, hw, h => by
    rw [addModelsList]
    rw [TreesIn] at h
    exact (addModels_meets t hw h.1).bind fun _ _ g h1 _ => addModelsList_meets ts h1 (treesIn_mono g ts h.2)
end

theorem sane_foldlM {α β : Type} {Q : β → Prop} {f : β → α → Except Err β} : ∀ (l : List α) (b : β), Q b → (∀ a ∈ l, ∀ b, Q b → Sane Q (f b a)) → Sane Q (l.foldlM f b)
  | [], _, hb, _ => .ok hb
  | a :: t, b, hb, h => (h a (List.mem_cons_self ..) b hb).bind fun c hc => sane_foldlM t c hc fun x hx => h x (List.mem_cons_of_mem _ hx)

theorem build_meets {w : World} (hw : Linked w) : Meets Any buildEquationBlock w := by
  have hg : Sane (fun g : Gather => Below w.sizes.e g.eqs) ((dvalues w.pr.models).foldlM (Gather.model w) {}) := by
    refine sane_foldlM _ _ (below_nil _) fun m hm g hg => ?_
    have hlt : m < w.ms.length := hw.pr.models m hm
    unfold Gather.model
    rw [List.getElem?_eq_getElem hlt]
    refine sane_foldlM _ _ hg fun r hr g hg => ?_
    have hr : r < w.es.length := (hw.ms _ (List.getElem_mem hlt)).eqns r hr
    unfold Gather.eqn
    rw [List.getElem?_eq_getElem hr]
    simp only
    split
    · exact ⟨fun h => (by cases h), fun _ h => by cases h⟩
    · rename_i d hd
      refine sane_foldlM _ _ (fun x hx => (List.mem_append.mp hx).elim (hg x) fun h => by rw [List.mem_singleton.mp h]; exact hr) fun q hq g hg => ?_
      have hq : q < w.qs.length := (hw.es _ (List.getElem_mem hr)).objects d hd q hq
      unfold Gather.obj
      rw [List.getElem?_eq_getElem hq]
      simp only
      split_ifs <;> exact .ok hg
  unfold buildEquationBlock
  cases hr : (dvalues w.pr.models).foldlM (Gather.model w) {} with
  | error e =>
    refine ⟨?_, ?_, fun _ _ => trivial, ?_⟩ <;> simp only [hr]
    · exact .refl _
    · exact hw
    · intro h; cases h; exact hg.1 hr
  | ok g =>
    have he := hg.2 g hr
    have hf : ∀ (d : Dict String Ref) (p : String × Ref → Bool), Below w.sizes.q (dvalues d) → Below w.sizes.q (dvalues (d.filter p)) := fun d p h r hr => by
      obtain ⟨x, hx, rfl⟩ := List.mem_map.mp hr
      exact h _ (List.mem_map.mpr ⟨x, (List.mem_filter.mp hx).1, rfl⟩)
    have hgr : ∀ k, Below w.sizes.e (Block.group w.es k g.eqs) := fun k r hr => he r (List.mem_filter.mp hr).1
    refine ⟨?_, ?_, fun _ _ => trivial, ?_⟩ <;> simp only [hr]
    · exact .refl _
    · refine ⟨hw.ms, hw.es, hw.ps, ?_, hw.default⟩
      exact { hw.pr with equationList := fun l hl => (by cases hl; exact he), block := fun b hb => (by
        cases hb
        exact ⟨he, hf _ _ hw.pr.variableDict, hf _ _ hw.pr.parameterDict, hgr _, hgr _, hgr _, fun l hl => by cases hl⟩) }
    · intro h; cases h

theorem callBlock_meets {w : World} (hw : Linked w) : Meets Any callBlock w := by
  unfold callBlock
  cases hb : w.pr.block with
  | none =>
    refine ⟨?_, ?_, fun _ _ => trivial, ?_⟩ <;> simp only [hb]
    · exact .refl _
    · exact hw
    · intro h; cases h
  | some b =>
    have hbi := hw.pr.block b hb
    have hl : ∀ l, Below w.sizes.e l → Sane (fun _ => True) (Block.getEquationList w.es none .rhs l) := by
      intro l
      induction l with
      | nil => exact fun _ => .ok trivial
      | cons r t ih =>
        intro h
        have hr : r < w.es.length := h r (List.mem_cons_self ..)
        unfold Block.getEquationList
        rw [List.getElem?_eq_getElem hr]
        refine Sane.bind (Q := fun _ => True) ⟨?_, fun _ _ => trivial⟩ fun _ _ => (ih fun x hx => h x (List.mem_cons_of_mem _ hx)).bind fun _ _ => .ok trivial
        unfold EqObj.symbolicObject EqObj.getNode
        split <;> split <;> intro h <;> cases h
    have hc : Sane (fun b' => BlockIn w.sizes b') (b.call w.es) := (hl _ hbi.equations).bind fun _ _ => .ok
      ⟨hbi.equations, hbi.variableDict, hbi.parameterDict, fun r hr => hbi.equations r (List.mem_filter.mp hr).1, fun r hr => hbi.equations r (List.mem_filter.mp hr).1,
        fun r hr => hbi.equations r (List.mem_filter.mp hr).1, fun l hl => by cases hl⟩
    cases hr : b.call w.es with
    | error e =>
      refine ⟨?_, ?_, fun _ _ => trivial, ?_⟩ <;> simp only [hb, hr]
      · exact .refl _
      · exact hw
      · intro h; cases h; exact hc.1 hr
    | ok b' =>
      refine ⟨?_, ?_, fun _ _ => trivial, ?_⟩ <;> simp only [hb, hr]
      · exact .refl _
      · exact ⟨hw.ms, hw.es, hw.ps, { hw.pr with block := fun x hx => (by cases hx; exact hc.2 b' hr) }, hw.default⟩
      · intro h; cases h

theorem resolve_meets {w : World} (hw : Linked w) : Meets Any resolve w := by
  have h : Meets Any reloadModels w := (Meets.getPr hw).bind fun p w1 g1 h1 hp => .each _ h1 fun m hm _ g h => call_meets h (lt_of_lt_of_le (hp.models m hm) g.m)
  exact h.bind fun _ _ _ h1 _ => (build_meets h1).bind fun _ _ _ h2 _ => callBlock_meets h2

/-! ## The theorems -/

theorem op_meets {w : World} (hw : Linked w) {o : Op} (ho : Uses w.sizes o) : Meets Any o.run w := by
  cases o with
  | newPorts => exact (Meets.newP hw fun l hl => by cases hl).void
  | newModel n d b p =>
    have hp : p.getD 0 < w.sizes.p := by
      cases p with
      | none => exact hw.default
      | some r => exact ho.2 r rfl
    refine Meets.void (Q := fun s r => r < s.m) ((Meets.getP hw hp).bind fun _ w1 g1 h1 _ => .newM h1 ?_)
    exact ⟨fun c hc => CmdIn.mono g1 (ho.1 c hc), below_nil _, below_nil _, below_nil _, below_nil _, below_nil _, below_nil _, below_nil _, lt_of_lt_of_le hp g1.p, fun a ha => by cases ha⟩
  | var m a => exact (createVariable_meets hw ho a).void
  | par m a => exact (createParameter_meets hw ho a).void
  | con m a => exact (createConstant_meets hw ho a).void
  | eqn m n d a c => exact (createEquation_meets hw ho.1 n d ho.2 c).void
  | cmd m c => exact cmd_meets hw ho.1 ho.2
  | setValue r v u => exact setValueM_meets hw ho v u
  | incorporate m s fl => exact incorporate_meets hw ho.1 ho.2 fl
  | setInlets m l n => exact setInlets_meets hw ho.1 ho.2 n
  | modelConn m o i a => exact (modelConn_meets hw ho.1 ho.2.1 ho.2.2.1 ho.2.2.2).void
  | call m => exact call_meets hw ho
  | connect s m o i a => exact connect_meets hw ho.1 ho.2.1 ho.2.2.1 ho.2.2.2.1 ho.2.2.2.2
  | addModels t => exact addModels_meets t hw ho
  | initial c => exact (Meets.getPr hw).bind fun p _ _ h hp => .setPr h ⟨hp.models, hp.connections, hp.variableDict, hp.parameterDict, hp.equationList, hp.block⟩
  | time n => exact (Meets.getPr hw).bind fun p _ _ h hp => .setPr h ⟨hp.models, hp.connections, hp.variableDict, hp.parameterDict, hp.equationList, hp.block⟩
  | resolve => exact resolve_meets hw

theorem linked_init : Linked World.init :=
  ⟨fun _ h => (by cases h), fun _ h => (by cases h), fun p hp l hl => (by
      rw [List.mem_singleton.mp (show p ∈ [[]] from hp)] at hl
      cases hl),
    ⟨below_nil _, below_nil _, below_nil _, below_nil _, fun _ h => (by cases h), fun _ h => by cases h⟩, Nat.one_pos⟩

theorem linked_history (ops : List Op) {w : World} (hw : Linked w) (h : Sensible ops w) : Linked (history ops w) := by
  induction ops generalizing w with
  | nil => exact hw
  | cons o t ih => exact ih (op_meets hw h.1).linked h.2

/-- C108: in a session that only passes objects that exist, every reference in the heap leads to an object ... -/
theorem sessions_linked (ops : List Op) (h : Sensible ops World.init) : Linked (history ops World.init) := linked_history ops linked_init h

/-- ... and a further such call never meets an object that does not exist. -/
theorem never_dangling (ops : List Op) (h : Sensible ops World.init) (o : Op) (ho : Uses (history ops World.init).sizes o) :
    (o.run (history ops World.init)).1 ≠ .error noObject := (op_meets (sessions_linked ops h) ho).err

/-- C98 without the exception for missing objects: in such a session a call ends only with the exceptions listed for it. -/
theorem raises_only_listed (ops : List Op) (h : Sensible ops World.init) (o : Op) (ho : Uses (history ops World.init).sizes o) {e : Err}
    (he : (o.run (history ops World.init)).1 = .error e) : MayRaise (history ops World.init) e o :=
  (raises_only ⟨ops, rfl⟩ o he).resolve_left fun hn => never_dangling ops h o ho (by rw [he, hn])

/-- Two models, one refers to the other; a connection, an inlet, a problem. -/
def Ex.linking : List Op := [.newModel "a" "" {} none, .cmd 0 (.var "o" { name := "o", units := Tmpl.dimless, exposed := true, vtype := "output" }),
  .newModel "b" "" { eqns := [.eqn "e" "e" "" (.res (.bin .sub (.q { attr := "i" }) (.q { model := some 0, attr := "o" }))) false] } none,
  .cmd 1 (.var "i" { name := "i", units := Tmpl.dimless, exposed := true, vtype := "input" }), .connect (.model 0) 1 (.var 0) (.var 1) none, .addModels (.list [.leaf 0, .leaf 1])]

example : Sensible Ex.linking World.init ∧ Uses (history Ex.linking World.init).sizes .resolve ∧ (Op.resolve.run (history Ex.linking World.init)).1.toOption = some () := by
  have h : ∀ (s : Sizes) (p : APath) (m : MRef), p.model = some m → m < s.m → PathIn s p := fun s p m h k x hx => by rw [h] at hx; cases hx; exact k
  refine ⟨⟨⟨fun c hc => (by cases hc), fun _ h => by cases h⟩, ⟨by decide +kernel, trivial⟩, ⟨fun c hc => ?_, fun _ h => by cases h⟩, ⟨by decide +kernel, trivial⟩,
    ⟨(show 0 < _ by decide +kernel), by decide +kernel, (show 0 < _ by decide +kernel), (show 1 < _ by decide +kernel), fun _ h => by cases h⟩, ?_, trivial⟩, trivial, by decide +kernel⟩
  · rw [List.mem_singleton.mp hc]
    exact ⟨pathIn_own _ _, h _ _ 0 rfl (by decide +kernel)⟩
  · show TreeIn _ _
    rw [TreeIn, TreesIn, TreesIn, TreesIn, TreeIn, TreeIn]
    exact ⟨by decide +kernel, by decide +kernel, trivial⟩

/-- A call that passes a model that does not exist is the only way to meet one. -/
example : (Op.run (.call 2) (history Ex.linking World.init)).1 = .error noObject := rfl

end Sloth
