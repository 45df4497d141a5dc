import Verif.Props.Results

/-!
# The function given to the integrator (C50)
-/

namespace Sloth
open PyS

section
variable {K : Type} [Field K] [LinearOrder K]

/-! ## Explicit differential equations -/

/-- The statement is `Diff(x, ...) == ...`, with `x` unspecified. -/
inductive Spec.Explicit : Stmt → String → Prop
  | eqn (r : Ref) (q : Quantity) (ind : Option (Ref × Quantity)) (f : PyExpr) (h : q.isSpecified = false) :
      Explicit (.eqn (.diff r q ind) f) q.name
  | num (r : Ref) (q : Quantity) (ind : Option (Ref × Quantity)) (c : ℚ) (h : q.isSpecified = false) :
      Explicit (.eqnNum (.diff r q ind) c) q.name

/-- The expressions on the right of a statement. -/
def Spec.rhsParts : Stmt → List PyExpr
  | .eqn _ r => [r]
  | .eqnNum _ _ | .res _ => []

/-- The two sides kept by the equation object are those of the statement. -/
def EqObj.Sides (e : EqObj) (st : Stmt) : Prop :=
  ∃ a tag e0 e1, st.arg = .ok a ∧ EqObj.setResidual tag e0 a = (.ok (), e1) ∧ e.elem = e1.elem

theorem finish_elem {e e' : EqObj} {u : Unit} (h : e.finish = (.ok u, e')) : e'.elem = e.elem := by
  unfold EqObj.finish at h
  split at h
  · simp only [Prod.mk.injEq] at h; rw [← h.2]
  · simp at h

/-- What the equation object of an explicit differential equation keeps. -/
theorem explicit_sides {e : EqObj} {st : Stmt} {x : String} (hx : Spec.Explicit st x) (h : e.Sides st) :
    ∃ l n i, e.elem = some (l, n) ∧ l.sym = ⟨false, .atom (.d x i)⟩ ∧ dkeys l.symMap = [x] ∧
      (n.sym.expr.hasD = true → ∃ f ∈ Spec.rhsParts st, Spec.hasDeriv f = true) ∧
      (∀ s ∈ n.sym.expr.free, ∃ f ∈ Spec.rhsParts st, ∃ p ∈ Spec.quantities f, p.2.isSpecified = false ∧ p.2.name = s) ∧
      ∀ (I : Interp K) (ρ : Atom → K), n.sym.expr.eval I ρ = Spec.sideVal I ρ .rhs st := by
  obtain ⟨a, tag, e0, e1, ha, hs, he⟩ := h
  rw [he]
  cases hx with
  | eqn r q ind f hq =>
    simp only [Stmt.arg, bind_eq_ok, Except.ok.injEq] at ha
    obtain ⟨nl, hl, nr, hr, rfl⟩ := ha
    obtain ⟨d1, d2, d3, d4, d5⟩ := diff_node (show q.diff r ind = .ok nl from hl)
    have hel : e1.elem = some (nl, nr) := by
      simp only [EqObj.setResidual] at hs
      split at hs
      · simp at hs
      · rw [finish_elem hs]
    obtain ⟨b1, b2, b3, b4⟩ := build_free f hr
    refine ⟨nl, nr, indName q ind, hel, by rw [d1, hq]; rfl, by rw [d3]; rfl, fun hd => ⟨f, by simp [Spec.rhsParts], b3 hd⟩, ?_, ?_⟩
    · intro s hs
      obtain ⟨p, hp, hp'⟩ := ((expr_names_partial f hr s).2).mp ((b1 s).mp hs)
      exact ⟨f, by simp [Spec.rhsParts], p, hp, hp'⟩
    · intro I ρ; exact expr_value I ρ f hr
  | num r q ind c hq =>
    simp only [Stmt.arg, bind_eq_ok, Except.ok.injEq] at ha
    obtain ⟨nl, hl, rfl⟩ := ha
    obtain ⟨d1, d2, d3, d4, d5⟩ := diff_node (show q.diff r ind = .ok nl from hl)
    have hel : e1.elem = some (nl, EqObj.numNode tag c nl.unit) := by
      simp only [EqObj.setResidual] at hs
      split at hs
      · simp at hs
      · rw [finish_elem hs]
    exact ⟨nl, _, indName q ind, hel, by rw [d1, hq]; rfl, by rw [d3]; rfl, by simp [EqObj.numNode, SObj.num, Sym.hasD],
      by simp [EqObj.numNode, SObj.num, Sym.free], fun I ρ => rfl⟩

/-! ## Systems -/

/-- Times whose name reaches the right sides: see `Spec.TimeSeen`. -/
def Spec.seen (ext : Ext K) (w : World) (b : Block) (n : String) : Prop := Spec.TimeSeen ext.sr w b.equations [n]

/-- The differential equations of the block state the system `sys`: pairs of the unknown differentiated and the whole statement. -/
structure Spec.OdeSystem (ext : Ext K) (w : World) (b : Block) (times : List String) (sys : List (String × Stmt)) : Prop where
  parts : Spec.Partition w.es b
  states : List.Forall₂ (fun r p => ∃ e, w.es[r]? = some e ∧ Spec.Explicit p.2 p.1 ∧ e.Sides p.2) b.differential sys
  distinct : (sys.map Prod.fst).Nodup
  time : w.pr.timeName = some times
  /-- no derivative on the right -/
  explicit : ∀ p ∈ sys, ∀ f ∈ Spec.rhsParts p.2, Spec.hasDeriv f = false
  /-- only unknowns of the system, time, and specified quantities on the right -/
  closed : ∀ p ∈ sys, ∀ f ∈ Spec.rhsParts p.2, ∀ q ∈ Spec.quantities f, q.2.isSpecified = false →
    q.2.name ∈ sys.map Prod.fst ∨ (q.2.name ∈ times ∧ Spec.seen ext w b q.2.name)

/-- What compilation needs besides: the unknowns of the block are those of the system and time. -/
structure Spec.Compilable (ext : Ext K) (w : World) (b : Block) (times : List String) (sys : List (String × Stmt)) : Prop where
  whole : b.problemType = some .differential
  distinct : b.varList.Nodup
  exactly : ∀ n, n ∈ b.varList ↔ n ∈ sys.map Prod.fst ∨ (n ∈ times ∧ Spec.seen ext w b n)

/-- An assignment is that of the state `Y` at time `t`. -/
structure Spec.AtState (ys : List String) (times : List String) (Y : List K) (t : K) (ρ : Atom → K) : Prop where
  state : ∀ (i : Nat) n, ys[i]? = some n → Y[i]? = some (ρ (.v n))
  time : ∀ n ∈ times, ρ (.v n) = t

/-! ## Values -/

/-- The value of an expression without derivatives only depends on its symbols. -/
theorem Sym.eval_congr (I : Interp K) {ρ σ : Atom → K} (a : Sym) (hd : a.hasD = false) (h : ∀ s ∈ a.free, ρ (.v s) = σ (.v s)) :
    a.eval I ρ = a.eval I σ := by
  induction a with
  | num q => rfl
  | atom b =>
    cases b with
    | v s => simp only [Sym.eval]; rw [h s (by simp [Sym.free])]
    | d x t => simp [Sym.hasD] at hd
  | fn f a ih => simp only [Sym.eval]; rw [ih hd h]
  | add a b iha ihb | sub a b iha ihb | mul a b iha ihb | div a b iha ihb | pow a b iha ihb | mm _ a b iha ihb =>
    simp only [Sym.hasD, Bool.or_eq_false_iff] at hd
    simp only [Sym.free, List.mem_append] at h
    simp only [Sym.eval]
    rw [iha hd.1 (fun s hs => h s (Or.inl hs)), ihb hd.2 (fun s hs => h s (Or.inr hs))]

open Classical in
theorem addTimes_ok {sr : SRepr} {w : World} {b : Block} (hp : Spec.Partition w.es b) (t : K) (ns : List String) (d : Dict String K) :
    ∃ m, addTimes sr w.es b t ns d = .ok m ∧
      ∀ s, dget m s = if s ∈ ns ∧ Spec.TimeSeen sr w b.equations [s] then some t else dget d s := by
  induction ns generalizing d with
  | nil => exact ⟨d, rfl, fun s => by simp⟩
  | cons n ns ih =>
    obtain ⟨v, hv, hv'⟩ := timeDeclared_iff (sr := sr) hp (names := [n])
    obtain ⟨m, hm, hm'⟩ := ih (if v then dset d n t else d)
    refine ⟨m, by unfold addTimes; rw [hv, ok_bind]; exact hm, fun s => ?_⟩
    rw [hm']
    by_cases hs : s ∈ ns ∧ Spec.TimeSeen sr w b.equations [s]
    · rw [if_pos hs, if_pos ⟨List.mem_cons_of_mem _ hs.1, hs.2⟩]
    · rw [if_neg hs]
      by_cases hn : s = n
      · subst hn
        cases v with
        | true =>
          have hc : s ∈ s :: ns ∧ Spec.TimeSeen sr w b.equations [s] := ⟨by simp, hv'.mp rfl⟩
          simp [hc.2]
        | false =>
          have hc : ¬ Spec.TimeSeen sr w b.equations [s] := fun h2 => absurd (hv'.mpr h2) (by simp)
          simp [hc]
      · have hc : ¬ (s ∈ n :: ns ∧ Spec.TimeSeen sr w b.equations [s]) := fun ⟨h1, h2⟩ => hs ⟨(List.mem_cons.mp h1).resolve_left hn, h2⟩
        rw [if_neg hc]
        cases v
        · rfl
        · exact dget_dset_ne _ _ (fun h => hn h.symm)

theorem setUpDiffY_ok {es : List EqObj} {l : List ERef} {sys : List (String × Stmt)}
    (h : List.Forall₂ (fun r p => ∃ e, es[r]? = some e ∧ Spec.Explicit p.2 p.1 ∧ e.Sides p.2) l sys) (acc : Dict String Ref)
    (hn : (dkeys acc ++ sys.map Prod.fst).Nodup) :
    ∃ d, l.foldlM (fun acc r => match es[r]? with
      | none => .error (.exception "dangling")
      | some e => match e.elem with
        | none => .error .typeError
        | some p => .ok (dupdate acc p.1.symMap)) acc = (Except.ok d : Except Err _) ∧ dkeys d = dkeys acc ++ sys.map Prod.fst := by
  induction h generalizing acc with
  | nil => exact ⟨acc, rfl, by simp⟩
  | @cons r p l sys hr _ ih =>
    obtain ⟨e, he, hx, hs⟩ := hr
    obtain ⟨ln, n, i, hel, _, hk, _⟩ := explicit_sides (K := ℚ) hx hs
    have hk' : dkeys (dupdate acc ln.symMap) = dkeys acc ++ [p.1] := by
      have : ∃ v, ln.symMap = [(p.1, v)] := by
        cases hln : ln.symMap with
        | nil => rw [hln] at hk; simp [dkeys] at hk
        | cons a t =>
          rw [hln] at hk
          simp only [dkeys_cons, List.cons.injEq] at hk
          cases t with
          | nil => exact ⟨a.2, by rw [← hk.1]⟩
          | cons b u => simp [dkeys] at hk
      obtain ⟨v, hv⟩ := this
      rw [hv, dupdate_cons, dupdate_nil, dkeys_dset]
      rw [if_neg]
      intro hm
      exact (List.nodup_append.1 hn).2.2 p.1 hm p.1 (by simp) rfl
    obtain ⟨d, hd, hd'⟩ := ih (dupdate acc ln.symMap) (by rw [hk']; simpa using hn)
    refine ⟨d, ?_, by rw [hd', hk']; simp⟩
    rw [List.foldlM_cons, he]
    simp only [hel, ok_bind]
    exact hd

theorem diffYinOrder_ok {ext : Ext K} {es : List EqObj} {l : List ERef} {sys : List (String × Stmt)}
    (h : List.Forall₂ (fun r p => ∃ e, es[r]? = some e ∧ Spec.Explicit p.2 p.1 ∧ e.Sides p.2) l sys) :
    diffYinOrder ext es l = .ok (sys.map Prod.fst) := by
  unfold diffYinOrder
  induction h with
  | nil => rfl
  | @cons r p l sys hr _ ih =>
    obtain ⟨e, he, hx, hs⟩ := hr
    obtain ⟨ln, n, i, hel, hsym, _⟩ := explicit_sides (K := ℚ) hx hs
    rw [List.mapM_cons, ih, he]
    simp only [hel, hsym]
    rfl

/-- What the creation of a `DSolver` leaves. -/
theorem dInit_ok {sv : CVal} {conf : Conf} {s s' : SimWorld K} {o : DObj} (h : dInit sv conf s = (.ok o, s')) :
    s'.w = s.w ∧ ∃ b dy, s.w.pr.block = some b ∧ setUpDiffY s.w.es b.differential = .ok dy ∧ o.diffSystem = b.differential ∧
      o.diffY = dkeys dy ∧ o.solver = sv ∧ dgetE conf "domain" = .ok o.domain ∧ dgetE conf "times_for_solution" = .ok o.times ∧
      (o.compiled = none ∨ ∃ l, Block.getEquationList s.w.es (some .elementary) .rhs b.equations = .ok l ∧ o.compiled = some (b.varList, l)) ∧
      (dgetE conf "compile_equations" = .ok (.bool false) → o.compiled = none) := by
  have hw : s'.w = s.w := by
    have := keeps_dInit (f := fun s => s.w) (fun _ _ => rfl) sv conf s
    rw [h] at this; exact this
  refine ⟨hw, ?_⟩
  unfold dInit at h
  simp only [bind_ok, lift_ok, getBlock_ok] at h
  obtain ⟨dom, s1, ⟨hdom, rfl⟩, ts, s2, ⟨hts, rfl⟩, tvn, s3, ⟨htvn, rfl⟩, args, s4, ⟨hargs, rfl⟩, sg, s5, hget, has, s6, ⟨hhas, rfl⟩,
    u1, s7, hwh, u2, s8, happ, b, s9, ⟨hb, rfl⟩, dy, s10, ⟨hdy, rfl⟩, cm, s11, ⟨hcm, rfl⟩, c, s12, ⟨hc, rfl⟩, f, s13, hf, ho⟩ := h
  simp only [PyS.get, Prod.mk.injEq, Except.ok.injEq] at hget
  obtain ⟨rfl, rfl⟩ := hget
  have e7 : s7.w = s4.w := by
    have := Keeps.when (b := !has) (Keeps.raise (fun s : SimWorld K => s.w) Err.absentRequiredObject (α := Unit)) s4
    rw [hwh] at this; exact this
  have e8 : s12.w = s4.w := by
    have := keeps_appendArg (f := fun s : SimWorld K => s.w) (fun _ _ => rfl) tvn args s7
    rw [happ] at this; exact this.trans e7
  simp only [Pure.pure, PyS.pure, Prod.mk.injEq, Except.ok.injEq] at ho
  obtain ⟨rfl, rfl⟩ := ho
  rw [e8] at hb
  refine ⟨b, dy, hb, hdy, rfl, rfl, rfl, hdom, hts, ?_, fun hcf => ?_⟩
  rotate_left
  · rw [hc] at hcf
    cases hcf
    unfold compileIf at hf
    rw [if_neg (by simp)] at hf
    simp only [PyS.pure, Prod.mk.injEq, Except.ok.injEq] at hf
    exact hf.1.symm
  unfold compileIf at hf
  split at hf
  · simp only [bind_ok, lift_ok] at hf
    obtain ⟨sg, s14, hget, l, s15, ⟨hl, rfl⟩, hf⟩ := hf
    simp only [PyS.get, Prod.mk.injEq, Except.ok.injEq] at hget
    obtain ⟨rfl, rfl⟩ := hget
    simp only [Pure.pure, PyS.pure, Prod.mk.injEq, Except.ok.injEq] at hf
    unfold Block.elementary at hl
    simp only [bind_eq_ok, Except.ok.injEq] at hl
    obtain ⟨l', hl, rfl⟩ := hl
    rw [e8] at hl
    exact Or.inr ⟨l', hl, hf.1.symm⟩
  · simp only [PyS.pure, Prod.mk.injEq, Except.ok.injEq] at hf
    exact Or.inl hf.1.symm

/-! ## C50 -/

/-- The right side in a node of an equation of the system. -/
def Spec.IsRhs (ext : Ext K) (w : World) (b : Block) (times : List String) (sys : List (String × Stmt)) (n : SObj) (p : String × Stmt) : Prop :=
  n.expr.hasD = false ∧ (∀ s ∈ n.expr.free, s ∈ sys.map Prod.fst ∨ (s ∈ times ∧ Spec.seen ext w b s)) ∧
    ∀ (I : Interp K) (ρ : Atom → K), n.expr.eval I ρ = Spec.sideVal I ρ .rhs p.2

theorem OdeSystem.rhs {ext : Ext K} {w : World} {b : Block} {times : List String} {sys : List (String × Stmt)}
    (h : Spec.OdeSystem ext w b times sys) :
    List.Forall₂ (fun r p => ∃ e l n, w.es[r]? = some e ∧ e.elem = some (l, n) ∧ Spec.IsRhs ext w b times sys n.sym p) b.differential sys := by
  have gen : ∀ (l : List ERef) (t : List (String × Stmt)), (∀ p ∈ t, p ∈ sys) →
      List.Forall₂ (fun r p => ∃ e, w.es[r]? = some e ∧ Spec.Explicit p.2 p.1 ∧ e.Sides p.2) l t →
      List.Forall₂ (fun r p => ∃ e l n, w.es[r]? = some e ∧ e.elem = some (l, n) ∧ Spec.IsRhs ext w b times sys n.sym p) l t := by
    intro l t ht hf
    induction hf with
    | nil => exact .nil
    | @cons r p l t hr _ ih =>
      refine .cons ?_ (ih fun q hq => ht q (List.mem_cons_of_mem _ hq))
      obtain ⟨e, he, hx, hs⟩ := hr
      obtain ⟨ln, n, i, hel, _, _, hd, hfr, hv⟩ := explicit_sides (K := K) hx hs
      have hp := ht p (by simp)
      refine ⟨e, ln, n, he, hel, ?_, ?_, hv⟩
      · by_contra hc
        obtain ⟨f, hf, hf'⟩ := hd (by simpa using hc)
        rw [h.explicit p hp f hf] at hf'; cases hf'
      · intro s hs'
        obtain ⟨f, hf, q, hq, hq1, rfl⟩ := hfr s hs'
        exact h.closed p hp f hf q hq hq1
  exact gen _ _ (fun _ hp => hp) h.states

theorem forall2_compose {α β γ : Type} {R : α → β → Prop} {S : α → γ → Prop} {l : List α} {m : List β} {k : List γ}
    (h : List.Forall₂ R l m) (h' : List.Forall₂ S l k) : List.Forall₂ (fun b c => ∃ a, R a b ∧ S a c) m k := by
  induction h generalizing k with
  | nil => cases h'; exact .nil
  | cons hr _ ih => cases h' with
    | cons hs ht => exact .cons ⟨_, hr, hs⟩ (ih ht)

theorem forall2_map {α β γ : Type} {R : α → β → Prop} {f : α → γ} {g : β → γ} {l : List α} {m : List β}
    (h : List.Forall₂ R l m) (hfg : ∀ a b, R a b → f a = g b) : l.map f = m.map g := by
  induction h with
  | nil => rfl
  | cons hr _ ih => rw [List.map_cons, List.map_cons, hfg _ _ hr, ih]

theorem forall2_mapM {α β γ : Type} {R : α → β → Prop} {f : α → Except Err γ} {g : β → γ} {l : List α} {m : List β}
    (h : List.Forall₂ R l m) (hfg : ∀ a b, R a b → f a = .ok (g b)) : l.mapM f = .ok (m.map g) := by
  induction h with
  | nil => rfl
  | cons hr _ ih => rw [List.mapM_cons, hfg _ _ hr, ih]; rfl

/-- A purely differential block consists of its differential group. -/
theorem differential_whole {es : List EqObj} {b : Block} (h : Spec.Partition es b) (hk : b.problemType = some .differential) :
    b.equations = b.differential := by
  unfold Block.problemType at hk
  simp only at hk
  split at hk
  · next hc =>
    simp only [Bool.and_eq_true, Bool.not_eq_true', Bool.or_eq_false_iff, Bool.not_eq_false', List.isEmpty_iff] at hc
    obtain ⟨_, ⟨h1, _⟩, h2⟩ := hc
    have hp := h.perm
    rw [h1, h2] at hp
    exact (h.differentialSub.eq_of_length hp.length_eq).symm
  · split at hk
    · simp at hk
    · split at hk
      · simp at hk
      · split at hk <;> simp at hk

open Classical in
/-- The values the code computes with at a state and time. -/
theorem stateMap_ok {ext : Ext K} {w : World} {b : Block} {times : List String} {sys : List (String × Stmt)}
    (h : Spec.OdeSystem ext w b times sys) {Y : List K} {t : K} {ρ : Atom → K} (hρ : Spec.AtState (sys.map Prod.fst) times Y t ρ) :
    ∃ m, stateMap ext.sr w.es b w.pr.timeName (sys.map Prod.fst) Y t = .ok m ∧
      ∀ s, dget m s = if s ∈ sys.map Prod.fst ∨ (s ∈ times ∧ Spec.seen ext w b s) then some (ρ (.v s)) else none := by
  obtain ⟨m, hm, hm'⟩ := addTimes_ok (sr := ext.sr) h.parts t times (dofList ((sys.map Prod.fst).zip Y))
  refine ⟨m, by simp only [stateMap, h.time]; exact hm, fun s => ?_⟩
  rw [hm']
  have hz := reports_zip h.distinct Y
  by_cases ht : s ∈ times ∧ Spec.seen ext w b s
  · rw [if_pos (show s ∈ times ∧ Spec.TimeSeen ext.sr w b.equations [s] from ht), if_pos (Or.inr ht), hρ.time s ht.1]
  · rw [if_neg (show ¬ (s ∈ times ∧ Spec.TimeSeen ext.sr w b.equations [s]) from ht)]
    by_cases hy : s ∈ sys.map Prod.fst
    · rw [if_pos (Or.inl hy)]
      obtain ⟨i, hi⟩ := List.mem_iff_getElem?.mp hy
      rw [hz.at_ i s hi, hρ.state i s hi]
    · rw [if_neg (by tauto), hz.only s hy]

theorem extendKeys_same {s : SimWorld K} {b : Block} (hb : s.w.pr.block = some b) {m : Dict String K} (h : ∀ k ∈ dkeys m, k ∈ b.varList) :
    extendKeys m s = (.ok b.varList, s) := by
  have hf : ((dkeys m).filter fun k => !b.varList.contains k) = [] := by
    rw [List.filter_eq_nil_iff]
    intro k hk
    simp [h k hk]
  unfold extendKeys
  rw [bind_of_ok (getBlock_ok.mpr ⟨hb, rfl⟩)]
  simp only [hf, List.append_nil]
  rw [bind_modify]
  have : ({ s with w := { s.w with pr := { s.w.pr with block := some b } } } : SimWorld K) = s := by rw [← hb]
  exact congrArg (fun z => ((Except.ok b.varList : Except Err _), z)) this

theorem mapM_ok_map {α γ : Type} {f : α → Except Err γ} {g : α → γ} {l : List α} (h : ∀ a ∈ l, f a = .ok (g a)) : l.mapM f = .ok (l.map g) := by
  induction l with
  | nil => rfl
  | cons a t ih => rw [List.mapM_cons, h a (by simp), ih fun x hx => h x (List.mem_cons_of_mem _ hx)]; rfl

theorem dget_zip_map {ks : List String} (f : String → K) {k : String} (h : k ∈ ks) : dget (ks.zip (ks.map f)) k = some (f k) := by
  induction ks with
  | nil => simp at h
  | cons a t ih =>
    simp only [List.map_cons, List.zip_cons_cons, dget_cons]
    by_cases ha : a = k
    · subst ha; simp
    · simp only [ha, if_false]
      exact ih ((List.mem_cons.mp h).resolve_left (fun h => ha h.symm))

theorem dvalues_zip_map {ks : List String} (h : ks.Nodup) (f : String → K) : dvalues (dofList (ks.zip (ks.map f))) = ks.map f := by
  rw [dofList_of_nodup (show DNodup _ from h.sublist (dkeys_zip_sublist _ _))]
  clear h
  induction ks with
  | nil => rfl
  | cons a t ih => simpa [dvalues] using ih

/-- C50 (partial): for a system of explicit differential equations the function handed to the integrator returns, for every state
and time, the values of the stated right sides, in the order of the vector of initial values, and changes nothing.  Missing: systems outside
`Spec.OdeSystem` and, when compiled, `Spec.Compilable`; see the counterexamples below. -/
theorem ode_function_partial {ext : Ext K} {I : Interp K} {sv : CVal} {conf : Conf} {s s' : SimWorld K} {o : DObj}
    (h : dInit sv conf s = (.ok o, s')) {b : Block} (hb : s.w.pr.block = some b) {times : List String} {sys : List (String × Stmt)}
    (hsys : Spec.OdeSystem ext s.w b times sys) (hc : o.compiled = none ∨ Spec.Compilable ext s.w b times sys) :
    diffYinOrder ext s'.w.es o.diffSystem = .ok (sys.map Prod.fst) ∧
    ∀ (s'' : SimWorld K), s''.w = s'.w → ∀ (Y : List K) (t : K) (ρ : Atom → K), Spec.AtState (sys.map Prod.fst) times Y t ρ →
      o.rhs ext I Y t s'' = (.ok (sys.map fun p => Spec.sideVal I ρ .rhs p.2), s'') := by
  classical
  obtain ⟨hw, b', dy, hb', hdy, hds, hdY, _, _, _, hcomp, _⟩ := dInit_ok h
  obtain rfl : b = b' := Option.some.inj (hb.symm.trans hb')
  have hy : o.diffY = sys.map Prod.fst := by
    obtain ⟨d, hd, hd'⟩ := setUpDiffY_ok hsys.states [] (by simpa [dkeys] using hsys.distinct)
    have : setUpDiffY s.w.es b.differential = .ok d := hd
    rw [hdy] at this
    cases this
    rw [hdY, hd']; rfl
  refine ⟨by rw [hw, hds]; exact diffYinOrder_ok hsys.states, fun s'' hs'' Y t ρ hρ => ?_⟩
  rw [hw] at hs''
  have hb'' : s''.w.pr.block = some b := by rw [hs'']; exact hb
  obtain ⟨m, hm, hm'⟩ := stateMap_ok hsys hρ
  have hkey : ∀ k, k ∈ dkeys m ↔ k ∈ sys.map Prod.fst ∨ (k ∈ times ∧ Spec.seen ext s.w b k) := by
    intro k
    rw [← dget_isSome_iff, hm' k]
    by_cases hk : k ∈ sys.map Prod.fst ∨ (k ∈ times ∧ Spec.seen ext s.w b k)
    · rw [if_pos hk]; exact iff_of_true rfl hk
    · rw [if_neg hk]; exact iff_of_false (by simp) hk
  have hrhs := OdeSystem.rhs hsys
  unfold DObj.rhs
  rw [bind_get, bind_of_ok (getBlock_ok.mpr ⟨hb'', rfl⟩), bind_lift_ok (by rw [hs'', hy]; exact hm)]
  rcases hcomp with hn | ⟨exprs, hl, hn⟩
  · rw [hn]
    simp only [lift, hs'', hds, evalSystem]
    congr 1
    refine forall2_mapM hrhs ?_
    rintro r p ⟨e, l, n, he, hel, hd, hf, hv⟩
    simp only [he, EqObj.evalRhs, EqObj.sideNode, hel, ok_bind]
    have hall : (!n.sym.expr.hasD && n.sym.expr.free.all fun s => (dget m s).isSome) = true := by
      simp only [hd, Bool.not_false, Bool.true_and, List.all_eq_true]
      intro k hk
      rw [hm' k, if_pos (hf k hk)]; rfl
    rw [if_pos hall, ← hv I ρ]
    congr 1
    refine Sym.eval_congr I _ hd fun k hk => ?_
    simp only [hm' k, if_pos (hf k hk), Option.getD_some]
  · rw [hn] at hc ⊢
    obtain ⟨c1, c2, c3⟩ := hc.resolve_left (by simp)
    have hks : ∀ k ∈ dkeys m, k ∈ b.varList := fun k hk => (c3 k).mpr ((hkey k).mp hk)
    simp only
    rw [bind_of_ok (extendKeys_same hb'' hks)]
    have hvals : b.varList.mapM (fun k => dgetE m k) = .ok (b.varList.map fun k => ρ (.v k)) := by
      refine mapM_ok_map fun k hk => ?_
      rw [dgetE, hm' k, if_pos ((c3 k).mp hk)]
    rw [bind_lift_ok hvals, dvalues_zip_map c2]
    have hl' := getEquationList_ok hl
    rw [differential_whole hsys.parts c1] at hl'
    have hx := forall2_compose hl' hrhs
    have hx' : List.Forall₂ (Spec.IsRhs ext s.w b times sys) exprs sys := by
      refine List.Forall₂.imp ?_ hx
      rintro x p ⟨r, ⟨e, he, hse⟩, e', l, n, he', hel, hr⟩
      rw [he] at he'; cases he'
      simp only [EqObj.symbolicObject, EqObj.getNode, Option.getD_some, hel, ok_bind, Except.ok.injEq] at hse
      rw [← hse]; exact hr
    have hall : (exprs.all fun x => !x.expr.hasD && x.expr.free.all fun n => b.varList.contains n) = true := by
      rw [List.all_eq_true]
      intro x hxm
      obtain ⟨i, hi⟩ := List.mem_iff_get.mp hxm
      have hr := hx'.get i.2 (hx'.length_eq ▸ i.2)
      rw [show exprs.get ⟨i.1, i.2⟩ = x from hi] at hr
      simp only [hr.1, Bool.not_false, Bool.true_and, List.all_eq_true, List.contains_iff_mem]
      exact fun k hk => (c3 k).mpr (hr.2.1 k hk)
    simp only [lambdify, lift, List.length_map, if_true]
    rw [if_pos hall]
    congr 2
    refine forall2_map hx' ?_
    rintro x p ⟨hd, hf, hv⟩
    rw [← hv I ρ]
    refine Sym.eval_congr I _ hd fun k hk => ?_
    simp only [dget_zip_map _ ((c3 k).mpr (hf k hk)), Option.getD_some]

/-! ## C50: integration -/

/-- The library run with a mathematical function. -/
def Prog.answer {Q A R : Type} (g : Q → A) : Prog Q A R → Except Err R
  | .ret r => .ok r
  | .fail e => .error e
  | .ask q k => (k (g q)).answer g

/-- Every question of the library is admissible, as long as the answers are. -/
inductive Prog.Asks {Q A R : Type} (P : Q → Prop) (T : Q → A → Prop) : Prog Q A R → Prop
  | ret (r : R) : Asks P T (.ret r)
  | fail (e : Err) : Asks P T (.fail e)
  | ask (q : Q) (k : A → Prog Q A R) (hq : P q) (h : ∀ a, T q a → Asks P T (k a)) : Asks P T (.ask q k)

theorem run_answer {Q A R : Type} {P : Q → Prop} {T : Q → A → Prop} {p : Prog Q A R} (hp : p.Asks P T) {f : Q → PyS K A} {g : Q → A}
    {s : SimWorld K} (hg : ∀ q, P q → T q (g q) ∧ f q s = (.ok (g q), s)) : p.run f s = (p.answer g, s) := by
  induction hp with
  | ret r => rfl
  | fail e => rfl
  | ask q k hq _ ih =>
    obtain ⟨h1, h2⟩ := hg q hq
    unfold Prog.run PyS.bind
    rw [h2]
    exact ih (g q) h1

/-- The assignment of a state and a time; names outside are 0. -/
def Spec.odeEnv (ys times : List String) (Y : List K) (t : K) : Atom → K
  | .v n => match dget (ys.zip Y) n with
    | some y => y
    | none => if times.contains n then t else 0
  | .d _ _ => 0

theorem odeEnv_at {ys times : List String} (hn : ys.Nodup) (hd : ∀ n ∈ times, n ∉ ys) {Y : List K} (hl : Y.length = ys.length) (t : K) :
    Spec.AtState ys times Y t (Spec.odeEnv ys times Y t) := by
  constructor
  · intro i n hi
    have h := dget_zip hn Y hi
    have hlt : i < Y.length := hl ▸ (List.getElem?_eq_some_iff.mp hi).1
    rw [List.getElem?_eq_getElem hlt] at h
    simp only [Spec.odeEnv, h, List.getElem?_eq_getElem hlt]
  · intro n hm
    have : dget (ys.zip Y) n = none := by
      rw [dget_eq_none_iff]; exact fun h => hd n hm ((dkeys_zip_sublist ys Y).subset h)
    simp [Spec.odeEnv, this, hm]

/-- The system as a mathematical function of state and time. -/
def Spec.field (I : Interp K) (times : List String) (sys : List (String × Stmt)) (q : List K × K) : List (Option K) :=
  sys.map fun p => Spec.sideVal I (Spec.odeEnv (sys.map Prod.fst) times q.1 q.2) .rhs p.2

/-- The library keeps to states with as many components as the initial one. -/
def Spec.Wellbehaved (ext : Ext K) : Prop := ∀ y0 tp : List K,
  (ext.odeint y0 tp).Asks (fun q => q.1.length = y0.length) (fun _ a => a.length = y0.length) ∧
  (ext.cvode y0 tp).Asks (fun q => q.1.length = y0.length) (fun _ a => a.length = y0.length)

/-- What the integrator says about the initial value problem. -/
def Spec.integral (ext : Ext K) (g : List K × K → List (Option K)) (y0 tp : List K) : CVal → Except Err (List K × List (List K))
  | .none | .str "ODEINT" => match (ext.odeint y0 tp).answer g with
    | .ok Y => .ok (tp, Y)
    | .error e => .error e
  | .str "CVODE" => (ext.cvode y0 tp).answer g
  | _ => .error .valueError

theorem integrate_eq {ext : Ext K} {I : Interp K} {o : DObj} {y0 tp : List K} {g : List K × K → List (Option K)} (hw : Spec.Wellbehaved ext)
    {s : SimWorld K}
    (hg : ∀ (s' : SimWorld K), s'.w = s.w → ∀ q, q.1.length = y0.length → (g q).length = y0.length ∧ o.rhs ext I q.1 q.2 s' = (.ok (g q), s')) :
    ∃ s', s'.w = s.w ∧ s'.sims = s.sims ∧ s'.doms = s.doms ∧ integrate ext I o y0 tp s = (Spec.integral ext g y0 tp o.solver, s') := by
  have ho : (do
      called Routine.odeint
      let Y ← (ext.odeint y0 tp).run fun q => o.rhs ext I q.1 q.2
      PyS.pure (tp, Y) : PyS K _) s =
      (match (ext.odeint y0 tp).answer g with
        | .ok Y => .ok (tp, Y)
        | .error e => .error e, { s with log := s.log ++ [Routine.odeint] }) := by
    have := run_answer (hw y0 tp).1 (hg { s with log := s.log ++ [Routine.odeint] } rfl)
    rw [called, bind_modify]
    cases ha : (ext.odeint y0 tp).answer g with
    | ok Y => rw [ha] at this; rw [bind_of_ok this]; rfl
    | error e => rw [ha] at this; rw [bind_of_error this]
  have hcv : (do
      called Routine.cvode
      (ext.cvode y0 tp).run fun q => o.rhs ext I q.1 q.2 : PyS K _) s =
      ((ext.cvode y0 tp).answer g, { s with log := s.log ++ [Routine.cvode] }) := by
    rw [called, bind_modify]
    exact run_answer (hw y0 tp).2 (hg { s with log := s.log ++ [Routine.cvode] } rfl)
  by_cases h1 : o.solver = .none
  · refine ⟨{ s with log := s.log ++ [Routine.odeint] }, rfl, rfl, rfl, ?_⟩
    unfold integrate; rw [h1]; exact ho
  by_cases h2 : o.solver = .str "ODEINT"
  · refine ⟨{ s with log := s.log ++ [Routine.odeint] }, rfl, rfl, rfl, ?_⟩
    unfold integrate; rw [h2]; exact ho
  by_cases h3 : o.solver = .str "CVODE"
  · refine ⟨{ s with log := s.log ++ [Routine.cvode] }, rfl, rfl, rfl, ?_⟩
    unfold integrate; rw [h3]; exact hcv
  refine ⟨s, rfl, rfl, rfl, ?_⟩
  have e1 : integrate ext I o y0 tp = PyS.raise .valueError := by
    unfold integrate; split <;> first | contradiction | rfl
  have e2 : Spec.integral ext g y0 tp o.solver = .error .valueError := by
    unfold Spec.integral; split <;> first | contradiction | rfl
  rw [e1, e2]; rfl

/-- C50 (partial), the whole solution: the output of a dynamic run of such a system is what the chosen integrator makes of the stated
right sides, started at the declared initial values of the unknowns, at the configured times. -/
theorem ode_solution_partial {ext : Ext K} {I : Interp K} (hwell : Spec.Wellbehaved ext) {sv : CVal} {conf : Conf} {s s' : SimWorld K} {o : DObj}
    (h : dInit sv conf s = (.ok o, s')) {b : Block} (hb : s.w.pr.block = some b) {times : List String} {sys : List (String × Stmt)}
    (hsys : Spec.OdeSystem ext s.w b times sys) (hc : o.compiled = none ∨ Spec.Compilable ext s.w b times sys)
    (hdis : ∀ n ∈ times, n ∉ sys.map Prod.fst) {conf' : Conf} {s1 s2 : SimWorld K} (hs1 : s1.w = s'.w) {out : Output K}
    (hsol : dSolve ext I conf' o s1 = (.ok out, s2)) :
    ∃ (y0 : List ℚ) (tp T : List K) (Y : List (List K)), List.Forall₂ (fun p y => dget s.w.pr.initial p.1 = some y) sys y0 ∧
      (∃ a e n ts, dgetE conf' "initial_time" = .ok a ∧ dgetE conf' "end_time" = .ok e ∧ dgetE conf' "number_of_time_steps" = .ok n ∧
        dgetE conf' "times_for_solution" = .ok ts ∧ timePoints a e n (if o.times = .none then .none else ts) = .ok tp) ∧
      Spec.integral ext (Spec.field I times sys) (y0.map fun q : ℚ => (q : K)) tp sv = .ok (T, Y) ∧ out = .series T Y := by
  obtain ⟨hnames, hrhs⟩ := ode_function_partial (I := I) h hb hsys hc
  obtain ⟨hw, _, _, _, _, _, _, hsv, _⟩ := dInit_ok h
  unfold dSolve at hsol
  simp only [bind_ok, lift_ok] at hsol
  obtain ⟨_, t1, ⟨_, q1⟩, a, t2, ⟨ha, q2⟩, e, t3, ⟨he, q3⟩, n, t4, ⟨hn, q4⟩, ts, t5, ⟨hts, q5⟩, sg, s3, hget, names, t6, ⟨hnm, q6⟩, y0, t7, ⟨hy0, q7⟩,
    _, s4, hwh, tp, t8, ⟨htp, q8⟩, r, s5, hint, rows, t9, ⟨hrows, q9⟩, _, t10, ⟨_, q10⟩, _, s6, hrec, hout⟩ := hsol
  obtain rfl := q1.symm
  obtain rfl := q2.symm
  obtain rfl := q3.symm
  obtain rfl := q4.symm
  obtain rfl := q5.symm
  simp only [PyS.get, Prod.mk.injEq, Except.ok.injEq] at hget
  obtain ⟨e1, e2⟩ := hget
  obtain rfl := e1
  obtain rfl := e2
  obtain rfl := q6.symm
  obtain rfl := q7.symm
  have h4 : s4.w = s1.w := by
    have := Keeps.when (b := decide (n = .none)) (Keeps.raise (fun s : SimWorld K => s.w) Err.attributeError (α := Unit)) s1
    rw [hwh] at this; exact this
  obtain rfl := q8.symm
  obtain rfl := q9.symm
  obtain rfl := q10.symm
  rw [hs1, hnames] at hnm
  cases hnm
  rw [hs1, hw] at hy0
  have hy : List.Forall₂ (fun p y => dget s.w.pr.initial p.1 = some y) sys y0 := by
    clear hrhs hnames hsys hc hdis hint
    induction sys generalizing y0 with
    | nil => simp only [List.map_nil, List.mapM_nil] at hy0; cases hy0; exact .nil
    | cons p t ih =>
      rw [List.map_cons, List.mapM_cons] at hy0
      simp only [bind_eq_ok] at hy0
      obtain ⟨y, h1, ys, h2, h3⟩ := hy0
      cases h3
      refine .cons ?_ (ih _ h2)
      unfold dgetE at h1
      split at h1
      · next hv => cases h1; exact hv
      · cases h1
  have hlen : (y0.map fun q : ℚ => (q : K)).length = (sys.map Prod.fst).length := by simp [hy.length_eq]
  obtain ⟨s7, _, _, _, hi⟩ := integrate_eq (ext := ext) (I := I) (o := o) (y0 := y0.map fun q : ℚ => (q : K)) (tp := tp) (g := Spec.field I times sys)
    hwell (s := s4) (fun z hz q hq => ⟨by simp [Spec.field, hy.length_eq],
      hrhs z (hz.trans (h4.trans hs1)) q.1 q.2 _ (odeEnv_at hsys.distinct hdis (hq.trans hlen) q.2)⟩)
  rw [hi] at hint
  simp only [Prod.mk.injEq] at hint
  simp only [PyS.pure, Prod.mk.injEq, Except.ok.injEq] at hout
  rw [hsv] at hint
  exact ⟨y0, tp, r.1, r.2, hy, ⟨a, e, n, ts, ha, he, hn, hts, htp⟩, hint.1, hout.1.symm⟩

/-- C50 (partial) for a whole simulation: after a run of a purely differential problem that returns, the simulation holds what the chosen
integrator makes of the stated right sides, started at the declared initial values. -/
theorem ode_run_partial {ext : Ext K} {I : Interp K} (hwell : Spec.Wellbehaved ext) {i : SRef} {a : RunArgs} {s s' : SimWorld K}
    (h : runSimulation ext I i a s = (.ok (), s')) {b : Block} (hb : s.w.pr.block = some b) (hk : b.problemType = some .differential)
    {times : List String} {sys : List (String × Stmt)} (hsys : Spec.OdeSystem ext s.w b times sys) (hdis : ∀ n ∈ times, n ∉ sys.map Prod.fst)
    (hc : (∀ o c, s.sims[i]? = some o → o.conf = some c → dgetE c "compile_equations" = .ok (.bool false)) ∨ Spec.Compilable ext s.w b times sys) :
    ∃ (o o' : SimObj K) (c : Conf) (sv : CVal) (y0 : List ℚ) (tp T : List K) (Y : List (List K)),
      s.sims[i]? = some o ∧ o.conf = some c ∧ s'.sims[i]? = some o' ∧ o'.output = some (.series T Y) ∧ dgetE c "differential_solver" = .ok sv ∧
      List.Forall₂ (fun p y => dget s.w.pr.initial p.1 = some y) sys y0 ∧
      (∃ a e n ts, dgetE c "initial_time" = .ok a ∧ dgetE c "end_time" = .ok e ∧ dgetE c "number_of_time_steps" = .ok n ∧
        dgetE c "times_for_solution" = .ok ts ∧ timePoints a e n ts = .ok tp) ∧
      Spec.integral ext (Spec.field I times sys) (y0.map fun q : ℚ => (q : K)) tp sv = .ok (T, Y) := by
  obtain ⟨o, c, pt, b', sv, s1, s2, s3, ho, hcf, hpt, hb', hsv, hsan, hst, hep⟩ := run_parts h
  unfold createSolver at hsv
  simp only [bind_ok, lift_ok, getBlock_ok] at hsv
  obtain ⟨lin, _, ⟨_, rfl⟩, non, _, ⟨_, rfl⟩, dif, _, ⟨hdif, rfl⟩, dae, _, ⟨_, rfl⟩, b2, t, ⟨hb2, q⟩, hsv⟩ := hsv
  obtain rfl := q.symm
  obtain rfl : b = b2 := Option.some.inj (hb.symm.trans hb2)
  rw [hk] at hsv
  simp only [solverFor, bind_ok, PyS.pure, Prod.mk.injEq, Except.ok.injEq] at hsv
  obtain ⟨od, s1', hd, rfl, rfl⟩ := hsv
  have h2 : s2.w = s1'.w := by
    have := keeps_sanity (fun s => s.w) ext a.sanity s1'
    rw [hsan] at this; exact this
  obtain ⟨out, s4, o', d, hout, ho', hout', _⟩ := solveStore_ok hst
  obtain ⟨_, _, _, _, _, _, _, _, _, htimes, _, hnc⟩ := dInit_ok hd
  have hc' : od.compiled = none ∨ Spec.Compilable ext _ b times sys := hc.imp_left fun hh => hnc (hh o c ho hcf)
  obtain ⟨y0, tp, T, Y, r1, ⟨a', e, n, ts, u1, u2, u3, u4, u5⟩, r3, rfl⟩ := ode_solution_partial hwell hd hb hsys hc' hdis h2 hout
  rw [htimes] at u4
  cases u4
  have hts : (if od.times = .none then CVal.none else od.times) = od.times := by split <;> simp_all
  rw [hts] at u5
  have hs := epilogue_output hep
  have hi := congrArg (fun l => l[i]?) hs
  simp only [List.getElem?_map, ho', Option.map_some] at hi
  obtain ⟨o2, ho2, hi⟩ := Option.map_eq_some_iff.1 hi
  simp only [Prod.mk.injEq] at hi
  exact ⟨o, o2, c, dif, y0, tp, T, Y, ho, hcf, ho2, hi.1.trans hout', hdif, r1, ⟨a', e, n, _, u1, u2, u3, htimes, u5⟩, r3⟩

/-! ## C50: equations stated by a user -/

/-- The sides of an equation created from a statement are those of the statement, whatever happens afterwards. -/
theorem created_sides (st : Stmt) {a : ResArg} (ha : st.arg = .ok a) {w w1 : World} {m : MRef} {name d : String} {c : Bool} {r : ERef}
    (hc : createEquation m name d (some a) c w = (.ok r, w1)) (ops : List Op) : ∃ e, (history ops w1).es[r]? = some e ∧ e.Sides st := by
  have he1 : ∃ e, w1.es[r]? = some e ∧ e.Sides st := by
    cases hm : w.ms[m]? with
    | none => rw [createEquation_none hm] at hc; simp at hc
    | some mo =>
      rcases createEquation_run hm name d (some a) c with ⟨x, u, he⟩ | ⟨t, t', e, e', u, he, hi, hs, _⟩
      · rw [he] at hc; simp at hc
      · rw [he] at hc
        simp only [Prod.mk.injEq, Except.ok.injEq] at hc
        obtain ⟨rfl, rfl⟩ := hc
        obtain ⟨k, hk, rfl⟩ := EqObj.sweep_ok hs
        obtain ⟨e0, e1, hf, h1, rfl⟩ := EqObj.init_fresh hi
        exact ⟨{ e1 with name := e1.name ++ "_" ++ mo.name, owner := mo.name, objects := some k.symMap },
          by simp [World.withM, World.addE, World.withUid], a, _, e0, e1, ha, h1, rfl⟩
  obtain ⟨e, he, hst⟩ := he1
  exact ⟨e, (history_le ops w1).es r e he, hst⟩

end

/-! ## Samples -/

/-- `dx/dt = x*y`, `dy/dt = y*t`. -/
def Ex.pair : List Op := [.newModel "m" "" {} none, .cmd 0 (Ex.dv "x"), .cmd 0 (Ex.dv "y"), .cmd 0 (Ex.dv "t"),
  .cmd 0 (.distribute { attr := "x" }), .cmd 0 (.distribute { attr := "y" }),
  .cmd 0 (Ex.eq_ "ode1" (.eqn (.diff { attr := "x" } (some { attr := "t" })) (.bin .mul (Ex.at_ "x") (Ex.at_ "y")))),
  .cmd 0 (Ex.eq_ "ode2" (.eqn (.diff { attr := "y" } (some { attr := "t" })) (.bin .mul (Ex.at_ "y") (Ex.at_ "t")))),
  .addModels (.leaf 0), .time ["t_m"], .initial [("x_m", 1), ("y_m", 2), ("t_m", 0)]]
def Ex.pairW : World := (resolve (history Ex.pair World.init)).2
def Ex.pairS : SimWorld Rat := { w := Ex.pairW }
def Ex.pq (i : Nat) : Quantity := (Ex.pairW.qs[i]?).getD Ex.x
def Ex.pairSys : List (String × Stmt) :=
  [("x_m", .eqn (.diff 0 (Ex.pq 0) (some (2, Ex.pq 2))) (.bin .mul (.q 0 (Ex.pq 0)) (.q 1 (Ex.pq 1)))),
   ("y_m", .eqn (.diff 1 (Ex.pq 1) (some (2, Ex.pq 2))) (.bin .mul (.q 1 (Ex.pq 1)) (.q 2 (Ex.pq 2))))]

def Ex.sidesCheck (e : EqObj) (st : Stmt) : Bool :=
  match st.arg with
  | .ok a => match EqObj.setResidual "" { name := "" } a with
    | (.ok _, e1) => decide (e.elem = e1.elem)
    | _ => false
  | _ => false

theorem Ex.sides_of_check {e : EqObj} {st : Stmt} (h : Ex.sidesCheck e st = true) : e.Sides st := by
  unfold Ex.sidesCheck at h
  split at h
  · next a ha =>
    split at h
    · next e1 hs => exact ⟨a, "", { name := "" }, e1, ha, hs, of_decide_eq_true h⟩
    · cases h
  · cases h

theorem Ex.pair_session : Spec.Session Ex.pair := by
  intro o ho
  simp only [Ex.pair, List.mem_cons, List.not_mem_nil, or_false] at ho
  rcases ho with rfl | rfl | rfl | rfl | rfl | rfl | rfl | rfl | rfl | rfl | rfl <;> trivial

theorem Ex.pair_system : ∃ b, Ex.pairS.w.pr.block = some b ∧ Spec.OdeSystem Ex.ext Ex.pairS.w b ["t_m"] Ex.pairSys ∧
    Spec.Compilable Ex.ext Ex.pairS.w b ["t_m"] Ex.pairSys := by
  have hr : resolve (history Ex.pair World.init) = (.ok (), Ex.pairW) := run_ok (by decide +kernel)
  obtain ⟨b, hb, _, hp⟩ := resolved_groups Ex.pair Ex.pair_session hr
  have hbb : Ex.pairW.pr.block.map (fun b => (b.differential, b.varList, b.problemType, (timeDeclared Ex.sr Ex.pairW.es b (some ["t_m"])).toOption)) =
    some ([0, 1], ["x_m", "y_m", "t_m"], some .differential, some true) := by decide +kernel
  rw [hb] at hbb
  simp only [Option.map_some, Option.some.injEq, Prod.mk.injEq] at hbb
  obtain ⟨h1, h2, h3, h4⟩ := hbb
  have hseen : Spec.seen Ex.ext Ex.pairW b "t_m" := by
    obtain ⟨v, hv, hv'⟩ := timeDeclared_iff (sr := Ex.sr) hp (names := ["t_m"])
    rw [hv] at h4
    exact hv'.mp (by simpa [Except.toOption] using h4)
  have n0 : (Ex.pq 0).name = "x_m" := by decide +kernel
  have n1 : (Ex.pq 1).name = "y_m" := by decide +kernel
  have n2 : (Ex.pq 2).name = "t_m" := by decide +kernel
  refine ⟨b, hb, ⟨hp, ?_, by decide +kernel, by decide +kernel, ?_, ?_⟩, ⟨h3, by rw [h2]; decide, ?_⟩⟩
  · rw [h1]
    have x0 : ∃ e, Ex.pairW.es[0]? = some e ∧ Ex.sidesCheck e (Ex.pairSys[0]).2 = true :=
      Option.map_eq_some_iff.mp (show Ex.pairW.es[0]?.map (fun e => Ex.sidesCheck e (Ex.pairSys[0]).2) = some true by decide +kernel)
    have x1 : ∃ e, Ex.pairW.es[1]? = some e ∧ Ex.sidesCheck e (Ex.pairSys[1]).2 = true :=
      Option.map_eq_some_iff.mp (show Ex.pairW.es[1]?.map (fun e => Ex.sidesCheck e (Ex.pairSys[1]).2) = some true by decide +kernel)
    obtain ⟨e0, he0, hc0⟩ := x0
    obtain ⟨e1, he1, hc1⟩ := x1
    have t0 := Spec.Explicit.eqn 0 (Ex.pq 0) (some (2, Ex.pq 2)) (.bin .mul (.q 0 (Ex.pq 0)) (.q 1 (Ex.pq 1))) (by decide +kernel)
    have t1 := Spec.Explicit.eqn 1 (Ex.pq 1) (some (2, Ex.pq 2)) (.bin .mul (.q 1 (Ex.pq 1)) (.q 2 (Ex.pq 2))) (by decide +kernel)
    rw [n0] at t0
    rw [n1] at t1
    exact .cons ⟨e0, he0, t0, Ex.sides_of_check hc0⟩ (.cons ⟨e1, he1, t1, Ex.sides_of_check hc1⟩ .nil)
  · intro p hp f hf
    simp only [Ex.pairSys, List.mem_cons, List.not_mem_nil, or_false] at hp
    rcases hp with rfl | rfl <;> simp only [Spec.rhsParts, List.mem_singleton] at hf <;> subst hf <;> rfl
  · intro p hp f hf q hq _
    simp only [Ex.pairSys, List.mem_cons, List.not_mem_nil, or_false] at hp
    rcases hp with rfl | rfl <;> simp only [Spec.rhsParts, List.mem_singleton] at hf <;> subst hf <;>
      simp only [Spec.quantities, List.cons_append, List.nil_append, List.mem_cons, List.not_mem_nil, or_false] at hq <;>
      rcases hq with rfl | rfl <;> simp only [n0, n1, n2] <;>
      first | exact Or.inl (by decide +kernel) | exact Or.inr ⟨by simp, hseen⟩
  · intro n
    rw [h2, show Ex.pairSys.map Prod.fst = ["x_m", "y_m"] from rfl]
    simp only [List.mem_cons, List.not_mem_nil, or_false]
    constructor
    · rintro (rfl | rfl | rfl)
      · simp
      · simp
      · exact Or.inr ⟨rfl, hseen⟩
    · tauto

/-- The creation of the solver succeeds and its function computes, compiled or not. -/
example : (∀ comp ∈ [true, false],
    let c : Conf := dset (dset confDefaults "time_variable_name" (.names ["t_m"])) "compile_equations" (.bool comp)
    ((dInit (CVal.str "ODEINT") c Ex.pairS).1.toOption.map fun o =>
      ((o.rhs Ex.ext Ex.ratI [3, 5] 7 Ex.pairS).1.toOption, o.compiled.isSome)) = some (some [some 15, some 35], comp)) := by
  decide +kernel

/-- The sample integrators keep to the length of the initial state. -/
theorem Ex.ext_wellbehaved : Spec.Wellbehaved Ex.ext := fun _ _ => ⟨.ask _ _ rfl fun _ _ => .ret _, .ret _⟩

/-- A whole run, compiled or not. -/
example : ∀ comp ∈ [true, false],
    let s := simHistory Ex.ext Ex.ratI ((Ex.pair ++ [Op.resolve]).map .base ++ [.newDomain "d" ["t"], .domain 0 (.distribute "x"), .domain 0 (.distribute "y"),
      .newSim "s", .configure 0 (("compile_equations", .bool comp) :: Ex.dyn) none none, .run 0 {}])
    (s.w.pr.block.map Block.problemType = some (some .differential)) ∧
    (s.sims.map fun o => o.output) = [some (.series [0, 1/2, 1] [[1, 2], [2, 2], [3, 2]])] := by
  decide +kernel

/-! ## Where C50 fails -/

/-- Solver and state of a sample system. -/
def Ex.rhsAt (l : List Op) (comp : Bool) (Y : List Rat) (t : Rat) : Option (Except Err (List (Option Rat))) :=
  let s : SimWorld Rat := { w := history (l ++ [Op.resolve]) World.init }
  match dInit (CVal.str "ODEINT") (dset (dset confDefaults "time_variable_name" (.names ["t_m"])) "compile_equations" (.bool comp)) s with
  | (.ok o, s') => some (o.rhs Ex.ext Ex.ratI Y t s').1
  | _ => none

/-- The exception of a call. -/
def Ex.err {α : Type} : Option (Except Err α) → Option Err
  | some (.error e) => some e
  | _ => none

/-- `dx/dt = x*k`, where `k` is a variable with the value 2. -/
def Ex.odeFixed : List Op := [.newModel "m" "" {} none, .cmd 0 (Ex.dv "x"), .cmd 0 (Ex.dv "t"), .cmd 0 (Ex.dv "k"), .cmd 0 (.distribute { attr := "x" }),
  .cmd 0 (.setValue { attr := "k" } (.float 2) none),
  .cmd 0 (Ex.eq_ "ode" (.eqn (.diff { attr := "x" } (some { attr := "t" })) (.bin .mul (Ex.at_ "x") (Ex.at_ "k")))),
  .addModels (.leaf 0), .time ["t_m"], .initial [("x_m", 1), ("t_m", 0)]]
/-- `dx/dt = x*k`, where `k` is a parameter without value. -/
def Ex.odeUnspec : List Op := [.newModel "m" "" {} none, .cmd 0 (Ex.dv "x"), .cmd 0 (Ex.dv "t"), .cmd 0 (Ex.dp "k"), .cmd 0 (.distribute { attr := "x" }),
  .cmd 0 (Ex.eq_ "ode" (.eqn (.diff { attr := "x" } (some { attr := "t" })) (.bin .mul (Ex.at_ "x") (Ex.at_ "k")))),
  .addModels (.leaf 0), .time ["t_m"], .initial [("x_m", 1), ("t_m", 0)]]
/-- `dz/dt = t`, with initial values. -/
def Ex.loneInit : List Op := Ex.lone ++ [.initial [("z_m", 1), ("t_m", 0)]]

/-- C50 fails when compiled and a variable of the right side has been given a value: the function raises `KeyError`; interpreted
it is right. -/
theorem ode_fixed_variable : Ex.err (Ex.rhsAt Ex.odeFixed true [3] 0) = some .keyError ∧
    (Ex.rhsAt Ex.odeFixed false [3] 0).bind Except.toOption = some [some 6] := by
  decide +kernel

/-- C50 fails for `dz/dt == t`: time is not found in a right side that consists of it alone. -/
theorem ode_time_missed : Ex.err (Ex.rhsAt Ex.loneInit false [3] 5) = some .typeError ∧ Ex.err (Ex.rhsAt Ex.loneInit true [3] 5) = some .keyError := by
  decide +kernel

/-- C50 fails when compiled and the name of time is a part of the name of an unknown: the function is called with one argument too many. -/
theorem ode_time_substring : Ex.err (Ex.rhsAt (Ex.flat.dropLast) true [3] 5) = some .typeError ∧
    (Ex.rhsAt (Ex.flat.dropLast) false [3] 5).bind Except.toOption = some [some 9] := by
  decide +kernel

/-- A parameter without value is not noticed before integration. -/
theorem ode_unspecified_parameter : Ex.err (Ex.rhsAt Ex.odeUnspec true [3] 5) = some .nameError ∧ Ex.err (Ex.rhsAt Ex.odeUnspec false [3] 5) = some .typeError := by
  decide +kernel

/-- `dx/dt + x == x*t`. -/
def Ex.shifted : List Op := [.newModel "m" "" {} none, .cmd 0 (Ex.dv "x"), .cmd 0 (Ex.dv "t"), .cmd 0 (.distribute { attr := "x" }),
  .cmd 0 (Ex.eq_ "ode" (.eqn (.bin .add (.diff { attr := "x" } (some { attr := "t" })) (Ex.at_ "x")) (.bin .mul (Ex.at_ "x") (Ex.at_ "t")))),
  .addModels (.leaf 0), .time ["t_m"], .initial [("x_m", 1), ("t_m", 0)], .resolve]

/-- Other left sides are accepted and misread: for `dx/dt + x == x*t` the run integrates `x*t` instead of `x*t - x`, when SymPy puts `x` first among
the operands of the sum.  (The slope at the start is -1; the result has slope 0.) -/
theorem ode_left_side_ignored : ∃ ext : Ext Rat, Spec.Wellbehaved ext ∧
    ((simHistory ext Ex.ratI (Ex.odeRun Ex.shifted Ex.dyn {})).sims.map fun o => o.output) =
      [some (.series [0, 1/2, 1] [[1], [1], [1]]), none] :=
  ⟨{ Ex.ext with arg0 := fun _ => "x_m" }, Ex.ext_wellbehaved, by decide +kernel⟩

end Sloth
