import Verif.Model.Usage
import Verif.Props.EndToEnd
import Verif.Props.Values
import Verif.Props.Optimization

/-!
# Studies of parameters: what is optimized is the solution at the trial point (C110)
-/

namespace Sloth
open PyM UnitObj

/-! ## What is to be shown -/

/-- The value a trial point gives to quantity `r`: that of the last of the names that stand for it. -/
def Spec.coordinate (w : World) (names : List String) (x : List Rat) (r : Ref) : Option Rat :=
  (((names.zip x).reverse.find? fun p => decide (dget w.pr.parameterDict p.1 = some r))).map (·.2)

/-- A quantity with a given value. -/
def Spec.valued (q : Quantity) : Option Rat → Quantity
  | some v => { q with value := v, isSpecified := true }
  | none => q

/-- The state in which the named parameters have the coordinates of the point as values, and nothing else is different. -/
def Spec.atPoint (w : World) (names : List String) (x : List Rat) : World :=
  { w with qs := w.qs.mapIdx fun r q => Spec.valued q (Spec.coordinate w names x r) }

/-- The problem was resolved and nothing was changed since. -/
def Spec.Resolved (w : World) : Prop := ∃ w0, Reachable w0 ∧ resolve w0 = (.ok (), w)

/-- All models of the problem state their equations, under different names, in `DeclareEquations`, and declare everything else when they are made. -/
def Spec.Stating (w : World) : Prop := ∀ m ∈ dvalues w.pr.models, Spec.Equational w m ∧
  ∀ mo, w.ms[m]? = some mo → (Spec.eqnNames mo.body.eqns).Nodup ∧ ∀ n ∈ Spec.eqnNames mo.body.eqns, n ≠ ""

/-- `d` solves, up to `P`, what the models of `w` state: every statement of every model, with the values the quantities have in `w` and those of `d` for the
unknowns, is small.  A statement is its expression, or the right side of an equality (`Spec.handedNow`). -/
def Spec.SolvesAt {K : Type} [Field K] [LinearOrder K] (I : Interp K) (P : K → Prop) (w : World) (d : Dict String K) : Prop :=
  ∀ m ∈ dvalues w.pr.models, ∀ mo, w.ms[m]? = some mo → ∀ attr n descr st ck, Cmd.eqn attr n descr st ck ∈ mo.body.eqns →
    ∀ ρ : Atom → K, (∀ k v, dget d k = some v → ρ (.v k) = v) → ∃ z, Spec.handedNow I w m ρ st = some z ∧ P z

/-! ## Points -/

theorem coordinate_congr {w w' : World} (h : w'.pr.parameterDict = w.pr.parameterDict) (names : List String) (x : List Rat) (r : Ref) :
    Spec.coordinate w' names x r = Spec.coordinate w names x r := by simp only [Spec.coordinate, h]

theorem coordinate_isSome {w : World} {names : List String} {x : List Rat} (hx : names.length ≤ x.length) (r : Ref) :
    (Spec.coordinate w names x r).isSome = true ↔ ∃ n ∈ names, dget w.pr.parameterDict n = some r := by
  unfold Spec.coordinate
  rw [Option.isSome_map, List.find?_isSome]
  constructor
  · rintro ⟨p, hp, h⟩
    exact ⟨p.1, (List.of_mem_zip (a := p.1) (b := p.2) (by simpa using hp)).1, by simpa using h⟩
  · rintro ⟨n, hn, h⟩
    obtain ⟨i, hi, rfl⟩ := List.getElem_of_mem hn
    have hi' : i < x.length := by omega
    refine ⟨(names[i], x[i]), ?_, by simpa using h⟩
    rw [List.mem_reverse, List.mem_iff_getElem]
    exact ⟨i, by simp; omega, by simp⟩

theorem atPoint_qs (w : World) (names : List String) (x : List Rat) (r : Ref) :
    (Spec.atPoint w names x).qs[r]? = (w.qs[r]?).map fun q => Spec.valued q (Spec.coordinate w names x r) := by
  simp [Spec.atPoint, List.getElem?_mapIdx]

/-- A second point replaces the first. -/
theorem atPoint_twice (w : World) {names : List String} {x y : List Rat} (hx : names.length ≤ x.length) (hy : names.length ≤ y.length) :
    Spec.atPoint (Spec.atPoint w names x) names y = Spec.atPoint w names y := by
  have : (Spec.atPoint (Spec.atPoint w names x) names y).qs = (Spec.atPoint w names y).qs := by
    apply List.ext_getElem?
    intro r
    rw [atPoint_qs, atPoint_qs, atPoint_qs, coordinate_congr (w := w) (w' := Spec.atPoint w names x) rfl]
    rw [Option.map_map]
    congr 1
    funext q
    have h1 := coordinate_isSome (w := w) hx r
    have h2 := coordinate_isSome (w := w) hy r
    simp only [Function.comp]
    cases hgx : Spec.coordinate w names x r with
    | none =>
      cases hgy : Spec.coordinate w names y r with
      | none => rfl
      | some v => rfl
    | some u =>
      cases hgy : Spec.coordinate w names y r with
      | none => rw [hgx] at h1; rw [hgy] at h2; simp only [Option.isSome_some, Option.isSome_none, true_iff] at h1 h2; exact absurd (h2.2 h1) (by simp)
      | some v => rfl
  unfold Spec.atPoint at this ⊢
  simp only at this ⊢
  rw [this]

theorem Stated.atPoint {w w' : World} (h : Stated w w') (hp : w'.pr.parameterDict = w.pr.parameterDict) (names : List String) (x : List Rat) :
    Stated (Spec.atPoint w names x) (Spec.atPoint w' names x) := by
  refine ⟨?_, h.len, h.ms⟩
  apply List.ext_getElem?
  intro r
  rw [atPoint_qs, atPoint_qs, h.qs, coordinate_congr hp]

theorem stating_atPoint {w : World} (h : Spec.Stating w) (names : List String) (x : List Rat) : Spec.Stating (Spec.atPoint w names x) := h

/-! ## Resolving -/

theorem resolved_reachable {w : World} (h : Spec.Resolved w) : Reachable w := by
  obtain ⟨w0, ⟨ops, rfl⟩, h⟩ := h
  exact ⟨ops ++ [.resolve], history_resolve ops h⟩

theorem resolve_stated {w w' : World} (h : resolve w = (.ok (), w')) (hp : Spec.Stating w) :
    Stated w w' ∧ w'.pr.models = w.pr.models ∧ w'.pr.parameterDict = w.pr.parameterDict := by
  obtain ⟨w1, g1, b1, hre, hpr, _, hw', _, _⟩ := resolve_ok h
  obtain ⟨hst, _⟩ := calls_stated (fun m hm => (hp m hm).1) (Stated.refl w) hre
  subst hw'
  exact ⟨⟨hst.qs, hst.len, hst.ms⟩, by simp [hpr], by simp [hpr]⟩

theorem Spec.Stating.stated {w w' : World} (h : Spec.Stating w) (hs : Stated w w') (hm : w'.pr.models = w.pr.models) : Spec.Stating w' := by
  intro m hmem
  rw [hm] at hmem
  obtain ⟨h1, h2⟩ := h m hmem
  refine ⟨h1.stated hs, fun mo' hmo' => ?_⟩
  obtain ⟨mo, hmo, _⟩ := h1
  obtain ⟨mo2, g1, _, g3, _⟩ := hs.ms m mo hmo
  obtain rfl : mo2 = mo' := by rw [g1] at hmo'; exact Option.some.inj hmo'
  rw [g3]
  exact h2 mo hmo

/-- What one trial leaves for the next: only values of the parameters and equations are different. -/
structure Drift (names : List String) (w0 w : World) : Prop where
  models : w.pr.models = w0.pr.models
  pars : w.pr.parameterDict = w0.pr.parameterDict
  stated : ∀ x, names.length ≤ x.length → Stated (Spec.atPoint w0 names x) (Spec.atPoint w names x)

theorem Drift.refl (names : List String) (w : World) : Drift names w w := ⟨rfl, rfl, fun _ _ => Stated.refl _⟩

theorem Drift.step {names : List String} {w0 w w' : World} (h : Drift names w0 w) {x : List Rat} (hx : names.length ≤ x.length) (hp : Spec.Stating w)
    (hr : resolve (Spec.atPoint w names x) = (.ok (), w')) : Drift names w0 w' := by
  obtain ⟨h1, h2, h3⟩ := resolve_stated hr (stating_atPoint hp names x)
  refine ⟨h2.trans h.models, h3.trans h.pars, fun y hy => (h.stated y hy).trans ?_⟩
  have := h1.atPoint h3 names y
  rwa [atPoint_twice w hx hy] at this

theorem stating_drift {names : List String} {w0 w : World} (h : Drift names w0 w) (hp : Spec.Stating w0) : Spec.Stating w := by
  have := Spec.Stating.stated (stating_atPoint hp names (List.replicate names.length 0)) (h.stated _ (by simp)) h.models
  exact this

/-- What solves the statements after some trials solves them at the beginning. -/
theorem solvesAt_drift {K : Type} [Field K] [LinearOrder K] {I : Interp K} {P : K → Prop} {names : List String} {w0 w : World} (h : Drift names w0 w)
    {x : List Rat} (hx : names.length ≤ x.length) {d : Dict String K}
    (hs : ∀ m ∈ dvalues w.pr.models, ∀ mo, w.ms[m]? = some mo → ∀ attr n descr st ck, Cmd.eqn attr n descr st ck ∈ mo.body.eqns →
      (∃ st0, st.toStmt (Spec.atPoint w names x) m = .ok st0) ∧
      ∀ ρ : Atom → K, (∀ k v, dget d k = some v → ρ (.v k) = v) → ∃ z, Spec.handedNow I (Spec.atPoint w names x) m ρ st = some z ∧ P z)
    : (hp : Spec.Stating w0) → Spec.SolvesAt I P (Spec.atPoint w0 names x) d := by
  intro hp m hm mo hmo attr n descr st ck hc ρ hρ
  obtain ⟨mo', g1, _, g3, _⟩ := (h.stated x hx).ms m mo hmo
  obtain ⟨⟨st0, h0⟩, hz⟩ := hs m (by rw [h.models]; exact hm) mo' g1 attr n descr st ck (by rw [g3]; exact hc)
  obtain ⟨z, h1, h2⟩ := hz ρ hρ
  refine ⟨z, ?_, h2⟩
  rw [← toStmt_now I ρ ((h.stated x hx).toStmt h0), toStmt_now I ρ h0]
  exact h1

/-! ## One evaluation -/

section
variable {K : Type} [Field K] [LinearOrder K]
open PyS

theorem coordinate_cons {w : World} {n : String} {r : Ref} (hn : dget w.pr.parameterDict n = some r) (names : List String) (v : Rat) (x : List Rat) (k : Ref) :
    Spec.coordinate w (n :: names) (v :: x) k = (Spec.coordinate w names x k).or (if k = r then some v else none) := by
  unfold Spec.coordinate
  rw [List.zip_cons_cons, List.reverse_cons, List.find?_append]
  cases h : (names.zip x).reverse.find? fun p => decide (dget w.pr.parameterDict p.1 = some k) with
  | some p => simp
  | none =>
    by_cases hk : k = r
    · subst hk; simp [hn]
    · have : ¬ r = k := fun h => hk h.symm
      simp [hn, hk, this]

omit [Field K] [LinearOrder K] in
theorem setFloat_ok {r : Ref} {v : Rat} {w w' : World} (h : setValueM r (.float v) none w = (.ok (), w')) :
    ∃ q, w.qs[r]? = some q ∧ w' = { w with qs := w.qs.set r { q with value := v, isSpecified := true } } := by
  unfold setValueM at h
  rw [PyM.bind_ok] at h
  obtain ⟨q, w1, h1, h⟩ := h
  rw [PyM.bind_ok] at h
  obtain ⟨q', w2, h2, h3⟩ := h
  unfold getQ at h1
  split at h1
  · next q0 hq0 =>
    simp only [Prod.mk.injEq, Except.ok.injEq] at h1
    obtain ⟨rfl, rfl⟩ := h1
    simp only [PyM.lift, Quantity.setValue, Prod.mk.injEq, Except.ok.injEq] at h2
    obtain ⟨rfl, rfl⟩ := h2
    simp only [setQ, Prod.mk.injEq, true_and] at h3
    exact ⟨q0, hq0, h3.symm⟩
  · simp at h1

omit [Field K] [LinearOrder K] in
/-- Assigning the coordinates of a point. -/
theorem assign_ok {read : K → Rat} {names : List String} {x : List K} {s s' : SimWorld K} {b : Block} (hb : s.w.pr.block = some b)
    (hd : ∀ n r, dget b.parameterDict n = some r → dget s.w.pr.parameterDict n = some r) (h : Opt.assign read names x s = (.ok (), s')) :
    names.length ≤ x.length ∧ s' = { s with w := Spec.atPoint s.w names (x.map read) } ∧ (Reachable s.w → Reachable s'.w) := by
  induction names generalizing x s with
  | nil =>
    have : ∀ y, Spec.atPoint s.w [] y = s.w := by
      intro y
      have : (Spec.atPoint s.w [] y).qs = s.w.qs := by
        apply List.ext_getElem?
        intro r
        rw [atPoint_qs]
        simp [Spec.coordinate, Spec.valued]
      unfold Spec.atPoint at this ⊢
      simp only at this
      rw [this]
    have h' : s' = s := by cases x <;> simp only [Opt.assign, PyS.pure, Prod.mk.injEq, true_and] at h <;> exact h.symm
    rw [this, h']
    exact ⟨by simp, rfl, id⟩
  | cons n t ih =>
    cases x with
    | nil => simp [Opt.assign, PyS.raise] at h
    | cons a u =>
      simp only [Opt.assign, PyS.bind_ok] at h
      obtain ⟨r, s1, h1, _, s2, h2, h3⟩ := h
      simp only [simItem, PyS.bind_ok, getBlock_ok, PyS.lift_ok] at h1
      obtain ⟨b', _, ⟨hb', rfl⟩, hr, rfl⟩ := h1
      obtain rfl : b = b' := Option.some.inj (hb.symm.trans hb')
      have hr' : dget b.parameterDict n = some r := by
        unfold dgetE at hr
        split at hr
        · next v hv => simp only [Except.ok.injEq] at hr; rw [hv, hr]
        · cases hr
      have hn := hd n r hr'
      have h2' : setValueM r (.float (read a)) none s1.w = (.ok (), s2.w) := by
        simp only [ofWorld, Prod.mk.injEq] at h2
        rw [← h2.2, ← h2.1]
      have h2s : s2 = { s1 with w := s2.w } := by
        simp only [ofWorld, Prod.mk.injEq] at h2
        rw [← h2.2]
      have hreach : Reachable s1.w → Reachable s2.w := by
        rintro ⟨ops, ho⟩
        refine ⟨ops ++ [.setValue r (.float (read a)) none], ?_⟩
        rw [history, List.foldl_append]
        show s2.w = (setValueM r (.float (read a)) none (history ops World.init)).2
        rw [← ho, h2']
      obtain ⟨q, hq, hw⟩ := setFloat_ok h2'
      obtain ⟨i1, i2, i3⟩ := ih (s := s2) (by rw [hw]; exact hb) (by rw [hw]; exact hd) h3
      refine ⟨by simpa using i1, ?_, fun hR => i3 (hreach hR)⟩
      rw [i2, h2s]
      have : Spec.atPoint s2.w t (u.map read) = Spec.atPoint s1.w (n :: t) ((a :: u).map read) := by
        have : (Spec.atPoint s2.w t (u.map read)).qs = (Spec.atPoint s1.w (n :: t) ((a :: u).map read)).qs := by
          apply List.ext_getElem?
          intro k
          rw [atPoint_qs, atPoint_qs, List.map_cons, coordinate_cons hn, coordinate_congr (w := s1.w) (by rw [hw])]
          by_cases hk : k = r
          · subst hk
            rw [hw]
            simp only [List.getElem?_set_self (List.getElem?_eq_some_iff.1 hq).1, hq, Option.map_some, if_true]
            cases Spec.coordinate s1.w t (u.map read) k <;> rfl
          · rw [hw]
            simp only [List.getElem?_set_ne (fun h => hk h.symm : r ≠ k), if_neg hk, Option.or_none]
        unfold Spec.atPoint at this ⊢
        simp only at this
        rw [this, hw]
      simp only
      rw [this]

/-- SymPy's answers are dictionaries: every name once. -/
def Spec.Dicts (ext : Ext K) : Prop := ∀ es names l, ext.spSolve es names = .ok l → ∀ d ∈ l, (dkeys d).Nodup

omit [Field K] [LinearOrder K] in
theorem solved_once {ext : Ext K} (hd : Spec.Dicts ext) {b : Block} {sv : SolverObj} {d : Dict String K} {k : ProblemKind}
    (h : Spec.Solved ext b sv (.dict d)) (hk : Spec.OfClass k sv) (ha : k = .linear ∨ k = .nonlinear) : DNodup d := by
  have sp : (∃ l d', ext.spSolve b.equationsList b.varList = .ok (l ++ [d']) ∧ Output.dict d = .dict d') → DNodup d := by
    rintro ⟨l, d', h1, h2⟩
    cases h2
    exact hd _ _ _ h1 d (by simp)
  cases sv with
  | la m =>
    cases m with
    | none => exact absurd h id
    | some m =>
      cases m with
      | sympy => exact sp h
      | scipy => obtain ⟨x, d', _, h2, h3⟩ := h; cases h2; exact h3.once
      | symbolicsys => obtain ⟨g, x, d', _, h2, h3⟩ := h; cases h2; exact h3.once
  | nla m =>
    cases m with
    | sympy => exact sp h
    | _ => obtain ⟨g, x, d', _, h2, h3⟩ := h; cases h2; exact h3.once
  | d o => rcases ha with rfl | rfl <;> exact absurd hk id
  | dae o => rcases ha with rfl | rfl <;> exact absurd hk id

/-- One evaluation of the objective function that returns: the value is that of a solution of the statements at the trial point. -/
theorem evaluation_solves {ext : Ext K} {I : Interp K} {P : K → Prop} (hsound : Spec.Sound ext I P) (hdict : Spec.Dicts ext) {read : K → Rat}
    {names : List String} {target : String} {sim : Option SRef} {conf : Option Conf} {x f : List K} {w0 : World} (hp : Spec.Stating w0) {s s' : SimWorld K}
    (hdr : Drift names w0 s.w) (hres : Spec.Resolved s.w) (h : Opt.usageObjective ext I read names target sim conf x s = (.ok f, s')) :
    (∃ d v, f = [v] ∧ dget d target = some v ∧ Spec.SolvesAt I P (Spec.atPoint w0 names (x.map read)) d) ∧
    Drift names w0 s'.w ∧ Spec.Resolved s'.w := by
  cases sim with
  | none => simp [Opt.usageObjective, PyS.raise] at h
  | some i =>
    simp only [Opt.usageObjective, PyS.bind_ok] at h
    obtain ⟨_, s1, h1, _, s2, h2, _, s3, h3, _, s4, h4, r, s5, h5, h6⟩ := h
    have hst := stating_drift hdr hp
    have hreach := resolved_reachable hres
    obtain ⟨b0, hb0, _, _, _, _, _, _, hpar⟩ := block_variables hres.choose_spec.1 hres.choose_spec.2
    obtain ⟨_, _, hpd⟩ : True ∧ True ∧ s.w.pr.parameterDict = hres.choose.pr.parameterDict := by
      obtain ⟨_, _, _, _, _, _, hh, _⟩ := resolved_block hres.choose_spec.2
      exact ⟨trivial, trivial, hh⟩
    obtain ⟨hlen, hs1, hr1⟩ := assign_ok hb0 (fun n r hr => by rw [hpd]; exact hpar n r hr) h1
    have hxlen : names.length ≤ (x.map read).length := by simpa using hlen
    have hr1 := hr1 hreach
    have hw1 : s1.w = Spec.atPoint s.w names (x.map read) := by rw [hs1]
    have h2' : resolve s1.w = (.ok (), s2.w) := by
      simp only [ofWorld, Prod.mk.injEq] at h2
      rw [← h2.2, ← h2.1]
    have hdr2 : Drift names w0 s2.w := hdr.step hxlen hst (by rw [← hw1]; exact h2')
    have hres2 : Spec.Resolved s2.w := ⟨s1.w, hr1, h2'⟩
    have hw3 : s3.w = s2.w := by
      simp only [setConfigurations, PyS.bind_ok, PyS.lift_ok, getSim_ok] at h3
      obtain ⟨_, _, hg, _, _, ⟨_, rfl⟩, _, _, ⟨_, rfl⟩, hset⟩ := h3
      simp only [PyS.get, Prod.mk.injEq] at hg
      simp only [setSim, PyS.modify, Prod.mk.injEq, true_and] at hset
      rw [← hset, ← hg.2]
    obtain ⟨b, hb, hn⟩ := resolved_unknowns hr1 h2'
    have hb3 : s3.w.pr.block = some b := by rw [hw3]; exact hb
    have hcore := (run_keeps_problem_partial ext I i {} s3).1
    rw [h4] at hcore
    simp only at hcore
    have hs5 : s5 = s4 := by
      have := keeps_getResults (fun s => s) i .dict s4
      rw [h5] at this; exact this
    subst hs5
    have htables : ∀ (c : Option Conf) (r : Results K) s', (timeResults c .dict : PyS K _) s5 = (.ok r, s') → ∃ t, r = .columns t := by
      intro c r s' h
      simp only [timeResults, reduceCtorEq, if_false, PyS.bind_ok, PyS.lift_ok, diffResults, Except.ok.injEq] at h
      obtain ⟨v, s1, _, h, _⟩ := h
      exact ⟨_, h.symm⟩
    obtain ⟨b4, hb4, hbd⟩ : ∃ b4, s5.w.pr.block = some b4 ∧ b4.differential = b.differential := by
      have := congrArg (fun w : World => w.pr.block.map fun b => b.differential) hcore
      simp only [Spec.core, hb3, Option.map_map, Option.map_some] at this
      cases hq : s5.w.pr.block with
      | none => rw [hq] at this; simp at this
      | some b4 => rw [hq] at this; exact ⟨b4, rfl, by simpa using this⟩
    have hdiff : b.differential = [] := by
      rw [← hbd]
      simp only [Sloth.getResults, PyS.bind_ok, getSim_ok, getBlock_ok] at h5
      obtain ⟨o, _, ⟨ho, rfl⟩, b', _, ⟨hb', rfl⟩, h5⟩ := h5
      rw [hb4] at hb'; cases hb'
      by_contra hne
      have hne' : b4.differential.isEmpty = false := by simpa using hne
      have : b4.problemType = some .differential ∨ b4.problemType = some .dae := by
        unfold Block.problemType
        simp only [hne', Bool.not_false, Bool.true_and]
        split
        · exact .inl rfl
        · split
          · exact .inr rfl
          · next h1 h2 =>
            exfalso
            revert h1 h2
            generalize (!b4.linear.isEmpty || !b4.linearTail.isEmpty) = l
            generalize (!b4.nonlinear.isEmpty) = n
            cases l <;> cases n <;> simp
      have hcol : ∃ t, r = .columns t := by
        rcases this with ht | ht <;> rw [ht] at h5 <;> exact htables _ _ _ h5
      obtain ⟨t, rfl⟩ := hcol
      simp [PyS.raise] at h6
    have hk : b.problemType = some .linear ∨ b.problemType = some .nonlinear := by
      obtain ⟨o, c, pt, b', sv, s1', s2', s3', _, _, _, _, hsv, _⟩ := run_parts h4
      obtain ⟨b2, k2, hb2, hk2, _⟩ := createSolver_kind hsv
      rw [hb3] at hb2; cases hb2
      rw [hk2]
      unfold Block.problemType at hk2
      simp only [hdiff, List.isEmpty_nil, Bool.not_true, Bool.false_and, Bool.not_false, Bool.true_and, Bool.false_eq_true, if_false] at hk2
      split at hk2
      · cases hk2; exact .inr rfl
      · split at hk2
        · cases hk2; exact .inl rfl
        · cases hk2
    have hw4 : s5.w = s3.w := by
      have := (run_keeps_problem_partial ext I i {} s3).2 b hb3 hk
      rw [h4] at this; exact this
    obtain ⟨o, sv, out, ho, hout, hsol, hcl⟩ := run_reports hr1 (show resolve s1.w = (.ok (), s3.w) by rw [hw3]; exact h2') hb3 hk h4
    obtain ⟨k, hk', hkk⟩ : ∃ k, b.problemType = some k ∧ (k = .linear ∨ k = .nonlinear) := by
      rcases hk with hk | hk
      · exact ⟨_, hk, .inl rfl⟩
      · exact ⟨_, hk, .inr rfl⟩
    obtain ⟨d, rfl, hsmall⟩ := solved_small hsound hsol (hcl k hk') hkk
    have hnd := solved_once hdict hsol (hcl k hk') hkk
    obtain ⟨e, he, _, _, hde, _⟩ := results_dict_and_list ho hout hnd (by rw [hw4]; exact hb3) hk
    rw [he] at h5
    simp only [Prod.mk.injEq, Except.ok.injEq, and_true] at h5
    subst h5
    simp only [PyS.bind_ok, PyS.lift_ok, PyS.pure, Prod.mk.injEq, Except.ok.injEq] at h6
    obtain ⟨v, _, ⟨hv, rfl⟩, rfl, rfl⟩ := h6
    have hv' : dget d target = some v := by
      rw [← hde]
      unfold dgetE at hv
      split at hv
      · next v' hv' => simp only [Except.ok.injEq] at hv; rw [hv', hv]
      · cases hv
    refine ⟨⟨d, v, rfl, hv', ?_⟩, by rw [hw4, hw3]; exact hdr2, by rw [hw4, hw3]; exact hres2⟩
    refine solvesAt_drift hdr hxlen ?_ hp
    intro m hm mo hmo attr n descr st ck hc
    have hst1 : Spec.Stating s1.w := by rw [hw1]; exact stating_atPoint hst _ _
    have hm1 : m ∈ dvalues s1.w.pr.models := by rw [hw1]; exact hm
    have hmo1 : s1.w.ms[m]? = some mo := by rw [hw1]; exact hmo
    obtain ⟨hnd1, hns1⟩ := (hst1 m hm1).2 mo hmo1
    obtain ⟨b', _, _, _, e, hb', _, _, _, he', _, hst0, hval⟩ := values_core h2' (fun m hm => (hst1 m hm).1) hm1 hmo1 hnd1 hns1 hc
    rw [hb] at hb'; cases hb'
    rw [← hw1]
    refine ⟨hst0, fun ρ hρ => ?_⟩
    obtain ⟨z, h1, h2⟩ := hsmall ρ hρ e (List.mem_of_getElem? he')
    exact ⟨z, (hval I ρ).symm.trans h1, h2⟩
end

namespace Opt
open Sloth PyS

section
variable {K : Type} [Field K] [LinearOrder K]

/-! ## A whole study -/

/-- The points an optimizer asks for, with the answers it gets. -/
def Spec.tried {Q A R : Type} (f : Q → PyS K A) : Prog Q A R → SimWorld K → List (Q × A)
  | .ret _, _ => []
  | .fail _, _ => []
  | .ask q k, s => match f q s with
    | (.ok a, s') => (q, a) :: Spec.tried f (k a) s'
    | (.error _, _) => []

/-- The optimizer answers with the best point it asked for and the value it got there. -/
structure Spec.Picks (lib : Lib K) : Prop where
  asked : ∀ n al lo hi sz v (f : List K → PyS K (List K)) s c, ((lib.evolve n al lo hi sz v).run f s).1 = .ok c →
    (c.x, c.f) ∈ Spec.tried f (lib.evolve n al lo hi sz v) s
  least : ∀ n al lo hi sz v (f : List K → PyS K (List K)) s c, ((lib.evolve n al lo hi sz v).run f s).1 = .ok c →
    ∀ p ∈ Spec.tried f (lib.evolve n al lo hi sz v) s, ∀ y ∈ p.2.head?, ∀ x ∈ c.f.head?, x ≤ y

/-- `v` is the value of `target` in a solution of what the models of `w` state, with the point `x` as values of the parameters. -/
def Spec.ValueAt (I : Interp K) (P : K → Prop) (read : K → Rat) (names : List String) (target : String) (w : Sloth.World) (x : List K) (v : K) : Prop :=
  ∃ d, dget d target = some v ∧ Sloth.Spec.SolvesAt I P (Sloth.Spec.atPoint w names (x.map read)) d

/-- Every evaluation an optimizer makes, however many came before, answers with the value of a solution at the trial point. -/
theorem every_evaluation {ext : Ext K} {I : Interp K} {P : K → Prop} (hsound : Sloth.Spec.Sound ext I P) (hdict : Sloth.Spec.Dicts ext) {read : K → Rat}
    {names : List String} {target : String} {sim : Option SRef} {conf : Option Conf} {w0 : Sloth.World} (hp : Sloth.Spec.Stating w0) {R : Type}
    (pg : Prog (List K) (List K) R) {s : SimWorld K} (hdr : Drift names w0 s.w) (hres : Sloth.Spec.Resolved s.w) :
    ∀ p ∈ Spec.tried (usageObjective ext I read names target sim conf) pg s, ∃ v, p.2 = [v] ∧ Spec.ValueAt I P read names target w0 p.1 v := by
  induction pg generalizing s with
  | ret r => intro p hp; cases hp
  | fail e => intro p hp; cases hp
  | ask q k ih =>
    intro p hmem
    simp only [Spec.tried] at hmem
    split at hmem
    · next a s' h =>
      obtain ⟨⟨d, v, h1, h2, h3⟩, h4, h5⟩ := evaluation_solves hsound hdict hp hdr hres h
      rcases List.mem_cons.1 hmem with rfl | hmem
      · exact ⟨v, h1, d, h2, h3⟩
      · exact ih a h4 h5 p hmem
    · cases hmem

omit [Field K] in
/-- A run leaves models, problem and simulations as they were: pygmo works on a copy. -/
theorem run_sim (lib : Lib K) (i : ORef) (a : RunArgs) (w : World K) : (runOptimization lib i a w).2.s = w.s := by
  unfold runOptimization
  split
  · rfl
  · split
    · rfl
    · split
      · rfl
      · simp only
        split
        · rfl
        · split <;> rfl

/-- C110 (partial): a study whose objective function gives the trial point to parameters, resolves, runs the simulation and returns one of the results (as in
`teste_usage.py`), with solvers that are right when they report success and an optimizer that answers with the best point it asked for: the results of
the study are a point within the constraints and the value of the chosen unknown in a solution of what the models state, with the point as values of
the parameters and all other quantities as they were when the study was started; no point that was tried has a smaller value.  Models, problem and
simulations are as before the study.  Missing: of equations written `lhs == rhs` only the right side is solved for (C74), so that the solution is one of
the stated equations if they are written as expressions understood to be zero. -/
theorem study_finds_best_solution_partial {ext : Ext K} {I : Interp K} {P : K → Prop} (hsound : Sloth.Spec.Sound ext I P) (hdict : Sloth.Spec.Dicts ext)
    {read : K → Rat} {names : List String} {target : String} {lib : Lib K} (hlib : Spec.Picks lib) {w w' : World K} (hp : Sloth.Spec.Stating w.s.w)
    (hres : Sloth.Spec.Resolved w.s.w) {i : ORef} {a : RunArgs} {o : Study K} (ho : w.opts[i]? = some o) {p : Problem K}
    (hpr : w.probs[o.problem]? = some p) (hobj : p.objective = usageObjective ext I read names target)
    (h : runOptimization lib i a w = (.ok (), w')) :
    w'.s = w.s ∧ ∃ x v al n lo hi, getResults i w' = .ok (some x, some [v]) ∧ Spec.ValueAt I P read names target w.s.w x v ∧
      o.mechanism = some al ∧ dget o.conf "number_of_individuals" = some n ∧ Spec.Given o.constraints lo hi ∧
      let tr := Spec.tried (p.objective (some o.sim) (some o.simConf)) (lib.evolve w.runs al lo hi n a.frequency) w.s
      (x, [v]) ∈ tr ∧ ∀ y f, (y, f) ∈ tr → ∃ u, f = [u] ∧ v ≤ u ∧ Spec.ValueAt I P read names target w.s.w y u := by
  obtain ⟨o', lo, hi, c, h1, h2, h3⟩ := run_ok_answers h
  have hs : w'.s = w.s := by
    have := run_sim lib i a w
    rw [h] at this; exact this
  obtain ⟨p', al, n, g1, _, g3, g4, g5⟩ := h1.found
  obtain rfl : o = o' := Option.some.inj (ho.symm.trans h1.study)
  obtain rfl : p = p' := Option.some.inj (hpr.symm.trans g1)
  have hall := every_evaluation (sim := some o.sim) (conf := some o.simConf) (target := target) (read := read) hsound hdict hp
    (lib.evolve w.runs al lo hi n a.frequency) (Drift.refl names w.s.w) hres
  rw [← hobj] at hall
  have hc := hlib.asked _ _ _ _ _ _ _ _ _ g5
  obtain ⟨v, hv, hval⟩ := hall _ hc
  simp only at hv hval
  refine ⟨hs, c.x, v, al, n, lo, hi, by rw [h2, hv], hval, g3, g4, h1.bounds, by rw [← hv]; exact hc, fun y f hy => ?_⟩
  obtain ⟨u, hu, hval'⟩ := hall _ hy
  simp only at hu
  exact ⟨u, hu, hlib.least _ _ _ _ _ _ _ _ _ g5 _ hy u (by simp [hu]) v (by simp [hv]), hval'⟩

end

/-! ## The study of the script -/

/-- teste_usage.py l.54-81: `u - v**2`, the parameter having the value 2 at first; called, added and resolved. -/
def Ex.sphere : List Sloth.Op := [.newModel "M1" "" { eqns := [Sloth.Ex.eq_ "eq1" (.res (.bin .sub (Sloth.Ex.at_ "u") (.binN .pow (Sloth.Ex.at_ "v") 2)))] } none,
  .cmd 0 (Sloth.Ex.dv "u"), .cmd 0 (Sloth.Ex.dp "v"), .setValue 1 (.float 2) none, .call 0, .addModels (.leaf 0)]

/-- A library that solves equations `u - a**2`. -/
def Ex.squares : Ext Rat := { Sloth.Ex.ext with
  symSys := fun _ names es _ => match names, es with
    | [u], [⟨_, .sub (.atom (.v u')) (.pow (.num a) (.num 2))⟩] => if u = u' then .ok ([a * a], true) else .error .valueError
    | _, _ => .error .valueError
  linSolve := fun _ _ => .error .valueError
  spSolve := fun _ _ => .error .valueError }

theorem Ex.squares_sound : Sloth.Spec.Sound Ex.squares Sloth.Ex.ratI (· = 0) := by
  refine ⟨fun m names es g y hy => ?_, (fun _ _ _ h => by simp [Ex.squares] at h), (fun _ _ _ h => by simp [Ex.squares] at h)⟩
  simp only [Ex.squares] at hy
  split at hy
  · next u b u' a =>
    split at hy
    · next hu =>
      subst hu
      simp only [Except.ok.injEq, Prod.mk.injEq, and_true] at hy
      subst hy
      refine ⟨rfl, fun ρ h s hs => ?_⟩
      have h0 : ρ (.v u) = a * a := by simpa [eq_comm] using h 0 u rfl
      simp only [List.mem_singleton] at hs
      subst hs
      refine ⟨0, ?_, rfl⟩
      have h2 : Sloth.Ex.ratI.pow a 2 = some (a * a) := by
        have := Sloth.Ex.ratI.pow_int a 2
        rw [if_neg (fun h => absurd h.2 (by decide)), zpow_two] at this
        exact this
      simp [Sym.eval, h0, h2]
    · cases hy
  · cases hy

theorem Ex.squares_dicts : Sloth.Spec.Dicts Ex.squares := fun _ _ _ h => by simp [Ex.squares] at h

/-- The library of the samples answers with the better of the two corners it asks for. -/
theorem Ex.lib_picks : Spec.Picks Ex.lib := by
  have key : ∀ (lo hi : List Rat) (v : Nat) (f : List Rat → PyS Rat (List Rat)) s c, ((Ex.lib.evolve 0 ⟨"", []⟩ lo hi .none v).run f s).1 = .ok c →
      ∃ fl s1 fh s2, f lo s = (.ok fl, s1) ∧ f hi s1 = (.ok fh, s2) ∧ Spec.tried f (Ex.lib.evolve 0 ⟨"", []⟩ lo hi .none v) s = [(lo, fl), (hi, fh)] ∧
        c = if (fl.headD 0) ≤ (fh.headD 0) then ⟨lo, fl, v⟩ else ⟨hi, fh, v⟩ := by
    intro lo hi v f s c h
    simp only [Ex.lib, Prog.run, PyS.bind] at h
    cases hl : f lo s with
    | mk r s1 =>
      rw [hl] at h
      cases r with
      | error e => cases h
      | ok fl =>
        simp only at h
        cases hh : f hi s1 with
        | mk r s2 =>
          rw [hh] at h
          cases r with
          | error e => cases h
          | ok fh =>
            simp only [PyS.pure, Except.ok.injEq] at h
            refine ⟨fl, s1, fh, s2, rfl, hh, ?_, h.symm⟩
            simp [Ex.lib, Spec.tried, hl, hh]
  constructor
  · intro n al lo hi sz v f s c h
    obtain ⟨fl, s1, fh, s2, _, _, h3, rfl⟩ := key lo hi v f s c h
    show _ ∈ Spec.tried f (Ex.lib.evolve 0 ⟨"", []⟩ lo hi .none v) s
    rw [h3]
    split <;> simp
  · intro n al lo hi sz v f s c h p hp y hy x hx
    obtain ⟨fl, s1, fh, s2, _, _, h3, rfl⟩ := key lo hi v f s c h
    replace hp : p ∈ Spec.tried f (Ex.lib.evolve 0 ⟨"", []⟩ lo hi .none v) s := hp
    rw [h3] at hp
    have hd : ∀ {l : List Rat} {z : Rat}, z ∈ l.head? → l.headD 0 = z := by
      intro l z hz
      cases l with
      | nil => simp at hz
      | cons a t => simpa using hz
    simp only [List.mem_cons, List.not_mem_nil, or_false] at hp
    split at hx
    · next hle =>
      rw [hd hx] at hle
      rcases hp with rfl | rfl
      · rw [← hd hx, ← hd hy]
      · rwa [hd hy] at hle
    · next hlt =>
      rw [hd hx] at hlt
      rcases hp with rfl | rfl
      · rw [hd hy] at hlt; exact le_of_lt (not_le.1 hlt)
      · rw [← hd hx, ← hd hy]

/-- The study. -/
def Ex.sphereStudy : List (Op Rat) := Ex.sphere.map (fun o => .sim (.base o)) ++ [.sim (.base .resolve), .sim (.newSim "s"), .sim (.configure 0 [] none none),
  .newProblem 1 "opt_prob" .none false none (usageObjective Ex.squares Sloth.Ex.ratI id ["v_M1"] "u_M1"), .call 0,
  .newStudy { sim := 0, problem := 0, params := [.quantity "v_M1"], constraints := .flat [-3, 7] }]

def Ex.sphereWorld : World Rat := history Ex.squares Sloth.Ex.ratI Ex.lib Ex.sphereStudy

theorem Ex.sphere_w : Ex.sphereWorld.s.w = (resolve (Sloth.history Ex.sphere Sloth.World.init)).2 := rfl

theorem Ex.sphere_stating : Sloth.Spec.Stating Ex.sphereWorld.s.w := by
  have h1 : dvalues Ex.sphereWorld.s.w.pr.models = [0] := by decide +kernel
  have h2 : (Ex.sphereWorld.s.w.ms[0]?.map fun mo => (mo.inlets, mo.body)) =
    some ([], { eqns := [Sloth.Ex.eq_ "eq1" (.res (.bin .sub (Sloth.Ex.at_ "u") (.binN .pow (Sloth.Ex.at_ "v") 2)))] }) := by decide +kernel
  simp only [Option.map_eq_some_iff, Prod.mk.injEq] at h2
  obtain ⟨mo, h2, h3, h4⟩ := h2
  intro m hm
  rw [h1, List.mem_singleton] at hm
  subst hm
  refine ⟨⟨mo, h2, h3, by rw [h4], by rw [h4], by rw [h4], fun c hc => ?_⟩, fun mo' hmo' => ?_⟩
  · rw [h4] at hc
    simp only [List.mem_singleton] at hc
    exact ⟨_, _, _, _, _, hc⟩
  · rw [h2] at hmo'; cases hmo'
    rw [h4]; decide

theorem Ex.sphere_resolved : Sloth.Spec.Resolved Ex.sphereWorld.s.w := by
  refine ⟨_, ⟨Ex.sphere, rfl⟩, ?_⟩
  rw [Ex.sphere_w]
  have h : (resolve (Sloth.history Ex.sphere Sloth.World.init)).1.toOption = some () := by decide +kernel
  exact Sloth.Ex.resolved h

/-- The hypotheses are met: the study of the script runs, and finds 9 at -3 (and not 49 at 7). -/
example : ∃ w', runOptimization Ex.lib 0 {} Ex.sphereWorld = (.ok (), w') ∧ (getResults 0 w').toOption = some (some [-3], some [9]) ∧
    Sloth.Spec.Sound Ex.squares Sloth.Ex.ratI (· = 0) ∧ Sloth.Spec.Dicts Ex.squares ∧ Spec.Picks Ex.lib ∧ Sloth.Spec.Stating Ex.sphereWorld.s.w ∧
    Sloth.Spec.Resolved Ex.sphereWorld.s.w ∧
    ∃ o p, Ex.sphereWorld.opts[0]? = some o ∧ Ex.sphereWorld.probs[o.problem]? = some p ∧ p.objective = usageObjective Ex.squares Sloth.Ex.ratI id ["v_M1"] "u_M1" := by
  have h : (runOptimization Ex.lib 0 {} Ex.sphereWorld).1.toOption = some () := by decide +kernel
  refine ⟨(runOptimization Ex.lib 0 {} Ex.sphereWorld).2, ?_, by decide +kernel, Ex.squares_sound, Ex.squares_dicts, Ex.lib_picks, Ex.sphere_stating, Ex.sphere_resolved,
    _, _, rfl, rfl, rfl⟩
  generalize runOptimization Ex.lib 0 {} Ex.sphereWorld = r at h
  obtain ⟨r, w⟩ := r
  cases r with
  | ok u => rfl
  | error e => cases h
end Opt

end Sloth
