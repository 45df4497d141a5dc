import Verif.Props.Results

/-!
# What a run depends on, and running again after a reset (C62, C91)
-/

namespace Sloth
open PyS

section
variable {K : Type}

/-! ## What a run can see -/

/-- The block up to the groups appended to the linear one, of which only matters whether they change the kind of the problem. -/
def Spec.blockView (b : Block) : Block :=
  { b with linearTail := if b.problemType = ({ b with linearTail := [] } : Block).problemType then [] else [[]] }

theorem blockView_problemType (b : Block) : (Spec.blockView b).problemType = b.problemType := by
  obtain ⟨eqs, vd, pd, lin, non, dif, tail, vl, el⟩ := b
  unfold Spec.blockView
  simp only
  split
  · next h => exact h.symm
  · next h =>
    cases tail with
    | nil => exact absurd rfl h
    | cons a t => simp [Block.problemType]

/-- The world up to that. -/
def Spec.worldView (w : World) : World := { w with pr := { w.pr with block := w.pr.block.map Spec.blockView } }

/-- What a run may depend on: models, equations, quantities and the problem, the domains, the settings of the simulations, and which lists there are (but not their
contents, nor results, nor what has been called). -/
def Spec.view (s : SimWorld K) : World × List (DomainObj K) × List (Option Conf) × Nat :=
  (Spec.worldView s.w, s.doms, s.sims.map SimObj.conf, s.lists.length)

/-- The outcome, and what can be seen afterwards, depend on what can be seen before. -/
def PyS.Same {α τ : Type} (f : SimWorld K → τ) (x : PyS K α) : Prop := ∀ s t, f s = f t → (x s).1 = (x t).1 ∧ f (x s).2 = f (x t).2

namespace PyS.Same
variable {α β τ : Type} {f : SimWorld K → τ}

theorem pure (a : α) : Same f (PyS.pure a : PyS K α) := fun _ _ h => ⟨rfl, h⟩
theorem raise (e : Err) : Same f (PyS.raise e : PyS K α) := fun _ _ h => ⟨rfl, h⟩
theorem lift (x : Except Err α) : Same f (PyS.lift x : PyS K α) := fun _ _ h => ⟨rfl, h⟩

theorem bind {x : PyS K α} {g : α → PyS K β} (hx : Same f x) (hg : ∀ a, Same f (g a)) : Same f (x >>= g) := by
  intro s t h
  obtain ⟨h1, h2⟩ := hx s t h
  rw [bind_eq, PyS.bind, PyS.bind]
  cases hs : x s with
  | mk r s1 => cases ht : x t with
    | mk r' t1 =>
      rw [hs, ht] at h1 h2
      simp only at h1 h2
      subst h1
      cases r with
      | ok a => exact hg a _ _ h2
      | error e => exact ⟨rfl, h2⟩

theorem when {b : Bool} {x : PyS K Unit} (h : Same f x) : Same f (PyS.when b x) := by
  cases b
  · exact pure _
  · exact h

theorem prog {Q A R : Type} {g : Q → PyS K A} (h : ∀ q, Same f (g q)) (p : Prog Q A R) : Same f (p.run g) := by
  induction p with
  | ret r => exact pure _
  | fail e => exact raise _
  | ask q k ih => exact bind (h q) ih

end PyS.Same

open PyS.Same

/-- What can be seen includes the world, the domains in `D`, and which lists there are. -/
def Spec.Sees {τ : Type} (D : DRef → Prop) (f : SimWorld K → τ) : Prop :=
  ∀ s t, f s = f t → Spec.worldView s.w = Spec.worldView t.w ∧ (∀ r, D r → s.doms[r]? = t.doms[r]?) ∧ s.lists.length = t.lists.length

section
variable {α τ : Type} {f : SimWorld K → τ} {D : DRef → Prop}

theorem view_block {s t : SimWorld K} (h1 : Spec.worldView s.w = Spec.worldView t.w) :
    (s.w.pr.block = none ∧ t.w.pr.block = none) ∨ ∃ b b', s.w.pr.block = some b ∧ t.w.pr.block = some b' ∧ Spec.blockView b = Spec.blockView b' := by
  have h2 : s.w.pr.block.map Spec.blockView = t.w.pr.block.map Spec.blockView := congrArg (fun w : World => w.pr.block) h1
  cases hs : s.w.pr.block <;> cases ht : t.w.pr.block <;> rw [hs, ht] at h2 <;> simp only [Option.map_none, Option.map_some, reduceCtorEq, Option.some.injEq] at h2
  · exact .inl ⟨rfl, rfl⟩
  · exact .inr ⟨_, _, rfl, rfl, h2⟩

theorem same_getBlock (hf : Spec.Sees D f) {k : Block → PyS K α} (hk : ∀ b, k (Spec.blockView b) = k b) (h : ∀ b, Same f (k b)) : Same f (getBlock >>= k) := by
  intro s t hst
  rcases view_block (hf s t hst).1 with ⟨h1, h2⟩ | ⟨b, b', h1, h2, h3⟩
  · rw [bind_of_error (e := .attributeError) (s1 := s) (by rw [getBlock, h1]), bind_of_error (e := .attributeError) (s1 := t) (by rw [getBlock, h2])]
    exact ⟨rfl, hst⟩
  · rw [bind_of_ok (getBlock_ok.2 ⟨h1, rfl⟩), bind_of_ok (getBlock_ok.2 ⟨h2, rfl⟩)]
    rw [← hk b, ← hk b', h3]
    exact h _ _ _ hst

/-- The world alone. -/
def Spec.bare (s : SimWorld K) : SimWorld K := { w := Spec.worldView s.w, lists := [] }

theorem same_get (hf : Spec.Sees D f) {k : SimWorld K → PyS K α} (hk : ∀ s, k (Spec.bare s) = k s) (h : ∀ s, Same f (k s)) : Same f (get >>= k) := by
  intro s t hst
  have h1 : Spec.worldView s.w = Spec.worldView t.w := (hf s t hst).1
  have h2 : Spec.bare s = Spec.bare t := by unfold Spec.bare; rw [h1]
  rw [bind_get, bind_get, ← hk s, ← hk t, h2]
  exact h _ _ _ hst

theorem same_getD (hf : Spec.Sees D f) {r : DRef} (hr : D r) : Same f (getD r : PyS K _) := by
  intro s t hst
  have h1 := (hf s t hst).2.1 r hr
  unfold getD
  rw [h1]
  cases t.doms[r]? with
  | none => exact ⟨rfl, hst⟩
  | some d => exact ⟨rfl, hst⟩

end

/-- What may be done to the state without being noticed, or in the same way on both sides. -/
structure Spec.ViewClosed {τ : Type} (D : DRef → Prop) (f : SimWorld K → τ) : Prop where
  sees : Spec.Sees D f
  log : ∀ s l, f { s with log := l } = f s
  lists : ∀ s l, l.length = s.lists.length → f { s with lists := l } = f s
  doms : ∀ s t r d, D r → f s = f t → f { s with doms := s.doms.set r d } = f { t with doms := t.doms.set r d }
  w : ∀ s t w w', f s = f t → Spec.worldView w = Spec.worldView w' → f { s with w := w } = f { t with w := w' }

/-- That, and the settings of simulation `i`, the domain named there, and (in the same way on both sides) all but the settings of simulations. -/
structure Spec.ViewOf {τ : Type} (D : DRef → Prop) (i : SRef) (f : SimWorld K → τ) : Prop extends Spec.ViewClosed D f where
  conf : ∀ s t, f s = f t → s.sims[i]?.map SimObj.conf = t.sims[i]?.map SimObj.conf
  sims : ∀ (s : SimWorld K) o o', s.sims[i]? = some o → o'.conf = o.conf → f { s with sims := s.sims.set i o' } = f s
  own : ∀ s t o c r, f s = f t → s.sims[i]? = some o → o.conf = some c → dget c "domain" = some (.dom r) → s.doms[r]? = t.doms[r]?

/-- Everything a run may depend on can be seen, for whatever simulation. -/
theorem viewOf_view (i : SRef) : Spec.ViewOf (fun _ => True) i (Spec.view (K := K)) where
  sees s t h := by
    simp only [Spec.view, Prod.mk.injEq] at h
    exact ⟨h.1, fun r _ => by rw [h.2.1], h.2.2.2⟩
  log _ _ := rfl
  lists s l h := by simp only [Spec.view]; rw [h]
  doms s t r d _ h := by
    simp only [Spec.view, Prod.mk.injEq] at h ⊢
    exact ⟨h.1, by rw [h.2.1], h.2.2⟩
  w s t w w' h hw := by
    simp only [Spec.view, Prod.mk.injEq] at h ⊢
    exact ⟨hw, h.2⟩
  conf s t h := by
    have h1 : s.sims.map SimObj.conf = t.sims.map SimObj.conf := congrArg (fun p => p.2.2.1) h
    rw [← List.getElem?_map, ← List.getElem?_map, h1]
  sims s o o' ho h := by
    simp only [Spec.view, Prod.mk.injEq, true_and, and_true]
    refine List.ext_getElem? fun j => ?_
    rw [List.getElem?_map, List.getElem?_map]
    by_cases hj : i = j
    · subst hj
      rw [List.getElem?_set_self (List.getElem?_eq_some_iff.1 ho).1, ho]
      simp [h]
    · rw [List.getElem?_set_ne hj]
  own s t _ _ r h _ _ _ := by rw [show s.doms = t.doms from congrArg (fun p => p.2.1) h]

/-- What a run of simulation `i` with the settings `c0` may depend on: of the domains, only the one named in the settings (all, for other settings); and of the settings only
its own. -/
def Spec.ownView (i : SRef) (c0 : Conf) (s : SimWorld K) : World × (DRef → Option (DomainObj K)) × Option (Option Conf) × Nat :=
  (Spec.worldView s.w, fun r => if s.sims[i]?.map SimObj.conf = some (some c0) ∧ dget c0 "domain" ≠ some (.dom r) then none else s.doms[r]?, s.sims[i]?.map SimObj.conf, s.lists.length)

theorem viewOf_ownView (i : SRef) (c0 : Conf) : Spec.ViewOf (fun r => dget c0 "domain" = some (.dom r)) i (Spec.ownView (K := K) i c0) where
  sees s t h := by
    simp only [Spec.ownView, Prod.mk.injEq] at h
    refine ⟨h.1, fun r hr => ?_, h.2.2.2⟩
    have := congrFun h.2.1 r
    simpa [hr] using this
  log _ _ := rfl
  lists s l h := by simp only [Spec.ownView]; rw [h]
  doms s t r d hr h := by
    simp only [Spec.ownView, Prod.mk.injEq] at h ⊢
    refine ⟨h.1, funext fun k => ?_, h.2.2⟩
    have hk := congrFun h.2.1 k
    rw [h.2.2.1] at hk ⊢
    split
    · rfl
    · next hc =>
      rw [if_neg hc, if_neg hc] at hk
      by_cases hrk : r = k
      · subst hrk
        rw [List.getElem?_set_self', List.getElem?_set_self', hk]
      · rw [List.getElem?_set_ne hrk, List.getElem?_set_ne hrk, hk]
  w s t w w' h hw := by
    simp only [Spec.ownView, Prod.mk.injEq] at h ⊢
    exact ⟨hw, h.2⟩
  conf s t h := congrArg (fun p => p.2.2.1) h
  sims s o o' ho h := by
    have : (s.sims.set i o')[i]?.map SimObj.conf = s.sims[i]?.map SimObj.conf := by
      rw [List.getElem?_set_self (List.getElem?_eq_some_iff.1 ho).1, ho]
      simp [h]
    simp only [Spec.ownView, this]
  own s t o c r h ho hc hd := by
    simp only [Spec.ownView, Prod.mk.injEq] at h
    have hk := congrFun h.2.1 r
    rw [← h.2.2.1, ho] at hk
    simp only [Option.map_some, Option.some.injEq, hc] at hk
    by_cases hcc : c = c0
    · subst hcc
      simpa [hd] using hk
    · simpa [hcc] using hk

theorem worldView_block {w w' : World} (h : Spec.worldView w = Spec.worldView w') {b b' : Block} (hb : Spec.blockView b = Spec.blockView b') :
    Spec.worldView { w with pr := { w.pr with block := some b } } = Spec.worldView { w' with pr := { w'.pr with block := some b' } } := by
  obtain ⟨qs, es, ms, ps, pr, uid, puid⟩ := w
  obtain ⟨qs', es', ms', ps', pr', uid', puid'⟩ := w'
  obtain ⟨a1, a2, a3, a4, a5, a6, a7, a8, a9⟩ := pr
  obtain ⟨b1, b2, b3, b4, b5, b6, b7, b8, b9⟩ := pr'
  simp only [Spec.worldView, World.mk.injEq, ProblemObj.mk.injEq, Option.map_some] at h ⊢
  simp_all

variable [Field K] [LinearOrder K]
variable {τ : Type} {f : SimWorld K → τ} {D : DRef → Prop}

theorem same_called (hf : Spec.ViewClosed D f) (c : Routine) : Same f (called c : PyS K Unit) := fun s t h =>
  ⟨rfl, (hf.log s _).trans (h.trans (hf.log t _).symm)⟩

theorem same_appendArg (hf : Spec.ViewClosed D f) (tvn c : CVal) : Same f (appendArg tvn c : PyS K Unit) := by
  cases c with
  | argNames r =>
    intro s t h
    have h1 : s.lists.length = t.lists.length := (hf.sees s t h).2.2
    have step : ∀ s : SimWorld K, r < s.lists.length → (appendArg tvn (.argNames r) s).1 = .ok () ∧ f (appendArg tvn (.argNames r) s).2 = f s := by
      intro s hr
      obtain ⟨l, hl⟩ : ∃ l, s.lists[r]? = some l := ⟨_, List.getElem?_eq_getElem hr⟩
      simp only [appendArg]
      rw [bind_of_ok (a := l) (s1 := s) (by rw [getL, hl])]
      unfold PyS.when
      split
      · exact ⟨rfl, hf.lists _ _ (by simp)⟩
      · exact ⟨rfl, rfl⟩
    by_cases hr : r < s.lists.length
    · obtain ⟨h2, h3⟩ := step s hr
      obtain ⟨h4, h5⟩ := step t (h1 ▸ hr)
      exact ⟨h2.trans h4.symm, h3.trans (h.trans h5.symm)⟩
    · have e : ∀ s : SimWorld K, ¬ r < s.lists.length → appendArg tvn (.argNames r) s = (.error (.exception "dangling"), s) := by
        intro s hr
        simp only [appendArg]
        rw [bind_of_error (e := .exception "dangling") (s1 := s) (by rw [getL, List.getElem?_eq_none (Nat.le_of_not_lt hr)])]
      rw [e s hr, e t (h1 ▸ hr)]
      exact ⟨rfl, h⟩
  | _ => exact raise _

theorem same_compileIf (hf : Spec.Sees D f) (c : CVal) (b : Block) : Same f (compileIf c b : PyS K _) := by
  unfold compileIf
  split
  · exact same_get hf (fun _ => rfl) fun s => bind (lift _) fun _ => pure _
  · exact pure _

theorem same_dInit (hf : Spec.ViewClosed D f) (sv : CVal) (conf : Conf) : Same f (dInit sv conf : PyS K _) := by
  unfold dInit
  exact bind (lift _) fun _ => bind (lift _) fun _ => bind (lift _) fun _ => bind (lift _) fun _ => same_get hf.sees (fun _ => by simp only [Spec.bare, Spec.worldView]) fun s =>
    bind (lift _) fun _ => bind (when (raise _)) fun _ => bind (same_appendArg hf _ _) fun _ => same_getBlock hf.sees (fun _ => by first | rfl | simp only [Spec.blockView]) fun b =>
    bind (lift _) fun _ => bind (lift _) fun _ => bind (lift _) fun _ => bind (same_compileIf hf.sees _ _) fun _ => pure _

theorem blockView_tail {b b' : Block} (h : Spec.blockView b = Spec.blockView b') (l l' : List ERef) :
    Spec.blockView { b with linearTail := b.linearTail ++ [l] } = Spec.blockView { b' with linearTail := b'.linearTail ++ [l'] } := by
  obtain ⟨eqs, vd, pd, lin, non, dif, tail, vl, el⟩ := b
  obtain ⟨eqs', vd', pd', lin', non', dif', tail', vl', el'⟩ := b'
  simp only [Spec.blockView, Block.mk.injEq] at h
  obtain ⟨rfl, rfl, rfl, rfl, rfl, rfl, -, rfl, rfl⟩ := h
  simp [Spec.blockView, Block.problemType]

theorem same_daeSystem (hf : Spec.ViewClosed D f) : Same f (daeSystem (K := K)) := by
  intro s t hst
  unfold daeSystem
  rcases view_block (hf.sees s t hst).1 with ⟨h1, h2⟩ | ⟨b, b', h1, h2, h3⟩
  · rw [bind_of_error (e := .attributeError) (s1 := s) (by rw [getBlock, h1]), bind_of_error (e := .attributeError) (s1 := t) (by rw [getBlock, h2])]
    exact ⟨rfl, hst⟩
  · rw [bind_of_ok (getBlock_ok.2 ⟨h1, rfl⟩), bind_of_ok (getBlock_ok.2 ⟨h2, rfl⟩)]
    refine ⟨rfl, hf.w s t _ _ hst ?_⟩
    have h4 : Spec.worldView s.w = Spec.worldView t.w := (hf.sees s t hst).1
    exact worldView_block h4 (blockView_tail h3 _ _)

theorem daeCompile_view (ext : Ext K) (w : World) : daeCompile ext (Spec.worldView w) = daeCompile ext w := by
  unfold daeCompile Spec.worldView
  cases w.pr.block <;> rfl

theorem same_daeInit (hf : Spec.ViewClosed D f) (ext : Ext K) (sv : CVal) (conf : Conf) : Same f (daeInit ext sv conf) := by
  unfold daeInit
  refine bind (lift _) fun _ => bind (lift _) fun _ => bind (lift _) fun _ => same_get hf.sees (fun s => ?_) fun s =>
    bind (lift _) fun _ => bind (when (raise _)) fun _ => bind (same_appendArg hf _ _) fun _ => bind (same_daeSystem hf) fun _ =>
    bind (lift _) fun _ => bind (lift _) fun _ => pure _
  simp only [Spec.bare, daeCompile_view]
  rfl

theorem same_askKind (hf : Spec.Sees D f) (pt : CVal) : Same f (askKind pt : PyS K _) := by
  unfold askKind
  split
  · exact same_getBlock hf (fun b => by rw [blockView_problemType]) fun b => pure _
  · exact pure _

theorem same_createSolver (hf : Spec.ViewClosed D f) (ext : Ext K) (conf : Conf) : Same f (createSolver ext conf) := by
  unfold createSolver
  refine bind (lift _) fun _ => bind (lift _) fun _ => bind (lift _) fun _ => bind (lift _) fun _ =>
    same_getBlock hf.sees (fun b => by rw [blockView_problemType]) fun b => ?_
  unfold solverFor
  split
  · exact pure _
  · exact bind (lift _) fun _ => pure _
  · exact bind (same_dInit hf _ _) fun _ => pure _
  · exact bind (same_daeInit hf _ _ _) fun _ => pure _
  · exact raise _

theorem same_polishRoot (hf : Spec.ViewClosed D f) (ext : Ext K) (I : Interp K) (g : List K) (p : CVal) : Same f (polishRoot ext I g p) := by
  unfold polishRoot
  refine same_getBlock hf.sees (fun _ => by first | rfl | simp only [Spec.blockView]) fun b => ?_
  split
  · exact bind (same_called hf _) fun _ => prog (fun _ => lift _) _
  · exact bind (same_called hf _) fun _ => prog (fun _ => lift _) _
  · exact bind (same_called hf _) fun _ => prog (fun _ => lift _) _
  · exact bind (same_called hf _) fun _ => prog (fun _ => lift _) _
  · exact pure _

theorem same_sympyMech (hf : Spec.ViewClosed D f) (ext : Ext K) : Same f (sympyMech ext) := by
  unfold sympyMech
  exact same_getBlock hf.sees (fun _ => by first | rfl | simp only [Spec.blockView]) fun b => bind (same_called hf _) fun _ => bind (lift _) fun _ => lift _

theorem same_laSolve (hf : Spec.ViewClosed D f) (ext : Ext K) (conf : Conf) (m : Option Mech) : Same f (laSolve ext conf m) := by
  unfold laSolve
  split
  · exact same_sympyMech hf ext
  · unfold scipyMech
    exact same_getBlock hf.sees (fun _ => by first | rfl | simp only [Spec.blockView]) fun b => bind (same_called hf _) fun _ => bind (lift _) fun _ => pure _
  · unfold laSymbolicMech
    exact same_getBlock hf.sees (fun _ => by first | rfl | simp only [Spec.blockView]) fun b => bind (lift _) fun _ => bind (lift _) fun _ => bind (same_called hf _) fun _ => bind (lift _) fun _ => lift _
  · exact raise _

theorem same_polished (hf : Spec.ViewClosed D f) (ext : Ext K) (I : Interp K) (g : List K) (p : CVal) : Same f (polished ext I g p) := by
  unfold polished
  split
  · exact pure _
  · exact bind (same_polishRoot hf _ _ _ _) fun _ => pure _

theorem same_nlaSolve (hf : Spec.ViewClosed D f) (ext : Ext K) (I : Interp K) (conf : Conf) (m : Mech) : Same f (nlaSolve ext I conf m) := by
  unfold nlaSolve
  split
  · exact same_sympyMech hf ext
  · unfold nlaSymbolicMech
    exact same_getBlock hf.sees (fun _ => by first | rfl | simp only [Spec.blockView]) fun b => bind (lift _) fun _ => bind (lift _) fun _ => bind (lift _) fun _ => bind (same_polished hf _ _ _ _) fun _ =>
      bind (same_called hf _) fun _ => bind (lift _) fun _ => lift _

theorem blockView_varList {b b' : Block} (h : Spec.blockView b = Spec.blockView b') (l : List String) :
    Spec.blockView { b with varList := l } = Spec.blockView { b' with varList := l } := by
  obtain ⟨eqs, vd, pd, lin, non, dif, tail, vl, el⟩ := b
  obtain ⟨eqs', vd', pd', lin', non', dif', tail', vl', el'⟩ := b'
  simp only [Spec.blockView, Block.mk.injEq] at h ⊢
  obtain ⟨rfl, rfl, rfl, rfl, rfl, rfl, h7, rfl, rfl⟩ := h
  exact ⟨rfl, rfl, rfl, rfl, rfl, rfl, h7, trivial, rfl⟩

theorem same_extendKeys (hf : Spec.ViewClosed D f) (m : Dict String K) : Same f (extendKeys m) := by
  intro s t hst
  unfold extendKeys
  rcases view_block (hf.sees s t hst).1 with ⟨h1, h2⟩ | ⟨b, b', h1, h2, h3⟩
  · rw [bind_of_error (e := .attributeError) (s1 := s) (by rw [getBlock, h1]), bind_of_error (e := .attributeError) (s1 := t) (by rw [getBlock, h2])]
    exact ⟨rfl, hst⟩
  · rw [bind_of_ok (getBlock_ok.2 ⟨h1, rfl⟩), bind_of_ok (getBlock_ok.2 ⟨h2, rfl⟩)]
    have hv : b.varList = b'.varList := show (Spec.blockView b).varList = (Spec.blockView b').varList by rw [h3]
    have h4 : Spec.worldView s.w = Spec.worldView t.w := (hf.sees s t hst).1
    simp only [hv, bind_modify]
    refine ⟨rfl, hf.w s t _ _ hst ?_⟩
    exact worldView_block h4 (blockView_varList h3 _)

theorem same_rhs (hf : Spec.ViewClosed D f) (ext : Ext K) (I : Interp K) (o : DObj) (Y : List K) (t : K) : Same f (o.rhs ext I Y t) := by
  unfold DObj.rhs
  refine same_get hf.sees (fun _ => by simp only [Spec.bare, Spec.worldView]) fun s => same_getBlock hf.sees (fun b => ?_) fun b => bind (lift _) fun m => ?_
  · have : stateMap ext.sr s.w.es (Spec.blockView b) s.w.pr.timeName o.diffY Y t = stateMap ext.sr s.w.es b s.w.pr.timeName o.diffY Y t := by
      unfold stateMap
      cases s.w.pr.timeName with
      | none => rfl
      | some l =>
        simp only
        generalize (dofList (o.diffY.zip Y)) = d
        induction l generalizing d with
        | nil => rfl
        | cons n ns ih =>
          simp only [addTimes]
          have : timeDeclared ext.sr s.w.es (Spec.blockView b) (some [n]) = timeDeclared ext.sr s.w.es b (some [n]) := rfl
          rw [this]
          cases timeDeclared ext.sr s.w.es b (some [n]) with
          | error e => rfl
          | ok has => exact ih _
    rw [this]
  · split
    · exact bind (same_extendKeys hf _) fun _ => bind (lift _) fun _ => lift _
    · exact lift _

theorem same_setD (hf : Spec.ViewClosed D f) {r : DRef} (hr : D r) (d : DomainObj K) : Same f (setD r d) := fun s t h => ⟨rfl, hf.doms s t r d hr h⟩

theorem same_record (hf : Spec.ViewClosed D f) (conf : Conf) {dom : CVal} (hd : ∀ r, dom = .dom r → D r) (rows : List (List K)) : Same f (record conf dom rows) := by
  unfold record
  split
  · next r =>
    have hr := hd r rfl
    refine bind (same_getD hf.sees hr) fun _ => bind (lift _) fun _ => bind (same_setD hf hr _) fun _ => bind (lift _) fun m => ?_
    split
    · exact bind (lift _) fun _ => same_setD hf hr _
    · exact raise _
  · exact raise _

theorem same_integrate (hf : Spec.ViewClosed D f) (ext : Ext K) (I : Interp K) (o : DObj) (y0 tp : List K) : Same f (integrate ext I o y0 tp) := by
  unfold integrate
  split
  · exact bind (same_called hf _) fun _ => bind (prog (fun _ => same_rhs hf _ _ _ _ _) _) fun _ => pure _
  · exact bind (same_called hf _) fun _ => bind (prog (fun _ => same_rhs hf _ _ _ _ _) _) fun _ => pure _
  · exact bind (same_called hf _) fun _ => prog (fun _ => same_rhs hf _ _ _ _ _) _
  · exact raise _

theorem same_dSolve (hf : Spec.ViewClosed D f) (ext : Ext K) (I : Interp K) (conf : Conf) (o : DObj) (hd : ∀ r, o.domain = .dom r → D r) : Same f (dSolve ext I conf o) := by
  unfold dSolve
  refine bind (lift _) fun _ => ?_
  refine bind (lift _) fun _ => ?_
  refine bind (lift _) fun _ => ?_
  refine bind (lift _) fun _ => ?_
  refine bind (lift _) fun _ => ?_
  refine same_get hf.sees (fun _ => rfl) fun s => ?_
  refine bind (lift _) fun _ => ?_
  refine bind (lift _) fun _ => ?_
  refine bind (when (raise _)) fun _ => ?_
  refine bind (lift _) fun _ => ?_
  refine bind (same_integrate hf _ _ _ _ _) fun _ => ?_
  refine bind (lift _) fun _ => ?_
  refine bind (lift _) fun _ => ?_
  exact bind (same_record hf _ hd _) fun _ => pure _

theorem same_daeSolve (hf : Spec.ViewClosed D f) (ext : Ext K) (I : Interp K) (conf : Conf) (o : DaeObj) (hd : ∀ r, o.domain = .dom r → D r) : Same f (daeSolve ext I conf o) := by
  unfold daeSolve
  refine bind (lift _) fun _ => ?_
  refine bind (lift _) fun _ => ?_
  refine bind (lift _) fun _ => ?_
  refine bind (lift _) fun _ => ?_
  refine bind (when (raise _)) fun _ => ?_
  refine bind (lift _) fun _ => ?_
  refine same_get hf.sees (fun _ => rfl) fun s => ?_
  refine same_getBlock hf.sees (fun _ => rfl) fun b => ?_
  refine bind (lift _) fun _ => ?_
  refine bind (lift _) fun _ => ?_
  refine bind (lift _) fun _ => ?_
  refine bind ?_ fun _ => bind (lift _) fun _ => bind (lift _) fun _ => bind (same_record hf _ hd _) fun _ => pure _
  unfold integrateDae
  split
  · exact bind (lift _) fun _ => bind (lift _) fun _ => bind (lift _) fun _ => bind (same_called hf _) fun _ => prog (fun _ => lift _) _
  · exact raise _

theorem same_solve (hf : Spec.ViewClosed D f) (ext : Ext K) (I : Interp K) (conf : Conf) {sv : SolverObj} (h1 : ∀ o, sv = .d o → ∀ r, o.domain = .dom r → D r)
    (h2 : ∀ o, sv = .dae o → ∀ r, o.domain = .dom r → D r) : Same f (sv.solve ext I conf) := by
  cases sv with
  | la m => exact bind (same_laSolve hf _ _ _) fun _ => pure _
  | nla m => exact bind (same_nlaSolve hf _ _ _ _) fun _ => pure _
  | d o => exact same_dSolve hf _ _ _ _ (h1 o rfl)
  | dae o => exact same_daeSolve hf _ _ _ _ (h2 o rfl)

theorem same_sanity (hf : Spec.ViewClosed D f) (ext : Ext K) (c : Bool) : Same f (Sloth.sanity ext c) := by
  cases c
  · exact pure _
  · intro s t h
    have h4 : Spec.worldView s.w = Spec.worldView t.w := (hf.sees s t h).1
    have h5 : ∀ w, (dofTest ext.sr (Spec.worldView w)).1 = (dofTest ext.sr w).1 := by
      intro w
      unfold dofTest Spec.worldView
      cases w.pr.block with
      | none => rfl
      | some b =>
        simp only [Option.map_some]
        have : timeDeclared ext.sr w.es (Spec.blockView b) w.pr.timeName = timeDeclared ext.sr w.es b w.pr.timeName := by cases w.pr.timeName <;> rfl
        rw [this]
        cases timeDeclared ext.sr w.es b w.pr.timeName with
        | error e => rfl
        | ok x =>
          simp only
          have : dofVerdict (Spec.blockView b).varList.length (unspecParams w.qs (Spec.blockView b).parameterDict) ((Spec.blockView b).equationsList.length + (if x then 1 else 0)) =
            dofVerdict b.varList.length (unspecParams w.qs b.parameterDict) (b.equationsList.length + (if x then 1 else 0)) := rfl
          rw [this]
          split <;> rfl
    refine ⟨?_, ?_⟩
    · show (dofTest ext.sr s.w).1 = (dofTest ext.sr t.w).1
      rw [← h5 s.w, ← h5 t.w, h4]
    · rw [keeps_sanity f ext true s, keeps_sanity f ext true t, h]

/-! ## Simulations -/

/-- What can be seen, and the results and the domain of simulation `i`. -/
def Spec.withOut (i : SRef) (f : SimWorld K → τ) (s : SimWorld K) : τ × Option (Option (Output K) × CVal) := (f s, s.sims[i]?.map fun o => (o.output, o.domain))

variable {i : SRef}

theorem closed_withOut (hf : Spec.ViewOf D i f) : Spec.ViewClosed D (Spec.withOut i f) where
  sees s t h := hf.sees s t (congrArg Prod.fst h)
  log s l := Prod.ext (hf.log s l) rfl
  lists s l h := Prod.ext (hf.lists s l h) rfl
  doms s t r d hr h := Prod.ext (hf.doms s t r d hr (congrArg Prod.fst h)) (congrArg (fun p => p.2) h)
  w s t w w' h hw := Prod.ext (hf.w s t w w' (congrArg Prod.fst h) hw) (congrArg (fun p => p.2) h)

theorem view_sim (hf : Spec.ViewOf D i f) {s t : SimWorld K} (h : f s = f t) :
    (s.sims[i]? = none ∧ t.sims[i]? = none) ∨ ∃ o o', s.sims[i]? = some o ∧ t.sims[i]? = some o' ∧ o.conf = o'.conf := by
  have h2 := hf.conf s t h
  cases hs : s.sims[i]? <;> cases ht : t.sims[i]? <;> rw [hs, ht] at h2 <;> simp only [Option.map_none, Option.map_some, reduceCtorEq, Option.some.injEq] at h2
  · exact .inl ⟨rfl, rfl⟩
  · exact .inr ⟨_, _, rfl, rfl, h2⟩

theorem viewOut_setSim (hf : Spec.ViewOf D i f) {s t : SimWorld K} (h : f s = f t) {o o' p p' : SimObj K} (ho : s.sims[i]? = some o) (ho' : t.sims[i]? = some o')
    (hp : p.conf = o.conf) (hp' : p'.conf = o'.conf) (h2 : p.output = p'.output) (h3 : p.domain = p'.domain) :
    Spec.withOut i f { s with sims := s.sims.set i p } = Spec.withOut i f { t with sims := t.sims.set i p' } := by
  refine Prod.ext ((hf.sims s o p ho hp).trans (h.trans (hf.sims t o' p' ho' hp').symm)) ?_
  simp only [Spec.withOut, List.getElem?_set_self (List.getElem?_eq_some_iff.1 ho).1, List.getElem?_set_self (List.getElem?_eq_some_iff.1 ho').1, Option.map_some, h2, h3]

theorem viewOut_sim (hf : Spec.ViewOf D i f) {s t : SimWorld K} (h : Spec.withOut i f s = Spec.withOut i f t) :
    (s.sims[i]? = none ∧ t.sims[i]? = none) ∨ ∃ o o', s.sims[i]? = some o ∧ t.sims[i]? = some o' ∧ o.conf = o'.conf ∧ o.output = o'.output ∧ o.domain = o'.domain := by
  rcases view_sim hf (congrArg Prod.fst h) with h1 | ⟨o, o', h1, h2, h3⟩
  · exact .inl h1
  · have h4 : s.sims[i]?.map (fun o => (o.output, o.domain)) = t.sims[i]?.map (fun o => (o.output, o.domain)) := congrArg (fun p => p.2) h
    rw [h1, h2] at h4
    simp only [Option.map_some, Option.some.injEq, Prod.mk.injEq] at h4
    exact .inr ⟨o, o', h1, h2, h3, h4⟩

/-- The results of a dynamic problem are read from the domain in the settings. -/
theorem timeResults_reads {c : Option Conf} {s t : SimWorld K} (h : ∀ c', c = some c' → ∀ r, dget c' "domain" = some (.dom r) → s.doms[r]? = t.doms[r]?) (rt : RetType) :
    (timeResults c rt s).1 = (timeResults c rt t).1 ∧ (timeResults c rt s).2 = s ∧ (timeResults c rt t).2 = t := by
  have key : ∀ s : SimWorld K, (timeResults c rt s).2 = s := fun s => by
    refine (show Keeps (fun s : SimWorld K => s) (timeResults c rt : PyS K _) from ?_) s
    unfold timeResults domainSetting domainTables
    split
    · refine Keeps.bind ?_ fun _ => Keeps.raise _ _
      split
      · exact Keeps.raise _ _
      · exact Keeps.lift _ _
    · refine Keeps.bind ?_ fun _ => Keeps.lift _ _
      split
      · exact Keeps.raise _ _
      · refine Keeps.bind (Keeps.lift _ _) fun d => ?_
        split
        · refine Keeps.bind (Keeps.getD _ _) fun d => ?_
          split
          · exact Keeps.pure _ _
          · exact Keeps.raise _ _
        · exact Keeps.raise _ _
  refine ⟨?_, key s, key t⟩
  unfold timeResults
  split
  · unfold domainSetting
    split
    · rfl
    · next c' =>
      cases hd : dgetE c' "domain" <;> rfl
  · unfold domainTables
    split
    · rfl
    · next c' =>
      cases hd : dgetE c' "domain" with
      | error e => rfl
      | ok v =>
        have hd' : dget c' "domain" = some v := by
          unfold dgetE at hd
          split at hd
          · next h1 => cases hd; exact h1
          · cases hd
        have e : ∀ s : SimWorld K, (PyS.lift (Except.ok v) : PyS K CVal) s = (.ok v, s) := fun _ => rfl
        cases v with
        | dom r =>
          have h1 := h c' rfl r hd'
          cases h2 : t.doms[r]? with
          | none =>
            rw [h2] at h1
            have g1 : (getD r : PyS K _) s = (.error (.exception "dangling"), s) := by rw [getD, h1]
            have g2 : (getD r : PyS K _) t = (.error (.exception "dangling"), t) := by rw [getD, h2]
            rw [bind_of_error ((bind_of_ok (e s)).trans (bind_of_error g1)), bind_of_error ((bind_of_ok (e t)).trans (bind_of_error g2))]
          | some d =>
            rw [h2] at h1
            have g1 : (getD r : PyS K _) s = (.ok d, s) := by rw [getD, h1]
            have g2 : (getD r : PyS K _) t = (.ok d, t) := by rw [getD, h2]
            cases hv : d.values with
            | none =>
              rw [bind_of_error ((bind_of_ok (e s)).trans ((bind_of_ok g1).trans (by rw [hv]; rfl))), bind_of_error ((bind_of_ok (e t)).trans ((bind_of_ok g2).trans (by rw [hv]; rfl)))]
            | some x =>
              rw [bind_of_ok ((bind_of_ok (e s)).trans ((bind_of_ok g1).trans (by rw [hv]; rfl))), bind_of_ok ((bind_of_ok (e t)).trans ((bind_of_ok g2).trans (by rw [hv]; rfl)))]
              rfl
        | _ => rfl

theorem same_getResults (hf : Spec.ViewOf D i f) (rt : RetType) : Same (Spec.withOut i f) (getResults i rt : PyS K _) := by
  intro s t h
  unfold getResults
  rcases viewOut_sim hf h with ⟨h1, h2⟩ | ⟨o, o', h1, h2, h3, h4, -⟩
  · rw [bind_of_error (e := .exception "dangling") (s1 := s) (by rw [getSim, h1]), bind_of_error (e := .exception "dangling") (s1 := t) (by rw [getSim, h2])]
    exact ⟨rfl, h⟩
  · rw [bind_of_ok (getSim_ok.2 ⟨h1, rfl⟩), bind_of_ok (getSim_ok.2 ⟨h2, rfl⟩), ← h3, ← h4]
    have ht := timeResults_reads (c := o.conf) (s := s) (t := t) (fun c hc r hd => hf.own s t o c r (congrArg Prod.fst h) h1 hc hd) rt
    have hS : (timeResults o.conf rt s).1 = (timeResults o.conf rt t).1 ∧ Spec.withOut i f (timeResults o.conf rt s).2 = Spec.withOut i f (timeResults o.conf rt t).2 :=
      ⟨ht.1, by rw [ht.2.1, ht.2.2]; exact h⟩
    rcases view_block (hf.sees s t (congrArg Prod.fst h)).1 with ⟨b1, b2⟩ | ⟨b, b', b1, b2, b3⟩
    · rw [bind_of_error (e := .attributeError) (s1 := s) (by rw [getBlock, b1]), bind_of_error (e := .attributeError) (s1 := t) (by rw [getBlock, b2])]
      exact ⟨rfl, h⟩
    · rw [bind_of_ok (getBlock_ok.2 ⟨b1, rfl⟩), bind_of_ok (getBlock_ok.2 ⟨b2, rfl⟩)]
      have hk : b.problemType = b'.problemType := by rw [← blockView_problemType b, b3, blockView_problemType]
      rw [hk]
      generalize b'.problemType = k
      rcases k with _ | _ | _ | _ | _
      · exact ⟨rfl, h⟩
      · exact ⟨rfl, h⟩
      · exact ⟨rfl, h⟩
      · exact hS
      · exact hS

theorem same_getStatus (hf : Spec.ViewOf D i f) : Same (Spec.withOut i f) (getStatus i : PyS K _) := by
  unfold getStatus
  refine bind (same_getResults hf _) fun r => ?_
  intro s t h
  rcases viewOut_sim hf h with ⟨h1, h2⟩ | ⟨o, o', h1, h2, h3, h4, h5⟩
  · rw [bind_of_error (e := .exception "dangling") (s1 := s) (by rw [getSim, h1]), bind_of_error (e := .exception "dangling") (s1 := t) (by rw [getSim, h2])]
    exact ⟨rfl, h⟩
  · rw [bind_of_ok (getSim_ok.2 ⟨h1, rfl⟩), bind_of_ok (getSim_ok.2 ⟨h2, rfl⟩)]
    exact ⟨rfl, viewOut_setSim hf (congrArg Prod.fst h) h1 h2 rfl rfl h4 h5⟩

theorem same_residualTable (hf : Spec.ViewOf D i f) (l : List SObj) : Same (Spec.withOut i f) (residualTable i l : PyS K _) := by
  induction l with
  | nil => exact pure _
  | cons e t ih =>
    unfold residualTable
    refine bind ?_ fun _ => ih
    split
    · exact raise _
    · exact same_getResults hf _

theorem same_epilogue (hf : Spec.ViewOf D i f) (pt : CVal) (m r : Bool) : Same (Spec.withOut i f) (epilogue i pt m r : PyS K _) := by
  unfold epilogue
  refine bind (when (bind (same_getStatus hf) fun _ => pure _)) fun _ => ?_
  exact same_getBlock (closed_withOut hf).sees (fun b => by rw [blockView_problemType]; rfl) fun b => when (same_residualTable hf _)

/-- The same with more to be seen if the call returns. -/
def Spec.SameOut {α : Type} (i : SRef) (f : SimWorld K → τ) (x : PyS K α) : Prop := ∀ s t, f s = f t →
  (x s).1 = (x t).1 ∧ f (x s).2 = f (x t).2 ∧ ∀ a, (x s).1 = .ok a → Spec.withOut i f (x s).2 = Spec.withOut i f (x t).2

theorem sameOut_bind {α β : Type} {x : PyS K α} {g : α → PyS K β} (hx : Same f x) (hg : ∀ a, (∃ s s', x s = (.ok a, s')) → Spec.SameOut i f (g a)) : Spec.SameOut i f (x >>= g) := by
  intro s t h
  obtain ⟨h1, h2⟩ := hx s t h
  rw [bind_eq, PyS.bind, PyS.bind]
  cases hs : x s with
  | mk r s1 => cases ht : x t with
    | mk r' t1 =>
      rw [hs, ht] at h1 h2
      simp only at h1 h2
      subst h1
      cases r with
      | ok a => exact hg a ⟨s, s1, hs⟩ _ _ h2
      | error e => exact ⟨rfl, h2, fun a ha => by cases ha⟩

theorem sameOut_store (hf : Spec.ViewOf D i f) (c : Conf) (pt : CVal) (m r : Bool) (ext : Ext K) (I : Interp K) {sv : SolverObj} (hd1 : ∀ o, sv = .d o → ∀ r, o.domain = .dom r → D r)
    (hd2 : ∀ o, sv = .dae o → ∀ r, o.domain = .dom r → D r) :
    Spec.SameOut i f (solveStore ext I i c sv >>= fun _ => epilogue i pt m r) := by
  have hs : ∀ out : Output K, Spec.SameOut i f ((getSim i >>= fun o => setSim i { o with output := some out } >>= fun _ => PyS.lift (dgetE c "domain") >>= fun d =>
      getSim i >>= fun o => setSim i { o with domain := d }) >>= fun _ => epilogue i pt m r) := by
    intro out s t h
    rcases view_sim hf h with ⟨h1, h2⟩ | ⟨o, o', h1, h2, h3⟩
    · rw [bind_of_error (bind_of_error (e := .exception "dangling") (s1 := s) (by rw [getSim, h1])),
        bind_of_error (bind_of_error (e := .exception "dangling") (s1 := t) (by rw [getSim, h2]))]
      exact ⟨rfl, h, fun _ h => by cases h⟩
    · cases hd : dgetE c "domain" with
      | error e =>
        have key : ∀ (s : SimWorld K) o, s.sims[i]? = some o → ((getSim i >>= fun o => setSim i { o with output := some out } >>= fun _ => PyS.lift (.error e) >>= fun d =>
            getSim i >>= fun o => setSim i { o with domain := d }) >>= fun _ => epilogue i pt m r) s = (.error e, { s with sims := s.sims.set i { o with output := some out } }) := by
          intro s o ho
          refine bind_of_error ?_
          rw [bind_of_ok (getSim_ok.2 ⟨ho, rfl⟩)]
          rfl
        rw [key s o h1, key t o' h2]
        exact ⟨rfl, (hf.sims s o { o with output := some out } h1 rfl).trans (h.trans (hf.sims t o' { o' with output := some out } h2 rfl).symm), fun _ h => by cases h⟩
      | ok d =>
        have key : ∀ (s : SimWorld K) o, s.sims[i]? = some o → ((getSim i >>= fun o => setSim i { o with output := some out } >>= fun _ => PyS.lift (.ok d) >>= fun d =>
            getSim i >>= fun o => setSim i { o with domain := d }) >>= fun _ => epilogue i pt m r) s =
              epilogue i pt m r { s with sims := s.sims.set i { o with output := some out, domain := d } } := by
          intro s o ho
          refine bind_of_ok (a := ()) ?_
          rw [bind_of_ok (getSim_ok.2 ⟨ho, rfl⟩)]
          show (getSim i >>= fun o => setSim i { o with domain := d }) { s with sims := s.sims.set i { o with output := some out } } = _
          have hi := (List.getElem?_eq_some_iff.1 ho).1
          rw [bind_of_ok (getSim_ok.2 ⟨List.getElem?_set_self hi, rfl⟩)]
          simp [setSim, PyS.modify, List.set_set]
        rw [key s o h1, key t o' h2]
        have h4 := same_epilogue hf pt m r _ _ (viewOut_setSim hf (p := { o with output := some out, domain := d }) (p' := { o' with output := some out, domain := d }) h h1 h2 rfl rfl rfl rfl)
        exact ⟨h4.1, congrArg Prod.fst h4.2, fun _ _ => h4.2⟩
  have : (solveStore ext I i c sv >>= fun _ => epilogue i pt m r) = sv.solve ext I c >>= fun out => ((getSim i >>= fun o => setSim i { o with output := some out } >>= fun _ =>
      PyS.lift (dgetE c "domain") >>= fun d => getSim i >>= fun o => setSim i { o with domain := d }) >>= fun _ => epilogue i pt m r) := by
    funext s
    unfold solveStore
    rw [bind_eq, PyS.bind, bind_eq, PyS.bind]
    conv_rhs => rw [bind_eq, PyS.bind]
    cases sv.solve ext I c s with
    | mk r s1 => cases r <;> rfl
  rw [this]
  exact sameOut_bind (same_solve hf.toViewClosed ext I c hd1 hd2) fun out _ => hs out

/-- A solver has the domain of the configuration. -/
theorem createSolver_domain {ext : Ext K} {conf : Conf} {s s' : SimWorld K} {sv : SolverObj} (h : createSolver ext conf s = (.ok sv, s')) {c : CVal}
    (hc : dget conf "domain" = some c) : (∀ o, sv = .d o → o.domain = c) ∧ ∀ o, sv = .dae o → o.domain = c := by
  have hc' : dgetE conf "domain" = .ok c := by unfold dgetE; rw [hc]
  unfold createSolver at h
  simp only [bind_ok, lift_ok, getBlock_ok] at h
  obtain ⟨lin, s1, ⟨_, rfl⟩, non, s2, ⟨_, rfl⟩, dif, s3, ⟨_, rfl⟩, dae, s4, ⟨_, rfl⟩, b', s5, ⟨hb', rfl⟩, h⟩ := h
  generalize b'.problemType = k at h
  rcases k with _ | k
  · cases h
  cases k <;> simp only [solverFor] at h
  · cases h; exact ⟨fun o h => (by cases h), fun o h => (by cases h)⟩
  · rw [bind_ok] at h
    obtain ⟨m, t, h1, h2⟩ := h
    cases h2; exact ⟨fun o h => (by cases h), fun o h => (by cases h)⟩
  · rw [bind_ok] at h
    obtain ⟨m, t, h1, h2⟩ := h
    cases h2
    refine ⟨fun o h => ?_, fun o h => (by cases h)⟩
    cases h
    unfold dInit at h1
    rw [bind_lift_ok hc'] at h1
    simp only [bind_ok] at h1
    obtain ⟨_, _, _, _, _, _, _, _, _, _, _, _, _, _, _, _, _, _, _, _, _, _, _, _, _, _, _, _, _, _, _, _, _, _, _, _, h1⟩ := h1
    cases h1; rfl
  · rw [bind_ok] at h
    obtain ⟨m, t, h1, h2⟩ := h
    cases h2
    refine ⟨fun o h => (by cases h), fun o h => ?_⟩
    cases h
    unfold daeInit at h1
    rw [bind_lift_ok hc'] at h1
    simp only [bind_ok] at h1
    obtain ⟨_, _, _, _, _, _, _, _, _, _, _, _, _, _, _, _, _, _, _, _, _, _, _, _, _, _, _, h1⟩ := h1
    cases h1; rfl

theorem createSolver_domain_dom {ext : Ext K} {conf : Conf} {s s' : SimWorld K} {sv : SolverObj} (h : createSolver ext conf s = (.ok sv, s')) {r : DRef}
    (hr : (∃ o, sv = .d o ∧ o.domain = .dom r) ∨ ∃ o, sv = .dae o ∧ o.domain = .dom r) : dget conf "domain" = some (.dom r) := by
  cases hc : dget conf "domain" with
  | some c =>
    obtain ⟨h1, h2⟩ := createSolver_domain h hc
    rcases hr with ⟨o, ho, hr⟩ | ⟨o, ho, hr⟩
    · rw [← h1 o ho, hr]
    · rw [← h2 o ho, hr]
  | none =>
    exfalso
    have hc' : dgetE conf "domain" = .error .keyError := by unfold dgetE; rw [hc]
    unfold createSolver at h
    simp only [bind_ok, lift_ok, getBlock_ok] at h
    obtain ⟨lin, s1, ⟨_, rfl⟩, non, s2, ⟨_, rfl⟩, dif, s3, ⟨_, rfl⟩, dae, s4, ⟨_, rfl⟩, b', s5, ⟨hb', rfl⟩, h⟩ := h
    generalize b'.problemType = k at h
    rcases k with _ | k
    · cases h
    cases k <;> simp only [solverFor] at h
    · cases h; rcases hr with ⟨o, h, -⟩ | ⟨o, h, -⟩ <;> cases h
    · rw [bind_ok] at h
      obtain ⟨m, t, h1, h2⟩ := h
      cases h2; rcases hr with ⟨o, h, -⟩ | ⟨o, h, -⟩ <;> cases h
    · rw [bind_ok] at h
      obtain ⟨m, t, h1, h2⟩ := h
      unfold dInit at h1
      rw [hc'] at h1
      cases h1
    · rw [bind_ok] at h
      obtain ⟨m, t, h1, h2⟩ := h
      unfold daeInit at h1
      rw [hc'] at h1
      cases h1

/-- What a run does is determined by what can be seen, if the domain in its settings can. -/
theorem run_determined_by (hf : Spec.ViewOf D i f) (ext : Ext K) (I : Interp K) (a : RunArgs) {s t : SimWorld K} (h : f s = f t)
    (hD : ∀ o c r, s.sims[i]? = some o → o.conf = some c → dget c "domain" = some (.dom r) → D r) :
    (runSimulation ext I i a s).1 = (runSimulation ext I i a t).1 ∧ f (runSimulation ext I i a s).2 = f (runSimulation ext I i a t).2 ∧
    ((runSimulation ext I i a s).1 = .ok () → (runSimulation ext I i a s).2.sims[i]?.map (fun o => (o.output, o.domain)) =
      (runSimulation ext I i a t).2.sims[i]?.map fun o => (o.output, o.domain)) := by
  suffices hrun : (runSimulation ext I i a s).1 = (runSimulation ext I i a t).1 ∧ f (runSimulation ext I i a s).2 = f (runSimulation ext I i a t).2 ∧
      ∀ x, (runSimulation ext I i a s).1 = .ok x → Spec.withOut i f (runSimulation ext I i a s).2 = Spec.withOut i f (runSimulation ext I i a t).2 from
    ⟨hrun.1, hrun.2.1, fun hok => congrArg (fun p => p.2) (hrun.2.2 () hok)⟩
  unfold runSimulation
  rcases view_sim hf h with ⟨h1, h2⟩ | ⟨o, o', h1, h2, h3⟩
  · rw [bind_of_error (e := .exception "dangling") (s1 := s) (by rw [getSim, h1]), bind_of_error (e := .exception "dangling") (s1 := t) (by rw [getSim, h2])]
    exact ⟨rfl, h, fun _ h => by cases h⟩
  · rw [bind_of_ok (getSim_ok.2 ⟨h1, rfl⟩), bind_of_ok (getSim_ok.2 ⟨h2, rfl⟩), ← h3]
    refine sameOut_bind (lift _) (fun c hc => ?_) s t h
    have hoc : o.conf = some c := by
      obtain ⟨_, _, hc⟩ := hc
      cases ho : o.conf with
      | none => rw [ho] at hc; cases hc
      | some c' => rw [ho] at hc; cases hc; rfl
    refine sameOut_bind (lift _) fun pt _ => ?_
    refine sameOut_bind (lift _) fun n _ => ?_
    refine sameOut_bind (same_askKind hf.sees pt) fun k _ => ?_
    refine sameOut_bind (when (raise _)) fun _ _ => ?_
    refine sameOut_bind (same_createSolver hf.toViewClosed ext c) fun sv hsv => ?_
    refine sameOut_bind (same_sanity hf.toViewClosed ext _) fun _ _ => ?_
    obtain ⟨s0, s1, hsv⟩ := hsv
    exact sameOut_store hf c pt _ _ ext I (fun o1 h1' r hr => hD o c r h1 hoc (createSolver_domain_dom hsv (.inl ⟨o1, h1', hr⟩)))
      (fun o1 h1' r hr => hD o c r h1 hoc (createSolver_domain_dom hsv (.inr ⟨o1, h1', hr⟩)))

/-- **C91.** What a run does is determined by what it may depend on: with the same models, problem, domains and settings it raises the same or returns, the domains and
everything else that matters for later runs are the same afterwards, and if it returns the results are.  Earlier results, other simulations' results, the contents of
lists of argument names and earlier calls of routines do not matter. -/
theorem run_determined (ext : Ext K) (I : Interp K) (i : SRef) (a : RunArgs) {s t : SimWorld K} (h : Spec.view s = Spec.view t) :
    (runSimulation ext I i a s).1 = (runSimulation ext I i a t).1 ∧ Spec.view (runSimulation ext I i a s).2 = Spec.view (runSimulation ext I i a t).2 ∧
    ((runSimulation ext I i a s).1 = .ok () → (runSimulation ext I i a s).2.sims[i]?.map (fun o => (o.output, o.domain)) =
      (runSimulation ext I i a t).2.sims[i]?.map fun o => (o.output, o.domain)) :=
  run_determined_by (viewOf_view i) ext I a h fun _ _ _ _ _ _ => trivial

/-- **C91.** Moreover, of the domains and the settings only the simulation's own matter, whatever the others are or have become in between. -/
theorem run_determined_own (ext : Ext K) (I : Interp K) (i : SRef) (a : RunArgs) {s t : SimWorld K} {o o' : SimObj K} {c : Conf} (ho : s.sims[i]? = some o) (hc : o.conf = some c)
    (ho' : t.sims[i]? = some o') (hc' : o'.conf = some c) (hw : Spec.worldView s.w = Spec.worldView t.w) (hl : s.lists.length = t.lists.length)
    (hd : ∀ r, dget c "domain" = some (.dom r) → s.doms[r]? = t.doms[r]?) :
    (runSimulation ext I i a s).1 = (runSimulation ext I i a t).1 ∧ (∀ r, dget c "domain" = some (.dom r) → (runSimulation ext I i a s).2.doms[r]? = (runSimulation ext I i a t).2.doms[r]?) ∧
    ((runSimulation ext I i a s).1 = .ok () → (runSimulation ext I i a s).2.sims[i]?.map (fun o => (o.output, o.domain)) =
      (runSimulation ext I i a t).2.sims[i]?.map fun o => (o.output, o.domain)) := by
  have hv : Spec.ownView i c s = Spec.ownView i c t := by
    simp only [Spec.ownView, hw, hl, ho, ho', Option.map_some, hc, hc', true_and, Prod.mk.injEq, and_true]
    funext r
    split
    · rfl
    · next h => exact hd r (not_not.1 h)
  obtain ⟨h1, h2, h3⟩ := run_determined_by (viewOf_ownView i c) ext I a hv fun o1 c1 r h1 h2 h3 => by
    rw [ho] at h1; cases h1
    rw [hc] at h2; cases h2
    exact h3
  exact ⟨h1, fun r hr => ((viewOf_ownView i c).sees _ _ h2).2.1 r hr, h3⟩

/-! ## Running again after a reset -/

/-- The domain without its tables. -/
def Spec.shape (d : DomainObj K) : DomainObj K := { d with values := none }

theorem reset_of_shape {d d' : DomainObj K} (h : Spec.shape d = Spec.shape d') : d.reset = d'.reset := by
  obtain ⟨n, i, p, v⟩ := d
  obtain ⟨n', i', p', v'⟩ := d'
  simp only [Spec.shape, DomainObj.mk.injEq] at h
  obtain ⟨rfl, rfl, rfl, -⟩ := h
  rfl

/-- What recording in domain `r` keeps: the other domains and the shape of this one. -/
def Spec.domsBut (r : DRef) (s : SimWorld K) : List (DomainObj K) := s.doms.modify r Spec.shape

theorem domsBut_set {r : DRef} {s : SimWorld K} {d d' : DomainObj K} (h : s.doms[r]? = some d) (hd : Spec.shape d' = Spec.shape d) :
    Spec.domsBut r { s with doms := s.doms.set r d' } = Spec.domsBut r s := by
  unfold Spec.domsBut
  refine List.ext_getElem? fun j => ?_
  simp only [List.getElem?_modify, List.getElem?_set]
  by_cases hj : r = j
  · subst hj
    simp [(List.getElem?_eq_some_iff.1 h).1, (List.getElem?_eq_some_iff.1 h).2, hd]
  · simp [hj]

theorem register_shape {rows : List (List K)} {v : Option String} {d d' : DomainObj K} (h : d.register rows v = .ok d') : Spec.shape d' = Spec.shape d := by
  unfold DomainObj.register at h
  rw [bind_eq_ok] at h
  obtain ⟨x, -, h⟩ := h
  split at h
  · cases h
  · rw [bind_eq_ok] at h
    obtain ⟨f, -, h⟩ := h
    rw [bind_eq_ok] at h
    obtain ⟨f', -, h⟩ := h
    cases h; rfl

theorem renameHeaders_shape {m : Dict String String} {d d' : DomainObj K} (h : d.renameHeaders m = .ok d') : Spec.shape d' = Spec.shape d := by
  unfold DomainObj.renameHeaders at h
  split at h
  · cases h
  · cases h; rfl

theorem record_keeps (conf : Conf) (r : DRef) (rows : List (List K)) : Keeps (Spec.domsBut r) (record conf (.dom r) rows) := by
  intro s
  simp only [record]
  cases hr : s.doms[r]? with
  | none => rw [bind_of_error (e := .exception "dangling") (s1 := s) (by rw [getD, hr])]
  | some d =>
    rw [bind_of_ok (a := d) (s1 := s) (by rw [getD, hr])]
    cases h1 : d.register rows none with
    | error e => rw [bind_lift_error rfl]
    | ok d1 =>
      rw [bind_lift_ok rfl]
      have e1 := register_shape h1
      have k1 := domsBut_set (s := s) hr e1
      show Spec.domsBut r ((PyS.lift (dgetE conf "variable_name_map") >>= _) { s with doms := s.doms.set r d1 }).2 = _
      cases h2 : dgetE conf "variable_name_map" with
      | error e => rw [bind_lift_error rfl]; exact k1
      | ok m =>
        rw [bind_lift_ok rfl]
        split
        · next m =>
          cases h3 : d1.renameHeaders m with
          | error e => rw [bind_lift_error rfl]; exact k1
          | ok d2 =>
            rw [bind_lift_ok rfl]
            have e2 := renameHeaders_shape h3
            have hi := (List.getElem?_eq_some_iff.1 hr).1
            refine Eq.trans ?_ k1
            exact domsBut_set (s := { s with doms := s.doms.set r d1 }) (List.getElem?_set_self hi) e2
        · exact k1

/-- Solving keeps the other domains and the shape of its own. -/
theorem solve_domsBut {sv : SolverObj} {r : DRef} (hd : ∀ o, sv = .d o → o.domain = .dom r) (hd' : ∀ o, sv = .dae o → o.domain = .dom r) (ext : Ext K) (I : Interp K)
    (conf : Conf) : Keeps (Spec.domsBut r) (sv.solve ext I conf) := by
  have hl : ∀ (s : SimWorld K) l, Spec.domsBut r { s with log := l } = Spec.domsBut r s := fun _ _ => rfl
  cases sv with
  | la m => exact Keeps.bind (keeps_laSolve hl _ _ _) fun _ => Keeps.pure _ _
  | nla m => exact Keeps.bind (keeps_nlaSolve hl _ _ _ _) fun _ => Keeps.pure _ _
  | d o =>
    show Keeps _ (dSolve ext I conf o)
    unfold dSolve
    rw [hd o rfl]
    exact Keeps.bind (Keeps.lift _ _) fun _ => Keeps.bind (Keeps.lift _ _) fun _ => Keeps.bind (Keeps.lift _ _) fun _ =>
      Keeps.bind (Keeps.lift _ _) fun _ => Keeps.bind (Keeps.lift _ _) fun _ => Keeps.bind (Keeps.get _) fun _ =>
      Keeps.bind (Keeps.lift _ _) fun _ => Keeps.bind (Keeps.lift _ _) fun _ => Keeps.bind (Keeps.when (Keeps.raise _ _)) fun _ =>
      Keeps.bind (Keeps.lift _ _) fun _ => Keeps.bind (keeps_integrate hl (fun _ _ _ _ _ => rfl) _ _ _ _) fun _ => Keeps.bind (Keeps.lift _ _) fun _ =>
      Keeps.bind (Keeps.lift _ _) fun _ => Keeps.bind (record_keeps _ _ _) fun _ => Keeps.pure _ _
  | dae o =>
    show Keeps _ (daeSolve ext I conf o)
    unfold daeSolve
    rw [hd' o rfl]
    refine Keeps.bind (Keeps.lift _ _) fun _ => Keeps.bind (Keeps.lift _ _) fun _ => Keeps.bind (Keeps.lift _ _) fun _ =>
      Keeps.bind (Keeps.lift _ _) fun _ => Keeps.bind (Keeps.when (Keeps.raise _ _)) fun _ => Keeps.bind (Keeps.lift _ _) fun _ =>
      Keeps.bind (Keeps.get _) fun _ => Keeps.bind (Keeps.getBlock _) fun _ => Keeps.bind (Keeps.lift _ _) fun _ =>
      Keeps.bind (Keeps.lift _ _) fun _ => Keeps.bind (Keeps.lift _ _) fun _ => Keeps.bind ?_ fun _ => Keeps.bind (Keeps.lift _ _) fun _ =>
      Keeps.bind (Keeps.lift _ _) fun _ => Keeps.bind (record_keeps _ _ _) fun _ => Keeps.pure _ _
    unfold integrateDae
    split
    · exact Keeps.bind (Keeps.lift _ _) fun _ => Keeps.bind (Keeps.lift _ _) fun _ => Keeps.bind (Keeps.lift _ _) fun _ =>
        Keeps.bind (keeps_called hl _) fun _ => Keeps.prog (fun _ => Keeps.lift _ _) _
    · exact Keeps.raise _ _

/-- No list of argument names is made or lost. -/
theorem createSolver_lists_length (ext : Ext K) (conf : Conf) : Keeps (fun s : SimWorld K => s.lists.length) (createSolver ext conf) := by
  have ha : ∀ tvn c, Keeps (fun s : SimWorld K => s.lists.length) (appendArg tvn c) := by
    intro tvn c
    cases c with
    | argNames r => exact Keeps.bind (Keeps.getL _ _) fun l => Keeps.when (Keeps.modify fun s => by simp)
    | _ => exact Keeps.raise _ _
  unfold createSolver
  refine Keeps.bind (Keeps.lift _ _) fun _ => Keeps.bind (Keeps.lift _ _) fun _ => Keeps.bind (Keeps.lift _ _) fun _ =>
    Keeps.bind (Keeps.lift _ _) fun _ => Keeps.bind (Keeps.getBlock _) fun b => ?_
  unfold solverFor
  split
  · exact Keeps.pure _ _
  · exact Keeps.bind (Keeps.lift _ _) fun _ => Keeps.pure _ _
  · refine Keeps.bind ?_ fun _ => Keeps.pure _ _
    unfold dInit
    exact Keeps.bind (Keeps.lift _ _) fun _ => Keeps.bind (Keeps.lift _ _) fun _ => Keeps.bind (Keeps.lift _ _) fun _ =>
      Keeps.bind (Keeps.lift _ _) fun _ => Keeps.bind (Keeps.get _) fun _ => Keeps.bind (Keeps.lift _ _) fun _ =>
      Keeps.bind (Keeps.when (Keeps.raise _ _)) fun _ => Keeps.bind (ha _ _) fun _ => Keeps.bind (Keeps.getBlock _) fun _ =>
      Keeps.bind (Keeps.lift _ _) fun _ => Keeps.bind (Keeps.lift _ _) fun _ => Keeps.bind (Keeps.lift _ _) fun _ =>
      Keeps.bind (keeps_compileIf _ _ _) fun _ => Keeps.pure _ _
  · refine Keeps.bind ?_ fun _ => Keeps.pure _ _
    unfold daeInit
    exact Keeps.bind (Keeps.lift _ _) fun _ => Keeps.bind (Keeps.lift _ _) fun _ => Keeps.bind (Keeps.lift _ _) fun _ =>
      Keeps.bind (Keeps.get _) fun _ => Keeps.bind (Keeps.lift _ _) fun _ =>
      Keeps.bind (Keeps.when (Keeps.raise _ _)) fun _ => Keeps.bind (ha _ _) fun _ =>
      Keeps.bind (keeps_daeSystem (fun _ _ _ _ => rfl)) fun _ => Keeps.bind (Keeps.lift _ _) fun _ => Keeps.bind (Keeps.lift _ _) fun _ => Keeps.pure _ _
  · exact Keeps.raise _ _

theorem run_problemType {ext : Ext K} {I : Interp K} {i : SRef} {a : RunArgs} {s s1 : SimWorld K} (h : runSimulation ext I i a s = (.ok (), s1)) :
    s1.w.pr.block.map Block.problemType = s.w.pr.block.map Block.problemType := by
  obtain ⟨o, c, pt, b, sv, t1, t2, t3, ho, hc, hpt, hb, hsv, hsan, hst, hep⟩ := run_parts h
  have e1 : t1.w.pr.block.map Block.problemType = s.w.pr.block.map Block.problemType := by
    by_cases hk : b.problemType = some .dae
    · rw [(dae_solver_changes_group hb hk hsv).1, hb]
      simp only [Option.map_some, Option.some.injEq, hk]
      unfold Block.problemType at hk ⊢
      revert hk
      cases b.linear <;> cases b.linearTail <;> cases b.nonlinear <;> cases b.differential <;> simp
    · have := create_keeps_problem_partial ext c s hb hk
      rw [hsv] at this
      rw [this]
  let f : SimWorld K → Option (Option ProblemKind) := fun s => s.w.pr.block.map Block.problemType
  have e2 : f t2 = f t1 := by have := keeps_sanity f ext a.sanity t1; rwa [hsan] at this
  have e3 : f t3 = f t2 := by
    have := keeps_solveStore (f := f) (fun _ _ => rfl) (fun _ _ => rfl) (sv := sv) (fun _ s b l hb => by simp only [f, hb]; rfl) (i := i) (fun _ _ _ _ => rfl) (fun _ _ _ _ => rfl) ext I c t2
    rwa [hst] at this
  have e4 : f s1 = f t3 := by
    have := keeps_epilogue (f := f) (i := i) (fun _ _ _ _ => rfl) pt a.showMsg a.showResiduals t3
    rwa [hep] at this
  exact e4.trans (e3.trans (e2.trans e1))

theorem run_domsBut {ext : Ext K} {I : Interp K} {i : SRef} {a : RunArgs} {s s1 : SimWorld K} (h : runSimulation ext I i a s = (.ok (), s1))
    {o : SimObj K} (ho : s.sims[i]? = some o) {c : Conf} (hc : o.conf = some c) {r : DRef} (hd : dget c "domain" = some (.dom r)) :
    Spec.domsBut r s1 = Spec.domsBut r s ∧ ∃ o', s1.sims[i]? = some o' ∧ o'.domain = .dom r := by
  obtain ⟨o', c', pt, b, sv, t1, t2, t3, ho', hc', hpt, hb, hsv, hsan, hst, hep⟩ := run_parts h
  obtain rfl : o = o' := Option.some.inj (ho.symm.trans ho')
  obtain rfl : c = c' := Option.some.inj (hc.symm.trans hc')
  have hdm := createSolver_domain hsv hd
  have e1 : Spec.domsBut r t1 = Spec.domsBut r s := by
    have := keeps_createSolver (f := Spec.domsBut (K := K) r) (fun _ _ => rfl) (fun _ _ _ _ => rfl) ext c s
    rwa [hsv] at this
  have e2 : Spec.domsBut r t2 = Spec.domsBut r t1 := by have := keeps_sanity (Spec.domsBut r) ext a.sanity t1; rwa [hsan] at this
  have e3 : Spec.domsBut r t3 = Spec.domsBut r t2 := by
    have : Keeps (Spec.domsBut r) (solveStore ext I i c sv) := by
      unfold solveStore
      exact Keeps.bind (solve_domsBut hdm.1 hdm.2 ext I c) fun out => keeps_setSim (fun s o h => rfl) fun _ =>
        Keeps.bind (Keeps.lift _ _) fun d => Keeps.bind (Keeps.getSim _ _) fun _ => Keeps.modify fun _ => rfl
    have := this t2
    rwa [hst] at this
  have e4 : Spec.domsBut r s1 = Spec.domsBut r t3 := by
    have := keeps_epilogue (f := Spec.domsBut (K := K) r) (i := i) (fun _ _ _ _ => rfl) pt a.showMsg a.showResiduals t3
    rwa [hep] at this
  obtain ⟨out, s4, o3, d, hout, ho3, hout3, hd3, hd4, hw4⟩ := solveStore_ok hst
  have hdd : d = .dom r := by unfold dgetE at hd3; rw [hd] at hd3; cases hd3; rfl
  refine ⟨e4.trans (e3.trans (e2.trans e1)), ?_⟩
  have e5 : s1.sims[i]?.map SimObj.domain = t3.sims[i]?.map SimObj.domain := by
    have := keeps_epilogue (f := fun s : SimWorld K => s.sims[i]?.map SimObj.domain) (i := i) (fun s o st ho => by
      simp only [List.getElem?_set_self (List.getElem?_eq_some_iff.1 ho).1, ho, Option.map_some]) pt a.showMsg a.showResiduals t3
    rwa [hep] at this
  rw [ho3] at e5
  cases h1 : s1.sims[i]? with
  | none => rw [h1] at e5; cases e5
  | some o1 =>
    rw [h1] at e5
    simp only [Option.map_some, Option.some.injEq] at e5
    exact ⟨o1, rfl, by rw [e5, hd4, hdd]⟩

theorem worldView_of_core {w w' : World} (h : Spec.core w' = Spec.core w) (hv : w'.pr.block.map Block.varList = w.pr.block.map Block.varList)
    (hk : w'.pr.block.map Block.problemType = w.pr.block.map Block.problemType) : Spec.worldView w' = Spec.worldView w := by
  obtain ⟨qs, es, ms, ps, pr, uid, puid⟩ := w
  obtain ⟨qs', es', ms', ps', pr', uid', puid'⟩ := w'
  obtain ⟨a1, a2, a3, a4, a5, a6, a7, a8, a9⟩ := pr
  obtain ⟨b1, b2, b3, b4, b5, b6, b7, b8, b9⟩ := pr'
  simp only [Spec.core, World.mk.injEq, ProblemObj.mk.injEq] at h
  obtain ⟨rfl, rfl, rfl, rfl, ⟨rfl, rfl, rfl, rfl, rfl, rfl, rfl, rfl, h9⟩, rfl, rfl⟩ := h
  simp only at hv hk
  unfold Spec.worldView
  simp only [World.mk.injEq, ProblemObj.mk.injEq, true_and, and_true]
  cases a9 with
  | none => cases b9 with
    | none => rfl
    | some b => cases hv
  | some a => cases b9 with
    | none => cases hv
    | some b =>
      simp only [Option.map_some, Option.some.injEq] at hv hk h9 ⊢
      obtain ⟨eqs, vd, pd, lin, non, dif, tail, vl, el⟩ := a
      obtain ⟨eqs', vd', pd', lin', non', dif', tail', vl', el'⟩ := b
      simp only [Block.mk.injEq] at h9 hv
      obtain ⟨rfl, rfl, rfl, rfl, rfl, rfl, -, -, rfl⟩ := h9
      subst hv
      unfold Spec.blockView
      simp only
      rw [hk]

/-- **C62 (partial).** A run that recorded in a domain without tables of its own, and then a reset, leave everything a run depends on as it was, and a second run returns
with the same results and the same tables as the first.  Missing: a run that extends the list of unknowns (`ode_run_extends_unknowns`); without the reset the second run
is refused (`second_dynamic_run_refused`). -/
theorem run_after_reset_partial {ext : Ext K} {I : Interp K} {i : SRef} {a : RunArgs} {s s1 : SimWorld K} (h : runSimulation ext I i a s = (.ok (), s1))
    {o : SimObj K} (ho : s.sims[i]? = some o) {c : Conf} (hc : o.conf = some c) {r : DRef} (hd : dget c "domain" = some (.dom r))
    {d : DomainObj K} (hr : s.doms[r]? = some d) (hf : d.reset = d)
    (hv : s1.w.pr.block.map Block.varList = s.w.pr.block.map Block.varList) :
    ∃ s2 s3, (SOp.reset i).exec ext I s1 = (.ok (), s2) ∧ s2.doms = s.doms ∧ runSimulation ext I i a s2 = (.ok (), s3) ∧ s3.doms = s1.doms ∧
      s3.sims[i]?.map (fun o => (o.output, o.domain)) = s1.sims[i]?.map fun o => (o.output, o.domain) := by
  obtain ⟨hb, o1, ho1, hd1⟩ := run_domsBut h ho hc hd
  have hpoint : ∀ j : Nat, s1.doms[j]?.map (if r = j then Spec.shape else id) = s.doms[j]?.map (if r = j then Spec.shape else id) := by
    intro j
    have := congrArg (fun l => l[j]?) hb
    simp only [Spec.domsBut, List.getElem?_modify] at this
    split at this <;> simp_all
  obtain ⟨d1, hr1, hsh⟩ : ∃ d1, s1.doms[r]? = some d1 ∧ Spec.shape d1 = Spec.shape d := by
    have := hpoint r
    rw [hr] at this
    cases h1 : s1.doms[r]? with
    | none => rw [h1] at this; cases this
    | some d1 => rw [h1] at this; simp at this; exact ⟨d1, rfl, this⟩
  have hres : d1.reset = d := (reset_of_shape hsh).trans hf
  have hreset : resetSim i s1 = (.ok (), { s1 with doms := s1.doms.set r d }) := by
    unfold resetSim
    rw [bind_of_ok (getSim_ok.2 ⟨ho1, rfl⟩), hd1]
    simp only
    rw [bind_of_ok (a := d1) (s1 := s1) (by rw [getD, hr1]), hres]
    rfl
  have hdoms : s1.doms.set r d = s.doms := by
    refine List.ext_getElem? fun j => ?_
    have := hpoint j
    by_cases hj : r = j
    · subst hj
      rw [List.getElem?_set_self (List.getElem?_eq_some_iff.1 hr1).1, hr]
    · rw [List.getElem?_set_ne hj]
      simpa [hj] using this
  have hsims : s1.sims.map SimObj.conf = s.sims.map SimObj.conf := by
    obtain ⟨k1, k2, -⟩ := run_leaves_others_partial ext I i a s
    rw [h] at k1 k2
    refine List.ext_getElem? fun j => ?_
    rw [List.getElem?_map, List.getElem?_map]
    by_cases hj : j = i
    · subst hj
      have := congrArg (Option.map Prod.snd) k2
      simpa [Option.map_map, Function.comp_def] using this
    · rw [k1 j hj]
  have hlists : s1.lists.length = s.lists.length := by
    have := keeps_run (f := fun s : SimWorld K => s.lists.length) (ext := ext) (I := I) (i := i) a (s := s) (fun _ c _ _ => createSolver_lists_length ext c s)
      (fun _ _ => rfl) (fun _ _ => rfl) (fun _ _ _ _ _ _ _ _ _ _ _ _ => rfl) (fun _ _ _ _ => rfl) (fun _ _ _ _ => rfl) (fun _ _ _ _ => rfl)
    rwa [h] at this
  have hw : Spec.worldView s1.w = Spec.worldView s.w := by
    refine worldView_of_core ?_ hv (run_problemType h)
    have := (run_keeps_problem_partial ext I i a s).1
    rwa [h] at this
  have hview : Spec.view s = Spec.view { s1 with doms := s1.doms.set r d } := by
    simp only [Spec.view, hw, hdoms, hsims, hlists]
  obtain ⟨r1, r2, r3⟩ := run_determined ext I i a hview
  rw [h] at r1 r2 r3
  refine ⟨_, (runSimulation ext I i a { s1 with doms := s1.doms.set r d }).2, hreset, hdoms, Prod.ext r1.symm rfl, ?_, (r3 rfl).symm⟩
  exact (congrArg (fun p => p.2.1) r2).symm

/-- The hypotheses of `run_after_reset_partial` are met by the sample differential problem, and the table recorded is not empty. -/
example : let s := simHistory Ex.ext Ex.ratI (Ex.odeRun Ex.ode Ex.dyn {}).dropLast
    let r := runSimulation Ex.ext Ex.ratI 0 {} s
    r.1.toOption = some () ∧ (s.sims[0]?.bind fun o => o.conf.bind fun c => dget c "domain") = some (.dom 0) ∧
    (s.doms.map fun d => decide (d.reset = d)) = [true] ∧ (r.2.doms.map fun d => decide (d.reset = d)) = [false] ∧
    (r.2.w.pr.block.map Block.varList) = s.w.pr.block.map Block.varList := by
  decide +kernel

/-- Run, reset and run again: the same table and the same results. -/
example : let l := Ex.odeRun Ex.ode Ex.dyn {}
    let s := simHistory Ex.ext Ex.ratI l
    let t := simHistory Ex.ext Ex.ratI (l ++ [.reset 0, .run 0 {}])
    (t.doms.map fun d => d.values) = (s.doms.map fun d => d.values) ∧ (t.sims.map fun o => o.output) = (s.sims.map fun o => o.output) ∧
    t.log = [.odeint, .odeint] := by
  decide +kernel

/-- The hypothesis of `run_determined` is met by states that differ in what a run does not depend on: the status, the log and the shared argument list. -/
example : let l := Ex.odeRun Ex.ode Ex.dyn {}
    let s := simHistory Ex.ext Ex.ratI l.dropLast
    let t := simHistory Ex.ext Ex.ratI (l ++ [.reset 0])
    (s.lists, t.lists) = ([[]], [[.names ["t_m"]]]) ∧ (s.sims.map fun o => o.status) = [none, none] ∧ (t.sims.map fun o => o.status) = [some 0, none] ∧
    s.log = [] ∧ t.log = [.odeint] := by
  decide +kernel

end
end Sloth
