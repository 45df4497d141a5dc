import Verif.Props.Units
import Verif.Spec.Expr

/-! Helper lemmas on node operators. -/

namespace Sloth
open UnitObj

theorem UReachSI.mulU {u v : UnitObj} (hu : UReachSI u) (hv : UReachSI v) : UReachSI (mulU u v) := .mul hu hv rfl
theorem UReachSI.divU {u v : UnitObj} (hu : UReachSI u) (hv : UReachSI v) : UReachSI (divU u v) := .div hu hv rfl
theorem UReachSI.powN {u : UnitObj} (hu : UReachSI u) (n : ℚ) : UReachSI (powN u n) := .pow (.num n) hu rfl

theorem dimVec_mulU {u v : UnitObj} (hu : UReachSI u) (hv : UReachSI v) :
    (UnitObj.mulU u v).dimVec = Spec.Dim.mul u.dimVec v.dimVec := by
  funext d; exact expo_mulU hu.isSI.wf hv.isSI.wf _

theorem dimVec_divU {u v : UnitObj} (hu : UReachSI u) (hv : UReachSI v) :
    (UnitObj.divU u v).dimVec = Spec.Dim.div u.dimVec v.dimVec := by
  funext d
  obtain ⟨w, hw, hd⟩ := unit_div_subtracts_exponents_si hu hv
  simp [UnitObj.div] at hw
  rw [hw]; exact hd _

theorem dimVec_powN {u : UnitObj} (hu : UReachSI u) (n : ℚ) :
    (UnitObj.powN u n).dimVec = Spec.Dim.pow u.dimVec n := by
  funext d; exact expo_powN hu.isSI.wf n _

theorem dimless_iff {u : UnitObj} (hu : UReachSI u) : u.isDimensionless = true ↔ u.dimVec = Spec.Dim.one := by
  rw [unit_dimensionless_iff hu.reach]
  constructor
  · intro h; funext b; exact h b.symbol
  · intro h; exact expo_zero_of_si hu (fun b => congrFun h b)

theorem dimless_reach : UReachSI Tmpl.dimless := by
  refine .init _ _ _ (by decide +kernel) ?_
  intro k hk
  rw [UnitObj.dkeys_null] at hk
  simp only [baseKeys, List.mem_cons, List.not_mem_nil, or_false] at hk
  rcases hk with rfl | rfl | rfl | rfl | rfl | rfl | rfl
  exacts [⟨.m, rfl⟩, ⟨.kg, rfl⟩, ⟨.s, rfl⟩, ⟨.A, rfl⟩, ⟨.K, rfl⟩, ⟨.mol, rfl⟩, ⟨.cd, rfl⟩]

theorem dimVec_dimless : Tmpl.dimless.dimVec = Spec.Dim.one := by decide +kernel

theorem add_SI {u v : UnitObj} (hu : UReachSI u) (hv : UReachSI v) :
    u.add v = if u.dimVec = v.dimVec then .ok u else .error .dimensionalCoherence := by
  unfold UnitObj.add
  rw [check_SI hu.isSI hv.isSI]
  by_cases h : u.dimVec = v.dimVec <;> simp [h]

theorem sub_SI {u v : UnitObj} (hu : UReachSI u) (hv : UReachSI v) :
    u.sub v = if u.dimVec = v.dimVec then .ok u else .error .dimensionalCoherence := by
  unfold UnitObj.sub
  rw [check_SI hu.isSI hv.isSI]
  by_cases h : u.dimVec = v.dimVec <;> simp [h]

/-! ### unit of the result of each operator -/

theorem op_node_unit {m n r : ENode} {op : BOp} (hm : UReachSI m.unit) (hn : UReachSI n.unit)
    (h : m.op op (.node n) = .ok r) :
    UReachSI r.unit ∧ match op with
      | .add | .sub => m.unit.dimVec = n.unit.dimVec ∧ r.unit.dimVec = m.unit.dimVec
      | .mul => r.unit.dimVec = Spec.Dim.mul m.unit.dimVec n.unit.dimVec
      | .div => r.unit.dimVec = Spec.Dim.div m.unit.dimVec n.unit.dimVec
      | .pow => n.unit.dimVec = Spec.Dim.one ∧ r.unit.dimVec = m.unit.dimVec := by
  cases op with
  | add =>
    simp only [ENode.op, ENode.add, add_SI hm hn] at h
    split at h
    · rename_i hd
      simp only [ok_bind, Except.ok.injEq] at h
      subst h; exact ⟨hm, hd, rfl⟩
    · simp at h
  | sub =>
    simp only [ENode.op, ENode.sub, sub_SI hm hn] at h
    split at h
    · rename_i hd
      simp only [ok_bind, Except.ok.injEq] at h
      subst h; exact ⟨hm, hd, rfl⟩
    · simp at h
  | mul =>
    simp only [ENode.op, ENode.mul, Except.ok.injEq] at h
    subst h; exact ⟨hm.mulU hn, dimVec_mulU hm hn⟩
  | div =>
    simp only [ENode.op, ENode.div, bind_eq_ok, Except.ok.injEq] at h
    obtain ⟨s, _, rfl⟩ := h
    exact ⟨hm.divU hn, dimVec_divU hm hn⟩
  | pow =>
    simp only [ENode.op, ENode.pow] at h
    split at h
    · rename_i hd
      simp only [bind_eq_ok, Except.ok.injEq] at h
      obtain ⟨s, _, u, hu, rfl⟩ := h
      refine ⟨.pow _ hm hu, (dimless_iff hn).mp hd, ?_⟩
      simp only [UnitObj.pow, hd, if_true, Except.ok.injEq] at hu
      subst hu
      funext b; exact expo_initU hm.isSI.wf "" "" _
    · simp at h

theorem op_num_unit {m r : ENode} {op : BOp} {q : ℚ} (hm : UReachSI m.unit) (h : m.op op (.num q) = .ok r) :
    UReachSI r.unit ∧ r.unit.dimVec = if op = .pow then Spec.Dim.pow m.unit.dimVec q else m.unit.dimVec := by
  cases op <;> simp only [ENode.op, ENode.add, ENode.sub, ENode.mul, ENode.div, ENode.pow, bind_eq_ok, Except.ok.injEq,
    UnitObj.pow] at h
  · subst h; exact ⟨hm, by simp⟩
  · subst h; exact ⟨hm, by simp⟩
  · subst h; exact ⟨hm, by simp⟩
  · obtain ⟨s, _, rfl⟩ := h; exact ⟨hm, by simp⟩
  · obtain ⟨s, _, u, rfl, rfl⟩ := h; exact ⟨hm.powN q, by simpa using dimVec_powN hm q⟩

theorem rop_unit {m r : ENode} {op : BOp} {q : ℚ} (hm : UReachSI m.unit) (h : m.rop op q = .ok r) :
    UReachSI r.unit ∧ op ≠ .pow ∧
      r.unit.dimVec = if op = .div then Spec.Dim.div Spec.Dim.one m.unit.dimVec else m.unit.dimVec := by
  cases op with
  | add => simp only [ENode.rop, ENode.radd, ENode.add, Except.ok.injEq] at h; subst h; exact ⟨hm, by simp, by simp⟩
  | sub =>
    simp only [ENode.rop, ENode.rsub, ENode.mul, ok_bind, ENode.add, Except.ok.injEq] at h; subst h
    exact ⟨hm, by simp, by simp⟩
  | mul => simp only [ENode.rop, ENode.rmul, ENode.mul, Except.ok.injEq] at h; subst h; exact ⟨hm, by simp, by simp⟩
  | div =>
    simp only [ENode.rop, ENode.rdiv, ENode.pow, ENode.mul, bind_eq_ok, Except.ok.injEq, UnitObj.pow] at h
    obtain ⟨a, ⟨s, _, u, rfl, rfl⟩, rfl⟩ := h
    refine ⟨hm.powN _, by simp, ?_⟩
    simp only [if_true]
    rw [dimVec_powN hm]
    funext b; simp only [Spec.Dim.pow, Spec.Dim.div, Spec.Dim.one]; ring
  | pow => simp [ENode.rop] at h

theorem fn_unit {f : Fn} {m r : ENode} (hm : UReachSI m.unit) (h : applyFn f (.node m) = .ok r) :
    r.unit = m.unit ∧ m.unit.dimVec = Spec.Dim.one := by
  simp only [applyFn, wrapper] at h
  split at h
  · rename_i hd
    simp only [Except.ok.injEq] at h
    subst h
    exact ⟨rfl, (dimless_iff hm).mp (by simpa using hd)⟩
  · simp at h

theorem mmN_eq (isMax : Bool) (m : ENode) (q : ℚ) :
    ∃ r, minMax isMax (.node m) [.num q] = .ok r ∧ r.unit = m.unit ∧ r.sym = ⟨false, .mm isMax m.sym.expr (.num q)⟩ ∧
      r.repr = .mm isMax m.sym.expr (.num q) ∧ r.symMap = dupdate (dupdate [] m.symMap) [] ∧
      r.varMap = dupdate (dupdate [] m.varMap) [] ∧ r.ty = .lin := by
  simp only [minMax, MArg.isNum, MArg.isNode, MArg.unit?, mmSym, MArg.sym, MArg.symMap, MArg.varMap, List.all_cons,
    List.all_nil, Bool.false_and, Bool.and_false, Bool.not_true, Bool.not_false, Bool.and_true, Bool.false_eq_true, if_false,
    List.filterMap_cons, List.filterMap_nil, ok_bind, List.map_cons, List.map_nil, List.foldl_cons, List.foldl_nil]
  exact ⟨_, rfl, rfl, rfl, rfl, rfl, rfl, rfl⟩

theorem diff_unit {r : Ref} {x : Quantity} {ind : Option (Ref × Quantity)} {n : ENode}
    (hx : UReachSI x.units) (ht : ∀ p, ind = some p → UReachSI p.2.units) (h : x.diff r ind = .ok n) :
    UReachSI n.unit ∧ x.hasDomain = true ∧
      n.unit.dimVec = match ind with | none => Spec.Dim.one | some p => Spec.Dim.div x.units.dimVec p.2.units.dimVec := by
  have hcall : (x.call r).unit = x.units := by unfold Quantity.call; split <;> rfl
  unfold Quantity.diff at h
  split at h
  · rename_i hd
    unfold diffNode at h
    cases ind with
    | none =>
      simp only [ok_bind, Except.ok.injEq] at h
      subst h; exact ⟨dimless_reach, hd, dimVec_dimless⟩
    | some p =>
      obtain ⟨rt, t⟩ := p
      simp only at h
      split at h
      · simp at h
      · simp only [ok_bind, Except.ok.injEq, hcall] at h
        subst h
        exact ⟨hx.divU (ht _ rfl), hd, dimVec_divU hx (ht _ rfl)⟩
  · simp at h

end Sloth
