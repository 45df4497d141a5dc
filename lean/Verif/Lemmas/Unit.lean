import Verif.Model.Unit
import Verif.Lemmas.Py
import Verif.Spec.Dim
import Mathlib.Tactic.Ring

/-! Helper lemmas on units. -/

namespace Sloth
namespace UnitObj

/-- Observable exponent of a dimension name: the table entry, 0 when absent. -/
def expo (u : UnitObj) (d : String) : Rat := (dget u.dim d).getD 0

/-- Observable dimension vector. -/
def dimVec (u : UnitObj) : Spec.Dim := fun b => expo u b.symbol

/-- Each key once, all SI keys present. -/
def WF (u : UnitObj) : Prop := DNodup u.dim ∧ ∀ k ∈ baseKeys, k ∈ dkeys u.dim

/-- Exactly the SI keys, in the standard order. -/
def IsSI (u : UnitObj) : Prop := dkeys u.dim = baseKeys

theorem baseKeys_nodup : baseKeys.Nodup := by decide

theorem dkeys_null : dkeys nullDimension = baseKeys := by decide

theorem IsSI.wf {u : UnitObj} (h : IsSI u) : WF u := by
  refine ⟨?_, fun k hk => by rw [h]; exact hk⟩
  unfold DNodup; rw [h]; exact baseKeys_nodup

theorem dget_null (k : String) : dget nullDimension k = if k ∈ baseKeys then some 0 else none := by
  by_cases h : k ∈ baseKeys
  · rw [if_pos h]
    simp only [baseKeys, List.mem_cons, List.not_mem_nil, or_false] at h
    rcases h with rfl | rfl | rfl | rfl | rfl | rfl | rfl <;> decide
  · rw [if_neg h, dget_eq_none_iff, dkeys_null]; exact h

theorem dget_init (n : String) {d : Dict String Rat} (hd : DNodup d) (desc k : String) :
    dget (init n d desc).dim k = (dget d k).or (if k ∈ baseKeys then some 0 else none) := by
  unfold init reEval
  have hp := psorted_perm (fun a b : String × Rat => strLe a.1 b.1) d
  have hn : DNodup (psorted (fun a b : String × Rat => strLe a.1 b.1) d) := by
    unfold DNodup dkeys at *; exact (hp.map _).nodup_iff.mpr hd
  simp only
  rw [dget_dupdate _ hn, dget_perm hp hn, dget_null]

theorem expo_init (n : String) {d : Dict String Rat} (hd : DNodup d) (desc k : String) :
    expo (init n d desc) k = (dget d k).getD 0 := by
  unfold expo; rw [dget_init n hd]
  cases dget d k <;> simp
  split <;> rfl

theorem init_wf (n : String) (d : Dict String Rat) (desc : String) : WF (init n d desc) := by
  constructor
  · exact DNodup.dupdate (by unfold DNodup; rw [dkeys_null]; exact baseKeys_nodup) _
  · intro k hk
    unfold init reEval
    simp only
    rw [mem_dkeys_dupdate, dkeys_null]; exact Or.inl hk

theorem init_isSI (n : String) {d : Dict String Rat} (h : ∀ k ∈ dkeys d, k ∈ baseKeys) (desc : String) :
    IsSI (init n d desc) := by
  unfold IsSI init reEval
  simp only
  rw [dkeys_dupdate_of_subset, dkeys_null]
  intro k hk
  rw [dkeys_null]
  apply h
  exact ((psorted_perm (fun a b : String × Rat => strLe a.1 b.1) d).map Prod.fst).mem_iff.mp hk

theorem dget_mulDims (a b : Dict String Rat) (ha : DNodup a) (k : String) :
    dget (mulDims a b) k = match dget a k, dget b k with
      | some x, some y => some (y + x)
      | some x, none => some x
      | none, r => r := by
  unfold mulDims
  induction a generalizing b with
  | nil => simp
  | cons p t ih =>
    obtain ⟨k', v⟩ := p
    simp only [DNodup, dkeys_cons, List.nodup_cons] at ha
    have hnone : dget t k' = none := by rw [dget_eq_none_iff]; exact ha.1
    rw [List.foldl_cons, ih _ ha.2]
    simp only
    by_cases hk : k' = k
    · subst hk
      rw [hnone]
      cases hb : dget b k' with
      | none => simp [dget]
      | some y => simp [dget]
    · rw [dget_cons, if_neg hk]
      cases hb : dget b k' with
      | none => simp only; rw [dget_dset_ne _ _ hk]
      | some y => simp only; rw [dget_dset_ne _ _ hk]

theorem mulDims_nodup (a b : Dict String Rat) (hb : DNodup b) : DNodup (mulDims a b) := by
  unfold mulDims
  induction a generalizing b with
  | nil => exact hb
  | cons p t ih =>
    rw [List.foldl_cons]
    apply ih
    split <;> exact hb.dset _ _

theorem mem_dkeys_mulDims (a b : Dict String Rat) (ha : DNodup a) (k : String) :
    k ∈ dkeys (mulDims a b) ↔ k ∈ dkeys a ∨ k ∈ dkeys b := by
  rw [← dget_isSome_iff, ← dget_isSome_iff, ← dget_isSome_iff, dget_mulDims a b ha]
  cases dget a k <;> cases dget b k <;> simp

theorem divDims_eq (a b : Dict String Rat) :
    divDims a b = b.map fun p => (p.1, (dget a p.1).getD 0 - p.2) := by
  unfold divDims
  apply List.map_congr_left
  intro p _
  cases h : dget a p.1 with
  | none => simp
  | some x => simp

theorem dkeys_divDims (a b : Dict String Rat) : dkeys (divDims a b) = dkeys b := by
  rw [divDims_eq]; simp [dkeys]

theorem dget_divDims (a b : Dict String Rat) (k : String) :
    dget (divDims a b) k = (dget b k).map fun y => (dget a k).getD 0 - y := by
  rw [divDims_eq]
  exact dget_map_val b (fun k y => (dget a k).getD 0 - y) k

theorem divDims_nodup (a b : Dict String Rat) (hb : DNodup b) : DNodup (divDims a b) := by
  unfold DNodup; rw [dkeys_divDims]; exact hb

theorem powDims_nodup {a : Dict String Rat} (n : Rat) (ha : DNodup a) :
    DNodup (a.map fun p => (p.1, p.2 * n)) := by
  have : dkeys (a.map fun p => (p.1, p.2 * n)) = dkeys a := by simp [dkeys]
  unfold DNodup; rw [this]; exact ha

theorem expo_mulU {u v : UnitObj} (hu : WF u) (hv : WF v) (d : String) :
    expo (mulU u v) d = expo u d + expo v d := by
  unfold mulU
  rw [expo_init _ (mulDims_nodup _ _ hv.1), dget_mulDims _ _ hu.1]
  unfold expo
  cases dget u.dim d <;> cases dget v.dim d <;> simp [Rat.add_comm]

theorem expo_divU {u v : UnitObj} (hv : WF v) (d : String) :
    expo (divU u v) d = if d ∈ dkeys v.dim then expo u d - expo v d else 0 := by
  unfold divU
  rw [expo_init _ (divDims_nodup _ _ hv.1), dget_divDims]
  unfold expo
  simp only [← dget_isSome_iff]
  cases dget v.dim d <;> simp

theorem expo_powN {u : UnitObj} (hu : WF u) (n : Rat) (d : String) :
    expo (powN u n) d = n * expo u d := by
  unfold powN
  rw [expo_init _ (powDims_nodup n hu.1)]
  unfold expo
  rw [dget_map_val u.dim (fun _ x => x * n) d]
  cases dget u.dim d <;> simp [Rat.mul_comm]

theorem expo_initU {u : UnitObj} (hu : WF u) (n desc d : String) :
    expo (initU n u desc) d = expo u d := by
  unfold initU; rw [expo_init _ hu.1]; rfl

theorem mulU_isSI {u v : UnitObj} (hu : IsSI u) (hv : IsSI v) : IsSI (mulU u v) := by
  apply init_isSI
  intro k hk
  rw [mem_dkeys_mulDims _ _ hu.wf.1, hu, hv] at hk
  exact hk.elim id id

theorem divU_isSI {u v : UnitObj} (hv : IsSI v) : IsSI (divU u v) := by
  apply init_isSI
  intro k hk
  rw [dkeys_divDims, hv] at hk; exact hk

theorem powN_isSI {u : UnitObj} (hu : IsSI u) (n : Rat) : IsSI (powN u n) := by
  apply init_isSI
  intro k hk
  have : dkeys (u.dim.map fun p => (p.1, p.2 * n)) = dkeys u.dim := by simp [dkeys]
  rw [this, hu] at hk; exact hk

theorem initU_isSI {u : UnitObj} (hu : IsSI u) (n desc : String) : IsSI (initU n u desc) := by
  apply init_isSI; intro k hk; rw [hu] at hk; exact hk

theorem cohLoop_spec (a b : Dict String Rat) (l : List String)
    (ha : ∀ k ∈ l, k ∈ dkeys a) (hb : ∀ k ∈ l, k ∈ dkeys b) :
    cohLoop a b l = .ok (decide (∀ k ∈ l, dget a k = dget b k)) := by
  induction l with
  | nil => simp [cohLoop]
  | cons k t ih =>
    obtain ⟨x, hx⟩ := exists_dget_of_mem (ha k (by simp))
    obtain ⟨y, hy⟩ := exists_dget_of_mem (hb k (by simp))
    have ih' := ih (fun k hk => ha k (by simp [hk])) (fun k hk => hb k (by simp [hk]))
    unfold cohLoop
    simp only [dgetE, hx, hy, bind, Except.bind]
    by_cases h : x = y
    · subst h
      simp [ih', hx, hy]
    · simp [h, hx, hy]

/-- On SI units coherence is equality of all exponents, and the check never raises. -/
theorem check_SI {u v : UnitObj} (hu : IsSI u) (hv : IsSI v) :
    checkCoherence u v = .ok (decide (u.dimVec = v.dimVec)) := by
  unfold checkCoherence
  rw [cohLoop_spec]
  · congr 1
    apply decide_eq_decide.mpr
    constructor
    · intro h
      funext b
      have hk : b.symbol ∈ psorted strLe (dkeys u.dim) := by
        rw [mem_psorted, hu]; cases b <;> decide
      simp only [dimVec, expo, h _ hk]
    · intro h k hk
      rw [mem_psorted, hu] at hk
      have hb : ∃ b : Spec.Base, b.symbol = k := by
        simp only [baseKeys, List.mem_cons, List.not_mem_nil, or_false] at hk
        rcases hk with rfl | rfl | rfl | rfl | rfl | rfl | rfl
        exacts [⟨.m, rfl⟩, ⟨.kg, rfl⟩, ⟨.s, rfl⟩, ⟨.A, rfl⟩, ⟨.K, rfl⟩, ⟨.mol, rfl⟩, ⟨.cd, rfl⟩]
      obtain ⟨b, rfl⟩ := hb
      have := congrFun h b
      simp only [dimVec, expo] at this
      obtain ⟨x, hx⟩ := exists_dget_of_mem (d := u.dim) (k := b.symbol) (by rw [hu]; exact hk)
      obtain ⟨y, hy⟩ := exists_dget_of_mem (d := v.dim) (k := b.symbol) (by rw [hv]; exact hk)
      rw [hx, hy] at this ⊢
      simpa using this
  · intro k hk; rw [mem_psorted] at hk; exact hk
  · intro k hk; rw [mem_psorted, hu] at hk; rw [hv]; exact hk

theorem isDimensionless_iff {u : UnitObj} (hu : WF u) :
    u.isDimensionless = true ↔ ∀ d, expo u d = 0 := by
  unfold isDimensionless dvalues
  simp only [List.all_eq_true, List.mem_map, beq_iff_eq]
  constructor
  · intro h d
    unfold expo
    cases hd : dget u.dim d with
    | none => rfl
    | some x => exact h x ⟨(d, x), mem_of_dget hd, rfl⟩
  · rintro h x ⟨⟨k, y⟩, hp, rfl⟩
    have := h k
    unfold expo at this
    rw [dget_of_mem hu.1 hp] at this
    exact this

end UnitObj
end Sloth
