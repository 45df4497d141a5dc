import Verif.Props.Expressions

/-! Helper lemmas for the linearity property. -/

namespace Sloth

section
variable {K : Type} [Field K] [LinearOrder K]

/-- `f` is, wherever it has a value, an affine function of the variables named in `S`. -/
def AffineOn (f : (Atom → K) → Option K) (S : Finset String) : Prop :=
  ∃ (c0 : K) (c : String → K), ∀ ρ v, f ρ = some v → v = c0 + ∑ s ∈ S, c s * ρ (.v s)

theorem AffineOn.mono {f : (Atom → K) → Option K} {S T : Finset String} (h : AffineOn f S) (hST : S ⊆ T) : AffineOn f T := by
  obtain ⟨c0, c, h⟩ := h
  refine ⟨c0, fun s => if s ∈ S then c s else 0, fun ρ v hv => ?_⟩
  rw [h ρ v hv]
  congr 1
  rw [← Finset.sum_subset hST (fun x _ hx => by simp [hx])]
  exact Finset.sum_congr rfl (fun x hx => by simp [hx])

theorem AffineOn.comb {f g h : (Atom → K) → Option K} {S : Finset String} (hf : AffineOn f S) (hg : AffineOn g S) (a b k : K)
    (hh : ∀ ρ v, h ρ = some v → ∃ x y, f ρ = some x ∧ g ρ = some y ∧ v = a * x + b * y + k) : AffineOn h S := by
  obtain ⟨c0, c, hf⟩ := hf
  obtain ⟨d0, d, hg⟩ := hg
  refine ⟨a * c0 + b * d0 + k, fun s => a * c s + b * d s, fun ρ v hv => ?_⟩
  obtain ⟨x, y, hx, hy, rfl⟩ := hh ρ v hv
  rw [hf ρ x hx, hg ρ y hy]
  have : ∑ s ∈ S, (a * c s + b * d s) * ρ (.v s) = a * ∑ s ∈ S, c s * ρ (.v s) + b * ∑ s ∈ S, d s * ρ (.v s) := by
    rw [Finset.mul_sum, Finset.mul_sum, ← Finset.sum_add_distrib]
    exact Finset.sum_congr rfl (fun s _ => by ring)
  rw [this]; ring

theorem AffineOn.const (S : Finset String) {f : (Atom → K) → Option K} (o : Option K) (h : ∀ ρ, f ρ = o) : AffineOn f S := by
  refine ⟨o.getD 0, fun _ => 0, fun ρ v hv => ?_⟩
  rw [h ρ] at hv; subst hv; simp

/-- `h` is `f` scaled by a quantity that does not depend on the assignment. -/
theorem AffineOn.scale {f h : (Atom → K) → Option K} {S : Finset String} (hf : AffineOn f S) (o : Option K)
    (hh : ∀ ρ v, h ρ = some v → ∃ x y, f ρ = some x ∧ o = some y ∧ v = x * y) : AffineOn h S := by
  cases o with
  | none => exact ⟨0, fun _ => 0, fun ρ v hv => by obtain ⟨_, _, _, h, _⟩ := hh ρ v hv; cases h⟩
  | some k =>
    refine AffineOn.comb hf hf k 0 0 (fun ρ v hv => ?_)
    obtain ⟨x, y, hx, hy, rfl⟩ := hh ρ v hv
    cases hy
    exact ⟨x, x, hx, hx, by ring⟩

/-- Names of the unspecified quantities of an expression. -/
def Spec.unknowns (e : PyExpr) : Finset String :=
  (((Spec.quantities e).filter fun p => !p.2.isSpecified).map fun p => p.2.name).toFinset

/-- Every quantity of the expression is specified. -/
def Spec.Closed (e : PyExpr) : Prop := ∀ p ∈ Spec.quantities e, p.2.isSpecified = true

theorem Spec.val_closed (I : Interp K) (ρ ρ' : Atom → K) (e : PyExpr) (h : Spec.Closed e) : Spec.val I ρ e = Spec.val I ρ' e := by
  induction e with
  | q r x =>
    have hx := h (r, x) (by simp [Spec.quantities]); simp only at hx
    simp [Spec.val, Spec.qVal, hx]
  | bin op a b iha ihb =>
    simp only [Spec.val]
    rw [iha (fun p hp => h p (by simp [Spec.quantities, hp])), ihb (fun p hp => h p (by simp [Spec.quantities, hp]))]
  | binN op a q iha => simp only [Spec.val]; rw [iha h]
  | nbin op q a iha => simp only [Spec.val]; rw [iha h]
  | fn f a iha => simp only [Spec.val]; rw [iha h]
  | mmN isMax a q iha => simp only [Spec.val]; rw [iha h]
  | diff r x ind =>
    have hx := h (r, x) (by simp [Spec.quantities]); simp only at hx
    cases ind <;> simp [Spec.val, hx]

theorem varMap_nil_iff (e : PyExpr) {n : ENode} (h : e.build = .ok n) : n.varMap = [] ↔ Spec.Closed e := by
  constructor
  · intro hn p hp
    by_contra hs
    have := ((expr_names_partial e h p.2.name).2).mpr ⟨p, hp, by simpa using hs, rfl⟩
    rw [hn] at this; simp [dkeys] at this
  · intro hc
    by_contra hn
    obtain ⟨a, l, hal⟩ := List.exists_cons_of_ne_nil hn
    obtain ⟨p, hp, hs, _⟩ := ((expr_names_partial e h a.1).2).mp (by rw [hal]; simp [dkeys])
    rw [hc p hp] at hs; cases hs

theorem prec_linear {a b : EqType} (h : (a.prec b).linear = true) : (a.differential = false ∧ b.differential = false) ∧
    a.nonlinear = false ∧ b.nonlinear = false := by
  unfold EqType.prec at h
  split at h
  · simp [EqType.diff] at h
  · rename_i h1
    split at h
    · simp [EqType.nonlin] at h
    · rename_i h2; simpa using ⟨by simpa using h1, by simpa using h2⟩

theorem linear_of_one {t : EqType} (h : t.One) (h1 : t.nonlinear = false) (h2 : t.differential = false) : t.linear = true := by
  rcases h with h | h | h
  · exact h.1
  · simp [h1] at h
  · simp [h2] at h

theorem unknowns_bin_left (op : BOp) (a b : PyExpr) : Spec.unknowns a ⊆ Spec.unknowns (.bin op a b) := by
  intro s hs; simp only [Spec.unknowns, Spec.quantities, List.filter_append, List.map_append, List.toFinset_append, Finset.mem_union]
  exact Or.inl hs
theorem unknowns_bin_right (op : BOp) (a b : PyExpr) : Spec.unknowns b ⊆ Spec.unknowns (.bin op a b) := by
  intro s hs; simp only [Spec.unknowns, Spec.quantities, List.filter_append, List.map_append, List.toFinset_append, Finset.mem_union]
  exact Or.inr hs

end
end Sloth
