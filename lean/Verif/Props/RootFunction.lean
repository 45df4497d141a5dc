import Verif.Props.LinearSystem

/-!
# The function handed to the root finder (C49, C74)
-/

namespace Sloth
open PyM

section
variable {K : Type} [Field K] [LinearOrder K]

/-- Only names of the list occur, and no derivative. -/
def Spec.OnlyNames (names : List String) (s : Sym) : Prop := ∀ a ∈ Spec.atoms s, ∃ n ∈ names, a = .v n

theorem onlyNames_iff (names : List String) (s : Sym) :
    Spec.OnlyNames names s ↔ (!s.hasD && s.free.all fun n => names.contains n) = true := by
  have two : ∀ a b : Sym, (Spec.OnlyNames names a ↔ (!a.hasD && a.free.all fun n => names.contains n) = true) →
      (Spec.OnlyNames names b ↔ (!b.hasD && b.free.all fun n => names.contains n) = true) →
      ((∀ x ∈ Spec.atoms a ++ Spec.atoms b, ∃ n ∈ names, x = .v n) ↔ (!(a.hasD || b.hasD) && (a.free ++ b.free).all fun n => names.contains n) = true) := by
    intro a b ha hb
    have e : (∀ x ∈ Spec.atoms a ++ Spec.atoms b, ∃ n ∈ names, x = .v n) ↔ Spec.OnlyNames names a ∧ Spec.OnlyNames names b := by
      simp only [List.mem_append, Spec.OnlyNames]
      exact ⟨fun h => ⟨fun x hx => h x (.inl hx), fun x hx => h x (.inr hx)⟩, fun h x hx => hx.elim (h.1 x) (h.2 x)⟩
    rw [e, ha, hb, List.all_append]
    cases a.hasD <;> cases b.hasD <;> simp
  induction s with
  | num q => simp [Spec.OnlyNames, Spec.atoms, Sym.hasD, Sym.free]
  | atom a => cases a <;> simp [Spec.OnlyNames, Spec.atoms, Sym.hasD, Sym.free]
  | fn f a ih => exact ih
  | add a b iha ihb | sub a b iha ihb | mul a b iha ihb | div a b iha ihb | pow a b iha ihb | mm _ a b iha ihb => exact two a b iha ihb

theorem dget_placed {names : List String} {xs : List K} {ρ : Atom → K} (h : ∀ (i : Nat) n, names[i]? = some n → xs[i]? = some (ρ (.v n))) {n : String}
    (hn : n ∈ names) : dget (names.zip xs) n = some (ρ (.v n)) := by
  induction names generalizing xs with
  | nil => cases hn
  | cons m t ih =>
    have h0 := h 0 m rfl
    cases xs with
    | nil => cases h0
    | cons x xs =>
      simp only [List.getElem?_cons_zero, Option.some.injEq] at h0
      by_cases hm : m = n
      · subst hm; simp [dget, h0]
      · have hn' : n ∈ t := by simpa [Ne.symm hm] using hn
        have := ih (xs := xs) (fun i k hk => by simpa using h (i + 1) k (by simpa using hk)) hn'
        simpa [dget, hm] using this

/-- The compiled function: with one number per name it returns the values of the expressions at these numbers, in order; a symbol that is not among the
names, or a derivative, makes it raise `NameError`, another number of arguments `TypeError`. -/
theorem compiled_block (I : Interp K) (names : List String) (exprs : List SObj) (xs : List K) :
    (xs.length ≠ names.length → lambdify I names exprs xs = .error .typeError) ∧
    (xs.length = names.length →
      ((∀ s ∈ exprs, Spec.OnlyNames names s.expr) → ∀ ρ : Atom → K, (∀ (i : Nat) n, names[i]? = some n → xs[i]? = some (ρ (.v n))) →
        lambdify I names exprs xs = .ok (exprs.map fun s => s.expr.eval I ρ)) ∧
      ((∃ s ∈ exprs, ¬ Spec.OnlyNames names s.expr) → lambdify I names exprs xs = .error .nameError)) := by
  have hall : (exprs.all (fun s => !s.expr.hasD && s.expr.free.all fun n => names.contains n)) = true ↔ ∀ s ∈ exprs, Spec.OnlyNames names s.expr := by
    rw [List.all_eq_true]
    exact forall₂_congr fun s _ => (onlyNames_iff names s.expr).symm
  unfold lambdify
  refine ⟨fun h => by rw [if_neg h], fun h => ⟨fun ho ρ hρ => ?_, fun ⟨s, hs, hn⟩ => ?_⟩⟩
  · rw [if_pos h, if_pos (hall.mpr ho)]
    congr 1
    refine List.map_congr_left fun s hs => eval_atoms I s.expr fun a ha => ?_
    obtain ⟨n, hn, rfl⟩ := ho s hs a ha
    simp [dget_placed hρ hn]
  · rw [if_pos h, if_neg (fun hh => hn (hall.mp hh s hs))]

end

/-- C49, for the function that the root finder of `NLASolver` is given: after `resolve` in any session of written equations, at one number per unknown the
function returns, in the order of the equations, the values of the right sides of the stated equations, provided that nothing else than unknowns occurs in them.
Otherwise it raises. -/
theorem root_function (ops : List Op) (hs : Spec.Session ops) {w' : World} (h : resolve (history ops World.init) = (.ok (), w')) :
    ∃ (b : Block) (sts : List Stmt), w'.pr.block = some b ∧ Spec.Equations w' b.equations ∧
      List.Forall₂ (fun r st => ∃ e, w'.es[r]? = some e ∧ e.States st) b.equations sts ∧
      ∀ {K : Type} [Field K] [LinearOrder K] (I : Interp K) (xs : List K),
        (xs.length ≠ b.varList.length → b.asFunction I xs = .error .typeError) ∧
        (xs.length = b.varList.length → (∃ s ∈ b.equationsList, ¬ Spec.OnlyNames b.varList s.expr) → b.asFunction I xs = .error .nameError) ∧
        (xs.length = b.varList.length → (∀ s ∈ b.equationsList, Spec.OnlyNames b.varList s.expr) →
          ∀ ρ : Atom → K, (∀ (i : Nat) n, b.varList[i]? = some n → xs[i]? = some (ρ (.v n))) →
            b.asFunction I xs = .ok (sts.map (Spec.sideVal I ρ .rhs))) := by
  obtain ⟨b, sts, hb, heq, hst, hval⟩ := solved_system_partial ops hs h
  refine ⟨b, sts, hb, heq, hst, fun I xs => ?_⟩
  obtain ⟨h1, h2⟩ := compiled_block I b.varList b.equationsList xs
  refine ⟨h1, fun hl hn => (h2 hl).2 hn, fun hl ho ρ hρ => ?_⟩
  rw [← (hval I ρ).1]
  exact (h2 hl).1 ho ρ hρ

/-- `x + y - 3`, `x*y - 2` at 4, 5 are 6 and 18. -/
example : Spec.Session Ex.alg ∧ (resolve (history Ex.alg World.init)).1.toOption = some () ∧
    ((resolve (history Ex.alg World.init)).2.pr.block.map fun b => b.varList) = some ["x_m", "y_m"] ∧
    ((resolve (history Ex.alg World.init)).2.pr.block.map fun b => b.equationsList.all fun s => !s.expr.hasD && s.expr.free.all fun n => b.varList.contains n)
      = some true ∧
    ((resolve (history Ex.alg World.init)).2.pr.block.map fun b => (b.asFunction Ex.ratI [4, 5]).toOption) = some (some [some 6, some 18]) :=
  ⟨Ex.alg_session, by decide +kernel, by decide +kernel, by decide +kernel, by decide +kernel⟩

end Sloth
