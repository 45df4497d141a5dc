import Verif.Model.Sym
import Mathlib.Algebra.Order.Field.Basic
import Mathlib.Data.Rat.Cast.Order
import Mathlib.Data.Rat.Cast.CharZero

/-!
# Meaning of symbolic expressions

Partial evaluation in an arbitrary linearly ordered field, for an arbitrary interpretation of the functions
and of non-integer powers.
-/

namespace Sloth

/-- Interpretation of functions and powers; integer powers are fixed. -/
structure Interp (K : Type) [Field K] [LinearOrder K] where
  fn : Fn → K → Option K
  pow : K → K → Option K
  pow_int : ∀ (x : K) (n : ℤ), pow x (n : K) = if x = 0 ∧ n < 0 then none else some (x ^ n)

section
variable {K : Type} [Field K] [LinearOrder K]

/-- Value of an expression under an assignment of its atoms. -/
def Sym.eval (I : Interp K) (ρ : Atom → K) : Sym → Option K
  | .num q => some (q : K)
  | .atom a => some (ρ a)
  | .add a b => do some ((← a.eval I ρ) + (← b.eval I ρ))
  | .sub a b => do some ((← a.eval I ρ) - (← b.eval I ρ))
  | .mul a b => do some ((← a.eval I ρ) * (← b.eval I ρ))
  | .div a b => do
    let x ← a.eval I ρ
    let y ← b.eval I ρ
    if y = 0 then none else some (x / y)
  | .pow a b => do I.pow (← a.eval I ρ) (← b.eval I ρ)
  | .fn f a => do I.fn f (← a.eval I ρ)
  | .mm isMax a b => do
    let x ← a.eval I ρ
    let y ← b.eval I ρ
    some (if isMax then max x y else min x y)

open Classical in
/-- Interpretations exist over every field: only integer powers are defined, and no function. -/
noncomputable def Interp.min [IsStrictOrderedRing K] : Interp K where
  fn _ _ := none
  pow x y := if h : ∃ n : ℤ, y = (n : K) then (if x = 0 ∧ h.choose < 0 then none else some (x ^ h.choose)) else none
  pow_int x n := by
    have h : ∃ m : ℤ, ((n : ℤ) : K) = (m : K) := ⟨n, rfl⟩
    have hc : h.choose = n := by
      have := h.choose_spec; exact (Int.cast_injective this).symm
    rw [dif_pos h, hc]

end
end Sloth
