import Verif.Model.Quantity
import Verif.Props.Units

/-!
# Properties of quantities (C08, C09)
-/

namespace Sloth

/-- The number a `setValue` argument stands for. -/
def SVArg.val : SVArg → ℚ
  | .qty q => q.value
  | .float x => x
  | .int x => x
  | .other => 0

/-- One `setValue` call of a history. -/
structure SVCall where
  arg : SVArg
  unit : Option UnitObj := none

/-- Units occurring in the call are SI units. -/
def SVCall.SI (c : SVCall) : Prop :=
  (∀ u, c.unit = some u → UReachSI u) ∧ (∀ q, c.arg = .qty q → UReachSI q.units)

/-- What the API promises for a call on a quantity of class `k` and dimension `d`: the argument must be a number
or a quantity of the same class (any class, for a plain `Quantity`); an explicit unit must have dimension `d`,
and so must the unit of a quantity argument, which excludes an explicit unit. -/
def Spec.svAllowed (k : Kind) (d : Spec.Dim) (c : SVCall) : Prop :=
  match c.arg with
  | .qty q => (q.kind = k ∨ k = .quantity) ∧ c.unit = none ∧ q.units.dimVec = d
  | .float _ | .int _ => ∀ u, c.unit = some u → u.dimVec = d
  | .other => False

/-- What the code accepts: as promised, except that a float is accepted with any unit. -/
def Spec.svAccepted (k : Kind) (d : Spec.Dim) (c : SVCall) : Prop :=
  match c.arg with
  | .float _ => True
  | _ => Spec.svAllowed k d c

theorem setValue_spec {q : Quantity} (hq : UReachSI q.units) {c : SVCall} (hc : c.SI) :
    (Spec.svAccepted q.kind q.units.dimVec c →
      q.setValue c.arg c.unit = .ok { q with value := c.arg.val, isSpecified := true }) ∧
    (¬ Spec.svAccepted q.kind q.units.dimVec c →
      ∃ e, q.setValue c.arg c.unit = .error e ∧ (e = .dimensionalCoherence ∨ e = .unexpectedValue)) := by
  obtain ⟨arg, unit⟩ := c
  cases arg with
  | qty p =>
    have hp := hc.2 p rfl
    have hcoh := UnitObj.check_SI hp.isSI hq.isSI
    by_cases hk : p.kind = q.kind ∨ q.kind = .quantity
    · have hi : p.kind.isInstanceOf q.kind = true := by
        simp [Kind.isInstanceOf]; exact hk
      cases unit with
      | none =>
        simp only [Spec.svAccepted, Spec.svAllowed, hk, true_and, Quantity.setValue, hi, if_true, hcoh, bind, Except.bind,
          SVArg.val]
        by_cases hd : p.units.dimVec = q.units.dimVec <;> simp [hd]
      | some u => simp [Spec.svAccepted, Spec.svAllowed, Quantity.setValue, hi, bind, Except.bind]
    · have hi : p.kind.isInstanceOf q.kind = false := by
        simp [Kind.isInstanceOf]; exact not_or.mp hk
      simp [Spec.svAccepted, Spec.svAllowed, hk, Quantity.setValue, hi]
  | float x => simp [Spec.svAccepted, Quantity.setValue, SVArg.val]
  | int x =>
    cases unit with
    | none => simp [Spec.svAccepted, Spec.svAllowed, Quantity.setValue, SVArg.val]
    | some u =>
      have hu := hc.1 u rfl
      simp only [Spec.svAccepted, Spec.svAllowed, Option.some.injEq, forall_eq', Quantity.setValue,
        UnitObj.check_SI hu.isSI hq.isSI, bind, Except.bind, SVArg.val]
      by_cases hd : u.dimVec = q.units.dimVec <;> simp [hd]
  | other => simp [Spec.svAccepted, Spec.svAllowed, Quantity.setValue]

/-! ## C08 -/

/-- C08 fails for floats: a pressure accepts `3.0` seconds. -/
theorem setValue_float_ignores_unit :
    ∃ q : Quantity, ∃ c : SVCall, UReachSI q.units ∧ c.SI ∧ ¬ Spec.svAllowed q.kind q.units.dimVec c ∧
      ∃ q', q.setValue c.arg c.unit = .ok q' ∧ q'.value = 3 := by
  refine ⟨mkVariable "p" Tmpl.m, ⟨.float 3, some Tmpl.s⟩, ?_, ⟨?_, by simp⟩, ?_, _, rfl, rfl⟩
  · exact .init _ _ _ (by decide +kernel) (by simp [dkeys]; exact ⟨.m, rfl⟩)
  · simp only [Option.some.injEq, forall_eq']
    exact .init _ _ _ (by decide +kernel) (by simp [dkeys]; exact ⟨.s, rfl⟩)
  · simp only [Spec.svAllowed, Option.some.injEq, forall_eq']
    decide +kernel

/-- C08 (partial): every call that is not a float with an explicit unit is accepted exactly when the API allows it.
Missing: floats given with an explicit unit, which are accepted whatever the unit. -/
theorem setValue_gate_partial {q : Quantity} (hq : UReachSI q.units) {c : SVCall} (hc : c.SI)
    (hf : ∀ x, c.arg = .float x → c.unit = none) :
    (Spec.svAllowed q.kind q.units.dimVec c ↔ ∃ q', q.setValue c.arg c.unit = .ok q') ∧
    (∀ u, c.unit = some u → u.dimVec ≠ q.units.dimVec → ∃ e, q.setValue c.arg c.unit = .error e) ∧
    (∀ p, c.arg = .qty p → p.units.dimVec ≠ q.units.dimVec → ∃ e, q.setValue c.arg c.unit = .error e) := by
  have hs := setValue_spec hq hc
  have hiff : Spec.svAccepted q.kind q.units.dimVec c ↔ Spec.svAllowed q.kind q.units.dimVec c := by
    obtain ⟨arg, unit⟩ := c
    cases arg with
    | float x => have := hf x rfl; simp only at this; subst this; simp [Spec.svAccepted, Spec.svAllowed]
    | _ => simp [Spec.svAccepted]
  rw [hiff] at hs
  have hrej : ¬ Spec.svAllowed q.kind q.units.dimVec c → ∃ e, q.setValue c.arg c.unit = .error e := fun h => by
    obtain ⟨e, he, _⟩ := hs.2 h; exact ⟨e, he⟩
  refine ⟨⟨fun h => ⟨_, hs.1 h⟩, fun ⟨q', h⟩ => ?_⟩, fun u hu hne => hrej ?_, fun p hp hne => hrej ?_⟩
  · by_contra hn
    obtain ⟨e, he⟩ := hrej hn
    rw [he] at h; cases h
  · intro h
    obtain ⟨arg, unit⟩ := c
    simp only at hu; subst hu
    cases arg with
    | qty p => simp [Spec.svAllowed] at h
    | float x => exact absurd (hf x rfl) (by simp)
    | int x => exact hne (h u rfl)
    | other => exact h
  · intro h
    obtain ⟨arg, unit⟩ := c
    simp only at hp; subst hp
    exact hne h.2.2

example : ∃ q', (mkVariable "p" Tmpl.Pa).setValue (.qty (mkVariable "r" Tmpl.atm (value := 7))) none = .ok q' ∧ q'.value = 7 :=
  ⟨{ mkVariable "p" Tmpl.Pa with value := 7, isSpecified := true }, by decide +kernel, rfl⟩
example : (mkVariable "p" Tmpl.Pa).setValue (.int 3) (some Tmpl.J) = .error .unexpectedValue := by decide +kernel
example : (mkVariable "p" Tmpl.Pa).setValue (.qty (mkParameter "r" Tmpl.Pa)) none = .error .unexpectedValue := by decide +kernel

/-! ## C09 -/

/-- A program that performs the calls one after the other, ignoring exceptions. -/
def setValues (q : Quantity) : List SVCall → Quantity
  | [] => q
  | c :: t => match q.setValue c.arg c.unit with
    | .ok q' => setValues q' t
    | .error _ => setValues q t

open Classical in
/-- C09: after any history of calls the quantity holds the argument of the last accepted call (its initial value if
none was), is specified iff it was or some call was accepted, and nothing else about it has changed. -/
theorem setValue_history (q : Quantity) (hq : UReachSI q.units) (cs : List SVCall) (hcs : ∀ c ∈ cs, c.SI) :
    let acc := cs.filter fun c => decide (Spec.svAccepted q.kind q.units.dimVec c)
    setValues q cs = { q with
      value := (acc.getLast?.map fun c => c.arg.val).getD q.value
      isSpecified := q.isSpecified || !acc.isEmpty } := by
  intro acc
  induction cs generalizing q with
  | nil => cases q; simp [setValues, acc]
  | cons c t ih =>
    have hs := setValue_spec hq (hcs c (by simp))
    by_cases ha : Spec.svAccepted q.kind q.units.dimVec c
    · have hacc : acc = c :: t.filter fun c => decide (Spec.svAccepted q.kind q.units.dimVec c) := by
        simp [acc, ha]
      simp only [setValues, hs.1 ha]
      rw [ih { q with value := c.arg.val, isSpecified := true } hq (fun x hx => hcs x (by simp [hx])), hacc]
      simp only [List.getLast?_cons, Option.map_some, Option.getD_some, List.isEmpty_cons, Bool.not_false, Bool.or_true,
        Bool.true_or]
      congr 1
      generalize (t.filter fun c => decide (Spec.svAccepted q.kind q.units.dimVec c)).getLast? = o
      cases o <;> rfl
    · obtain ⟨e, he, _⟩ := hs.2 ha
      have hacc : acc = t.filter fun c => decide (Spec.svAccepted q.kind q.units.dimVec c) := by
        simp [acc, ha]
      simp only [setValues, he]
      rw [ih q hq (fun x hx => hcs x (by simp [hx])), hacc]

example : (setValues (mkVariable "p" Tmpl.m) [⟨.int 3, none⟩, ⟨.float 5, none⟩, ⟨.int 4, some Tmpl.s⟩, ⟨.other, none⟩]).value = 5 := by
  decide +kernel

open Classical in
/-- C09, from the constructor on: quantities and variables begin unspecified, parameters and constants as the argument says, all with the value given; nothing
but accepted calls changes that. -/
theorem constructed_history (n d : String) (u : UnitObj) (hu : UReachSI u) (v : ℚ) (l o : String) (b : Bool) (lo up : Option ℚ) (e : Bool) (t : String) (dom : Bool)
    (cs : List SVCall) (hcs : ∀ c ∈ cs, c.SI) :
    ∀ x ∈ [(mkQuantity n u d v l o, Kind.quantity, false), (mkVariable n u d lo up v e t l o dom, .variable, false), (mkParameter n u d v l b o, .parameter, b),
      (mkConstant n u d v l b o, .constant, b)],
    let acc := cs.filter fun c => decide (Spec.svAccepted x.2.1 u.dimVec c)
    (setValues x.1 cs).kind = x.2.1 ∧ (setValues x.1 cs).name = n ∧ (setValues x.1 cs).units = u ∧ (setValues x.1 cs).owner = o ∧ (setValues x.1 cs).description = d ∧
      (setValues x.1 cs).latex = l ∧ (setValues x.1 cs).value = (acc.getLast?.map fun c => c.arg.val).getD v ∧ (setValues x.1 cs).isSpecified = (x.2.2 || !acc.isEmpty) := by
  intro x hx acc
  simp only [List.mem_cons, List.not_mem_nil, or_false] at hx
  rcases hx with rfl | rfl | rfl | rfl <;> rw [setValue_history _ (by exact hu) cs hcs] <;> exact ⟨rfl, rfl, rfl, rfl, rfl, rfl, rfl, rfl⟩

/-- A plain quantity in metres: a call with an integer and a coherent unit is accepted, one in seconds is not. -/
example : (setValues (mkQuantity "L" Tmpl.m) [⟨.int 4, some Tmpl.s⟩]).isSpecified = false ∧ (setValues (mkQuantity "L" Tmpl.m) [⟨.int 4, some Tmpl.m⟩]).isSpecified = true := by
  decide +kernel

/-- Arithmetic on quantities themselves (not on their nodes) never succeeds. -/
theorem quantity_arithmetic_raises (q p : Quantity) :
    (∃ e, q.addSub p = .error e) ∧ (∃ e, q.mulQ p = .error e) ∧ (∃ e, q.powQ p = .error e) := by
  refine ⟨?_, ⟨_, rfl⟩, ?_⟩
  swap
  · simp only [Quantity.powQ, UnitObj.pow, bind, Except.bind]
    split <;> exact ⟨_, rfl⟩
  unfold Quantity.addSub
  cases q.units.checkCoherence p.units with
  | error e => exact ⟨e, rfl⟩
  | ok b => cases b <;> exact ⟨_, rfl⟩

end Sloth
