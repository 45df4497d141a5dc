import Verif.Props.Reads

/-!
# Which calls of a domain are refused (C103)

`_register`, `_renameHeaders` and `__getitem__` end with an exception exactly in the cases listed here, and with the exception listed.
-/

namespace Sloth
variable {K : Type}

/-- The variable whose table is written to: the one named, otherwise the last independent variable. -/
def Spec.writesTo (d : DomainObj K) (var : Option String) (v : String) : Prop := var = some v ∨ var = none ∧ d.indep.getLast? = some v

/-- Number of entries of the first row. -/
def Spec.entries (rows : List (List K)) : Nat := (rows.head?.map List.length).getD 0

/-- When and how writing rows is refused. -/
inductive Spec.RegisterRefused (d : DomainObj K) (rows : List (List K)) (var : Option String) : Err → Prop
  /-- no variable is named and the domain has none -/
  | noVariable (h : var = none) (h0 : d.indep = []) : RegisterRefused d rows var .indexError
  /-- the domain was not set -/
  | notSet (v : String) (hv : Spec.writesTo d var v) (h : d.values = none) : RegisterRefused d rows var .typeError
  /-- the variable has no table -/
  | noTable (v : String) (hv : Spec.writesTo d var v) (vals : Dict String (Frame K)) (h : d.values = some vals) (hk : v ∉ dkeys vals) :
      RegisterRefused d rows var .keyError
  /-- the first rows do not fit the columns -/
  | firstWidth (v : String) (hv : Spec.writesTo d var v) (f : Frame K) (hf : d.frame v = some f) (h0 : f.rows = [] ∨ f.cols = [])
      (hw : Spec.entries rows ≠ f.cols.length) : RegisterRefused d rows var .valueError
  /-- further rows do not have one entry per variable of the domain -/
  | laterWidth (v : String) (hv : Spec.writesTo d var v) (f : Frame K) (hf : d.frame v = some f) (h0 : f.rows ≠ []) (h1 : f.cols ≠ [])
      (hw : Spec.entries rows ≠ d.indep.length + d.deps.length) : RegisterRefused d rows var (.exception "Error. Ill-formed input for domain register")
  /-- the rows there are of another width, or not as many as they are wide -/
  | laterRows (v : String) (hv : Spec.writesTo d var v) (f : Frame K) (hf : d.frame v = some f) (h0 : f.rows ≠ []) (h1 : f.cols ≠ [])
      (hw : Spec.entries rows = d.indep.length + d.deps.length) (hn : Spec.entries f.rows ≠ Spec.entries rows ∨ f.rows.length ≠ Spec.entries f.rows) :
      RegisterRefused d rows var .valueError

namespace DomainObj

theorem width_entries (rows : List (List K)) : width rows = Spec.entries rows := by cases rows <;> rfl

theorem target_iff (d : DomainObj K) (var : Option String) :
    (∃ v, d.target var = .ok v ∧ ∀ v', Spec.writesTo d var v' ↔ v' = v) ∨ (d.target var = .error .indexError ∧ var = none ∧ d.indep = [] ∧ ∀ v', ¬ Spec.writesTo d var v') := by
  cases var with
  | some v => exact .inl ⟨v, rfl, fun v' => by simp [Spec.writesTo, eq_comm]⟩
  | none =>
    cases h : d.indep.getLast? with
    | some v => exact .inl ⟨v, by simp [target, h], fun v' => by simp [Spec.writesTo, h, eq_comm]⟩
    | none =>
      have h0 : d.indep = [] := by simpa using h
      exact .inr ⟨by simp [target, h0], rfl, h0, fun v' => by simp [Spec.writesTo, h0]⟩

theorem extend_refused (n : Nat) (f : Frame K) (rows : List (List K)) (e : Err) : extend n f rows = .error e ↔
    ((f.rows = [] ∨ f.cols = []) ∧ Spec.entries rows ≠ f.cols.length ∧ e = .valueError) ∨
    (f.rows ≠ [] ∧ f.cols ≠ [] ∧ Spec.entries rows ≠ n ∧ e = .exception "Error. Ill-formed input for domain register") ∨
    (f.rows ≠ [] ∧ f.cols ≠ [] ∧ Spec.entries rows = n ∧ (Spec.entries f.rows ≠ Spec.entries rows ∨ f.rows.length ≠ Spec.entries f.rows) ∧ e = .valueError) := by
  have hemp : Frame.isEmpty f = true ↔ f.rows = [] ∨ f.cols = [] := by simp [Frame.isEmpty]
  unfold extend
  by_cases h : Frame.isEmpty f = true
  · have h' := hemp.1 h
    rw [if_pos h]
    have hc : ¬ (f.rows ≠ [] ∧ f.cols ≠ []) := by tauto
    unfold mkFrame
    rw [width_entries]
    split
    · rename_i hw; simp only [reduceCtorEq, false_iff]; tauto
    · rename_i hw; simp only [Except.error.injEq]; constructor
      · rintro rfl; exact .inl ⟨h', hw, rfl⟩
      · rintro (⟨_, _, rfl⟩ | ⟨a, b, _⟩ | ⟨a, b, _⟩)
        · rfl
        · exact absurd ⟨a, b⟩ hc
        · exact absurd ⟨a, b⟩ hc
  · rw [if_neg h]
    have h' : f.rows ≠ [] ∧ f.cols ≠ [] := by rw [hemp] at h; tauto
    rw [width_entries]
    by_cases hw : Spec.entries rows = n
    · rw [if_pos hw]
      have hcat : width (f.rows ++ rows) = Spec.entries f.rows := by
        rw [width_entries]
        cases hr : f.rows with
        | nil => exact absurd hr h'.1
        | cons a t => rfl
      unfold vstack mkFrame
      rw [width_entries, width_entries]
      by_cases h1 : Spec.entries f.rows = Spec.entries rows
      · rw [if_pos h1]
        simp only [ok_bind]
        rw [hcat]
        have hil : (index f.rows).length = f.rows.length := by simp [index]
        rw [hil]
        split
        · rename_i h2
          simp only [reduceCtorEq, false_iff]
          rintro (⟨a, _⟩ | ⟨_, _, a, _⟩ | ⟨_, _, _, a, _⟩)
          · rcases a with a | a
            · exact h'.1 a
            · exact h'.2 a
          · exact a hw
          · rcases a with a | a
            · exact a h1
            · exact a h2.symm
        · rename_i h2
          simp only [Except.error.injEq]
          constructor
          · rintro rfl; exact .inr (.inr ⟨h'.1, h'.2, hw, .inr (fun h => h2 h.symm), rfl⟩)
          · rintro (⟨a, _⟩ | ⟨_, _, a, _⟩ | ⟨_, _, _, _, rfl⟩)
            · rcases a with a | a
              · exact absurd a h'.1
              · exact absurd a h'.2
            · exact absurd hw a
            · rfl
      · rw [if_neg h1]
        simp only [error_bind, Except.error.injEq]
        constructor
        · rintro rfl; exact .inr (.inr ⟨h'.1, h'.2, hw, .inl h1, rfl⟩)
        · rintro (⟨a, _⟩ | ⟨_, _, a, _⟩ | ⟨_, _, _, _, rfl⟩)
          · rcases a with a | a
            · exact absurd a h'.1
            · exact absurd a h'.2
          · exact absurd hw a
          · rfl
    · rw [if_neg hw]
      simp only [Except.error.injEq]
      constructor
      · rintro rfl; exact .inr (.inl ⟨h'.1, h'.2, hw, rfl⟩)
      · rintro (⟨a, _⟩ | ⟨_, _, _, rfl⟩ | ⟨_, _, a, _⟩)
        · rcases a with a | a
          · exact absurd a h'.1
          · exact absurd a h'.2
        · rfl
        · exact absurd a hw

end DomainObj

open DomainObj in
/-- C103: writing rows is refused exactly in the listed cases. -/
theorem register_refused_iff (d : DomainObj K) (rows : List (List K)) (var : Option String) (e : Err) :
    d.register rows var = .error e ↔ Spec.RegisterRefused d rows var e := by
  rcases target_iff d var with ⟨v, ht, hv⟩ | ⟨ht, hvar, h0, hno⟩
  · have hw : Spec.writesTo d var v := (hv v).2 rfl
    cases hval : d.values with
    | none =>
      simp only [register, ht, ok_bind, hval, Except.error.injEq]
      constructor
      · rintro rfl; exact .notSet v hw hval
      · intro h
        cases h with
        | noVariable h1 h2 => exact absurd hw (by simp [Spec.writesTo, h1, h2])
        | notSet => rfl
        | noTable _ _ vals h => rw [hval] at h; cases h
        | firstWidth _ _ f h | laterWidth _ _ f h | laterRows _ _ f h => simp [frame, hval] at h
    | some vals =>
      cases hf : dget vals v with
      | none =>
        have hk : v ∉ dkeys vals := (dget_eq_none_iff ..).1 hf
        simp only [register, ht, ok_bind, hval, dgetE, hf, error_bind, Except.error.injEq]
        constructor
        · rintro rfl; exact .noTable v hw vals hval hk
        · intro h
          cases h with
          | noVariable h1 h2 => exact absurd hw (by simp [Spec.writesTo, h1, h2])
          | notSet _ _ h => rw [hval] at h; cases h
          | noTable => rfl
          | firstWidth v' hv' f h | laterWidth v' hv' f h | laterRows v' hv' f h =>
            obtain rfl := (hv _).1 hv'
            simp [frame, hval, hf] at h
      | some f =>
        have hfr : d.frame v = some f := by simp [frame, hval, hf]
        have hk : v ∈ dkeys vals := by
          by_contra hk
          rw [(dget_eq_none_iff ..).2 hk] at hf; cases hf
        have hreg : d.register rows var = .error e ↔ extend (d.indep.length + d.deps.length) f rows = .error e := by
          simp only [register, ht, ok_bind, hval, dgetE, hf]
          cases extend (d.indep.length + d.deps.length) f rows <;> simp
        rw [hreg, extend_refused]
        constructor
        · rintro (⟨a, b, rfl⟩ | ⟨a, b, c, rfl⟩ | ⟨a, b, c, g, rfl⟩)
          · exact .firstWidth v hw f hfr a b
          · exact .laterWidth v hw f hfr a b c
          · exact .laterRows v hw f hfr a b c g
        · intro h
          cases h with
          | noVariable h1 h2 => exact absurd hw (by simp [Spec.writesTo, h1, h2])
          | notSet _ _ h => rw [hval] at h; cases h
          | noTable v' hv' vals' h hk' =>
            obtain rfl := (hv _).1 hv'
            rw [hval] at h; cases h
            exact absurd hk hk'
          | firstWidth v' hv' f' hf' a b =>
            obtain rfl := (hv _).1 hv'
            obtain rfl : f = f' := Option.some.inj (hfr.symm.trans hf')
            exact .inl ⟨a, b, rfl⟩
          | laterWidth v' hv' f' hf' a b c =>
            obtain rfl := (hv _).1 hv'
            obtain rfl : f = f' := Option.some.inj (hfr.symm.trans hf')
            exact .inr (.inl ⟨a, b, c, rfl⟩)
          | laterRows v' hv' f' hf' a b c g =>
            obtain rfl := (hv _).1 hv'
            obtain rfl : f = f' := Option.some.inj (hfr.symm.trans hf')
            exact .inr (.inr ⟨a, b, c, g, rfl⟩)
  · simp only [register, ht, error_bind, Except.error.injEq]
    constructor
    · rintro rfl; exact .noVariable hvar h0
    · intro h
      cases h with
      | noVariable => rfl
      | notSet v hv | noTable v hv | firstWidth v hv | laterWidth v hv | laterRows v hv => exact absurd hv (hno v)

/-- C103: columns cannot be renamed before the domain is set; otherwise they can. -/
theorem rename_refused_iff (d : DomainObj K) (m : Dict String String) (e : Err) : d.renameHeaders m = .error e ↔ d.values = none ∧ e = .attributeError := by
  unfold DomainObj.renameHeaders
  cases d.values with
  | none => simp [eq_comm]
  | some v => simp

theorem colIdx_none_iff (l : Label) : ∀ c : List Label, DomainObj.colIdx l c = none ↔ l ∉ c
  | [] => by simp [DomainObj.colIdx]
  | a :: t => by
    unfold DomainObj.colIdx
    by_cases h : a = l
    · simp [h]
    · have h' : ¬ l = a := fun x => h x.symm
      simp [h, h', colIdx_none_iff l t]

open DomainObj in
/-- C103: reading is refused exactly when the domain was not set (and something is asked for), or some independent variable asked for has no table or this lacks
a column asked for. -/
theorem read_refused_iff [Inhabited K] (d : DomainObj K) (inds deps : List String) (e : Err) : d.getItem inds deps = .error e ↔
    (d.values = none ∧ inds ≠ [] ∧ deps ≠ [] ∧ e = .typeError) ∨
    (∃ vals, d.values = some vals ∧ e = .keyError ∧ ∃ i ∈ inds, ∃ j ∈ deps, ∀ f, dget vals i = some f → Label.name j ∉ f.cols) := by
  unfold getItem
  cases hv : d.values with
  | none =>
    simp only [Option.some.injEq, reduceCtorEq, false_and, exists_false, or_false, true_and]
    by_cases h1 : inds = []
    · simp [h1]
    · by_cases h2 : deps = []
      · simp [h2]
      · have hb : (inds.isEmpty || deps.isEmpty) = false := by simp [h1, h2]
        simp only [hb, h1, h2, ne_eq, not_false_eq_true, true_and]
        constructor
        · intro h; cases h; rfl
        · rintro rfl; rfl
  | some vals =>
    have hp : ∀ p : String × String, (∃ x, (do column (← dgetE vals p.1) p.2 : Except Err (List K)) = .ok x) ∨
        ((do column (← dgetE vals p.1) p.2 : Except Err (List K)) = .error .keyError ∧ ∀ f, dget vals p.1 = some f → Label.name p.2 ∉ f.cols) := by
      intro p
      cases hf : dget vals p.1 with
      | none => right; simp [dgetE, hf]
      | some f =>
        simp only [dgetE, hf, ok_bind, column]
        cases hc : colIdx (.name p.2) f.cols with
        | none => right; exact ⟨rfl, fun g hg => by cases hg; exact (colIdx_none_iff _ _).1 hc⟩
        | some i => left; exact ⟨_, rfl⟩
    have hp' : ∀ p : String × String, (∀ f, dget vals p.1 = some f → Label.name p.2 ∉ f.cols) →
        (do column (← dgetE vals p.1) p.2 : Except Err (List K)) = .error .keyError := by
      intro p h
      cases hf : dget vals p.1 with
      | none => simp [dgetE, hf]
      | some f => simp [dgetE, hf, column, (colIdx_none_iff _ _).2 (h f hf)]
    have hm : ∀ l : List (String × String), (l.mapM fun p => (do column (← dgetE vals p.1) p.2 : Except Err (List K))) = .error e ↔
        e = .keyError ∧ ∃ p ∈ l, ∀ f, dget vals p.1 = some f → Label.name p.2 ∉ f.cols := by
      intro l
      induction l with
      | nil => simp [pure, Except.pure]
      | cons p t ih =>
        rw [List.mapM_cons]
        rcases hp p with ⟨x, hx⟩ | ⟨hx, hn⟩
        · rw [hx, ok_bind]
          have hnot : ¬ ∀ f, dget vals p.1 = some f → Label.name p.2 ∉ f.cols := fun h => by rw [hp' p h] at hx; cases hx
          have : ((List.mapM (fun p => (do column (← dgetE vals p.1) p.2 : Except Err (List K))) t >>= fun ys => (pure (x :: ys) : Except Err (List (List K)))) = .error e) ↔
              (List.mapM (fun p => (do column (← dgetE vals p.1) p.2 : Except Err (List K))) t) = .error e := by
            cases List.mapM (fun p => (do column (← dgetE vals p.1) p.2 : Except Err (List K))) t <;> simp [pure, Except.pure]
          rw [this, ih]
          simp only [List.mem_cons, exists_eq_or_imp]
          tauto
        · rw [hx, error_bind, Except.error.injEq]
          simp only [List.mem_cons, exists_eq_or_imp]
          constructor
          · rintro rfl; exact ⟨rfl, .inl hn⟩
          · rintro ⟨rfl, _⟩; rfl
    rw [hm]
    simp only [reduceCtorEq, false_and, false_or, Option.some.injEq, exists_eq_left']
    refine and_congr_right fun _ => ⟨?_, ?_⟩
    · rintro ⟨p, hpm, h⟩
      obtain ⟨i, hi, hj⟩ := List.mem_flatMap.1 hpm
      obtain ⟨j, hj', rfl⟩ := List.mem_map.1 hj
      exact ⟨i, hi, j, hj', h⟩
    · rintro ⟨i, hi, j, hj, h⟩
      exact ⟨(i, j), List.mem_flatMap.2 ⟨i, hi, List.mem_map.2 ⟨j, hj, rfl⟩⟩, h⟩

/-! Samples: each refusal occurs. -/
example : (DomainObj.init "d" [] : DomainObj Rat).register [[1]] none = .error .indexError := rfl
example : (DomainObj.init "d" ["t"] : DomainObj Rat).register [[1]] none = .error .typeError := rfl
example : ([DomOp.distribute "x"].foldl DomOp.run (DomainObj.init "d" ["t"] : DomainObj Rat)).register [[1, 2]] (some "u") = .error .keyError := by decide +kernel
example : ([DomOp.distribute "x"].foldl DomOp.run (DomainObj.init "d" ["t"] : DomainObj Rat)).register [[1, 2, 3]] none = .error .valueError := by decide +kernel
example : (Ex.dom1.foldl DomOp.run (DomainObj.init "d" ["t"])).register [[3, 8, 9]] none = .error (.exception "Error. Ill-formed input for domain register") := by decide +kernel
example : (Ex.dom1.foldl DomOp.run (DomainObj.init "d" ["t"])).register [[3, 8]] none = .error .valueError := rfl
example : (DomainObj.init "d" ["t"] : DomainObj Rat).renameHeaders [("x", "y")] = .error .attributeError := rfl
example : (DomainObj.init "d" ["t"] : DomainObj Rat).getItem ["t"] ["x"] = .error .typeError := rfl
example : (Ex.dom1.foldl DomOp.run (DomainObj.init "d" ["t"])).getItem ["t"] ["x", "y"] = .error .keyError := by decide +kernel
example : (Ex.dom1.foldl DomOp.run (DomainObj.init "d" ["t"])).getItem ["t"] ["x"] = .ok [[1, 2, 4]] := by decide +kernel

end Sloth
