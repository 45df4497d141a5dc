import Verif.Props.Optimization
import Verif.Props.Packages
import Verif.Props.Carried

/-!
# Which calls of results, packages and studies are refused (C104)

Each of these calls ends with an exception exactly in the cases listed, and with the exception listed.
-/

namespace Sloth

/-! ## Results of simulations -/
section
open PyS
variable {K : Type} [Field K]

/-- When and how `getResults` is refused, for a simulation `o` of a problem with the equations `b`. -/
inductive Spec.ResultsRefused (s : SimWorld K) (o : SimObj K) (b : Block) : RetType → Err → Prop
  /-- the problem has no type -/
  | noType (rt : RetType) (h : b.problemType = none) : ResultsRefused s o b rt .unresolvedPanic
  /-- algebraic, no such form -/
  | algForm (h : b.problemType = some .linear ∨ b.problemType = some .nonlinear) : ResultsRefused s o b .other .unexpectedValue
  /-- algebraic, nothing solved -/
  | algList (h : b.problemType = some .linear ∨ b.problemType = some .nonlinear) (ho : ∀ d, o.output ≠ some (.dict d)) : ResultsRefused s o b .list .typeError
  | algDict (h : b.problemType = some .linear ∨ b.problemType = some .nonlinear) (ho : ∀ d, o.output ≠ some (.dict d)) : ResultsRefused s o b .dict .attributeError
  /-- dynamic, not configured -/
  | noConf (rt : RetType) (h : b.problemType = some .differential ∨ b.problemType = some .dae) (hc : o.conf = none) : ResultsRefused s o b rt .typeError
  /-- dynamic, the settings lack the domain -/
  | noKey (rt : RetType) (h : b.problemType = some .differential ∨ b.problemType = some .dae) (c : Conf) (hc : o.conf = some c) (hk : "domain" ∉ dkeys c) :
      ResultsRefused s o b rt .keyError
  /-- dynamic, the domain configured is none -/
  | noDomain (rt : RetType) (hrt : rt ≠ .other) (h : b.problemType = some .differential ∨ b.problemType = some .dae) (c : Conf) (hc : o.conf = some c) (v : CVal)
      (hk : dget c "domain" = some v) (hv : ∀ r, v ≠ .dom r) : ResultsRefused s o b rt .attributeError
  /-- dynamic, the domain is not set -/
  | notSet (rt : RetType) (hrt : rt ≠ .other) (h : b.problemType = some .differential ∨ b.problemType = some .dae) (c : Conf) (hc : o.conf = some c) (r : DRef)
      (hk : dget c "domain" = some (.dom r)) (d : DomainObj K) (hd : s.doms[r]? = some d) (hv : d.values = none) : ResultsRefused s o b rt .attributeError
  /-- dynamic, no such form -/
  | timeForm (h : b.problemType = some .differential ∨ b.problemType = some .dae) (c : Conf) (hc : o.conf = some c) (hk : "domain" ∈ dkeys c) :
      ResultsRefused s o b .other .unexpectedValue

theorem algResults_refused (out : Option (Output K)) (rt : RetType) (e : Err) : algResults out rt = .error e ↔
    (rt = .other ∧ e = .unexpectedValue) ∨ (rt = .list ∧ (∀ d, out ≠ some (.dict d)) ∧ e = .typeError) ∨ (rt = .dict ∧ (∀ d, out ≠ some (.dict d)) ∧ e = .attributeError) := by
  cases rt with
  | other => simp [algResults, eq_comm]
  | list => rcases out with _ | (_ | _) <;> simp [algResults, eq_comm]
  | dict => rcases out with _ | (_ | _) <;> simp [algResults, eq_comm]

/-- C104: results are refused exactly in the listed cases. -/
theorem results_refused_iff {s : SimWorld K} {i : SRef} {o : SimObj K} (ho : s.sims[i]? = some o) {b : Block} (hb : s.w.pr.block = some b)
    (hdom : ∀ c r, o.conf = some c → dget c "domain" = some (.dom r) → r < s.doms.length) (rt : RetType) (e : Err) :
    (getResults i rt s).1 = .error e ↔ Spec.ResultsRefused s o b rt e := by
  have hstart : getResults i rt s = (match b.problemType with
    | some .linear | some .nonlinear => lift (algResults o.output rt)
    | some .differential | some .dae => timeResults o.conf rt
    | none => PyS.raise .unresolvedPanic) s := by
    unfold getResults
    rw [bind_of_ok (getSim_ok.2 ⟨ho, rfl⟩), bind_of_ok (getBlock_ok.2 ⟨hb, rfl⟩)]
    rfl
  rw [hstart]
  have halg : (b.problemType = some .linear ∨ b.problemType = some .nonlinear) → ((algResults o.output rt = .error e) ↔ Spec.ResultsRefused s o b rt e) := by
    intro h
    rw [algResults_refused]
    constructor
    · rintro (⟨rfl, rfl⟩ | ⟨rfl, hn, rfl⟩ | ⟨rfl, hn, rfl⟩)
      · exact .algForm h
      · exact .algList h hn
      · exact .algDict h hn
    · intro hr
      cases hr with
      | noType _ h' => rw [h'] at h; simp at h
      | algForm => exact .inl ⟨rfl, rfl⟩
      | algList _ hn => exact .inr (.inl ⟨rfl, hn, rfl⟩)
      | algDict _ hn => exact .inr (.inr ⟨rfl, hn, rfl⟩)
      | noConf _ h' | noKey _ h' | noDomain _ _ h' | notSet _ _ h' | timeForm h' => exfalso; rcases h with h | h <;> rw [h] at h' <;> simp at h'
  have htime : (b.problemType = some .differential ∨ b.problemType = some .dae) → (((timeResults o.conf rt : PyS K _) s).1 = .error e ↔ Spec.ResultsRefused s o b rt e) := by
    intro h
    have hno : ¬ (b.problemType = some .linear ∨ b.problemType = some .nonlinear) := by rcases h with h | h <;> rw [h] <;> simp
    by_cases hrt : rt = .other
    · subst hrt
      unfold timeResults domainSetting
      rw [if_pos rfl]
      cases hc : o.conf with
      | none =>
        have : ((PyS.raise .typeError : PyS K CVal) >>= fun _ => (PyS.raise .unexpectedValue : PyS K (Results K))) s = (.error .typeError, s) := rfl
        simp only [this, Except.error.injEq]
        constructor
        · rintro rfl; exact .noConf _ h hc
        · intro hr
          cases hr with
          | noType _ h' => rw [h'] at h; simp at h
          | algForm h' => exact absurd h' hno
          | noConf => rfl
          | noKey _ _ c hc' | timeForm _ c hc' => rw [hc] at hc'; cases hc'
          | noDomain _ hr | notSet _ hr => exact absurd rfl hr
      | some c =>
        simp only []
        cases hk : dget c "domain" with
        | none =>
          have hk' := (dget_eq_none_iff ..).1 hk
          have : (lift (dgetE c "domain") : PyS K CVal) s = (.error .keyError, s) := by simp [lift, dgetE, hk]
          rw [bind_of_error this]
          simp only [Except.error.injEq]
          constructor
          · rintro rfl; exact .noKey _ h c hc hk'
          · intro hr
            cases hr with
            | noType _ h' => rw [h'] at h; simp at h
            | algForm h' => exact absurd h' hno
            | noConf _ _ hc' => rw [hc] at hc'; cases hc'
            | noKey => rfl
            | timeForm _ c' hc' hm => rw [hc] at hc'; cases hc'; exact absurd hm hk'
            | noDomain _ hr | notSet _ hr => exact absurd rfl hr
        | some v =>
          have hkm : "domain" ∈ dkeys c := by
            by_contra hn
            rw [(dget_eq_none_iff ..).2 hn] at hk; cases hk
          have hl : (lift (dgetE c "domain") : PyS K CVal) s = (.ok v, s) := by simp [lift, dgetE, hk]
          rw [bind_of_ok hl]
          have : ((PyS.raise .unexpectedValue : PyS K (Results K)) s) = (.error .unexpectedValue, s) := rfl
          simp only [this, Except.error.injEq]
          constructor
          · rintro rfl; exact .timeForm h c hc hkm
          · intro hr
            cases hr with
            | noType _ h' => rw [h'] at h; simp at h
            | algForm h' => rfl
            | noConf _ _ hc' => rw [hc] at hc'; cases hc'
            | noKey _ _ c' hc' hk' => rw [hc] at hc'; cases hc'; exact absurd hkm hk'
            | timeForm => rfl
            | noDomain _ hr | notSet _ hr => exact absurd rfl hr
    unfold timeResults domainTables
    rw [if_neg hrt]
    cases hc : o.conf with
    | none =>
      have : ((PyS.raise .typeError : PyS K (Dict String (Frame K))) >>= fun v => lift (diffResults v rt)) s = (.error .typeError, s) := rfl
      simp only [this, Except.error.injEq]
      constructor
      · rintro rfl; exact .noConf rt h hc
      · intro hr
        cases hr with
        | noType _ h' => rw [h'] at h; simp at h
        | algForm h' | algList h' | algDict h' => exact absurd h' hno
        | noConf => rfl
        | noKey _ _ c hc' | noDomain _ _ _ c hc' | notSet _ _ _ c hc' | timeForm _ c hc' => rw [hc] at hc'; cases hc'
    | some c =>
      simp only []
      cases hk : dget c "domain" with
      | none =>
        have hk' := (dget_eq_none_iff ..).1 hk
        have : (lift (dgetE c "domain") : PyS K CVal) s = (.error .keyError, s) := by simp [lift, dgetE, hk]
        rw [bind_of_error (e := .keyError) (s1 := s) (by rw [bind_of_error this])]
        simp only [Except.error.injEq]
        constructor
        · rintro rfl; exact .noKey rt h c hc hk'
        · intro hr
          cases hr with
          | noType _ h' => rw [h'] at h; simp at h
          | algForm h' | algList h' | algDict h' => exact absurd h' hno
          | noConf _ _ hc' => rw [hc] at hc'; cases hc'
          | noKey => rfl
          | noDomain _ _ _ c' hc' v hv | notSet _ _ _ c' hc' v hv => rw [hc] at hc'; cases hc'; rw [hk] at hv; cases hv
          | timeForm => exact absurd rfl hrt
      | some v =>
        have hkm : "domain" ∈ dkeys c := by
          by_contra hn
          rw [(dget_eq_none_iff ..).2 hn] at hk; cases hk
        have hl : (lift (dgetE c "domain") : PyS K CVal) s = (.ok v, s) := by simp [lift, dgetE, hk]
        by_cases hv : ∃ r, v = .dom r
        · obtain ⟨r, rfl⟩ := hv
          have hr := hdom c r hc hk
          have hd : s.doms[r]? = some s.doms[r] := List.getElem?_eq_getElem hr
          generalize s.doms[r] = d at hd
          have hg : (getD r : PyS K _) s = (.ok d, s) := by simp [getD, hd]
          cases hvals : d.values with
          | none =>
            rw [bind_of_error (e := .attributeError) (s1 := s) (by rw [bind_of_ok hl]; simp only []; rw [bind_of_ok hg, hvals]; rfl)]
            simp only [Except.error.injEq]
            constructor
            · rintro rfl; exact .notSet rt hrt h c hc r hk d hd hvals
            · intro hr
              cases hr with
              | noType _ h' => rw [h'] at h; simp at h
              | algForm h' | algList h' | algDict h' => exact absurd h' hno
              | noConf _ _ hc' => rw [hc] at hc'; cases hc'
              | noKey _ _ c' hc' hk' => rw [hc] at hc'; cases hc'; exact absurd hkm hk'
              | noDomain => rfl
              | notSet => rfl
              | timeForm => exact absurd rfl hrt
          | some vals =>
            rw [bind_of_ok (a := vals) (s1 := s) (by rw [bind_of_ok hl]; simp only []; rw [bind_of_ok hg, hvals]; rfl)]
            have hdiff : (lift (diffResults vals rt) : PyS K _) s = (diffResults vals rt, s) := rfl
            rw [hdiff]
            constructor
            · intro he
              cases rt with
              | list => simp [diffResults] at he
              | dict => simp [diffResults] at he
              | other => exact absurd rfl hrt
            · intro hr
              cases hr with
              | noType _ h' => rw [h'] at h; simp at h
              | algForm h' | algList h' | algDict h' => exact absurd h' hno
              | noConf _ _ hc' => rw [hc] at hc'; cases hc'
              | noKey _ _ c' hc' hk' => rw [hc] at hc'; cases hc'; exact absurd hkm hk'
              | noDomain _ _ _ c' hc' v' hk' hv' => rw [hc] at hc'; cases hc'; rw [hk] at hk'; cases hk'; exact absurd rfl (hv' r)
              | notSet _ _ _ c' hc' r' hk' d' hd' hv' =>
                rw [hc] at hc'; cases hc'; rw [hk] at hk'; cases hk'; rw [hd] at hd'; cases hd'; rw [hvals] at hv'; cases hv'
              | timeForm => exact absurd rfl hrt
        · have hv' : ∀ r, v ≠ .dom r := fun r hr => hv ⟨r, hr⟩
          rw [bind_of_error (e := .attributeError) (s1 := s) (by rw [bind_of_ok hl]; cases v <;> first | rfl | exact absurd rfl (hv' _))]
          simp only [Except.error.injEq]
          constructor
          · rintro rfl; exact .noDomain rt hrt h c hc v hk hv'
          · intro hr
            cases hr with
            | noType _ h' => rw [h'] at h; simp at h
            | algForm h' | algList h' | algDict h' => exact absurd h' hno
            | noConf _ _ hc' => rw [hc] at hc'; cases hc'
            | noKey _ _ c' hc' hk' => rw [hc] at hc'; cases hc'; exact absurd hkm hk'
            | noDomain => rfl
            | notSet => rfl
            | timeForm => exact absurd rfl hrt
  cases hk : b.problemType with
  | none =>
    simp only [PyS.raise, Except.error.injEq]
    constructor
    · rintro rfl; exact .noType rt hk
    · intro hr
      cases hr with
      | noType => rfl
      | algForm h' | algList h' | algDict h' | noConf _ h' | noKey _ h' | noDomain _ _ h' | notSet _ _ h' | timeForm h' => rw [hk] at h'; simp at h'
  | some k =>
    cases k with
    | linear => exact halg (.inl hk)
    | nonlinear => exact halg (.inr hk)
    | differential => exact htime (.inl hk)
    | dae => exact htime (.inr hk)
end

/-- Before the run there is nothing to return; of a form that does not exist nothing is returned either. -/
example : let s := simHistory Ex.ext Ex.ratI ((Ex.linRun []).take ((Ex.linRun []).length - 1))
    (getResults 0 .list s).1 = .error .typeError ∧ (getResults 0 .dict s).1 = .error .attributeError ∧ (getResults 0 .other s).1 = .error .unexpectedValue ∧
    s.sims.length = 1 ∧ s.w.pr.block.isSome = true := by refine ⟨?_, ?_, ?_, ?_, ?_⟩ <;> rfl

/-! ## Packages -/
namespace Pkg

theorem calcLoop_refused (ph : Dict String CRef) (T P : Rat) (l : List (Option String)) (w : World) (e : Err) :
    (calcLoop ph T P l w).1 = .error e ↔ e = .keyError ∧ ∃ n ∈ l, ∀ s, n = some s → s ∉ dkeys ph := by
  induction l generalizing w with
  | nil => simp [calcLoop]
  | cons n t ih =>
    cases n with
    | none => simp [calcLoop, eq_comm]
    | some s =>
      unfold calcLoop
      cases h : dget ph s with
      | none =>
        have := (dget_eq_none_iff ..).1 h
        simp [this, eq_comm]
      | some c =>
        have : s ∈ dkeys ph := by
          by_contra hn
          rw [(dget_eq_none_iff ..).2 hn] at h; cases h
        simp only [ih]
        simp [this]

/-- C104: calculating is refused exactly if some phase name has no chemical. -/
theorem calculate_refused_iff {a : PRef} {w : World} {p : Obj} {l : List (Option String)} (hp : w.pkgs[a]? = some p) (hl : w.lists[p.names]? = some l)
    (T P : Rat) (e : Err) : (calculate a T P w).1 = .error e ↔ e = .keyError ∧ ∃ n ∈ l, ∀ s, n = some s → s ∉ dkeys p.phases := by
  unfold calculate
  simp only [hp, hl]
  exact calcLoop_refused ..

theorem addLoop_refused {a : PRef} {ph : Dict String CRef} {ys : List (Option String)} {w : World} {p : Obj} {xs : List (Option String)}
    (hp : w.pkgs[a]? = some p) (hl : w.lists[p.names]? = some xs) (e : Err) :
    (addLoop a ph ys w).1 = .error e ↔ e = .keyError ∧ ∃ n ∈ ys, n ∉ xs ∧ ∀ s, n = some s → s ∉ dkeys ph := by
  induction ys generalizing w p xs with
  | nil => simp [addLoop]
  | cons n t ih =>
    unfold addLoop
    simp only [hp, hl]
    by_cases hn : n ∈ xs
    · rw [if_pos (by simpa using hn), ih hp hl]
      simp [hn]
    · rw [if_neg (by simpa using hn)]
      cases n with
      | none => simp [hn, eq_comm]
      | some s =>
        simp only []
        cases h : dget ph s with
        | none =>
          have := (dget_eq_none_iff ..).1 h
          simp [this, hn, eq_comm]
        | some c =>
          have hm : s ∈ dkeys ph := by
            by_contra hn
            rw [(dget_eq_none_iff ..).2 hn] at h; cases h
          have hlt := (List.getElem?_eq_some_iff.1 hp).1
          have hlt' := (List.getElem?_eq_some_iff.1 hl).1
          simp only []
          rw [ih (p := { p with phases := dset p.phases s c }) (xs := xs ++ [some s]) (by simp [hlt]) (by simp [hlt'])]
          refine and_congr_right fun _ => ⟨?_, ?_⟩
          · rintro ⟨n, h1, h2, h3⟩
            exact ⟨n, List.mem_cons_of_mem _ h1, fun h => h2 (List.mem_append_left _ h), h3⟩
          · rintro ⟨n, h1, h2, h3⟩
            rcases List.mem_cons.1 h1 with rfl | h1
            · exact absurd hm (h3 s rfl)
            · refine ⟨n, h1, fun h => ?_, h3⟩
              rcases List.mem_append.1 h with h | h
              · exact h2 h
              · obtain rfl : n = some s := by simpa using h
                exact absurd hm (h3 s rfl)

/-- C104: a sum of packages is refused exactly if some phase name the right one adds has no chemical there. -/
theorem sum_refused_iff {a b : PRef} {w : World} {p q : Obj} {xs ys : List (Option String)} (hp : w.pkgs[a]? = some p) (hl : w.lists[p.names]? = some xs)
    (hq : w.pkgs[b]? = some q) (hy : w.lists[q.names]? = some ys) (e : Err) :
    (add a (.pkg b) w).1 = .error e ↔ e = .keyError ∧ ∃ n ∈ ys, n ∉ xs ∧ ∀ s, n = some s → s ∉ dkeys q.phases := by
  rw [← addLoop_refused hp hl]
  unfold add
  simp only [hq, hy]
  split <;> rename_i h <;> simp [h]

/-- C104: a sum with anything else is refused. -/
theorem sum_other_refused (a : PRef) (w : World) : add a .other w = (.error .unexpectedValue, w) := rfl

/-- C104: a chemical is refused exactly if there is none of that name, or the last one is asked for and there is none. -/
theorem chemical_refused_iff {a : PRef} {w : World} {p : Obj} (hp : w.pkgs[a]? = some p) (name : String) (e : Err) :
    (item a name w).1 = .error e ↔ (name = "*" ∧ p.phases = [] ∧ e = .indexError) ∨ (name ≠ "*" ∧ name ∉ dkeys p.phases ∧ e = .keyError) := by
  unfold item
  simp only [hp]
  by_cases h : name = "*"
  · simp only [h, if_true, true_and, ne_eq, not_true_eq_false, false_and, or_false]
    cases hl : (dkeys p.phases).getLast? with
    | none =>
      have : p.phases = [] := by simpa [dkeys] using hl
      simp [this, eq_comm]
    | some k =>
      have hk : k ∈ dkeys p.phases := List.mem_of_getLast? hl
      have hne : p.phases ≠ [] := fun h => by simp [h, dkeys] at hk
      have : ∃ c, dget p.phases k = some c := by
        cases hc : dget p.phases k with
        | none => exact absurd hk ((dget_eq_none_iff ..).1 hc)
        | some c => exact ⟨c, rfl⟩
      obtain ⟨c, hc⟩ := this
      simp [dgetE, hc, hne]
  · simp only [if_neg h, h, false_and, ne_eq, not_false_eq_true, true_and, false_or]
    cases hc : dget p.phases name with
    | none => simp [dgetE, hc, (dget_eq_none_iff ..).1 hc, eq_comm]
    | some c =>
      have : name ∈ dkeys p.phases := by
        by_contra hn
        rw [(dget_eq_none_iff ..).2 hn] at hc; cases hc
      simp [dgetE, hc, this]

/-- C104: temperatures and pressures are refused exactly if they are no `float`. -/
theorem condition_refused_iff {a : PRef} {w : World} {p : Obj} (hp : w.pkgs[a]? = some p) (isFloat : Bool) (v : Rat) (e : Err) :
    ((setT a isFloat v w).1 = .error e ↔ isFloat = false ∧ e = .absentRequiredObject) ∧ ((setP a isFloat v w).1 = .error e ↔ isFloat = false ∧ e = .absentRequiredObject) := by
  cases isFloat <;> simp [setT, setP, hp, eq_comm]

theorem mkPhases_refused (known : String → Bool) (T P : Rat) (l : List (Option String)) (d : Dict String CRef) (w : World) (e : Err) :
    (mkPhases known T P l d w).1 = .error e ↔ e = .exception "unknown chemical" ∧ ∃ s, some s ∈ l ∧ known s = false := by
  induction l generalizing d w with
  | nil => simp [mkPhases]
  | cons n t ih =>
    cases n with
    | none => simp [mkPhases, ih]
    | some s =>
      unfold mkPhases
      by_cases h : known s
      · rw [if_pos h, ih]
        refine and_congr_right fun _ => ⟨fun ⟨s', h1, h2⟩ => ⟨s', List.mem_cons_of_mem _ h1, h2⟩, fun ⟨s', h1, h2⟩ => ?_⟩
        rcases List.mem_cons.1 h1 with h1 | h1
        · cases h1; rw [h] at h2; cases h2
        · exact ⟨s', h1, h2⟩
      · rw [if_neg h]
        have h' : known s = false := by simpa using h
        simp only [Except.error.injEq]
        exact ⟨fun he => ⟨he.symm, s, by simp, h'⟩, fun he => he.1.symm⟩

/-- C104: a package is refused exactly if the library does not know one of the names. -/
theorem package_refused_iff (known : String → Bool) (count : Rat) {r : LRef} {w : World} {l : List (Option String)} (hl : w.lists[r]? = some l) (e : Err) :
    (new known count r w).1 = .error e ↔ e = .exception "unknown chemical" ∧ ∃ s, some s ∈ l ∧ known s = false := by
  rw [← mkPhases_refused known (29815 / 100) 101325 l [] w]
  unfold new
  simp only [hl]
  split <;> rename_i h <;> simp [h]

end Pkg

/-! ## Studies -/
namespace Opt
section
variable {K : Type}

/-- The settings of the simulation a study gets, from those given and those the simulation has. -/
inductive Spec.SimSettings (own : Option Conf) : ConfArg → Conf → Prop
  | dict (c : Conf) : SimSettings own (.dict c) c
  | file (c : Conf) : SimSettings own (.file c) c
  | own (c : Conf) (h : own = some c) : SimSettings own .none c

/-- The settings of the optimizer, from those given. -/
inductive Spec.OptSettings : ConfArg → Conf → Prop
  | none : OptSettings .none defaults
  | file (c : Conf) : OptSettings (.file c) c
  | dict (c : Conf) : OptSettings (.dict c) (dupdate defaults c)

/-- When and how a study is refused. -/
inductive Spec.StudyRefused (lib : Lib K) (own : Option Conf) (a : Args K) : Err → Prop
  /-- no settings for the simulation -/
  | simSettings (h : ∀ c, ¬ Spec.SimSettings own a.simConf c) : StudyRefused lib own a .absentRequiredObject
  /-- settings of no known form -/
  | optSettings (h : ∀ c, ¬ Spec.OptSettings a.conf c) : StudyRefused lib own a .absentRequiredObject
  /-- an optimizer that is neither a function nor a name -/
  | optimizer (c : Conf) (hs : Spec.SimSettings own a.simConf c) (c' : Conf) (ho : Spec.OptSettings a.conf c') (h : a.optimizer = .other) : StudyRefused lib own a .unexpectedValue
  /-- a setting the optimizer needs is missing -/
  | setting (c : Conf) (hs : Spec.SimSettings own a.simConf c) (c' : Conf) (ho : Spec.OptSettings a.conf c') (s : String) (h : a.optimizer = .str s)
      (hk : s ∈ ["ga", "sade", "de", "pso"]) (k : String) (hn : k ∈ Spec.needs s) (hm : k ∉ dkeys c') : StudyRefused lib own a .keyError

/-- The library is asked for the optimizer with the settings, and answers `e`. -/
def Spec.LibraryRefuses (lib : Lib K) (own : Option Conf) (a : Args K) (e : Err) : Prop :=
  ∃ c c' s al, Spec.SimSettings own a.simConf c ∧ Spec.OptSettings a.conf c' ∧ a.optimizer = .str s ∧ s ∈ ["ga", "sade", "de", "pso"] ∧ (∀ k ∈ Spec.needs s, k ∈ dkeys c') ∧
    al.kind = s ∧ (∀ p ∈ Spec.shapes s, dget al.args p.1 = dget c' p.2) ∧ lib.algorithm al = .error e

theorem simulationConf_ok {own : Option Conf} {x : ConfArg} {c : Conf} : simulationConf own x = .ok c ↔ Spec.SimSettings own x c := by
  constructor
  · intro h
    cases x with
    | none =>
      cases own with
      | none => cases h
      | some c' => cases h; exact .own _ rfl
    | file c' => cases h; exact .file _
    | dict c' => cases h; exact .dict _
    | other => cases h
  · intro h
    cases h with
    | dict | file => rfl
    | own c h => subst h; rfl

theorem simulationConf_error {own : Option Conf} {x : ConfArg} {e : Err} : simulationConf own x = .error e ↔ (∀ c, ¬ Spec.SimSettings own x c) ∧ e = .absentRequiredObject := by
  constructor
  · intro h
    refine ⟨fun c hc => ?_, ?_⟩
    · rw [simulationConf_ok.2 hc] at h; cases h
    · cases x with
      | none => cases own <;> cases h <;> rfl
      | file | dict | other => cases h <;> rfl
  · rintro ⟨h, rfl⟩
    cases x with
    | none =>
      cases own with
      | none => rfl
      | some c => exact absurd (.own c rfl) (h c)
    | file c => exact absurd (.file c) (h c)
    | dict c => exact absurd (.dict c) (h c)
    | other => rfl

theorem optConf_ok {x : ConfArg} {c : Conf} : optConf x = .ok c ↔ Spec.OptSettings x c := by
  constructor
  · intro h
    cases x with
    | none => cases h; exact .none
    | file c' => cases h; exact .file _
    | dict c' => cases h; exact .dict _
    | other => cases h
  · intro h
    cases h <;> rfl

theorem optConf_error {x : ConfArg} {e : Err} : optConf x = .error e ↔ (∀ c, ¬ Spec.OptSettings x c) ∧ e = .absentRequiredObject := by
  constructor
  · intro h
    refine ⟨fun c hc => ?_, ?_⟩
    · rw [optConf_ok.2 hc] at h; cases h
    · cases x <;> cases h <;> rfl
  · rintro ⟨h, rfl⟩
    cases x with
    | none => exact absurd .none (h _)
    | file c => exact absurd (.file c) (h c)
    | dict c => exact absurd (.dict c) (h _)
    | other => rfl

theorem readAll_error {c : Conf} {l : List String} {e : Err} : readAll c l = .error e ↔ (∃ k ∈ l, k ∉ dkeys c) ∧ e = .keyError := by
  induction l with
  | nil => simp [readAll]
  | cons k t ih =>
    unfold readAll dgetE
    cases hk : dget c k with
    | none =>
      have := (dget_eq_none_iff ..).1 hk
      simp [this, eq_comm]
    | some v =>
      have : k ∈ dkeys c := by
        by_contra hn
        rw [(dget_eq_none_iff ..).2 hn] at hk; cases hk
      simp [ih, this]

theorem unknown_recipe {s : String} (h : s ∉ ["ga", "sade", "de", "pso"]) : recipe s = none := by
  unfold recipe
  split <;> simp_all

/-- How a known optimizer is made. -/
theorem known_optimizer {lib : Lib K} {c : Conf} {s : String} (hk : s ∈ ["ga", "sade", "de", "pso"]) (hn : ∀ k ∈ Spec.needs s, k ∈ dkeys c) :
    ∃ al, al.kind = s ∧ (∀ p ∈ Spec.shapes s, dget al.args p.1 = dget c p.2) ∧ setOptimizer lib c (.str s) = (lib.algorithm al).map fun _ => (some s, some al) := by
  have hv : ∀ k ∈ Spec.needs s, ∃ v, dget c k = some v := fun k h => exists_dget_of_mem (hn k h)
  clear hn
  simp only [List.mem_cons, List.not_mem_nil, or_false] at hk
  rcases hk with rfl | rfl | rfl | rfl <;> simp [Spec.needs, Spec.shapes] at hv
  · obtain ⟨⟨v1, h1⟩, ⟨v2, h2⟩, ⟨v3, h3⟩, ⟨v4, h4⟩, ⟨v5, h5⟩, ⟨v6, h6⟩, ⟨v7, h7⟩, ⟨v8, h8⟩, ⟨v9, h9⟩⟩ := hv
    refine ⟨⟨"ga", [("gen", v1), ("cr", v2), ("m", v3), ("param_s", v4), ("crossover", v5), ("mutation", v6), ("selection", v7), ("eta_c", .num 1), ("param_m", .num 1)]⟩, rfl, ?_, ?_⟩
    · simp [Spec.shapes, h1, h2, h3, h4, h5, h6, h7, dget_cons]
    · simp only [setOptimizer, recipe, readAll, fill, dgetE, h1, h2, h3, h4, h5, h6, h7, h8, h9, ok_bind, List.cons_append, List.nil_append]
      cases lib.algorithm _ <;> rfl
  · obtain ⟨⟨v1, h1⟩, ⟨v2, h2⟩, ⟨v3, h3⟩, ⟨v4, h4⟩⟩ := hv
    refine ⟨⟨"sade", [("gen", v1), ("ftol", v2), ("xtol", v3)]⟩, rfl, ?_, ?_⟩
    · simp [Spec.shapes, h1, h2, h3, dget_cons]
    · simp only [setOptimizer, recipe, readAll, fill, dgetE, h1, h2, h3, h4, ok_bind, List.append_nil]
      cases lib.algorithm _ <;> rfl
  · obtain ⟨⟨v1, h1⟩, ⟨v2, h2⟩, ⟨v3, h3⟩, ⟨v4, h4⟩, ⟨v5, h5⟩, ⟨v6, h6⟩, ⟨v7, h7⟩⟩ := hv
    refine ⟨⟨"de", [("gen", v1), ("F", v3), ("CR", v2), ("variant", v4), ("ftol", v5), ("xtol", v6)]⟩, rfl, ?_, ?_⟩
    · simp [Spec.shapes, h1, h2, h3, h4, h5, h6, dget_cons]
    · simp only [setOptimizer, recipe, readAll, fill, dgetE, h1, h2, h3, h4, h5, h6, h7, ok_bind, List.append_nil]
      cases lib.algorithm _ <;> rfl
  · obtain ⟨⟨v1, h1⟩, ⟨v2, h2⟩, ⟨v3, h3⟩, ⟨v4, h4⟩, ⟨v5, h5⟩, ⟨v6, h6⟩, ⟨v7, h7⟩, ⟨v8, h8⟩, ⟨v9, h9⟩⟩ := hv
    refine ⟨⟨"pso", [("gen", v1), ("omega", v2), ("eta1", v3), ("eta2", v4), ("max_vel", v5), ("variant", v6)]⟩, rfl, ?_, ?_⟩
    · simp [Spec.shapes, h1, h2, h3, h4, h5, h6, dget_cons]
    · simp only [setOptimizer, recipe, readAll, fill, dgetE, h1, h2, h3, h4, h5, h6, h7, h8, h9, ok_bind, List.append_nil]
      cases lib.algorithm _ <;> rfl

theorem missing_setting {lib : Lib K} {c : Conf} {s : String} (hk : s ∈ ["ga", "sade", "de", "pso"]) {k : String} (hn : k ∈ Spec.needs s) (hm : k ∉ dkeys c) :
    setOptimizer lib c (.str s) = .error .keyError := by
  obtain ⟨keys, args, fixed, hr, hkeys, _⟩ := recipe_needs hk
  simp only [setOptimizer, hr]
  rw [readAll_error.2 ⟨⟨k, (hkeys k).2 hn, hm⟩, rfl⟩, error_bind]

/-- C104: a study is refused exactly in the listed cases, or by the library. -/
theorem study_refused_iff {lib : Lib K} {own : Option Conf} {a : Args K} {e : Err} :
    (Study.init lib own a = .error e → Spec.StudyRefused lib own a e ∨ Spec.LibraryRefuses lib own a e) ∧ (Spec.StudyRefused lib own a e → Study.init lib own a = .error e) := by
  constructor
  · intro h
    unfold Study.init at h
    cases h1 : simulationConf own a.simConf with
    | error e1 =>
      rw [h1, error_bind] at h
      cases h
      obtain ⟨h2, rfl⟩ := simulationConf_error.1 h1
      exact .inl (.simSettings h2)
    | ok c =>
      have hs := simulationConf_ok.1 h1
      rw [h1, ok_bind] at h
      cases h2 : optConf a.conf with
      | error e1 =>
        rw [h2, error_bind] at h
        cases h
        obtain ⟨h3, rfl⟩ := optConf_error.1 h2
        exact .inl (.optSettings h3)
      | ok c' =>
        have ho := optConf_ok.1 h2
        rw [h2, ok_bind] at h
        cases h3 : setOptimizer lib c' a.optimizer with
        | ok x => rw [h3, ok_bind] at h; cases h
        | error e1 =>
          rw [h3, error_bind] at h
          cases h
          cases hopt : a.optimizer with
          | callable => rw [hopt] at h3; cases h3
          | other => rw [hopt] at h3; cases h3; exact .inl (.optimizer c hs c' ho hopt)
          | str s =>
            rw [hopt] at h3
            by_cases hk : s ∈ ["ga", "sade", "de", "pso"]
            · by_cases hn : ∀ k ∈ Spec.needs s, k ∈ dkeys c'
              · obtain ⟨al, k1, k2, k3⟩ := known_optimizer (lib := lib) hk hn
                rw [k3] at h3
                cases hl : lib.algorithm al with
                | ok u => rw [hl] at h3; cases h3
                | error e2 => rw [hl] at h3; cases h3; exact .inr ⟨c, c', s, al, hs, ho, hopt, hk, hn, k1, k2, hl⟩
              · push Not at hn
                obtain ⟨k, hk1, hk2⟩ := hn
                rw [missing_setting hk hk1 hk2] at h3
                cases h3
                exact .inl (.setting c hs c' ho s hopt hk k hk1 hk2)
            · simp only [setOptimizer, unknown_recipe hk] at h3; cases h3
  · intro h
    unfold Study.init
    cases h with
    | simSettings h => rw [simulationConf_error.2 ⟨h, rfl⟩, error_bind]
    | optSettings h =>
      rw [optConf_error.2 ⟨h, rfl⟩]
      cases h1 : simulationConf own a.simConf with
      | error e1 => rw [(simulationConf_error.1 h1).2]; rfl
      | ok c => rfl
    | optimizer c hs c' ho h => rw [simulationConf_ok.2 hs, ok_bind, optConf_ok.2 ho, ok_bind, h]; rfl
    | setting c hs c' ho s h hk k hn hm => rw [simulationConf_ok.2 hs, ok_bind, optConf_ok.2 ho, ok_bind, h, missing_setting hk hn hm, error_bind]

/-- When and how the parameters of a study are refused, with the keys of its constraints. -/
inductive Spec.ParamsRefused (keys : List String) : List Param → Err → Prop
  /-- there are none -/
  | none : ParamsRefused keys [] .indexError
  /-- a quantity, preceded by constrained quantities only, without constraint -/
  | quantity (ns : List String) (h : ∀ n ∈ ns, n ∈ keys) (n : String) (hn : n ∉ keys) (t : List Param) : ParamsRefused keys (ns.map .quantity ++ .quantity n :: t) .absentRequiredObject
  /-- constrained quantities, then something else -/
  | mixed (ns : List String) (h : ∀ n ∈ ns, n ∈ keys) (h0 : ns ≠ []) (x : Param) (hx : ∀ n, x ≠ .quantity n) (t : List Param) :
      ParamsRefused keys (ns.map .quantity ++ x :: t) .attributeError
  /-- a text first, and something that is no constrained text -/
  | text (s : String) (t : List Param) (x : Param) (hx : x ∈ .str s :: t) (h : ∀ k ∈ keys, x ≠ .str k) : ParamsRefused keys (.str s :: t) .absentRequiredObject

theorem go_error {keys : List String} {l : List Param} {e : Err} : checkParams.go keys l = .error e ↔
    ∃ ns : List String, (∀ n ∈ ns, n ∈ keys) ∧ ∃ x t, l = ns.map .quantity ++ x :: t ∧ ((∃ n, x = .quantity n ∧ n ∉ keys ∧ e = .absentRequiredObject) ∨ ((∀ n, x ≠ .quantity n) ∧ e = .attributeError)) := by
  induction l with
  | nil =>
    simp only [checkParams.go, reduceCtorEq, false_iff]
    rintro ⟨ns, _, x, t, h, _⟩
    simp at h
  | cons p t ih =>
    cases p with
    | quantity n =>
      unfold checkParams.go
      by_cases hn : n ∈ keys
      · rw [if_pos (by simpa using hn), ih]
        constructor
        · rintro ⟨ns, h1, x, t', rfl, h3⟩
          exact ⟨n :: ns, by simpa [hn] using h1, x, t', rfl, h3⟩
        · rintro ⟨ns, h1, x, t', h2, h3⟩
          cases ns with
          | nil =>
            simp only [List.map_nil, List.nil_append, List.cons.injEq] at h2
            obtain ⟨rfl, rfl⟩ := h2
            rcases h3 with ⟨m, h4, h5, _⟩ | ⟨h4, _⟩
            · cases h4; exact absurd hn h5
            · exact absurd rfl (h4 n)
          | cons m ns =>
            simp only [List.map_cons, List.cons_append, List.cons.injEq] at h2
            exact ⟨ns, fun k hk => h1 k (by simp [hk]), x, t', h2.2, h3⟩
      · rw [if_neg (by simpa using hn)]
        simp only [Except.error.injEq]
        constructor
        · rintro rfl; exact ⟨[], by simp, .quantity n, t, rfl, .inl ⟨n, rfl, hn, rfl⟩⟩
        · rintro ⟨ns, h1, x, t', h2, h3⟩
          cases ns with
          | nil =>
            simp only [List.map_nil, List.nil_append, List.cons.injEq] at h2
            obtain ⟨rfl, rfl⟩ := h2
            rcases h3 with ⟨_, _, _, rfl⟩ | ⟨h4, _⟩
            · rfl
            · exact absurd rfl (h4 n)
          | cons m ns =>
            simp only [List.map_cons, List.cons_append, List.cons.injEq, Param.quantity.injEq] at h2
            exact absurd (h1 m (by simp)) (h2.1 ▸ hn)
    | str s | other =>
      unfold checkParams.go
      simp only [Except.error.injEq]
      constructor
      · rintro rfl; exact ⟨[], by simp, _, t, rfl, .inr ⟨by simp, rfl⟩⟩
      · rintro ⟨ns, h1, x, t', h2, h3⟩
        cases ns with
        | nil =>
          simp only [List.map_nil, List.nil_append, List.cons.injEq] at h2
          obtain ⟨rfl, rfl⟩ := h2
          rcases h3 with ⟨_, h4, _⟩ | ⟨_, rfl⟩
          · cases h4
          · rfl
        | cons m ns => simp at h2

/-- C104: parameters are refused exactly in the listed cases. -/
theorem params_refused_iff {keys : List String} {l : List Param} {e : Err} : checkParams keys l = .error e ↔ Spec.ParamsRefused keys l e := by
  cases l with
  | nil =>
    simp only [checkParams, Except.error.injEq]
    constructor
    · rintro rfl; exact .none
    · generalize hl : ([] : List Param) = l
      intro h
      cases h with
      | none => rfl
      | quantity | mixed => simp at hl
      | text => cases hl
  | cons p t =>
    cases p with
    | quantity n =>
      unfold checkParams
      rw [go_error]
      constructor
      · rintro ⟨ns, h1, x, t', h2, h3⟩
        rw [h2]
        rcases h3 with ⟨m, rfl, h4, rfl⟩ | ⟨h4, rfl⟩
        · exact .quantity ns h1 m h4 t'
        · refine .mixed ns h1 ?_ x h4 t'
          rintro rfl
          simp only [List.map_nil, List.nil_append, List.cons.injEq] at h2
          exact h4 n h2.1.symm
      · generalize hl : Param.quantity n :: t = l
        intro h
        cases h with
        | none => cases hl
        | quantity ns h1 m h2 t' => exact ⟨ns, h1, _, t', rfl, .inl ⟨m, rfl, h2, rfl⟩⟩
        | mixed ns h1 h0 x hx t' => exact ⟨ns, h1, x, t', rfl, .inr ⟨hx, rfl⟩⟩
        | text => cases hl
    | str s =>
      simp only [checkParams]
      constructor
      · intro h
        split at h
        · cases h
        · rename_i hn
          cases h
          have : ∃ x ∈ Param.str s :: t, ¬ (match x with | .str s => keys.contains s | _ => false) = true := by
            by_contra hc
            push Not at hc
            exact hn (List.all_eq_true.2 hc)
          obtain ⟨x, hx, hx'⟩ := this
          refine .text s t x hx fun k hk => ?_
          rintro rfl
          exact hx' (by simpa using hk)
      · generalize hl : Param.str s :: t = l
        intro h
        cases h with
        | none => cases hl
        | quantity ns h1 m h2 t' => cases ns <;> simp at hl
        | mixed ns h1 h0 x hx t' =>
          cases ns with
          | nil => exact absurd rfl h0
          | cons => simp at hl
        | text s t x hx h =>
          rw [if_neg]
          intro hall
          have := List.all_eq_true.1 hall x hx
          cases x with
          | str k => exact h k (by simpa using this) rfl
          | quantity | other => simp at this
    | other =>
      unfold checkParams
      constructor
      · intro h; cases h
      · generalize hl : Param.other :: t = l
        intro h
        cases h with
        | none => cases hl
        | quantity ns h1 m h2 t' => cases ns <;> simp at hl
        | mixed ns h1 h0 x hx t' =>
          cases ns with
          | nil => exact absurd rfl h0
          | cons => simp at hl
        | text => cases hl

end

section
variable {K : Type} [Field K] [LinearOrder K]

/-- When and how the bounds of a study are refused. -/
inductive Spec.BoundsRefused : Bounds K → Err → Prop
  | none : BoundsRefused .none .typeError
  | dict (k : List String) : BoundsRefused (.dict k) .valueError
  /-- neither one pair of numbers nor one pair of sequences, or not of the same length, or empty, or a lower bound above the upper one -/
  | wrong (b : Bounds K) (h0 : b ≠ .none) (h : ∀ lo hi, Spec.Given b lo hi → ¬ (lo ≠ [] ∧ List.Forall₂ (· ≤ ·) lo hi)) : BoundsRefused b .valueError

/-- When and how a run of study `o` of problem `p` is refused before the optimizer is called. -/
inductive Spec.RunRefused (o : Study K) (p : Problem K) : Err → Prop
  | params (keys : List String) (hc : o.constraints = .dict keys) (e : Err) (h : Spec.ParamsRefused keys o.params e) : RunRefused o p e
  | notReady (hc : ∀ keys e, o.constraints = .dict keys → ¬ Spec.ParamsRefused keys o.params e) (h : p.ready = false) : RunRefused o p .absentRequiredObject
  | noOptimizer (hc : ∀ keys e, o.constraints = .dict keys → ¬ Spec.ParamsRefused keys o.params e) (h : p.ready = true) (hm : o.mechanism = .none) : RunRefused o p .attributeError
  | noName (hc : ∀ keys e, o.constraints = .dict keys → ¬ Spec.ParamsRefused keys o.params e) (h : p.ready = true) (ho : .other ∈ o.params) : RunRefused o p .attributeError
  | noSize (hc : ∀ keys e, o.constraints = .dict keys → ¬ Spec.ParamsRefused keys o.params e) (h : p.ready = true) (hm : o.mechanism ≠ .none) (ho : .other ∉ o.params)
      (hn : "number_of_individuals" ∉ dkeys o.conf) : RunRefused o p .keyError
  | bounds (hc : ∀ keys e, o.constraints = .dict keys → ¬ Spec.ParamsRefused keys o.params e) (h : p.ready = true) (hm : o.mechanism ≠ .none) (ho : .other ∉ o.params)
      (hn : "number_of_individuals" ∈ dkeys o.conf) (e : Err) (hb : Spec.BoundsRefused o.constraints e) : RunRefused o p e

theorem bounds_refused_iff {b : Bounds K} {e : Err} : pgBounds b = .error e ↔ Spec.BoundsRefused b e := by
  cases hb : b with
  | none =>
    simp only [pgBounds, declareSetBounds, error_bind, Except.error.injEq]
    constructor
    · rintro rfl; exact .none
    · intro h
      cases h with
      | none => rfl
      | wrong _ h0 => exact absurd rfl h0
  | dict k =>
    simp only [pgBounds, declareSetBounds, error_bind, Except.error.injEq]
    constructor
    · rintro rfl; exact .dict k
    · intro h
      cases h <;> rfl
  | flat l =>
    have hiff : pgBounds (.flat l) = .error e ↔ (∀ lo hi, Spec.Given (.flat l) lo hi → ¬ (lo ≠ [] ∧ List.Forall₂ (· ≤ ·) lo hi)) ∧ e = .valueError := by
      rcases l with _ | ⟨a, _ | ⟨b, _ | ⟨c, t⟩⟩⟩
      · simp only [pgBounds, declareSetBounds, List.map_nil, ok_bind, Except.error.injEq]
        exact ⟨fun h => ⟨fun lo hi hg => (by cases hg), h.symm⟩, fun h => h.2.symm⟩
      · simp only [pgBounds, declareSetBounds, List.map_nil, List.map_cons, ok_bind, Except.error.injEq]
        exact ⟨fun h => ⟨fun lo hi hg => (by cases hg), h.symm⟩, fun h => h.2.symm⟩
      · simp only [pgBounds, declareSetBounds, List.map_nil, List.map_cons, ok_bind]
        by_cases hab : a ≤ b
        · rw [if_pos (by simp [hab])]
          simp only [reduceCtorEq, false_iff]
          rintro ⟨h, _⟩
          exact h _ _ (.flat a b) ⟨by simp, by simpa using hab⟩
        · rw [if_neg (by simp [hab])]
          simp only [Except.error.injEq]
          refine ⟨fun h => ⟨fun lo hi hg => ?_, h.symm⟩, fun h => h.2.symm⟩
          cases hg
          rintro ⟨_, h⟩
          exact hab (by simpa using h)
      · simp only [pgBounds, declareSetBounds, List.map_cons, ok_bind, Except.error.injEq]
        exact ⟨fun h => ⟨fun lo hi hg => (by cases hg), h.symm⟩, fun h => h.2.symm⟩
    rw [hiff]
    constructor
    · rintro ⟨h, rfl⟩; exact .wrong _ (by simp) h
    · intro h
      cases h with
      | wrong _ h0 h => exact ⟨h, rfl⟩
  | nested l =>
    have hiff : pgBounds (.nested l) = .error e ↔ (∀ lo hi, Spec.Given (.nested l) lo hi → ¬ (lo ≠ [] ∧ List.Forall₂ (· ≤ ·) lo hi)) ∧ e = .valueError := by
      simp only [pgBounds, declareSetBounds]
      by_cases hall : (l.all fun r => decide (r.length = (l.headD []).length)) = true
      · rw [if_pos hall, ok_bind]
        split
        · rename_i lo hi
          have hlen : lo.length = hi.length := by simp at hall; exact hall.symm
          by_cases hz : lo ≠ [] ∧ List.Forall₂ (· ≤ ·) lo hi
          · rw [if_pos ⟨hlen, hz.1, (zip_all hlen).2 hz.2⟩]
            simp only [reduceCtorEq, false_iff]
            rintro ⟨h, _⟩
            exact h _ _ (.nested lo hi) hz
          · rw [if_neg (fun h => hz ⟨h.2.1, (zip_all hlen).1 h.2.2⟩)]
            simp only [Except.error.injEq]
            refine ⟨fun h => ⟨fun lo' hi' hg => ?_, h.symm⟩, fun h => h.2.symm⟩
            cases hg
            exact hz
        · rename_i hno
          simp only [Except.error.injEq]
          refine ⟨fun h => ⟨fun lo' hi' hg => ?_, h.symm⟩, fun h => h.2.symm⟩
          cases hg
          exact absurd rfl (hno lo' hi')
      · rw [if_neg hall, error_bind]
        simp only [Except.error.injEq]
        refine ⟨fun h => ⟨fun lo' hi' hg => ?_, h.symm⟩, fun h => h.2.symm⟩
        cases hg
        rintro ⟨_, hf⟩
        exact hall (by simp [hf.length_eq])
    rw [hiff]
    constructor
    · rintro ⟨h, rfl⟩; exact .wrong _ (by simp) h
    · intro h
      cases h with
      | wrong _ h0 h => exact ⟨h, rfl⟩

theorem paramNames_error {ps : List Param} {e : Err} : paramNames ps = .error e ↔ .other ∈ ps ∧ e = .attributeError := by
  unfold paramNames
  by_cases h : Param.other ∈ ps
  · rw [if_neg (by simpa using h)]
    simp [h, eq_comm]
  · have hall : (ps.all fun p => decide (p ≠ .other)) = true := by
      rw [List.all_eq_true]
      intro x hx
      refine decide_eq_true fun hx' => h ?_
      rw [← hx']; exact hx
    rw [if_pos hall]
    simp [h]

theorem sane_error {o : Study K} {p : Problem K} {e : Err} : sane o p = .error e ↔
    (∃ keys, o.constraints = .dict keys ∧ Spec.ParamsRefused keys o.params e) ∨
    ((∀ keys e, o.constraints = .dict keys → ¬ Spec.ParamsRefused keys o.params e) ∧ p.ready = false ∧ e = .absentRequiredObject) := by
  have hready : ((if p.ready then .ok () else .error .absentRequiredObject : Except Err Unit) = .error e) ↔ p.ready = false ∧ e = .absentRequiredObject := by
    cases p.ready <;> simp [eq_comm]
  have hnd : (∀ k, o.constraints ≠ .dict k) → (sane o p = .error e ↔ p.ready = false ∧ e = .absentRequiredObject) := by
    intro h
    rw [← hready]
    unfold sane
    cases hc : o.constraints with
    | dict k => exact absurd hc (h k)
    | none | flat | nested => rfl
  by_cases hd : ∃ k, o.constraints = .dict k
  · obtain ⟨k, hk⟩ := hd
    have hsane : sane o p = (checkParams k o.params >>= fun _ => if p.ready then .ok () else .error .absentRequiredObject) := by
      unfold sane; rw [hk]
    rw [hsane]
    cases hp : checkParams k o.params with
    | error e1 =>
      rw [error_bind]
      have h1 := params_refused_iff.1 hp
      simp only [Except.error.injEq]
      constructor
      · rintro rfl; exact .inl ⟨k, hk, h1⟩
      · rintro (⟨k', hk', h2⟩ | ⟨h2, _⟩)
        · rw [hk] at hk'; cases hk'
          rw [params_refused_iff.2 h2] at hp; cases hp; rfl
        · exact absurd h1 (h2 k _ hk)
    | ok u =>
      rw [ok_bind, hready]
      have h1 : ∀ e, ¬ Spec.ParamsRefused k o.params e := fun e h => by rw [params_refused_iff.2 h] at hp; cases hp
      constructor
      · intro h; exact .inr ⟨fun k' e hk' => by rw [hk] at hk'; cases hk'; exact h1 e, h⟩
      · rintro (⟨k', hk', h2⟩ | ⟨_, h⟩)
        · rw [hk] at hk'; cases hk'; exact absurd h2 (h1 _)
        · exact h
  · push Not at hd
    rw [hnd hd]
    constructor
    · intro h; exact .inr ⟨fun k e hk => absurd hk (hd k), h⟩
    · rintro (⟨k, hk, _⟩ | ⟨_, h⟩)
      · exact absurd hk (hd k)
      · exact h

theorem prepare_error {o : Study K} {b : Bounds K} {e : Err} : prepare o b = .error e ↔
    (o.mechanism = none ∧ e = .attributeError) ∨ (.other ∈ o.params ∧ e = .attributeError) ∨
    (o.mechanism ≠ none ∧ .other ∉ o.params ∧ "number_of_individuals" ∉ dkeys o.conf ∧ e = .keyError) ∨
    (o.mechanism ≠ none ∧ .other ∉ o.params ∧ "number_of_individuals" ∈ dkeys o.conf ∧ Spec.BoundsRefused b e) := by
  unfold prepare
  cases hm : o.mechanism with
  | none =>
    simp only [Except.error.injEq, true_and, ne_eq, not_true_eq_false, false_and, or_false]
    constructor
    · rintro rfl; exact .inl rfl
    · rintro (rfl | ⟨_, rfl⟩) <;> rfl
  | some al =>
    simp only [reduceCtorEq, false_and, false_or, ne_eq, not_false_eq_true, true_and]
    cases hp : paramNames o.params with
    | error e1 =>
      obtain ⟨h1, rfl⟩ := paramNames_error.1 hp
      rw [error_bind]
      simp [h1, eq_comm]
    | ok u =>
      have h1 : Param.other ∉ o.params := fun h => by rw [paramNames_error.2 ⟨h, rfl⟩] at hp; cases hp
      rw [ok_bind]
      cases hn : dget o.conf "number_of_individuals" with
      | none =>
        have h2 := (dget_eq_none_iff ..).1 hn
        simp [dgetE, hn, h1, h2, eq_comm]
      | some n =>
        have h2 : "number_of_individuals" ∈ dkeys o.conf := by
          by_contra hc
          rw [(dget_eq_none_iff ..).2 hc] at hn; cases hn
        simp only [dgetE, hn, ok_bind, h1, h2, false_and, not_true_eq_false, not_false_eq_true, true_and, false_or, ← bounds_refused_iff]
        cases pgBounds b with
        | error e1 => simp
        | ok x => obtain ⟨lo, hi⟩ := x; simp

/-- C104: what a run ends with, if the optimizer is not reached: exactly the listed exceptions.  Otherwise the optimizer is run, with the bounds given. -/
theorem run_refused_iff {lib : Lib K} {w : World K} {i : ORef} (a : RunArgs) {o : Study K} (ho : w.opts[i]? = some o) {p : Problem K} (hp : w.probs[o.problem]? = some p) :
    (∀ e, Spec.RunRefused o p e → (runOptimization lib i a w).1 = .error e ∧ (runOptimization lib i a w).2.runs = w.runs ∧ (runOptimization lib i a w).2.opts = w.opts) ∧
    ((∀ e, ¬ Spec.RunRefused o p e) → (runOptimization lib i a w).2.runs = w.runs + 1) := by
  cases hs : sane o p with
  | error e1 =>
    have hrun : runOptimization lib i a w = (.error e1, w) := by unfold runOptimization; simp only [ho, hp, hs]
    rw [hrun]
    have h1 := sane_error.1 hs
    constructor
    · intro e he
      refine ⟨?_, rfl, rfl⟩
      suffices h : sane o p = .error e by rw [hs] at h; cases h; rfl
      rw [sane_error]
      rcases h1 with ⟨k, hk, h1⟩ | ⟨h1, h2, _⟩
      · cases he with
        | params k' hk' e h => exact .inl ⟨k', hk', h⟩
        | notReady hc | noOptimizer hc | noName hc | noSize hc | bounds hc => exact absurd h1 (hc k _ hk)
      · cases he with
        | params k' hk' e h => exact .inl ⟨k', hk', h⟩
        | notReady hc h => exact .inr ⟨hc, h, rfl⟩
        | noOptimizer hc h | noName hc h | noSize hc h | bounds hc h => rw [h] at h2; cases h2
    · intro hno
      rcases h1 with ⟨k, hk, h1⟩ | ⟨h1, h2, _⟩
      · exact absurd (.params k hk _ h1) (hno _)
      · exact absurd (.notReady h1 h2) (hno _)
  | ok u =>
    have hs1 : ∀ e, ¬ ((∃ keys, o.constraints = .dict keys ∧ Spec.ParamsRefused keys o.params e) ∨
      ((∀ keys e, o.constraints = .dict keys → ¬ Spec.ParamsRefused keys o.params e) ∧ p.ready = false ∧ e = .absentRequiredObject)) := by
      intro e he
      rw [sane_error.2 he] at hs; cases hs
    have hc : ∀ keys e, o.constraints = .dict keys → ¬ Spec.ParamsRefused keys o.params e := fun keys e hk he => hs1 e (.inl ⟨keys, hk, he⟩)
    have hr : p.ready = true := by
      by_contra hr
      exact hs1 _ (.inr ⟨hc, by simpa using hr, rfl⟩)
    have hb : (install o p).bounds = o.constraints := rfl
    cases hprep : prepare o o.constraints with
    | error e1 =>
      have hrun : runOptimization lib i a w = (.error e1, { w with probs := w.probs.set o.problem (install o p) }) := by
        unfold runOptimization; simp only [ho, hp, hs, hb, hprep]
      rw [hrun]
      have h1 := prepare_error.1 hprep
      constructor
      · intro e he
        refine ⟨?_, rfl, rfl⟩
        suffices h : prepare o o.constraints = .error e by rw [hprep] at h; cases h; rfl
        rw [prepare_error]
        cases he with
        | params k' hk' e h => exact absurd h (hc k' _ hk')
        | notReady _ h => rw [hr] at h; cases h
        | noOptimizer _ _ hm => exact .inl ⟨hm, rfl⟩
        | noName _ _ h => exact .inr (.inl ⟨h, rfl⟩)
        | noSize _ _ hm hn h => exact .inr (.inr (.inl ⟨hm, hn, h, rfl⟩))
        | bounds _ _ hm hn h e hb => exact .inr (.inr (.inr ⟨hm, hn, h, hb⟩))
      · intro hno
        rcases h1 with ⟨h1, _⟩ | ⟨h1, _⟩ | ⟨h1, h2, h3, _⟩ | ⟨h1, h2, h3, h4⟩
        · exact absurd (.noOptimizer hc hr h1) (hno _)
        · exact absurd (.noName hc hr h1) (hno _)
        · exact absurd (.noSize hc hr h1 h2 h3) (hno _)
        · exact absurd (.bounds hc hr h1 h2 h3 _ h4) (hno _)
    | ok x =>
      constructor
      · intro e he
        exfalso
        have : prepare o o.constraints = .error e := by
          rw [prepare_error]
          cases he with
          | params k' hk' e h => exact absurd h (hc k' _ hk')
          | notReady _ h => rw [hr] at h; cases h
          | noOptimizer _ _ hm => exact .inl ⟨hm, rfl⟩
          | noName _ _ h => exact .inr (.inl ⟨h, rfl⟩)
          | noSize _ _ hm hn h => exact .inr (.inr (.inl ⟨hm, hn, h, rfl⟩))
          | bounds _ _ hm hn h e hb => exact .inr (.inr (.inr ⟨hm, hn, h, hb⟩))
        rw [hprep] at this; cases this
      · intro _
        unfold runOptimization
        simp only [ho, hp, hs, hb, hprep]
        obtain ⟨al, n, lo, hi⟩ := x
        split <;> rfl

end

/-! Samples: a study and its runs are refused in these ways. -/
example : (Study.init Ex.lib none { sim := 0, problem := 0, params := [.quantity "a"] }) = .error .absentRequiredObject := (study_refused_iff (K := Rat)).2 (.simSettings (fun c h => by
  cases h with | own c h => cases h))
example : ∃ e, Study.init Ex.lib (some []) { sim := 0, problem := 0, params := [.quantity "a"], conf := .file [] } = .error e ∧ e = .keyError := ⟨_, rfl, rfl⟩
example : ∃ e, Study.init Ex.lib (some []) { sim := 0, problem := 0, params := [.quantity "a"], conf := .other } = .error e ∧ e = .absentRequiredObject := ⟨_, rfl, rfl⟩
example : ∃ e, Study.init Ex.lib (some []) { sim := 0, problem := 0, params := [.quantity "a"], optimizer := .other } = .error e ∧ e = .unexpectedValue := ⟨_, rfl, rfl⟩
example : checkParams ["a"] [.quantity "a", .quantity "b"] = .error .absentRequiredObject ∧ checkParams ["a"] [.quantity "a", .str "a"] = .error .attributeError ∧
    checkParams ["a"] [.str "a", .quantity "a"] = .error .absentRequiredObject ∧ checkParams ["a"] [.str "a"] = .ok () := ⟨rfl, rfl, rfl, rfl⟩
/-- A run reaches the optimizer. -/
example : ∃ o p, (Ex.world (Ex.prepared (.flat [1, 2]) (.str "pso"))).opts[0]? = some o ∧ (Ex.world (Ex.prepared (.flat [1, 2]) (.str "pso"))).probs[o.problem]? = some p ∧
    (runOptimization Ex.lib 0 {} (Ex.world (Ex.prepared (.flat [1, 2]) (.str "pso")))).2.runs = 1 := ⟨_, _, rfl, rfl, rfl⟩
/-- A lower bound above the upper one, and constraints by name, never reach it. -/
example : (runOptimization Ex.lib 0 {} (Ex.world (Ex.prepared (.flat [2, 1]) (.str "pso")))).2.runs = 0 ∧
    (runOptimization Ex.lib 0 {} (Ex.world (Ex.prepared (.dict ["a"]) (.str "pso")))).2.runs = 0 := by decide +kernel

end Opt

/-! Samples: packages. -/
namespace Pkg
example : (history Ex.all [.new 1 0]).pkgs.length = 1 ∧ (calculate 0 300 1 (history Ex.all [.list [none, some "air"], .new 1 1])).1 = .error .keyError := by decide +kernel
example : (item 0 "*" (history Ex.all [.list [none], .new 1 1])).1 = .error .indexError ∧ (item 0 "air" (history Ex.all [.new 1 0])).1 = .error .keyError := by decide +kernel
example : (add 0 (.pkg 1) (history Ex.all [.new 1 0, .list [none], .new 1 1])).1 = .error .keyError ∧ (new (fun _ => false) 1 0 {}).1 = .error (.exception "unknown chemical") := by decide +kernel
end Pkg

end Sloth
