import Verif.Model.Domain
import Verif.Lemmas.Py

/-!
# Properties of domains (C43)
-/

namespace Sloth

/-! ## What a domain should hold -/

namespace Spec

/-- A domain as a user sees it: the names of its variables, and for each independent variable the rows registered since the domain was
last set. -/
structure Dom (K : Type) where
  indep : List String
  deps : List String := []
  tab : String → Option (List (List K)) := fun _ => none

namespace Dom
variable {K : Type}

/-- No rows yet for the variables named. -/
def fresh (vars : List String) : String → Option (List (List K)) := fun v => if v ∈ vars then some [] else none

/-- The variable a registration is for. -/
def key (s : Dom K) (var : Option String) : Option String := match var with
  | some v => some v
  | none => s.indep.getLast?

/-- The number of columns. -/
def arity (s : Dom K) : Nat := s.indep.length + s.deps.length

/-- Rows added below those already there. -/
def put (s : Dom K) (v : String) (rows : List (List K)) : Dom K :=
  { s with tab := fun u => if u = v then (s.tab u).map (· ++ rows) else s.tab u }

/-- A registration: rows of the right width are added, others refused. -/
def reg (s : Dom K) (v : String) (rows : List (List K)) : Dom K :=
  match rows with
  | r :: _ => if r.length = s.arity then s.put v rows else s
  | [] => s

/-- One call. -/
def step (s : Dom K) : DomOp K → Dom K
  | .distribute v => { s with deps := if v ∈ s.deps then s.deps else s.deps ++ [v], tab := fresh s.indep }
  | .set vs => { s with tab := fresh (vs.getD s.indep) }
  | .reset => { s with tab := fresh s.indep }
  | .register rows var => match s.key var with
    | some v => s.reg v rows
    | none => s
  | .rename _ => s

/-- A call that does not rename columns and is not a second registration for the same variable. -/
def Once (s : Dom K) : DomOp K → Prop
  | .register _ var => ∀ v, s.key var = some v → s.tab v = none ∨ s.tab v = some []
  | .rename _ => False
  | _ => True

/-- Calls that register at most once for each variable after the domain is set. -/
def Simple (s : Dom K) : List (DomOp K) → Prop
  | [] => True
  | o :: t => s.Once o ∧ Simple (s.step o) t

end Dom
end Spec

namespace DomainObj
variable {K : Type}

/-- The table kept for a variable. -/
def frame (d : DomainObj K) (v : String) : Option (Frame K) := match d.values with
  | some vals => dget vals v
  | none => none

theorem dget_const {β : Type} (l : List String) (b : β) (x : String) :
    dget (dofList (l.map fun v => (v, b))) x = if x ∈ l then some b else none := by
  have gen : ∀ (l : List String) (d : Dict String β), (∀ y c, dget d y = some c → c = b) →
      dget (dupdate d (l.map fun v => (v, b))) x = if x ∈ l then some b else dget d x := by
    intro l
    induction l with
    | nil => intro d _; simp
    | cons a t ih =>
      intro d hd
      rw [List.map_cons, dupdate_cons, ih]
      · by_cases hx : x ∈ t
        · simp [hx]
        · by_cases ha : x = a
          · subst ha; simp [hx]
          · simp [hx, ha, dget_dset_ne d b (fun h => ha h.symm)]
      · intro y c h
        rw [dget_dset] at h
        split at h
        · exact (Option.some.inj h).symm
        · exact hd y c h
  rw [dofList, gen l [] (by simp)]; simp

theorem keysOf_append (l : List String) (v : String) :
    keysOf (l ++ [v]) = if v ∈ keysOf l then keysOf l else keysOf l ++ [v] := by
  have h : keysOf (l ++ [v]) = dkeys (dset (dofList (l.map fun s => (s, ()))) v ()) := by
    unfold keysOf dofList
    rw [List.map_append, dupdate_append]; rfl
  rw [h, dkeys_dset]; rfl

theorem keysOf_of_nodup {l : List String} (h : l.Nodup) : keysOf l = l := by
  have gen : ∀ (l : List String) (d : Dict String Unit), (dkeys d ++ l).Nodup →
      dkeys (dupdate d (l.map fun s => (s, ()))) = dkeys d ++ l := by
    intro l
    induction l with
    | nil => intro d _; simp
    | cons a t ih =>
      intro d hd
      have ha : a ∉ dkeys d := by
        intro hm
        exact (List.nodup_append.1 hd).2.2 a hm a (by simp) rfl
      have hk : dkeys (dset d a ()) = dkeys d ++ [a] := by rw [dkeys_dset, if_neg ha]
      rw [List.map_cons, dupdate_cons, ih _ (by rw [hk]; simpa using hd), hk]; simp
  have := gen l [] (by simpa using h)
  simpa [keysOf, dofList] using this

theorem keysOf_nodup (l : List String) : (keysOf l).Nodup := dofList_nodup _

/-- What ties the domain to the specification. -/
structure Matches (d : DomainObj K) (s : Spec.Dom K) : Prop where
  indep : d.indep = s.indep
  deps : d.deps = s.deps
  ne : s.indep ≠ []
  nodup : d.deps.Nodup
  frames : ∀ v, d.frame v = (s.tab v).map fun rows => { cols := (s.indep ++ s.deps).map Label.name, rows }

theorem Matches.cols_ne {d : DomainObj K} {s : Spec.Dom K} (h : Matches d s) : (s.indep ++ s.deps).map Label.name ≠ [] := by
  simp [h.ne]

theorem matches_set {d : DomainObj K} {s : Spec.Dom K} (hi : d.indep = s.indep) (hd : d.deps = s.deps) (hne : s.indep ≠ [])
    (hn : d.deps.Nodup) (vs : Option (List String)) :
    Matches (d.setDomain vs) { s with tab := Spec.Dom.fresh (vs.getD s.indep) } := by
  refine ⟨hi, hd, hne, hn, fun v => ?_⟩
  simp only [frame, setDomain, dget_const, Spec.Dom.fresh, proto, hi, hd]
  split <;> rfl

theorem extend_empty {f : Frame K} {n : Nat} {rows : List (List K)} (h : f.rows = []) : extend n f rows = mkFrame f.cols rows := by
  simp [extend, Frame.isEmpty, h]

theorem register_frame {d d' : DomainObj K} {rows : List (List K)} {var : Option String} (h : d.register rows var = .ok d') :
    ∃ v f g, d.target var = .ok v ∧ d.frame v = some f ∧ extend (d.indep.length + d.deps.length) f rows = .ok g ∧
      d'.frame v = some g ∧ (∀ u, u ≠ v → d'.frame u = d.frame u) ∧ d'.indep = d.indep ∧ d'.deps = d.deps := by
  simp only [register, bind_eq_ok] at h
  obtain ⟨v, hv, h⟩ := h
  cases hvals : d.values with
  | none => simp [hvals] at h
  | some vals =>
    simp only [hvals, bind_eq_ok] at h
    obtain ⟨f, hf, g, hg, h⟩ := h
    have hf' : dget vals v = some f := by
      unfold dgetE at hf
      split at hf
      · next x hx => cases hf; exact hx
      · cases hf
    cases h
    refine ⟨v, f, g, hv, by simp [frame, hvals, hf'], hg, by simp [frame], fun u hu => ?_, rfl, rfl⟩
    simp only [frame, hvals]
    exact dget_dset_ne _ _ (fun h => hu h.symm)

theorem target_key {d : DomainObj K} {s : Spec.Dom K} (hi : d.indep = s.indep) (var : Option String) {v : String} :
    d.target var = .ok v ↔ s.key var = some v := by
  cases var with
  | some u => simp [target, Spec.Dom.key]
  | none =>
    simp only [target, Spec.Dom.key, hi]
    cases s.indep.getLast? <;> simp

theorem matches_step {d : DomainObj K} {s : Spec.Dom K} (h : Matches d s) {o : DomOp K} (ho : s.Once o) :
    Matches (o.run d) (s.step o) := by
  cases o with
  | distribute v =>
    have hk : keysOf (d.deps ++ [v]) = if v ∈ s.deps then s.deps else s.deps ++ [v] := by
      rw [keysOf_append, keysOf_of_nodup h.nodup, h.deps]
    exact matches_set (d := d.distribute v) (s := { s with deps := if v ∈ s.deps then s.deps else s.deps ++ [v] }) h.indep hk h.ne
      (keysOf_nodup _) none
  | set vs => exact matches_set h.indep h.deps h.ne h.nodup vs
  | reset => exact matches_set h.indep h.deps h.ne h.nodup none
  | rename m => exact ho.elim
  | register rows var =>
    simp only [DomOp.run, Spec.Dom.step]
    cases hreg : d.register rows var with
    | ok d' =>
      obtain ⟨v, f, g, hv, hf, hg, hf', hu, hi', hd'⟩ := register_frame hreg
      have hk := (target_key h.indep var).1 hv
      simp only [hk]
      have ht := h.frames v
      rw [hf] at ht
      rcases ho v hk with h0 | h0
      · simp [h0] at ht
      · simp only [h0, Option.map_some, Option.some.injEq] at ht
        rw [extend_empty (by rw [ht])] at hg
        have hw : width rows = ((s.indep ++ s.deps).map Label.name).length ∧ g = { cols := (s.indep ++ s.deps).map Label.name, rows } := by
          rw [ht] at hg
          unfold mkFrame at hg
          split at hg
          · next hw => cases hg; exact ⟨hw, rfl⟩
          · cases hg
        have hlen : 0 < s.indep.length := List.length_pos_iff.2 h.ne
        cases rows with
        | nil => have := hw.1; simp only [width, List.length_map, List.length_append] at this; omega
        | cons r rs =>
          have hr : r.length = s.arity := by simpa [width, Spec.Dom.arity] using hw.1
          simp only [Spec.Dom.reg, if_pos hr]
          refine ⟨hi'.trans h.indep, hd'.trans h.deps, h.ne, hd' ▸ h.nodup, fun u => ?_⟩
          by_cases huv : u = v
          · subst huv; simp [Spec.Dom.put, hf', hw.2, h0]
          · rw [hu u huv, h.frames u]; simp [Spec.Dom.put, huv]
    | error e =>
      cases hk : s.key var with
      | none => simpa using h
      | some v =>
        simp only
        have hv := (target_key h.indep var).2 hk
        cases rows with
        | nil => exact h
        | cons r rs =>
          simp only [Spec.Dom.reg]
          split
          · next hr =>
            rcases ho v hk with h0 | h0
            · have : s.put v (r :: rs) = s := by
                cases s with | mk i dp tab =>
                simp only [Spec.Dom.put, Spec.Dom.mk.injEq, true_and]
                funext u
                split
                · next hu => subst hu; simp only at h0; simp [h0]
                · rfl
              rw [this]; exact h
            · exfalso
              have ht := h.frames v
              simp only [h0, Option.map_some] at ht
              cases hvals : d.values with
              | none => simp [frame, hvals] at ht
              | some vals =>
                simp only [frame, hvals] at ht
                simp [register, hv, hvals, dgetE, ht, extend, Frame.isEmpty, mkFrame, width, hr, Spec.Dom.arity] at hreg
          · exact h

theorem matches_run {d : DomainObj K} {s : Spec.Dom K} (h : Matches d s) : ∀ {ops : List (DomOp K)}, s.Simple ops →
    Matches (ops.foldl DomOp.run d) (ops.foldl Spec.Dom.step s)
  | [], _ => h
  | _ :: _, hs => matches_run (matches_step h hs.1) hs.2

end DomainObj

/-! ## C43 -/

variable {K : Type}

open DomainObj in
/-- C43 (partial).  In every sequence of calls that does not rename columns and in which no variable is registered for a second time before
the domain is set again, the table kept for each independent variable holds exactly the rows registered since the domain was last
set, in order, under the independent and then the dependent names; rows of another width are refused.  Missing: a second
registration, see `register_twice` and `register_twice_loses_names`. -/
theorem domain_keeps_rows_partial (name : String) {indep : List String} (hn : indep.Nodup) (hne : indep ≠ []) {ops : List (DomOp K)}
    (hs : Spec.Dom.Simple { indep } ops) (v : String) :
    ((ops.foldl DomOp.run (DomainObj.init name indep)).frame v) =
      ((ops.foldl Spec.Dom.step { indep }).tab v).map fun rows =>
        { cols := ((ops.foldl Spec.Dom.step { indep }).indep ++ (ops.foldl Spec.Dom.step { indep }).deps).map Label.name, rows } :=
  (matches_run (d := DomainObj.init name indep) (s := { indep })
    ⟨keysOf_of_nodup hn, rfl, hne, List.nodup_nil, fun _ => rfl⟩ hs).frames v

open DomainObj in
/-- A second registration, exactly: rows of the right width are refused unless there are as many rows as columns so far, and then the
names of the columns are lost (they are replaced by row numbers). -/
theorem register_twice {d : DomainObj K} {v : String} {f : Frame K} {r : List K} {rs : List (List K)} (hf : d.frame v = some f)
    (h0 : f.rows ≠ []) (hc : f.cols ≠ []) (hw : ∀ x ∈ f.rows, x.length = f.cols.length) (ha : f.cols.length = d.indep.length + d.deps.length)
    (hr : r.length = f.cols.length) :
    (f.rows.length ≠ f.cols.length → d.register (r :: rs) (some v) = .error .valueError) ∧
    (f.rows.length = f.cols.length → ∃ d', d.register (r :: rs) (some v) = .ok d' ∧
      d'.frame v = some { cols := (List.range f.cols.length).map Label.row, rows := f.rows ++ (r :: rs) }) := by
  obtain ⟨x, xs, hx⟩ : ∃ x xs, f.rows = x :: xs := by
    cases h : f.rows with
    | nil => exact absurd h h0
    | cons x xs => exact ⟨x, xs, rfl⟩
  have hxl : x.length = f.cols.length := hw x (by simp [hx])
  have hval : ∃ vals, d.values = some vals ∧ dget vals v = some f := by
    cases h : d.values with
    | none => simp [frame, h] at hf
    | some vals => exact ⟨vals, rfl, by simpa [frame, h] using hf⟩
  obtain ⟨vals, hvals, hget⟩ := hval
  have hemp : Frame.isEmpty f = false := by
    cases h : f.cols with
    | nil => exact absurd h hc
    | cons => simp [Frame.isEmpty, hx, h]
  have hext : extend (d.indep.length + d.deps.length) f (r :: rs) = mkFrame (index f.rows) (f.rows ++ (r :: rs)) := by
    simp [extend, hemp, width, hr, ha, vstack, hx, hxl]
  have hwid : width (f.rows ++ (r :: rs)) = f.cols.length := by simp [hx, width, hxl]
  have hil : (index f.rows).length = f.rows.length := by simp [index]
  constructor
  · intro hne
    have : mkFrame (index f.rows) (f.rows ++ (r :: rs)) = .error .valueError := by
      rw [mkFrame, hwid, hil, if_neg (fun h => hne h.symm)]
    simp [register, target, hvals, dgetE, hget, hext, this]
  · intro heq
    have : mkFrame (index f.rows) (f.rows ++ (r :: rs)) =
        .ok { cols := (List.range f.cols.length).map Label.row, rows := f.rows ++ (r :: rs) } := by
      rw [mkFrame, hwid, hil, if_pos heq.symm, index, heq]
    refine ⟨{ d with values := some (dset vals v { cols := (List.range f.cols.length).map Label.row, rows := f.rows ++ (r :: rs) }) }, ?_, ?_⟩
    · simp [register, target, hvals, dgetE, hget, hext, this]
    · simp [frame]

/-! Samples. -/
namespace Ex
def dom1 : List (DomOp Rat) := [.distribute "x", .register [[0, 1], [1, 2], [2, 4]] none]
def dom2 : List (DomOp Rat) := [.distribute "x", .register [[0, 1], [1, 2]] none, .register [[2, 4]] none]
end Ex

/-- The hypotheses of `domain_keeps_rows_partial` hold for a domain over `t` with one dependent variable and three rows. -/
example : Spec.Dom.Simple { indep := ["t"] } Ex.dom1 ∧
    (Ex.dom1.foldl DomOp.run (DomainObj.init "d" ["t"])).frame "t" = some { cols := [.name "t", .name "x"], rows := [[0, 1], [1, 2], [2, 4]] } := by
  refine ⟨⟨trivial, ?_, trivial⟩, by decide +kernel⟩
  intro v hv
  right
  have : v = "t" := by
    have h : some "t" = some v := hv
    exact (Option.some.inj h).symm
  subst this
  rfl

/-- C43 fails: after two registrations of two rows and one row the table has lost its column names. -/
theorem register_twice_loses_names :
    (Ex.dom2.foldl DomOp.run (DomainObj.init "d" ["t"])).frame "t" = some { cols := [.row 0, .row 1], rows := [[0, 1], [1, 2], [2, 4]] } ∧
    (Ex.dom2.foldl Spec.Dom.step { indep := ["t"] }).tab "t" = some [[0, 1], [1, 2], [2, 4]] := by
  constructor <;> decide +kernel

/-- C43 fails: after three rows a further row of the right width is refused. -/
theorem register_twice_refused :
    ((Ex.dom1.foldl DomOp.run (DomainObj.init "d" ["t"])).register [[3, 8]] none) = .error .valueError ∧
    ((Ex.dom1 ++ [DomOp.register [[3, 8]] none]).foldl Spec.Dom.step { indep := ["t"] }).tab "t" = some [[0, 1], [1, 2], [2, 4], [3, 8]] := by
  refine ⟨rfl, by decide +kernel⟩

/-- The hypotheses of `register_twice` hold for the sample. -/
example : ∃ f, (Ex.dom1.foldl DomOp.run (DomainObj.init "d" ["t"])).frame "t" = some f ∧ f.rows ≠ [] ∧ f.cols.length = 2 ∧
    ∀ x ∈ f.rows, x.length = f.cols.length := ⟨{ cols := [.name "t", .name "x"], rows := [[0, 1], [1, 2], [2, 4]] }, by decide +kernel, by decide +kernel, by decide +kernel, by decide +kernel⟩

end Sloth
