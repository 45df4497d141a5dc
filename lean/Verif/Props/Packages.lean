import Verif.Model.Package
import Verif.Lemmas.Py
import Mathlib.Data.List.Nodup

/-!
# Property packages (C44)
-/

namespace Sloth.Pkg
open Sloth

/-- The phase names of a package. -/
def Spec.names (w : World) (a : PRef) : Option (List (Option String)) := do
  let p ← w.pkgs[a]?
  w.lists[p.names]?

/-- Union of lists in order: the first list, then what is new in the second, once each. -/
def Spec.union (xs ys : List (Option String)) : List (Option String) := xs ++ (ys.filter fun n => !xs.contains n).eraseDups

/-! ## Laws of union -/

theorem union_mem {xs ys : List (Option String)} {n : Option String} (h : n ∈ xs) : Spec.union xs (n :: ys) = Spec.union xs ys := by
  simp [Spec.union, h]

theorem union_new {xs ys : List (Option String)} {n : Option String} (h : n ∉ xs) : Spec.union xs (n :: ys) = Spec.union (xs ++ [n]) ys := by
  simp only [Spec.union]
  rw [List.filter_cons_of_pos (by simp [h]), List.eraseDups_cons, List.filter_filter, List.append_assoc, List.singleton_append]
  congr 3
  refine List.filter_congr fun x _ => ?_
  by_cases hx : x = n <;> simp [hx, and_comm]

/-- One name is added. -/
def ins (acc : List (Option String)) (n : Option String) : List (Option String) := if n ∈ acc then acc else acc ++ [n]

theorem union_eq (xs ys : List (Option String)) : Spec.union xs ys = ys.foldl ins xs := by
  induction ys generalizing xs with
  | nil => simp [Spec.union]
  | cons n t ih =>
    rw [List.foldl_cons]
    by_cases h : n ∈ xs
    · rw [union_mem h, ih, ins, if_pos h]
    · rw [union_new h, ih, ins, if_neg h]

theorem mem_ins {acc : List (Option String)} {n x : Option String} : x ∈ ins acc n ↔ x ∈ acc ∨ x = n := by
  unfold ins
  split
  · next h => exact ⟨Or.inl, fun h' => h'.elim id fun e => e ▸ h⟩
  · simp

/-- The members of a union. -/
theorem mem_union {xs ys : List (Option String)} {x : Option String} : x ∈ Spec.union xs ys ↔ x ∈ xs ∨ x ∈ ys := by
  rw [union_eq]
  induction ys generalizing xs with
  | nil => simp
  | cons n t ih => rw [List.foldl_cons, ih, mem_ins, List.mem_cons, or_assoc]

theorem union_nodup {xs : List (Option String)} (ys : List (Option String)) (h : xs.Nodup) : (Spec.union xs ys).Nodup := by
  rw [union_eq]
  induction ys generalizing xs with
  | nil => exact h
  | cons n t ih =>
    refine ih ?_
    unfold ins
    split
    · exact h
    · next hn => exact List.nodup_append.2 ⟨h, by simp, fun a ha b hb => by simp only [List.mem_singleton] at hb; rintro rfl; exact hn (hb ▸ ha)⟩

theorem union_of_subset {xs ys : List (Option String)} (h : ∀ x ∈ ys, x ∈ xs) : Spec.union xs ys = xs := by
  induction ys with
  | nil => simp [Spec.union]
  | cons n t ih => rw [union_mem (h n (by simp)), ih fun x hx => h x (List.mem_cons_of_mem _ hx)]

theorem union_assoc (xs ys zs : List (Option String)) : Spec.union (Spec.union xs ys) zs = Spec.union xs (Spec.union ys zs) := by
  simp only [union_eq]
  induction zs generalizing ys with
  | nil => rfl
  | cons z t ih =>
    rw [List.foldl_cons, List.foldl_cons, ← ih]
    congr 1
    by_cases h : z ∈ ys
    · rw [ins, ins, if_pos h, if_pos]
      rw [← union_eq, mem_union]; exact Or.inr h
    · have e : ins ys z = ys ++ [z] := by rw [ins, if_neg h]
      rw [e, List.foldl_append, List.foldl_cons, List.foldl_nil]

/-! ## Addition -/

theorem set_same {α : Type} {l : List α} {i : Nat} {x : α} (h : l[i]? = some x) : l.set i x = l := by
  refine List.ext_getElem? fun j => ?_
  rw [List.getElem?_set]
  by_cases hj : i = j
  · subst hj; rw [if_pos rfl, if_pos (List.getElem?_eq_some_iff.1 h).1, h]
  · rw [if_neg hj]

/-- What the loop of `__add__` does when it ends without exception. -/
theorem addLoop_ok {a : PRef} {ph : Dict String CRef} {ys : List (Option String)} {w w' : World} {p : Obj} {xs : List (Option String)}
    (hp : w.pkgs[a]? = some p) (hl : w.lists[p.names]? = some xs) (h : addLoop a ph ys w = (.ok (), w')) :
    ∃ d, w' = { w with lists := w.lists.set p.names (Spec.union xs ys), pkgs := w.pkgs.set a { p with phases := d } } ∧
      ∀ s, dget d s = if some s ∈ ys ∧ some s ∉ xs then dget ph s else dget p.phases s := by
  induction ys generalizing w p xs with
  | nil =>
    simp only [addLoop, Prod.mk.injEq, true_and] at h
    refine ⟨p.phases, ?_, by simp⟩
    subst h
    have h1 : w.lists.set p.names (Spec.union xs []) = w.lists := by
      rw [Spec.union]; simp only [List.filter_nil, List.eraseDups_nil, List.append_nil]
      exact set_same hl
    have h2 : w.pkgs.set a { p with phases := p.phases } = w.pkgs := set_same hp
    rw [h1, h2]
  | cons n t ih =>
    unfold addLoop at h
    simp only [hp, hl] at h
    by_cases hn : n ∈ xs
    · rw [if_pos (by simpa using hn)] at h
      obtain ⟨d, h1, h2⟩ := ih hp hl h
      refine ⟨d, by rw [union_mem hn]; exact h1, fun s => ?_⟩
      rw [h2]
      by_cases hs : some s ∈ t ∧ some s ∉ xs
      · rw [if_pos hs, if_pos ⟨List.mem_cons_of_mem _ hs.1, hs.2⟩]
      · rw [if_neg hs, if_neg]
        rintro ⟨h3, h4⟩
        rcases List.mem_cons.1 h3 with h5 | h5
        · exact h4 (h5 ▸ hn)
        · exact hs ⟨h5, h4⟩
    · rw [if_neg (by simpa using hn)] at h
      cases n with
      | none => simp at h
      | some s0 =>
        simp only at h
        cases hc : dget ph s0 with
        | none => simp [hc] at h
        | some c =>
          simp only [hc] at h
          have hlt := (List.getElem?_eq_some_iff.1 hp).1
          have hlt' := (List.getElem?_eq_some_iff.1 hl).1
          obtain ⟨d, h1, h2⟩ := ih (p := { p with phases := dset p.phases s0 c }) (xs := xs ++ [some s0])
            (by simp [hlt]) (by simp [hlt']) h
          refine ⟨d, by rw [h1, union_new hn]; simp, fun s => ?_⟩
          rw [h2]
          simp only [List.mem_append, List.mem_singleton, List.mem_cons, Option.some.injEq]
          by_cases hs : s = s0
          · subst hs; rw [if_neg (by simp), if_pos ⟨Or.inl rfl, hn⟩, dget_dset_self, hc]
          · rw [dget_dset_ne _ _ (fun h => hs h.symm)]
            by_cases h3 : some s ∈ t ∧ some s ∉ xs
            · rw [if_pos ⟨h3.1, fun h4 => h4.elim h3.2 fun h5 => hs (by simpa using h5)⟩, if_pos ⟨Or.inr h3.1, h3.2⟩]
            · rw [if_neg (fun h4 => h3 ⟨h4.1, fun h5 => h4.2 (Or.inl h5)⟩),
                if_neg (fun h4 => h3 ⟨h4.1.resolve_left hs, h4.2⟩)]

/-- When the loop ends without exception. -/
theorem addLoop_total {a : PRef} {ph : Dict String CRef} {ys : List (Option String)} {w : World} {p : Obj} {xs : List (Option String)}
    (hp : w.pkgs[a]? = some p) (hl : w.lists[p.names]? = some xs) (hy : ∀ n ∈ ys, n ∉ xs → ∃ s, n = some s ∧ (dget ph s).isSome) :
    (addLoop a ph ys w).1 = .ok () := by
  induction ys generalizing w p xs with
  | nil => rfl
  | cons n t ih =>
    unfold addLoop
    simp only [hp, hl]
    by_cases hn : n ∈ xs
    · rw [if_pos (by simpa using hn)]
      exact ih hp hl fun m hm => hy m (List.mem_cons_of_mem _ hm)
    · rw [if_neg (by simpa using hn)]
      obtain ⟨s, rfl, hs⟩ := hy n (by simp) hn
      obtain ⟨c, hc⟩ := Option.isSome_iff_exists.1 hs
      simp only [hc]
      have hlt := (List.getElem?_eq_some_iff.1 hp).1
      have hlt' := (List.getElem?_eq_some_iff.1 hl).1
      refine ih (p := { p with phases := dset p.phases s c }) (xs := xs ++ [some s]) (by simp [hlt]) (by simp [hlt']) fun m hm hm' => ?_
      exact hy m (List.mem_cons_of_mem _ hm) fun h => hm' (List.mem_append_left _ h)

/-- C44 (union): when `a + b` returns, it returns `a`, whose phases are now the union of both, in order; the phases of every package with
another list are what they were, no other package is touched, and every phase has the chemical it had (those of `a` first). -/
theorem add_union {a b : PRef} {r : PRef} {w w' : World} {p q : Obj} {xs ys : List (Option String)} (hp : w.pkgs[a]? = some p)
    (hq : w.pkgs[b]? = some q) (hx : Spec.names w a = some xs) (hy : Spec.names w b = some ys) (h : add a (.pkg b) w = (.ok r, w')) :
    r = a ∧ Spec.names w' a = some (Spec.union xs ys) ∧
    (∀ c o, w.pkgs[c]? = some o → o.names ≠ p.names → Spec.names w' c = Spec.names w c) ∧
    (∀ c, c ≠ a → w'.pkgs[c]? = w.pkgs[c]?) ∧ w'.chems = w.chems ∧
    ∃ p', w'.pkgs[a]? = some p' ∧ p'.count = p.count ∧
      ∀ s, dget p'.phases s = if some s ∈ ys ∧ some s ∉ xs then dget q.phases s else dget p.phases s := by
  simp only [Spec.names, hp, hq, Option.bind_some, bind] at hx hy
  unfold add at h
  simp only [hq, hy] at h
  cases hlp : addLoop a q.phases ys w with
  | mk e w1 =>
    cases e with
    | error e => simp [hlp] at h
    | ok u =>
      simp only [hlp, Prod.mk.injEq, Except.ok.injEq] at h
      obtain ⟨rfl, rfl⟩ := h
      obtain ⟨d, rfl, hd⟩ := addLoop_ok hp hx hlp
      have hlt := (List.getElem?_eq_some_iff.1 hp).1
      have hlt' := (List.getElem?_eq_some_iff.1 hx).1
      refine ⟨rfl, by simp [Spec.names, hlt, hlt'], fun c o hc ho => ?_, fun c hc => by simp [Ne.symm hc], rfl,
        { p with phases := d }, by simp [hlt], rfl, hd⟩
      by_cases hca : c = a
      · subst hca; rw [hp] at hc; cases hc; exact absurd rfl ho
      · simp [Spec.names, Ne.symm hca, hc, Ne.symm ho]

/-- C44 (idempotence): adding the same package once more, or a package to itself, changes nothing. -/
theorem add_idempotent {a b : PRef} {w : World} {p q : Obj} {xs ys : List (Option String)} (hp : w.pkgs[a]? = some p)
    (hq : w.pkgs[b]? = some q) (hx : Spec.names w a = some xs) (hy : Spec.names w b = some ys) (hsub : ∀ n ∈ ys, n ∈ xs) :
    add a (.pkg b) w = (.ok a, w) := by
  simp only [Spec.names, hp, hq, Option.bind_some, bind] at hx hy
  unfold add
  simp only [hq, hy]
  have : addLoop a q.phases ys w = (.ok (), w) := by
    clear hy
    induction ys with
    | nil => rfl
    | cons n t ih =>
      unfold addLoop
      simp only [hp, hx]
      rw [if_pos (by simpa using hsub n (by simp))]
      exact ih fun m hm => hsub m (List.mem_cons_of_mem _ hm)
  rw [this]

theorem add_twice {a b : PRef} {w w' : World} {p q : Obj} {xs ys : List (Option String)} (hp : w.pkgs[a]? = some p)
    (hq : w.pkgs[b]? = some q) (hx : Spec.names w a = some xs) (hy : Spec.names w b = some ys) (h : add a (.pkg b) w = (.ok a, w')) :
    add a (.pkg b) w' = (.ok a, w') ∧ add a (.pkg a) w' = (.ok a, w') := by
  obtain ⟨_, h1, h2, h3, _, p', hp', _⟩ := add_union hp hq hx hy h
  refine ⟨?_, add_idempotent hp' hp' h1 h1 fun _ h => h⟩
  by_cases hn : q.names = p.names
  · -- the same list: the union is the list
    have e : xs = ys := by
      simp only [Spec.names, hp, hq, Option.bind_some, bind] at hx hy
      rw [hn, hx] at hy; exact Option.some.inj hy
    subst e
    have hw : add a (.pkg b) w = (.ok a, w) := add_idempotent hp hq hx hy fun _ h => h
    rw [hw] at h
    cases h
    exact hw
  · have hb : b ≠ a := by rintro rfl; rw [hp] at hq; cases hq; exact hn rfl
    exact add_idempotent hp' (by rw [h3 b hb]; exact hq) h1 (by rw [h2 b q hq hn]; exact hy) fun n hn => mem_union.2 (Or.inr hn)

/-- C44 (associativity): for packages with lists of their own, `(a + b) + c` and `a + (b + c)` have the same phases in the same
order. -/
theorem add_assoc {a b c : PRef} {w w1 w2 v1 v2 : World} {p q o : Obj} {xs ys zs : List (Option String)} (hp : w.pkgs[a]? = some p)
    (hq : w.pkgs[b]? = some q) (ho : w.pkgs[c]? = some o) (hx : Spec.names w a = some xs) (hy : Spec.names w b = some ys)
    (hz : Spec.names w c = some zs) (hpq : p.names ≠ q.names) (hpo : p.names ≠ o.names) (hqo : q.names ≠ o.names)
    (h1 : add a (.pkg b) w = (.ok a, w1)) (h2 : add a (.pkg c) w1 = (.ok a, w2))
    (g1 : add b (.pkg c) w = (.ok b, v1)) (g2 : add a (.pkg b) v1 = (.ok a, v2)) :
    Spec.names w2 a = some (Spec.union xs (Spec.union ys zs)) ∧ Spec.names v2 a = Spec.names w2 a := by
  have hca : c ≠ a := by rintro rfl; rw [hp] at ho; cases ho; exact hpo rfl
  have hba : b ≠ a := by rintro rfl; rw [hp] at hq; cases hq; exact hpq rfl
  obtain ⟨_, a1, a2, a3, _, p', hp', _⟩ := add_union hp hq hx hy h1
  obtain ⟨_, b1, _⟩ := add_union hp' (by rw [a3 c hca]; exact ho) a1 (by rw [a2 c o ho (Ne.symm hpo)]; exact hz) h2
  obtain ⟨_, c1, c2, c3, _, q', hq', _⟩ := add_union hq ho hy hz g1
  obtain ⟨_, d1, _⟩ := add_union (by rw [c3 a (Ne.symm hba)]; exact hp) hq' (by rw [c2 a p hp hpq]; exact hx) c1 g2
  rw [b1, d1, union_assoc]
  exact ⟨rfl, rfl⟩

/-! ## Sessions -/

/-- The list given to a new package. -/
def Spec.given : Op → Option LRef
  | .new _ r => some r
  | _ => none

/-- No list of names is given to two packages, and `None` is not used as a name. -/
structure Spec.Own (ops : List Op) : Prop where
  lists : (ops.filterMap Spec.given).Nodup
  names : ∀ l, Op.list l ∈ ops → none ∉ l

/-- Every phase of every package has a chemical, and packages do not share lists. -/
structure Inv (used : List LRef) (w : World) : Prop where
  used : ∀ p ∈ w.pkgs, p.names ∈ used
  apart : (w.pkgs.map Obj.names).Nodup
  none_ : ∀ l ∈ w.lists, none ∉ l
  full : ∀ p ∈ w.pkgs, ∃ l, w.lists[p.names]? = some l ∧ ∀ s, some s ∈ l → (dget p.phases s).isSome

theorem mkPhases_ok {known : String → Bool} {T P : Rat} {l : List (Option String)} {d d' : Dict String CRef} {w w' : World}
    (h : mkPhases known T P l d w = (.ok d', w')) :
    w'.lists = w.lists ∧ w'.pkgs = w.pkgs ∧ ∀ s, (some s ∈ l ∨ (dget d s).isSome) → (dget d' s).isSome := by
  induction l generalizing d w with
  | nil => simp only [mkPhases, Prod.mk.injEq, Except.ok.injEq] at h; obtain ⟨rfl, rfl⟩ := h; simp
  | cons n t ih =>
    cases n with
    | none => exact (ih h).imp id (And.imp id fun g s hs => g s (by simpa using hs))
    | some s0 =>
      unfold mkPhases at h
      split at h
      · obtain ⟨h1, h2, h3⟩ := ih h
        refine ⟨h1, h2, fun s hs => h3 s ?_⟩
        simp only [List.mem_cons, Option.some.injEq] at hs
        by_cases he : s = s0
        · subst he; exact Or.inr (by simp)
        · rw [dget_dset_ne _ _ (fun h => he h.symm)]
          exact hs.imp (fun h => h.resolve_left he) id
      · simp at h

theorem mkPhases_error {known : String → Bool} {T P : Rat} {l : List (Option String)} {d : Dict String CRef} {w w' : World} {e : Err}
    (h : mkPhases known T P l d w = (.error e, w')) : w'.lists = w.lists ∧ w'.pkgs = w.pkgs := by
  induction l generalizing d w with
  | nil => simp [mkPhases] at h
  | cons n t ih =>
    cases n with
    | none => exact ih h
    | some s0 =>
      unfold mkPhases at h
      split at h
      · exact (ih h).imp id id
      · simp only [Prod.mk.injEq] at h; rw [← h.2]; exact ⟨rfl, rfl⟩

theorem calcLoop_keeps (ph : Dict String CRef) (T P : Rat) (l : List (Option String)) (w : World) :
    (calcLoop ph T P l w).2.lists = w.lists ∧ (calcLoop ph T P l w).2.pkgs = w.pkgs := by
  induction l generalizing w with
  | nil => exact ⟨rfl, rfl⟩
  | cons n t ih =>
    cases n with
    | none => exact ⟨rfl, rfl⟩
    | some s =>
      unfold calcLoop
      split
      · exact ⟨rfl, rfl⟩
      · next c _ => exact ih { w with chems := w.chems.modify c fun x => { x with T, P } }

/-- Changing a package but neither its list nor its chemicals. -/
theorem Inv.set {u : List LRef} {w : World} (h : Inv u w) {a : PRef} {p q : Obj} (hp : w.pkgs[a]? = some p) (hn : q.names = p.names)
    (hph : ∀ s, (dget p.phases s).isSome → (dget q.phases s).isSome) : Inv u { w with pkgs := w.pkgs.set a q } := by
  have hmem := List.mem_of_getElem? hp
  constructor
  · intro o ho
    rcases List.mem_or_eq_of_mem_set ho with ho | rfl
    · exact h.used o ho
    · rw [hn]; exact h.used p hmem
  · have : (w.pkgs.set a q).map Obj.names = w.pkgs.map Obj.names := by
      rw [List.map_set, hn]
      exact set_same (by rw [List.getElem?_map, hp]; rfl)
    rw [this]; exact h.apart
  · exact h.none_
  · intro o ho
    rcases List.mem_or_eq_of_mem_set ho with ho | rfl
    · exact h.full o ho
    · obtain ⟨l, hl, hs⟩ := h.full p hmem
      exact ⟨l, by rw [hn]; exact hl, fun s h => hph s (hs s h)⟩

/-- Under the invariant addition of packages that exist returns. -/
theorem Inv.add_ok {u : List LRef} {w : World} (h : Inv u w) {a b : PRef} {p q : Obj} (hp : w.pkgs[a]? = some p) (hq : w.pkgs[b]? = some q) :
    ∃ w', add a (.pkg b) w = (.ok a, w') := by
  obtain ⟨xs, hx, _⟩ := h.full p (List.mem_of_getElem? hp)
  obtain ⟨ys, hy, hs⟩ := h.full q (List.mem_of_getElem? hq)
  have := addLoop_total (ph := q.phases) (ys := ys) hp hx fun n hn _ => by
    cases n with
    | none => exact absurd hn (h.none_ ys (List.mem_of_getElem? hy))
    | some s => exact ⟨s, rfl, hs s hn⟩
  unfold add
  simp only [hq, hy]
  cases hl : addLoop a q.phases ys w with
  | mk e w1 =>
    rw [hl] at this
    simp only at this
    subst this
    exact ⟨w1, rfl⟩

theorem nodup_names {w : World} (h : (w.pkgs.map Obj.names).Nodup) {a b : PRef} {p q : Obj} (hp : w.pkgs[a]? = some p) (hq : w.pkgs[b]? = some q)
    (hab : a ≠ b) : p.names ≠ q.names := by
  intro he
  obtain ⟨h1, h1'⟩ := List.getElem?_eq_some_iff.1 hp
  obtain ⟨h2, h2'⟩ := List.getElem?_eq_some_iff.1 hq
  refine hab ((List.Nodup.getElem_inj_iff h (i := a) (hi := by simpa using h1) (j := b) (hj := by simpa using h2)).1 ?_)
  simp [h1', h2', he]

/-- The invariant is kept by addition. -/
theorem Inv.add {u : List LRef} {w : World} (h : Inv u w) (a : PRef) (b : Arg) : Inv u (Pkg.add a b w).2 := by
  cases b with
  | other => exact h
  | pkg b =>
    cases hq : w.pkgs[b]? with
    | none => unfold Pkg.add; simp only [hq]; exact h
    | some q =>
      obtain ⟨ys, hy, hs⟩ := h.full q (List.mem_of_getElem? hq)
      cases hp : w.pkgs[a]? with
      | none =>
        unfold Pkg.add
        simp only [hq, hy]
        have : (addLoop a q.phases ys w).2 = w := by cases ys <;> simp [addLoop, hp]
        cases hl : addLoop a q.phases ys w with
        | mk e w1 => rw [hl] at this; simp only at this; subst this; cases e <;> exact h
      | some p =>
        obtain ⟨w', hw⟩ := h.add_ok hp hq
        obtain ⟨xs, hx, hxs⟩ := h.full p (List.mem_of_getElem? hp)
        rw [hw]
        unfold Pkg.add at hw
        simp only [hq, hy] at hw
        cases hl : addLoop a q.phases ys w with
        | mk e w1 =>
          cases e with
          | error e => simp [hl] at hw
          | ok v =>
            simp only [hl, Prod.mk.injEq, true_and] at hw
            subst hw
            obtain ⟨d, rfl, hd⟩ := addLoop_ok hp hx hl
            have hd' : ∀ s, some s ∈ Spec.union xs ys → (dget d s).isSome := by
              intro s hm
              rw [hd]
              rcases mem_union.1 hm with hm | hm
              · rw [if_neg (fun h => h.2 hm)]; exact hxs s hm
              · split
                · exact hs s hm
                · next hc => exact hxs s (Classical.byContradiction fun hx => hc ⟨hm, hx⟩)
            have hlt := (List.getElem?_eq_some_iff.1 hx).1
            have hpm := List.mem_of_getElem? hp
            refine ⟨fun o ho => ?_, ?_, fun l hl => ?_, fun o ho => ?_⟩
            · rcases List.mem_or_eq_of_mem_set ho with ho | rfl
              · exact h.used o ho
              · exact h.used p hpm
            · have : (w.pkgs.set a { p with phases := d }).map Obj.names = w.pkgs.map Obj.names := by
                rw [List.map_set]
                exact set_same (by rw [List.getElem?_map, hp]; rfl)
              simp only [this]; exact h.apart
            · rcases List.mem_or_eq_of_mem_set hl with hl | rfl
              · exact h.none_ l hl
              · intro hm
                rcases mem_union.1 hm with hm | hm
                · exact h.none_ xs (List.mem_of_getElem? hx) hm
                · exact h.none_ ys (List.mem_of_getElem? hy) hm
            · obtain ⟨c, hc⟩ := List.mem_iff_getElem?.1 ho
              by_cases hca : a = c
              · subst hca
                simp only [List.getElem?_set_self (List.getElem?_eq_some_iff.1 hp).1, Option.some.injEq] at hc
                subst hc
                exact ⟨_, by simp [hlt], hd'⟩
              · rw [List.getElem?_set_ne hca] at hc
                obtain ⟨l, h1, h2⟩ := h.full o (List.mem_of_getElem? hc)
                exact ⟨l, by simp only [List.getElem?_set_ne (nodup_names h.apart hp hc hca)]; exact h1, h2⟩

theorem Inv.exec {known : String → Bool} {u : List LRef} {w : World} (h : Inv u w) (o : Op) (hn : ∀ l, o = .list l → none ∉ l)
    (hr : ∀ r, Spec.given o = some r → r ∉ u) : Inv (u ++ (Spec.given o).toList) (o.exec known w) := by
  have weak : ∀ {w'}, Inv u w' → Inv (u ++ (Spec.given o).toList) w' := fun h' =>
    ⟨fun p hp => List.mem_append_left _ (h'.used p hp), h'.apart, h'.none_, h'.full⟩
  cases o with
  | list l =>
    refine weak ⟨h.used, h.apart, fun l' hl' => ?_, fun p hp => ?_⟩
    · rcases List.mem_append.1 hl' with hl' | hl'
      · exact h.none_ l' hl'
      · simp only [List.mem_singleton] at hl'; exact hl' ▸ hn l rfl
    · obtain ⟨l', h1, h2⟩ := h.full p hp
      exact ⟨l', by simp only [Op.exec]; rw [List.getElem?_append_left (List.getElem?_eq_some_iff.1 h1).1]; exact h1, h2⟩
  | add a b => exact weak (h.add a b)
  | setT a f v =>
    refine weak ?_
    simp only [Op.exec, Pkg.setT]
    split
    · exact h
    · next p hp =>
      split
      · exact h.set hp rfl fun _ h => h
      · exact h
  | setP a f v =>
    refine weak ?_
    simp only [Op.exec, Pkg.setP]
    split
    · exact h
    · next p hp =>
      split
      · exact h.set hp rfl fun _ h => h
      · exact h
  | calculate a T P =>
    refine weak ?_
    simp only [Op.exec, Pkg.calculate]
    split
    · exact h
    · split
      · exact h
      · next p _ _ l _ =>
        obtain ⟨h1, h2⟩ := calcLoop_keeps p.phases T P l w
        exact ⟨by rw [h2]; exact h.used, by rw [h2]; exact h.apart, by rw [h1]; exact h.none_, by rw [h1, h2]; exact h.full⟩
  | new n r =>
    have hru := hr r rfl
    simp only [Op.exec, Pkg.new]
    split
    · exact weak h
    · next l hl =>
      cases hm : mkPhases known (29815 / 100) 101325 l [] w with
      | mk e w1 =>
        cases e with
        | error e =>
          obtain ⟨h1, h2⟩ := mkPhases_error hm
          exact weak ⟨by rw [h2]; exact h.used, by rw [h2]; exact h.apart, by rw [h1]; exact h.none_, by rw [h1, h2]; exact h.full⟩
        | ok d =>
          obtain ⟨h1, h2, h3⟩ := mkPhases_ok hm
          refine ⟨fun p hp => ?_, ?_, ?_, fun p hp => ?_⟩
          · simp only [h2, List.mem_append, List.mem_singleton] at hp
            rcases hp with hp | rfl
            · exact List.mem_append_left _ (h.used p hp)
            · simp [Spec.given]
          · simp only [h2, List.map_append, List.map_cons, List.map_nil]
            refine List.nodup_append.2 ⟨h.apart, by simp, fun x hx y hy => ?_⟩
            simp only [List.mem_singleton] at hy
            rintro rfl
            obtain ⟨p, hp, rfl⟩ := List.mem_map.1 hx
            exact hru (hy ▸ h.used p hp)
          · simp only [h1]; exact h.none_
          · simp only [h2, List.mem_append, List.mem_singleton] at hp
            rcases hp with hp | rfl
            · simp only [h1]; exact h.full p hp
            · exact ⟨l, by simp only [h1]; exact hl, fun s hs => h3 s (Or.inl hs)⟩

theorem own_inv {known : String → Bool} {ops : List Op} (h : Spec.Own ops) : ∃ u, Inv u (history known ops) := by
  have gen : ∀ (l : List Op) (u : List LRef) (w : World), Inv u w → (u ++ l.filterMap Spec.given).Nodup → (∀ x, Op.list x ∈ l → none ∉ x) →
      ∃ u', Inv u' (l.foldl (fun w o => o.exec known w) w) := by
    intro l
    induction l with
    | nil => exact fun u w h _ _ => ⟨u, h⟩
    | cons o t ih =>
      intro u w hw hn hl
      rw [List.foldl_cons]
      refine ih _ _ (hw.exec o (fun x hx => hl x (by simp [hx])) fun r hr hu => ?_) ?_ fun x hx => hl x (List.mem_cons_of_mem _ hx)
      · rw [List.filterMap_cons, hr] at hn
        exact (List.nodup_append.1 hn).2.2 r hu r (by simp) rfl
      · rw [List.filterMap_cons] at hn
        cases hg : Spec.given o with
        | none => simpa [hg] using hn
        | some r => simpa [hg] using hn
  exact gen ops [] {} ⟨by simp, by simp, by simp, by simp⟩ (by simpa using h.lists) h.names

/-- C44 in sessions: if no list is given to two packages, addition of two packages always returns, with the union of their phases, and leaves
the phases of all others alone. -/
theorem session_add {known : String → Bool} {ops : List Op} (h : Spec.Own ops) {a b : PRef} {p q : Obj}
    (hp : (history known ops).pkgs[a]? = some p) (hq : (history known ops).pkgs[b]? = some q) :
    ∃ xs ys w', Spec.names (history known ops) a = some xs ∧ Spec.names (history known ops) b = some ys ∧
      add a (.pkg b) (history known ops) = (.ok a, w') ∧ Spec.names w' a = some (Spec.union xs ys) ∧
      ∀ c, c ≠ a → Spec.names w' c = Spec.names (history known ops) c := by
  obtain ⟨u, hi⟩ := own_inv (known := known) h
  obtain ⟨xs, hx, _⟩ := hi.full p (List.mem_of_getElem? hp)
  obtain ⟨ys, hy, _⟩ := hi.full q (List.mem_of_getElem? hq)
  have hx' : Spec.names (history known ops) a = some xs := by simp [Spec.names, hp, hx]
  have hy' : Spec.names (history known ops) b = some ys := by simp [Spec.names, hq, hy]
  obtain ⟨w', hw⟩ := hi.add_ok hp hq
  obtain ⟨_, h1, h2, h3, _⟩ := add_union hp hq hx' hy' hw
  refine ⟨xs, ys, w', hx', hy', hw, h1, fun c hc => ?_⟩
  cases ho : (history known ops).pkgs[c]? with
  | none => simp [Spec.names, h3 c hc, ho]
  | some o => exact h2 c o ho (nodup_names hi.apart ho hp hc)

/-- C44 in sessions: then also `calculate` never misses a chemical. -/
theorem session_calculate {known : String → Bool} {ops : List Op} (h : Spec.Own ops) {a : PRef} {p : Obj}
    (hp : (history known ops).pkgs[a]? = some p) (T P : Rat) : (calculate a T P (history known ops)).1 = .ok () := by
  obtain ⟨u, hi⟩ := own_inv (known := known) h
  obtain ⟨xs, hx, hxs⟩ := hi.full p (List.mem_of_getElem? hp)
  have hnone := hi.none_ xs (List.mem_of_getElem? hx)
  unfold calculate
  simp only [hp, hx]
  clear hx
  generalize history known ops = w
  induction xs generalizing w with
  | nil => rfl
  | cons n t ih =>
    cases n with
    | none => simp at hnone
    | some s =>
      obtain ⟨c, hc⟩ := Option.isSome_iff_exists.1 (hxs s (by simp))
      unfold calcLoop
      simp only [hc]
      exact ih (fun s hs => hxs s (List.mem_cons_of_mem _ hs)) (fun h => hnone (List.mem_cons_of_mem _ h)) _

/-! ## Samples and counterexamples -/

/-- Three packages with lists of their own. -/
def Ex.three : List Op := [.list [some "water", some "ethanol"], .list [some "ethanol", some "benzene", some "ethanol"], .list [some "air"],
  .new 2 1, .new 2 2, .new 1 3]
def Ex.all : String → Bool := fun _ => true

example : Spec.Own Ex.three ∧ (history Ex.all Ex.three).pkgs.length = 3 ∧
    Spec.names (add 0 (.pkg 1) (history Ex.all Ex.three)).2 0 = some [some "water", some "ethanol", some "benzene"] ∧
    (add 0 (.pkg 1) (history Ex.all Ex.three)).1.toOption = some 0 ∧
    (add 1 (.pkg 2) (history Ex.all Ex.three)).1.toOption = some 1 ∧
    Spec.names (history Ex.all (Ex.three ++ [.add 1 (.pkg 2), .add 0 (.pkg 1)])) 0 = some [some "water", some "ethanol", some "benzene", some "air"] ∧
    Spec.names (history Ex.all (Ex.three ++ [.add 0 (.pkg 1), .add 0 (.pkg 2)])) 0 = some [some "water", some "ethanol", some "benzene", some "air"] :=
  ⟨⟨by decide, by simp [Ex.three]⟩, by decide +kernel⟩

/-- C44 fails for packages made without names: they share the default list.  Adding to one changes the phases of the other, whose calculation
then misses a chemical, and those of every package made later. -/
theorem default_list_shared :
    let ops : List Op := [.new 1 0, .new 1 0, .list [some "air"], .new 1 1, .add 0 (.pkg 2)]
    let w := history Ex.all ops
    Spec.names w 1 = some [some "water", some "air"] ∧ (calculate 1 300 101325 w).1.toOption = none ∧
    Spec.names (new Ex.all 1 0 w).2 3 = some [some "water", some "air"] := by
  decide +kernel

/-- Forming `a + b` changes `a` itself, which has the phases of `b` afterwards. -/
theorem add_changes_left :
    Spec.names (history Ex.all Ex.three) 0 = some [some "water", some "ethanol"] ∧
    Spec.names (history Ex.all (Ex.three ++ [.add 0 (.pkg 1)])) 0 = some [some "water", some "ethanol", some "benzene"] := by
  decide +kernel

/-- The number of phases is not updated, and names repeated in the first package stay repeated. -/
theorem add_keeps_count : ((history Ex.all (Ex.three ++ [.add 0 (.pkg 1)])).pkgs[0]?.map fun p => (p.count, dkeys p.phases)) =
      some (2, ["water", "ethanol", "benzene"]) ∧
    Spec.names (history Ex.all (Ex.three ++ [.add 1 (.pkg 2)])) 1 = some [some "ethanol", some "benzene", some "ethanol", some "air"] := by
  decide +kernel

/-- The chemicals of a sum are those of the summands: calculating one package changes the conditions in the other. -/
theorem add_shares_chemicals :
    let w := history Ex.all (Ex.three ++ [.add 0 (.pkg 1), .calculate 0 400 200000])
    ((item 1 "benzene" w).1.toOption.bind fun c => w.chems[c]?) = some ⟨"benzene", 400, 200000⟩ := by
  decide +kernel

end Sloth.Pkg
