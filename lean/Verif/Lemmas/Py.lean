import Verif.Model.Py

/-! Helper lemmas on dictionaries and `sorted`. -/

set_option linter.unusedSectionVars false

namespace Sloth
section
variable {α β : Type} [DecidableEq α]

instance (d : Dict α β) : Decidable (DNodup d) := inferInstanceAs (Decidable (dkeys d).Nodup)

@[simp] theorem dget_nil (k : α) : dget ([] : Dict α β) k = none := rfl

theorem dget_cons (k x : α) (v : β) (t : Dict α β) :
    dget ((k, v) :: t) x = if k = x then some v else dget t x := rfl

@[simp] theorem dget_dset_self (d : Dict α β) (k : α) (v : β) : dget (dset d k v) k = some v := by
  induction d with
  | nil => simp [dset, dget]
  | cons p t ih =>
    obtain ⟨k', v'⟩ := p
    by_cases h : k' = k <;> simp [dset, dget, h, ih]

theorem dget_dset_ne (d : Dict α β) {k x : α} (v : β) (hne : k ≠ x) :
    dget (dset d k v) x = dget d x := by
  induction d with
  | nil => simp [dset, dget, hne]
  | cons p t ih =>
    obtain ⟨k', v'⟩ := p
    by_cases h : k' = k
    · subst h; simp [dset, dget, hne]
    · simp only [dset, h, if_false, dget]; rw [ih]

theorem dget_dset (d : Dict α β) (k x : α) (v : β) :
    dget (dset d k v) x = if k = x then some v else dget d x := by
  by_cases h : k = x
  · subst h; simp
  · simp [h, dget_dset_ne d v h]

@[simp] theorem dkeys_nil : dkeys ([] : Dict α β) = [] := rfl
@[simp] theorem dkeys_cons (p : α × β) (t : Dict α β) : dkeys (p :: t) = p.1 :: dkeys t := rfl
@[simp] theorem dkeys_append (d e : Dict α β) : dkeys (d ++ e) = dkeys d ++ dkeys e := by
  simp [dkeys]

theorem dkeys_dset (d : Dict α β) (k : α) (v : β) :
    dkeys (dset d k v) = if k ∈ dkeys d then dkeys d else dkeys d ++ [k] := by
  induction d with
  | nil => simp [dset]
  | cons p t ih =>
    obtain ⟨k', v'⟩ := p
    by_cases h : k' = k
    · subst h; simp [dset]
    · have h' : k ≠ k' := fun e => h e.symm
      simp only [dset, h, if_false, dkeys_cons, ih, List.mem_cons, h', false_or]
      split <;> simp

theorem mem_dkeys_dset (d : Dict α β) (k x : α) (v : β) :
    x ∈ dkeys (dset d k v) ↔ x = k ∨ x ∈ dkeys d := by
  rw [dkeys_dset]; split
  · constructor
    · exact Or.inr
    · rintro (rfl | h) <;> assumption
  · simp [or_comm]

theorem dget_isSome_iff (d : Dict α β) (k : α) : (dget d k).isSome ↔ k ∈ dkeys d := by
  induction d with
  | nil => simp
  | cons p t ih =>
    obtain ⟨k', v'⟩ := p
    by_cases h : k' = k
    · simp [dget, h]
    · have h' : k ≠ k' := fun e => h e.symm
      simp [dget, h, h', ih]

theorem dget_eq_none_iff (d : Dict α β) (k : α) : dget d k = none ↔ k ∉ dkeys d := by
  rw [← dget_isSome_iff]; cases dget d k <;> simp

theorem mem_dkeys_of_dget {d : Dict α β} {k : α} {v : β} (h : dget d k = some v) : k ∈ dkeys d := by
  rw [← dget_isSome_iff, h]; rfl

theorem exists_dget_of_mem {d : Dict α β} {k : α} (h : k ∈ dkeys d) : ∃ v, dget d k = some v := by
  rw [← dget_isSome_iff] at h; exact Option.isSome_iff_exists.mp h

theorem mem_of_dget {d : Dict α β} {k : α} {v : β} (h : dget d k = some v) : (k, v) ∈ d := by
  induction d with
  | nil => simp at h
  | cons p t ih =>
    obtain ⟨k', v'⟩ := p
    by_cases hk : k' = k
    · simp [dget, hk] at h; simp [hk, h]
    · simp [dget, hk] at h; exact List.mem_cons_of_mem _ (ih h)

theorem mem_dkeys_of_mem {d : Dict α β} {p : α × β} (h : p ∈ d) : p.1 ∈ dkeys d :=
  List.mem_map_of_mem h

theorem dget_of_mem {d : Dict α β} (hn : DNodup d) {k : α} {v : β} (h : (k, v) ∈ d) :
    dget d k = some v := by
  induction d with
  | nil => simp at h
  | cons p t ih =>
    obtain ⟨k', v'⟩ := p
    simp only [DNodup, dkeys_cons, List.nodup_cons] at hn
    rcases List.mem_cons.mp h with h | h
    · cases h; simp [dget]
    · have : k' ≠ k := by
        rintro rfl; exact hn.1 (mem_dkeys_of_mem h)
      simp [dget, this, ih hn.2 h]

theorem dget_eq_some_iff {d : Dict α β} (hn : DNodup d) {k : α} {v : β} :
    dget d k = some v ↔ (k, v) ∈ d := ⟨mem_of_dget, dget_of_mem hn⟩

theorem DNodup.nil : DNodup ([] : Dict α β) := List.nodup_nil

theorem DNodup.dset {d : Dict α β} (h : DNodup d) (k : α) (v : β) : DNodup (dset d k v) := by
  unfold DNodup at *
  rw [dkeys_dset]
  split
  · exact h
  · next hk => rw [List.nodup_append]
               refine ⟨h, by simp, ?_⟩
               intro a ha b hb
               simp at hb; subst hb; rintro rfl; exact hk ha

@[simp] theorem dupdate_nil (d : Dict α β) : dupdate d [] = d := rfl
@[simp] theorem dupdate_cons (d : Dict α β) (p : α × β) (e : Dict α β) :
    dupdate d (p :: e) = dupdate (dset d p.1 p.2) e := rfl
theorem dupdate_append (d e f : Dict α β) : dupdate d (e ++ f) = dupdate (dupdate d e) f := by
  simp [dupdate, List.foldl_append]

theorem DNodup.dupdate {d : Dict α β} (h : DNodup d) (e : Dict α β) : DNodup (dupdate d e) := by
  induction e generalizing d with
  | nil => exact h
  | cons p t ih => exact ih (h.dset _ _)

theorem dofList_nodup (l : List (α × β)) : DNodup (dofList l) := DNodup.nil.dupdate l

theorem mem_dkeys_dupdate (d e : Dict α β) (x : α) :
    x ∈ dkeys (dupdate d e) ↔ x ∈ dkeys d ∨ x ∈ dkeys e := by
  induction e generalizing d with
  | nil => simp
  | cons p t ih =>
    rw [dupdate_cons, ih, mem_dkeys_dset, dkeys_cons, List.mem_cons]
    constructor
    · rintro ((h | h) | h)
      · exact Or.inr (Or.inl h)
      · exact Or.inl h
      · exact Or.inr (Or.inr h)
    · rintro (h | h | h)
      · exact Or.inl (Or.inr h)
      · exact Or.inl (Or.inl h)
      · exact Or.inr h

theorem dget_dupdate_of_not_mem (d e : Dict α β) {x : α} (h : x ∉ dkeys e) :
    dget (dupdate d e) x = dget d x := by
  induction e generalizing d with
  | nil => rfl
  | cons p t ih =>
    rw [dkeys_cons, List.mem_cons, not_or] at h
    rw [dupdate_cons, ih _ h.2, dget_dset_ne _ _ (fun e => h.1 e.symm)]

/-- Lookup in an updated dictionary: the update wins. -/
theorem dget_dupdate (d : Dict α β) {e : Dict α β} (hn : DNodup e) (x : α) :
    dget (dupdate d e) x = (dget e x).or (dget d x) := by
  induction e generalizing d with
  | nil => simp
  | cons p t ih =>
    obtain ⟨k, v⟩ := p
    simp only [DNodup, dkeys_cons, List.nodup_cons] at hn
    rw [dupdate_cons]
    by_cases h : k = x
    · subst h
      rw [dget_dupdate_of_not_mem _ _ hn.1]; simp [dget]
    · rw [ih _ hn.2]; simp [dget, h, dget_dset_ne]

theorem dget_perm {d e : Dict α β} (hp : d.Perm e) (hn : DNodup d) (x : α) : dget d x = dget e x := by
  have hn' : DNodup e := by
    unfold DNodup dkeys at *; exact (hp.map _).nodup_iff.mp hn
  cases hd : dget d x with
  | none =>
    rw [dget_eq_none_iff] at hd
    symm; rw [dget_eq_none_iff]
    intro h; exact hd ((hp.map Prod.fst).mem_iff.mpr h)
  | some v =>
    symm; rw [dget_eq_some_iff hn']
    exact hp.mem_iff.mp (mem_of_dget hd)

theorem dkeys_map_val {γ : Type} (d : Dict α β) (f : α × β → γ) :
    dkeys (d.map fun p => (p.1, f p)) = dkeys d := by
  simp [dkeys]

theorem dget_map_val {γ : Type} (d : Dict α β) (f : α → β → γ) (x : α) :
    dget (d.map fun p => (p.1, f p.1 p.2)) x = (dget d x).map (f x) := by
  induction d with
  | nil => rfl
  | cons p t ih =>
    obtain ⟨k, v⟩ := p
    by_cases h : k = x
    · subst h; simp [dget]
    · simp [dget, h, ih]

/-- A dictionary whose keys are all present keeps its key list when updated. -/
theorem dkeys_dupdate_of_subset (d e : Dict α β) (h : ∀ k ∈ dkeys e, k ∈ dkeys d) :
    dkeys (dupdate d e) = dkeys d := by
  induction e generalizing d with
  | nil => rfl
  | cons p t ih =>
    rw [dupdate_cons, ih]
    · rw [dkeys_dset, if_pos (h _ (by simp))]
    · intro k hk
      rw [mem_dkeys_dset]; exact Or.inr (h k (by simp [hk]))

end

section
variable {α : Type} (le : α → α → Bool)

theorem sinsert_perm (x : α) (l : List α) : (sinsert le x l).Perm (x :: l) := by
  induction l with
  | nil => exact List.Perm.refl _
  | cons y t ih =>
    simp only [sinsert]; split
    · exact List.Perm.refl _
    · exact (ih.cons y).trans (List.Perm.swap x y t)

theorem psorted_perm (l : List α) : (psorted le l).Perm l := by
  induction l with
  | nil => exact List.Perm.refl _
  | cons x t ih => exact (sinsert_perm le x _).trans (ih.cons x)

theorem sinsert_sorted (ht : ∀ a b, le a b = false → le b a = true) (htr : ∀ a b c, le a b = true → le b c = true → le a c = true) (x : α)
    {l : List α} (h : l.Pairwise fun a b => le a b = true) : (sinsert le x l).Pairwise fun a b => le a b = true := by
  induction l with
  | nil => simp [sinsert]
  | cons y t ih =>
    have hy := List.pairwise_cons.1 h
    simp only [sinsert]
    cases hxy : le x y with
    | true =>
      simp only [if_true]
      refine List.pairwise_cons.2 ⟨fun a ha => ?_, h⟩
      rcases List.mem_cons.1 ha with rfl | ha
      · exact hxy
      · exact htr _ _ _ hxy (hy.1 a ha)
    | false =>
      simp only [Bool.false_eq_true, if_false]
      refine List.pairwise_cons.2 ⟨fun a ha => ?_, ih hy.2⟩
      rcases List.mem_cons.1 ((sinsert_perm le x t).mem_iff.1 ha) with rfl | ha
      · exact ht _ _ hxy
      · exact hy.1 a ha

/-- `sorted` sorts. -/
theorem psorted_sorted (ht : ∀ a b, le a b = false → le b a = true) (htr : ∀ a b c, le a b = true → le b c = true → le a c = true) (l : List α) :
    (psorted le l).Pairwise fun a b => le a b = true := by
  induction l with
  | nil => exact List.Pairwise.nil
  | cons x t ih => exact sinsert_sorted le ht htr x ih

theorem mem_psorted {x : α} (l : List α) : x ∈ psorted le l ↔ x ∈ l := (psorted_perm le l).mem_iff

end

theorem strLe_total (a b : String) (h : strLe a b = false) : strLe b a = true := by
  simp only [strLe, decide_eq_false_iff_not, decide_eq_true_eq] at *
  exact (Std.le_total (a := a) (b := b)).resolve_left h

theorem strLe_trans (a b c : String) (h : strLe a b = true) (h' : strLe b c = true) : strLe a c = true := by
  simp only [strLe, decide_eq_true_eq] at *
  exact Std.le_trans h h'

/-- A list with distinct keys is a dictionary. -/
theorem dofList_of_nodup {α β : Type} [DecidableEq α] {l : List (α × β)} (h : DNodup l) : dofList l = l := by
  have gen : ∀ (l d : List (α × β)), DNodup (d ++ l) → dupdate d l = d ++ l := by
    intro l
    induction l with
    | nil => intro d _; simp
    | cons p t ih =>
      intro d hd
      have hp : ∀ (d : Dict α β), p.1 ∉ dkeys d → dset d p.1 p.2 = d ++ [p] := by
        intro d
        induction d with
        | nil => intro _; rfl
        | cons q r ihr =>
          intro hq
          simp only [dkeys_cons, List.mem_cons, not_or] at hq
          simp only [dset, if_neg (fun h : q.1 = p.1 => hq.1 h.symm), ihr hq.2, List.cons_append]
      have hn : p.1 ∉ dkeys d := by
        intro hm
        have : (dkeys d ++ dkeys (p :: t)).Nodup := by rw [← dkeys_append]; exact hd
        exact (List.nodup_append.1 this).2.2 p.1 hm p.1 (by simp) rfl
      rw [dupdate_cons, hp d hn, ih _ (by simpa using hd)]; simp
  simpa [dofList] using gen l [] (by simpa using h)

theorem bind_eq_ok {ε α β : Type} {x : Except ε α} {f : α → Except ε β} {b : β} :
    (x >>= f) = .ok b ↔ ∃ a, x = .ok a ∧ f a = .ok b := by
  cases x <;> simp [bind, Except.bind]

theorem bind_eq_error {ε α β : Type} {x : Except ε α} {f : α → Except ε β} {e : ε} :
    (x >>= f) = .error e ↔ x = .error e ∨ ∃ a, x = .ok a ∧ f a = .error e := by
  cases x <;> simp [bind, Except.bind]

@[simp] theorem ok_bind {ε α β : Type} (a : α) (f : α → Except ε β) : ((Except.ok a : Except ε α) >>= f) = f a := rfl
@[simp] theorem error_bind {ε α β : Type} (e : ε) (f : α → Except ε β) : ((Except.error e : Except ε α) >>= f) = .error e := rfl

/-- Boolean test that a computation succeeds with a result satisfying `p`; used to close examples by computation. -/
def okTest {ε α : Type} (x : Except ε α) (p : α → Bool) : Bool :=
  match x with
  | .ok a => p a
  | .error _ => false

theorem ok_sat {ε α : Type} {x : Except ε α} {p : α → Prop} [DecidablePred p] (h : okTest x (fun a => decide (p a)) = true) :
    ∃ a, x = .ok a ∧ p a := by
  cases x with
  | ok a => exact ⟨a, rfl, by simpa [okTest] using h⟩
  | error e => simp [okTest] at h

end Sloth
