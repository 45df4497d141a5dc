import Verif.Props.Domains
import Verif.Props.Packages
import Verif.Props.Results

/-!
# Reading domains and property packages (C65, C69), results of dynamic simulations (C73)
-/

namespace Sloth

/-! ## C65: columns of a domain -/

section
variable {K : Type} [Inhabited K]
open DomainObj

theorem colIdx_of_nodup {l : List Label} (hn : l.Nodup) {k : Nat} {c : Label} (h : l[k]? = some c) : colIdx c l = some k := by
  induction l generalizing k with
  | nil => simp at h
  | cons a t ih =>
    cases k with
    | zero => simp only [List.getElem?_cons_zero, Option.some.injEq] at h; simp [colIdx, h]
    | succ k =>
      simp only [List.getElem?_cons_succ] at h
      have hne : a ≠ c := fun e => (List.nodup_cons.1 hn).1 (e ▸ List.mem_of_getElem? h)
      simp [colIdx, hne, ih (List.nodup_cons.1 hn).2 h]

theorem colIdx_none {l : List Label} {c : Label} (h : c ∉ l) : colIdx c l = none := by
  induction l with
  | nil => rfl
  | cons a t ih =>
    simp only [List.mem_cons, not_or] at h
    simp [colIdx, Ne.symm h.1, ih h.2]

theorem mapM_ok {α β : Type} {f : α → Except Err β} {g : α → β} {l : List α} (h : ∀ x ∈ l, f x = .ok (g x)) : l.mapM f = .ok (l.map g) := by
  induction l with
  | nil => rfl
  | cons a t ih =>
    rw [List.mapM_cons, h a (by simp), ih fun x hx => h x (List.mem_cons_of_mem _ hx)]; rfl

/-- C65: reading a domain gives, for each independent variable asked for and each name asked for (in this order), the entries of the rows kept
for that variable at the position of that name. -/
theorem domain_read {d : DomainObj K} {inds deps : List String} (tab : String → List (List K)) (pos : String → Nat)
    (h : ∀ v ∈ inds, ∃ f, d.frame v = some f ∧ f.cols.Nodup ∧ f.rows = tab v ∧ ∀ s ∈ deps, f.cols[pos s]? = some (.name s)) :
    d.getItem inds deps = .ok (inds.flatMap fun v => deps.map fun s => (tab v).map fun r => r.getD (pos s) default) := by
  cases hv : d.values with
  | none =>
    cases inds with
    | nil => simp [getItem, hv]
    | cons v t =>
      obtain ⟨f, hf, _⟩ := h v (by simp)
      simp [frame, hv] at hf
  | some vals =>
    simp only [getItem, hv]
    rw [mapM_ok (g := fun p : String × String => (tab p.1).map fun r => r.getD (pos p.2) default)]
    · simp [List.map_flatMap, Function.comp_def]
    · rintro ⟨v, s⟩ hp
      simp only [List.mem_flatMap, List.mem_map, Prod.mk.injEq] at hp
      obtain ⟨v', hv', s', hs', rfl, rfl⟩ := hp
      obtain ⟨f, hf, hn, hr, hc⟩ := h _ hv'
      have hg : dget vals v' = some f := by simpa [frame, hv] using hf
      show (dgetE vals v' >>= fun f => column f s') = _
      simp [dgetE, hg, column, colIdx_of_nodup hn (hc s' hs'), hr, bind, Except.bind]

/-- C65: a name that is no column raises `KeyError`. -/
theorem domain_read_unknown {d : DomainObj K} {v s : String} {f : Frame K} (hf : d.frame v = some f) (hs : Label.name s ∉ f.cols) :
    d.getItem [v] [s] = .error .keyError := by
  cases hv : d.values with
  | none => simp [frame, hv] at hf
  | some vals =>
    have hg : dget vals v = some f := by simpa [frame, hv] using hf
    simp [getItem, hv, dgetE, hg, column, colIdx_none hs, bind, Except.bind]

/-- C65 in sessions: with at most one registration per variable between two settings of the domain, a name of the domain read for one of its
independent variables gives the column registered under that name. -/
theorem domain_read_session (name : String) {indep : List String} (hn : indep.Nodup) (hne : indep ≠ []) {ops : List (DomOp K)}
    (hs : Spec.Dom.Simple { indep } ops) (hd : (indep ++ (ops.foldl Spec.Dom.step { indep }).deps).Nodup) {v s : String} {k : Nat}
    (hk : (indep ++ (ops.foldl Spec.Dom.step { indep }).deps)[k]? = some s) {rows : List (List K)}
    (hv : (ops.foldl Spec.Dom.step { indep }).tab v = some rows) :
    (ops.foldl DomOp.run (DomainObj.init name indep)).getItem [v] [s] = .ok [rows.map fun r => r.getD k default] := by
  have hi : (ops.foldl Spec.Dom.step { indep }).indep = indep := by
    suffices h : ∀ (l : List (DomOp K)) (d : Spec.Dom K), (l.foldl Spec.Dom.step d).indep = d.indep from h ops _
    intro l
    induction l with
    | nil => intro d; rfl
    | cons o t ih =>
      intro d
      rw [List.foldl_cons, ih]
      cases o with
      | register r v =>
        simp only [Spec.Dom.step]
        split
        · simp only [Spec.Dom.reg]; split <;> [split <;> rfl; rfl]
        · rfl
      | _ => rfl
  have hf := domain_keeps_rows_partial name hn hne hs v
  rw [hv, hi] at hf
  have := domain_read (d := ops.foldl DomOp.run (DomainObj.init name indep)) (inds := [v]) (deps := [s]) (fun _ => rows) (fun _ => k) (by
    intro u hu
    obtain rfl := List.mem_singleton.1 hu
    refine ⟨_, hf, ?_, rfl, fun s' hs' => ?_⟩
    · exact hd.map fun a b h => Label.name.inj h
    · obtain rfl := List.mem_singleton.1 hs'
      show (List.map Label.name _)[k]? = _
      rw [List.getElem?_map, hk]; rfl)
  simpa using this

example : Spec.Dom.Simple { indep := ["t"] } Ex.dom1 ∧
    (["t"] ++ (Ex.dom1.foldl Spec.Dom.step { indep := ["t"] }).deps)[1]? = some "x" ∧
    (Ex.dom1.foldl DomOp.run (DomainObj.init "d" ["t"])).getItem ["t"] ["x", "t"] = .ok [[1, 2, 4], [0, 1, 2]] := by
  refine ⟨⟨trivial, ?_, trivial⟩, by decide +kernel, by rfl⟩
  intro v hv
  right
  obtain rfl : "t" = v := Option.some.inj hv
  rfl

/-! ## C65: renamed columns -/

/-- The name a column is shown under. -/
def Spec.shown (m : Dict String String) (s : String) : String :=
  match m.find? (fun p => p.1 = s) with
  | some p => p.2
  | none => s

theorem shown_eq (m : Dict String String) (s : String) : (dget m s).getD s = Spec.shown m s := by
  induction m with
  | nil => rfl
  | cons p t ih =>
    unfold Spec.shown at ih ⊢
    rw [dget_cons, List.find?_cons]
    by_cases h : p.1 = s
    · simp [h]
    · simp [h, ih]

/-- C65: renaming changes neither the rows nor the tables there are; every named column is shown under its new name, or under its old one if the
map has none for it. -/
theorem renamed_columns {d d' : DomainObj K} {m : Dict String String} (h : d.renameHeaders m = .ok d') (v : String) :
    d'.indep = d.indep ∧ d'.deps = d.deps ∧
    (d'.frame v = none ↔ d.frame v = none) ∧
    ∀ f, d.frame v = some f → ∃ f', d'.frame v = some f' ∧ f'.rows = f.rows ∧ f'.cols.length = f.cols.length ∧
      (∀ (k : Nat) s, f.cols[k]? = some (.name s) → f'.cols[k]? = some (.name (Spec.shown m s))) ∧
      (∀ (k : Nat) n, f.cols[k]? = some (.row n) → f'.cols[k]? = some (.row n)) := by
  cases hv : d.values with
  | none => simp [renameHeaders, hv] at h
  | some vals =>
    simp only [renameHeaders, hv, Except.ok.injEq] at h
    subst h
    have hg : ∀ l : Dict String (Frame K), dget (l.map fun p => (p.1, { p.2 with cols := p.2.cols.map (Label.rename m) })) v =
        (dget l v).map fun f => { f with cols := f.cols.map (Label.rename m) } := by
      intro l
      induction l with
      | nil => rfl
      | cons p t ih =>
        rw [List.map_cons, dget_cons, dget_cons]
        split <;> simp [ih]
    refine ⟨rfl, rfl, ?_, fun f hf => ?_⟩
    · simp [frame, hv, hg]
    · have hf' : dget vals v = some f := by simpa [frame, hv] using hf
      refine ⟨{ f with cols := f.cols.map (Label.rename m) }, ?_, rfl, by simp, fun k s hk => ?_, fun k n hk => ?_⟩
      · simp [frame, hg, hf']
      · simp [hk, Label.rename, shown_eq]
      · simp [hk, Label.rename]

/-- C65: so a column is read under its new name as it was under the old one, if the new names differ. -/
theorem renamed_read {d d' : DomainObj K} {m : Dict String String} (h : d.renameHeaders m = .ok d') {v s : String} {f : Frame K}
    (hf : d.frame v = some f) {names : List String} (hc : f.cols = names.map Label.name) (hn : (names.map (Spec.shown m)).Nodup)
    (hs : s ∈ names) : d'.getItem [v] [Spec.shown m s] = d.getItem [v] [s] := by
  obtain ⟨_, _, _, hr⟩ := renamed_columns h v
  obtain ⟨f', hf', hrows, hlen, hcol, _⟩ := hr f hf
  obtain ⟨k, hk⟩ := List.getElem?_of_mem hs
  have hfk : f.cols[k]? = some (.name s) := by simp [hc, hk]
  have hc' : f'.cols = (names.map (Spec.shown m)).map Label.name := by
    refine List.ext_getElem? fun j => ?_
    cases hj : names[j]? with
    | none =>
      have : names.length ≤ j := List.getElem?_eq_none_iff.1 hj
      rw [List.getElem?_eq_none (by rw [hlen, hc]; simpa using this), List.getElem?_eq_none (by simpa using this)]
    | some x => rw [hcol j x (by simp [hc, hj])]; simp [hj]
  have hnf' : f'.cols.Nodup := by
    rw [hc']; exact hn.map fun a b h => Label.name.inj h
  have hnf : f.cols.Nodup := by
    rw [hc]; exact (List.Nodup.of_map _ hn).map fun a b h => Label.name.inj h
  rw [domain_read (fun _ => f.rows) (fun _ => k), domain_read (fun _ => f.rows) (fun _ => k)]
  · simp
  · intro u hu
    obtain rfl := List.mem_singleton.1 hu
    refine ⟨f, hf, hnf, rfl, fun s' hs' => ?_⟩
    obtain rfl := List.mem_singleton.1 hs'
    exact hfk
  · intro u hu
    obtain rfl := List.mem_singleton.1 hu
    refine ⟨f', hf', hnf', hrows, fun s' hs' => ?_⟩
    obtain rfl := List.mem_singleton.1 hs'
    exact hcol k s hfk

/-- `x` shown as `height`; `t` keeps its name. -/
example : let d := Ex.dom1.foldl DomOp.run (DomainObj.init "d" ["t"])
    (d.renameHeaders [("x", "height")]).toOption.isSome ∧ (["t", "x"].map (Spec.shown [("x", "height")])) = ["t", "height"] ∧
    ((d.renameHeaders [("x", "height")] >>= fun d => d.getItem ["t"] ["height", "t"])) = .ok [[1, 2, 4], [0, 1, 2]] := by
  refine ⟨by decide +kernel, by decide +kernel, by rfl⟩

end

/-! ## C73: results of dynamic simulations -/

section
variable {K : Type} [Field K] [LinearOrder K]
open PyS

theorem dget_zipIdx {V : Type} (g : Nat → V) : ∀ (l : List Label) (n : Nat), l.Nodup →
    (∀ (k : Nat) c, l[k]? = some c → dget ((l.zipIdx n).map fun p => (p.1, g p.2)) c = some (g (n + k))) ∧
    (∀ c, c ∉ l → dget ((l.zipIdx n).map fun p => (p.1, g p.2)) c = none)
  | [], n, _ => ⟨fun k c h => by simp at h, fun c _ => rfl⟩
  | a :: t, n, hn => by
    obtain ⟨h1, h2⟩ := dget_zipIdx g t (n + 1) (List.nodup_cons.1 hn).2
    refine ⟨fun k c h => ?_, fun c h => ?_⟩
    · rw [List.zipIdx_cons, List.map_cons, dget_cons]
      cases k with
      | zero => simp only [List.getElem?_cons_zero, Option.some.injEq] at h; simp [h]
      | succ k =>
        simp only [List.getElem?_cons_succ] at h
        have hne : a ≠ c := fun e => (List.nodup_cons.1 hn).1 (e ▸ List.mem_of_getElem? h)
        rw [if_neg hne, h1 k c h]
        congr 2; omega
    · simp only [List.mem_cons, not_or] at h
      rw [List.zipIdx_cons, List.map_cons, dget_cons, if_neg (Ne.symm h.1), h2 c h.2]

/-- C73: the results of a dynamic simulation are the tables of its domain: as list the rows of each table, as dictionary the columns of each table
under their names. -/
theorem dynamic_results {i : SRef} {s : SimWorld K} {o : SimObj K} {c : Conf} (ho : s.sims[i]? = some o) (hc : o.conf = some c) {r : DRef} {d : DomainObj K}
    (hr : dget c "domain" = some (.dom r)) (hd : s.doms[r]? = some d) {vals : Dict String (Frame K)} (hv : d.values = some vals) {b : Block}
    (hb : s.w.pr.block = some b) (hk : b.problemType = some .differential ∨ b.problemType = some .dae) :
    getResults i .list s = (.ok (.tables (vals.map fun p => p.2.rows)), s) ∧
    ∃ e, getResults i .dict s = (.ok (.columns e), s) ∧ dkeys e = dkeys vals ∧
      ∀ v f, d.frame v = some f → f.cols.Nodup → ∃ t, dget e v = some t ∧
        (∀ (k : Nat) l, f.cols[k]? = some l → dget t l = some (f.rows.map fun x => x.getD k 0)) ∧ (∀ l, l ∉ f.cols → dget t l = none) := by
  have hred : ∀ rt, rt ≠ .other → getResults i rt s = (diffResults vals rt, s) := by
    intro rt hrt
    have ht : domainTables (K := K) (some c) s = (.ok vals, s) := by
      have h1 : getD r s = (.ok d, s) := by simp [PyS.getD, hd]
      have h2 : (lift (dgetE c "domain") : PyS K CVal) s = (.ok (.dom r), s) := lift_ok.2 ⟨by rw [dgetE, hr], rfl⟩
      refine (bind_of_ok h2).trans ((bind_of_ok h1).trans ?_)
      rw [hv]; rfl
    unfold getResults
    rw [bind_of_ok (getSim_ok.2 ⟨ho, rfl⟩), bind_of_ok (getBlock_ok.2 ⟨hb, rfl⟩)]
    rcases hk with hk | hk <;> rw [hk] <;> (show timeResults o.conf rt s = _; rw [hc, timeResults, if_neg hrt]; exact bind_of_ok ht)
  refine ⟨by rw [hred _ (by decide)]; rfl, _, by rw [hred _ (by decide)]; rfl, by simp [dkeys], fun v f hf hn => ⟨f.columns, ?_, ?_⟩⟩
  · have : dget vals v = some f := by simpa [DomainObj.frame, hv] using hf
    clear hv hred
    induction vals with
    | nil => simp at this
    | cons p t ih =>
      rw [dget_cons] at this
      rw [List.map_cons, dget_cons]
      split
      · next h => rw [if_pos h] at this; cases this; rfl
      · next h => rw [if_neg h] at this; exact ih this
  · unfold Frame.columns
    obtain ⟨h1, h2⟩ := dget_zipIdx (fun k => f.rows.map fun r => r.getD k 0) f.cols 0 hn
    rw [dofList_of_nodup]
    · refine ⟨fun k l hl => ?_, h2⟩
      have := h1 k l hl
      rwa [Nat.zero_add] at this
    · unfold DNodup dkeys
      rw [List.map_map]
      simpa [Function.comp_def] using hn

/-- After the run of the sample, from 1 at time 0 with the derivative 0. -/
example : let s := simHistory Ex.ext Ex.ratI (Ex.odeRun Ex.ode (dset Ex.dyn "end_time" (.num 2)) {})
    (getResults 0 .dict s).1.toOption = some (.columns [("t", [(.name "t", [0, 1, 2]), (.name "x", [1, 1, 1])])]) ∧
    (getResults 0 .list s).1.toOption = some (.tables [[[0, 1], [1, 1], [2, 1]]]) := by
  decide +kernel
end

end Sloth

namespace Sloth.Pkg
open Sloth

/-! ## C69: chemicals and conditions of a package -/

/-- The chemicals a new package has: each name once, in the order of its first occurrence. -/
def Spec.phaseNames (l : List (Option String)) : List String := (l.filterMap id).eraseDups

theorem mkPhases_chems {known : String → Bool} {T P : Rat} {l : List (Option String)} {d d' : Dict String CRef} {w w' : World}
    (h : mkPhases known T P l d w = (.ok d', w')) (hd : ∀ s c, dget d s = some c → w.chems[c]? = some ⟨s, T, P⟩) :
    (∃ t, w'.chems = w.chems ++ t ∧ ∀ c ∈ t, c.T = T ∧ c.P = P) ∧ (∀ s c, dget d' s = some c → w'.chems[c]? = some ⟨s, T, P⟩) ∧
    dkeys d' = (l.filterMap id).foldl (fun acc s => if s ∈ acc then acc else acc ++ [s]) (dkeys d) := by
  induction l generalizing d w with
  | nil =>
    simp only [mkPhases, Prod.mk.injEq, Except.ok.injEq] at h
    obtain ⟨rfl, rfl⟩ := h
    exact ⟨⟨[], by simp⟩, hd, rfl⟩
  | cons n t ih =>
    cases n with
    | none => simpa using ih h hd
    | some s =>
      simp only [mkPhases] at h
      split at h
      · obtain ⟨⟨u, hu, hu'⟩, h2, h3⟩ := ih h (by
          intro s' c hc
          rw [dget_dset] at hc
          split at hc
          · next e => cases hc; simp [e]
          · have := hd s' c hc
            have hlt : c < w.chems.length := (List.getElem?_eq_some_iff.1 this).1
            simp only [List.getElem?_append_left hlt, this])
        refine ⟨⟨⟨s, T, P⟩ :: u, by simp [hu], fun c hc => ?_⟩, h2, ?_⟩
        · rcases List.mem_cons.1 hc with rfl | hc
          · exact ⟨rfl, rfl⟩
          · exact hu' c hc
        · rw [h3]
          simp only [List.filterMap_cons, id, List.foldl_cons, dkeys_dset]
      · simp at h

theorem fold_eraseDups (l : List String) : l.foldl (fun acc s => if s ∈ acc then acc else acc ++ [s]) [] = l.eraseDups := by
  suffices h : ∀ acc : List String, l.foldl (fun acc s => if s ∈ acc then acc else acc ++ [s]) acc = acc ++ (l.filter fun n => !acc.contains n).eraseDups by
    simpa using h []
  induction l with
  | nil => simp
  | cons n t ih =>
    intro acc
    rw [List.foldl_cons, ih]
    by_cases h : n ∈ acc
    · simp [h]
    · rw [if_neg h, List.filter_cons_of_pos (by simp [h]), List.eraseDups_cons, List.filter_filter, List.append_assoc, List.singleton_append]
      congr 3
      refine List.filter_congr fun x _ => ?_
      by_cases hx : x = n
      · subst hx; simp
      · simp [hx]

/-- C69: a new package has one chemical for each of its names, at 298.15 K and 101325 Pa; it is found under its name, and the last one under `"*"`.
No chemical there was is touched. -/
theorem new_chemicals {known : String → Bool} {count : Rat} {r : LRef} {a : PRef} {w w' : World} {l : List (Option String)}
    (hl : w.lists[r]? = some l) (h : new known count r w = (.ok a, w')) :
    (∀ s ∈ Spec.phaseNames l, s ≠ "*" → ∃ c, item a s w' = (.ok c, w') ∧ w'.chems[c]? = some ⟨s, 29815 / 100, 101325⟩) ∧
    (∀ s, s ∉ Spec.phaseNames l → s ≠ "*" → item a s w' = (.error .keyError, w')) ∧
    (∀ s, (Spec.phaseNames l).getLast? = some s → ∃ c, item a "*" w' = (.ok c, w') ∧ w'.chems[c]? = some ⟨s, 29815 / 100, 101325⟩) ∧
    (Spec.phaseNames l = [] → item a "*" w' = (.error .indexError, w')) ∧
    (∀ (c : Nat) x, w.chems[c]? = some x → w'.chems[c]? = some x) := by
  simp only [new, hl] at h
  split at h
  · cases h
  next d w1 hm =>
  simp only [Prod.mk.injEq, Except.ok.injEq] at h
  obtain ⟨rfl, rfl⟩ := h
  obtain ⟨⟨t, ht, _⟩, hc, hk⟩ := mkPhases_chems hm (by simp)
  have hk' : dkeys d = Spec.phaseNames l := by
    rw [hk]; exact fold_eraseDups _
  have hp : (w1.pkgs ++ [({ count, names := r, phases := d } : Obj)])[w1.pkgs.length]? = some { count, names := r, phases := d } := by simp
  have some_ : ∀ s ∈ Spec.phaseNames l, ∃ c, dget d s = some c := by
    intro s hs
    rw [← hk'] at hs
    cases hd : dget d s with
    | none => exact absurd hs ((dget_eq_none_iff _ _).1 hd)
    | some c => exact ⟨c, rfl⟩
  refine ⟨fun s hs hne => ?_, fun s hs hne => ?_, fun s hs => ?_, fun he => ?_, fun c x hx => ?_⟩
  · obtain ⟨c, hd⟩ := some_ s hs
    exact ⟨c, by simp [item, hp, hne, dgetE, hd], hc s c hd⟩
  · rw [← hk'] at hs
    simp [item, hp, hne, dgetE, (dget_eq_none_iff _ _).2 hs]
  · obtain ⟨c, hd⟩ := some_ s (List.mem_of_getLast? hs)
    exact ⟨c, by simp [item, hp, hk', hs, dgetE, hd], hc s c hd⟩
  · simp [item, hp, hk', he]
  · simp only [ht]
    rw [List.getElem?_append_left (List.getElem?_eq_some_iff.1 hx).1, hx]

example : Spec.phaseNames [some "water", none, some "air", some "water"] = ["water", "air"] ∧
    (new Ex.all 2 1 (history Ex.all [.list [some "water", none, some "air", some "water"]])).1.toOption = some 0 := by
  decide +kernel

/-- C69: `set_T` and `set_P` store a float and nothing else, and refuse any other number without effect. -/
theorem set_conditions {a : PRef} {p : Obj} {w : World} (hp : w.pkgs[a]? = some p) (v : Rat) :
    setT a true v w = (.ok (), { w with pkgs := w.pkgs.set a { p with T := v } }) ∧
    setP a true v w = (.ok (), { w with pkgs := w.pkgs.set a { p with P := v } }) ∧
    setT a false v w = (.error .absentRequiredObject, w) ∧ setP a false v w = (.error .absentRequiredObject, w) := by
  simp [setT, setP, hp]

/-- C69: when `calculate` returns, the chemicals of the package's phases are at the conditions given, and every other is as it was. -/
theorem calculated_conditions {a : PRef} {p : Obj} {w w' : World} {l : List (Option String)} {T P : Rat} (hp : w.pkgs[a]? = some p)
    (hl : w.lists[p.names]? = some l) (h : calculate a T P w = (.ok (), w')) (c : CRef) :
    w'.chems[c]? = (w.chems[c]?).map fun x => if l.any (fun n => n.any fun s => dget p.phases s == some c) then { x with T, P } else x := by
  simp only [calculate, hp, hl] at h
  generalize p.phases = ph at *
  clear hp hl p
  induction l generalizing w with
  | nil =>
    simp only [calcLoop, Prod.mk.injEq, true_and] at h
    subst h; simp
  | cons n t ih =>
    cases n with
    | none => simp [calcLoop] at h
    | some s =>
      simp only [calcLoop] at h
      cases hs : dget ph s with
      | none => simp [hs] at h
      | some c' =>
        simp only [hs] at h
        rw [ih h]
        simp only [List.getElem?_modify]
        cases w.chems[c]? with
        | none => rfl
        | some x =>
          by_cases hc : c' = c
          · subst hc
            simp [hs]
          · simp [hs, hc]

example : (calculate 0 400 200000 (history Ex.all Ex.three)).1.toOption = some () := by decide +kernel

/-! ### The conditions set are never used -/

/-- The call sets conditions. -/
def Spec.setsConditions : Op → Bool
  | .setT .. | .setP .. => true
  | _ => false

/-- A package without its conditions. -/
def bare (p : Obj) : Obj := { p with T := 0, P := 0 }

/-- Equal but for the conditions of the packages. -/
structure Sim (w v : World) : Prop where
  lists : w.lists = v.lists
  chems : w.chems = v.chems
  pkgs : w.pkgs.map bare = v.pkgs.map bare

theorem Sim.get {w v : World} (h : Sim w v) (a : PRef) :
    (w.pkgs[a]? = none ∧ v.pkgs[a]? = none) ∨ ∃ p q, w.pkgs[a]? = some p ∧ v.pkgs[a]? = some q ∧ bare p = bare q := by
  have := congrArg (fun l => l[a]?) h.pkgs
  simp only [List.getElem?_map] at this
  cases hw : w.pkgs[a]? with
  | none => left; rw [hw] at this; cases hv : v.pkgs[a]? with
    | none => exact ⟨rfl, rfl⟩
    | some q => rw [hv] at this; simp at this
  | some p => right; rw [hw] at this; cases hv : v.pkgs[a]? with
    | none => rw [hv] at this; simp at this
    | some q => rw [hv] at this; exact ⟨p, q, rfl, rfl, by simpa using this⟩

theorem bare_eq {p q : Obj} (h : bare p = bare q) : p.count = q.count ∧ p.names = q.names ∧ p.phases = q.phases := by
  simp only [bare, Obj.mk.injEq] at h
  exact ⟨h.1, h.2.1, h.2.2.2.2⟩

/-- Two calls that agree in the result and leave states that agree. -/
def Sim2 {α : Type} (x y : Except Err α × World) : Prop := x.1 = y.1 ∧ Sim x.2 y.2

theorem Sim.set {w v : World} (h : Sim w v) {p q : Obj} (e : bare p = bare q) (a : PRef) :
    Sim { w with pkgs := w.pkgs.set a p } { v with pkgs := v.pkgs.set a q } :=
  ⟨h.lists, h.chems, by simp [List.map_set, h.pkgs, e]⟩

theorem sim_mkPhases {known : String → Bool} {T P : Rat} (l : List (Option String)) (d : Dict String CRef) {w v : World} (h : Sim w v) :
    Sim2 (mkPhases known T P l d w) (mkPhases known T P l d v) := by
  induction l generalizing d w v with
  | nil => exact ⟨rfl, h⟩
  | cons n t ih =>
    cases n with
    | none => exact ih d h
    | some s =>
      simp only [mkPhases]
      split
      · rw [h.chems]; exact ih _ ⟨h.lists, by simp, h.pkgs⟩
      · exact ⟨rfl, h⟩

theorem sim_new {known : String → Bool} (count : Rat) (r : LRef) {w v : World} (h : Sim w v) : Sim2 (new known count r w) (new known count r v) := by
  simp only [new]
  rw [h.lists]
  cases v.lists[r]? with
  | none => exact ⟨rfl, h⟩
  | some l =>
    simp only
    have := sim_mkPhases (known := known) (T := 29815 / 100) (P := 101325) l [] h
    revert this
    cases mkPhases known (29815 / 100) 101325 l [] w with | mk e1 w1 =>
    cases mkPhases known (29815 / 100) 101325 l [] v with | mk e2 v1 =>
    rintro ⟨h1, h2⟩
    simp only at h1 h2
    subst h1
    cases e1 with
    | error e => exact ⟨rfl, h2⟩
    | ok d =>
      refine ⟨?_, h2.lists, h2.chems, by simp [h2.pkgs]⟩
      have := congrArg List.length h2.pkgs
      simpa using this

theorem sim_addLoop (a : PRef) (ph : Dict String CRef) (l : List (Option String)) {w v : World} (h : Sim w v) :
    Sim2 (addLoop a ph l w) (addLoop a ph l v) := by
  induction l generalizing w v with
  | nil => exact ⟨rfl, h⟩
  | cons n t ih =>
    simp only [addLoop]
    rcases h.get a with ⟨h1, h2⟩ | ⟨p, q, h1, h2, e⟩
    · rw [h1, h2]; exact ⟨rfl, h⟩
    · obtain ⟨_, en, ep⟩ := bare_eq e
      rw [h1, h2]
      simp only [en, h.lists]
      cases v.lists[q.names]? with
      | none => exact ⟨rfl, h⟩
      | some xs =>
        simp only
        split
        · exact ih h
        · have h' : Sim { w with lists := v.lists.set q.names (xs ++ [n]) } { v with lists := v.lists.set q.names (xs ++ [n]) } := ⟨rfl, h.chems, h.pkgs⟩
          cases n with
          | none => exact ⟨rfl, h'⟩
          | some s =>
            simp only
            cases dget ph s with
            | none => exact ⟨rfl, h'⟩
            | some c =>
              refine ih (Sim.set h' ?_ a)
              simp only [bare, Obj.mk.injEq] at e ⊢
              simp_all

theorem sim_add (a : PRef) (b : Arg) {w v : World} (h : Sim w v) : Sim2 (add a b w) (add a b v) := by
  cases b with
  | other => exact ⟨rfl, h⟩
  | pkg b =>
    simp only [add]
    rcases h.get b with ⟨h1, h2⟩ | ⟨p, q, h1, h2, e⟩
    · rw [h1, h2]; exact ⟨rfl, h⟩
    · obtain ⟨_, en, ep⟩ := bare_eq e
      rw [h1, h2]
      simp only [en, h.lists, ep]
      cases v.lists[q.names]? with
      | none => exact ⟨rfl, h⟩
      | some xs =>
        have := sim_addLoop a q.phases xs h
        revert this
        simp only
        cases addLoop a q.phases xs w with | mk e1 w1 =>
        cases addLoop a q.phases xs v with | mk e2 v1 =>
        rintro ⟨h1, h2⟩
        simp only at h1 h2
        subst h1
        cases e1 <;> exact ⟨rfl, h2⟩

theorem sim_calculate (a : PRef) (T P : Rat) {w v : World} (h : Sim w v) : Sim2 (calculate a T P w) (calculate a T P v) := by
  simp only [calculate]
  rcases h.get a with ⟨h1, h2⟩ | ⟨p, q, h1, h2, e⟩
  · rw [h1, h2]; exact ⟨rfl, h⟩
  · obtain ⟨_, en, ep⟩ := bare_eq e
    rw [h1, h2]
    simp only [en, h.lists, ep]
    cases v.lists[q.names]? with
    | none => exact ⟨rfl, h⟩
    | some xs =>
      simp only
      clear h1 h2 e en ep
      induction xs generalizing w v with
      | nil => exact ⟨rfl, h⟩
      | cons n t ih =>
        cases n with
        | none => exact ⟨rfl, h⟩
        | some s =>
          simp only [calcLoop]
          cases dget q.phases s with
          | none => exact ⟨rfl, h⟩
          | some c => exact ih ⟨h.lists, by simp [h.chems], h.pkgs⟩

theorem sim_sets {o : Op} (ho : Spec.setsConditions o = true) {known : String → Bool} {w v : World} (h : Sim w v) : Sim (o.exec known w) v := by
  cases o with
  | setT a f x =>
    simp only [Op.exec, setT]
    cases hp : w.pkgs[a]? with
    | none => exact h
    | some p =>
      cases f with
      | false => exact h
      | true =>
        refine ⟨h.lists, h.chems, ?_⟩
        rw [← h.pkgs]
        simp only [if_true, List.map_set]
        exact set_same (by simp [hp, bare])
  | setP a f x =>
    simp only [Op.exec, setP]
    cases hp : w.pkgs[a]? with
    | none => exact h
    | some p =>
      cases f with
      | false => exact h
      | true =>
        refine ⟨h.lists, h.chems, ?_⟩
        rw [← h.pkgs]
        simp only [if_true, List.map_set]
        exact set_same (by simp [hp, bare])
  | _ => simp [Spec.setsConditions] at ho

theorem sim_exec {o : Op} (ho : Spec.setsConditions o = false) {known : String → Bool} {w v : World} (h : Sim w v) :
    Sim (o.exec known w) (o.exec known v) := by
  cases o with
  | setT => simp [Spec.setsConditions] at ho
  | setP => simp [Spec.setsConditions] at ho
  | list l => exact ⟨by simp [Op.exec, h.lists], h.chems, h.pkgs⟩
  | new n r => exact (sim_new n r h).2
  | add a b => exact (sim_add a b h).2
  | calculate a T P => exact (sim_calculate a T P h).2

/-- C69 fails for the conditions set with `set_T` and `set_P`: leaving all these calls out of any session makes no difference to any
chemical. -/
theorem set_conditions_unused (known : String → Bool) (ops : List Op) :
    (history known (ops.filter fun o => !Spec.setsConditions o)).chems = (history known ops).chems := by
  suffices h : ∀ (l : List Op) (w v : World), Sim w v →
      Sim (l.foldl (fun w o => o.exec known w) w) ((l.filter fun o => !Spec.setsConditions o).foldl (fun w o => o.exec known w) v) from
    (h ops {} {} ⟨rfl, rfl, rfl⟩).chems.symm
  intro l
  induction l with
  | nil => intro w v h; exact h
  | cons o t ih =>
    intro w v h
    cases ho : Spec.setsConditions o with
    | true => simpa [ho] using ih _ _ (sim_sets ho h)
    | false => simpa [ho] using ih _ _ (sim_exec ho h)

/-- A package set to 400 K and then calculated has its chemical at 298.15 K. -/
example : let w := history Ex.all [.new 1 0, .setT 0 true 400, .calculate 0 (29815 / 100) 101325]
    (w.pkgs.map Obj.T) = [400] ∧ w.chems = [⟨"water", 29815 / 100, 101325⟩] := by decide +kernel

end Sloth.Pkg
