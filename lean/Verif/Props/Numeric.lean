import Verif.Model.Numeric
import Verif.Model.Graph
import Verif.Lemmas.World

/-!
# C106: functions on values.  C107: drawing of graphs
-/

namespace Sloth
open PyM

/-! ## C106 -/

/-- What `Log(obj)` is meant to be: a copy of `obj` with the function of its value, for dimensionless `obj`. -/
def Spec.Applied (np : NumFn → Rat → Rat) (f : NumFn) (q q' : Quantity) : Prop := q' = { q with value := np f q.value }

/-- C106 fails: the functions ask the unit for a method it does not have, so also a dimensionless quantity is refused, with `AttributeError` (and not the
error the file has for dimensional arguments).  Nothing is changed. -/
theorem numeric_functions_refuse_all (np : NumFn → Rat → Rat) (f : NumFn) (w : World) (r : Ref) (q : Quantity) (h : w.qs[r]? = some q) :
    f.apply np r false w = (.error .attributeError, w) := by
  unfold NumFn.apply
  rw [PyM.bind_of_ok (getQ_of h)]
  rfl

/-- C106, what holds: with `ignore_dimensions=True` the call returns a new object that differs from the argument in its value only; the argument and everything else is
as before.  The unit is kept, also when it is not dimensionless. -/
theorem numeric_functions_partial (np : NumFn → Rat → Rat) (f : NumFn) (w : World) (r : Ref) (q : Quantity) (h : w.qs[r]? = some q) :
    ∃ w' q', f.apply np r true w = (.ok w.qs.length, w') ∧ w'.qs[w.qs.length]? = some q' ∧ Spec.Applied np f q q' ∧ q'.units = q.units ∧
      (∀ (i : Ref) (x : Quantity), w.qs[i]? = some x → w'.qs[i]? = some x) ∧ w'.ms = w.ms ∧ w'.es = w.es ∧ w'.pr = w.pr := by
  refine ⟨{ w with qs := w.qs ++ [{ q with value := np f q.value }] }, { q with value := np f q.value }, ?_, ?_, rfl, rfl, fun i x hi => ?_, rfl, rfl, rfl⟩
  · unfold NumFn.apply
    rw [PyM.bind_of_ok (getQ_of h)]
    rfl
  · simp
  · show (w.qs ++ _)[i]? = some x
    rw [List.getElem?_append_left (List.getElem?_eq_some_iff.mp hi).1, hi]

/-- A pressure in the heap. -/
def Ex.pressure : World := { World.init with qs := [{ mkParameter "p" Tmpl.Pa (value := 3) with isSpecified := true }] }

/-- ... and its logarithm is a pressure as well. -/
example : Ex.pressure.qs[0]? = some { mkParameter "p" Tmpl.Pa (value := 3) with isSpecified := true } ∧
    ((NumFn.log.apply (fun _ x => x + 1) 0 true Ex.pressure).2.qs.map fun q => (q.value, q.units == Tmpl.Pa)) = [(3, true), (4, true)] := by
  decide +kernel

/-! ## C107 -/

section
variable {G : Type} (lib : GraphLib G)

/-- The nodes a graph takes in a session, in order. -/
def Spec.taken : G → List GOp → List String
  | _, [] => []
  | x, .node i s c l :: t => match lib.addNode x i s c l with
    | .error _ => Spec.taken x t
    | .ok y => i :: Spec.taken y t
  | x, .edge a b :: t => match lib.addEdge x a b with
    | .error _ => Spec.taken x t
    | .ok y => Spec.taken y t
  | x, .draw _ h :: t => match lib.layout (if h then lib.blank x else x) with
    | .error _ => Spec.taken (if h then lib.blank x else x) t
    | .ok y => Spec.taken y t

/-- The edges asked for in a session, in order. -/
def Spec.asked : List GOp → List (String × String)
  | [] => []
  | .edge a b :: t => (a, b) :: Spec.asked t
  | _ :: t => Spec.asked t

/-- C107: the list of nodes holds the nodes the graph has taken, and the list of edges all edges asked for, in the order of the calls; drawing changes neither. -/
theorem graph_lists_partial (ops : List GOp) (g : GraphObj G) :
    (g.history lib ops).nodes = g.nodes ++ Spec.taken lib g.graph ops ∧ (g.history lib ops).edges = g.edges ++ Spec.asked ops := by
  induction ops generalizing g with
  | nil => exact ⟨(List.append_nil _).symm, (List.append_nil _).symm⟩
  | cons o t ih =>
    have e : g.history lib (o :: t) = (o.run lib g).history lib t := rfl
    rw [e, (ih _).1, (ih _).2]
    cases o with
    | node i s c l =>
      simp only [GOp.run, GraphObj.addNode, Spec.taken, Spec.asked]
      cases lib.addNode g.graph i s c l with
      | error e => exact ⟨rfl, rfl⟩
      | ok x => exact ⟨by simp, rfl⟩
    | edge a b =>
      simp only [GOp.run, GraphObj.addEdge, Spec.taken, Spec.asked]
      cases lib.addEdge g.graph a b with
      | error e => exact ⟨rfl, by simp⟩
      | ok x => exact ⟨rfl, by simp⟩
    | draw f h =>
      simp only [GOp.run, GraphObj.draw, Spec.taken, Spec.asked]
      cases lib.layout (if h = true then lib.blank g.graph else g.graph) with
      | error e => exact ⟨rfl, rfl⟩
      | ok x => exact ⟨rfl, rfl⟩

end

/-- A graph that keeps its nodes and edges and whether texts are blanked; an edge needs its nodes; the picture lists the texts shown. -/
def Ex.dots : GraphLib (List String × List (String × String) × Bool) where
  empty := fun _ => ([], [], false)
  addNode := fun g i _ _ _ => .ok (g.1 ++ [i], g.2)
  addEdge := fun g a b => if g.1.contains a && g.1.contains b then .ok (g.1, g.2.1 ++ [(a, b)], g.2.2) else .error .keyError
  blank := fun g => (g.1, g.2.1, true)
  layout := .ok
  draw := fun g _ => .ok (if g.2.2 then "" else pyJoin "," g.1)

/-- C107 read strictly fails: an edge the graph refuses is listed all the same. -/
theorem refused_edge_listed : ∃ (ops : List GOp), ((GraphObj.init Ex.dots "g").history Ex.dots ops).edges = [("a", "b"), ("a", "z")] ∧
    ((GraphObj.init Ex.dots "g").history Ex.dots ops).graph.2.1 = [("a", "b")] :=
  ⟨[.node "a" "box" "black" "", .node "b" "box" "black" "", .edge "a" "b", .draw "f" false, .edge "a" "z"], by decide +kernel⟩

/-- A graph once drawn without texts is drawn without them ever after (when the library keeps the attribute): `draw` changes the graph. -/
theorem headings_stay_hidden : ∃ (ops : List GOp), (((GraphObj.init Ex.dots "g").history Ex.dots ops).draw Ex.dots "f" false).1.toOption = some "a,b" ∧
    (((GraphObj.init Ex.dots "g").history Ex.dots (ops ++ [.draw "f" true])).draw Ex.dots "f" false).1.toOption = some "" :=
  ⟨[.node "a" "box" "black" "", .node "b" "box" "black" ""], by decide +kernel⟩

/-- A session in which the lists of C107 differ from the calls. -/
example : Spec.taken Ex.dots (GraphObj.init Ex.dots "g").graph [.node "a" "box" "black" "", .edge "a" "z", .node "z" "box" "black" "", .edge "a" "z"] = ["a", "z"] ∧
    Spec.asked [.node "a" "box" "black" "", .edge "a" "z", .node "z" "box" "black" "", .edge "a" "z"] = [("a", "z"), ("a", "z")] := by
  decide +kernel

end Sloth
