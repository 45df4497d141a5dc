import Verif.Model.World

/-!
# Drawing of graphs (`src/sloth/graph_creator.py`)
-/

namespace Sloth

/-- What pygraphviz does, over an arbitrary type of graphs. -/
structure GraphLib (G : Type) where
  /-- `AGraph(name=name, ranksep=.5, directed=True)` -/
  empty : String → G
  addNode : G → (id shape color label : String) → Except Err G
  addEdge : G → String → String → Except Err G
  /-- `graph.node_attr.update(label="")` -/
  blank : G → G
  /-- `graph.layout(prog='dot')`; it needs the program `dot` -/
  layout : G → Except Err G
  /-- `graph.draw(file_name)`; the file is an answer here -/
  draw : G → String → Except Err String

/-- graph_creator.py l.9-21 `ConnectionGraph`. -/
structure GraphObj (G : Type) where
  nodes : List String := []
  edges : List (String × String) := []
  graph : G

variable {G : Type} (lib : GraphLib G)

/-- graph_creator.py l.15-21 `__init__`. -/
def GraphObj.init (name : String) : GraphObj G := { graph := lib.empty name }

/-- graph_creator.py l.23-27 `add_node`: listed after the graph has taken it. -/
def GraphObj.addNode (g : GraphObj G) (id shape color label : String) : Except Err Unit × GraphObj G :=
  match lib.addNode g.graph id shape color label with
  | .error e => (.error e, g)
  | .ok x => (.ok (), { g with graph := x, nodes := g.nodes ++ [id] })

/-- graph_creator.py l.29-33 `add_edge`: listed before the graph is asked. -/
def GraphObj.addEdge (g : GraphObj G) (a b : String) : Except Err Unit × GraphObj G :=
  match lib.addEdge g.graph a b with
  | .error e => (.error e, { g with edges := g.edges ++ [(a, b)] })
  | .ok x => (.ok (), { g with graph := x, edges := g.edges ++ [(a, b)] })

/-- graph_creator.py l.35-43 `draw`; `hide` is the truth of `show_headings is False`. -/
def GraphObj.draw (g : GraphObj G) (file : String) (hide : Bool) : Except Err String × GraphObj G :=
  let x := if hide then lib.blank g.graph else g.graph
  match lib.layout x with
  | .error e => (.error e, { g with graph := x })
  | .ok y => (lib.draw y file, { g with graph := y })

/-- The calls a user can make. -/
inductive GOp where
  | node (id shape color label : String)
  | edge (a b : String)
  | draw (file : String) (hide : Bool)
  deriving DecidableEq, Repr

/-- One call, exceptions caught. -/
def GOp.run : GOp → GraphObj G → GraphObj G
  | .node i s c l, g => (g.addNode lib i s c l).2
  | .edge a b, g => (g.addEdge lib a b).2
  | .draw f h, g => (g.draw lib f h).2

/-- The graph after a session. -/
def GraphObj.history (ops : List GOp) (g : GraphObj G) : GraphObj G := ops.foldl (fun g o => o.run lib g) g

end Sloth
