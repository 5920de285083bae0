import Verif.Model.Hyperpath
import Verif.Model.GraphText

/-!
Model of `Hyperpath.plot`: what is handed to NetworkX.  The positions (`nx.spring_layout`), sizes, arrows, the title, the axes and
the window are not modelled.
-/

namespace Sidermit

variable {K : Type}

/-- a call of `nx.draw_networkx_nodes`, `nx.draw_networkx_labels` or `nx.draw_networkx_edges`; `labels` carries the nodes of the
graph `G`, which are the ones that get a label -/
inductive PathCall
  | nodes (names : List Str) (colour : Str)
  | labels (names : List Str)
  | edges (names : List (Str × Str)) (colour : Str)
  deriving DecidableEq, Repr

/-- hyper_path.py:505, 512, 521-522: the text that stands for a node -/
def plotName : ENode K → Str
  | .city c => c.node.name
  | .stop s => s.mode.name ++ (" - ".toList ++ s.city.node.name)
  | .route n => n.route.id ++ (' ' :: (dirText n.dir ++ (" - ".toList ++ n.stop.city.node.name)))

/-- hyper_path.py:497-500: the four lists -/
structure PathLists where
  cities : List Str
  stops : List Str
  lines : List Str
  edges : List (Str × Str)
  deriving DecidableEq, Repr

/-- hyper_path.py:505, 512, 521: the name is appended to the list of its class -/
def addName (l : PathLists) : ENode K → PathLists
  | .city c => { l with cities := l.cities ++ [plotName (.city c)] }
  | .stop s => { l with stops := l.stops ++ [plotName (.stop s)] }
  | .route n => { l with lines := l.lines ++ [plotName (.route n)] }

/-- hyper_path.py:506-510, 513-518, 523-530: the edge from `prev_node`, unless that is `None` -/
def addArrow (l : PathLists) (prev : Option Str) (name : Str) : PathLists :=
  match prev with
  | none => l
  | some p => { l with edges := l.edges ++ [(p, name)] }

/-- hyper_path.py:504-530: one pass of the loop over a path; the lists and `prev_node` -/
def plotNode (a : PathLists × Option Str) (x : ENode K) : PathLists × Option Str :=
  (addArrow (addName a.1 x) a.2 (plotName x), some (plotName x))

/-- hyper_path.py:502-530: one path -/
def plotPath (l : PathLists) (p : List (ENode K)) : PathLists := (p.foldl plotNode (l, none)).1

/-- hyper_path.py:501-530: the paths of one stop -/
def plotStop (l : PathLists) (q : StopNode K × List (List (ENode K))) : PathLists := q.2.foldl plotPath l

/-- `list.append` when the element is not there yet -/
def addNew (l : List Str) (a : Str) : List Str := if a ∈ l then l else l ++ [a]

/-- hyper_path.py:532-536: the nodes of `G`, in the order in which they were added -/
def graphNames (l : PathLists) : List Str :=
  l.edges.foldl (fun m p => addNew (addNew m p.1) p.2) (l.lines.foldl addNew (l.stops.foldl addNew (l.cities.foldl addNew [])))

/-- hyper_path.py:490-560 `Hyperpath.plot`: the calls in order -/
def plotPaths (paths : Dict (StopNode K) (List (List (ENode K)))) : List PathCall :=
  let l := paths.foldl plotStop ⟨[], [], [], []⟩
  [.nodes l.cities "yellow".toList, .nodes l.stops "red".toList, .nodes l.lines "green".toList, .labels (graphNames l),
    .edges l.edges "orange".toList]

end Sidermit
