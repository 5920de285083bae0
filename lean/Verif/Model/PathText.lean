import Verif.Model.GraphText

/-!
Model of the reports `string_hyperpath_graph`, `string_hyperpaths_OD` and `string_all_hyperpaths` of
`sidermit/optimization/preoptimization/hyper_path.py`.

The dictionaries of `get_all_hyperpaths` are the list of its pairs: every pair with trips has an entry after the validation, and
the rows and columns of a matrix have different names.
-/

namespace Sidermit

variable {K : Type} [Field K] [LinearOrder K] [FloorRing K]

/-! ### the graph of a pair -/

/-- hyper_path.py:281-294: the end of an edge -/
def endText : ENode K → Str
  | .city c => "Citynode: ".toList ++ c.node.name
  | .stop s => "Stopnode ".toList ++ (s.mode.name ++ (": ".toList ++ s.city.node.name))
  | .route n => "Routenode ".toList ++ (n.route.id ++ (' ' :: dirText n.dir ++ (": ".toList ++ n.stop.city.node.name)))

/-- the text of a member of `ExtendedEdgesType` (extended_graph.py:98-107) -/
def typeText : EType → Str
  | .access => "ExtendedEdgesType.ACCESS".toList
  | .boarding => "ExtendedEdgesType.BOARDING".toList
  | .alighting => "ExtendedEdgesType.ALIGHTING".toList
  | .route => "ExtendedEdgesType.ROUTE".toList

/-- hyper_path.py:276-296: the successors of a node -/
def succText (e : EEdge K) : Str :=
  '[' :: (typeText e.type ++ (": ".toList ++ (endText e.i ++ (" - ".toList ++ (endText e.j ++ "] ".toList)))))

/-- hyper_path.py:298-307: the name of a node -/
def headText : ENode K → Str
  | .city c => "City_node\n\t-Graph_node_name: ".toList ++ c.node.name
  | .stop s => "Stop_node\n\t-Mode_name: ".toList ++ (s.mode.name ++ ("\n\t-Graph_node_name: ".toList ++ s.city.node.name))
  | .route n => "Route_node\n\t-route_id: ".toList ++ (n.route.id ++ ("\n\t-direction: ".toList ++ (dirText n.dir ++
      ("\n\t-Graph_node_name: ".toList ++ n.stop.city.node.name))))

/-- hyper_path.py:270-307: one pass of the loop over the nodes -/
def hyperNodeText (r : HResult K) (x : ENode K) : Str :=
  headText x ++ ("\n\t-label: ".toList ++ (fixedTop 2 (r.label x) ++ ("\n\t-Successor: ".toList ++ ((r.succ x).flatMap succText ++
    ("\n\t-Frequencies: ".toList ++ (fixed 2 (r.freq x) ++ ['\n']))))))

/-- hyper_path.py:257-308 `string_hyperpath_graph` -/
def hyperText (nodes : ENodes K) (r : HResult K) : Str :=
  "HyperPath Graph\n".toList ++ (allNodes nodes).flatMap (hyperNodeText r)

/-! ### the itineraries of a pair -/

/-- hyper_path.py:382-390: a node of a path -/
def pathNodeText (label : ENode K → WithTop K) (x : ENode K) : Str :=
  match x with
  | .city c => "[City_node ".toList ++ (c.node.name ++ (": ".toList ++ (fixedTop 4 (label x) ++ "]\n\t\t".toList)))
  | .stop s => "[Stop_node ".toList ++ (s.mode.name ++ (" - ".toList ++ (s.city.node.name ++ (": ".toList ++
      (fixedTop 4 (label x) ++ "]\n\t\t".toList)))))
  | .route n => "[Route_node ".toList ++ (n.route.id ++ (' ' :: dirText n.dir ++ (" - ".toList ++ (n.stop.city.node.name ++
      (": ".toList ++ (fixedTop 4 (label x) ++ "]\n\t\t".toList))))))

/-- hyper_path.py:379-390: a path -/
def pathText (label : ENode K → WithTop K) (p : List (ENode K)) : Str :=
  "\n\tNew Path:\n\t\t".toList ++ p.flatMap (pathNodeText label)

/-- hyper_path.py:377-390: a stop of the origin -/
def stopPathsText (label : ENode K → WithTop K) (q : StopNode K × List (List (ENode K))) : Str :=
  '\n' :: (q.1.mode.name ++ (" stop\n".toList ++ q.2.flatMap (pathText label)))

/-- hyper_path.py:366-391 `string_hyperpaths_OD` -/
def pathsText (paths : Dict (StopNode K) (List (List (ENode K)))) (label : ENode K → WithTop K) : Str :=
  paths.flatMap (stopPathsText label)

/-! ### the summary of all pairs -/

/-- hyper_path.py:479-485: a stop of the origin of a pair -/
def pairText (r : ODResult K) (q : StopNode K × List (List (ENode K))) : Str :=
  "origin: ".toList ++ (r.origin.node.name ++ (", destination: ".toList ++ (r.dest.node.name ++ (", vij: ".toList ++
    (fixed 2 r.vij ++ ("\n\t mode: ".toList ++ (q.1.mode.name ++ (", label: ".toList ++ (fixedTop 2 (r.res.label (.stop q.1)) ++
      (" [EIV], n° elemental paths: ".toList ++ (showInt q.2.length ++ (", n° elemental paths (successors): ".toList ++
        (showInt (r.res.succ (.stop q.1)).length ++ ['\n'])))))))))))))

/-- hyper_path.py:462-487 `string_all_hyperpaths` -/
def summaryText (l : List (ODResult K)) : Str := '\n' :: l.flatMap fun r => r.paths.flatMap (pairText r)

end Sidermit
