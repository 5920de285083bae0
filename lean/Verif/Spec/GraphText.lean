import Verif.Model.Report
import Verif.Spec.ExtGraph

/-!
The lines a description of the extended graph is expected to have: for each city node its stops, for each stop the access
time, and for each route node the frequency, the penalty of alighting and the way from the stop before.
-/

namespace Sidermit

variable {K : Type}

/-- a text of lines -/
def unlines (l : List Str) : Str := l.flatMap fun w => w ++ ['\n']

instance (n : RouteNode K) : Decidable n.CanBoard := by
  unfold RouteNode.CanBoard
  infer_instance

instance (n : RouteNode K) : Decidable n.CanAlight := by
  unfold RouteNode.CanAlight
  infer_instance

variable [Field K] [LinearOrder K] [FloorRing K] [NumText K]

/-- the lines of a route node: `freq` are the frequencies, `penalty` the minutes of a transfer and `time` the hours of a leg -/
def entryLines (freq : Dict Str K) (penalty : K) (time : RouteNode K → RouteNode K → K) (e : RouteEntry K) : List Str :=
  (if e.node.CanBoard then ["\t\t\tBoarding edge".toList,
    "\t\t\t-Frequency: ".toList ++ fixed 2 (freq.getD e.node.route.id 0 / (e.node.route.mode.d : K)) ++ " [veh/h]".toList]
  else []) ++
  (if e.node.CanAlight then ["\t\t\tAlighting edge".toList,
    "\t\t\t-Penalty transfer: ".toList ++ fixed 2 penalty ++ " [min]".toList] else []) ++
  ["\t\t\t\tRoute node".toList, "\t\t\t\t-Route_id: ".toList ++ e.node.route.id,
    "\t\t\t\t-Direction: ".toList ++ (match e.node.dir with | .I => ['I'] | .R => ['R']),
    "\t\t\t\t-Previous stop: ".toList ++ (match e.prev with | none => "no data".toList | some p => p.stop.city.node.name),
    "\t\t\t\t-Time to previous stop: ".toList ++
      (match e.prev with | none => "0.00".toList | some p => NumText.fmt (time p e.node)) ++ " [hrs]".toList]

/-- the lines of a stop; `access` is the access time to write beside a mode -/
def stopLines (access : Mode K → K) (freq : Dict Str K) (penalty : K) (time : RouteNode K → RouteNode K → K)
    (q : StopNode K × List (RouteEntry K)) : List Str :=
  ["\tAccess edge".toList, "\t-Access time: ".toList ++ fixed 2 (access q.1.mode) ++ " [min]".toList,
    "\t\tStop node".toList, "\t\t-Mode name: ".toList ++ q.1.mode.name] ++ q.2.flatMap (entryLines freq penalty time)

/-- all the lines -/
def outline (access : Mode K → K) (freq : Dict Str K) (penalty : K) (time : RouteNode K → RouteNode K → K)
    (nodes : ENodes K) : List Str :=
  nodes.flatMap fun p => ["City node".toList, "-Graph node name: ".toList ++ p.1.node.name] ++
    p.2.flatMap (stopLines access freq penalty time)

end Sidermit
