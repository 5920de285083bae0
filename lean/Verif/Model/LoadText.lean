import Verif.Model.GraphText

/-!
Model of `Assignment.str_boarding_alighting` of `sidermit/optimization/preoptimization/assignment.py`.

The nested dictionaries are the tables of Model/Assignment: the routes are read in the order in which they first appear, then the
directions, then the stops.  `v[route_id]` of a route without entries is empty.
-/

namespace Sidermit

variable {K : Type}

/-- the different elements of a list, in the order in which they first appear -/
def firsts {α : Type} [DecidableEq α] (l : List α) : List α := l.foldl (fun acc a => if a ∈ acc then acc else acc ++ [a]) []

/-- `for route_id in table` -/
def routesIn (d : Dict (LoadKey K) K) : List Str := firsts ((Dict.keys d).map fun k => k.1)

/-- `for direction in table[route_id]` -/
def dirsIn (d : Dict (LoadKey K) K) (id : Str) : List Dir :=
  firsts (((Dict.keys d).filter fun k => decide (k.1 = id)).map fun k => k.2.1)

variable [Field K] [LinearOrder K] [FloorRing K]

/-- assignment.py:254-256 and 261-263 -/
def loadText (p : LoadKey K × K) : Str :=
  "\n\t\t\tStop ".toList ++ (p.1.2.2.mode.name ++ ('-' :: p.1.2.2.city.node.name ++ (": ".toList ++ (fixed 2 p.2 ++ "[pax/veh]".toList))))

/-- assignment.py:252-256 and 259-263: one pass of the loop over the directions -/
def dirLoadsText (d : Dict (LoadKey K) K) (id : Str) (dir : Dir) : Str :=
  "\n\t\tDirection: ".toList ++ (dirText dir ++
    (d.filter fun p => decide (p.1.1 = id ∧ p.1.2.1 = dir)).flatMap loadText)

/-- assignment.py:249-263: one pass of the loop over the routes -/
def routeLoadsText (z v : Dict (LoadKey K) K) (id : Str) : Str :=
  "\nNew route: ".toList ++ (id ++ ("\n\tBoarding:".toList ++ ((dirsIn z id).flatMap (dirLoadsText z id) ++
    ("\n\tAlighting:".toList ++ (dirsIn v id).flatMap (dirLoadsText v id)))))

/-- assignment.py:239-264 `str_boarding_alighting` -/
def loadsText (z v : Dict (LoadKey K) K) : Str :=
  "\nBoarding and Alighting information:".toList ++ (routesIn z).flatMap (routeLoadsText z v)

end Sidermit
