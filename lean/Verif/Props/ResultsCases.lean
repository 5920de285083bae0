import Verif.Props.Results

/-!
C60: concrete networks that meet the hypotheses of the theorems of `Props/Results`, and the cases they exclude.
-/

namespace Sidermit

section Examples

attribute [local instance] ratMath ratText

/-- an optimizer for trips and lines in the city of three zones -/
def runOpt (d : Demand ℚ) (net : Network ℚ) : Optimizer ℚ := ((Optimizer.prepare (demoCity 3) d demoFair net none).toOption).getD
  ⟨demoCity 3, d, demoFair, net, [], [], [], ⟨[], []⟩, []⟩

/-- a result with the frequencies `x` -/
def runRes (x : List ℚ) : Res ℚ := ⟨x, some true, 1, [], 0, (1 : ℚ)⟩

/-- frequencies, optimizer and tables of the last iteration -/
def runLast (d : Demand ℚ) (net : Network ℚ) (x : List ℚ) : Dict Str ℚ × Optimizer ℚ × Loads ℚ :=
  (((runOpt d net).lastIteration (runRes x)).toOption).getD ([], runOpt d net, ⟨[], [], []⟩)

def runRows (d : Demand ℚ) (net : Network ℚ) (x : List ℚ) : Py (List (Row ℚ)) :=
  (runLast d net x).2.1.rows (runLast d net x).1 (runLast d net x).2.2

theorem runBuilt (d : Demand ℚ) (net : Network ℚ)
    (h : (Optimizer.prepare (demoCity 3) d demoFair net none).toOption.isSome = true) (hids : (net.routes.map Route.id).Nodup)
    (hm : ∀ r ∈ net.routes, 0 ≤ r.mode.tat ∧ 0 < r.mode.theta ∧ 0 < r.mode.v ∧ 0 < (r.mode.d : ℚ))
    (hf : ∀ r ∈ net.routes, 0 ≤ r.mode.fini) : Built (demoCity 3) d demoFair net none (runOpt d net) := by
  refine ⟨isOk_of_toOption _ h, hids, ?_, demoShape.2, by norm_num [demoFair, demoPassenger]⟩
  refine ⟨fun r hr => ⟨(hm r hr).1, (hm r hr).2.1, (hm r hr).2.2.1, (hm r hr).2.2.2⟩, ?_, by norm_num [demoFair, demoPassenger],
    demoAdmissible.root, by norm_num [demoFair, demoPassenger], by norm_num [demoFair, demoPassenger],
    by norm_num [demoFair, demoPassenger]⟩
  intro r hr
  show 0 ≤ (f0 net.routes none).f.getD r.id 0
  rw [Dict.getD, (C54_start hids none).2.2.2.1 rfl r hr]
  exact hf r hr

theorem runLastRun {d : Demand ℚ} {net : Network ℚ} {x : List ℚ} (hb : Built (demoCity 3) d demoFair net none (runOpt d net))
    (h : ((runOpt d net).lastIteration (runRes x)).toOption.isSome = true) (hlen : x.length = net.routes.length)
    (hx : ∀ c ∈ x, 0 ≤ c) :
    LastRun (demoCity 3) d demoFair net (runLast d net x).1 (runLast d net x).2.1 (runLast d net x).2.2 :=
  (C60_last_iteration hb (res := runRes x) hlen hx (isOk_of_toOption _ h)).2

/-- the same two lines, with passengers boarding and alighting at the same time -/
def fairNet : Network ℚ :=
  let rs := demoBuses.map fun r => { r with mode := { r.mode with bya := 1 } }
  ⟨demoCity 3, rs, rs.map Route.id, [{ demoMode with bya := 1 }]⟩

theorem demoSensible (d : Demand ℚ) (h : ∀ p ∈ d.matrix, ∀ q ∈ p.2, 0 ≤ q.2) : Sensible (demoCity 3) d demoFair :=
  ⟨h, by decide +kernel, by norm_num [demoFair, demoPassenger]⟩

theorem ridesFrom_iff {load : Dict (LoadKey ℚ) ℚ} {id : Str} {D : Dir} {b : Int} :
    RidesFrom load id D b ↔ ∃ k ∈ Dict.keys load, k.1 = id ∧ k.2.1 = D ∧ k.2.2.city.node.id = b := by
  constructor
  · rintro ⟨s, h, hb⟩; exact ⟨_, h, rfl, rfl, hb⟩
  · rintro ⟨⟨_, _, s⟩, h, rfl, rfl, hb⟩; exact ⟨s, h, hb⟩

/-- the node of the extended graph at position `pos` of a line -/
def demoNode (net : Network ℚ) (ridx : Nat) (D : Dir) (pos : Nat) : Option (RouteNode ℚ) := do
  let r ← net.routes[ridx]?
  let id ← (r.stopsOf D)[pos]?
  let nd ← (demoCity 3).nodes[id.toNat]?
  some ⟨ridx, r, D, pos, ⟨r.mode, ⟨id.toNat, nd⟩⟩⟩

/-- C60: the table of the two lines: 7 passengers in a vehicle of the first from 1 to 2, of which 5/14 stay until 0.  (The facts
that need the whole computation are together, for it to be done once.) -/
theorem fairFacts : ((runOpt busDemand fairNet).lastIteration (runRes [2, 3])).toOption.isSome = true ∧
    runRows busDemand fairNet [2, 3] = .ok
      [⟨"a".toList, 2, 2, 7, 679/225, 1358/15, 7469/1800, (0 : ℚ), [(1, 2, 1), (2, 0, 5/14)], [(0, 2, 0), (2, 1, 1/7)]⟩,
       ⟨"c".toList, 3, 3, 2, 451/150, 902/15, 451/175, (1/3 : ℚ), [(2, 4, 1), (4, 6, 1/3), (6, 2, 1/3)], []⟩] ∧
    (runLast busDemand fairNet [2, 3]).1.getD "a".toList 0 = 2 ∧ (runLast busDemand fairNet [2, 3]).1.getD "c".toList 0 = 3 ∧
    (∀ b ∈ [2, 4, 6, 2], ∃ k ∈ Dict.keys (runLast busDemand fairNet [2, 3]).2.2.load, k.1 = "c".toList ∧ k.2.1 = .I ∧
      k.2.2.city.node.id = b) ∧
    (runLast busDemand fairNet [2, 3]).2.2.z.getD ((demoNode fairNet 1 .I 3).get (by decide +kernel)).key 0 ≠ 0 := by
  decide +kernel

theorem fairRun : LastRun (demoCity 3) busDemand demoFair fairNet (runLast busDemand fairNet [2, 3]).1
    (runLast busDemand fairNet [2, 3]).2.1 (runLast busDemand fairNet [2, 3]).2.2 :=
  runLastRun (runBuilt _ _ (by decide +kernel) (by decide +kernel) (by decide +kernel) (by decide +kernel)) fairFacts.1
    (by decide +kernel) (by decide +kernel)

theorem demoOnce {rs : List (Route ℚ)} (hids : (rs.map Route.id).Nodup) (h : ∀ r ∈ rs, ∀ d ∈ [Dir.I, Dir.R],
    if r.type = .circular then (r.stopsOf d).tail.Nodup else (r.stopsOf d).Nodup) : StopsOnce rs :=
  StopsOnce.of_nodup hids fun r hr d => h r hr d (by cases d <;> simp)

theorem demoInOrder {r : Route ℚ} (ht : r.type ≠ .circular) (h : ∀ d ∈ [Dir.I, Dir.R], (r.nodesOf d).Nodup ∧
    (r.stopsOf d).Sublist (r.nodesOf d)) : r.InOrder :=
  ⟨ht, fun d => (h d (by cases d <;> simp)).1, fun d => (h d (by cases d <;> simp)).2⟩

/-- the nodes with the given ids -/
def demoWay (ids : List Int) : List (Node ℚ) := ids.filterMap fun a => (demoCity 3).nodes.find? fun n => n.id = a

theorem demoLayout {net : Network ℚ} (hb : ∀ r ∈ net.routes, r.mode.bya = 0 ∨ r.mode.bya = 1)
    (h : ∀ r ∈ net.routes, ((demoWay r.nodesI).map Node.id = r.nodesI ∧ OnStreets (demoCity 3) r.nodesI) ∧
      (demoWay r.nodesR).map Node.id = r.nodesR ∧ OnStreets (demoCity 3) r.nodesR) :
    Layout (demoCity 3) net 3 (fun r => demoWay r.nodesI) (fun r => demoWay r.nodesR) := by
  have hw : ∀ ids, ∀ a ∈ demoWay ids, a ∈ (demoCity 3).nodes := by
    intro ids a ha
    obtain ⟨_, _, hf⟩ := List.mem_filterMap.1 ha
    exact List.mem_of_find?_eq_some hf
  exact ⟨demoShape.1, hb, fun r hr => ⟨hw _, (h r hr).1⟩, fun r hr => ⟨hw _, (h r hr).2⟩⟩

/-- C60: the hypotheses of the theorems hold there: for the line that is not circular, -/
example : Sensible (demoCity 3) busDemand demoFair ∧ StopsOnce fairNet.routes ∧
    Layout (demoCity 3) fairNet 3 (fun r => demoWay r.nodesI) (fun r => demoWay r.nodesR) ∧
    ∃ r, fairNet.routes[0]? = some r ∧ r.InOrder ∧ r.Shown (demoCity 3) fairNet.routes (runLast busDemand fairNet [2, 3]).2.2 ∧
    (runLast busDemand fairNet [2, 3]).1.getD r.id 0 ≠ 0 :=
  ⟨demoSensible _ (by decide +kernel), demoOnce (by decide +kernel) (by decide +kernel),
    demoLayout (by decide +kernel) (by decide +kernel), _, rfl, demoInOrder (by decide) (by decide), Or.inl rfl,
    fairFacts.2.2.1.trans_ne (by norm_num)⟩

/-- C60: ... and for the circular one, where passengers ride on all sections -/
example : ∃ r, fairNet.routes[1]? = some r ∧ r.Ring .I 2 [4, 6, 2] ∧ (runLast busDemand fairNet [2, 3]).1.getD r.id 0 ≠ 0 ∧
    (∀ b ∈ r.nodesOf .I, RidesFrom (runLast busDemand fairNet [2, 3]).2.2.load r.id .I b) := by
  refine ⟨_, rfl, ⟨rfl, rfl, rfl, by decide, ?_, by decide⟩, fairFacts.2.2.2.1.trans_ne (by norm_num),
    fun b hb => ridesFrom_iff.2 (fairFacts.2.2.2.2.1 b hb)⟩
  intro D' h; cases D'
  · exact absurd rfl h
  · exact ⟨rfl, rfl⟩

/-- C60: in `C60_circular_cost`, the node where the circular line begins, where passengers board -/
example : ∃ n, demoNode fairNet 1 .I 3 = some n ∧ n.Wanted (demoCity 3) fairNet.routes ∧ fairNet.routes[1]? = some n.route ∧
    n.stop.city.node.id = 2 ∧ (runLast busDemand fairNet [2, 3]).2.2.z.getD n.key 0 ≠ 0 := by
  refine ⟨(demoNode fairNet 1 .I 3).get (by decide +kernel), (Option.some_get _).symm, ⟨?_, ?_, ?_, ?_⟩, ?_, ?_, ?_⟩
  · decide +kernel
  · unfold Route.NodeAt; decide +kernel
  · decide +kernel
  · unfold CityNode.In; decide +kernel
  · decide +kernel
  · decide +kernel
  · exact fairFacts.2.2.2.2.2

theorem busFacts : ((runOpt busDemand busNet).lastIteration (runRes [2, 3])).toOption.isSome = true ∧
    (runLast busDemand busNet [2, 3]).2.2.load.getD ((demoNode busNet 0 .I 1).get (by decide +kernel)).key 0 = 5 / 14 * 7 ∧
    ((runRows busDemand busNet [2, 3]).toOption.bind fun rows => rows[0]?) = some
      ⟨"a".toList, 2, 2, 7, 679/225, 1358/15, 7469/1800, (0 : ℚ), [(1, 2, 1), (2, 0, 1)], [(0, 2, 0), (2, 1, 1/7)]⟩ := by
  decide +kernel

/-- C60: without boarding and alighting at the same time, the same passengers: the vehicles of the first line are reported full
from 2 to 0, though of the 7 passengers only 5/2 are there -/
theorem C60_alighting_missed : ∃ (n : RouteNode ℚ) (row : Row ℚ), n.Wanted (demoCity 3) busNet.routes ∧ n.ridx = 0 ∧ n.dir = .I ∧
    n.stop.city.node.id = 2 ∧ ((runOpt busDemand busNet).lastIteration (runRes [2, 3])).toOption.isSome = true ∧
    ((runRows busDemand busNet [2, 3]).toOption.bind fun rows => rows[0]?) = some row ∧
    row.tableI = [(1, 2, 1), (2, 0, 1)] ∧ (runLast busDemand busNet [2, 3]).2.2.load.getD n.key 0 = 5 / 14 * row.k ∧ row.k = 7 := by
  refine ⟨(demoNode busNet 0 .I 1).get (by decide +kernel), _, ⟨?_, ?_, ?_, ?_⟩, ?_, ?_, ?_, busFacts.1, busFacts.2.2, rfl, busFacts.2.1,
    rfl⟩
  · decide +kernel
  · unfold Route.NodeAt; decide +kernel
  · decide +kernel
  · unfold CityNode.In; decide +kernel
  · decide +kernel
  · decide +kernel
  · decide +kernel

def lineDemand : Demand ℚ := ⟨demoCity 3, [(1, [(2, 3), (0, 5)]), (0, [(1, 2)])], 10⟩

/-- two lines in both directions -/
def twoNet : Network ℚ :=
  let rs := fairNet.routes.take 1 ++ [⟨"e".toList, { demoMode with bya := 1 }, [0, 4], [4, 0], [0, 4], [4, 0], .custom⟩]
  ⟨demoCity 3, rs, rs.map Route.id, fairNet.modes⟩

/-- C60: the second of these lines does not run -/
theorem twoFacts : ((runOpt lineDemand twoNet).lastIteration (runRes [2, 0])).toOption.isSome = true ∧
    runRows lineDemand twoNet [2, 0] = .ok
      [⟨"a".toList, 2, 2, 4, 271/90, 271/3, 1084/225, (1/4 : ℚ), [(1, 2, 1), (2, 0, 5/8)], [(0, 2, 1/4), (2, 1, 1/4)]⟩,
       ⟨"e".toList, 0, 0, 0, 0, 0, 0, (0 : ℚ), [(0, 4, 0)], [(4, 0, 0)]⟩] := by decide +kernel

/-- C60: a line that runs empty ends the computation -/
theorem C60_empty_line : ((runOpt lineDemand twoNet).lastIteration (runRes [2, 3])).toOption.isSome = true ∧
    runRows lineDemand twoNet [2, 3] = .error .ZeroDivisionError := by decide +kernel

theorem twoRun (x : List ℚ) (h : x = [2, 0] ∨ x = [2, 3]) : LastRun (demoCity 3) lineDemand demoFair twoNet
    (runLast lineDemand twoNet x).1 (runLast lineDemand twoNet x).2.1 (runLast lineDemand twoNet x).2.2 := by
  refine runLastRun (runBuilt _ _ (by decide +kernel) (by decide +kernel) (by decide +kernel) (by decide +kernel)) ?_ ?_ ?_
  · rcases h with rfl | rfl
    · exact twoFacts.1
    · exact C60_empty_line.1
  · rcases h with rfl | rfl <;> decide +kernel
  · rcases h with rfl | rfl <;> decide +kernel

/-- C60: the hypotheses for a network without circular lines -/
example : Sensible (demoCity 3) lineDemand demoFair ∧ StopsOnce twoNet.routes ∧
    Layout (demoCity 3) twoNet 3 (fun r => demoWay r.nodesI) (fun r => demoWay r.nodesR) ∧ ∀ r ∈ twoNet.routes, r.InOrder := by
  refine ⟨demoSensible _ (by decide +kernel), demoOnce (by decide +kernel) (by decide +kernel),
    demoLayout (by decide +kernel) (by decide +kernel), ?_⟩
  have : ∀ r ∈ twoNet.routes, r.type ≠ .circular ∧ ∀ d ∈ [Dir.I, Dir.R], (r.nodesOf d).Nodup ∧
    (r.stopsOf d).Sublist (r.nodesOf d) := by decide +kernel
  exact fun r hr => demoInOrder (this r hr).1 (this r hr).2

/-- a circular line nobody needs -/
def ringNet (stops : List Int) : Network ℚ :=
  let rs := fairNet.routes.take 1 ++ [⟨"c".toList, { demoMode with bya := 1 }, [2, 4, 6, 2], [], stops, [], .circular⟩]
  ⟨demoCity 3, rs, rs.map Route.id, fairNet.modes⟩

theorem ringRing : (⟨"c".toList, { demoMode with bya := 1 }, [2, 4, 6, 2], [], [2, 4, 2], [], .circular⟩ : Route ℚ).Ring .I 2 [4, 6, 2] ∧
    (⟨"c".toList, { demoMode with bya := 1 }, [2, 4, 6, 2], [], [2, 4, 6, 2], [], .circular⟩ : Route ℚ).Ring .I 2 [4, 6, 2] := by
  refine ⟨⟨rfl, rfl, rfl, by decide, ?_, by decide⟩, rfl, rfl, rfl, by decide, ?_, by decide⟩ <;>
  · intro D' h; cases D'
    · exact absurd rfl h
    · exact ⟨rfl, rfl⟩

/-- C60: the line that carries nobody is reported full -/
theorem C60_empty_ring_full : ((runOpt lineDemand (ringNet [2, 4, 6, 2])).lastIteration (runRes [2, 3])).toOption.isSome = true ∧
    ((runRows lineDemand (ringNet [2, 4, 6, 2]) [2, 3]).toOption.bind fun rows => rows[1]?) =
      some ⟨"c".toList, 3, 3, 0, 3, 60, 0, (0 : ℚ), [(2, 4, 1), (4, 6, 1), (6, 2, 1)], []⟩ ∧
    (runLast lineDemand (ringNet [2, 4, 6, 2]) [2, 3]).1.getD "c".toList 0 ≠ 0 ∧
    ∀ b ∈ [2, 4, 6, 2], ¬ ∃ k ∈ Dict.keys (runLast lineDemand (ringNet [2, 4, 6, 2]) [2, 3]).2.2.load, k.1 = "c".toList ∧
      k.2.1 = .I ∧ k.2.2.city.node.id = b := by decide +kernel

/-- C60: the hypotheses of `C60_circular_empty` -/
example : ∃ r, (ringNet [2, 4, 6, 2]).routes[1]? = some r ∧ r.Ring .I 2 [4, 6, 2] ∧
    (runLast lineDemand (ringNet [2, 4, 6, 2]) [2, 3]).1.getD r.id 0 ≠ 0 ∧
    (∀ b ∈ r.nodesOf .I, ¬ RidesFrom (runLast lineDemand (ringNet [2, 4, 6, 2]) [2, 3]).2.2.load r.id .I b) :=
  ⟨_, rfl, ringRing.2, C60_empty_ring_full.2.2.1, fun b hb h => C60_empty_ring_full.2.2.2 b hb (ridesFrom_iff.1 h)⟩

/-- C60: a circular line that does not stop at one of its nodes has no table -/
theorem C60_ring_without_stop : ((runOpt busDemand (ringNet [2, 4, 2])).lastIteration (runRes [2, 3])).toOption.isSome = true ∧
    runRows busDemand (ringNet [2, 4, 2]) [2, 3] = .error .IndexError ∧
    (runLast busDemand (ringNet [2, 4, 2]) [2, 3]).1.getD "c".toList 0 ≠ 0 ∧
    fullest (runLast busDemand (ringNet [2, 4, 2]) [2, 3]).2.2.load "c".toList ≠ 0 ∧
    ¬ ∃ k ∈ Dict.keys (runLast busDemand (ringNet [2, 4, 2]) [2, 3]).2.2.load, k.1 = "c".toList ∧ k.2.1 = .I ∧
      k.2.2.city.node.id = 6 := by decide +kernel

/-- C60: the hypotheses of `C60_circular_fails` -/
example : ∃ r, (ringNet [2, 4, 2]).routes[1]? = some r ∧ r.Ring .I 2 [4, 6, 2] ∧
    (runLast busDemand (ringNet [2, 4, 2]) [2, 3]).1.getD r.id 0 ≠ 0 ∧
    fullest (runLast busDemand (ringNet [2, 4, 2]) [2, 3]).2.2.load r.id ≠ 0 ∧
    ∃ b ∈ r.nodesOf .I, ¬ RidesFrom (runLast busDemand (ringNet [2, 4, 2]) [2, 3]).2.2.load r.id .I b :=
  ⟨_, rfl, ringRing.1, C60_ring_without_stop.2.2.1, C60_ring_without_stop.2.2.2.1, 6, by decide,
    fun h => C60_ring_without_stop.2.2.2.2 (ridesFrom_iff.1 h)⟩

/-- C60: when a frequency is cut to zero and passengers cannot travel any more, there is no table either -/
theorem C60_unserved : ((runOpt busDemand fairNet).networkResults (some (runRes [2, 0]))) = .error .TransportNetwork := by decide +kernel

/-- C60: nor before a solution has been found -/
theorem C60_no_solution (o : Optimizer ℚ) : o.networkResults none = .error .NoOptimalSolutionFound := rfl

end Examples

end Sidermit
