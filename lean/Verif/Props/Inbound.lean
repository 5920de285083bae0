import Verif.Props.Network
import Mathlib.Data.Fintype.EquivFin

/-!
C27, how far the way back is left open: `add_route` never looks at it.
-/

namespace Sidermit

set_option linter.unusedSectionVars false

variable {K : Type} [DecidableEq K]

/-- C27 fails wherever it can: whether a route is accepted, and with which exception it is refused, does not depend on its
way back nor on its stops; and the way back is stored as it is given. -/
theorem C27_way_back_never_read {g : Graph K} {s : Network K} (h : Network.Reachable g s) (r : Route K)
    (nr si sr : List Int) :
    (s.addRoute { r with nodesR := nr, stopsI := si, stopsR := sr }).2 = (s.addRoute r).2 ∧
    ((s.addRoute r).2 = none → (s.addRoute { r with nodesR := nr, stopsI := si, stopsR := sr }).1.routes =
      s.routes ++ [{ r with nodesR := nr, stopsI := si, stopsR := sr }]) := by
  have key : (s.addRoute { r with nodesR := nr, stopsI := si, stopsR := sr }).2 = (s.addRoute r).2 := by
    rw [addRoute_eq h.wf.modes, addRoute_eq h.wf.modes]
    simp only
    repeat' split
    all_goals rfl
  refine ⟨key, fun hn => ?_⟩
  exact ((C26_add_route h { r with nodesR := nr, stopsI := si, stopsR := sr }).2.1 (key.trans hn)).2.2.1

/-- A custom route is accepted by its constructor with any other way back that has no loops and joins the same ends. -/
theorem C27_any_way_back {id : Str} {mode : Mode K} {nodesI nodesR stopsI stopsR : Option Str} {r : Route K}
    (h : mkRoute (some id) mode nodesI nodesR stopsI stopsR = .ok r) (l : List Int) (hl : l.Nodup)
    (hf : l.head? = r.nodesI.getLast?) (he : l.getLast? = r.nodesI.head?) :
    mkRoute (some id) mode nodesI (some (sequencesToString l)) stopsI (some (sequencesToString l)) =
      .ok { r with nodesR := l, stopsR := l } := by
  obtain ⟨h1, h2, h3, h4, _, h6, _, hc⟩ := (C23_custom_route_exact _ _ _ _ _ _ _).1 h
  have hne : l ≠ [] := by
    rintro rfl
    rw [List.head?_nil, eq_comm, List.getLast?_eq_none_iff] at hf
    exact hc.nonemptyI hf
  exact (C23_custom_route_exact _ _ _ _ _ _ _).2 ⟨h1, h2, h3, h4, C22_sequence_round_trip _, h6, C22_sequence_round_trip _,
    ⟨hc.nonemptyI, hne, he.symm, hf, hc.stopsI_on, fun _ hs => hs, hc.firstI, hc.lastI, rfl, rfl, hc.noloopI, hl⟩⟩

theorem way_back_of_one_node {g : Graph K} {ni l si sr : List Int} (hc : CustomOk ni l si sr) (h : ni.length ≤ 1) :
    OnStreets g l := by
  have hpos := List.length_pos_iff.2 hc.nonemptyI
  obtain ⟨a, rfl⟩ := List.length_eq_one_iff.1 (show ni.length = 1 by omega)
  have e1 : l.head? = some a := by simpa using hc.cycle_end
  have e2 : l.getLast? = some a := by simpa using hc.cycle_start.symm
  have hnd := hc.noloopR
  rcases l with _ | ⟨b, _ | ⟨c, t⟩⟩
  · simp at e1
  · exact fun p hp => by simp [pairs] at hp
  · have hb : b = a := by simpa using e1
    rw [List.getLast?_cons_cons] at e2
    exact absurd (hb ▸ List.mem_of_getLast? e2) (List.nodup_cons.1 hnd).1

/-- C27, exactly where it holds: of a custom route that a network accepts, some variant with the same way out is accepted
by the constructor and by the network though its way back uses no streets (and passes where the city has no node) exactly
when the route has two nodes or more. -/
theorem C27_bad_way_back_iff {g : Graph K} {s : Network K} (hs : Network.Reachable g s) {id : Str} {mode : Mode K}
    {nodesI nodesR stopsI stopsR : Option Str} {r : Route K}
    (h : mkRoute (some id) mode nodesI nodesR stopsI stopsR = .ok r) (hadd : (s.addRoute r).2 = none) :
    (∃ l : List Int, mkRoute (some id) mode nodesI (some (sequencesToString l)) stopsI (some (sequencesToString l)) =
        .ok { r with nodesR := l, stopsR := l } ∧
      (s.addRoute { r with nodesR := l, stopsR := l }).2 = none ∧ ¬ OnStreets g l ∧
      ∃ x ∈ l, ∀ nd ∈ g.nodes, nd.id ≠ x) ↔ 2 ≤ r.nodesI.length := by
  obtain ⟨h1, h2, h3, h4, h5, h6, h7, hc⟩ := (C23_custom_route_exact _ _ _ _ _ _ _).1 h
  constructor
  · rintro ⟨l, hok, _, hst, _⟩
    have hc' := ((C23_custom_route_exact _ _ _ _ _ _ _).1 hok).2.2.2.2.2.2.2
    by_contra hlen
    exact hst (way_back_of_one_node hc' (by show r.nodesI.length ≤ 1; omega))
  · intro hlen
    obtain ⟨x, hx⟩ := Infinite.exists_notMem_finset (r.nodesI ++ g.nodes.map Node.id).toFinset
    simp only [List.mem_toFinset, List.mem_append, not_or] at hx
    obtain ⟨a, t, hI⟩ := List.exists_cons_of_ne_nil hc.nonemptyI
    have ht : t ≠ [] := by
      rintro rfl
      rw [hI] at hlen
      simp at hlen
    have hla : r.nodesI.getLast? = some (t.getLast ht) := by
      rw [hI, List.getLast?_cons, List.getLast?_eq_some_getLast ht]; rfl
    have hmem : t.getLast ht ∈ t := List.getLast_mem ht
    have hnd := hc.noloopI
    rw [hI, List.nodup_cons] at hnd
    rw [hI, List.mem_cons, not_or] at hx
    have hba : t.getLast ht ≠ a := fun e => hnd.1 (e ▸ hmem)
    have hbx : t.getLast ht ≠ x := fun e => hx.1.2 (e ▸ hmem)
    refine ⟨[t.getLast ht, x, a], C27_any_way_back h _ ?_ ?_ ?_, ?_, ?_, x, by simp, ?_⟩
    · simp [hba, hbx, hx.1.1]
    · rw [hla]; rfl
    · rw [hI]; rfl
    · exact (C27_way_back_never_read hs r _ r.stopsI _).1.trans hadd
    · intro hst
      have := hst (t.getLast ht, x) (by simp [pairs])
      obtain ⟨_, nd, hnd', e⟩ := edgeExist_nodes this
      exact hx.2 (List.mem_map.2 ⟨nd, hnd', e⟩)
    · intro nd hnd' e
      exact hx.2 (List.mem_map.2 ⟨nd, hnd', e⟩)

/-- in every city with a zone, the line from the periphery to the centre may come back where there is no node -/
example {g : Graph K} {n : Nat} (hs : CityShape g n) (hd : DistinctIds g) (hn : 1 ≤ n) (id : Str) (m : Mode K) :
    ∃ (l : List Int) (r : Route K), ((Network.init g).addRoute r).2 = none ∧ r.nodesR = l ∧ ∃ x ∈ l, ∀ nd ∈ g.nodes, nd.id ≠ x := by
  obtain ⟨r, ⟨a, b, c, d, hr⟩, hadd, _, hbad⟩ := C27_inbound_streets_not_checked hs hd hn id m
  have hlen : 2 ≤ r.nodesI.length := by
    by_contra hlen
    exact hbad (way_back_of_one_node ((C23_custom_route_exact _ _ _ _ _ _ _).1 hr).2.2.2.2.2.2.2 (by omega))
  obtain ⟨l, _, hok, _, hx⟩ := (C27_bad_way_back_iff .init hr hadd).2 hlen
  exact ⟨l, _, hok, rfl, hx⟩

end Sidermit
