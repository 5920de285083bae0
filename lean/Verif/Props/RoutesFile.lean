import Verif.Proofs.RoutesFile
import Verif.Proofs.Families

/-!
Property C64: the file of the routes of a network.
-/

set_option linter.unusedSectionVars false
set_option linter.unusedVariables false

namespace Sidermit

variable {K : Type}

/-- C64: whatever the ids of the routes and the names of the modes are, the file is a table with the documented columns and
one row per route, in the order of the network, from which the id, the name of the mode and the four sequences are read
back. -/
theorem C64_file (s : Network K) :
    ∃ rows, rowsOfText s.routesFile = some (["route_id".toList, "mode".toList, "nodes_sequence_i".toList,
        "nodes_sequence_r".toList, "stops_sequence_i".toList, "stops_sequence_r".toList] :: rows) ∧
      List.Forall₂ (fun r row => ∃ ni nr si sr, row = [r.id, r.mode.name, ni, nr, si, sr] ∧
        sequencesToList (some ni) = .ok r.nodesI ∧ sequencesToList (some nr) = .ok r.nodesR ∧
        sequencesToList (some si) = .ok r.stopsI ∧ sequencesToList (some sr) = .ok r.stopsR) s.routes rows := by
  refine ⟨s.routes.map Route.cells, ?_, ?_⟩
  · refine read_rows _ ?_
    intro r hr
    rcases List.mem_cons.1 hr with rfl | hr
    · simp [routesHeader]
    · obtain ⟨r, _, rfl⟩ := List.mem_map.1 hr
      simp [Route.cells]
  · rw [List.forall₂_map_right_iff, List.forall₂_same]
    intro r _
    exact ⟨_, _, _, _, rfl, C22_sequence_round_trip _, C22_sequence_round_trip _, C22_sequence_round_trip _,
      C22_sequence_round_trip _⟩

variable [DecidableEq K]

theorem find_mode {ms : List (Mode K)} (h : (ms.map Mode.name).Nodup) {m : Mode K} (hm : m ∈ ms) :
    ms.find? (fun x => x.name = m.name) = some m := by
  induction ms with
  | nil => simp at hm
  | cons a t ih =>
    rw [List.map_cons, List.nodup_cons] at h
    rcases List.mem_cons.1 hm with rfl | hm
    · simp
    · have : a.name ≠ m.name := fun e => h.1 (e ▸ List.mem_map_of_mem hm)
      rw [List.find?_cons_of_neg (by simpa using this)]
      exact ih h.2 hm

/-- C64: a network can be built again from its file, its city, its modes and the types of the routes (which the file does
not have): the routes read are those of the network with the types given, and a new network accepts them all. -/
theorem C64_rebuild {g : Graph K} {n : Nat} (hs : CityShape g n) (hd : DistinctIds g) {s : Network K}
    (h : Network.Reachable g s) (hm : ∀ r ∈ s.routes, r.mode ∈ s.modes) (type : Str → RouteType)
    (ht : ∀ r ∈ s.routes, type r.id = .custom → CustomOk r.nodesI r.nodesR r.stopsI r.stopsR) :
    ∃ header rows, rowsOfText s.routesFile = some (header :: rows) ∧
      List.Forall₂ (fun r row => routeOfRow s.modes (type r.id) row = .ok { r with type := type r.id }) s.routes rows ∧
      ∃ s', addAllRoutes (Network.init g) (s.routes.map fun r => { r with type := type r.id }) = .ok s' ∧
        s'.graph = g ∧ s'.routes = s.routes.map (fun r => { r with type := type r.id }) ∧
        (∀ m, m ∈ s'.modes ↔ ∃ r ∈ s.routes, r.mode = m) ∧
        ((∀ r ∈ s.routes, type r.id = r.type) → s'.routes = s.routes ∧ ∀ id, s'.getRoute id = s.getRoute id) := by
  obtain ⟨rows, h1, h2⟩ := C64_file s
  refine ⟨_, rows, h1, ?_, ?_⟩
  · have hw := h.wf
    have : ∀ (l : List (Route K)) (rows : List (List Str)), (∀ r ∈ l, r ∈ s.routes) →
        List.Forall₂ (fun r row => ∃ ni nr si sr, row = [r.id, r.mode.name, ni, nr, si, sr] ∧
          sequencesToList (some ni) = .ok r.nodesI ∧ sequencesToList (some nr) = .ok r.nodesR ∧
          sequencesToList (some si) = .ok r.stopsI ∧ sequencesToList (some sr) = .ok r.stopsR) l rows →
        List.Forall₂ (fun r row => routeOfRow s.modes (type r.id) row = .ok { r with type := type r.id }) l rows := by
      intro l rows hl hf
      induction hf with
      | nil => exact .nil
      | @cons r row _ _ hr _ ih =>
        refine .cons ?_ (ih fun r hr => hl r (List.mem_cons_of_mem _ hr))
        obtain ⟨ni, nr, si, sr, rfl, e1, e2, e3, e4⟩ := hr
        have hr := hl r List.mem_cons_self
        have hfind := find_mode hw.modes.names_nodup (hm r hr)
        simp only [routeOfRow, hfind]
        by_cases hc : type r.id = .custom
        · rw [hc]
          exact (C23_custom_route_exact _ _ _ _ _ _ _).2 ⟨rfl, rfl, rfl, e1, e2, e3, e4, ht r hr hc⟩
        · have : type r.id = .predefined ∨ type r.id = .circular := by
            revert hc; cases type r.id <;> simp
          unfold mkRoute mkPredefined
          simp only [hc, false_and, raiseIf_false, py_ok_bind, routeIdOf, this, if_true, e1, e2, e3, e4, py_pure]
    exact this s.routes rows (fun _ h => h) h2
  · have hw := h.wf
    have hids : (s.routes.map fun r => ({ r with type := type r.id } : Route K)).map Route.id = s.routeIds := by
      rw [hw.ids, List.map_map]; rfl
    have dec := (addAllRoutes_decided hw.modes (s.routes.map fun r => ({ r with type := type r.id } : Route K))
      (Network.init g) (Network.Wf.init g) rfl (by simp [Network.init]) (fun r hr => by
        obtain ⟨r, hr', rfl⟩ := List.mem_map.1 hr
        exact ⟨hm r hr', (C27_routes_use_streets_partial hs hd h r hr').1⟩) (by simp [Network.init])).1 (by
          rw [hids]; exact hw.nodup)
    obtain ⟨s', k1, k2, k3, k4, k5⟩ := dec
    have k4' : s'.routes = s.routes.map (fun r => { r with type := type r.id }) := by rw [k4]; rfl
    refine ⟨s', k1, k3, k4', ?_, ?_⟩
    · intro m
      rw [k5]
      simp [Network.init]
    · intro hty
      have e : s'.routes = s.routes := by
        rw [k4']
        conv_rhs => rw [← List.map_id s.routes]
        refine List.map_congr_left fun r hr => ?_
        rw [hty r hr]; rfl
      exact ⟨e, fun id => getRoute_congr k2 hw id fun r _ => by rw [e]⟩

/-- C64, what the file does not tell: the types of the routes. -/
theorem C64_types_lost (s : Network K) (type : Str → RouteType) :
    ({ s with routes := s.routes.map fun r => { r with type := type r.id } } : Network K).routesFile = s.routesFile := by
  unfold Network.routesFile
  simp only [List.map_map]
  rfl

/-! ### concrete cases -/

section Examples

attribute [local instance] ratMath

/-- the feeder and the circular routes of a city with two zones -/
def demoFileNet : Option (Network ℚ) := (do
  let a ← (Network.init (demoCity 2)).feederRoutes demoMode
  let b ← (Network.init (demoCity 2)).circularRoutes demoMode
  addAllRoutes (Network.init (demoCity 2)) (a ++ b)).toOption

example : demoFileNet.map (fun s => String.ofList s.routesFile) = some (
    "route_id;mode;nodes_sequence_i;nodes_sequence_r;stops_sequence_i;stops_sequence_r\n" ++
    "F_bus_1;bus;1,2;2,1;1,2;2,1\nF_bus_2;bus;3,4;4,3;3,4;4,3\n" ++
    "CIR_I_bus;bus;2,4,2;;2,4,2;\nCIR_R_bus;bus;;4,2,4;;4,2,4\n") := by decide +kernel

/-- an id with all the characters that matter to the format -/
example : csvRow ["a;b\"\n".toList, "bus".toList] = "\"a;b\"\"\n\";bus\n".toList := by decide +kernel
example : rowsOfText "\"a;b\"\"\n\";bus\n".toList = some [["a;b\"\n".toList, "bus".toList]] := by decide +kernel

/-- the hypotheses of `C64_rebuild` hold after adding routes to a network of any city: the modes are registered
(`C25_modes_of_routes_registered`), and here the routes are read as predefined ones -/
example {g : Graph ℚ} {n : Nat} (hs : CityShape g n) (hd : DistinctIds g) (r : Route ℚ) :
    ∃ header rows, rowsOfText ((Network.init g).addRoute r).1.routesFile = some (header :: rows) := by
  have h0 : Network.Reachable g (Network.init g) := .init
  obtain ⟨a, b, h, _⟩ := C64_rebuild hs hd (.call h0 (.addRoute r))
    (C25_modes_of_routes_registered h0 (.addRoute r) (by simp) (by simp [Network.init])) (fun _ => .predefined) (by simp)
  exact ⟨a, b, h⟩

end Examples

end Sidermit
