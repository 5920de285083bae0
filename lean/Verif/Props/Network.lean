import Verif.Proofs.NetworkRoutes
import Verif.Spec.RatMath
import Mathlib.Data.List.Nodup
import Mathlib.Tactic.NormNum

/-!
Properties C22-C33: routes, the transport network and the predefined routes.
-/

set_option linter.unusedSectionVars false
set_option linter.unusedVariables false

namespace Sidermit

variable {K : Type}

/-! ### C22, C23, C24: custom routes -/

/-- C22: reading back the text of a sequence gives the sequence. -/
theorem C22_sequence_round_trip (l : List Int) : sequencesToList (some (sequencesToString l)) = .ok l := by
  rw [sequencesToString_eq]; exact sequencesToList_seqText l

example : sequencesToString [1, -20, 3] = "1,-20,3".toList := by decide +kernel

/-- C23: a custom route is constructed exactly when it has an id, the four texts are lists of integers and the route they
describe is well formed; the route has those sequences. -/
theorem C23_custom_route_exact (id : Option Str) (mode : Mode K) (nodesI nodesR stopsI stopsR : Option Str) (r : Route K) :
    mkRoute id mode nodesI nodesR stopsI stopsR = .ok r ↔
      id = some r.id ∧ r.mode = mode ∧ r.type = .custom ∧ sequencesToList nodesI = .ok r.nodesI ∧
      sequencesToList nodesR = .ok r.nodesR ∧ sequencesToList stopsI = .ok r.stopsI ∧
      sequencesToList stopsR = .ok r.stopsR ∧ CustomOk r.nodesI r.nodesR r.stopsI r.stopsR := mkRoute_custom_eq_ok

/-- C23, for sequences given as the texts of lists. -/
theorem C23_custom_route_of_lists (id : Str) (mode : Mode K) (ni nr si sr : List Int) :
    (CustomOk ni nr si sr → mkRoute (some id) mode (some (sequencesToString ni)) (some (sequencesToString nr))
      (some (sequencesToString si)) (some (sequencesToString sr)) = .ok ⟨id, mode, ni, nr, si, sr, .custom⟩) ∧
    (¬ CustomOk ni nr si sr → ∃ e, mkRoute (some id) mode (some (sequencesToString ni)) (some (sequencesToString nr))
      (some (sequencesToString si)) (some (sequencesToString sr)) = .error e) := by
  constructor
  · intro h
    exact (C23_custom_route_exact _ _ _ _ _ _ _).2 ⟨rfl, rfl, rfl, C22_sequence_round_trip _, C22_sequence_round_trip _,
      C22_sequence_round_trip _, C22_sequence_round_trip _, h⟩
  · intro h
    cases hr : mkRoute (some id) mode (some (sequencesToString ni)) (some (sequencesToString nr))
      (some (sequencesToString si)) (some (sequencesToString sr)) with
    | error e => exact ⟨e, rfl⟩
    | ok r =>
      obtain ⟨_, _, _, h1, h2, h3, h4, h5⟩ := (C23_custom_route_exact _ _ _ _ _ _ _).1 hr
      rw [C22_sequence_round_trip, Except.ok.injEq] at h1 h2 h3 h4
      rw [← h1, ← h2, ← h3, ← h4] at h5
      exact absurd h5 h

theorem sequencesToString_noText (l : List Int) : noText (some (sequencesToString l)) ↔ l = [] := by
  rw [sequencesToString_eq]
  constructor
  · intro h
    by_contra hl
    rcases h with h | h
    · cases h
    · exact seqText_ne_nil hl (by simpa using h)
  · rintro rfl; exact Or.inr rfl

/-- C23, the exceptions: each check is reached when the previous ones pass, in this order: empty node sequence, empty stop
sequence, not a cycle, then per direction a stop off the route, wrong first stop, wrong last stop, and finally loops. -/
theorem C23_custom_route_errors (id : Str) (mode : Mode K) (ni nr si sr : List Int) (e : PyErr)
    (h : mkRoute (some id) mode (some (sequencesToString ni)) (some (sequencesToString nr))
      (some (sequencesToString si)) (some (sequencesToString sr)) = .error e) :
    (e = .NodeSequencesIsNotValid ∧ (ni = [] ∨ nr = [])) ∨
    (ni ≠ [] ∧ nr ≠ [] ∧ e = .StopSequenceIsNotValid ∧ (si = [] ∨ sr = [])) ∨
    (ni ≠ [] ∧ nr ≠ [] ∧ si ≠ [] ∧ sr ≠ [] ∧ (
      (e = .NotCycle ∧ ¬ (ni.head? = nr.getLast? ∧ nr.head? = ni.getLast?)) ∨
      ((ni.head? = nr.getLast? ∧ nr.head? = ni.getLast?) ∧ (
        (e = .StopsSequences ∧ ∃ s ∈ si, s ∉ ni) ∨
        (e = .FirstStopIsNotValid ∧ (∀ s ∈ si, s ∈ ni) ∧ si.head? ≠ ni.head?) ∨
        (e = .LastStopIsNotValid ∧ (∀ s ∈ si, s ∈ ni) ∧ si.head? = ni.head? ∧ si.getLast? ≠ ni.getLast?) ∨
        ((∀ s ∈ si, s ∈ ni) ∧ si.head? = ni.head? ∧ si.getLast? = ni.getLast? ∧ (
          (e = .StopsSequences ∧ ∃ s ∈ sr, s ∉ nr) ∨
          (e = .FirstStopIsNotValid ∧ (∀ s ∈ sr, s ∈ nr) ∧ sr.head? ≠ nr.head?) ∨
          (e = .LastStopIsNotValid ∧ (∀ s ∈ sr, s ∈ nr) ∧ sr.head? = nr.head? ∧ sr.getLast? ≠ nr.getLast?) ∨
          ((∀ s ∈ sr, s ∈ nr) ∧ sr.head? = nr.head? ∧ sr.getLast? = nr.getLast? ∧
            e = .NodeSequencesIsNotValid ∧ ¬ (ni.Nodup ∧ nr.Nodup)))))))) := by
  have seqv : ∀ l : List Int, sequencesValidator l = if l.Nodup then .ok () else .error .NodeSequencesIsNotValid := by
    intro l
    split
    · next h => exact sequencesValidator_eq_ok.2 h
    · next h =>
      cases hv : sequencesValidator l with
      | ok u => exact absurd (sequencesValidator_eq_ok.1 hv) h
      | error e' =>
        unfold sequencesValidator at hv
        rw [raiseIf_eq_error] at hv
        rw [hv.2]
  have stv : ∀ (nodes stops : List Int) (e : PyErr), stops ≠ [] → stopsValidator nodes stops = .error e →
      (e = .StopsSequences ∧ ∃ s ∈ stops, s ∉ nodes) ∨
      (e = .FirstStopIsNotValid ∧ (∀ s ∈ stops, s ∈ nodes) ∧ stops.head? ≠ nodes.head?) ∨
      (e = .LastStopIsNotValid ∧ (∀ s ∈ stops, s ∈ nodes) ∧ stops.head? = nodes.head? ∧
        stops.getLast? ≠ nodes.getLast?) := by
    intro nodes stops e hne he
    unfold stopsValidator at he
    simp only [raiseIf_bind_eq_error, raiseIf_eq_error, hne, false_and, false_or, not_false_eq_true, true_and] at he
    rcases he with ⟨h1, rfl⟩ | ⟨h1, h2⟩
    · exact Or.inl ⟨rfl, h1⟩
    · have h1' : ∀ s ∈ stops, s ∈ nodes := by
        intro s hs
        by_contra hc
        exact h1 ⟨s, hs, hc⟩
      rcases h2 with ⟨h2, rfl⟩ | ⟨h2, h3, rfl⟩
      · exact Or.inr (Or.inl ⟨rfl, h1', Ne.symm h2⟩)
      · exact Or.inr (Or.inr ⟨rfl, h1', (not_not.1 h2).symm, Ne.symm h3⟩)
  unfold mkRoute mkCustom at h
  simp only [raiseIf_bind_eq_error, true_and, sequencesToString_noText, routeIdOf, py_ok_bind, reduceCtorEq, or_self,
    if_false] at h
  rcases h with ⟨h, rfl⟩ | ⟨hn, h⟩
  · exact Or.inl ⟨rfl, h⟩
  · rw [not_or] at hn
    right
    rcases h with ⟨h, rfl⟩ | ⟨hst, h⟩
    · exact Or.inl ⟨hn.1, hn.2, rfl, h⟩
    · rw [not_or] at hst
      right
      refine ⟨hn.1, hn.2, hst.1, hst.2, ?_⟩
      unfold routeValidator at h
      simp only [C22_sequence_round_trip, py_ok_bind, py_bind_eq_error, py_pure, reduceCtorEq, and_false, exists_false,
        or_false, seqv] at h
      rcases h with h | ⟨_, hd, h⟩
      · unfold directionValidator at h
        simp only [raiseIf_bind_eq_error, raiseIf_eq_error, hn.1, hn.2, or_self, false_and, false_or, not_false_eq_true,
          true_and] at h
        exact Or.inl ⟨h.2.symm, by tauto⟩
      · right
        rw [directionValidator_eq_ok] at hd
        refine ⟨⟨hd.2.2.1, hd.2.2.2⟩, ?_⟩
        rcases h with h | ⟨_, h1, h⟩
        · rcases stv _ _ _ hst.1 h with h | h | h
          · exact Or.inl h
          · exact Or.inr (Or.inl h)
          · exact Or.inr (Or.inr (Or.inl h))
        · rw [stopsValidator_eq_ok hn.1] at h1
          refine Or.inr (Or.inr (Or.inr ⟨h1.1, h1.2.1, h1.2.2, ?_⟩))
          rcases h with h | ⟨_, h2, h⟩
          · rcases stv _ _ _ hst.2 h with h | h | h
            · exact Or.inl h
            · exact Or.inr (Or.inl h)
            · exact Or.inr (Or.inr (Or.inl h))
          · rw [stopsValidator_eq_ok hn.2] at h2
            refine Or.inr (Or.inr (Or.inr ⟨h2.1, h2.2.1, h2.2.2, ?_⟩))
            by_cases h3 : ni.Nodup
            · by_cases h4 : nr.Nodup
              · simp [h3, h4] at h
              · simp only [h3, h4, if_true, if_false, reduceCtorEq, false_or, true_and, exists_const,
                  Except.error.injEq] at h
                exact ⟨h.symm, by tauto⟩
            · simp only [h3, if_false, Except.error.injEq, reduceCtorEq, false_and, exists_false, or_false] at h
              exact ⟨h.symm, by tauto⟩

/-- C24 does not hold: the constructor accepts a route whose stops are not in travel order. -/
theorem C24_stops_out_of_order_accepted (id : Str) (mode : Mode K) :
    ∃ r, mkRoute (some id) mode (some "1,2,3,4".toList) (some "4,3,2,1".toList) (some "1,3,2,4".toList)
      (some "4,3,2,1".toList) = .ok r ∧ ¬ r.stopsI.Sublist r.nodesI := by
  have hok : CustomOk [1, 2, 3, 4] [4, 3, 2, 1] [1, 3, 2, 4] [4, 3, 2, 1] := by constructor <;> decide +kernel
  have h1 : sequencesToList (some "1,2,3,4".toList) = .ok [1, 2, 3, 4] := by decide +kernel
  have h2 : sequencesToList (some "4,3,2,1".toList) = .ok [4, 3, 2, 1] := by decide +kernel
  have h3 : sequencesToList (some "1,3,2,4".toList) = .ok [1, 3, 2, 4] := by decide +kernel
  have h4 : ¬ [1, 3, 2, 4].Sublist ([1, 2, 3, 4] : List Int) := by decide +kernel
  exact ⟨⟨id, mode, [1, 2, 3, 4], [4, 3, 2, 1], [1, 3, 2, 4], [4, 3, 2, 1], .custom⟩,
    (C23_custom_route_exact _ _ _ _ _ _ _).2 ⟨rfl, rfl, rfl, h1, h2, h3, h2, hok⟩, h4⟩

/-- C24, what does hold: the stops are nodes of the route with the ends of the route as ends.  Missing: their order; it is
guaranteed only for at most three different stops. -/
theorem C24_stops_in_travel_order_partial {id : Option Str} {mode : Mode K} {nodesI nodesR stopsI stopsR : Option Str}
    {r : Route K} (h : mkRoute id mode nodesI nodesR stopsI stopsR = .ok r) :
    (∀ s ∈ r.stopsI, s ∈ r.nodesI) ∧ (∀ s ∈ r.stopsR, s ∈ r.nodesR) ∧
    r.stopsI.head? = r.nodesI.head? ∧ r.stopsI.getLast? = r.nodesI.getLast? ∧
    r.stopsR.head? = r.nodesR.head? ∧ r.stopsR.getLast? = r.nodesR.getLast? ∧
    (r.stopsI.Nodup → r.stopsI.length ≤ 3 → r.stopsI.Sublist r.nodesI) ∧
    (r.stopsR.Nodup → r.stopsR.length ≤ 3 → r.stopsR.Sublist r.nodesR) := by
  obtain ⟨_, _, _, _, _, _, _, hc⟩ := (C23_custom_route_exact _ _ _ _ _ _ _).1 h
  have key : ∀ nodes stops : List Int, (∀ s ∈ stops, s ∈ nodes) → stops.head? = nodes.head? →
      stops.getLast? = nodes.getLast? → stops.Nodup → stops.length ≤ 3 → stops.Sublist nodes := by
    intro nodes stops hon hh hl hnd hlen
    rcases stops with _ | ⟨a, _ | ⟨b, _ | ⟨c, _ | ⟨d, t⟩⟩⟩⟩
    · simp
    · simpa using hon a (by simp)
    · obtain ⟨t, rfl⟩ : ∃ t, nodes = a :: t := by
        cases nodes with
        | nil => simp at hh
        | cons x t => simp at hh; exact ⟨t, by rw [hh]⟩
      have hb := hon b (by simp)
      have hab : b ≠ a := by simp at hnd; omega
      have : b ∈ t := by simpa [hab] using hb
      exact (List.singleton_sublist.2 this).cons_cons a
    · obtain ⟨t, rfl⟩ : ∃ t, nodes = a :: t := by
        cases nodes with
        | nil => simp at hh
        | cons x t => simp at hh; exact ⟨t, by rw [hh]⟩
      simp at hnd
      have hb : b ∈ t := by
        have := hon b (by simp)
        simp only [List.mem_cons] at this
        rcases this with h | h
        · omega
        · exact h
      rcases List.eq_nil_or_concat t with rfl | ⟨u, x, rfl⟩
      · simp at hb
      · simp only [List.concat_eq_append] at *
        have hx : c = x := by
          rw [← List.cons_append, List.getLast?_append] at hl
          simpa using hl
        subst hx
        have hbu : b ∈ u := by
          rcases List.mem_append.1 hb with h | h
          · exact h
          · simp at h; omega
        exact ((List.singleton_sublist.2 hbu).append_right [c]).cons_cons a
    · simp at hlen
  exact ⟨hc.stopsI_on, hc.stopsR_on, hc.firstI, hc.lastI, hc.firstR, hc.lastR,
    key _ _ hc.stopsI_on hc.firstI hc.lastI, key _ _ hc.stopsR_on hc.firstR hc.lastR⟩

/-! ### C25, C26: bookkeeping -/

variable [DecidableEq K]

/-- C25: after any history of calls the reported ids are those of the routes, in order and pairwise different, the modes are
at most two, with different names, one of them with a single parallel line when they are two; the city is the same. -/
theorem C25_network_invariant {g : Graph K} {s : Network K} (h : Network.Reachable g s) :
    s.graph = g ∧ s.routeIds = s.routes.map Route.id ∧ s.routeIds.Nodup ∧ s.modes.length ≤ 2 ∧
    (s.modes.map Mode.name).Nodup ∧ (s.modes.length = 2 → ∃ m ∈ s.modes, m.d = 1) := by
  have hw := h.wf
  refine ⟨h.graph, hw.ids, hw.nodup, ?_, hw.modes.names_nodup, ?_⟩
  · rcases hw.modes with h1 | ⟨a, b, h1, _⟩
    · omega
    · rw [h1]; simp
  · intro h2
    rcases hw.modes with h1 | ⟨a, b, h1, _, h3⟩
    · omega
    · rw [h1]; simpa using h3

/-- C25: a call that raises leaves the network as it was; removing a mode never raises. -/
theorem C25_raising_calls_change_nothing {g : Graph K} {s : Network K} (h : Network.Reachable g s) (c : NetCall K) :
    (∀ e, (c.run s).2 = some e → (c.run s).1 = s) ∧ (∀ m, c = .removeMode m → (c.run s).2 = none) := by
  classical
  have hw := h.wf
  constructor
  · intro e
    cases c with
    | addRoute r =>
      simp only [NetCall.run]; rw [addRoute_eq hw.modes]
      repeat' split
      all_goals simp
    | removeRoute id =>
      simp only [NetCall.run]; rw [removeRoute_eq hw]
      split <;> simp
    | addMode m =>
      simp only [NetCall.run]; rw [addTransportMode_eq hw.modes]
      repeat' split
      all_goals simp
    | removeMode m => simp only [NetCall.run]; rw [removeTransportMode_eq hw]; simp
  · rintro m rfl
    simp only [NetCall.run]; rw [removeTransportMode_eq hw]

/-- C25: registering a mode. -/
theorem C25_add_mode_outcome {g : Graph K} {s : Network K} (h : Network.Reachable g s) (m : Mode K) :
    (m ∈ s.modes → s.addTransportMode m = (s, none)) ∧
    (m ∉ s.modes → ModesOk (s.modes ++ [m]) → s.addTransportMode m = ({ s with modes := s.modes ++ [m] }, none)) ∧
    (m ∉ s.modes → m.name ∈ s.modes.map Mode.name → s.addTransportMode m = (s, some .AddMode)) ∧
    (m.name ∉ s.modes.map Mode.name → ¬ ModesOk (s.modes ++ [m]) →
      s.addTransportMode m = (s, some .TransportNetwork)) := by
  classical
  have hw := h.wf
  rw [addTransportMode_eq hw.modes]
  refine ⟨fun h1 => by rw [if_pos h1], fun h1 h2 => by rw [if_neg h1, if_pos h2], fun h1 h2 => ?_, fun h1 h2 => ?_⟩
  · rw [if_neg h1, if_neg (fun h3 => ((modesOk_append hw.modes).1 h3).1 h2), if_pos h2]
  · rw [if_neg (fun h3 => h1 (List.mem_map_of_mem h3)), if_neg h2, if_neg h1]

/-- C25: as long as no mode is removed, the mode of every route is registered. -/
theorem C25_modes_of_routes_registered {g : Graph K} {s : Network K} (h : Network.Reachable g s) (c : NetCall K)
    (hc : ∀ m, c ≠ .removeMode m) (hm : ∀ r ∈ s.routes, r.mode ∈ s.modes) :
    ∀ r ∈ (c.run s).1.routes, r.mode ∈ (c.run s).1.modes := by
  classical
  have hw := h.wf
  cases c with
  | addRoute r =>
    simp only [NetCall.run]; rw [addRoute_eq hw.modes]
    repeat' split
    · exact hm
    · exact hm
    · next h1 =>
      intro r' hr'
      simp only [List.mem_append, List.mem_singleton] at hr'
      rcases hr' with hr' | rfl
      · exact hm r' hr'
      · exact h1
    · intro r' hr'
      simp only [List.mem_append, List.mem_singleton] at hr' ⊢
      rcases hr' with hr' | rfl
      · exact Or.inl (hm r' hr')
      · exact Or.inr rfl
    · exact hm
    · exact hm
  | removeRoute id =>
    simp only [NetCall.run]; rw [removeRoute_eq hw]
    split
    · intro r hr; exact hm r (List.mem_of_mem_filter hr)
    · exact hm
  | addMode m =>
    simp only [NetCall.run]; rw [addTransportMode_eq hw.modes]
    repeat' split
    · exact hm
    · intro r hr; simp [hm r hr]
    · exact hm
    · exact hm
  | removeMode m => exact absurd rfl (hc m)

/-- looking up a route: the route with that id -/
theorem getRoute_eq_ok {s : Network K} (hw : s.Wf) (id : Str) (r : Route K) :
    s.getRoute id = .ok r ↔ r ∈ s.routes ∧ r.id = id := by
  unfold Network.getRoute
  have hnd : (s.routes.map Route.id).Nodup := hw.ids ▸ hw.nodup
  constructor
  · intro h
    split at h
    · next hid =>
      have hlt : s.routeIds.idxOf id < s.routes.length := by
        have := List.idxOf_lt_length_iff.2 hid
        rw [hw.ids] at this ⊢
        simpa using this
      rw [pyGet_ok (List.getElem?_eq_getElem hlt), Except.ok.injEq] at h
      subst h
      refine ⟨List.getElem_mem hlt, ?_⟩
      have h1 : s.routeIds[s.routeIds.idxOf id]? = some id := by
        rw [List.getElem?_eq_getElem (List.idxOf_lt_length_iff.2 hid), List.getElem_idxOf]
      generalize s.routeIds.idxOf id = k at h1 hlt
      rw [hw.ids, List.getElem?_map, List.getElem?_eq_getElem hlt] at h1
      simpa using h1
    · cases h
  · rintro ⟨hr, rfl⟩
    have hid : r.id ∈ s.routeIds := by rw [hw.ids]; exact List.mem_map_of_mem hr
    rw [if_pos hid]
    obtain ⟨i, hi, rfl⟩ := List.mem_iff_getElem.1 hr
    have hi' : i < s.routeIds.length := by rw [hw.ids]; simpa using hi
    have h2 : s.routeIds[i] = s.routes[i].id := by simp [hw.ids]
    have h3 : s.routeIds.idxOf s.routes[i].id = i := by
      rw [← h2]
      exact List.Nodup.idxOf_getElem hw.nodup i hi'
    rw [h3]
    exact pyGet_ok (List.getElem?_eq_getElem hi)

theorem getRoute_eq_error {s : Network K} (hw : s.Wf) (id : Str) (e : PyErr) :
    s.getRoute id = .error e ↔ id ∉ s.routeIds ∧ e = .RouteIdNotFound := by
  by_cases hid : id ∈ s.routeIds
  · have : ∃ r ∈ s.routes, r.id = id := by rw [hw.ids] at hid; simpa using hid
    obtain ⟨r, hr, rfl⟩ := this
    rw [(getRoute_eq_ok hw _ r).2 ⟨hr, rfl⟩]
    simp [hid]
  · unfold Network.getRoute
    simp [hid, eq_comm]

/-- two networks give the same answer for an id when they hold the same route under it -/
theorem getRoute_congr {s s' : Network K} (hw : s.Wf) (hw' : s'.Wf) (id : Str)
    (h : ∀ r : Route K, r.id = id → (r ∈ s.routes ↔ r ∈ s'.routes)) : s.getRoute id = s'.getRoute id := by
  cases h1 : s.getRoute id with
  | ok r =>
    obtain ⟨hr, hid⟩ := (getRoute_eq_ok hw _ _).1 h1
    exact ((getRoute_eq_ok hw' _ _).2 ⟨(h r hid).1 hr, hid⟩).symm
  | error e =>
    obtain ⟨hid, rfl⟩ := (getRoute_eq_error hw _ _).1 h1
    refine ((getRoute_eq_error hw' _ _).2 ⟨?_, rfl⟩).symm
    intro hid'
    rw [hw'.ids] at hid'
    obtain ⟨r, hr, hrid⟩ := List.mem_map.1 hid'
    apply hid
    rw [hw.ids, ← hrid]
    exact List.mem_map_of_mem ((h r hrid).2 hr)

/-- C26: `add_route` returns exactly for a route on existing streets (outbound), with a new id and a mode that is
registered or can be registered; then the route can be looked up, every other id gives what it gave, the routes stay in
order of insertion and the mode is registered. -/
theorem C26_add_route {g : Graph K} {s : Network K} (h : Network.Reachable g s) (r : Route K) :
    ((s.addRoute r).2 = none ↔ OnStreets g r.nodesI ∧ r.id ∉ s.routeIds ∧ (r.mode ∈ s.modes ∨ ModesOk (s.modes ++ [r.mode]))) ∧
    ((s.addRoute r).2 = none →
      (s.addRoute r).1.getRoute r.id = .ok r ∧ (∀ id, id ≠ r.id → (s.addRoute r).1.getRoute id = s.getRoute id) ∧
      (s.addRoute r).1.routes = s.routes ++ [r] ∧ r.mode ∈ (s.addRoute r).1.modes ∧
      (∀ m, m ∈ (s.addRoute r).1.modes ↔ m ∈ s.modes ∨ m = r.mode)) ∧
    (OnStreets g r.nodesI → r.id ∈ s.routeIds → (s.addRoute r).2 = some .RouteIdDuplicated) ∧
    (¬ OnStreets g r.nodesI → (s.addRoute r).2 = some .NodeSequencesIsNotValid) := by
  classical
  have hw := h.wf
  have hg := h.graph
  have hw' := hw.addRoute r
  have heq := addRoute_eq hw.modes r
  rw [hg] at heq
  have hiff : (s.addRoute r).2 = none ↔
      OnStreets g r.nodesI ∧ r.id ∉ s.routeIds ∧ (r.mode ∈ s.modes ∨ ModesOk (s.modes ++ [r.mode])) := by
    rw [heq]
    by_cases h1 : OnStreets g r.nodesI
    · rw [if_neg (by simpa using h1)]
      by_cases h2 : r.id ∈ s.routeIds
      · simp [h2]
      · rw [if_neg h2]
        by_cases h3 : r.mode ∈ s.modes
        · simp [h1, h2, h3]
        · by_cases h4 : ModesOk (s.modes ++ [r.mode])
          · simp [h1, h2, h3, h4]
          · rw [if_neg h3, if_neg h4]
            split <;> simp [h3, h4]
    · simp [h1]
  refine ⟨hiff, ?_, ?_, ?_⟩
  · intro hnone
    obtain ⟨h1, h2, h3⟩ := hiff.1 hnone
    have hroutes : (s.addRoute r).1.routes = s.routes ++ [r] ∧
        (∀ m, m ∈ (s.addRoute r).1.modes ↔ m ∈ s.modes ∨ m = r.mode) := by
      rw [heq, if_neg (by simpa using h1), if_neg h2]
      by_cases h4 : r.mode ∈ s.modes
      · rw [if_pos h4]
        refine ⟨rfl, fun m => ⟨Or.inl, ?_⟩⟩
        rintro (h | rfl)
        · exact h
        · exact h4
      · rw [if_neg h4, if_pos (h3.resolve_left h4)]
        exact ⟨rfl, fun m => by simp⟩
    refine ⟨?_, ?_, hroutes.1, (hroutes.2 _).2 (Or.inr rfl), hroutes.2⟩
    · exact (getRoute_eq_ok hw' _ _).2 ⟨by rw [hroutes.1]; simp, rfl⟩
    · intro id hid
      refine getRoute_congr hw' hw id ?_
      intro r' hr'
      rw [hroutes.1]
      simp only [List.mem_append, List.mem_singleton, or_iff_left_iff_imp]
      rintro rfl
      exact absurd hr'.symm hid
  · intro h1 h2
    rw [heq, if_neg (by simpa using h1), if_pos h2]
  · intro h1
    rw [heq, if_pos h1]

/-- C26: `remove_route` and `get_route`. -/
theorem C26_remove_and_get_route {g : Graph K} {s : Network K} (h : Network.Reachable g s) (id : Str) :
    (id ∈ s.routeIds → (s.removeRoute id).2 = none ∧ (s.removeRoute id).1.getRoute id = .error .RouteIdNotFound ∧
      (∀ id', id' ≠ id → (s.removeRoute id).1.getRoute id' = s.getRoute id') ∧
      (s.removeRoute id).1.routes = s.routes.filter (·.id ≠ id) ∧ (s.removeRoute id).1.modes = s.modes) ∧
    (id ∉ s.routeIds → s.removeRoute id = (s, some .RouteIdNotFound) ∧ s.getRoute id = .error .RouteIdNotFound) ∧
    (∀ r, s.getRoute id = .ok r ↔ r ∈ s.routes ∧ r.id = id) := by
  have hw := h.wf
  have hw' := hw.removeRoute id
  have heq := removeRoute_eq hw id
  refine ⟨fun hid => ?_, fun hid => ?_, getRoute_eq_ok hw id⟩
  · rw [if_pos hid] at heq
    rw [heq] at hw' ⊢
    refine ⟨rfl, ?_, ?_, rfl, rfl⟩
    · refine (getRoute_eq_error hw' _ _).2 ⟨?_, rfl⟩
      simp
    · intro id' hid'
      refine getRoute_congr hw' hw id' ?_
      rintro r rfl
      simp [hid']
  · rw [if_neg hid] at heq
    exact ⟨heq, (getRoute_eq_error hw _ _).2 ⟨hid, rfl⟩⟩

/-! ### C27: routes and streets -/

/-- C27 does not hold: in every city with a zone, `add_route` accepts a custom route (itself accepted by the constructor)
that returns from the CBD to the periphery directly, where there is no street. -/
theorem C27_inbound_streets_not_checked {g : Graph K} {n : Nat} (hs : CityShape g n) (hd : DistinctIds g) (hn : 1 ≤ n)
    (id : Str) (m : Mode K) :
    ∃ r : Route K, (∃ a b c d, mkRoute (some id) m (some a) (some b) (some c) (some d) = .ok r) ∧
      ((Network.init g).addRoute r).2 = none ∧ r ∈ ((Network.init g).addRoute r).1.routes ∧ ¬ OnStreets g r.nodesR := by
  have hinj : ∀ i j, i < 2 * n + 1 → j < 2 * n + 1 → i ≠ j → idAt g i ≠ idAt g j :=
    fun i j hi hj hij h => hij (idAt_inj hs hd hi hj h)
  have h01 := hinj 0 1 (by omega) (by omega) (by omega)
  have h02 := hinj 0 2 (by omega) (by omega) (by omega)
  have h12 := hinj 1 2 (by omega) (by omega) (by omega)
  have hok : CustomOk [idAt g 1, idAt g 2, idAt g 0] [idAt g 0, idAt g 1] [idAt g 1, idAt g 0] [idAt g 0, idAt g 1] := by
    constructor <;> simp [h01, h01.symm, h02.symm, h12]
  have hst : OnStreets g [idAt g 1, idAt g 2, idAt g 0] := by
    intro p hp
    simp only [pairs, List.mem_cons, List.not_mem_nil, or_false] at hp
    rcases hp with rfl | rfl
    · exact edge_idAt hs (by omega) (by omega) (street_ps (i := 0) (by omega))
    · exact edge_idAt hs (by omega) (by omega) (street_sc (i := 0) (by omega))
  have hadd := (C26_add_route (Network.Reachable.init (g := g))
    ⟨id, m, [idAt g 1, idAt g 2, idAt g 0], [idAt g 0, idAt g 1], [idAt g 1, idAt g 0], [idAt g 0, idAt g 1], .custom⟩)
  have hnone := hadd.1.2 ⟨hst, by simp [Network.init], Or.inr (Or.inl (by simp [Network.init]))⟩
  refine ⟨_, ⟨_, _, _, _, (C23_custom_route_of_lists id m _ _ _ _).1 hok⟩, hnone, ?_, ?_⟩
  · rw [(hadd.2.1 hnone).2.2.1]; simp
  · intro h
    have := h (idAt g 0, idAt g 1) (by simp [pairs])
    obtain ⟨a, ha, ha'⟩ := idAt_get hs (j := 0) (by omega)
    obtain ⟨b, hb, hb'⟩ := idAt_get hs (j := 1) (by omega)
    simp only [← ha', ← hb'] at this
    rw [edgeExist_iff hs hd (List.mem_of_getElem? ha) (List.mem_of_getElem? hb)] at this
    have ka := hs.kind 0 a ha
    have kb := hs.kind 1 b hb
    simp [kindAt] at ka kb
    simp [Street, ka, kb] at this

/-- C27, what does hold: the outbound sequence of every route of a network runs on existing streets, and so does the inbound
one if it is the outbound one reversed.  Missing: the inbound sequence of other custom routes, see
`C27_inbound_streets_not_checked`. -/
theorem C27_routes_use_streets_partial {g : Graph K} {n : Nat} (hs : CityShape g n) (hd : DistinctIds g) {s : Network K}
    (h : Network.Reachable g s) :
    ∀ r ∈ s.routes, OnStreets g r.nodesI ∧ (r.nodesR = r.nodesI.reverse → OnStreets g r.nodesR) := by
  have hout : ∀ r ∈ s.routes, OnStreets g r.nodesI := by
    clear hs hd
    induction h with
    | init => simp [Network.init]
    | call hs' c ih =>
      classical
      have hw := hs'.wf
      cases c with
      | addRoute r =>
        have hadd := C26_add_route hs' r
        intro r' hr'
        simp only [NetCall.run] at hr'
        cases hres : (Network.addRoute _ r).2 with
        | none =>
          rw [(hadd.2.1 hres).2.2.1] at hr'
          simp only [List.mem_append, List.mem_singleton] at hr'
          rcases hr' with hr' | rfl
          · exact ih r' hr'
          · exact (hadd.1.1 hres).1
        | some e =>
          have hsame := (C25_raising_calls_change_nothing hs' (.addRoute r)).1 e hres
          simp only [NetCall.run] at hsame
          rw [hsame] at hr'
          exact ih r' hr'
      | removeRoute id =>
        simp only [NetCall.run]; rw [removeRoute_eq hw]
        split
        · intro r hr; exact ih r (List.mem_of_mem_filter hr)
        · exact ih
      | addMode m =>
        simp only [NetCall.run]; rw [addTransportMode_eq hw.modes]
        repeat' split
        all_goals exact ih
      | removeMode m =>
        simp only [NetCall.run]; rw [removeTransportMode_eq hw]
        intro r hr; exact ih r ((survivors_sublist m _).subset hr)
  intro r hr
  refine ⟨hout r hr, ?_⟩
  intro hrev
  have := hout r hr
  unfold OnStreets at this ⊢
  rw [pairs_forall (fun a b => g.edgeExist a b = true)] at this ⊢
  rw [hrev, List.isChain_reverse]
  refine List.IsChain.imp ?_ this
  intro a b hab
  obtain ⟨⟨x, hx, rfl⟩, ⟨y, hy, rfl⟩⟩ := edgeExist_nodes hab
  rw [edgeExist_iff hs hd hx hy] at hab
  exact (edgeExist_iff hs hd hy hx).2 (street_symm hab)

/-! ### C28: removing a mode -/

/-- C28, exactly what `remove_transport_mode` does: the mode is no longer registered, and of the routes remain the
`survivors`. -/
theorem C28_remove_mode_effect {g : Graph K} {s : Network K} (h : Network.Reachable g s) (m : Mode K) :
    s.removeTransportMode m =
      (⟨g, survivors m s.routes, (survivors m s.routes).map Route.id, s.modes.filter (· ≠ m)⟩, none) := by
  rw [removeTransportMode_eq h.wf, h.graph]

theorem survivors_eq_filter (m : Mode K) (l : List (Route K))
    (h : l.IsChain (fun r r' => ¬ (r.mode = m ∧ r'.mode = m))) : survivors m l = l.filter (·.mode ≠ m) := by
  induction l using survivors.induct m with
  | case1 => rfl
  | case2 r h1 => simp [survivors, h1]
  | case3 r h1 => simp [survivors, h1]
  | case4 r r' t h1 ih =>
    rw [survivors, if_pos h1]
    rw [List.isChain_cons_cons] at h
    have h2 : r'.mode ≠ m := fun e => h.1 ⟨h1, e⟩
    rw [List.filter_cons_of_neg (by simpa using h1), List.filter_cons_of_pos (by simpa using h2), ih h.2.tail]
  | case5 r r' t h1 ih =>
    rw [List.isChain_cons_cons] at h
    rw [survivors, if_neg h1, List.filter_cons_of_pos (by simpa using h1), ih h.2]

/-- C28, what does hold: routes of other modes all remain, in their order, and no route of the mode remains if no two
consecutive routes of the network have that mode.  Missing: the general case, see `C28_routes_of_removed_mode_remain`. -/
theorem C28_remove_mode_partial {g : Graph K} {s : Network K} (h : Network.Reachable g s) (m : Mode K) :
    m ∉ (s.removeTransportMode m).1.modes ∧
    (∀ m', m' ≠ m → (m' ∈ (s.removeTransportMode m).1.modes ↔ m' ∈ s.modes)) ∧
    ((s.removeTransportMode m).1.routes.filter (·.mode ≠ m) = s.routes.filter (·.mode ≠ m)) ∧
    (s.removeTransportMode m).1.routes.Sublist s.routes ∧
    (s.routes.IsChain (fun r r' => ¬ (r.mode = m ∧ r'.mode = m)) →
      (s.removeTransportMode m).1.routes = s.routes.filter (·.mode ≠ m)) := by
  rw [C28_remove_mode_effect h]
  refine ⟨by simp, fun m' hm' => by simp [hm'], ?_, survivors_sublist m _, survivors_eq_filter m _⟩
  simp only
  generalize s.routes = l
  induction l using survivors.induct m with
  | case1 => rfl
  | case2 r h => simp [survivors, h]
  | case3 r h => simp [survivors, h]
  | case4 r r' t h1 ih =>
    rw [survivors, if_pos h1, List.filter_cons_of_neg (l := r' :: t) (by simpa using h1), List.filter_cons, List.filter_cons, ih]
  | case5 r r' t h1 ih =>
    rw [survivors, if_neg h1, List.filter_cons, List.filter_cons, ih]

/-- C28 does not hold: in every city with two zones or more, after adding the feeder routes of two zones and removing their
mode, a route of that mode remains although the mode is no longer registered. -/
theorem C28_routes_of_removed_mode_remain {g : Graph K} {n : Nat} (hs : CityShape g n) (hd : DistinctIds g) (hn : 2 ≤ n)
    (m : Mode K) :
    ∃ s : Network K, Network.Reachable g s ∧ ∃ r ∈ (s.removeTransportMode m).1.routes,
      r.mode = m ∧ m ∉ (s.removeTransportMode m).1.modes := by
  obtain ⟨rs, _, hf⟩ := family_feeder hs hd (Network.init g) rfl m
  obtain ⟨r0, h0, hid0, hm0, _, _, _, ht0⟩ := hf.each 0 (by omega)
  obtain ⟨r1, h1, hid1, hm1, _, _, _, ht1⟩ := hf.each 1 (by omega)
  have hne : r1.id ≠ r0.id := by
    rw [hid0, hid1]
    intro h
    have := routeLabel_inj h
    omega
  have hR0 : Network.Reachable g (Network.init g) := .init
  have ha := C26_add_route hR0 r0
  have ha' := ha.1.2 ⟨ht0.streetsI, by simp [Network.init], Or.inr (Or.inl (by simp [Network.init]))⟩
  have hR1 : Network.Reachable g ((Network.init g).addRoute r0).1 := hR0.call (.addRoute r0)
  have hb := C26_add_route hR1 r1
  have hroutes := (ha.2.1 ha').2.2.1
  have hmodes := (ha.2.1 ha').2.2.2.1
  have hb' := hb.1.2 ⟨ht1.streetsI, by
    rw [hR1.wf.ids, hroutes]; simpa [Network.init] using hne, Or.inl (by rw [hm1, ← hm0]; exact hmodes)⟩
  have hR2 : Network.Reachable g (((Network.init g).addRoute r0).1.addRoute r1).1 := hR1.call (.addRoute r1)
  refine ⟨_, hR2, r1, ?_, hm1, (C28_remove_mode_partial hR2 m).1⟩
  rw [C28_remove_mode_effect hR2, (hb.2.1 hb').2.2.1, hroutes]
  simp [Network.init, survivors, hm0]

/-! ### C29-C33: predefined routes -/

/-- C29: with two zones or more there are two circular routes, one outbound only and one inbound only, through all the
subcentres in opposite orders and back to the start, on existing streets, stopping everywhere; a network accepts both. -/
theorem C29_circular_routes {g : Graph K} {n : Nat} (hs : CityShape g n) (s : Network K) (hg : s.graph = g) (m : Mode K) :
    (2 ≤ n → ∃ r1 r2 : Route K, s.circularRoutes m = .ok [r1, r2] ∧
      r1.mode = m ∧ r2.mode = m ∧ r1.type = .circular ∧ r2.type = .circular ∧ r1.id ≠ r2.id ∧
      r1.nodesI = (List.range n).map (subOf g) ++ [subOf g 0] ∧ r1.nodesR = [] ∧
      r2.nodesR = ((List.range n).map (subOf g)).reverse ++ [subOf g (n - 1)] ∧ r2.nodesI = [] ∧
      r1.stopsI = r1.nodesI ∧ r1.stopsR = r1.nodesR ∧ r2.stopsI = r2.nodesI ∧ r2.stopsR = r2.nodesR ∧
      OnStreets g r1.nodesI ∧ OnStreets g r2.nodesR ∧
      addAllRoutes (Network.init g) [r1, r2] = .ok ⟨g, [r1, r2], [r1.id, r2.id], [m]⟩) ∧
    (n < 2 → s.circularRoutes m = .error .CircularRouteIsNotValid) := by
  subst hg
  constructor
  · intro hn
    have h1 := (ring_streets (i := 0) (j := n) hs hn).1
    have h2 := (ring_streets (i := n - 1) (j := n) hs hn).2
    rw [ring_full hn] at h1
    rw [ring_full_back hn] at h2
    have hid : ("CIR_I_".toList ++ m.name : Str) ≠ "CIR_R_".toList ++ m.name := by
      intro h
      have := List.append_cancel_right h
      revert this
      decide +kernel
    refine ⟨_, _, circularRoutes_eq hs hn m, rfl, rfl, rfl, rfl, hid, rfl, rfl, rfl, rfl, rfl, rfl, rfl, rfl, h1, h2, ?_⟩
    have := addAllRoutes_ok (g := s.graph) (m := m) (rs := [
      ⟨"CIR_I_".toList ++ m.name, m, (List.range n).map (subOf s.graph) ++ [subOf s.graph 0], [],
        (List.range n).map (subOf s.graph) ++ [subOf s.graph 0], [], .circular⟩,
      ⟨"CIR_R_".toList ++ m.name, m, [], ((List.range n).map (subOf s.graph)).reverse ++ [subOf s.graph (n - 1)],
        [], ((List.range n).map (subOf s.graph)).reverse ++ [subOf s.graph (n - 1)], .circular⟩]) (by
      intro r hr
      simp only [List.mem_cons, List.not_mem_nil, or_false] at hr
      rcases hr with rfl | rfl
      · exact ⟨rfl, h1⟩
      · exact ⟨rfl, by intro p hp; simp [pairs] at hp⟩) (by
      simp only [List.map_cons, List.map_nil, List.nodup_cons, List.mem_singleton, List.not_mem_nil, not_false_eq_true,
        List.nodup_nil, and_true]
      exact hid)
    simpa using this
  · intro hn
    unfold Network.circularRoutes
    rw [hs.zones, cityZones_length, raiseIf_pos (by omega)]
    rfl

/-- C30: one feeder route per zone, between its periphery and its subcentre. -/
theorem C30_feeder_routes {g : Graph K} {n : Nat} (hs : CityShape g n) (hd : DistinctIds g) (s : Network K)
    (hg : s.graph = g) (m : Mode K) :
    ∃ rs, s.feederRoutes m = .ok rs ∧ RouteFamily g m n (routeLabel "F".toList m.name)
      (fun i => [perOf g i, subOf g i]) (fun i => [perOf g i, subOf g i]) rs := family_feeder hs hd s hg m

/-- C31: one radial route per zone, from the periphery (short: from the subcentre) through the subcentre to the CBD;
express routes do not stop at the subcentre.  When both variants are asked for, the route is the short one. -/
theorem C31_radial_routes {g : Graph K} {n : Nat} (hs : CityShape g n) (hd : DistinctIds g) (s : Network K)
    (hg : s.graph = g) (m : Mode K) (short express : Bool) :
    ∃ rs, s.radialRoutes m short express = .ok rs ∧
      RouteFamily g m n
        (routeLabel (if short then "RS".toList else if express then "RE".toList else "R".toList) m.name)
        (fun i => if short then [subOf g i, cbdOf g] else [perOf g i, subOf g i, cbdOf g])
        (fun i => if short then [subOf g i, cbdOf g] else if express then [perOf g i, cbdOf g]
          else [perOf g i, subOf g i, cbdOf g]) rs := by
  have := family_radial hs hd s hg m short express
  cases short <;> cases express <;> exact this

/-- C32: for `1 ≤ jump ≤ n/2`, one diametral route from each zone `i` through the CBD to the zone `jump` places further. -/
theorem C32_diametral_routes {g : Graph K} {n j : Nat} (hs : CityShape g n) (hd : DistinctIds g) (s : Network K)
    (hg : s.graph = g) (m : Mode K) (short express : Bool) (hj : 1 ≤ j) (hjn : 2 * j ≤ n) :
    ∃ rs, s.diametralRoutes m j short express = .ok rs ∧
      RouteFamily g m (pairsAt n j)
        (routeLabel ("D".toList ++ (if short then "S".toList else []) ++ (if express then "E".toList else []) ++
          showInt j) m.name)
        (fun i => if short then [subOf g i, cbdOf g, subOf g ((i + j) % n)]
          else [perOf g i, subOf g i, cbdOf g, subOf g ((i + j) % n), perOf g ((i + j) % n)])
        (fun i => if express then (if short then [subOf g i, subOf g ((i + j) % n)] else [perOf g i, perOf g ((i + j) % n)])
          else if short then [subOf g i, cbdOf g, subOf g ((i + j) % n)]
          else [perOf g i, subOf g i, cbdOf g, subOf g ((i + j) % n), perOf g ((i + j) % n)]) rs := by
  have := family_diametral hs hd s hg hj hjn m short express
  cases short <;> cases express <;> exact this

/-- C32: the diametral (and tangential) routes join every pair of zones at distance `jump` exactly once; other values of
`jump` are rejected. -/
theorem C32_each_pair_once {n j a b : Nat} (hj : 1 ≤ j) (hjn : 2 * j ≤ n) (ha : a < n) (hb : b < n)
    (h : (a + j) % n = b ∨ (b + j) % n = a) :
    ∃ i, (i < pairsAt n j ∧ ((i = a ∧ (i + j) % n = b) ∨ (i = b ∧ (i + j) % n = a))) ∧
      ∀ i', i' < pairsAt n j → ((i' = a ∧ (i' + j) % n = b) ∨ (i' = b ∧ (i' + j) % n = a)) → i' = i :=
  pairs_covered hj hjn ha hb h

/-- C32: other values of `jump` are rejected. -/
theorem C32_jump_rejected {g : Graph K} {n : Nat} (hs : CityShape g n) (s : Network K) (hg : s.graph = g) (m : Mode K)
    (jump : Int) (short express : Bool) (h : jump < 1 ∨ (n : Int) < 2 * jump) :
    s.diametralRoutes m jump short express = .error .JumpIsNotValid := by
  subst hg
  unfold Network.diametralRoutes
  rw [cbdId_eq hs, py_ok_bind, hs.zones, cityZones_length, raiseIf_pos (by omega)]
  rfl

/-- C33: for `1 ≤ jump ≤ n/2`, one tangential route from each zone `i`, along the ring of subcentres through `jump` steps;
other values of `jump` are rejected. -/
theorem C33_tangential_routes {g : Graph K} {n j : Nat} (hs : CityShape g n) (hd : DistinctIds g) (s : Network K)
    (hg : s.graph = g) (m : Mode K) (short express : Bool) (hj : 1 ≤ j) (hjn : 2 * j ≤ n) :
    ∃ rs, s.tangentialRoutes m j short express = .ok rs ∧
      RouteFamily g m (pairsAt n j)
        (routeLabel ("T".toList ++ (if short then "S".toList else []) ++ (if express then "E".toList else []) ++
          showInt j) m.name)
        (fun i => if short then ringFrom g n i j else [perOf g i] ++ ringFrom g n i j ++ [perOf g ((i + j) % n)])
        (fun i => if express then (if short then [subOf g i, subOf g ((i + j) % n)] else [perOf g i, perOf g ((i + j) % n)])
          else if short then ringFrom g n i j else [perOf g i] ++ ringFrom g n i j ++ [perOf g ((i + j) % n)]) rs := by
  have := family_tangential hs hd s hg hj hjn m short express
  have e : ∀ i, ringFrom g n i j = (ringPos n i j).map (idAt g) := by
    intro i; simp [ringFrom, ringPos, subOf]
  simp only [e]
  cases short <;> cases express <;>
    simpa [tangNodes, tangStops, tangPrefix, perOf, subOf] using this

/-- C33: other values of `jump` are rejected. -/
theorem C33_jump_rejected {g : Graph K} {n : Nat} (hs : CityShape g n) (s : Network K) (hg : s.graph = g) (m : Mode K)
    (jump : Int) (short express : Bool) (h : jump < 1 ∨ (n : Int) < 2 * jump) :
    s.tangentialRoutes m jump short express = .error .JumpIsNotValid := by
  subst hg
  unfold Network.tangentialRoutes
  rw [hs.zones, cityZones_length, raiseIf_pos (by omega)]
  rfl

/-! ### concrete cases -/

section Examples

attribute [local instance] ratMath

/-- a bus -/
def demoMode : Mode ℚ := ⟨1, "bus".toList, 0, 8, 2, 1/10, 20, 2, 120, 120, 1/2, 1/10, 1, 1⟩

/-- a city with `n` zones -/
def demoCity (n : Int) : Graph ℚ :=
  ((buildFromParameters (K := ℚ) n 10 (1/2) 2 none none none none none).toOption).getD
    ⟨[], [], [], none, none, none, none, none, none, none, none, none⟩

example : ((Network.init (demoCity 5)).circularRoutes demoMode).toOption.map (fun l => l.map fun r => (r.nodesI, r.nodesR)) =
    some [([2, 4, 6, 8, 10, 2], []), ([], [10, 8, 6, 4, 2, 10])] := by decide +kernel

example : ((Network.init (demoCity 5)).diametralRoutes demoMode 2 false false).toOption.map
    (fun l => l.map fun r => r.nodesI) =
    some [[1, 2, 0, 6, 5], [3, 4, 0, 8, 7], [5, 6, 0, 10, 9], [7, 8, 0, 2, 1], [9, 10, 0, 4, 3]] := by decide +kernel

example : ((Network.init (demoCity 5)).tangentialRoutes demoMode 2 false true).toOption.map
    (fun l => l.map fun r => (r.nodesI, r.stopsI)) =
    some [([1, 2, 4, 6, 5], [1, 5]), ([3, 4, 6, 8, 7], [3, 7]), ([5, 6, 8, 10, 9], [5, 9]), ([7, 8, 10, 2, 1], [7, 1]),
      ([9, 10, 2, 4, 3], [9, 3])] := by decide +kernel

/-- the hypotheses of C29-C33 hold for every number of zones -/
example (n : Nat) : ∃ g : Graph ℚ, CityShape g n ∧ DistinctIds g := by
  have h : CityParamsOk (K := ℚ) (n : Int) 10 (1/2) 2 none none none none none :=
    ⟨by omega, by norm_num, by norm_num, by norm_num, Or.inl ⟨rfl, rfl⟩, by simp, by simp, by simp⟩
  exact ⟨_, by simpa using (buildFromParameters_shape (buildFromParameters_eq h)).2⟩

/-- a route that is accepted, and one rejected for each reason -/
example : CustomOk [1, 2, 0] [0, 2, 1] [1, 0] [0, 2, 1] := by constructor <;> decide
example : (mkRoute (some "r".toList) demoMode (some "1,2,0".toList) (some "0,2,1".toList) (some "1,0".toList)
    (some "0,2,1".toList)).toOption.map (fun r => (r.nodesI, r.stopsI)) = some ([1, 2, 0], [1, 0]) := by decide +kernel
example : mkRoute (some "r".toList) demoMode (some "1,2,0".toList) (some "0,2".toList) (some "1,0".toList)
    (some "0,2".toList) = .error .NotCycle := by decide +kernel
example : mkRoute (some "r".toList) demoMode (some "1,2,1,0".toList) (some "0,2,1".toList) (some "1,0".toList)
    (some "0,2,1".toList) = .error .NodeSequencesIsNotValid := by decide +kernel
example : mkRoute (some "r".toList) demoMode (some "1,2,0".toList) (some "0,2,1".toList) (some "1,2".toList)
    (some "0,2,1".toList) = .error .LastStopIsNotValid := by decide +kernel
example : mkRoute (some "r".toList) demoMode (some "1,2,0".toList) (some "0,2,1".toList) (some "1,7,0".toList)
    (some "0,2,1".toList) = .error .StopsSequences := by decide +kernel

/-- of three consecutive routes of a mode the second one survives its removal -/
example : ((((Network.init (demoCity 3)).feederRoutes demoMode).toOption.map
    fun l => (survivors demoMode l).map Route.id)) = some ["F_bus_2".toList] := by decide +kernel

end Examples

end Sidermit
