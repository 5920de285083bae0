import Verif.Props.Network

/-!
C24, how far the order of the stops is left open: the constructor accepts any stops on the route between its ends.
-/

namespace Sidermit

variable {K : Type}

/-- C24 fails on every route: once a route is accepted, the same route is accepted with any other stops on its nodes that
begin and end where its nodes do, in any order and with any repetition. -/
theorem C24_any_order {id : Str} {mode : Mode K} {nodesI nodesR stopsI stopsR : Option Str} {r : Route K}
    (h : mkRoute (some id) mode nodesI nodesR stopsI stopsR = .ok r) (si sr : List Int)
    (hi : (∀ s ∈ si, s ∈ r.nodesI) ∧ si.head? = r.nodesI.head? ∧ si.getLast? = r.nodesI.getLast?)
    (hr : (∀ s ∈ sr, s ∈ r.nodesR) ∧ sr.head? = r.nodesR.head? ∧ sr.getLast? = r.nodesR.getLast?) :
    mkRoute (some id) mode nodesI nodesR (some (sequencesToString si)) (some (sequencesToString sr)) =
      .ok { r with stopsI := si, stopsR := sr } := by
  obtain ⟨h1, h2, h3, h4, h5, _, _, hc⟩ := (C23_custom_route_exact _ _ _ _ _ _ _).1 h
  exact (C23_custom_route_exact _ _ _ _ _ _ _).2 ⟨h1, h2, h3, h4, h5, C22_sequence_round_trip _, C22_sequence_round_trip _,
    ⟨hc.nonemptyI, hc.nonemptyR, hc.cycle_start, hc.cycle_end, hi.1, hr.1, hi.2.1, hi.2.2, hr.2.1, hr.2.2, hc.noloopI, hc.noloopR⟩⟩

/-- C24 fails on every route: a stop may be repeated, and then the stops are no part of the way. -/
theorem C24_repeated_accepted {id : Str} {mode : Mode K} {nodesI nodesR stopsI stopsR : Option Str} {r : Route K}
    (h : mkRoute (some id) mode nodesI nodesR stopsI stopsR = .ok r) :
    ∃ si, mkRoute (some id) mode nodesI nodesR (some (sequencesToString si)) stopsR = .ok { r with stopsI := si } ∧
      ¬ si.Sublist r.nodesI := by
  obtain ⟨h1, h2, h3, h4, h5, h6, h7, hc⟩ := (C23_custom_route_exact _ _ _ _ _ _ _).1 h
  obtain ⟨a, t, ht⟩ := List.exists_cons_of_ne_nil hc.nonemptyI
  refine ⟨a :: r.nodesI, (C23_custom_route_exact _ _ _ _ _ _ _).2 ⟨h1, h2, h3, h4, h5, C22_sequence_round_trip _, h7,
    ⟨hc.nonemptyI, hc.nonemptyR, hc.cycle_start, hc.cycle_end, ?_, hc.stopsR_on, ?_, ?_, hc.firstR, hc.lastR, hc.noloopI,
      hc.noloopR⟩⟩, ?_⟩
  · intro s hs
    show s ∈ r.nodesI
    rcases List.mem_cons.1 hs with rfl | hs
    · rw [ht]; exact List.mem_cons_self
    · exact hs
  · show some a = r.nodesI.head?
    rw [ht]; rfl
  · show (a :: r.nodesI).getLast? = r.nodesI.getLast?
    rw [ht, List.getLast?_cons_cons]
  · intro hsub
    have := hsub.length_le
    rw [List.length_cons] at this
    omega

/-- with four nodes there are different stops in another order between the same ends -/
theorem swapped_stops {l : List Int} (hn : l.Nodup) (h4 : 4 ≤ l.length) :
    ∃ si : List Int, si.Nodup ∧ (∀ s ∈ si, s ∈ l) ∧ si.head? = l.head? ∧ si.getLast? = l.getLast? ∧ ¬ si.Sublist l := by
  rcases l with _ | ⟨a, _ | ⟨x, _ | ⟨y, _ | ⟨b, t⟩⟩⟩⟩
  · simp at h4
  · simp at h4
  · simp at h4
  · simp at h4
  · simp only [List.nodup_cons, List.mem_cons, not_or] at hn
    obtain ⟨⟨hax, hay, hab, hat⟩, ⟨hxy, hxb, hxt⟩, ⟨hyb, hyt⟩, hbt, htn⟩ := hn
    refine ⟨a :: y :: x :: b :: t, ?_, ?_, rfl, by simp only [List.getLast?_cons_cons], ?_⟩
    · simp only [List.nodup_cons, List.mem_cons, not_or]
      exact ⟨⟨hay, hax, hab, hat⟩, ⟨fun e => hxy e.symm, hyb, hyt⟩, ⟨hxb, hxt⟩, hbt, htn⟩
    · intro s hs
      simp only [List.mem_cons] at hs ⊢
      tauto
    · intro hsub
      have e := hsub.eq_of_length (by simp)
      simp only [List.cons.injEq] at e
      exact hxy e.2.1.symm

/-- C24, exactly where it holds for different stops: some choice of different stops is accepted out of the order of travel
exactly when the way has four nodes or more. -/
theorem C24_out_of_order_iff {id : Str} {mode : Mode K} {nodesI nodesR stopsI stopsR : Option Str} {r : Route K}
    (h : mkRoute (some id) mode nodesI nodesR stopsI stopsR = .ok r) :
    (∃ si, si.Nodup ∧ mkRoute (some id) mode nodesI nodesR (some (sequencesToString si)) stopsR = .ok { r with stopsI := si } ∧
      ¬ si.Sublist r.nodesI) ↔ 4 ≤ r.nodesI.length := by
  obtain ⟨h1, h2, h3, h4, h5, h6, h7, hc⟩ := (C23_custom_route_exact _ _ _ _ _ _ _).1 h
  constructor
  · rintro ⟨si, hnd, hok, hsub⟩
    by_contra hlen
    have hp := C24_stops_in_travel_order_partial hok
    have hle : si.length ≤ r.nodesI.length := (hnd.subperm hp.1).length_le
    exact hsub (hp.2.2.2.2.2.2.1 hnd (by show si.length ≤ 3; omega))
  · intro hlen
    obtain ⟨si, hnd, hon, hf, hl, hsub⟩ := swapped_stops hc.noloopI hlen
    exact ⟨si, hnd, (C23_custom_route_exact _ _ _ _ _ _ _).2 ⟨h1, h2, h3, h4, h5, C22_sequence_round_trip _, h7,
      ⟨hc.nonemptyI, hc.nonemptyR, hc.cycle_start, hc.cycle_end, hon, hc.stopsR_on, hf, hl, hc.firstR, hc.lastR, hc.noloopI,
        hc.noloopR⟩⟩, hsub⟩

/-- a way of five nodes (a line through the centre) is accepted, so its stops may be given out of order -/
example (mode : Mode K) : ∃ si : List Int, si.Nodup ∧ ¬ si.Sublist [1, 2, 0, 4, 3] ∧
    mkRoute (some "r1".toList) mode (some "1,2,0,4,3".toList) (some "3,4,0,2,1".toList) (some (sequencesToString si))
      (some "3,0,1".toList) = .ok ⟨"r1".toList, mode, [1, 2, 0, 4, 3], [3, 4, 0, 2, 1], si, [3, 0, 1], .custom⟩ := by
  have hok : CustomOk [1, 2, 0, 4, 3] [3, 4, 0, 2, 1] [1, 0, 3] [3, 0, 1] := by constructor <;> decide +kernel
  have h1 : sequencesToList (some "1,2,0,4,3".toList) = .ok [1, 2, 0, 4, 3] := by decide +kernel
  have h2 : sequencesToList (some "3,4,0,2,1".toList) = .ok [3, 4, 0, 2, 1] := by decide +kernel
  have h3 : sequencesToList (some "1,0,3".toList) = .ok [1, 0, 3] := by decide +kernel
  have h4 : sequencesToList (some "3,0,1".toList) = .ok [3, 0, 1] := by decide +kernel
  have h : mkRoute (some "r1".toList) mode (some "1,2,0,4,3".toList) (some "3,4,0,2,1".toList) (some "1,0,3".toList)
      (some "3,0,1".toList) = .ok ⟨"r1".toList, mode, [1, 2, 0, 4, 3], [3, 4, 0, 2, 1], [1, 0, 3], [3, 0, 1], .custom⟩ :=
    (C23_custom_route_exact _ _ _ _ _ _ _).2 ⟨rfl, rfl, rfl, h1, h2, h3, h4, hok⟩
  obtain ⟨si, ha, hb, hc⟩ := (C24_out_of_order_iff h).2 (by show 4 ≤ ([1, 2, 0, 4, 3] : List Int).length; decide)
  exact ⟨si, ha, hc, hb⟩

end Sidermit
