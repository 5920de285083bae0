import Verif.Props.Clock
import Verif.Spec.Families

/-!
C91 for the predefined lines.
-/

set_option linter.unusedSectionVars false

namespace Sidermit

section Generic

variable {K : Type} [Field K] [LinearOrder K] [IsStrictOrderedRing K] [PyMath K] {g : Graph K} {n : Nat}
  {routes : List (Route K)} {sPTP : K} {freq : Option (Dict Str K)} {x : ExtGraph K}

/-- a way on streets with two nodes or more only has nodes of the city -/
theorem streets_nodes {l : List Int} (h : OnStreets g l) (h2 : 2 ≤ l.length) : ∀ a ∈ l, ∃ c ∈ g.nodes, c.id = a := by
  induction l with
  | nil => simp
  | cons a t ih =>
    match t, ih with
    | [], _ => simp at h2
    | b :: t', ih =>
      have hch := (pairs_forall (fun a b => g.edgeExist a b = true) _).1 h
      have h1 := (List.isChain_cons_cons.1 hch).1
      intro c hc
      rcases List.mem_cons.1 hc with rfl | hc
      · exact (edgeExist_nodes h1).1
      · cases t' with
        | nil =>
          rw [List.mem_singleton] at hc
          rw [hc]
          exact (edgeExist_nodes h1).2
        | cons d t'' =>
          exact ih ((pairs_forall (fun a b => g.edgeExist a b = true) _).2 hch.tail) (by simp) c hc

/-- nodes of the city with the given identifiers -/
theorem nodes_of_ids {l : List Int} (h : ∀ a ∈ l, ∃ c ∈ g.nodes, c.id = a) :
    ∃ A : List (Node K), (∀ c ∈ A, c ∈ g.nodes) ∧ A.map Node.id = l := by
  induction l with
  | nil => exact ⟨[], by simp, rfl⟩
  | cons a t ih =>
    obtain ⟨c, hc, hid⟩ := h a (by simp)
    obtain ⟨A, h1, h2⟩ := ih fun b hb => h b (List.mem_cons_of_mem _ hb)
    refine ⟨c :: A, ?_, by rw [List.map_cons, hid, h2]⟩
    intro b hb
    rcases List.mem_cons.1 hb with rfl | hb
    · exact hc
    · exact h1 b hb

theorem two_way_places {r : Route K} (hw : TwoWay g r) (hlen : 2 ≤ r.nodesI.length) (d : Dir) :
    ∀ a ∈ r.nodesOf d, ∃ c ∈ g.nodes, c.id = a := by
  intro a ha
  refine streets_nodes hw.streetsI hlen a ?_
  cases d with
  | I => exact ha
  | R => exact List.mem_reverse.1 (by rw [← hw.reversed]; exact ha)

theorem two_way_stops {r : Route K} (hw : TwoWay g r) (d : Dir) : (r.stopsOf d).Sublist (r.nodesOf d) := by
  cases d with
  | I => exact hw.stops_in_order
  | R =>
    show r.stopsR.Sublist r.nodesR
    rw [hw.reversed, hw.stops_reversed]
    exact List.reverse_sublist.2 hw.stops_in_order

/-- C91 holds for all well formed two-way lines whose nodes are served: there are times of the passengers from stop to stop
in both directions, and their sum is the running time of the vehicle. -/
theorem C91_two_way (hs : CityShape g n) (hd : DistinctIds g) (h : buildExtGraph g routes sPTP freq = .ok x)
    (hids : (routes.map Route.id).Nodup) (hv : ∀ r ∈ routes, r.mode.v ≠ 0) {t : Dict Str K}
    (ht : linesTravelTime routes g.edgesDistance = .ok t) {k : Nat} {r : Route K} (hk : routes[k]? = some r)
    (hct : r.type ≠ .circular) (hw : TwoWay g r) (hlen : 2 ≤ r.nodesI.length)
    (hser : ∀ a ∈ g.nodes, a.id ∈ r.nodesI → Served g routes a) :
    (∀ d, ∃ ts, RideTimes x r k d ts) ∧
    ∀ ts : Dir → List K, (∀ d, RideTimes x r k d (ts d)) → (ts .I).sum + (ts .R).sum = t.getD r.id 0 := by
  have hpl := two_way_places hw hlen
  refine ⟨fun d => rideTimes_exist hd h hk hct d fun a ha => hpl d a ((two_way_stops hw d).subset ha), fun ts hts => ?_⟩
  choose A hA hAid using fun d => nodes_of_ids (hpl d)
  refine C91_clocks_agree_partial hs hd h hids hv ht hk hw.valid (two_way_stops hw) (A := A) ?_ hAid (fun d => ?_) hts
  · intro d a ha
    have hin : a.id ∈ r.nodesOf d := by
      rw [← hAid d]
      exact List.mem_map_of_mem ha
    refine ⟨hA d a ha, hser _ (hA d a ha) ?_⟩
    cases d with
    | I => exact hin
    | R => exact List.mem_reverse.1 (by rw [← hw.reversed]; exact hin)
  · cases d
    exacts [hw.streetsI, hw.streetsR]

/-- lines of a family with two nodes or more can be assigned and have running times -/
theorem family_built (hd : DistinctIds g) {m : Mode K} (hmd : (m.d : K) ≠ 0) (hmv : m.v ≠ 0) {j : Nat}
    {name : Nat → Str} {nodes stops : Nat → List Int} {rs : List (Route K)} (hf : RouteFamily g m j name nodes stops rs)
    (hlen : ∀ i, i < j → 2 ≤ (nodes i).length) (sPTP : K) (freq : Option (Dict Str K)) :
    ∃ x t, buildExtGraph g rs sPTP freq = .ok x ∧ linesTravelTime rs g.edgesDistance = .ok t ∧ (∀ r ∈ rs, r.mode.v ≠ 0) ∧
      ∀ (k : Nat) (r : Route K), rs[k]? = some r → k < j ∧ r.mode = m ∧ r.type ≠ .circular ∧ r.nodesI = nodes k ∧
        r.stopsI = stops k ∧ TwoWay g r ∧ 2 ≤ r.nodesI.length ∧ ∀ d, ∃ ts, RideTimes x r k d ts := by
  have hall : ∀ (k : Nat) (r : Route K), rs[k]? = some r → k < j ∧ r.mode = m ∧ r.type ≠ .circular ∧ r.nodesI = nodes k ∧
        r.stopsI = stops k ∧ TwoWay g r ∧ 2 ≤ r.nodesI.length := by
    intro k r hk
    have hlt : k < j := by
      rw [← hf.count]
      exact (List.getElem?_eq_some_iff.1 hk).1
    obtain ⟨r', h1, _, h2, h3, h4, h5, h6⟩ := hf.each k hlt
    rw [hk] at h1
    cases h1
    exact ⟨hlt, h2, (by rw [h3]; exact fun hh => by cases hh), h4, h5, h6, by rw [h4]; exact hlen k hlt⟩
  have hfit : ∀ r ∈ rs, r.Fits g := by
    intro r hr
    obtain ⟨k, hk⟩ := List.mem_iff_getElem?.1 hr
    obtain ⟨_, h1, _, _, _, h4, h5⟩ := hall k r hk
    refine ⟨fun d i id hn => two_way_places h4 h5 d id ((two_way_stops h4 d).subset (List.mem_of_getElem? hn.1)),
      fun _ d i id _ => ?_, by rw [h1]; exact hmd, by rw [h1]; exact hmv⟩
    cases d
    exacts [h4.valid.nonemptyI, h4.valid.nonemptyR]
  obtain ⟨x, hx⟩ : ∃ x, buildExtGraph g rs sPTP freq = .ok x := buildExtGraphWith_ok hfit sPTP _
  have hv : ∀ r ∈ rs, r.mode.v ≠ 0 := fun r hr => (hfit r hr).speed
  refine ⟨x, _, hx, linesTravelTime_fold g.edgesDistance rs hv [], hv, ?_⟩
  intro k r hk
  obtain ⟨h0, h1, h2, h3, h4, h5, h6⟩ := hall k r hk
  exact ⟨h0, h1, h2, h3, h4, h5, h6, fun d => rideTimes_exist hd hx hk h2 d fun a ha =>
    two_way_places h5 h6 d a ((two_way_stops h5 d).subset ha)⟩

/-- lines of a family whose lines stop everywhere can be assigned, and the clocks agree on all of them -/
theorem family_clocks (hs : CityShape g n) (hd : DistinctIds g) {m : Mode K} (hmd : (m.d : K) ≠ 0) (hmv : m.v ≠ 0) {j : Nat}
    {name : Nat → Str} {nodes : Nat → List Int} {rs : List (Route K)} (hf : RouteFamily g m j name nodes nodes rs)
    (hlen : ∀ i, i < j → 2 ≤ (nodes i).length) (sPTP : K) (freq : Option (Dict Str K)) :
    ∃ x t, buildExtGraph g rs sPTP freq = .ok x ∧ linesTravelTime rs g.edgesDistance = .ok t ∧
      ∀ (k : Nat) (r : Route K), rs[k]? = some r → (∀ d, ∃ ts, RideTimes x r k d ts) ∧
        ∀ ts : Dir → List K, (∀ d, RideTimes x r k d (ts d)) → (ts .I).sum + (ts .R).sum = t.getD r.id 0 := by
  obtain ⟨x, t, hx, ht, hv, hall⟩ := family_built hd hmd hmv hf hlen sPTP freq
  refine ⟨x, t, hx, ht, ?_⟩
  intro k r hk
  obtain ⟨_, _, hnc, h3, h4, h5, h6, _⟩ := hall k r hk
  refine C91_two_way hs hd hx hf.distinct hv ht hk hnc h5 h6 ?_
  intro a ha hin
  obtain ⟨i, hi⟩ := List.mem_iff_getElem?.1 ha
  rw [h3, ← h4] at hin
  obtain ⟨p, hp⟩ := List.mem_iff_getElem?.1 hin
  exact ⟨⟨r.mode, ⟨i, a⟩⟩, ⟨hi, r, List.mem_of_getElem? hk, rfl, .I, p, hp, fun h => absurd h hnc⟩, rfl⟩

/-- requests for two-way lines that stop everywhere -/
def FamilyRequest.StopsEverywhere : FamilyRequest K → Prop
  | .circular _ => False
  | .feeder _ => True
  | .radial _ short express => short = true ∨ express = false
  | .diametral _ _ _ express => express = false
  | .tangential _ _ _ express => express = false

/-- C91 for the predefined lines: feeder, radial, diametral and tangential lines that stop everywhere, of a mode with a speed
and a number of parallel lines that are not zero, can be assigned, and on each of them the clocks agree. -/
theorem C91_families (hs : CityShape g n) (hd : DistinctIds g) {q : FamilyRequest K} (hq : q.Possible n)
    (he : q.StopsEverywhere) (hmd : (q.mode.d : K) ≠ 0) (hmv : q.mode.v ≠ 0) (sPTP : K) (freq : Option (Dict Str K)) :
    ∃ rs x t, q.run (Network.init g) = .ok rs ∧ buildExtGraph g rs sPTP freq = .ok x ∧
      linesTravelTime rs g.edgesDistance = .ok t ∧
      ∀ (k : Nat) (r : Route K), rs[k]? = some r → (∀ d, ∃ ts, RideTimes x r k d ts) ∧
        ∀ ts : Dir → List K, (∀ d, RideTimes x r k d (ts d)) → (ts .I).sum + (ts .R).sum = t.getD r.id 0 := by
  cases q with
  | circular m => exact absurd he id
  | feeder m =>
    obtain ⟨rs, h1, h2⟩ := C30_feeder_routes hs hd (Network.init g) rfl m
    obtain ⟨x, t, h⟩ := family_clocks hs hd hmd hmv h2 (fun i _ => by simp) sPTP freq
    exact ⟨rs, x, t, h1, h⟩
  | radial m short express =>
    obtain ⟨rs, h1, h2⟩ := C31_radial_routes hs hd (Network.init g) rfl m short express
    have hsame : (fun i => if short then [subOf g i, cbdOf g] else if express then [perOf g i, cbdOf g]
        else [perOf g i, subOf g i, cbdOf g]) =
        fun i => if short then [subOf g i, cbdOf g] else [perOf g i, subOf g i, cbdOf g] := by
      rcases he with h | h <;> simp [h]
    rw [hsame] at h2
    obtain ⟨x, t, h⟩ := family_clocks hs hd hmd hmv h2 (fun i _ => by split_ifs <;> simp) sPTP freq
    exact ⟨rs, x, t, h1, h⟩
  | diametral m jump short express =>
    have he' : express = false := he
    subst he'
    obtain ⟨h1, h2⟩ := hq
    obtain ⟨j, rfl⟩ := Int.eq_ofNat_of_zero_le (by omega : (0 : Int) ≤ jump)
    obtain ⟨rs, h3, h4⟩ := C32_diametral_routes hs hd (Network.init g) rfl m short false (j := j) (by omega) (by omega)
    simp only [Bool.false_eq_true, if_false] at h4
    obtain ⟨x, t, h⟩ := family_clocks hs hd hmd hmv h4 (fun i _ => by split_ifs <;> simp) sPTP freq
    exact ⟨rs, x, t, h3, h⟩
  | tangential m jump short express =>
    have he' : express = false := he
    subst he'
    obtain ⟨h1, h2⟩ := hq
    obtain ⟨j, rfl⟩ := Int.eq_ofNat_of_zero_le (by omega : (0 : Int) ≤ jump)
    obtain ⟨rs, h3, h4⟩ := C33_tangential_routes hs hd (Network.init g) rfl m short false (j := j) (by omega) (by omega)
    simp only [Bool.false_eq_true, if_false] at h4
    have hlen : ∀ i, i < pairsAt n j → 2 ≤ (if short = true then ringFrom g n i j
        else [perOf g i] ++ ringFrom g n i j ++ [perOf g ((i + j) % n)]).length := by
      intro i _
      have hr : (ringFrom g n i j).length = j + 1 := by simp [ringFrom]
      split_ifs
      · omega
      · simp only [List.length_append, List.length_cons, List.length_nil]
        omega
    obtain ⟨x, t, h⟩ := family_clocks hs hd hmd hmv h4 hlen sPTP freq
    exact ⟨rs, x, t, h3, h⟩

end Generic

/-! ## examples -/

section Examples

attribute [local instance] ratMath

/-- the hypotheses of `C91_families` hold for the diametral lines of a city with four zones -/
example : (FamilyRequest.diametral demoMode 2 false false).Possible 4 ∧
    (FamilyRequest.diametral demoMode 2 false false).StopsEverywhere ∧ (demoMode.d : ℚ) ≠ 0 ∧ demoMode.v ≠ 0 := by
  refine ⟨⟨by norm_num, by norm_num⟩, rfl, by decide +kernel, by decide +kernel⟩

example : ((FamilyRequest.diametral demoMode 2 false false).run (Network.init (demoCity 4))).toOption.map
    (fun rs => rs.map fun r => (r.nodesI, r.stopsI)) = some [([1, 2, 0, 6, 5], [1, 2, 0, 6, 5]), ([3, 4, 0, 8, 7], [3, 4, 0, 8, 7])] := by
  decide +kernel

end Examples

end Sidermit
