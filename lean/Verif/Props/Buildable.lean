import Verif.Props.Clock
import Verif.Props.Constructor

/-!
C92: which networks can be assigned.
-/

set_option linter.unusedSectionVars false

namespace Sidermit

theorem mapM_first_error {α β : Type} {f : α → Py β} {err : PyErr} {l : List α} (h : l.mapM f = .error err) :
    ∃ a ∈ l, f a = .error err := by
  induction l with
  | nil => cases h
  | cons a t ih =>
    rw [List.mapM_cons] at h
    cases ha : f a with
    | error e =>
      rw [ha] at h
      cases h
      exact ⟨a, List.mem_cons_self .., ha⟩
    | ok b =>
      simp only [ha, py_ok_bind] at h
      cases ht : t.mapM f with
      | error e =>
        rw [ht] at h
        cases h
        obtain ⟨c, hc, hce⟩ := ih ht
        exact ⟨c, List.mem_cons_of_mem _ hc, hce⟩
      | ok l => rw [ht] at h; cases h

section Generic

variable {K : Type} [Field K] [LinearOrder K] [IsStrictOrderedRing K] [PyMath K] {g : Graph K} {routes : List (Route K)}

/-- all stops of the line that get a route node are nodes of the city -/
def StopsInCity (g : Graph K) (r : Route K) : Prop := ∀ a, r.StopsAt a → ∃ c ∈ g.nodes, c.id = a

theorem directionNodes_errors {stops : List (StopNode K)} {k : Nat} {r : Route K} {d : Dir} {e : PyErr}
    (h : directionNodes stops k r d = .error e) : e = .AttributeError := by
  unfold directionNodes at h
  cases hm : (keptStops r d).mapM (mkRouteNode stops k r d) with
  | ok l => rw [hm] at h; cases h
  | error e' =>
    rw [hm] at h
    cases h
    obtain ⟨p, _, hp⟩ := mapM_first_error hm
    unfold mkRouteNode at hp
    split at hp
    · cases hp; rfl
    · cases hp

theorem routeNodesOf_errors {stops : List (StopNode K)} {p : Route K × Nat} {e : PyErr}
    (h : routeNodesOf stops p = .error e) : e = .AttributeError := by
  unfold routeNodesOf at h
  cases hi : directionNodes stops p.2 p.1 .I with
  | error e' => rw [hi] at h; cases h; exact directionNodes_errors hi
  | ok a =>
    simp only [hi, py_ok_bind] at h
    cases hr : directionNodes stops p.2 p.1 .R with
    | error e' => rw [hr] at h; cases h; exact directionNodes_errors hr
    | ok b => rw [hr] at h; cases h

/-- C92: with usable speeds and numbers of lines, the extended graph of any lines is built exactly when all their stops are
in the city; otherwise the exception is an `AttributeError`. -/
theorem C92_buildable_iff (hn : ∀ r ∈ routes, r.Sound)
    (hm : ∀ r ∈ routes, (r.mode.d : K) ≠ 0 ∧ r.mode.v ≠ 0) (sPTP : K) (freq : Option (Dict Str K)) :
    ((∃ x, buildExtGraph g routes sPTP freq = .ok x) ↔ ∀ r ∈ routes, StopsInCity g r) ∧
    (¬ (∀ r ∈ routes, StopsInCity g r) → buildExtGraph g routes sPTP freq = .error .AttributeError) := by
  have hbad : ¬ (∀ r ∈ routes, StopsInCity g r) → buildExtGraph g routes sPTP freq = .error .AttributeError := by
    intro hno
    unfold buildExtGraph buildExtGraphWith
    cases he : buildRouteNodes routes (buildStopNodes (buildTreeGraph routes (buildCityNodes g))) with
    | error e =>
      have hea : e = .AttributeError := by
        unfold buildRouteNodes at he
        cases hm' : routes.zipIdx.mapM (routeNodesOf (buildStopNodes (buildTreeGraph routes (buildCityNodes g)))) with
        | error e' =>
          rw [hm'] at he
          cases he
          obtain ⟨p, _, hp⟩ := mapM_first_error hm'
          exact routeNodesOf_errors hp
        | ok l => rw [hm'] at he; cases he
      subst hea
      simp only [he]
      rfl
    | ok entries =>
      exfalso
      apply hno
      rintro r hr a ⟨d, i, hat⟩
      obtain ⟨k, hk⟩ := List.mem_iff_getElem?.1 hr
      have hE := buildRouteNodes_spec he
      obtain ⟨e, hmem, h1, h2, h3⟩ := hE.all k r d i a hk hat
      have hown := hE.owner e hmem
      rw [h1, hk, Option.some.injEq] at hown
      have h4 := hE.at_ e hmem
      rw [← hown, h2, h3] at h4
      have h5 := ((mem_stopNodes g routes _).1 (hE.stop e hmem).1).1
      refine ⟨e.node.stop.city.node, List.mem_of_getElem? h5, ?_⟩
      exact Option.some.inj (h4.1.symm.trans hat.1)
  refine ⟨⟨?_, ?_⟩, hbad⟩
  · rintro ⟨x, hx⟩
    by_contra hno
    rw [hbad hno] at hx
    cases hx
  · intro h
    refine buildExtGraphWith_ok (fun r hr => ⟨fun d i id hid => h r hr id ⟨d, i, hid⟩, ?_, (hm r hr).1, (hm r hr).2⟩) sPTP _
    intro hc d i id _
    rcases hn r hr with h1 | h1
    · exact absurd h1.1 hc
    · cases d
      exacts [h1.2.nonemptyI, h1.2.nonemptyR]

/-- C92 for the optimiser: when a stop is outside the city it cannot be constructed, whatever the demand, the passengers and
the frequencies are. -/
theorem C92_optimizer_raises {net : Network K} (hn : ∀ r ∈ net.routes, r.Sound)
    (hm : ∀ r ∈ net.routes, (r.mode.d : K) ≠ 0 ∧ r.mode.v ≠ 0) (h : ¬ ∀ r ∈ net.routes, StopsInCity g r) (d : Demand K)
    (pas : Passenger K) (f : Option (Dict Str K)) : Optimizer.init g d pas net f = .error .AttributeError := by
  unfold Optimizer.init Optimizer.prepare
  simp only [(C92_buildable_iff hn hm pas.pt _).2 h]
  rfl

/-- C92: for every custom line of two nodes or more that a network accepts, a line with the same way out is accepted too and
makes the network useless: no optimiser can be constructed with it. -/
theorem C92_accepted_but_useless {s : Network K} (hs : Network.Reachable g s) (hsound : ∀ r ∈ s.routes, r.Sound)
    (hm : ∀ r ∈ s.routes, (r.mode.d : K) ≠ 0 ∧ r.mode.v ≠ 0) {id : Str} {mode : Mode K}
    (hmode : (mode.d : K) ≠ 0 ∧ mode.v ≠ 0) {nodesI nodesR stopsI stopsR : Option Str} {r : Route K}
    (h : mkRoute (some id) mode nodesI nodesR stopsI stopsR = .ok r) (hadd : (s.addRoute r).2 = none)
    (hlen : 2 ≤ r.nodesI.length) :
    ∃ r', (∃ b d, mkRoute (some id) mode nodesI (some b) stopsI (some d) = .ok r') ∧ r'.nodesI = r.nodesI ∧
      (s.addRoute r').2 = none ∧ ∀ d pas f, Optimizer.init g d pas (s.addRoute r').1 f = .error .AttributeError := by
  obtain ⟨l, hmk, hok, _, y, hy, hout⟩ := (C27_bad_way_back_iff hs h hadd).2 hlen
  refine ⟨{ r with nodesR := l, stopsR := l }, ⟨_, _, hmk⟩, rfl, hok, ?_⟩
  intro d pas f
  have hroutes := ((C26_add_route hs { r with nodesR := l, stopsR := l }).2.1 hok).2.2.1
  obtain ⟨_, hmd, htype, _, _, _, _, hc⟩ := (C23_custom_route_exact _ _ _ _ _ _ _).1 hmk
  refine C92_optimizer_raises ?_ ?_ ?_ d pas f
  · rw [hroutes]
    intro r' hr'
    rcases List.mem_append.1 hr' with hr' | hr'
    · exact hsound r' hr'
    · rw [List.mem_singleton.1 hr']
      exact Or.inr ⟨by rw [htype]; simp, hc⟩
  · rw [hroutes]
    intro r' hr'
    rcases List.mem_append.1 hr' with hr' | hr'
    · exact hm r' hr'
    · rw [List.mem_singleton.1 hr', hmd]
      exact hmode
  · intro hall
    have hin := hall { r with nodesR := l, stopsR := l } (by rw [hroutes]; simp)
    obtain ⟨i, hi⟩ := List.mem_iff_getElem?.1 hy
    obtain ⟨c, hcg, hcid⟩ := hin y ⟨.R, i, hi, fun hc' => by rw [htype] at hc'; cases hc'⟩
    exact hout c hcg hcid

/-- in every city with a zone there is such a line -/
example {n : Nat} (hs : CityShape g n) (hd : DistinctIds g) (hn : 1 ≤ n) (id : Str) (m : Mode K)
    (hmode : (m.d : K) ≠ 0 ∧ m.v ≠ 0) : ∃ r', ((Network.init g).addRoute r').2 = none ∧
      ∀ d pas f, Optimizer.init g d pas ((Network.init g).addRoute r').1 f = .error .AttributeError := by
  obtain ⟨r, ⟨a, b, c, d, hr⟩, hadd, _, hbad⟩ := C27_inbound_streets_not_checked hs hd hn id m
  have hlen : 2 ≤ r.nodesI.length := by
    by_contra hlen
    exact hbad (way_back_of_one_node ((C23_custom_route_exact _ _ _ _ _ _ _).1 hr).2.2.2.2.2.2.2 (by omega))
  obtain ⟨r', _, _, h1, h2⟩ := C92_accepted_but_useless .init (by simp [Network.init]) (by simp [Network.init]) hmode hr hadd hlen
  exact ⟨r', h1, h2⟩

end Generic

end Sidermit
