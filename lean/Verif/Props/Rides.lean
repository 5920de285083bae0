import Verif.Props.Service
import Verif.Spec.Rides

/-!
C68: which networks are accepted, told by the routes alone.
-/

set_option linter.unusedSectionVars false

namespace Sidermit

section Generic

variable {K : Type} [Field K] [LinearOrder K] [IsStrictOrderedRing K] [PyMath K] {g : Graph K} {routes : List (Route K)}
  {sPTP : K} {freq : Option (Dict Str K)} {x : ExtGraph K} {pas : Passenger K}

/-- the frequency of a route -/
def runs (routes : List (Route K)) (freq : Option (Dict Str K)) (id : Str) : K := (frequencies routes freq).getD id 0

/-- `n` is a route node and `e` one that its vehicle reaches afterwards (or `n` itself) -/
inductive Onward (g : Graph K) (routes : List (Route K)) : RouteNode K → RouteNode K → Prop
  | here (n : RouteNode K) (hn : n.Wanted g routes) : Onward g routes n n
  | next (p n e : RouteNode K) (hp : p.Wanted g routes) (hn : n.Wanted g routes) (hpn : p.Precedes n)
      (h : Onward g routes n e) : Onward g routes p e

theorem precedes_route {p n : RouteNode K} (hp : p.Wanted g routes) (hn : n.Wanted g routes) (h : p.Precedes n) :
    p.route = n.route := by
  have h1 := hp.1
  rw [h.1, hn.1] at h1
  exact (Option.some.inj h1).symm

theorem Onward.spec {n e : RouteNode K} (h : Onward g routes n e) : n.Wanted g routes ∧ e.Wanted g routes ∧
    n.ridx = e.ridx ∧ n.route = e.route ∧ n.dir = e.dir ∧ (n.route.type = .circular ∨ n.pos ≤ e.pos) := by
  induction h with
  | here n hn => exact ⟨hn, hn, rfl, rfl, rfl, Or.inr (le_refl _)⟩
  | next p n e hp hn hpn _ ih =>
    obtain ⟨_, h2, h3, h4, h5, h6⟩ := ih
    have hr := precedes_route hp hn hpn
    refine ⟨hp, h2, hpn.1.trans h3, hr.trans h4, hpn.2.1.trans h5, ?_⟩
    rw [hr]
    rcases h6 with h6 | h6
    · exact Or.inl h6
    · by_cases hc : n.route.type = .circular
      · exact Or.inl hc
      · right
        have := hpn.2.2
        unfold Route.stopBefore at this
        rw [if_neg hc] at this
        split_ifs at this
        have := Option.some.inj this
        omega

/-- nodes with the same route, direction and position are the same -/
theorem wanted_ext (hg : DistinctIds g) {n m : RouteNode K} (hn : n.Wanted g routes) (hm : m.Wanted g routes)
    (h1 : n.ridx = m.ridx) (h2 : n.dir = m.dir) (h3 : n.pos = m.pos) : n = m := by
  have hr : n.route = m.route := by
    have := hn.1
    rw [h1, hm.1] at this
    exact (Option.some.inj this).symm
  have hid : n.stop.city.node.id = m.stop.city.node.id := by
    have a := hn.2.1.1
    have b := hm.2.1.1
    rw [hr, h2, h3] at a
    rw [a] at b
    exact Option.some.inj b
  have hc := CityNode.In.ext hg hn.2.2.2 hm.2.2.2 hid
  have hmode : n.stop.mode = m.stop.mode := by rw [hn.2.2.1, hm.2.2.1, hr]
  obtain ⟨a1, a2, a3, a4, a5, a6⟩ := n
  obtain ⟨b1, b2, b3, b4, b5, b6⟩ := m
  simp_all

/-- the node at a position -/
theorem wanted_at (hg : DistinctIds g) (hx : buildExtGraph g routes sPTP freq = .ok x) {k : Nat} {r : Route K} {d : Dir}
    {i : Nat} {id : Int} (hk : routes[k]? = some r) (h : r.NodeAt d i id) :
    ∃ n : RouteNode K, n.Wanted g routes ∧ n.ridx = k ∧ n.route = r ∧ n.dir = d ∧ n.pos = i ∧ n.stop.city.node.id = id := by
  obtain ⟨n, ⟨h1, h2, h3, h4⟩, _⟩ := (C34_route_nodes hg hx).2.2 k r d i id hk h
  have hr : n.route = r := by
    have := h1.1
    rw [h2, hk] at this
    exact (Option.some.inj this).symm
  have hid := h1.2.1.1
  rw [hr, h3, h4, h.1] at hid
  exact ⟨n, h1, h2, hr, h3, h4, (Option.some.inj hid).symm⟩

theorem Onward.trans {a b c : RouteNode K} (h1 : Onward g routes a b) (h2 : Onward g routes b c) : Onward g routes a c := by
  induction h1 with
  | here => exact h2
  | next p n e hp hn hpn _ ih => exact .next p n c hp hn hpn (ih h2)

/-- later positions are reached, step by step -/
theorem onward_forward (hg : DistinctIds g) (hx : buildExtGraph g routes sPTP freq = .ok x) {k : Nat} {r : Route K} {d : Dir}
    (hk : routes[k]? = some r) (t : Nat) : ∀ (i : Nat) (a b : Int), r.NodeAt d i a → r.NodeAt d (i + t) b →
      ∀ n m : RouteNode K, n.Wanted g routes → m.Wanted g routes → n.ridx = k → m.ridx = k → n.dir = d → m.dir = d →
        n.pos = i → m.pos = i + t → Onward g routes n m := by
  induction t with
  | zero =>
    intro i a b _ _ n m hn hm hnk hmk hnd hmd hni hmi
    rw [wanted_ext hg hn hm (hnk.trans hmk.symm) (hnd.trans hmd.symm) (by omega)]
    exact .here m hm
  | succ t ih =>
    intro i a b ha hb n m hn hm hnk hmk hnd hmd hni hmi
    have hlt : i + 1 < (r.stopsOf d).length := by
      have := (List.getElem?_eq_some_iff.1 hb.1).1
      omega
    have hc : r.NodeAt d (i + 1) ((r.stopsOf d)[i + 1]) := ⟨List.getElem?_eq_getElem hlt, fun _ => by omega⟩
    obtain ⟨q, hq, hqk, hqr, hqd, hqi, _⟩ := wanted_at hg hx hk hc
    have hb' : r.NodeAt d (i + 1 + t) b := by
      have : i + 1 + t = i + (t + 1) := by omega
      rw [this]; exact hb
    refine .next n q m hn hq ⟨hnk.trans hqk.symm, hnd.trans hqd.symm, ?_⟩ (ih (i + 1) _ b hc hb' q m hq hm hqk hmk hqd hmd hqi (by omega))
    unfold Route.stopBefore
    rw [hqr, hqi, hni]
    split_ifs with h1 h2 h3
    · have := ha.2 h1
      omega
    · simp
    · omega
    · simp

/-- on circular routes all positions are reached from all -/
theorem onward_ring (hg : DistinctIds g) (hx : buildExtGraph g routes sPTP freq = .ok x) {k : Nat} {r : Route K} {d : Dir}
    (hk : routes[k]? = some r) (hc : r.type = .circular) {i j : Nat} {a b : Int} (ha : r.NodeAt d i a) (hb : r.NodeAt d j b)
    {n m : RouteNode K} (hn : n.Wanted g routes) (hm : m.Wanted g routes) (hnk : n.ridx = k) (hmk : m.ridx = k)
    (hnd : n.dir = d) (hmd : m.dir = d) (hni : n.pos = i) (hmi : m.pos = j) : Onward g routes n m := by
  by_cases hij : i ≤ j
  · obtain ⟨t, rfl⟩ := Nat.exists_eq_add_of_le hij
    exact onward_forward hg hx hk t i a b ha hb n m hn hm hnk hmk hnd hmd hni hmi
  have hi0 := ha.2 hc
  have hj0 := hb.2 hc
  have hil := (List.getElem?_eq_some_iff.1 ha.1).1
  set L := (r.stopsOf d).length with hL
  -- to the last position, to the first one, and on
  have hlast : r.NodeAt d (L - 1) ((r.stopsOf d)[L - 1]'(by omega)) := ⟨List.getElem?_eq_getElem (by omega), fun _ => by omega⟩
  have hfirst : r.NodeAt d 1 ((r.stopsOf d)[1]'(by omega)) := ⟨List.getElem?_eq_getElem (by omega), fun _ => by omega⟩
  obtain ⟨u, hu, huk, hur, hud, hui, _⟩ := wanted_at hg hx hk hlast
  obtain ⟨w, hw, hwk, hwr, hwd, hwi, _⟩ := wanted_at hg hx hk hfirst
  have h1 : Onward g routes n u := by
    have he : i + (L - 1 - i) = L - 1 := by omega
    exact onward_forward hg hx hk (L - 1 - i) i a _ ha (by rw [he]; exact hlast) n u hn hu hnk huk hnd hud hni (by omega)
  have h2 : Onward g routes w m := by
    have he : 1 + (j - 1) = j := by omega
    exact onward_forward hg hx hk (j - 1) 1 _ b hfirst (by rw [he]; exact hb) w m hw hm hwk hmk hwd hmd hwi (by omega)
  have h3 : u.Precedes w := by
    refine ⟨huk.trans hwk.symm, hud.trans hwd.symm, ?_⟩
    unfold Route.stopBefore
    rw [hwr, hwd, hwi, hui, if_pos hc, if_pos rfl]
  exact h1.trans (.next u w m hu hw h3 h2)

/-- a strategy on board -/
theorem strategy_onward (hg : DistinctIds g) (hx : buildExtGraph g routes sPTP freq = .ok x) {o d : Option (CityNode K)}
    {n e : RouteNode K} (h : Onward g routes n e) {c : K} (hs : Strategy x.edges pas o d (.route e) c) :
    ∃ c', Strategy x.edges pas o d (.route n) c' := by
  induction h with
  | here => exact ⟨c, hs⟩
  | next p n e hp hn hpn _ ih =>
    obtain ⟨c', hc'⟩ := ih hs
    have hmem := ((mem_route_edges hg hx _).2 ⟨p, n, hp, hn, hpn, rfl⟩).1
    exact ⟨_, .go _ hmem (by simp) (by cases o <;> simp) (by cases o <;> simp) c' hc'⟩

/-- a ride as a piece of a strategy -/
theorem ride_strategy (hg : DistinctIds g) (ha : Admissible routes sPTP freq pas)
    (hx : buildExtGraph g routes sPTP freq = .ok x) {a b : Int} (h : Ride routes (runs routes freq) a b) :
    ∃ n m : RouteNode K, n.Wanted g routes ∧ m.Wanted g routes ∧ n.stop.city.node.id = a ∧ m.stop.city.node.id = b ∧
      ∀ (o d : Option (CityNode K)) (c : K), Strategy x.edges pas o d (.stop m.stop) c →
        ∃ c', Strategy x.edges pas o d (.stop n.stop) c' := by
  obtain ⟨r, hr, hf, d, i, j, hi, hj, hlater, hends⟩ := h
  obtain ⟨k, hk⟩ := List.mem_iff_getElem?.1 hr
  obtain ⟨n, hn, hnk, hnr, hnd, hni, hna⟩ := wanted_at hg hx hk hi
  obtain ⟨m, hm, hmk, hmr, hmd, hmi, hmb⟩ := wanted_at hg hx hk hj
  have hon : Onward g routes n m := by
    rcases hlater with hc | hlt
    · exact onward_ring hg hx hk hc hi hj hn hm hnk hmk hnd hmd hni hmi
    · obtain ⟨t, rfl⟩ := Nat.exists_eq_add_of_le hlt.le
      exact onward_forward hg hx hk t i a b hi hj n m hn hm hnk hmk hnd hmd hni hmi
  have hboard : n.CanBoard := by
    unfold RouteNode.CanBoard
    rw [hnr, hnd, hna]
    exact hends.imp id And.left
  have halight : m.CanAlight := by
    unfold RouteNode.CanAlight
    rw [hmr, hmd, hmb]
    exact hends.imp id And.right
  refine ⟨n, m, hn, hm, hna, hmb, ?_⟩
  intro o dd c hs
  have he := (((C35_edges hg hx _).2.2).2 ⟨m, hm, halight, rfl⟩).1
  have h1 := Strategy.go (pas := pas) (origin := o) (dest := dd) _ he (by simp) (by cases o <;> simp) (by cases o <;> simp) c hs
  obtain ⟨c', h2⟩ := strategy_onward hg hx hon h1
  have hb := (((C35_edges hg hx _).2.1).2 ⟨n, hn, hboard, rfl⟩).1
  refine ⟨_, .wait n.stop [(_, c')] (by simp) (by simp) (by
    simp only [List.mem_singleton, forall_eq]
    refine ⟨hb, rfl, rfl, ?_⟩
    simp only [lineFreq, Option.getD_some]
    refine div_pos ?_ (ha.modes _ (List.mem_of_getElem? hn.1)).lines
    rw [hnr]; exact hf) (by simpa using h2)⟩

theorem wanted_stop {n : RouteNode K} (hn : n.Wanted g routes) : n.stop.Wanted g routes :=
  ⟨hn.2.2.2, n.route, List.mem_of_getElem? hn.1, hn.2.2.1.symm, n.dir, n.pos, hn.2.1⟩

/-- one can travel to `d` by rides from a node of the expanded graph -/
def FromHere (g : Graph K) (routes : List (Route K)) (freq : Option (Dict Str K)) (d : Int) : ENode K → Prop
  | .city c => Travel routes (runs routes freq) c.node.id d
  | .stop s => Travel routes (runs routes freq) s.city.node.id d
  | .route n => ∃ e, Onward g routes n e ∧ e.CanAlight ∧ Travel routes (runs routes freq) e.stop.city.node.id d

/-- what a strategy says about rides -/
theorem travel_of_strategy (hg : DistinctIds g) (ha : Admissible routes sPTP freq pas)
    (hx : buildExtGraph g routes sPTP freq = .ok x) {o : Option (CityNode K)} {cd : CityNode K} {n : ENode K} {c : K}
    (hs : Strategy x.edges pas o (some cd) n c) :
    FromHere g routes freq cd.node.id n := by
  induction hs with
  | arrive d hd =>
    cases hd
    exact Relation.ReflTransGen.refl
  | go e he hb hi hj c _ ih =>
    cases hty : e.type with
    | boarding => exact absurd hty hb
    | access =>
      obtain ⟨s, hsw, rfl | rfl⟩ := ((C35_edges hg hx e).1).1 ⟨he, hty⟩
      · exact ih
      · exact ih
    | alighting =>
      obtain ⟨n, hn, hc, rfl⟩ := ((C35_edges hg hx e).2.2).1 ⟨he, hty⟩
      exact ⟨n, .here n hn, hc, ih⟩
    | route =>
      obtain ⟨p, n, hp, hn, hpn, rfl⟩ := (mem_route_edges hg hx e).1 ⟨he, hty⟩
      obtain ⟨e, h1, h2, h3⟩ := ih
      exact ⟨e, .next p n e hp hn hpn h1, h2, h3⟩
  | wait s l hne _ hl _ ih =>
    obtain ⟨p, hp⟩ := List.exists_mem_of_ne_nil _ hne
    obtain ⟨h1, h2, h3, h4⟩ := hl p hp
    have ihp := ih p hp
    obtain ⟨n, hn, hc, hpe⟩ := ((C35_edges hg hx p.1).2.1).1 ⟨h1, h2⟩
    rw [hpe] at ihp h3 h4
    simp only [ENode.stop.injEq] at h3
    obtain ⟨e, h5, h6, h7⟩ := ihp
    subst h3
    show Travel _ _ _ _
    obtain ⟨_, he, h8, h9, h10, h11⟩ := h5.spec
    by_cases hsame : n.pos = e.pos
    · have := wanted_ext hg hn he h8 h10 hsame
      rw [this]; exact h7
    · refine Relation.ReflTransGen.head ⟨n.route, List.mem_of_getElem? hn.1, ?_, n.dir, n.pos, e.pos, hn.2.1, ?_, ?_, ?_⟩ h7
      · simp only [lineFreq, Option.getD_some] at h4
        have hd := (ha.modes _ (List.mem_of_getElem? hn.1)).lines
        exact (div_pos_iff_of_pos_right hd).1 h4
      · rw [h9, h10]; exact he.2.1
      · rcases h11 with h11 | h11
        · exact Or.inl h11
        · exact Or.inr (by omega)
      · unfold RouteNode.CanBoard at hc
        unfold RouteNode.CanAlight at h6
        rw [← h9, ← h10] at h6
        by_cases hcirc : n.route.type = .circular
        · exact Or.inl hcirc
        · exact Or.inr ⟨hc.resolve_left hcirc, h6.resolve_left hcirc⟩

/-- C68: there is a strategy between two nodes exactly when they are different and one can travel from one to the other by
rides. -/
theorem C68_strategies (hg : DistinctIds g) (ha : Admissible routes sPTP freq pas)
    (hx : buildExtGraph g routes sPTP freq = .ok x) (o d : Int) :
    Connected x.nodes x.edges pas o d ↔ o ≠ d ∧ Travel routes (runs routes freq) o d := by
  have hno := nodesOk hg hx
  obtain ⟨_, hstops, _, hcities, _⟩ := C34_stop_nodes hg hx
  constructor
  · rintro ⟨co, a1, rfl, cd, b1, rfl, s, s1, rfl, c, hs⟩
    refine ⟨?_, travel_of_strategy hg ha hx hs⟩
    intro hid
    have hcc : s.city = cd := hno.ids _ a1 _ b1 hid
    rw [← hcc] at hs
    have key : ∀ {n c}, Strategy x.edges pas (some s.city) (some s.city) n c → n = .city s.city := by
      intro n c h
      induction h with
      | arrive d hd => rw [Option.some.inj hd]
      | go e he hb hi hj c hc ih => exact absurd (by rw [ih]; rfl) hj
      | wait s l hne _ hl _ ih =>
        obtain ⟨p, hp⟩ := List.exists_mem_of_ne_nil _ hne
        obtain ⟨n, hn⟩ := (ha.searchable hx).boarded _ (hl p hp).1 (hl p hp).2.1
        have := ih p hp
        rw [hn] at this
        cases this
    cases key hs
  · rintro ⟨hne, ht⟩
    obtain ⟨cd, hcd, hcdid⟩ : ∃ cd ∈ Dict.keys x.nodes, cd.node.id = d := by
      rcases Relation.ReflTransGen.cases_tail ht with h | ⟨b, _, hr⟩
      · exact absurd h.symm hne
      · obtain ⟨n, m, _, hm, _, hmb, _⟩ := ride_strategy hg ha hx hr
        exact ⟨m.stop.city, (hcities _).2 ⟨m.stop, wanted_stop hm, rfl⟩, hmb⟩
    obtain ⟨co, hco, hcoid⟩ : ∃ co ∈ Dict.keys x.nodes, co.node.id = o := by
      rcases Relation.ReflTransGen.cases_head ht with h | ⟨b, hr, _⟩
      · exact absurd h hne
      · obtain ⟨n, m, hn, _, hna, _, _⟩ := ride_strategy hg ha hx hr
        exact ⟨n.stop.city, (hcities _).2 ⟨n.stop, wanted_stop hn, rfl⟩, hna⟩
    have hcne : co ≠ cd := fun h => hne (by rw [← hcoid, ← hcdid, h])
    have key : ∀ a, Travel routes (runs routes freq) a d → a = d ∨
        (∃ s ∈ stopsOf x.nodes, s.city.node.id = a ∧ ∃ c, Strategy x.edges pas (some co) (some cd) (.stop s) c) ∨
        (∃ s ∈ stopsOf x.nodes, s.city.node.id = o ∧ ∃ c, Strategy x.edges pas (some co) (some cd) (.stop s) c) := by
      intro a hta
      clear ht
      induction hta using Relation.ReflTransGen.head_induction_on with
      | refl => exact Or.inl rfl
      | @head a b hr _ ih =>
        obtain ⟨n, m, hn, hm, hna, hmb, hride⟩ := ride_strategy hg ha hx hr
        have hnstop := (hstops _).2 (wanted_stop hn)
        have hmstop := (hstops _).2 (wanted_stop hm)
        have hmkey : m.stop.city ∈ Dict.keys x.nodes := (hcities _).2 ⟨_, wanted_stop hm, rfl⟩
        have hwalk := (((C35_edges hg hx _).1).2 ⟨m.stop, wanted_stop hm, Or.inr rfl⟩).1
        rcases ih with rfl | ⟨s, hs, hsid, c, hc⟩ | h
        · have hmc : m.stop.city = cd := hno.ids _ hmkey _ hcd (hmb.trans hcdid.symm)
          rw [hmc] at hwalk
          obtain ⟨c', hc'⟩ := hride (some co) (some cd) _
            (.go _ hwalk (by simp) (by simp) (by simpa using Ne.symm hcne) 0 (.arrive cd rfl))
          exact Or.inr (Or.inl ⟨_, hnstop, hna, c', hc'⟩)
        · by_cases hbo : b = o
          · exact Or.inr (Or.inr ⟨s, hs, hsid.trans hbo, c, hc⟩)
          · have hskey : s.city ∈ Dict.keys x.nodes := (hcities _).2 ⟨_, (hstops s).1 hs, rfl⟩
            have hsc : s.city = m.stop.city := hno.ids _ hskey _ hmkey (hsid.trans hmb.symm)
            have hback := (((C35_edges hg hx _).1).2 ⟨s, (hstops s).1 hs, Or.inl rfl⟩).1
            rw [hsc] at hback
            have hmo : m.stop.city ≠ co := fun h => hbo (by rw [← hmb, h, hcoid])
            have h1 := Strategy.go (pas := pas) (origin := some co) (dest := some cd) _ hback (by simp)
              (by simpa using hmo) (by simp) c hc
            have h2 := Strategy.go (pas := pas) (origin := some co) (dest := some cd) _ hwalk (by simp)
              (by simp) (by simpa using hmo) _ h1
            obtain ⟨c', hc'⟩ := hride _ _ _ h2
            exact Or.inr (Or.inl ⟨_, hnstop, hna, c', hc'⟩)
        · exact Or.inr (Or.inr h)
    have hfin : ∃ s ∈ stopsOf x.nodes, s.city.node.id = o ∧ ∃ c, Strategy x.edges pas (some co) (some cd) (.stop s) c := by
      rcases key o ht with h | h | h
      · exact absurd h hne
      · exact h
      · exact h
    obtain ⟨s, hs, hsid, c, hc⟩ := hfin
    have hskey : s.city ∈ Dict.keys x.nodes := (hcities _).2 ⟨_, (hstops s).1 hs, rfl⟩
    exact ⟨co, hco, hcoid, cd, hcd, hcdid, s, hs, hno.ids _ hskey _ hco (hsid.trans hcoid.symm), c, hc⟩

/-- the modes in use, told by the routes -/
theorem suitModes_iff (hg : DistinctIds g) (hx : buildExtGraph g routes sPTP freq = .ok x) :
    ModesAssignable (stopsOf x.nodes) ↔ SuitModes routes := by
  obtain ⟨_, hstops, _⟩ := C34_stop_nodes hg hx
  have h : ∀ m : Mode K, (∃ s ∈ stopsOf x.nodes, s.mode = m) ↔ UsesMode routes m := by
    intro m
    constructor
    · rintro ⟨s, hs, rfl⟩
      obtain ⟨_, r, hr, hm, d, i, h⟩ := (hstops s).1 hs
      exact ⟨r, hr, hm, d, i, _, h⟩
    · rintro ⟨r, hr, rfl, d, i, id, h⟩
      obtain ⟨k, hk⟩ := List.mem_iff_getElem?.1 hr
      obtain ⟨n, hn, _, hnr, _⟩ := wanted_at hg hx hk h
      exact ⟨n.stop, (hstops _).2 (wanted_stop hn), by rw [hn.2.2.1, hnr]⟩
  have h1 : ∀ m : Mode K, (∀ s ∈ stopsOf x.nodes, s.mode = m) ↔ ∀ m', UsesMode routes m' → m' = m := by
    intro m
    refine ⟨fun hh m' hm' => ?_, fun hh s hs => hh _ ((h _).1 ⟨s, hs, rfl⟩)⟩
    obtain ⟨s, hs, rfl⟩ := (h m').2 hm'
    exact hh s hs
  have h2 : ∀ m m' : Mode K, (∀ s ∈ stopsOf x.nodes, s.mode = m ∨ s.mode = m') ↔
      ∀ k, UsesMode routes k → k = m ∨ k = m' := by
    intro m m'
    refine ⟨fun hh k hk => ?_, fun hh s hs => hh _ ((h _).1 ⟨s, hs, rfl⟩)⟩
    obtain ⟨s, hs, rfl⟩ := (h k).2 hk
    exact hh s hs
  unfold ModesAssignable SuitModes
  simp only [h, h1, h2]

/-- **C68**: a demand is accepted exactly when, for every cell with trips, the nodes are different and one can travel from
one to the other with rides on lines that run, and the modes of the routes suit the assignment. -/
theorem C68_validator (hg : DistinctIds g) (ha : Admissible routes sPTP freq pas)
    (hx : buildExtGraph g routes sPTP freq = .ok x) (od : Dict Int (Dict Int K)) :
    networkValidator x.nodes x.edges pas od = .ok true ↔
      (∀ p ∈ od, ∀ q ∈ p.2, q.2 ≠ 0 → p.1 ≠ q.1 ∧ Travel routes (runs routes freq) p.1 q.1) ∧ SuitModes routes := by
  rw [(C42_validator ha hg hx od).1, suitModes_iff hg hx]
  simp only [C68_strategies hg ha hx]

/-- **C68**: whether a demand is accepted depends on which lines run, not on their frequencies, the speeds, the prices of
time or the penalty for transfers. -/
theorem C68_which_lines_run (hg : DistinctIds g) {sPTP' : K} {freq' : Option (Dict Str K)} {pas' : Passenger K} {x' : ExtGraph K}
    (ha : Admissible routes sPTP freq pas) (ha' : Admissible routes sPTP' freq' pas')
    (hx : buildExtGraph g routes sPTP freq = .ok x) (hx' : buildExtGraph g routes sPTP' freq' = .ok x')
    (hsame : ∀ r ∈ routes, 0 < runs routes freq r.id ↔ 0 < runs routes freq' r.id) (od : Dict Int (Dict Int K)) :
    networkValidator x.nodes x.edges pas od = .ok true ↔ networkValidator x'.nodes x'.edges pas' od = .ok true := by
  rw [C68_validator hg ha hx, C68_validator hg ha' hx']
  have h : Ride routes (runs routes freq) = Ride routes (runs routes freq') := by
    funext a b
    simp only [Ride, eq_iff_iff]
    exact ⟨fun ⟨r, h1, h2, h3⟩ => ⟨r, h1, (hsame r h1).1 h2, h3⟩, fun ⟨r, h1, h2, h3⟩ => ⟨r, h1, (hsame r h1).2 h2, h3⟩⟩
  unfold Travel
  rw [h]

theorem rides_stops {r : Route K} {a b : Int} (h : r.Rides a b) : r.StopsAt a ∧ r.StopsAt b := by
  obtain ⟨d, i, j, hi, hj, _⟩ := h
  exact ⟨⟨d, i, hi⟩, ⟨d, j, hj⟩⟩

/-- in a direction of a valid route one can ride from the first node to any stop and from any stop to the last node -/
theorem rides_direction {r : Route K} (hc : r.type ≠ .circular) {d : Dir} (hon : ∀ s ∈ r.stopsOf d, s ∈ r.nodesOf d)
    (hfirst : (r.stopsOf d).head? = (r.nodesOf d).head?) (hlast : (r.stopsOf d).getLast? = (r.nodesOf d).getLast?)
    (hnd : (r.nodesOf d).Nodup) {a b c : Int} (ha : (r.nodesOf d).head? = some a) (hb : (r.nodesOf d).getLast? = some b)
    (hmem : c ∈ r.stopsOf d) : (c = a ∨ r.Rides a c) ∧ (c = b ∨ r.Rides c b) := by
  have hsingle : a = b → c = a := by
    intro hab
    subst hab
    have hcn := hon c hmem
    cases hl : r.nodesOf d with
    | nil => rw [hl] at ha; cases ha
    | cons y t =>
      rw [hl] at ha hb hnd hcn
      simp only [List.head?_cons, Option.some.injEq] at ha
      subst ha
      cases t with
      | nil => simpa using hcn
      | cons z t =>
        rw [List.getLast?_cons_cons] at hb
        exact absurd (List.mem_of_getLast? hb) (List.nodup_cons.1 hnd).1
  obtain ⟨i, hi, hie⟩ := List.getElem_of_mem hmem
  have hci : r.NodeAt d i c := ⟨by rw [List.getElem?_eq_getElem hi, hie], fun h => absurd h hc⟩
  have h0 : r.NodeAt d 0 a := ⟨by rw [← List.head?_eq_getElem?, hfirst, ha], fun h => absurd h hc⟩
  have hL : r.NodeAt d ((r.stopsOf d).length - 1) b :=
    ⟨by rw [← List.getLast?_eq_getElem?, hlast, hb], fun h => absurd h hc⟩
  constructor
  · by_cases hca : c = a
    · exact Or.inl hca
    · refine Or.inr ⟨d, 0, i, h0, hci, Or.inr ?_, Or.inr ⟨?_, ?_⟩⟩
      · rcases Nat.eq_zero_or_pos i with rfl | h
        · exact absurd (Option.some.inj (hci.1.symm.trans h0.1)) hca
        · exact h
      · rw [hb]; exact fun h => hca (hsingle (Option.some.inj h).symm)
      · rw [ha]; exact fun h => hca (Option.some.inj h).symm
  · by_cases hcb : c = b
    · exact Or.inl hcb
    · refine Or.inr ⟨d, i, _, hci, hL, Or.inr ?_, Or.inr ⟨?_, ?_⟩⟩
      · rcases Nat.lt_or_ge i ((r.stopsOf d).length - 1) with h | h
        · exact h
        · have : i = (r.stopsOf d).length - 1 := by omega
          rw [this] at hci
          exact absurd (Option.some.inj (hci.1.symm.trans hL.1)) hcb
      · rw [hb]; exact fun h => hcb (Option.some.inj h).symm
      · rw [ha]
        intro h
        have hab := Option.some.inj h
        exact hcb ((hsingle hab).trans hab)

/-- between two stops of a route one can travel with its vehicles alone -/
theorem sound_travel {r : Route K} (hs : r.Sound) {a b : Int} (ha : r.StopsAt a) (hb : r.StopsAt b) :
    Relation.ReflTransGen r.Rides a b := by
  obtain ⟨d, i, hi⟩ := ha
  obtain ⟨d', j, hj⟩ := hb
  rcases hs with ⟨hc, hone⟩ | ⟨hc, hok⟩
  · have hdd : d = d' := by
      have h1 := List.mem_of_getElem? hi.1
      have h2 := List.mem_of_getElem? hj.1
      cases d <;> cases d' <;> simp only [Route.stopsOf] at h1 h2 <;> rcases hone with h | h <;> simp [h] at h1 h2 ⊢
    subst hdd
    exact Relation.ReflTransGen.single ⟨d, i, j, hi, hj, Or.inl hc, Or.inl hc⟩
  · obtain ⟨p, hp⟩ : ∃ p, r.nodesI.head? = some p := by
      cases h : r.nodesI with
      | nil => exact absurd h hok.nonemptyI
      | cons y t => exact ⟨y, rfl⟩
    obtain ⟨q, hq⟩ : ∃ q, r.nodesR.head? = some q := by
      cases h : r.nodesR with
      | nil => exact absurd h hok.nonemptyR
      | cons y t => exact ⟨y, rfl⟩
    have hI : ∀ c ∈ r.stopsOf .I, (c = p ∨ r.Rides p c) ∧ (c = q ∨ r.Rides c q) := fun c hcm =>
      rides_direction (d := .I) hc hok.stopsI_on hok.firstI hok.lastI hok.noloopI hp (hok.cycle_end.symm.trans hq) hcm
    have hR : ∀ c ∈ r.stopsOf .R, (c = q ∨ r.Rides q c) ∧ (c = p ∨ r.Rides c p) := fun c hcm =>
      rides_direction (d := .R) hc hok.stopsR_on hok.firstR hok.lastR hok.noloopR hq (hok.cycle_start.symm.trans hp) hcm
    have one : ∀ {u v : Int}, (v = u ∨ r.Rides u v) → Relation.ReflTransGen r.Rides u v := by
      rintro u v (rfl | h)
      · exact .refl
      · exact .single h
    have two : ∀ {u v : Int}, (u = v ∨ r.Rides u v) → Relation.ReflTransGen r.Rides u v := by
      rintro u v (rfl | h)
      · exact .refl
      · exact .single h
    have hpI : p ∈ r.stopsOf .I := List.mem_of_head? (hok.firstI.trans hp)
    have hqR : q ∈ r.stopsOf .R := List.mem_of_head? (hok.firstR.trans hq)
    have hpq : Relation.ReflTransGen r.Rides p q := two (hI p hpI).2
    have hqp : Relation.ReflTransGen r.Rides q p := two (hR q hqR).2
    have hto : ∀ c d, c ∈ r.stopsOf d → Relation.ReflTransGen r.Rides p c ∧ Relation.ReflTransGen r.Rides c p := by
      intro c d hcm
      cases d with
      | I => exact ⟨one (hI c hcm).1, (two (hI c hcm).2).trans hqp⟩
      | R => exact ⟨hpq.trans (one (hR c hcm).1), two (hR c hcm).2⟩
    exact (hto a d (List.mem_of_getElem? hi.1)).2.trans (hto b d' (List.mem_of_getElem? hj.1)).1

/-- **C68**: one can travel between two nodes exactly when a chain of lines that run, each sharing a stop with the next,
joins them: it never matters in which direction a line runs or where in it the stops are. -/
theorem C68_chain_of_lines {f : Str → K} (hs : ∀ r ∈ routes, r.Sound) (o d : Int) :
    Travel routes f o d ↔ Relation.ReflTransGen (SharedLine routes f) o d := by
  constructor
  · intro h
    refine Relation.ReflTransGen.mono ?_ _ _ h
    rintro a b ⟨r, h1, h2, h3⟩
    exact ⟨r, h1, h2, (rides_stops h3).1, (rides_stops h3).2⟩
  · intro h
    induction h with
    | refl => exact .refl
    | tail _ hab ih =>
      obtain ⟨r, h1, h2, h3, h4⟩ := hab
      exact ih.trans (Relation.ReflTransGen.mono (p := Ride routes f) (fun a b hr => ⟨r, h1, h2, hr⟩) _ _
        (sound_travel (hs r h1) h3 h4))

/-- **C68**: one can travel back whenever one can travel there. -/
theorem C68_there_and_back {f : Str → K} (hs : ∀ r ∈ routes, r.Sound) (o d : Int) :
    Travel routes f o d ↔ Travel routes f d o := by
  rw [C68_chain_of_lines hs, C68_chain_of_lines hs]
  have : Std.Symm (SharedLine routes f) := ⟨fun a b ⟨r, h1, h2, h3, h4⟩ => ⟨r, h1, h2, h4, h3⟩⟩
  have h := (Relation.ReflTransGen.stdSymm (r := SharedLine routes f))
  exact ⟨h.symm _ _, h.symm _ _⟩

end Generic

section Examples

attribute [local instance] ratMath

/-- C68: from the periphery of the first zone to the third subcentre with a change of lines -/
example : Travel demoRoutes (runs demoRoutes none) 1 6 := by
  refine Relation.ReflTransGen.head (b := 2) ?_ (Relation.ReflTransGen.single ?_)
  · exact ⟨_, List.mem_cons_self, by decide +kernel, .I, 0, 1, ⟨rfl, by decide⟩, ⟨rfl, by decide⟩, Or.inr (by decide),
      Or.inr (by decide)⟩
  · exact ⟨_, List.mem_cons_of_mem _ (List.mem_cons_of_mem _ List.mem_cons_self), by decide +kernel, .I, 3, 2,
      ⟨rfl, by decide⟩, ⟨rfl, by decide⟩, Or.inl rfl, Or.inl rfl⟩

/-- C68: no line stops at the periphery of the second zone -/
example : ¬ Travel demoRoutes (runs demoRoutes none) 1 3 := by
  intro h
  rcases Relation.ReflTransGen.cases_tail h with h | ⟨b, _, r, hr, _, d, i, j, _, hj, _⟩
  · cases h
  · have h1 := List.mem_of_getElem? hj.1
    have key : ∀ r ∈ demoRoutes, ∀ d ∈ [Dir.I, Dir.R], (3 : Int) ∉ r.stopsOf d := by decide +kernel
    exact key r hr d (by cases d <;> simp) h1

/-- C68: the hypotheses of the theorems -/
example : DistinctIds (demoCity 3) ∧ Admissible demoRoutes 2 none demoPassenger ∧
    buildExtGraph (demoCity 3) demoRoutes 2 none = .ok demoExt ∧ SuitModes demoRoutes := by
  have hg : DistinctIds (demoCity 3) := by unfold DistinctIds; decide +kernel
  have hx : buildExtGraph (demoCity 3) demoRoutes 2 none = .ok demoExt := by decide +kernel
  exact ⟨hg, demoAdmissible, hx, ((C68_validator hg demoAdmissible hx [(1, [(4, 5), (2, 3)]), (4, [(1, 4), (3, 0)])]).1
    (by decide +kernel)).2⟩

/-- C68: the routes are valid, though the second one goes and comes back other ways -/
example : ∀ r ∈ demoRoutes ++ [⟨"e".toList, demoMode, [1, 2, 0], [0, 4, 2, 1], [1, 2, 0], [0, 4, 1], .custom⟩], r.Sound := by
  intro r hr
  simp only [demoRoutes, List.cons_append, List.nil_append, List.mem_cons, List.not_mem_nil, or_false] at hr
  rcases hr with rfl | rfl | rfl | rfl
  · exact Or.inr ⟨by decide, by constructor <;> decide⟩
  · exact Or.inr ⟨by decide, by constructor <;> decide⟩
  · exact Or.inl ⟨rfl, Or.inr rfl⟩
  · exact Or.inr ⟨by decide, by constructor <;> decide⟩

end Examples

end Sidermit
