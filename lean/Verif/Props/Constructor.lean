import Verif.Props.Rides
import Verif.Props.TotalCost
import Verif.Props.Demand
import Verif.Props.Families
import Verif.Props.Mode
import Verif.Spec.RealMath

/-!
C69: when the optimiser can be constructed, told by the routes and the demand alone, and for which of the predefined
families of routes that is.
-/

set_option linter.unusedSectionVars false

namespace Sidermit

section Generic

variable {K : Type} [Field K] [LinearOrder K] [IsStrictOrderedRing K] [PyMath K] {g : Graph K} {routes : List (Route K)}
  {pas : Passenger K} {net : Network K} {f : Option (Dict Str K)} {d : Demand K}

/-- inputs with the values that one expects: positive prices, speeds, numbers of lines and width of the city, frequencies
that are not negative, and routes between nodes of the city.  Nothing is said of the demand. -/
structure Workable (g : Graph K) (pas : Passenger K) (net : Network K) (f : Option (Dict Str K)) : Prop where
  nodes : DistinctIds g
  width : ∃ w, g.p = some w ∧ 0 < w
  ids : (net.routes.map Route.id).Nodup
  sound : ∀ r ∈ net.routes, r.Sound
  stops : ∀ r ∈ net.routes, ∀ a, r.StopsAt a → ∃ c ∈ g.nodes, c.id = a
  modes : ∀ r ∈ net.routes, r.mode.Runs
  freqs : ∀ fr, f = some fr → ∀ r ∈ net.routes, 0 ≤ fr.getD r.id 0
  start : ∀ r ∈ net.routes, 0 ≤ r.mode.fini
  root : ∀ y : K, 0 ≤ PyMath.sqrt y
  transfer : 0 ≤ pas.pt
  pv : 0 < pas.pv
  pw : 0 < pas.pw
  pa : 0 < pas.pa
  va : 0 < pas.va

/-- the frequency with which a route runs at the beginning: that given for its id (0 when there is none), or the initial one
of its mode when no frequencies are given -/
def startOf (f : Option (Dict Str K)) (r : Route K) : K :=
  match f with
  | none => r.mode.fini
  | some fr => fr.getD r.id 0

theorem start_frequency (hids : (routes.map Route.id).Nodup) {r : Route K} (hr : r ∈ routes) :
    runs routes (some (f0 routes f).f) r.id = startOf f r := by
  have key : ∀ (v : Route K → K), Dict.getD (routes.map fun r => (r.id, v r)) r.id 0 = v r := by
    intro v
    have hn : (Dict.keys (routes.map fun r => (r.id, v r))).Nodup := by
      simpa [Dict.keys, Function.comp_def] using hids
    have hm : (r.id, v r) ∈ routes.map fun r => (r.id, v r) := List.mem_map.2 ⟨r, hr, rfl⟩
    rw [Dict.getD, Dict.get?_of_mem _ hn hm]
    rfl
  cases f with
  | none => rw [f0_none hids]; exact key _
  | some fr => rw [f0_some hids]; exact key _

theorem Workable.admissible (h : Workable g pas net f) : Admissible net.routes pas.pt (some (f0 net.routes f).f) pas := by
  refine ⟨h.modes, fun r hr => ?_, h.transfer, h.root, h.pv, h.pw, h.pa.le⟩
  have := start_frequency (f := f) h.ids hr
  unfold runs at this
  rw [this]
  unfold startOf
  cases hf : f with
  | none => exact h.start r hr
  | some fr => exact h.freqs fr hf r hr

theorem Workable.built (h : Workable g pas net f) : ∃ x, buildExtGraph g net.routes pas.pt (some (f0 net.routes f).f) = .ok x := by
  refine C34_accepted (fun r hr => ⟨fun dd i id hat => h.stops r hr id ⟨dd, i, hat⟩, ?_, ((h.modes r hr).lines).ne',
    ((h.modes r hr).speed).ne'⟩) _ _
  intro hc dd i id _
  rcases h.sound r hr with ⟨h1, _⟩ | ⟨_, h2⟩
  · exact absurd h1 hc
  · cases dd with
    | I => exact h2.nonemptyI
    | R => exact h2.nonemptyR

/-- two nodes are joined by a chain of lines that run, each of which shares a stop with the next -/
def Joined (routes : List (Route K)) (f : Option (Dict Str K)) : Int → Int → Prop :=
  Relation.ReflTransGen fun a b => ∃ r ∈ routes, 0 < startOf f r ∧ r.StopsAt a ∧ r.StopsAt b

/-- the trips of a demand are between different nodes joined by a chain of lines that run -/
def AllServed (routes : List (Route K)) (f : Option (Dict Str K)) (od : Dict Int (Dict Int K)) : Prop :=
  ∀ p ∈ od, ∀ q ∈ p.2, q.2 ≠ 0 → p.1 ≠ q.1 ∧ Joined routes f p.1 q.1

theorem workable_validator (h : Workable g pas net f) {x : ExtGraph K}
    (hx : buildExtGraph g net.routes pas.pt (some (f0 net.routes f).f) = .ok x) (od : Dict Int (Dict Int K)) :
    networkValidator x.nodes x.edges pas od = .ok true ↔ AllServed net.routes f od ∧ SuitModes net.routes := by
  rw [C68_validator h.nodes h.admissible hx]
  have he : SharedLine net.routes (runs net.routes (some (f0 net.routes f).f)) =
      fun a b => ∃ r ∈ net.routes, 0 < startOf f r ∧ r.StopsAt a ∧ r.StopsAt b := by
    funext a b
    simp only [SharedLine, eq_iff_iff]
    constructor
    · rintro ⟨r, h1, h2, h3⟩
      exact ⟨r, h1, by rwa [start_frequency h.ids h1] at h2, h3⟩
    · rintro ⟨r, h1, h2, h3⟩
      exact ⟨r, h1, by rwa [start_frequency h.ids h1], h3⟩
  simp only [C68_chain_of_lines h.sound, he, AllServed, Joined]

/-- **C69**: everything before the constraints is computed exactly when all trips of the demand are between nodes joined by
a chain of lines that run and the modes suit the assignment; otherwise the exception is that of the modes or that of the
network. -/
theorem C69_prepare_iff (h : Workable g pas net f) :
    ((∃ o, Optimizer.prepare g d pas net f = .ok o) ↔ AllServed net.routes f d.matrix ∧ SuitModes net.routes) ∧
    (¬ (AllServed net.routes f d.matrix ∧ SuitModes net.routes) → Optimizer.prepare g d pas net f = .error .AddMode ∨
      Optimizer.prepare g d pas net f = .error .TransportNetwork) := by
  obtain ⟨x, hx⟩ := h.built
  obtain ⟨w, hw, hw0⟩ := h.width
  have ha := h.admissible
  have hv := workable_validator h hx d.matrix
  obtain ⟨h1, h2⟩ := C41_all_pairs ha h.nodes hx d.matrix
  have hbad : networkValidator x.nodes x.edges pas d.matrix ≠ .ok true →
      Optimizer.prepare g d pas net f = .error .AddMode ∨ Optimizer.prepare g d pas net f = .error .TransportNetwork := by
    intro hn
    unfold Optimizer.prepare
    simp only [hx, py_ok_bind]
    rcases (C42_validator ha h.nodes hx d.matrix).2 hn with he | he
    · left; rw [h2 _ he]; rfl
    · right; rw [h2 _ he]; rfl
  refine ⟨?_, fun hn => hbad fun hh => hn (hv.1 hh)⟩
  rw [← hv]
  constructor
  · rintro ⟨o, ho⟩
    by_contra hn
    rcases hbad hn with he | he <;> rw [ho] at he <;> cases he
  · intro hok
    obtain ⟨l, hl, hall⟩ := h1 hok
    have hshares : ∃ shares, getAssignment l w pas.va pas.pa pas.pv = .ok shares := by
      refine mapM_total fun e he => ?_
      obtain ⟨i, hi, rfl⟩ := List.getElem_of_mem he
      obtain ⟨hlen, hat⟩ := List.forall₂_iff_get.1 hall
      obtain ⟨_, _, _, _, _, hcomp⟩ := hat i (by omega) hi
      by_cases hne : (l[i]).paths = []
      · rw [hne]; exact ⟨[], rfl⟩
      · obtain ⟨a, h5, _⟩ := C43_pairs_partial ha h.nodes hx hcomp hne hw0 h.va.le h.pa h.pv
        exact ⟨a, h5⟩
    obtain ⟨shares, hsh⟩ := hshares
    refine ⟨⟨g, d, pas, net, (f0 net.routes f).f, (f0 net.routes f).fopt, (f0 net.routes f).lines, x, l.zip shares⟩, ?_⟩
    unfold Optimizer.prepare
    simp only [hx, py_ok_bind, hl, widthOf, hw, hsh]
    rfl

/-- **C69**: in a city, with positive initial frequencies and capacities that are not negative, the optimiser can be
constructed exactly when all trips of the demand are between nodes joined by a chain of lines that run and the modes suit
the assignment. -/
theorem C69_constructor_iff (h : Workable g pas net f) {n : Nat} (hs : CityShape g n) (hd : ∀ m ∈ net.modes, 0 < m.d)
    (hk : ∀ r ∈ net.routes, 0 ≤ r.mode.kmax) (hini : ∀ r ∈ net.routes, 0 < r.mode.fini) :
    ((∃ o, Optimizer.init g d pas net f = .ok o) ↔ AllServed net.routes f d.matrix ∧ SuitModes net.routes) ∧
    (¬ (AllServed net.routes f d.matrix ∧ SuitModes net.routes) → Optimizer.init g d pas net f = .error .AddMode ∨
      Optimizer.init g d pas net f = .error .TransportNetwork) := by
  obtain ⟨h1, h2⟩ := C69_prepare_iff (d := d) h
  refine ⟨⟨?_, ?_⟩, ?_⟩
  · rintro ⟨o, ho⟩
    exact h1.1 ⟨o, (init_prepare ho).1⟩
  · intro hok
    obtain ⟨o, ho⟩ := h1.2 hok
    exact ⟨o, C57_constructor ⟨ho, h.ids, h.admissible, h.nodes, h.va⟩ hs hd hk hini⟩
  · intro hn
    unfold Optimizer.init
    rcases h2 hn with he | he
    · left; rw [he]; rfl
    · right; rw [he]; rfl

/-! ### the predefined families -/

/-- the stops of the routes of a family -/
theorem family_stops {m : Mode K} {k : Nat} {name : Nat → Str} {nodes stops : Nat → List Int} {rs : List (Route K)}
    (h : RouteFamily g m k name nodes stops rs) :
    (∀ i, i < k → ∃ r ∈ rs, ∀ a, r.StopsAt a ↔ a ∈ stops i) ∧
    (∀ r ∈ rs, r.mode = m ∧ r.Sound ∧ ∃ i, i < k ∧ ∀ a, r.StopsAt a ↔ a ∈ stops i) := by
  have key : ∀ (r : Route K) (l : List Int), r.type = .predefined → r.stopsI = l → TwoWay g r →
      ∀ a, r.StopsAt a ↔ a ∈ l := by
    intro r l ht hl hw a
    have hc : r.type ≠ .circular := by rw [ht]; decide
    constructor
    · rintro ⟨dd, i, hat⟩
      have := List.mem_of_getElem? hat.1
      cases dd with
      | I => rw [← hl]; exact this
      | R =>
        simp only [Route.stopsOf, hw.stops_reversed, List.mem_reverse] at this
        rw [← hl]; exact this
    · intro ha
      rw [← hl] at ha
      obtain ⟨i, hi⟩ := List.mem_iff_getElem?.1 ha
      exact ⟨.I, i, hi, fun hh => absurd hh hc⟩
  constructor
  · intro i hi
    obtain ⟨r, h1, _, _, h4, _, h6, h7⟩ := h.each i hi
    exact ⟨r, List.mem_of_getElem? h1, key r _ h4 h6 h7⟩
  · intro r hr
    obtain ⟨i, hi⟩ := List.mem_iff_getElem?.1 hr
    have hlt : i < k := by rw [← h.count]; exact (List.getElem?_eq_some_iff.1 hi).1
    obtain ⟨r', h1, _, h3, h4, _, h6, h7⟩ := h.each i hlt
    rw [hi] at h1
    cases h1
    exact ⟨h3, Or.inr ⟨by rw [h4]; decide, h7.valid⟩, i, hlt, key r _ h4 h6 h7⟩

/-- the ids of the nodes of a city -/
theorem city_ids {n : Nat} (hs : CityShape g n) {c : Node K} (hc : c ∈ g.nodes) :
    c.id = cbdOf g ∨ ∃ i, i < n ∧ (c.id = perOf g i ∨ c.id = subOf g i) := by
  obtain ⟨j, hj⟩ := List.mem_iff_getElem?.1 hc
  have hlt := (List.getElem?_eq_some_iff.1 hj).1
  rw [hs.len] at hlt
  have hid : c.id = idAt g j := by simp [idAt, hj]
  rcases Nat.eq_zero_or_pos j with rfl | hpos
  · exact Or.inl hid
  · right
    rcases Nat.even_or_odd' (j - 1) with ⟨i, hi | hi⟩
    · exact ⟨i, by omega, Or.inl (by rw [hid, perOf]; congr 1; omega)⟩
    · exact ⟨i, by omega, Or.inr (by rw [hid, subOf]; congr 1; omega)⟩

theorem joined_symm {a b : Int} (h : Joined routes f a b) : Joined routes f b a := by
  induction h with
  | refl => exact .refl
  | tail _ hbc ih =>
    obtain ⟨r, h1, h2, h3, h4⟩ := hbc
    exact Relation.ReflTransGen.head ⟨r, h1, h2, h4, h3⟩ ih

/-- all nodes are joined when every node is joined to the CBD -/
theorem joined_all {n : Nat} (hs : CityShape g n)
    (h : ∀ i, i < n → Joined routes f (perOf g i) (cbdOf g) ∧ Joined routes f (subOf g i) (cbdOf g)) {a b : Node K}
    (ha : a ∈ g.nodes) (hb : b ∈ g.nodes) : Joined routes f a.id b.id := by
  have key : ∀ c ∈ g.nodes, Joined routes f c.id (cbdOf g) := by
    intro c hc
    rcases city_ids hs hc with h1 | ⟨i, hi, h1 | h1⟩
    · rw [h1]; exact .refl
    · rw [h1]; exact (h i hi).1
    · rw [h1]; exact (h i hi).2
  exact (key a ha).trans (joined_symm (key b hb))

/-- **C69**: radial lines that run join all nodes of the city. -/
theorem C69_radial_joins {n : Nat} (hs : CityShape g n) (hd : DistinctIds g) {m : Mode K} {rs : List (Route K)}
    (hr : (Network.init g).radialRoutes m false false = .ok rs) (hin : ∀ r ∈ rs, r ∈ routes ∧ 0 < startOf f r)
    {a b : Node K} (ha : a ∈ g.nodes) (hb : b ∈ g.nodes) : Joined routes f a.id b.id := by
  obtain ⟨rs', h1, hfam⟩ := C31_radial_routes hs hd (Network.init g) rfl m false false
  rw [hr] at h1
  cases h1
  refine joined_all hs (fun i hi => ?_) ha hb
  obtain ⟨r, h2, h3⟩ := (family_stops hfam).1 i hi
  simp only [Bool.false_eq_true, if_false] at h3
  exact ⟨.single ⟨r, (hin r h2).1, (hin r h2).2, (h3 _).2 (by simp), (h3 _).2 (by simp)⟩,
    .single ⟨r, (hin r h2).1, (hin r h2).2, (h3 _).2 (by simp), (h3 _).2 (by simp)⟩⟩

/-- **C69**: so do diametral lines, whatever the jump. -/
theorem C69_diametral_joins {n j : Nat} (hs : CityShape g n) (hd : DistinctIds g) (hj : 1 ≤ j) (hjn : 2 * j ≤ n) {m : Mode K}
    {rs : List (Route K)} (hr : (Network.init g).diametralRoutes m j false false = .ok rs)
    (hin : ∀ r ∈ rs, r ∈ routes ∧ 0 < startOf f r) {a b : Node K} (ha : a ∈ g.nodes) (hb : b ∈ g.nodes) :
    Joined routes f a.id b.id := by
  obtain ⟨rs', h1, hfam⟩ := C32_diametral_routes hs hd (Network.init g) rfl m false false hj hjn
  rw [hr] at h1
  cases h1
  refine joined_all hs (fun i hi => ?_) ha hb
  obtain ⟨i', ⟨h5, h6⟩, _⟩ := C32_each_pair_once hj hjn hi (Nat.mod_lt (i + j) (by omega)) (Or.inl rfl)
  obtain ⟨r, h2, h3⟩ := (family_stops hfam).1 i' h5
  simp only [Bool.false_eq_true, if_false] at h3
  have h7 : r.StopsAt (perOf g i) ∧ r.StopsAt (subOf g i) := by
    rcases h6 with ⟨rfl, _⟩ | ⟨_, h6⟩
    · exact ⟨(h3 _).2 (by simp), (h3 _).2 (by simp)⟩
    · rw [h6] at h3
      exact ⟨(h3 _).2 (by simp), (h3 _).2 (by simp)⟩
  exact ⟨.single ⟨r, (hin r h2).1, (hin r h2).2, h7.1, (h3 _).2 (by simp)⟩,
    .single ⟨r, (hin r h2).1, (hin r h2).2, h7.2, (h3 _).2 (by simp)⟩⟩

/-- **C69**: feeder lines and radial lines of any variant, of the same mode or not, join all nodes. -/
theorem C69_feeder_trunk_joins {n : Nat} (hs : CityShape g n) (hd : DistinctIds g) {m m' : Mode K} {rs rs' : List (Route K)}
    {short express : Bool} (hr : (Network.init g).feederRoutes m = .ok rs)
    (hr' : (Network.init g).radialRoutes m' short express = .ok rs')
    (hin : ∀ r ∈ rs, r ∈ routes ∧ 0 < startOf f r) (hin' : ∀ r ∈ rs', r ∈ routes ∧ 0 < startOf f r) {a b : Node K}
    (ha : a ∈ g.nodes) (hb : b ∈ g.nodes) : Joined routes f a.id b.id := by
  obtain ⟨_, h1, hfam⟩ := C30_feeder_routes hs hd (Network.init g) rfl m
  rw [hr] at h1
  cases h1
  obtain ⟨_, h1, hfam'⟩ := C31_radial_routes hs hd (Network.init g) rfl m' short express
  rw [hr'] at h1
  cases h1
  refine joined_all hs (fun i hi => ?_) ha hb
  obtain ⟨r, h2, h3⟩ := (family_stops hfam).1 i hi
  obtain ⟨r', h2', h3'⟩ := (family_stops hfam').1 i hi
  have hps : Joined routes f (perOf g i) (subOf g i) :=
    .single ⟨r, (hin r h2).1, (hin r h2).2, (h3 _).2 (by simp), (h3 _).2 (by simp)⟩
  have hcbd : r'.StopsAt (cbdOf g) := (h3' _).2 (by cases short <;> cases express <;> simp)
  have hone : r'.StopsAt (subOf g i) ∨ r'.StopsAt (perOf g i) := by
    cases short with
    | true => exact Or.inl ((h3' _).2 (by simp))
    | false => exact Or.inr ((h3' _).2 (by cases express <;> simp))
  rcases hone with h4 | h4
  · have h5 : Joined routes f (subOf g i) (cbdOf g) := .single ⟨r', (hin' r' h2').1, (hin' r' h2').2, h4, hcbd⟩
    exact ⟨hps.trans h5, h5⟩
  · have h5 : Joined routes f (perOf g i) (cbdOf g) := .single ⟨r', (hin' r' h2').1, (hin' r' h2').2, h4, hcbd⟩
    exact ⟨h5, (joined_symm hps).trans h5⟩

/-- nodes without stops are joined to nothing -/
theorem not_joined {a b : Int} (h : ∀ r ∈ routes, ¬ r.StopsAt b) (hj : Joined routes f a b) : a = b := by
  rcases Relation.ReflTransGen.cases_tail hj with h1 | ⟨c, _, r, h1, _, _, h2⟩
  · exact h1.symm
  · exact absurd h2 (h r h1)

/-- **C69**: tangential lines, of any variant, leave the CBD out. -/
theorem C69_tangential_no_cbd {n j : Nat} (hs : CityShape g n) (hd : DistinctIds g) (hj : 1 ≤ j) (hjn : 2 * j ≤ n) {m : Mode K}
    {rs : List (Route K)} {short express : Bool} (hr : (Network.init g).tangentialRoutes m j short express = .ok rs) {a : Int}
    (h : Joined rs f a (cbdOf g)) : a = cbdOf g := by
  obtain ⟨_, h1, hfam⟩ := C33_tangential_routes hs hd (Network.init g) rfl m short express hj hjn
  rw [hr] at h1
  cases h1
  refine not_joined ?_ h
  intro r hr' hst
  obtain ⟨_, _, i, hi, h3⟩ := (family_stops hfam).2 r hr'
  have hmem := (h3 _).1 hst
  have hin : i < n := lt_of_lt_of_le hi (by unfold pairsAt; split <;> omega)
  have hmod : ∀ t, (i + t) % n < n := fun t => Nat.mod_lt _ (by omega)
  have hper : ∀ t, t < n → cbdOf g ≠ perOf g t := fun t ht he =>
    absurd (idAt_inj hs hd (by omega) (by omega) he) (by omega)
  have hsub : ∀ t, t < n → cbdOf g ≠ subOf g t := fun t ht he =>
    absurd (idAt_inj hs hd (by omega) (by omega) he) (by omega)
  have hring : cbdOf g ∉ ringFrom g n i j := by
    intro hm
    obtain ⟨t, _, ht⟩ := List.mem_map.1 hm
    exact hsub _ (hmod t) ht.symm
  have h1 := hper i hin
  have h2 := hper _ (hmod j)
  have h4 := hsub i hin
  have h5 := hsub _ (hmod j)
  cases short <;> cases express <;> simp [h1, h2, h4, h5, hring] at hmem

/-- **C69**: feeder lines never leave their zone. -/
theorem C69_feeder_zones {n : Nat} (hs : CityShape g n) (hd : DistinctIds g) {m : Mode K} {rs : List (Route K)}
    (hr : (Network.init g).feederRoutes m = .ok rs) {i : Nat} (hi : i < n) {a b : Int} (ha : a = perOf g i ∨ a = subOf g i)
    (h : Joined rs f a b) : b = perOf g i ∨ b = subOf g i := by
  obtain ⟨_, h1, hfam⟩ := C30_feeder_routes hs hd (Network.init g) rfl m
  rw [hr] at h1
  cases h1
  induction h with
  | refl => exact ha
  | tail _ hbc ih =>
    obtain ⟨r, h2, _, h3, h4⟩ := hbc
    obtain ⟨_, _, i', hi', h5⟩ := (family_stops hfam).2 r h2
    have h6 := (h5 _).1 h3
    have h7 := (h5 _).1 h4
    simp only [List.mem_cons, List.not_mem_nil, or_false] at h6 h7
    have hii : i' = i := by
      rcases ih with ih | ih <;> rcases h6 with h6 | h6 <;> rw [ih] at h6 <;>
        have := idAt_inj hs hd (by omega) (by omega) h6 <;> omega
    rw [hii] at h7
    exact h7

/-- **C69**: express radial lines leave out the subcentres, short ones the peripheries. -/
theorem C69_radial_variants {n : Nat} (hs : CityShape g n) (hd : DistinctIds g) {m : Mode K} {rs : List (Route K)}
    {short express : Bool} (hr : (Network.init g).radialRoutes m short express = .ok rs) {i : Nat} (hi : i < n) {a : Int} :
    (short = true → Joined rs f a (perOf g i) → a = perOf g i) ∧
    (short = false → express = true → Joined rs f a (subOf g i) → a = subOf g i) := by
  obtain ⟨_, h1, hfam⟩ := C31_radial_routes hs hd (Network.init g) rfl m short express
  rw [hr] at h1
  cases h1
  have key : ∀ x y, x < 2 * n + 1 → y < 2 * n + 1 → x ≠ y → idAt g x ≠ idAt g y :=
    fun x y hx hy hne he => hne (idAt_inj hs hd hx hy he)
  constructor
  · rintro rfl h
    refine not_joined (fun r hr' hst => ?_) h
    obtain ⟨_, _, i', hi', h3⟩ := (family_stops hfam).2 r hr'
    have hmem := (h3 _).1 hst
    simp [perOf, subOf, cbdOf, key (2 * i + 1) (2 * i' + 2) (by omega) (by omega) (by omega),
      key (2 * i + 1) 0 (by omega) (by omega) (by omega)] at hmem
  · rintro rfl rfl h
    refine not_joined (fun r hr' hst => ?_) h
    obtain ⟨_, _, i', hi', h3⟩ := (family_stops hfam).2 r hr'
    have hmem := (h3 _).1 hst
    simp [perOf, subOf, cbdOf, key (2 * i + 2) (2 * i' + 1) (by omega) (by omega) (by omega),
      key (2 * i + 2) 0 (by omega) (by omega) (by omega)] at hmem

/-! ### from the parameters to the optimiser -/

/-- values that make sense for a mode of transport -/
structure Mode.Usable (m : Mode K) : Prop where
  runs : m.Runs
  start : 0 < m.fini
  capacity : 0 ≤ m.kmax

/-- values that make sense for the passengers -/
structure Passenger.Usable (p : Passenger K) : Prop where
  transfer : 0 ≤ p.pt
  pv : 0 < p.pv
  pw : 0 < p.pw
  pa : 0 < p.pa
  va : 0 < p.va

theorem ids_in_city {n : Nat} (hs : CityShape g n) {j : Nat} (hj : j < 2 * n + 1) : ∃ c ∈ g.nodes, c.id = idAt g j := by
  obtain ⟨c, h1, h2⟩ := idAt_get hs hj
  exact ⟨c, List.mem_of_getElem? h1, h2⟩

/-- the routes of a request are valid, stop somewhere, and stop at nodes of the city -/
theorem request_routes {n : Nat} (hs : CityShape g n) (hd : DistinctIds g) {q : FamilyRequest K} (hq : q.Possible n)
    {rs : List (Route K)} (hr : q.run (Network.init g) = .ok rs) :
    ∀ r ∈ rs, r.Sound ∧ (∃ a, r.StopsAt a) ∧ ∀ a, r.StopsAt a → ∃ c ∈ g.nodes, c.id = a := by
  have fam : ∀ {m : Mode K} {k : Nat} {name : Nat → Str} {nodes stops : Nat → List Int},
      RouteFamily g m k name nodes stops rs → (∀ i, i < k → stops i ≠ [] ∧ ∀ a ∈ stops i, ∃ j, j < 2 * n + 1 ∧ a = idAt g j) →
      ∀ r ∈ rs, r.Sound ∧ (∃ a, r.StopsAt a) ∧ ∀ a, r.StopsAt a → ∃ c ∈ g.nodes, c.id = a := by
    intro m k name nodes stops hf hst r hr'
    obtain ⟨_, h2, i, hi, h3⟩ := (family_stops hf).2 r hr'
    obtain ⟨h4, h5⟩ := hst i hi
    refine ⟨h2, ?_, ?_⟩
    · obtain ⟨a, ha⟩ := List.exists_mem_of_ne_nil _ h4
      exact ⟨a, (h3 a).2 ha⟩
    · intro a ha
      obtain ⟨j, hj, rfl⟩ := h5 a ((h3 a).1 ha)
      exact ids_in_city hs hj
  have hper : ∀ i, i < n → ∃ j, j < 2 * n + 1 ∧ perOf g i = idAt g j := fun i hi => ⟨_, by omega, rfl⟩
  have hsub : ∀ i, i < n → ∃ j, j < 2 * n + 1 ∧ subOf g i = idAt g j := fun i hi => ⟨_, by omega, rfl⟩
  have hcbd : ∃ j, j < 2 * n + 1 ∧ cbdOf g = idAt g j := ⟨0, by omega, rfl⟩
  have hpairs : ∀ {j i : Nat}, 1 ≤ j → 2 * j ≤ n → i < pairsAt n j → i < n ∧ (i + j) % n < n := by
    intro j i h1 h2 h3
    refine ⟨lt_of_lt_of_le h3 (by unfold pairsAt; split <;> omega), Nat.mod_lt _ (by omega)⟩
  cases q with
  | circular m =>
    obtain ⟨r1, r2, h0, _, _, t1, t2, _, n1, n2, n3, n4, s1, s2, s3, s4, _⟩ := (C29_circular_routes hs (Network.init g) rfl m).1 hq
    have h2n : 2 ≤ n := hq
    have hr0 : (Network.init g).circularRoutes m = .ok rs := hr
    rw [h0] at hr0
    cases hr0
    have key : ∀ r : Route K, ∀ dd : Dir, r.type = .circular → (∀ a ∈ r.stopsOf dd, ∃ j, j < 2 * n + 1 ∧ a = idAt g j) →
        2 ≤ (r.stopsOf dd).length → (∀ d', d' ≠ dd → r.stopsOf d' = []) →
        r.Sound ∧ (∃ a, r.StopsAt a) ∧ ∀ a, r.StopsAt a → ∃ c ∈ g.nodes, c.id = a := by
      intro r dd ht hst hlen hother
      refine ⟨Or.inl ⟨ht, ?_⟩, ⟨_, dd, 1, List.getElem?_eq_getElem (by omega), fun _ => by decide⟩, ?_⟩
      · cases dd with
        | I => exact Or.inr (hother .R (by decide))
        | R => exact Or.inl (hother .I (by decide))
      · rintro a ⟨d', i, hat⟩
        by_cases hdd : d' = dd
        · obtain ⟨j, hj, rfl⟩ := hst a (hdd ▸ List.mem_of_getElem? hat.1)
          exact ids_in_city hs hj
        · have := List.mem_of_getElem? hat.1
          rw [hother d' hdd] at this
          simp at this
    intro r hr'
    simp only [List.mem_cons, List.not_mem_nil, or_false] at hr'
    rcases hr' with rfl | rfl
    · refine key r .I t1 ?_ ?_ ?_
      · intro a ha
        simp only [Route.stopsOf, s1, n1, List.mem_append, List.mem_map, List.mem_range, List.mem_singleton] at ha
        rcases ha with ⟨i, hi, rfl⟩ | rfl
        · exact hsub i hi
        · exact hsub 0 (by omega)
      · simp [Route.stopsOf, s1, n1]; omega
      · intro d' hd'
        cases d' with
        | I => exact absurd rfl hd'
        | R => simp only [Route.stopsOf, s2, n2]
    · refine key r .R t2 ?_ ?_ ?_
      · intro a ha
        simp only [Route.stopsOf, s4, n3, List.mem_append, List.mem_reverse, List.mem_map, List.mem_range,
          List.mem_singleton] at ha
        rcases ha with ⟨i, hi, rfl⟩ | rfl
        · exact hsub i hi
        · exact hsub (n - 1) (by omega)
      · simp [Route.stopsOf, s4, n3]; omega
      · intro d' hd'
        cases d' with
        | R => exact absurd rfl hd'
        | I => simp only [Route.stopsOf, s3, n4]
  | feeder m =>
    obtain ⟨rs', h0, hf⟩ := C30_feeder_routes hs hd (Network.init g) rfl m
    have hr0 : (Network.init g).feederRoutes m = .ok rs := hr
    rw [h0] at hr0
    cases hr0
    refine fam hf fun i hi => ⟨by simp, ?_⟩
    simp only [List.mem_cons, List.not_mem_nil, or_false, forall_eq_or_imp, forall_eq]
    exact ⟨hper i hi, hsub i hi⟩
  | radial m short express =>
    obtain ⟨rs', h0, hf⟩ := C31_radial_routes hs hd (Network.init g) rfl m short express
    have hr0 : (Network.init g).radialRoutes m short express = .ok rs := hr
    rw [h0] at hr0
    cases hr0
    refine fam hf fun i hi => ?_
    cases short <;> cases express <;>
      simp only [if_true, if_false, Bool.false_eq_true, List.mem_cons, List.not_mem_nil, or_false, forall_eq_or_imp, forall_eq,
        ne_eq, reduceCtorEq, not_false_eq_true, true_and]
    · exact ⟨hper i hi, hsub i hi, hcbd⟩
    · exact ⟨hper i hi, hcbd⟩
    · exact ⟨hsub i hi, hcbd⟩
    · exact ⟨hsub i hi, hcbd⟩
  | diametral m jump short express =>
    obtain ⟨j, rfl⟩ : ∃ j : Nat, jump = (j : Int) := ⟨jump.toNat, by have := hq.1; omega⟩
    have h1 : 1 ≤ j := by have := hq.1; omega
    have h2 : 2 * j ≤ n := by have := hq.2; omega
    obtain ⟨rs', h0, hf⟩ := C32_diametral_routes hs hd (Network.init g) rfl m short express h1 h2
    have hr0 : (Network.init g).diametralRoutes m j short express = .ok rs := hr
    rw [h0] at hr0
    cases hr0
    refine fam hf fun i hi => ?_
    obtain ⟨hi1, hi2⟩ := hpairs h1 h2 hi
    cases short <;> cases express <;>
      simp only [if_true, if_false, Bool.false_eq_true, List.mem_cons, List.not_mem_nil, or_false, forall_eq_or_imp, forall_eq,
        ne_eq, reduceCtorEq, not_false_eq_true, true_and]
    · exact ⟨hper i hi1, hsub i hi1, hcbd, hsub _ hi2, hper _ hi2⟩
    · exact ⟨hper i hi1, hper _ hi2⟩
    · exact ⟨hsub i hi1, hcbd, hsub _ hi2⟩
    · exact ⟨hsub i hi1, hsub _ hi2⟩
  | tangential m jump short express =>
    obtain ⟨j, rfl⟩ : ∃ j : Nat, jump = (j : Int) := ⟨jump.toNat, by have := hq.1; omega⟩
    have h1 : 1 ≤ j := by have := hq.1; omega
    have h2 : 2 * j ≤ n := by have := hq.2; omega
    obtain ⟨rs', h0, hf⟩ := C33_tangential_routes hs hd (Network.init g) rfl m short express h1 h2
    have hr0 : (Network.init g).tangentialRoutes m j short express = .ok rs := hr
    rw [h0] at hr0
    cases hr0
    refine fam hf fun i hi => ?_
    obtain ⟨hi1, hi2⟩ := hpairs h1 h2 hi
    have hring : ∀ a ∈ ringFrom g n i j, ∃ k, k < 2 * n + 1 ∧ a = idAt g k := by
      intro a ha
      obtain ⟨t, _, rfl⟩ := List.mem_map.1 ha
      exact hsub _ (Nat.mod_lt _ (by omega))
    have hring0 : ringFrom g n i j ≠ [] := by simp [ringFrom]
    cases short <;> cases express <;>
      simp only [if_true, if_false, Bool.false_eq_true, List.mem_cons, List.mem_append, List.not_mem_nil, or_false,
        List.cons_append, List.nil_append, forall_eq_or_imp, forall_eq, ne_eq, reduceCtorEq, not_false_eq_true, true_and]
    · refine ⟨hper i hi1, ?_⟩
      rintro a (ha | rfl)
      · exact hring a ha
      · exact hper _ hi2
    · exact ⟨hper i hi1, hper _ hi2⟩
    · exact ⟨hring0, hring⟩
    · exact ⟨hsub i hi1, hsub _ hi2⟩

theorem addAll_reachable : ∀ (rs : List (Route K)) {s s' : Network K}, Network.Reachable g s → addAllRoutes s rs = .ok s' →
    Network.Reachable g s'
  | [], s, s', h, he => by cases he; exact h
  | r :: t, s, s', h, he => by
    simp only [addAllRoutes] at he
    have hc := Network.Reachable.call h (.addRoute r)
    simp only [NetCall.run] at hc
    cases hr : s.addRoute r with
    | mk s1 e1 =>
      rw [hr] at he hc
      cases e1 with
      | none => exact addAll_reachable t hc he
      | some e => cases he

theorem suit_of_modesOk {ms : List (Mode K)} (hms : ModesOk ms) (hne : ms ≠ []) (h : ∀ m, UsesMode routes m ↔ m ∈ ms) :
    SuitModes routes := by
  rcases hms with h1 | ⟨m, m', rfl, h1, h2⟩
  · cases ms with
    | nil => exact absurd rfl hne
    | cons m t =>
      have ht : t = [] := by
        cases t with
        | nil => rfl
        | cons y u => simp at h1
      subst ht
      exact Or.inl ⟨m, (h m).2 (by simp), fun m' hm' => by simpa using (h m').1 hm'⟩
  · exact Or.inr ⟨m, m', h1, (h m).2 (by simp), (h m').2 (by simp), fun k hk => by simpa using (h k).1 hk, h2⟩

/-- **C69**: in a city, requests for predefined lines of usable modes that can run together, no lines asked for twice, give a
network for which the optimiser can be constructed exactly when all trips of the demand are between different nodes
joined by its lines; otherwise the exception is that of the network. -/
theorem C69_families {n : Nat} (hs : CityShape g n) (hd : DistinctIds g) (hn : 1 ≤ n) (hw : ∃ w, g.p = some w ∧ 0 < w)
    (hroot : ∀ y : K, 0 ≤ PyMath.sqrt y) (hp : pas.Usable) {ms : List (Mode K)} (hms : ModesOk ms)
    {qs : List (FamilyRequest K)} (hne : qs ≠ []) (hq : ∀ q ∈ qs, q.mode ∈ ms ∧ q.Possible n ∧ q.mode.Usable)
    (hnd : (qs.map FamilyRequest.lines).Nodup) :
    ∃ rss net, List.Forall₂ (fun q rs => FamilyRequest.run (Network.init g) q = .ok rs) qs rss ∧
      addAllRoutes (Network.init g) rss.flatten = .ok net ∧ net.routes = rss.flatten ∧
      ∀ d : Demand K, ((∃ o, Optimizer.init g d pas net none = .ok o) ↔ AllServed net.routes none d.matrix) ∧
        (¬ AllServed net.routes none d.matrix → Optimizer.init g d pas net none = .error .AddMode ∨
          Optimizer.init g d pas net none = .error .TransportNetwork) := by
  obtain ⟨rss, hall, hok, _⟩ := C63_together hs hd hn hms qs fun q h => ⟨(hq q h).1, (hq q h).2.1⟩
  obtain ⟨net, hadd, hgr, hroutes, hget, hmodes⟩ := hok hnd
  have hall' : List.Forall₂ (fun q rs => FamilyRequest.run (Network.init g) q = .ok rs) qs rss :=
    hall.imp fun q rs h => h _ rfl
  have hreach : ∀ r ∈ net.routes, ∃ q ∈ qs, r.mode = q.mode ∧ r.Sound ∧ (∃ a, r.StopsAt a) ∧
      ∀ a, r.StopsAt a → ∃ c ∈ g.nodes, c.id = a := by
    intro r hr
    rw [hroutes] at hr
    obtain ⟨rs, hrs, hr⟩ := List.mem_flatten.1 hr
    obtain ⟨i, hi, rfl⟩ := List.getElem_of_mem hrs
    obtain ⟨hlen, hat⟩ := List.forall₂_iff_get.1 hall
    have hrun := hat i (by omega) hi
    have hqi : qs[i] ∈ qs := List.getElem_mem (by omega)
    obtain ⟨rs', h1, _, _, h2⟩ := FamilyRequest.run_facts hs hd hn qs[i] (hq _ hqi).2.1
    have h3 := h1 (Network.init g) rfl
    have h4 := hrun (Network.init g) rfl
    simp only [List.get_eq_getElem] at h4
    rw [h3] at h4
    have h5 : rs' = rss[i] := by simpa using h4
    subst h5
    exact ⟨_, hqi, (h2 r hr).1, request_routes hs hd (hq _ hqi).2.1 h3 r hr⟩
  have hfrom : ∀ q ∈ qs, ∃ r ∈ net.routes, r.mode = q.mode := by
    intro q hqm
    obtain ⟨i, hi, rfl⟩ := List.getElem_of_mem hqm
    obtain ⟨hlen, hat⟩ := List.forall₂_iff_get.1 hall
    have hrun := hat i hi (by omega)
    obtain ⟨rs', h1, h0, _, h2⟩ := FamilyRequest.run_facts hs hd hn qs[i] (hq _ hqm).2.1
    have h3 := h1 (Network.init g) rfl
    have h4 := hrun (Network.init g) rfl
    simp only [List.get_eq_getElem] at h4
    rw [h3] at h4
    have h5 : rs' = rss[i] := by simpa using h4
    obtain ⟨r, hr⟩ := List.exists_mem_of_ne_nil _ h0
    refine ⟨r, ?_, (h2 r hr).1⟩
    rw [hroutes]
    exact List.mem_flatten.2 ⟨_, List.getElem_mem (by omega), h5 ▸ hr⟩
  have hinv := (addAll_reachable _ Network.Reachable.init hadd).wf
  have husable : ∀ r ∈ net.routes, r.mode.Usable := by
    intro r hr
    obtain ⟨q, h1, h2, _⟩ := hreach r hr
    rw [h2]
    exact (hq q h1).2.2
  have hsuit : SuitModes net.routes := by
    refine suit_of_modesOk hinv.modes ?_ ?_
    · obtain ⟨q, hqm⟩ := List.exists_mem_of_ne_nil _ hne
      exact List.ne_nil_of_mem ((hmodes q.mode).2 ⟨q, hqm, rfl⟩)
    · intro m
      rw [hmodes]
      constructor
      · rintro ⟨r, hr, rfl, _⟩
        obtain ⟨q, h1, h2, _⟩ := hreach r hr
        exact ⟨q, h1, h2.symm⟩
      · rintro ⟨q, hqm, rfl⟩
        obtain ⟨r, hr, hrm⟩ := hfrom q hqm
        obtain ⟨_, _, _, _, ⟨a, dd, i, ha⟩, _⟩ := hreach r hr
        exact ⟨r, hr, hrm, dd, i, a, ha⟩
  have hsens : Workable g pas net none := by
    refine ⟨hd, hw, hinv.ids ▸ hinv.nodup, fun r h => ?_, fun r h => ?_, fun r h => (husable r h).runs,
      (by intro fr h; cases h), fun r h => (husable r h).start.le, hroot, hp.transfer, hp.pv, hp.pw, hp.pa, hp.va⟩
    · obtain ⟨_, _, _, h1, _⟩ := hreach r h
      exact h1
    · obtain ⟨_, _, _, _, _, h1⟩ := hreach r h
      exact h1
  refine ⟨rss, net, hall', hadd, hroutes, fun d => ?_⟩
  have := C69_constructor_iff (d := d) hsens hs (by
      intro m hm
      obtain ⟨q, h1, rfl⟩ := (hmodes m).1 hm
      exact_mod_cast (hq q h1).2.2.runs.lines)
    (fun r h => (husable r h).capacity) (fun r h => (husable r h).start)
  simpa [hsuit] using this

/-- requests whose lines join all nodes of a city: radial or diametral lines that are neither short nor express, or feeder
lines together with radial lines of any variant -/
def JoinsAll (qs : List (FamilyRequest K)) : Prop :=
  (∃ m, .radial m false false ∈ qs) ∨ (∃ m j, .diametral m j false false ∈ qs) ∨
  (∃ m m' short express, .feeder m ∈ qs ∧ .radial m' short express ∈ qs)

theorem joinsAll_joined {n : Nat} (hs : CityShape g n) (hd : DistinctIds g) {qs : List (FamilyRequest K)} (hqs : JoinsAll qs)
    (hposs : ∀ q ∈ qs, q.Possible n) (hrun : ∀ q ∈ qs, ∃ rs, q.run (Network.init g) = .ok rs ∧ ∀ r ∈ rs, r ∈ routes ∧ 0 < startOf f r)
    {a b : Node K} (ha : a ∈ g.nodes) (hb : b ∈ g.nodes) : Joined routes f a.id b.id := by
  rcases hqs with ⟨m, h⟩ | ⟨m, jump, h⟩ | ⟨m, m', short, express, h, h'⟩
  · obtain ⟨rs, h1, h2⟩ := hrun _ h
    exact C69_radial_joins hs hd h1 h2 ha hb
  · obtain ⟨rs, h1, h2⟩ := hrun _ h
    have hp := hposs _ h
    obtain ⟨j, rfl⟩ : ∃ j : Nat, jump = (j : Int) := ⟨jump.toNat, by have := hp.1; omega⟩
    exact C69_diametral_joins hs hd (by have := hp.1; omega) (by have := hp.2; omega) h1 h2 ha hb
  · obtain ⟨rs, h1, h2⟩ := hrun _ h
    obtain ⟨rs', h1', h2'⟩ := hrun _ h'
    exact C69_feeder_trunk_joins hs hd h1 h1' h2 h2' ha hb

theorem joining_network {n : Nat} (hs : CityShape g n) (hd : DistinctIds g) (hn : 1 ≤ n) (hw : ∃ w, g.p = some w ∧ 0 < w)
    (hroot : ∀ y : K, 0 ≤ PyMath.sqrt y) (hp : pas.Usable) {ms : List (Mode K)} (hms : ModesOk ms)
    {qs : List (FamilyRequest K)} (hall : JoinsAll qs) (hq : ∀ q ∈ qs, q.mode ∈ ms ∧ q.Possible n ∧ q.mode.Usable)
    (hnd : (qs.map FamilyRequest.lines).Nodup) (hc : d.NodeCells g) (hdiag : ∀ a v, lookup2 d.matrix a a = some v → v = 0) :
    ∃ rss net o, List.Forall₂ (fun q rs => FamilyRequest.run (Network.init g) q = .ok rs) qs rss ∧
      addAllRoutes (Network.init g) rss.flatten = .ok net ∧ Optimizer.init g d pas net none = .ok o := by
  have hne : qs ≠ [] := by
    rcases hall with ⟨_, h⟩ | ⟨_, _, h⟩ | ⟨_, _, _, _, h, _⟩ <;> exact List.ne_nil_of_mem h
  obtain ⟨rss, net, h1, h2, h3, h4⟩ := C69_families hs hd hn hw hroot hp hms hne hq hnd
  have hrun : ∀ q ∈ qs, ∃ rs, q.run (Network.init g) = .ok rs ∧
      ∀ r ∈ rs, r ∈ net.routes ∧ 0 < startOf (none : Option (Dict Str K)) r := by
    intro q hqm
    obtain ⟨i, hi, rfl⟩ := List.getElem_of_mem hqm
    obtain ⟨hlen, hat⟩ := List.forall₂_iff_get.1 h1
    have hi' : i < rss.length := by omega
    have h5 := hat i hi hi'
    simp only [List.get_eq_getElem] at h5
    refine ⟨rss[i], h5, fun r hr => ⟨h3 ▸ List.mem_flatten.2 ⟨_, List.getElem_mem hi', hr⟩, ?_⟩⟩
    obtain ⟨rs', h6, _, _, h7⟩ := FamilyRequest.run_facts hs hd hn qs[i] (hq _ hqm).2.1
    have h8 := h6 (Network.init g) rfl
    rw [h5] at h8
    have h9 : rss[i] = rs' := by simpa using h8
    rw [h9] at hr
    unfold startOf
    rw [(h7 r hr).1]
    exact (hq _ hqm).2.2.start
  obtain ⟨o, ho⟩ := (h4 d).1.2 (by
    intro p hp' q hq' hv
    have hkn := nodeCells_nodup hc
    have e1 := Dict.get?_of_mem d.matrix hkn.1 (k := p.1) (v := p.2) hp'
    have e2 := Dict.get?_of_mem p.2 (hkn.2 p hp') (k := q.1) (v := q.2) hq'
    have e3 : lookup2 d.matrix p.1 q.1 = some q.2 := by simp [lookup2, e1, e2]
    refine ⟨fun he => hv (hdiag p.1 q.2 (by rw [← he] at e3; exact e3)), ?_⟩
    obtain ⟨e4, e5⟩ := (nodeCells_lookup hc p.1 q.1).1 (by rw [e3]; rfl)
    obtain ⟨a, ha, hae⟩ := List.mem_map.1 e4
    obtain ⟨b, hb, hbe⟩ := List.mem_map.1 e5
    rw [← hae, ← hbe]
    exact joinsAll_joined hs hd hall (fun q h => (hq q h).2.1) hrun ha hb)
  exact ⟨rss, net, o, h1, h2, ho⟩

/-- **C69**: in every city with a zone and a positive width, with requests for lines that join all nodes, the optimiser can
be constructed for every demand without trips inside a node. -/
theorem C69_joining_families [NumText K] {n : Nat} (hs : CityShape g n) (hd : DistinctIds g) (hn : 1 ≤ n)
    (hw : ∃ w, g.p = some w ∧ 0 < w) (hroot : ∀ y : K, 0 ≤ PyMath.sqrt y) (hp : pas.Usable) {ms : List (Mode K)}
    (hms : ModesOk ms) {qs : List (FamilyRequest K)} (hall : JoinsAll qs)
    (hq : ∀ q ∈ qs, q.mode ∈ ms ∧ q.Possible n ∧ q.mode.Usable) (hnd : (qs.map FamilyRequest.lines).Nodup)
    (hc : Demand.History g (fun o e => IsNodeId g o ∧ IsNodeId g e) d)
    (hdiag : ∀ a v, lookup2 d.matrix a a = some v → v = 0) :
    ∃ rss net o, List.Forall₂ (fun q rs => FamilyRequest.run (Network.init g) q = .ok rs) qs rss ∧
      addAllRoutes (Network.init g) rss.flatten = .ok net ∧ Optimizer.init g d pas net none = .ok o :=
  joining_network hs hd hn hw hroot hp hms hall hq hnd (nodeCells_history hc) hdiag

/-- **C69**: from the parameters of a city and of a demand to the optimiser: with lines that join all nodes everything is
accepted. -/
theorem C69_from_parameters {n : Int} {l gg p : K} {etha : Option K} {ethaZone : Option Int} {angles gi hi : Option (List K)}
    (hg : buildFromParameters n l gg p etha ethaZone angles gi hi = .ok g) (hn : 1 ≤ n) (hp0 : 0 < p) {y a alpha beta : K}
    (hdem : Demand.buildFromParameters g y a alpha beta = .ok d) (hroot : ∀ y : K, 0 ≤ PyMath.sqrt y) (hp : pas.Usable)
    {ms : List (Mode K)} (hms : ModesOk ms) {qs : List (FamilyRequest K)} (hall : JoinsAll qs)
    (hq : ∀ q ∈ qs, q.mode ∈ ms ∧ q.Possible n.toNat ∧ q.mode.Usable) (hnd : (qs.map FamilyRequest.lines).Nodup) :
    ∃ rss net o, List.Forall₂ (fun q rs => FamilyRequest.run (Network.init g) q = .ok rs) qs rss ∧
      addAllRoutes (Network.init g) rss.flatten = .ok net ∧ Optimizer.init g d pas net none = .ok o := by
  obtain ⟨_, hs, hd⟩ := buildFromParameters_shape hg
  have hn' : 1 ≤ n.toNat := by omega
  have hw : g.p = some p := by
    have hok := (buildFromParameters_ok_iff).1 ⟨g, hg⟩
    obtain ⟨k, rfl⟩ := Int.eq_ofNat_of_zero_le hok.n_nonneg
    rw [buildFromParameters_eq hok] at hg
    cases hg
    rfl
  have hok := (C05_build_accepts_iff hs hd y a alpha beta).1 ⟨d, hdem⟩
  obtain ⟨d', h1, hc, _⟩ := demandParams_ok hs.n_eq (by omega) hd hok
  rw [hdem] at h1
  cases h1
  refine joining_network hs hd hn' ⟨p, hw, hp0⟩ hroot hp hms hall hq hnd hc ?_
  intro b v hv
  obtain ⟨c, hc1, rfl⟩ := List.mem_map.1 ((nodeCells_lookup hc b b).1 (by rw [hv]; rfl)).1
  obtain ⟨v', h2, _, _, _, h3, _⟩ := C04_parametric_cells hs hd hn' hdem hc1 hc1
  rw [hv] at h2
  cases h2
  exact h3 rfl

/-- **C69**: the default modes can run together and are usable, and so is the default passenger. -/
theorem C69_defaults (oid : Nat) {ms : List (Mode K)} (h : defaultModes oid = .ok ms) {p : Passenger K}
    (hp : Passenger.default = .ok p) : ModesOk ms ∧ (∀ m ∈ ms, m.Usable) ∧ p.Usable := by
  unfold defaultModes at h
  simp only [py_bind_eq_ok, Mode.new_eq_ok, py_pure, Except.ok.injEq] at h
  obtain ⟨b, ⟨_, hb, _⟩, m, ⟨_, hm, _⟩, rfl⟩ := h
  obtain ⟨b1, -, -, -, -, b6, -, b8, b9, b10, b11, -, xb, b12, b13⟩ := hb
  obtain ⟨m1, -, -, -, -, m6, -, m8, m9, m10, m11, -, xm, m12, m13⟩ := hm
  simp only [busArgs, metroArgs, Option.some.injEq] at b1 b6 b8 b9 b10 b11 b12 m1 m6 m8 m9 m10 m11 m12
  subst b12 m12
  rw [← b11] at b13
  rw [← m11] at m13
  unfold Passenger.default at hp
  obtain ⟨p1, p2, p3, p4, p5, -⟩ := Passenger.new_eq_ok.1 hp
  simp only [Option.some.injEq] at p1 p2 p3 p4 p5
  refine ⟨Or.inr ⟨b, m, rfl, ?_, Or.inr m11.symm⟩, ?_, ?_⟩
  · rw [← b1, ← m1]
    decide
  · intro x hx
    rcases List.mem_cons.1 hx with rfl | hx
    · refine ⟨?_, by rw [b13]; norm_num, by rw [← b8]; norm_num⟩
      exact ⟨by rw [← b10], by rw [← b9]; norm_num, by rw [← b6]; norm_num, by rw [← b11]; norm_num⟩
    · rw [List.mem_singleton] at hx
      subst hx
      refine ⟨?_, by rw [m13]; norm_num, by rw [← m8]; norm_num⟩
      exact ⟨by rw [← m10]; norm_num, by rw [← m9]; norm_num, by rw [← m6]; norm_num, by rw [← m11]; norm_num⟩
  · exact ⟨by rw [← p5]; norm_num, by rw [← p2]; norm_num, by rw [← p3]; norm_num, by rw [← p4]; norm_num,
      by rw [← p1]; norm_num⟩

end Generic

/-- **C69**, over the real numbers: with the default modes and the default passenger, any city with a zone and a positive
width and any demand built from their parameters give an optimiser for radial buses, and one for feeder buses with short
radial metro lines. -/
theorem C69_quick_start (oid : Nat) {n : Int} {l gg p : ℝ} {etha : Option ℝ} {ethaZone : Option Int}
    {angles gi hi : Option (List ℝ)} {g : Graph ℝ} {d : Demand ℝ}
    (hg : buildFromParameters n l gg p etha ethaZone angles gi hi = .ok g) (hn : 1 ≤ n) (hp0 : 0 < p) {y a alpha beta : ℝ}
    (hdem : Demand.buildFromParameters g y a alpha beta = .ok d) :
    ∃ (bus metro : Mode ℝ) (pas : Passenger ℝ), defaultModes oid = .ok [bus, metro] ∧ Passenger.default = .ok pas ∧
      ∀ qs, qs = [.radial bus false false] ∨ qs = [.feeder bus, .radial metro true false] →
        ∃ rss net o, List.Forall₂ (fun q rs => FamilyRequest.run (Network.init g) q = .ok rs) qs rss ∧
          addAllRoutes (Network.init g) rss.flatten = .ok net ∧ Optimizer.init g d pas net none = .ok o := by
  obtain ⟨bus, metro, hm, _⟩ := C18_default_modes (K := ℝ) oid
  obtain ⟨pas, hpas⟩ : ∃ pas : Passenger ℝ, Passenger.default = .ok pas := by
    refine ⟨⟨4, 274 / 100, 548 / 100, 822 / 100, 16, 274 / 100, 548 / 100, 822 / 100, 16⟩, ?_⟩
    unfold Passenger.default
    rw [Passenger.new_eq_ok]
    refine ⟨rfl, rfl, rfl, rfl, rfl, rfl, rfl, rfl, rfl, fun a => ?_⟩
    cases a <;> norm_num [PassengerOk, Passenger.read]
  obtain ⟨h1, h2, h3⟩ := C69_defaults oid hm hpas
  refine ⟨bus, metro, pas, hm, hpas, ?_⟩
  rintro qs (rfl | rfl)
  · refine C69_from_parameters hg hn hp0 hdem Real.sqrt_nonneg h3 h1 (Or.inl ⟨bus, by simp⟩) ?_ (by simp)
    intro q hq
    rw [List.mem_singleton] at hq
    subst hq
    exact ⟨by simp [FamilyRequest.mode], by simp [FamilyRequest.Possible], h2 _ (by simp [FamilyRequest.mode])⟩
  · refine C69_from_parameters hg hn hp0 hdem Real.sqrt_nonneg h3 h1
      (Or.inr (Or.inr ⟨bus, metro, true, false, by simp, by simp⟩)) ?_ (by simp [FamilyRequest.lines])
    intro q hq
    simp only [List.mem_cons, List.not_mem_nil, or_false] at hq
    rcases hq with rfl | rfl <;>
      exact ⟨by simp [FamilyRequest.mode], by simp [FamilyRequest.Possible], h2 _ (by simp [FamilyRequest.mode])⟩

/-! ### concrete cases -/

section Examples

attribute [local instance] ratMath ratText

theorem rat_root (y : ℚ) : 0 ≤ PyMath.sqrt y := div_nonneg (Nat.cast_nonneg _) (Nat.cast_nonneg _)

/-- the demonstration modes and passenger are usable, and can run together -/
example : demoMode.Usable ∧ oddMetro.Usable ∧ demoFair.Usable ∧ ModesOk [demoMode, oddMetro] :=
  ⟨⟨⟨by decide +kernel, by decide +kernel, by decide +kernel, by decide +kernel⟩, by decide +kernel, by decide +kernel⟩,
   ⟨⟨by decide +kernel, by decide +kernel, by decide +kernel, by decide +kernel⟩, by decide +kernel, by decide +kernel⟩,
   ⟨by decide +kernel, by decide +kernel, by decide +kernel, by decide +kernel, by decide +kernel⟩,
   Or.inr ⟨_, _, rfl, by decide, Or.inl rfl⟩⟩

/-- feeder buses and short radial metro lines in a city with three zones, with a demand from its parameters: every hypothesis
of C69_from_parameters holds -/
example : buildFromParameters (K := ℚ) 3 10 (1/2) 2 none none none none none = .ok (demoCity 3) ∧
    (Demand.buildFromParameters (demoCity 3) (100 : ℚ) (1/2) (1/4) (1/4)).isOk = true ∧
    JoinsAll [.feeder demoMode, .radial oddMetro true false] ∧
    ([.feeder demoMode, .radial oddMetro true false].map FamilyRequest.lines).Nodup ∧
    (FamilyRequest.feeder demoMode).Possible 3 ∧ (FamilyRequest.radial oddMetro true false).Possible 3 :=
  ⟨by decide +kernel, by decide +kernel, Or.inr (Or.inr ⟨demoMode, oddMetro, true, false, by simp, by simp⟩),
   by decide +kernel, trivial, trivial⟩

/-- the pipeline run in a city with two zones: the optimiser is constructed; with the feeders alone it is refused -/
def feederTrunk (qs : List (FamilyRequest ℚ)) : Py Bool := do
  let d ← Demand.buildFromParameters (demoCity 2) (100 : ℚ) (1/2) (1/4) (1/4)
  let rss ← qs.mapM (FamilyRequest.run (Network.init (demoCity 2)))
  let net ← addAllRoutes (Network.init (demoCity 2)) rss.flatten
  let _ ← Optimizer.init (demoCity 2) d demoFair net none
  return true

example : feederTrunk [.feeder demoMode, .radial oddMetro true false] = .ok true ∧
    feederTrunk [.feeder demoMode] = .error .TransportNetwork := by decide +kernel

/-- the two lines of buses meet the hypotheses of C69_prepare_iff and C69_constructor_iff -/
theorem busWorkable : Workable (demoCity 3) demoFair busNet none where
  nodes := demoShape.2
  width := ⟨2, by decide +kernel, by decide +kernel⟩
  ids := by decide +kernel
  sound := by
    intro r hr
    simp only [busNet, demoBuses, List.mem_cons, List.not_mem_nil, or_false] at hr
    rcases hr with rfl | rfl
    · exact Or.inr ⟨by decide, by constructor <;> decide⟩
    · exact Or.inl ⟨rfl, Or.inr rfl⟩
  stops := by
    rintro r hr a ⟨d, i, h⟩
    have key : ∀ r ∈ busNet.routes, ∀ d ∈ [Dir.I, Dir.R], ∀ a ∈ r.stopsOf d, a ∈ (demoCity 3).nodes.map Node.id := by
      decide +kernel
    exact List.mem_map.1 (key r hr d (by cases d <;> simp) a (List.mem_of_getElem? h.1))
  modes := by
    intro r hr
    have h : r.mode = demoMode := by
      have key : ∀ r ∈ busNet.routes, r.mode = demoMode := by decide +kernel
      exact key r hr
    rw [h]
    exact ⟨by decide +kernel, by decide +kernel, by decide +kernel, by decide +kernel⟩
  freqs := by simp
  start := by decide +kernel
  root := rat_root
  transfer := by decide +kernel
  pv := by decide +kernel
  pw := by decide +kernel
  pa := by decide +kernel
  va := by decide +kernel

example : CityShape (demoCity 3) 3 ∧ (∀ m ∈ busNet.modes, 0 < m.d) ∧ (∀ r ∈ busNet.routes, 0 ≤ r.mode.kmax) ∧
    (∀ r ∈ busNet.routes, 0 < r.mode.fini) := ⟨demoShape.1, by decide +kernel, by decide +kernel, by decide +kernel⟩

/-- so every node pair of this demand is joined by the two lines, as the optimiser can be constructed -/
example : AllServed busNet.routes none busDemand.matrix :=
  ((C69_constructor_iff busWorkable demoShape.1 (by decide +kernel) (by decide +kernel) (by decide +kernel)).1.1
    ⟨_, isOk_of_toOption (Classical.choice ⟨((Optimizer.init (demoCity 3) busDemand demoFair busNet none).toOption).get
      (by decide +kernel)⟩) (by decide +kernel)⟩).1

end Examples

end Sidermit
