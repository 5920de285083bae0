import Verif.Props.Service

/-!
C81: what the things are called, and how the city lies, does not matter.
-/

set_option linter.unusedSectionVars false

namespace Sidermit

/-- the direction, or the other one -/
def Dir.flip : Bool → Dir → Dir
  | false, d => d
  | true, .I => .R
  | true, .R => .I

theorem Dir.flip_flip (b : Bool) (d : Dir) : Dir.flip b (Dir.flip b d) = d := by cases b <;> cases d <;> rfl

/-- the names in the second description of a network; `turned` tells the lines whose directions are exchanged -/
structure Renaming (K : Type) where
  turned : Route K → Bool
  id : Int → Int
  node : CityNode K → CityNode K
  mode : Mode K → Mode K
  line : Route K → Route K

/-- the second description is that of the first network: the nodes, the modes and the lines may have other names and numbers,
the directions of a line may be exchanged, and the city may have been moved, turned or mirrored -/
structure Renames {K : Type} [Field K] [LinearOrder K] [PyMath K] (ρ : Renaming K) (g g' : Graph K) (routes routes' : List (Route K))
    (freq freq' : Option (Dict Str K)) : Prop where
  ids : ∀ a b, ρ.id a = ρ.id b → a = b
  id_onto : ∀ b, ∃ a, ρ.id a = b
  inside : ∀ c : CityNode K, c.In g → (ρ.node c).In g' ∧ (ρ.node c).node.id = ρ.id c.node.id
  apart : ∀ c c' : CityNode K, c.In g → c'.In g → nodeDistance (ρ.node c).node (ρ.node c').node = nodeDistance c.node c'.node
  onto : ∀ c' : CityNode K, c'.In g' → ∃ c : CityNode K, c.In g ∧ ρ.node c = c'
  once : routes.Nodup ∧ routes'.Nodup
  lines : ∀ r ∈ routes, ρ.line r ∈ routes'
  all : ∀ r' ∈ routes', ∃ r ∈ routes, ρ.line r = r'
  different : ∀ r ∈ routes, ∀ r' ∈ routes, ρ.line r = ρ.line r' → r = r'
  mode : ∀ r ∈ routes, (ρ.line r).mode = ρ.mode r.mode
  modes : ∀ r ∈ routes, ∀ r' ∈ routes, ρ.mode r.mode = ρ.mode r'.mode → r.mode = r'.mode
  same : ∀ r ∈ routes, (ρ.mode r.mode).v = r.mode.v ∧ (ρ.mode r.mode).theta = r.mode.theta ∧ (ρ.mode r.mode).tat = r.mode.tat ∧
    (ρ.mode r.mode).d = r.mode.d
  circular : ∀ r ∈ routes, ((ρ.line r).type = .circular ↔ r.type = .circular)
  ways : ∀ r ∈ routes, ∀ d, (ρ.line r).nodesOf (Dir.flip (ρ.turned r) d) = (r.nodesOf d).map ρ.id ∧
    (ρ.line r).stopsOf (Dir.flip (ρ.turned r) d) = (r.stopsOf d).map ρ.id
  freqs : ∀ r ∈ routes, (frequencies routes' freq').getD (ρ.line r).id 0 = (frequencies routes freq).getD r.id 0

section Generic

variable {K : Type} [Field K] [LinearOrder K] [IsStrictOrderedRing K] [PyMath K] {ρ : Renaming K} {g g' : Graph K}
  {routes routes' : List (Route K)} {sPTP : K} {freq freq' : Option (Dict Str K)} {x x' : ExtGraph K} {pas : Passenger K}

/-- a stop in the second description -/
def Renaming.stop (ρ : Renaming K) (s : StopNode K) : StopNode K := ⟨ρ.mode s.mode, ρ.node s.city⟩

/-- a route node in the second description -/
def Renaming.route (ρ : Renaming K) (routes' : List (Route K)) (n : RouteNode K) : RouteNode K :=
  ⟨routes'.idxOf (ρ.line n.route), ρ.line n.route, Dir.flip (ρ.turned n.route) n.dir, n.pos, ρ.stop n.stop⟩

/-- a node in the second description -/
def Renaming.on (ρ : Renaming K) (routes' : List (Route K)) : ENode K → ENode K
  | .city c => .city (ρ.node c)
  | .stop s => .stop (ρ.stop s)
  | .route n => .route (ρ.route routes' n)

namespace Renames

theorem nodeAt (h : Renames ρ g g' routes routes' freq freq') {r : Route K} (hr : r ∈ routes) (d : Dir) (i : Nat) (id : Int) :
    (ρ.line r).NodeAt (Dir.flip (ρ.turned r) d) i (ρ.id id) ↔ r.NodeAt d i id := by
  unfold Route.NodeAt
  rw [(h.ways r hr d).2, h.circular r hr, List.getElem?_map]
  refine and_congr_left fun _ => ?_
  cases (r.stopsOf d)[i]? with
  | none => simp
  | some a =>
    simp only [Option.map_some, Option.some.injEq]
    exact ⟨h.ids a id, fun e => by rw [e]⟩

theorem nodeAt' (h : Renames ρ g g' routes routes' freq freq') {r : Route K} (hr : r ∈ routes) (d : Dir) (i : Nat) (id : Int) :
    (ρ.line r).NodeAt d i (ρ.id id) ↔ r.NodeAt (Dir.flip (ρ.turned r) d) i id := by
  rw [← h.nodeAt hr, Dir.flip_flip]

theorem stop_wanted (h : Renames ρ g g' routes routes' freq freq') {s : StopNode K} (hs : s.Wanted g routes) :
    (ρ.stop s).Wanted g' routes' := by
  obtain ⟨h1, r, hr, hm, d, i, ha⟩ := hs
  refine ⟨(h.inside _ h1).1, ρ.line r, h.lines r hr, ?_, Dir.flip (ρ.turned r) d, i, ?_⟩
  · rw [h.mode r hr, hm]; rfl
  · change (ρ.line r).NodeAt (Dir.flip (ρ.turned r) d) i (ρ.node s.city).node.id
    rw [(h.inside _ h1).2]
    exact (h.nodeAt hr d i _).2 ha

theorem route_wanted (h : Renames ρ g g' routes routes' freq freq') {n : RouteNode K} (hn : n.Wanted g routes) :
    (ρ.route routes' n).Wanted g' routes' := by
  obtain ⟨h1, h2, h3, h4⟩ := hn
  have hr := List.mem_of_getElem? h1
  refine ⟨List.getElem?_idxOf (h.lines _ hr), ?_, ?_, (h.inside _ h4).1⟩
  · change (ρ.line n.route).NodeAt (Dir.flip (ρ.turned n.route) n.dir) n.pos (ρ.node n.stop.city).node.id
    rw [(h.inside _ h4).2]
    exact (h.nodeAt hr _ _ _).2 h2
  · change ρ.mode n.stop.mode = (ρ.line n.route).mode
    rw [h.mode _ hr, h3]

theorem served (h : Renames ρ g g' routes routes' freq freq') {c : CityNode K} (hc : c.In g) :
    Served g' routes' (ρ.node c).node ↔ Served g routes c.node := by
  constructor
  · rintro ⟨s', ⟨h1, r', hr', hm, d, i, ha⟩, hs'⟩
    obtain ⟨r, hr, rfl⟩ := h.all r' hr'
    rw [hs', (h.inside c hc).2] at ha
    exact ⟨⟨r.mode, c⟩, ⟨hc, r, hr, rfl, _, i, (h.nodeAt' hr d i _).1 ha⟩, rfl⟩
  · rintro ⟨s, hs, hsc⟩
    have hcs : s.city.node = c.node := hsc
    refine ⟨⟨ρ.mode s.mode, ρ.node c⟩, ?_, rfl⟩
    obtain ⟨h1, r, hr, hm, d, i, ha⟩ := hs
    refine ⟨(h.inside c hc).1, ρ.line r, h.lines r hr, by rw [h.mode r hr, hm], Dir.flip (ρ.turned r) d, i, ?_⟩
    change (ρ.line r).NodeAt (Dir.flip (ρ.turned r) d) i (ρ.node c).node.id
    rw [(h.inside c hc).2]
    rw [hcs] at ha
    exact (h.nodeAt hr d i _).2 ha

theorem find (h : Renames ρ g g' routes routes' freq freq') (hg : DistinctIds g) (hg' : DistinctIds g')
    (hx : buildExtGraph g routes sPTP freq = .ok x) (hx' : buildExtGraph g' routes' sPTP freq' = .ok x') (id : Int) :
    (∃ c : CityNode K, c.In g ∧ (x.nodes.map fun p => p.1.node).find? (fun n => decide (id = n.id)) = some c.node ∧
      (x'.nodes.map fun p => p.1.node).find? (fun n => decide (ρ.id id = n.id)) = some (ρ.node c).node) ∨
    ((x.nodes.map fun p => p.1.node).find? (fun n => decide (id = n.id)) = none ∧
      (x'.nodes.map fun p => p.1.node).find? (fun n => decide (ρ.id id = n.id)) = none) := by
  classical
  rw [find_served hg hx, find_served hg' hx']
  cases hf : g.nodes.find? (fun n => decide (id = n.id ∧ Served g routes n)) with
  | some m =>
    left
    have h1 := List.mem_of_find?_eq_some hf
    have h2 := List.find?_some hf
    simp only [decide_eq_true_eq] at h2
    obtain ⟨k, hk⟩ := List.mem_iff_getElem?.1 h1
    have hc : (⟨k, m⟩ : CityNode K).In g := hk
    refine ⟨⟨k, m⟩, hc, rfl, ?_⟩
    obtain ⟨i1, i2⟩ := h.inside _ hc
    have hin := List.mem_of_getElem? i1
    cases hf' : g'.nodes.find? (fun n => decide (ρ.id id = n.id ∧ Served g' routes' n)) with
    | none =>
      rw [List.find?_eq_none] at hf'
      exact absurd (hf' _ hin) (by
        simp only [decide_eq_true_eq, not_not]
        exact ⟨by rw [i2, h2.1], (h.served hc).2 h2.2⟩)
    | some m' =>
      have h3 := List.mem_of_find?_eq_some hf'
      have h4 := List.find?_some hf'
      simp only [decide_eq_true_eq] at h4
      congr 1
      exact List.inj_on_of_nodup_map hg' h3 hin (by rw [← h4.1, i2, h2.1])
  | none =>
    right
    refine ⟨rfl, ?_⟩
    rw [List.find?_eq_none] at hf ⊢
    intro m' hm' hd
    simp only [decide_eq_true_eq] at hd
    obtain ⟨hid, s', ⟨_, r', hr', _, d, i, ha⟩, hs'⟩ := hd
    obtain ⟨r, hr, rfl⟩ := h.all r' hr'
    rw [hs', ← hid] at ha
    have ha' := (h.nodeAt' hr d i _).1 ha
    by_cases hex : ∃ c ∈ g.nodes, c.id = id
    · obtain ⟨c, hc, hcid⟩ := hex
      obtain ⟨k, hk⟩ := List.mem_iff_getElem?.1 hc
      refine hf c hc ?_
      simp only [decide_eq_true_eq]
      exact ⟨hcid.symm, ⟨r.mode, ⟨k, c⟩⟩, ⟨hk, r, hr, rfl, _, i, by rw [← hcid] at ha'; exact ha'⟩, rfl⟩
    · exact C34_unknown_stop_rejected hr ha' (fun c hc e => hex ⟨c, hc, e⟩) sPTP freq x hx

/-- the coordinates of a node -/
def _root_.Sidermit.CityNode.at (c : CityNode K) : K × K := (c.node.x, c.node.y)

theorem legLoop_eq (h : Renames ρ g g' routes routes' freq freq') {l l' : List (Node K)}
    (hf : ∀ id, (∃ c : CityNode K, c.In g ∧ l.find? (fun n => decide (id = n.id)) = some c.node ∧
      l'.find? (fun n => decide (ρ.id id = n.id)) = some (ρ.node c).node) ∨
      (l.find? (fun n => decide (id = n.id)) = none ∧ l'.find? (fun n => decide (ρ.id id = n.id)) = none))
    {a b : Int} {e : CityNode K} (he : e.In g) (s : List Int) : ∀ (count : Bool) (c : CityNode K), c.In g → ∀ dist : K,
    legLoop l' (ρ.id a) (ρ.id b) (ρ.node e).at (s.map ρ.id) count (ρ.node c).at dist = legLoop l a b e.at s count c.at dist := by
  have hseg : ∀ c c' : CityNode K, c.In g → c'.In g → segment (ρ.node c).at (ρ.node c').at = segment c.at c'.at :=
    fun c c' hc hc' => h.apart c c' hc hc'
  have hid : ∀ a b, ρ.id a = ρ.id b ↔ a = b := fun a b => ⟨h.ids a b, fun e => by rw [e]⟩
  induction s with
  | nil => intro count c hc dist; rfl
  | cons id t ih =>
    intro count c hc dist
    rw [List.map_cons, legLoop, legLoop]
    simp only [hid]
    split_ifs with h1 h2 h3
    · exact ih _ c hc _
    · rw [hseg c e hc he]
    · rcases hf id with ⟨c', hc', f1, f2⟩ | ⟨f1, f2⟩
      · rw [f1, f2]
        simp only
        rw [show ((ρ.node c').node.x, (ρ.node c').node.y) = (ρ.node c').at from rfl, show (c'.node.x, c'.node.y) = c'.at from rfl,
          hseg c c' hc hc']
        exact ih _ c' hc' _
      · rw [f1, f2]
        exact ih _ c hc _
    · exact ih _ c hc _

theorem inj (h : Renames ρ g g' routes routes' freq freq') (hg : DistinctIds g) {n m : RouteNode K} (hn : n.Wanted g routes)
    (hm : m.Wanted g routes) (he : ρ.route routes' n = ρ.route routes' m) : n = m := by
  unfold Renaming.route at he
  simp only [RouteNode.mk.injEq] at he
  obtain ⟨_, h2, h3, h4, _⟩ := he
  have hr := h.different _ (List.mem_of_getElem? hn.1) _ (List.mem_of_getElem? hm.1) h2
  rw [hr] at h3
  replace h3 := congrArg (Dir.flip (ρ.turned m.route)) h3
  rw [Dir.flip_flip, Dir.flip_flip] at h3
  have hidx : n.ridx = m.ridx := by
    have hn1 := hn.1
    have hm1 := hm.1
    rw [← hr] at hm1
    obtain ⟨k1, e1⟩ := List.getElem?_eq_some_iff.1 hn1
    obtain ⟨k2, e2⟩ := List.getElem?_eq_some_iff.1 hm1
    exact (List.Nodup.getElem_inj_iff h.once.1).1 (e1.trans e2.symm)
  have hid : n.stop.city.node.id = m.stop.city.node.id := by
    have h5 := hn.2.1.1
    have h6 := hm.2.1.1
    rw [hr, h3, h4, h6] at h5
    exact (Option.some.inj h5).symm
  have hc := CityNode.In.ext hg hn.2.2.2 hm.2.2.2 hid
  have hmode : n.stop.mode = m.stop.mode := by rw [hn.2.2.1, hm.2.2.1, hr]
  have hst : n.stop = m.stop := by
    cases hns : n.stop; cases hms : m.stop
    rw [hns, hms] at hc hmode
    simp only at hc hmode
    rw [hc, hmode]
  cases n; cases m
  simp_all

theorem city (hback : ∀ c c' : CityNode K, c.In g → c'.In g → ρ.node c = ρ.node c' → c = c')
    {o : Option (CityNode K)} (ho : ∀ c ∈ o, c.In g) {n : ENode K} (hn : ∀ c, n = .city c → c.In g) :
    some (ρ.on routes' n) = (o.map ρ.node).map ENode.city ↔ some n = o.map ENode.city := by
  cases o with
  | none => simp
  | some c =>
    cases n with
    | city c' =>
      simp only [Renaming.on, Option.map_some, Option.some.injEq, ENode.city.injEq]
      exact ⟨hback _ _ (hn c' rfl) (ho c rfl), fun e => by rw [e]⟩
    | stop s => simp [Renaming.on]
    | route n => simp [Renaming.on]

theorem noWorse (h : Renames ρ g g' routes routes' freq freq') (hg : DistinctIds g) (hg' : DistinctIds g')
    (ha : Admissible routes sPTP freq pas) (hx : buildExtGraph g routes sPTP freq = .ok x)
    (hx' : buildExtGraph g' routes' sPTP freq' = .ok x') {o d : Option (CityNode K)} (ho : ∀ c ∈ o, c.In g) (hd : ∀ c ∈ d, c.In g) :
    NoWorse x.edges x'.edges pas pas o d (o.map ρ.node) (d.map ρ.node) (ρ.on routes') ρ.stop := by
  have hs := ha.searchable hx
  have hback : ∀ c c' : CityNode K, c.In g → c'.In g → ρ.node c = ρ.node c' → c = c' := by
    intro c c' hc hc' he
    refine CityNode.In.ext hg hc hc' (h.ids _ _ ?_)
    rw [← (h.inside c hc).2, ← (h.inside c' hc').2, he]
  have hsome : ∀ {c : CityNode K}, c.In g → (some (ρ.node c) = d.map ρ.node ↔ some c = d) := by
    intro c hc
    cases d with
    | none => simp
    | some c' =>
      simp only [Option.map_some, Option.some.injEq]
      exact ⟨hback _ _ hc (hd c' rfl), fun e => by rw [e]⟩
  have hleg : ∀ p n : RouteNode K, p.Wanted g routes → n.Wanted g routes →
      legDistance (x'.nodes.map fun p => p.1.node) (ρ.route routes' p) (ρ.route routes' n) =
        legDistance (x.nodes.map fun p => p.1.node) p n := by
    intro p n hp hn
    unfold legDistance
    have hr : n.route ∈ routes := List.mem_of_getElem? hn.1
    change legLoop _ (ρ.node p.stop.city).node.id (ρ.node n.stop.city).node.id (ρ.node n.stop.city).at
      ((ρ.line n.route).nodesOf (Dir.flip (ρ.turned n.route) n.dir)) false (ρ.node p.stop.city).at 0 = _
    rw [(h.inside _ hp.2.2.2).2, (h.inside _ hn.2.2.2).2, (h.ways _ hr _).1]
    exact h.legLoop_eq (h.find hg hg' hx hx') hn.2.2.2 _ _ _ hp.2.2.2 _
  have hends : ∀ e ∈ x.edges, (∀ c, e.i = .city c → c.In g) ∧ (∀ c, e.j = .city c → c.In g) := by
    intro e he
    cases hty : e.type with
    | access =>
      obtain ⟨s, hsw, rfl | rfl⟩ := ((C35_edges hg hx e).1).1 ⟨he, hty⟩
      · exact ⟨fun c hc => (by cases hc; exact hsw.1), fun c hc => (by cases hc)⟩
      · exact ⟨fun c hc => (by cases hc), fun c hc => (by cases hc; exact hsw.1)⟩
    | boarding =>
      obtain ⟨n, hn, hc, rfl⟩ := ((C35_edges hg hx e).2.1).1 ⟨he, hty⟩
      exact ⟨fun c hc => (by cases hc), fun c hc => (by cases hc)⟩
    | alighting =>
      obtain ⟨n, hn, hc, rfl⟩ := ((C35_edges hg hx e).2.2).1 ⟨he, hty⟩
      exact ⟨fun c hc => (by cases hc), fun c hc => (by cases hc)⟩
    | route =>
      obtain ⟨p, n, hp, hn, hpn, rfl⟩ := (mem_route_edges hg hx e).1 ⟨he, hty⟩
      exact ⟨fun c hc => (by cases hc), fun c hc => (by cases hc)⟩
  refine ⟨fun c hc => ⟨ρ.node c, by rw [hc]; rfl, rfl⟩, fun s => rfl, ?_, ?_, ?_, ?_⟩
  · intro e he ht s hi
    obtain ⟨n, hn, hc, rfl⟩ := ((C35_edges hg hx e).2.1).1 ⟨he, ht⟩
    cases hi
    have hr : n.route ∈ routes := List.mem_of_getElem? hn.1
    have hw : waitCost pas (ρ.stop n.stop) = waitCost pas n.stop := by
      change (ρ.mode n.stop.mode).theta * pas.pw / pas.pv = n.stop.mode.theta * pas.pw / pas.pv
      rw [hn.2.2.1, (h.same _ hr).2.1]
    rw [hw]
    refine ⟨div_pos (mul_pos ?_ ha.pw) ha.pv, le_refl _⟩
    rw [hn.2.2.1]
    exact (ha.modes _ hr).theta
  · intro e he ht hi hj
    have hi' := (city (routes' := routes') hback ho (hends e he).1).not.2 hi
    have hj' := (city (routes' := routes') hback ho (hends e he).2).not.2 hj
    cases hty : e.type with
    | boarding => exact absurd hty ht
    | access =>
      obtain ⟨s, hsw, hor⟩ := ((C35_edges hg hx e).1).1 ⟨he, hty⟩
      have htat : (ρ.stop s).mode.tat = s.mode.tat := by
        obtain ⟨_, r, hr, hm, _⟩ := hsw
        rw [← hm]
        change (ρ.mode s.mode).tat = _
        rw [← hm]
        exact (h.same r hr).2.2.1
      rcases hor with rfl | rfl
      · refine ⟨_, (((C35_edges hg' hx' _).1).2 ⟨_, h.stop_wanted hsw, Or.inl rfl⟩).1, ht, rfl, rfl, hi', hj', ?_⟩
        simp only [legTime, htat]; exact le_refl _
      · refine ⟨_, (((C35_edges hg' hx' _).1).2 ⟨_, h.stop_wanted hsw, Or.inr rfl⟩).1, ht, rfl, rfl, hi', hj', ?_⟩
        simp only [legTime, htat]; exact le_refl _
    | alighting =>
      obtain ⟨n, hn, hc, rfl⟩ := ((C35_edges hg hx e).2.2).1 ⟨he, hty⟩
      have hr : n.route ∈ routes := List.mem_of_getElem? hn.1
      have hca : (ρ.route routes' n).CanAlight := by
        rcases hc with hc | hc
        · exact Or.inl ((h.circular _ hr).2 hc)
        · right
          change ((ρ.line n.route).nodesOf (Dir.flip (ρ.turned n.route) n.dir)).head? ≠ some (ρ.node n.stop.city).node.id
          rw [(h.ways _ hr _).1, (h.inside _ hn.2.2.2).2, List.head?_map]
          intro e
          refine hc ?_
          cases hh : (n.route.nodesOf n.dir).head? with
          | none => rw [hh] at e; simp at e
          | some a =>
            rw [hh] at e
            simp only [Option.map_some, Option.some.injEq] at e
            rw [h.ids _ _ e]
      refine ⟨_, (((C35_edges hg' hx' _).2.2).2 ⟨_, h.route_wanted hn, hca, rfl⟩).1, ht, rfl, rfl, hi', hj', ?_⟩
      simp only [legTime]
      change (if some (ρ.node n.stop.city) = d.map ρ.node then (0 : K) else sPTP / 60) ≤ _
      rw [if_congr (hsome hn.2.2.2) rfl rfl]
    | route =>
      obtain ⟨p, n, hp, hn, hpn, rfl⟩ := (mem_route_edges hg hx e).1 ⟨he, hty⟩
      have hr : n.route ∈ routes := List.mem_of_getElem? hn.1
      have hpr : p.route = n.route := by
        have h1 := hp.1
        rw [hpn.1, hn.1] at h1
        exact (Option.some.inj h1).symm
      have hbefore : (ρ.line n.route).stopBefore (Dir.flip (ρ.turned n.route) n.dir) n.pos = n.route.stopBefore n.dir n.pos := by
        unfold Route.stopBefore
        rw [if_congr (h.circular _ hr) rfl rfl, (h.ways _ hr _).2, List.length_map]
      refine ⟨_, ((mem_route_edges hg' hx' _).2 ⟨_, _, h.route_wanted hp, h.route_wanted hn,
        ⟨by simp only [Renaming.route, hpr], by simp only [Renaming.route, hpr, hpn.2.1], hbefore.trans hpn.2.2⟩, rfl⟩).1, ht, rfl, rfl, hi', hj', ?_⟩
      simp only [legTime]
      have hv : (ρ.route routes' n).stop.mode.v = n.stop.mode.v := by
        change (ρ.mode n.stop.mode).v = _
        rw [hn.2.2.1]
        exact (h.same _ hr).1
      rw [hleg p n hp hn, hv]
  · intro e he ht
    obtain ⟨n, hn, hc, rfl⟩ := ((C35_edges hg hx e).2.1).1 ⟨he, ht⟩
    have hr : n.route ∈ routes := List.mem_of_getElem? hn.1
    have hcb : (ρ.route routes' n).CanBoard := by
      rcases hc with hc | hc
      · exact Or.inl ((h.circular _ hr).2 hc)
      · right
        change ((ρ.line n.route).nodesOf (Dir.flip (ρ.turned n.route) n.dir)).getLast? ≠ some (ρ.node n.stop.city).node.id
        rw [(h.ways _ hr _).1, (h.inside _ hn.2.2.2).2, List.getLast?_map]
        intro e
        refine hc ?_
        cases hh : (n.route.nodesOf n.dir).getLast? with
        | none => rw [hh] at e; simp at e
        | some a =>
          rw [hh] at e
          simp only [Option.map_some, Option.some.injEq] at e
          rw [h.ids _ _ e]
    refine ⟨_, (((C35_edges hg' hx' _).2.1).2 ⟨_, h.route_wanted hn, hcb, rfl⟩).1, rfl, rfl, rfl, ?_, le_refl _⟩
    change (frequencies routes freq).getD n.route.id 0 / (n.route.mode.d : K) ≤
      (frequencies routes' freq').getD (ρ.line n.route).id 0 / ((ρ.line n.route).mode.d : K)
    rw [h.freqs _ hr, h.mode _ hr, (h.same _ hr).2.2.2]
  · intro e₁ he₁ ht₁ e₂ he₂ ht₂ hi hj
    obtain ⟨n, hn, _, rfl⟩ := ((C35_edges hg hx e₁).2.1).1 ⟨he₁, ht₁⟩
    obtain ⟨m, hmm, _, rfl⟩ := ((C35_edges hg hx e₂).2.1).1 ⟨he₂, ht₂⟩
    simp only [Renaming.on, ENode.route.injEq] at hj
    rw [h.inj hg hn hmm hj]

theorem injNode (h : Renames ρ g g' routes routes' freq freq') (hg : DistinctIds g) :
    ∀ c c' : CityNode K, c.In g → c'.In g → ρ.node c = ρ.node c' → c = c' := by
  intro c c' hc hc' he
  refine CityNode.In.ext hg hc hc' (h.ids _ _ ?_)
  rw [← (h.inside c hc).2, ← (h.inside c' hc').2, he]

open Classical in
/-- what a function maps to a value, among the things wanted -/
noncomputable def _root_.Sidermit.undo {α : Type} (f : α → α) (s : α → Prop) (b : α) : α :=
  if h : ∃ a, s a ∧ f a = b then h.choose else b

theorem _root_.Sidermit.undo_spec {α : Type} {f : α → α} {s : α → Prop} (hi : ∀ a a', s a → s a' → f a = f a' → a = a') {a : α} (ha : s a) :
    undo f s (f a) = a := by
  unfold undo
  have h : ∃ a', s a' ∧ f a' = f a := ⟨a, ha, rfl⟩
  rw [dif_pos h]
  exact hi _ _ h.choose_spec.1 ha h.choose_spec.2

/-- the names in the first description -/
noncomputable def _root_.Sidermit.Renaming.back (ρ : Renaming K) (g : Graph K) (routes : List (Route K)) : Renaming K :=
  ⟨fun r => ρ.turned (undo ρ.line (fun r => r ∈ routes) r), undo ρ.id fun _ => True, undo ρ.node fun c => c.In g, undo ρ.mode fun m => ∃ r ∈ routes, r.mode = m, undo ρ.line fun r => r ∈ routes⟩

theorem back_id (h : Renames ρ g g' routes routes' freq freq') (a : Int) : (ρ.back g routes).id (ρ.id a) = a :=
  undo_spec (fun a a' _ _ => h.ids a a') trivial

theorem back_node (h : Renames ρ g g' routes routes' freq freq') (hg : DistinctIds g) {c : CityNode K} (hc : c.In g) :
    (ρ.back g routes).node (ρ.node c) = c :=
  undo_spec (s := fun c : CityNode K => c.In g) (h.injNode hg) hc

theorem back_mode (h : Renames ρ g g' routes routes' freq freq') {r : Route K} (hr : r ∈ routes) :
    (ρ.back g routes).mode (ρ.mode r.mode) = r.mode := by
  refine undo_spec (s := fun m => ∃ r ∈ routes, r.mode = m) ?_ ⟨r, hr, rfl⟩
  rintro _ _ ⟨r₁, h₁, rfl⟩ ⟨r₂, h₂, rfl⟩ he
  exact h.modes r₁ h₁ r₂ h₂ he

theorem back_line (h : Renames ρ g g' routes routes' freq freq') {r : Route K} (hr : r ∈ routes) :
    (ρ.back g routes).line (ρ.line r) = r :=
  undo_spec (s := fun r => r ∈ routes) (fun a a' ha ha' => h.different a ha a' ha') hr

theorem back (h : Renames ρ g g' routes routes' freq freq') (hg : DistinctIds g) :
    Renames (ρ.back g routes) g' g routes' routes freq' freq where
  ids := by
    intro a b he
    obtain ⟨a, rfl⟩ := h.id_onto a
    obtain ⟨b, rfl⟩ := h.id_onto b
    rw [h.back_id, h.back_id] at he
    rw [he]
  id_onto := fun b => ⟨_, h.back_id b⟩
  inside := by
    intro c' hc'
    obtain ⟨c, hc, rfl⟩ := h.onto c' hc'
    rw [h.back_node hg hc, (h.inside c hc).2, h.back_id]
    exact ⟨hc, rfl⟩
  apart := by
    intro c' d' hc' hd'
    obtain ⟨c, hc, rfl⟩ := h.onto c' hc'
    obtain ⟨d, hd, rfl⟩ := h.onto d' hd'
    rw [h.back_node hg hc, h.back_node hg hd, h.apart c d hc hd]
  onto := fun c hc => ⟨_, (h.inside c hc).1, h.back_node hg hc⟩
  once := ⟨h.once.2, h.once.1⟩
  lines := by
    intro r' hr'
    obtain ⟨r, hr, rfl⟩ := h.all r' hr'
    rw [h.back_line hr]
    exact hr
  all := fun r hr => ⟨_, h.lines r hr, h.back_line hr⟩
  different := by
    intro r' hr' q' hq' he
    obtain ⟨r, hr, rfl⟩ := h.all r' hr'
    obtain ⟨q, hq, rfl⟩ := h.all q' hq'
    rw [h.back_line hr, h.back_line hq] at he
    rw [he]
  mode := by
    intro r' hr'
    obtain ⟨r, hr, rfl⟩ := h.all r' hr'
    rw [h.back_line hr, h.mode r hr, h.back_mode hr]
  modes := by
    intro r' hr' q' hq' he
    obtain ⟨r, hr, rfl⟩ := h.all r' hr'
    obtain ⟨q, hq, rfl⟩ := h.all q' hq'
    rw [h.mode r hr, h.mode q hq, h.back_mode hr, h.back_mode hq] at he
    rw [h.mode r hr, h.mode q hq, he]
  same := by
    intro r' hr'
    obtain ⟨r, hr, rfl⟩ := h.all r' hr'
    rw [h.mode r hr, h.back_mode hr]
    obtain ⟨h1, h2, h3, h4⟩ := h.same r hr
    exact ⟨h1.symm, h2.symm, h3.symm, h4.symm⟩
  circular := by
    intro r' hr'
    obtain ⟨r, hr, rfl⟩ := h.all r' hr'
    rw [h.back_line hr, h.circular r hr]
  ways := by
    intro r' hr' d
    obtain ⟨r, hr, rfl⟩ := h.all r' hr'
    have hid : (ρ.back g routes).id ∘ ρ.id = id := funext h.back_id
    have ht : (ρ.back g routes).turned (ρ.line r) = ρ.turned r := congrArg ρ.turned (h.back_line hr)
    have hw := h.ways r hr (Dir.flip (ρ.turned r) d)
    rw [Dir.flip_flip] at hw
    rw [h.back_line hr, ht, hw.1, hw.2, List.map_map, List.map_map, hid, List.map_id, List.map_id]
    exact ⟨rfl, rfl⟩
  freqs := by
    intro r' hr'
    obtain ⟨r, hr, rfl⟩ := h.all r' hr'
    rw [h.back_line hr, h.freqs r hr]

theorem admissible (h : Renames ρ g g' routes routes' freq freq') (ha : Admissible routes sPTP freq pas) :
    Admissible routes' sPTP freq' pas := by
  refine ⟨fun r' hr' => ?_, fun r' hr' => ?_, ha.penalty, ha.root, ha.pv, ha.pw, ha.pa⟩
  · obtain ⟨r, hr, rfl⟩ := h.all r' hr'
    obtain ⟨h1, h2, h3, h4⟩ := h.same r hr
    have := ha.modes r hr
    rw [h.mode r hr]
    exact ⟨by rw [h3]; exact this.tat, by rw [h2]; exact this.theta, by rw [h1]; exact this.speed, by rw [h4]; exact this.lines⟩
  · obtain ⟨r, hr, rfl⟩ := h.all r' hr'
    rw [h.freqs r hr]
    exact ha.freqs r hr

/-- the label of a node or stop of the city is not larger in the second description -/
theorem label_le (h : Renames ρ g g' routes routes' freq freq') (hg : DistinctIds g) (hg' : DistinctIds g')
    (ha : Admissible routes sPTP freq pas) (hx : buildExtGraph g routes sPTP freq = .ok x)
    (hx' : buildExtGraph g' routes' sPTP freq' = .ok x') {o d : Option (CityNode K)} (ho : ∀ c ∈ o, c.In g) (hd : ∀ c ∈ d, c.In g)
    {r r' : HResult K} (hr : buildHyperpath ⟨x.nodes, x.edges, pas, o, d⟩ = .ok r)
    (hr' : buildHyperpath ⟨x'.nodes, x'.edges, pas, o.map ρ.node, d.map ρ.node⟩ = .ok r') {n : ENode K} (hn : n ∈ allNodes x.nodes) :
    r'.label (ρ.on routes' n) ≤ r.label n := by
  by_cases hfin : r.label n = ⊤
  · rw [hfin]; exact le_top
  obtain ⟨c, hc, hl⟩ := C38_attained ha hx hr hn hfin
  obtain ⟨c', hle, hs⟩ := (h.noWorse hg hg' ha hx hx' ho hd).strategy hc
  refine (C39_optimal (h.admissible ha) hx' hr' hs).trans ?_
  rw [hl, WithTop.coe_le_coe]
  refine add_le_add hle (le_of_eq ?_)
  cases n with
  | city c => rfl
  | route n => rfl
  | stop s =>
    have hsw : s.Wanted g routes := by
      rw [mem_allNodes] at hn
      rcases hn with ⟨c, _, hc⟩ | ⟨s', hs', hc⟩ | ⟨n, _, hc⟩
      · cases hc
      · cases hc
        exact ((C34_stop_nodes hg hx).2.1 _).1 hs'
      · cases hc
    have htat : (ρ.mode s.mode).tat = s.mode.tat := by
      obtain ⟨_, q, hq, hm, _⟩ := hsw
      rw [← hm]
      exact (h.same q hq).2.2.1
    change (if some (ρ.node s.city) = o.map ρ.node then (ρ.mode s.mode).tat / 60 * pas.pa / pas.pv else 0) = _
    simp only [accessTime]
    rw [htat]
    refine if_congr ?_ rfl rfl
    cases o with
    | none => simp
    | some c =>
      simp only [Option.map_some, Option.some.injEq]
      exact ⟨h.injNode hg _ _ hsw.1 (ho c rfl), fun e => by rw [e]⟩

end Renames

/-- C81: the times do not depend on what nodes, modes and lines are called, how they are numbered, and how the city lies in the
plane: in two descriptions of the same network the labels of the corresponding stops and nodes are the same. -/
theorem C81_names (hg : DistinctIds g) (hg' : DistinctIds g') (h : Renames ρ g g' routes routes' freq freq')
    (ha : Admissible routes sPTP freq pas) (hx : buildExtGraph g routes sPTP freq = .ok x)
    (hx' : buildExtGraph g' routes' sPTP freq' = .ok x') {o d : Option (CityNode K)} (ho : ∀ c ∈ o, c.In g) (hd : ∀ c ∈ d, c.In g)
    {r r' : HResult K} (hr : buildHyperpath ⟨x.nodes, x.edges, pas, o, d⟩ = .ok r)
    (hr' : buildHyperpath ⟨x'.nodes, x'.edges, pas, o.map ρ.node, d.map ρ.node⟩ = .ok r') :
    (∀ s ∈ stopsOf x.nodes, ρ.stop s ∈ stopsOf x'.nodes ∧ r'.label (.stop (ρ.stop s)) = r.label (.stop s)) ∧
    (∀ c ∈ Dict.keys x.nodes, ρ.node c ∈ Dict.keys x'.nodes ∧ r'.label (.city (ρ.node c)) = r.label (.city c)) ∧
    (∀ s' ∈ stopsOf x'.nodes, ∃ s ∈ stopsOf x.nodes, ρ.stop s = s') ∧
    (∀ c' ∈ Dict.keys x'.nodes, ∃ c ∈ Dict.keys x.nodes, ρ.node c = c') := by
  obtain ⟨_, s1, _, s2, _⟩ := C34_stop_nodes hg hx
  obtain ⟨_, s1', _, s2', _⟩ := C34_stop_nodes hg' hx'
  have hb := h.back hg
  have hmap : ∀ {o : Option (CityNode K)}, (∀ c ∈ o, c.In g) → (o.map ρ.node).map (ρ.back g routes).node = o := by
    intro o ho
    cases o with
    | none => rfl
    | some c => simp only [Option.map_some]; rw [h.back_node hg (ho c rfl)]
  have hin : ∀ {o : Option (CityNode K)}, (∀ c ∈ o, c.In g) → ∀ c' ∈ o.map ρ.node, c'.In g' := by
    intro o ho c' hc'
    cases o with
    | none => cases hc'
    | some c => cases hc'; exact (h.inside c (ho c rfl)).1
  have hstop : ∀ {s : StopNode K}, s.Wanted g routes → (ρ.back g routes).stop (ρ.stop s) = s := by
    rintro ⟨m, c⟩ ⟨h1, q, hq, hm, _⟩
    unfold Renaming.stop
    simp only at h1 hm ⊢
    rw [h.back_node hg h1, ← hm, h.back_mode hq]
  have hle : ∀ {n : ENode K}, n ∈ allNodes x.nodes → r'.label (ρ.on routes' n) ≤ r.label n :=
    fun hn => h.label_le hg hg' ha hx hx' ho hd hr hr' hn
  have hge : ∀ {n : ENode K}, n ∈ allNodes x'.nodes → r.label ((ρ.back g routes).on routes n) ≤ r'.label n := by
    intro n hn
    refine hb.label_le hg' hg (h.admissible ha) hx' hx (hin ho) (hin hd) hr' ?_ hn
    rw [hmap ho, hmap hd]
    exact hr
  have k1 : ∀ s ∈ stopsOf x.nodes, ρ.stop s ∈ stopsOf x'.nodes := fun s hs => (s1' _).2 (h.stop_wanted ((s1 s).1 hs))
  have k2 : ∀ c ∈ Dict.keys x.nodes, ρ.node c ∈ Dict.keys x'.nodes := by
    intro c hc
    obtain ⟨s, hs, rfl⟩ := (s2 c).1 hc
    exact (s2' _).2 ⟨_, h.stop_wanted hs, rfl⟩
  refine ⟨fun s hs => ⟨k1 s hs, ?_⟩, fun c hc => ⟨k2 c hc, ?_⟩, fun s' hs' => ?_, fun c' hc' => ?_⟩
  · refine le_antisymm (hle ((mem_allNodes _).2 (Or.inr (Or.inl ⟨s, hs, rfl⟩)))) ?_
    have := hge ((mem_allNodes _).2 (Or.inr (Or.inl ⟨_, k1 s hs, rfl⟩)))
    simp only [Renaming.on] at this
    rwa [hstop ((s1 s).1 hs)] at this
  · refine le_antisymm (hle ((mem_allNodes _).2 (Or.inl ⟨c, hc, rfl⟩))) ?_
    have := hge ((mem_allNodes _).2 (Or.inl ⟨_, k2 c hc, rfl⟩))
    simp only [Renaming.on] at this
    obtain ⟨s, hs, rfl⟩ := (s2 c).1 hc
    rwa [h.back_node hg hs.1] at this
  · have hw := (s1' s').1 hs'
    obtain ⟨h1, r₁, hr₁, hm, d₁, i, hat⟩ := hw
    obtain ⟨q, hq, rfl⟩ := h.all r₁ hr₁
    obtain ⟨c, hc, hcc⟩ := h.onto _ h1
    refine ⟨⟨q.mode, c⟩, (s1 _).2 ⟨hc, q, hq, rfl, Dir.flip (ρ.turned q) d₁, i, ?_⟩, ?_⟩
    · rw [← hcc, (h.inside c hc).2] at hat
      exact (h.nodeAt' hq d₁ i _).1 hat
    · unfold Renaming.stop
      simp only
      rw [hcc, ← h.mode q hq, hm]
  · obtain ⟨s', hs', rfl⟩ := (s2' c').1 hc'
    obtain ⟨h1, r₁, hr₁, hm, d₁, i, hat⟩ := hs'
    obtain ⟨q, hq, rfl⟩ := h.all r₁ hr₁
    obtain ⟨c, hc, hcc⟩ := h.onto _ h1
    refine ⟨c, (s2 c).2 ⟨⟨q.mode, c⟩, ⟨hc, q, hq, rfl, Dir.flip (ρ.turned q) d₁, i, ?_⟩, rfl⟩, hcc⟩
    rw [← hcc, (h.inside c hc).2] at hat
    exact (h.nodeAt' hq d₁ i _).1 hat

/-- a demand in the second description -/
def Renaming.demand (ρ : Renaming K) (od : Dict Int (Dict Int K)) : Dict Int (Dict Int K) :=
  od.map fun p => (ρ.id p.1, p.2.map fun q => (ρ.id q.1, q.2))

/-- modes have the same name in the second description when they have in the first one -/
def Renaming.NamesApart (ρ : Renaming K) (routes : List (Route K)) : Prop :=
  ∀ r ∈ routes, ∀ r' ∈ routes, (ρ.mode r.mode).name = (ρ.mode r'.mode).name ↔ r.mode.name = r'.mode.name

theorem Renames.accepts (h : Renames ρ g g' routes routes' freq freq') (hnames : ρ.NamesApart routes) (hg : DistinctIds g)
    (hg' : DistinctIds g') (ha : Admissible routes sPTP freq pas) (hx : buildExtGraph g routes sPTP freq = .ok x)
    (hx' : buildExtGraph g' routes' sPTP freq' = .ok x') {od : Dict Int (Dict Int K)}
    (hv : networkValidator x.nodes x.edges pas od = .ok true) : networkValidator x'.nodes x'.edges pas (ρ.demand od) = .ok true := by
  obtain ⟨h1, h2⟩ := (C42_validator ha hg hx od).1.1 hv
  obtain ⟨_, s1, _, s2, _⟩ := C34_stop_nodes hg hx
  obtain ⟨_, s1', _, s2', _⟩ := C34_stop_nodes hg' hx'
  have hin : ∀ {c : CityNode K}, c ∈ Dict.keys x.nodes → c.In g := by
    intro c hc
    obtain ⟨s, hs, rfl⟩ := (s2 c).1 hc
    exact hs.1
  have hkey : ∀ {c : CityNode K}, c ∈ Dict.keys x.nodes → ρ.node c ∈ Dict.keys x'.nodes := by
    intro c hc
    obtain ⟨s, hs, rfl⟩ := (s2 c).1 hc
    exact (s2' _).2 ⟨_, h.stop_wanted hs, rfl⟩
  have hstop : ∀ {s : StopNode K}, s ∈ stopsOf x.nodes → ρ.stop s ∈ stopsOf x'.nodes := fun hs => (s1' _).2 (h.stop_wanted ((s1 _).1 hs))
  have hold : ∀ s' ∈ stopsOf x'.nodes, ∃ s ∈ stopsOf x.nodes, s'.mode = ρ.mode s.mode := by
    intro s' hs'
    obtain ⟨i1, r₁, hr₁, hm, d₁, i, hat⟩ := (s1' s').1 hs'
    obtain ⟨q, hq, rfl⟩ := h.all r₁ hr₁
    obtain ⟨c, hc, hcc⟩ := h.onto _ i1
    refine ⟨⟨q.mode, c⟩, (s1 _).2 ⟨hc, q, hq, rfl, Dir.flip (ρ.turned q) d₁, i, ?_⟩, ?_⟩
    · rw [← hcc, (h.inside c hc).2] at hat
      exact (h.nodeAt' hq d₁ i _).1 hat
    · rw [← hm, h.mode q hq]
  have hline : ∀ {s : StopNode K}, s ∈ stopsOf x.nodes → ∃ r ∈ routes, r.mode = s.mode := by
    intro s hs
    obtain ⟨_, r, hr, hm, _⟩ := (s1 s).1 hs
    exact ⟨r, hr, hm⟩
  refine (C42_validator (h.admissible ha) hg' hx' _).1.2 ⟨?_, ?_⟩
  · intro p' hp' q' hq' h0
    obtain ⟨p, hp, rfl⟩ := List.mem_map.1 hp'
    obtain ⟨q, hq, rfl⟩ := List.mem_map.1 hq'
    obtain ⟨co, a1, a2, cd, b1, b2, s, t1, t2, c, hc⟩ := h1 p hp q hq h0
    obtain ⟨c', _, hs⟩ := (h.noWorse hg hg' ha hx hx' (o := some co) (d := some cd) (fun c hc => by cases hc; exact hin a1)
      (fun c hc => by cases hc; exact hin b1)).strategy hc
    refine ⟨ρ.node co, hkey a1, by rw [(h.inside co (hin a1)).2, a2], ρ.node cd, hkey b1, by rw [(h.inside cd (hin b1)).2, b2],
      ρ.stop s, hstop t1, ?_, c', hs⟩
    change ρ.node s.city = ρ.node co
    rw [t2]
  · rcases h2 with ⟨m, ⟨s, hs, hm⟩, hall⟩ | ⟨m, m', hne, ⟨s, hs, hm⟩, ⟨t, ht, hm'⟩, hall, hd⟩
    · refine Or.inl ⟨ρ.mode m, ⟨_, hstop hs, by rw [← hm]; rfl⟩, fun s' hs' => ?_⟩
      obtain ⟨q, hq, e⟩ := hold s' hs'
      rw [e, hall q hq]
    · obtain ⟨r₁, k1, e1⟩ := hline hs
      obtain ⟨r₂, k2, e2⟩ := hline ht
      have e1' : r₁.mode = m := e1.trans hm
      have e2' : r₂.mode = m' := e2.trans hm'
      refine Or.inr ⟨ρ.mode m, ρ.mode m', ?_, ⟨_, hstop hs, by rw [← hm]; rfl⟩, ⟨_, hstop ht, by rw [← hm']; rfl⟩, fun s' hs' => ?_, ?_⟩
      · rw [← e1', ← e2']
        exact (hnames r₁ k1 r₂ k2).not.2 (by rw [e1', e2']; exact hne)
      · obtain ⟨q, hq, e⟩ := hold s' hs'
        rcases hall q hq with h | h
        · exact Or.inl (by rw [e, h])
        · exact Or.inr (by rw [e, h])
      · rw [← e1', ← e2', (h.same r₁ k1).2.2.2, (h.same r₂ k2).2.2.2, e1', e2']
        exact hd

/-- C81: nor does it depend on the names whether a demand is accepted, as long as modes of different names keep different names. -/
theorem C81_accepted (hg : DistinctIds g) (hg' : DistinctIds g') (h : Renames ρ g g' routes routes' freq freq')
    (hnames : ρ.NamesApart routes) (ha : Admissible routes sPTP freq pas) (hx : buildExtGraph g routes sPTP freq = .ok x)
    (hx' : buildExtGraph g' routes' sPTP freq' = .ok x') (od : Dict Int (Dict Int K)) :
    networkValidator x'.nodes x'.edges pas (ρ.demand od) = .ok true ↔ networkValidator x.nodes x.edges pas od = .ok true := by
  refine ⟨fun hv => ?_, h.accepts hnames hg hg' ha hx hx'⟩
  have hod : (ρ.back g routes).demand (ρ.demand od) = od := by
    unfold Renaming.demand
    rw [List.map_map]
    conv_rhs => rw [← List.map_id od]
    refine List.map_congr_left fun p _ => ?_
    simp only [Function.comp_apply, List.map_map, id_eq]
    rw [h.back_id]
    refine Prod.ext rfl ?_
    conv_rhs => rw [← List.map_id p.2]
    refine List.map_congr_left fun q _ => ?_
    simp only [Function.comp_apply, id_eq]
    rw [h.back_id]
  have hn : (ρ.back g routes).NamesApart routes' := by
    intro r' hr' q' hq'
    obtain ⟨r, hr, rfl⟩ := h.all r' hr'
    obtain ⟨q, hq, rfl⟩ := h.all q' hq'
    rw [h.mode r hr, h.mode q hq, h.back_mode hr, h.back_mode hq]
    exact (hnames r hr q hq).symm
  have := (h.back hg).accepts hn hg' hg (h.admissible ha) hx' hx hv
  rwa [hod] at this

/-- a node moved -/
def Node.moved (T : K × K → K × K) (n : Node K) : Node K := { n with x := (T (n.x, n.y)).1, y := (T (n.x, n.y)).2 }

/-- a city moved -/
def Graph.moved (T : K × K → K × K) (g : Graph K) : Graph K := { g with nodes := g.nodes.map (Node.moved T) }

theorem moved_in {T : K × K → K × K} {c : CityNode K} (hc : c.In g) : (⟨c.idx, c.node.moved T⟩ : CityNode K).In (g.moved T) := by
  unfold CityNode.In Graph.moved at *
  simp only [List.getElem?_map, hc, Option.map_some]

/-- C81: a city that is moved, turned or mirrored, with the same lines -/
theorem C81_moved {T : K × K → K × K} (hT : ∀ p q, segment (T p) (T q) = segment p q) (hids : (routes.map Route.id).Nodup)
    (freq : Option (Dict Str K)) :
    Renames ⟨fun _ => false, id, fun c => ⟨c.idx, c.node.moved T⟩, id, id⟩ g (g.moved T) routes routes freq freq where
  ids := fun _ _ e => e
  id_onto := fun b => ⟨b, rfl⟩
  inside := fun c hc => ⟨moved_in hc, rfl⟩
  apart := fun c c' _ _ => hT (c.node.x, c.node.y) (c'.node.x, c'.node.y)
  onto := by
    rintro ⟨i, n⟩ hc
    unfold CityNode.In Graph.moved at hc
    simp only [List.getElem?_map] at hc
    cases hi : g.nodes[i]? with
    | none => rw [hi] at hc; simp at hc
    | some m =>
      rw [hi] at hc
      simp only [Option.map_some, Option.some.injEq] at hc
      exact ⟨⟨i, m⟩, hi, by rw [← hc]⟩
  once := ⟨List.Nodup.of_map _ hids, List.Nodup.of_map _ hids⟩
  lines := fun r hr => hr
  all := fun r hr => ⟨r, hr, rfl⟩
  different := fun _ _ _ _ e => e
  mode := fun _ _ => rfl
  modes := fun _ _ _ _ e => e
  same := fun _ _ => ⟨rfl, rfl, rfl, rfl⟩
  circular := fun _ _ => Iff.rfl
  ways := fun r _ d => ⟨(List.map_id _).symm, (List.map_id _).symm⟩
  freqs := fun _ _ => rfl

/-- a line with another id and the directions exchanged -/
def Route.relabelled (f : Str → Str) (r : Route K) : Route K := ⟨f r.id, r.mode, r.nodesR, r.nodesI, r.stopsR, r.stopsI, r.type⟩

/-- C81: lines with other ids and exchanged directions, with the frequencies of their modes -/
theorem C81_relabelled {f : Str → Str} (hf : ∀ a b, f a = f b → a = b) (hids : (routes.map Route.id).Nodup) :
    Renames ⟨fun _ => true, id, id, id, Route.relabelled f⟩ g g routes (routes.map (Route.relabelled f)) none none where
  ids := fun _ _ e => e
  id_onto := fun b => ⟨b, rfl⟩
  inside := fun c hc => ⟨hc, rfl⟩
  apart := fun c c' _ _ => rfl
  onto := fun c hc => ⟨c, hc, rfl⟩
  once := by
    refine ⟨List.Nodup.of_map _ hids, (List.Nodup.of_map _ hids).map ?_⟩
    intro r r' e
    simp only [Route.relabelled, Route.mk.injEq] at e
    obtain ⟨e1, e2, e3, e4, e5, e6, e7⟩ := e
    have := hf _ _ e1
    cases r; cases r'
    simp_all
  lines := fun r hr => List.mem_map_of_mem hr
  all := fun r' hr' => List.mem_map.1 hr'
  different := by
    intro r hr r' hr' e
    simp only [Route.relabelled, Route.mk.injEq] at e
    exact List.inj_on_of_nodup_map hids hr hr' (hf _ _ e.1)
  mode := fun _ _ => rfl
  modes := fun _ _ _ _ e => e
  same := fun _ _ => ⟨rfl, rfl, rfl, rfl⟩
  circular := fun _ _ => Iff.rfl
  ways := by
    rintro r _ d
    cases d <;> exact ⟨(List.map_id _).symm, (List.map_id _).symm⟩
  freqs := by
    intro r hr
    have hids' : ((routes.map (Route.relabelled f)).map Route.id).Nodup := by
      rw [List.map_map]
      have : (Route.id ∘ Route.relabelled f : Route K → Str) = f ∘ Route.id := rfl
      rw [this, ← List.map_map]
      exact hids.map hf
    simp only [frequencies]
    rw [defaultFrequencies_getD hids' (List.mem_map_of_mem hr), defaultFrequencies_getD hids hr]
    rfl

end Generic

section Examples

attribute [local instance] ratMath ratText

/-- C81: the city of the demonstration mirrored and moved -/
def mirror (p : ℚ × ℚ) : ℚ × ℚ := (7 - p.1, p.2 + 3)

theorem mirror_keeps (p q : ℚ × ℚ) : segment (mirror p) (mirror q) = segment p q := by
  unfold segment mirror
  congr 1
  ring

/-- C81: the two descriptions of the demonstration -/
theorem demoMoved : Renames ⟨fun _ => false, id, fun c => ⟨c.idx, c.node.moved mirror⟩, id, id⟩ (demoCity 3) ((demoCity 3).moved mirror) demoRoutes demoRoutes none none :=
  C81_moved mirror_keeps (by decide +kernel) none

theorem demoRelabelled : Renames ⟨fun _ => true, id, id, id, Route.relabelled fun a => 'x' :: a⟩ (demoCity 3) (demoCity 3) demoRoutes (demoRoutes.map (Route.relabelled fun a => 'x' :: a)) none none :=
  C81_relabelled (fun a b e => (List.cons.inj e).2) (by decide +kernel)

/-- C81: what C81 says, evaluated: from node 1 to node 4 -/
example : serviceLabels ((demoCity 3).moved mirror) demoRoutes 2 none demoPassenger 1 4 =
    serviceLabels (demoCity 3) demoRoutes 2 none demoPassenger 1 4 ∧
    (serviceLabels (demoCity 3) demoRoutes 2 none demoPassenger 1 4).isSome = true := by decide +kernel

example : serviceLabels (demoCity 3) (demoRoutes.map (Route.relabelled fun a => 'x' :: a)) 2 none demoPassenger 1 4 =
    serviceLabels (demoCity 3) demoRoutes 2 none demoPassenger 1 4 := by decide +kernel

end Examples

end Sidermit
