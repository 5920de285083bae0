import Verif.Props.Rename

/-!
C81: a circular line may be described from any of its stops.
-/

set_option linter.unusedSectionVars false

namespace Sidermit

/-- a way round that ends where it began -/
def closed (ring : List Int) : List Int := ring ++ ring.head?.toList

theorem closed_length {ring : List Int} (h : ring ≠ []) : (closed ring).length = ring.length + 1 := by
  cases ring with
  | nil => exact absurd rfl h
  | cons a t => simp [closed]

theorem closed_get {ring : List Int} {i : Nat} (h : ring ≠ []) (hi : i ≤ ring.length) :
    (closed ring)[i]? = ring[i % ring.length]? := by
  cases ring with
  | nil => exact absurd rfl h
  | cons a t =>
    rcases Nat.lt_or_ge i (a :: t).length with hlt | hge
    · rw [Nat.mod_eq_of_lt hlt]
      unfold closed
      rw [List.getElem?_append_left hlt]
    · have : i = (a :: t).length := Nat.le_antisymm hi hge
      rw [this, Nat.mod_self]
      unfold closed
      rw [List.getElem?_append_right (le_refl _)]
      simp

/-- the position of a stop when the way round begins `k` stops later -/
def shift (n k i : Nat) : Nat := if k = 0 then i else if i ≤ k then i + n - k else i - k

theorem shift_get {ring : List Int} {k i : Nat} (hk : k < ring.length) (hk0 : k ≠ 0) (hi : i ≤ ring.length) :
    (closed (ring.rotate k))[shift ring.length k i]? = (closed ring)[i]? := by
  have hne : ring ≠ [] := by rintro rfl; simp at hk
  have hne' : ring.rotate k ≠ [] := by rw [Ne, List.rotate_eq_nil_iff]; exact hne
  have hle : shift ring.length k i ≤ ring.length := by unfold shift; split_ifs <;> omega
  rw [closed_get hne' (by rw [List.length_rotate]; exact hle), closed_get hne hi, List.length_rotate,
    List.getElem?_rotate (Nat.mod_lt _ (by omega)), Nat.mod_add_mod]
  congr 1
  unfold shift
  rw [if_neg hk0]
  split_ifs with h
  · rw [show i + ring.length - k + k = i + ring.length by omega, Nat.add_mod_right]
  · rw [show i - k + k = i by omega]

section Generic

variable {K : Type} [Field K] [LinearOrder K] [IsStrictOrderedRing K] [PyMath K] {g : Graph K}
  {routes routes' : List (Route K)} {sPTP : K} {freq : Option (Dict Str K)} {x x' : ExtGraph K} {pas : Passenger K}

/-- the lines `r` and `r'` are the same one, `r'` beginning `k d` stops later in direction `d` -/
structure Later (k : Dir → Nat) (r r' : Route K) : Prop where
  id : r'.id = r.id
  mode : r'.mode = r.mode
  type : r'.type = r.type
  ways : ∀ d, (k d = 0 ∧ r'.nodesOf d = r.nodesOf d ∧ r'.stopsOf d = r.stopsOf d) ∨
    (r.type = .circular ∧ ∃ ring : List Int, ring.Nodup ∧ k d ≠ 0 ∧ k d < ring.length ∧ r.nodesOf d = closed ring ∧
      r.stopsOf d = closed ring ∧ r'.nodesOf d = closed (ring.rotate (k d)) ∧ r'.stopsOf d = closed (ring.rotate (k d)))

namespace Later

variable {k : Dir → Nat} {r r' : Route K}

/-- the position of a stop in the other description -/
def _root_.Sidermit.Route.later (r : Route K) (k : Dir → Nat) (d : Dir) (i : Nat) : Nat := shift ((r.stopsOf d).length - 1) (k d) i

theorem nodeAt (h : Later k r r') {d : Dir} {i : Nat} {id : Int} (ha : r.NodeAt d i id) : r'.NodeAt d (r.later k d i) id := by
  obtain ⟨h1, h2⟩ := ha
  rcases h.ways d with ⟨hk, _, hst⟩ | ⟨hc, ring, hnd, hk0, hk, _, hst, _, hst'⟩
  · unfold Route.later shift
    rw [if_pos hk]
    exact ⟨by rw [hst]; exact h1, by rw [h.type]; exact h2⟩
  · have hne : ring ≠ [] := by rintro rfl; simp at hk
    have hi0 := h2 hc
    unfold Route.later
    rw [hst, closed_length hne, Nat.add_sub_cancel]
    rw [hst] at h1
    have hi : i ≤ ring.length := by
      have := (List.getElem?_eq_some_iff.1 h1).1
      rw [closed_length hne] at this
      omega
    refine ⟨by rw [hst', shift_get hk hk0 hi]; exact h1, fun _ => ?_⟩
    unfold shift
    rw [if_neg hk0]
    split_ifs <;> omega

theorem before (h : Later k r r') {d : Dir} {i j : Nat} {id : Int} (ha : r.NodeAt d i id)
    (hj : r.stopBefore d i = some j) : r'.stopBefore d (r.later k d i) = some (r.later k d j) := by
  rcases h.ways d with ⟨hk, _, hst⟩ | ⟨hc, ring, hnd, hk0, hk, _, hst, _, hst'⟩
  · unfold Route.later shift
    rw [if_pos hk, if_pos hk, ← hj]
    unfold Route.stopBefore
    rw [h.type, hst]
  · have hne : ring ≠ [] := by rintro rfl; simp at hk
    have hne' : ring.rotate (k d) ≠ [] := by rw [Ne, List.rotate_eq_nil_iff]; exact hne
    have hi0 := ha.2 hc
    have hi : i ≤ ring.length := by
      have := (List.getElem?_eq_some_iff.1 ha.1).1
      rw [hst, closed_length hne] at this
      omega
    unfold Route.stopBefore at hj ⊢
    rw [if_pos hc, hst, closed_length hne, Nat.add_sub_cancel] at hj
    rw [if_pos (h.type.trans hc), hst', closed_length hne', List.length_rotate, Nat.add_sub_cancel]
    unfold Route.later
    rw [hst, closed_length hne, Nat.add_sub_cancel]
    have hj := Option.some.inj hj
    congr 1
    unfold shift
    rw [if_neg hk0, if_neg hk0]
    split_ifs at hj ⊢ <;> omega

theorem later_inj (h : Later k r r') {d : Dir} {i j : Nat} {id id' : Int} (ha : r.NodeAt d i id) (hb : r.NodeAt d j id')
    (he : r.later k d i = r.later k d j) : i = j := by
  rcases h.ways d with ⟨hk, _, hst⟩ | ⟨hc, ring, hnd, hk0, hk, _, hst, _, hst'⟩
  · unfold Route.later shift at he
    rwa [if_pos hk, if_pos hk] at he
  · have hne : ring ≠ [] := by rintro rfl; simp at hk
    have hi : i ≤ ring.length := by
      have := (List.getElem?_eq_some_iff.1 ha.1).1
      rw [hst, closed_length hne] at this
      omega
    have hj : j ≤ ring.length := by
      have := (List.getElem?_eq_some_iff.1 hb.1).1
      rw [hst, closed_length hne] at this
      omega
    have hi0 := ha.2 hc
    have hj0 := hb.2 hc
    unfold Route.later shift at he
    rw [hst, closed_length hne, Nat.add_sub_cancel, if_neg hk0, if_neg hk0] at he
    split_ifs at he <;> omega

/-- the way back to the first description -/
def _root_.Sidermit.Route.earlier (r : Route K) (k : Dir → Nat) (d : Dir) : Nat :=
  if k d = 0 then 0 else (r.stopsOf d).length - 1 - k d

theorem back (h : Later k r r') : Later (r.earlier k) r' r where
  id := h.id.symm
  mode := h.mode.symm
  type := h.type.symm
  ways := by
    intro d
    rcases h.ways d with ⟨hk, h1, h2⟩ | ⟨hc, ring, hnd, hk0, hk, h1, h2, h3, h4⟩
    · exact Or.inl ⟨by unfold Route.earlier; rw [if_pos hk], h1.symm, h2.symm⟩
    · have hne : ring ≠ [] := by rintro rfl; simp at hk
      have hk' : r.earlier k d = ring.length - k d := by
        unfold Route.earlier
        rw [if_neg hk0, h2, closed_length hne, Nat.add_sub_cancel]
      have hrot : (ring.rotate (k d)).rotate (ring.length - k d) = ring := by
        rw [List.rotate_rotate, show k d + (ring.length - k d) = ring.length by omega, List.rotate_length]
      refine Or.inr ⟨h.type.trans hc, ring.rotate (k d), List.nodup_rotate.2 hnd, ?_, ?_, h3, h4, ?_, ?_⟩
      · rw [hk']; omega
      · rw [hk', List.length_rotate]; omega
      · rw [hk', hrot]; exact h1
      · rw [hk', hrot]; exact h2

end Later

/-- between consecutive nodes of the way -/
theorem legLoop_next (nodes : List (Node K)) {a b : Int} {final prev : K × K} (hab : a ≠ b) (post : List Int) : ∀ pre : List Int, a ∉ pre →
    legLoop nodes a b final (pre ++ a :: b :: post) false prev 0 = 0 + segment prev final
  | [], _ => by
    rw [List.nil_append, legLoop, if_pos rfl, legLoop, if_neg hab.symm, if_pos rfl]
  | c :: pre, h => by
    have hc : c ≠ a := fun e => h (by rw [e]; exact List.mem_cons_self)
    rw [List.cons_append, legLoop, if_neg hc]
    by_cases hb : c = b
    · rw [if_pos hb]
    · rw [if_neg hb, if_neg (by simp)]
      exact legLoop_next nodes hab post pre fun e => h (List.mem_cons_of_mem _ e)

/-- between consecutive stops of a way round -/
theorem legLoop_round (nodes : List (Node K)) {ring : List Int} (hnd : ring.Nodup) (h2 : 2 ≤ ring.length) {i : Nat} (hi0 : i ≠ 0)
    (hi : i ≤ ring.length) {a b : Int} (ha : (closed ring)[i - 1]? = some a) (hb : (closed ring)[i]? = some b) {final prev : K × K} :
    legLoop nodes a b final (closed ring) false prev 0 = 0 + segment prev final := by
  have hne : ring ≠ [] := by rintro rfl; simp at h2
  have ha' : ring[i - 1]? = some a := by
    rw [closed_get hne (by omega), Nat.mod_eq_of_lt (by omega)] at ha
    exact ha
  have hb' : ring[i % ring.length]? = some b := by
    rw [closed_get hne hi] at hb
    exact hb
  have hab : a ≠ b := by
    rintro rfl
    obtain ⟨l1, e1⟩ := List.getElem?_eq_some_iff.1 ha'
    obtain ⟨l2, e2⟩ := List.getElem?_eq_some_iff.1 hb'
    have := (List.Nodup.getElem_inj_iff hnd).1 (e1.trans e2.symm)
    rcases Nat.lt_or_ge i ring.length with h | h
    · rw [Nat.mod_eq_of_lt h] at this; omega
    · rw [show i = ring.length by omega, Nat.mod_self] at this; omega
  have hsplit : closed ring = ring.take (i - 1) ++ a :: b :: (closed ring).drop (i + 1) := by
    obtain ⟨l1, e1⟩ := List.getElem?_eq_some_iff.1 ha
    obtain ⟨l2, e2⟩ := List.getElem?_eq_some_iff.1 hb
    have h1 : (closed ring).drop (i - 1) = a :: (closed ring).drop i := by
      rw [List.drop_eq_getElem_cons l1, e1, show i - 1 + 1 = i by omega]
    have h3 : (closed ring).drop i = b :: (closed ring).drop (i + 1) := by
      rw [List.drop_eq_getElem_cons l2, e2]
    have h4 : (closed ring).take (i - 1) = ring.take (i - 1) := by
      unfold closed
      rw [List.take_append_of_le_length (by omega)]
    rw [← h3, ← h1, ← h4, List.take_append_drop]
  rw [hsplit]
  refine legLoop_next nodes hab _ _ fun hm => ?_
  obtain ⟨j, hj, e⟩ := List.getElem_of_mem hm
  obtain ⟨l1, e1⟩ := List.getElem?_eq_some_iff.1 ha'
  rw [List.getElem_take] at e
  rw [List.length_take] at hj
  have := (List.Nodup.getElem_inj_iff hnd).1 (e.trans e1.symm)
  omega

/-- the same lines, described from other stops -/
structure SameLines (k : Nat → Dir → Nat) (routes routes' : List (Route K)) : Prop where
  count : routes.length = routes'.length
  each : ∀ i r r', routes[i]? = some r → routes'[i]? = some r' → Later (k i) r r'

/-- the line with the same number -/
def RouteNode.line (routes' : List (Route K)) (n : RouteNode K) : Route K := (routes'[n.ridx]?).getD n.route

/-- a route node in the other description -/
def RouteNode.later (routes' : List (Route K)) (k : Nat → Dir → Nat) (n : RouteNode K) : RouteNode K :=
  ⟨n.ridx, n.line routes', n.dir, n.route.later (k n.ridx) n.dir n.pos, n.stop⟩

/-- a node in the other description -/
def ENode.later (routes' : List (Route K)) (k : Nat → Dir → Nat) : ENode K → ENode K
  | .city c => .city c
  | .stop s => .stop s
  | .route n => .route (n.later routes' k)

namespace SameLines

variable {k : Nat → Dir → Nat}

theorem line (h : SameLines k routes routes') {i : Nat} {r : Route K} (hr : routes[i]? = some r) :
    ∃ r', routes'[i]? = some r' ∧ Later (k i) r r' := by
  have hi : i < routes'.length := by rw [← h.count]; exact (List.getElem?_eq_some_iff.1 hr).1
  exact ⟨routes'[i], List.getElem?_eq_getElem hi, h.each i r _ hr (List.getElem?_eq_getElem hi)⟩

theorem of_node (h : SameLines k routes routes') {n : RouteNode K} (hn : n.Wanted g routes) :
    routes'[n.ridx]? = some (n.line routes') ∧ Later (k n.ridx) n.route (n.line routes') := by
  obtain ⟨r', h1, h2⟩ := h.line hn.1
  have : n.line routes' = r' := by unfold RouteNode.line; rw [h1]; rfl
  rw [this]
  exact ⟨h1, h2⟩

theorem stop_wanted (h : SameLines k routes routes') {s : StopNode K} (hs : s.Wanted g routes) : s.Wanted g routes' := by
  obtain ⟨h1, r, hr, hm, d, i, ha⟩ := hs
  obtain ⟨j, hj⟩ := List.mem_iff_getElem?.1 hr
  obtain ⟨r', h2, h3⟩ := h.line hj
  exact ⟨h1, r', List.mem_of_getElem? h2, h3.mode.trans hm, d, _, h3.nodeAt ha⟩

theorem node_wanted (h : SameLines k routes routes') {n : RouteNode K} (hn : n.Wanted g routes) : (n.later routes' k).Wanted g routes' := by
  obtain ⟨h1, h2⟩ := h.of_node hn
  exact ⟨h1, h2.nodeAt hn.2.1, hn.2.2.1.trans h2.mode.symm, hn.2.2.2⟩

/-- the rotations of the way back -/
def _root_.Sidermit.earlierAll (routes : List (Route K)) (k : Nat → Dir → Nat) (i : Nat) : Dir → Nat :=
  match routes[i]? with
  | some r => r.earlier (k i)
  | none => k i

theorem back (h : SameLines k routes routes') : SameLines (earlierAll routes k) routes' routes where
  count := h.count.symm
  each := by
    intro i r' r hr' hr
    unfold earlierAll
    rw [hr]
    exact (h.each i r r' hr hr').back

theorem served (h : SameLines k routes routes') (n : Node K) : Served g routes n ↔ Served g routes' n := by
  constructor
  · rintro ⟨s, hs, e⟩; exact ⟨s, h.stop_wanted hs, e⟩
  · rintro ⟨s, hs, e⟩; exact ⟨s, h.back.stop_wanted hs, e⟩

theorem labels (h : SameLines k routes routes') : routes'.map (fun r => (r.id, r.mode)) = routes.map fun r => (r.id, r.mode) := by
  refine List.ext_getElem? fun i => ?_
  rw [List.getElem?_map, List.getElem?_map]
  cases hr : routes[i]? with
  | none =>
    rw [List.getElem?_eq_none_iff] at hr
    rw [List.getElem?_eq_none_iff.2 (by rw [← h.count]; exact hr)]
  | some r =>
    obtain ⟨r', h1, h2⟩ := h.line hr
    rw [h1, Option.map_some, Option.map_some, h2.id, h2.mode]

theorem defaults (l : List (Route K)) : ∀ d : Dict Str K, l.foldl (fun d r => d.set r.id r.mode.fini) d =
    (l.map fun r => (r.id, r.mode)).foldl (fun d p => d.set p.1 p.2.fini) d := by
  induction l with
  | nil => intro d; rfl
  | cons r t ih => intro d; exact ih _

theorem frequencies_eq (h : SameLines k routes routes') (freq : Option (Dict Str K)) : frequencies routes' freq = frequencies routes freq := by
  cases freq with
  | some f => rfl
  | none =>
    change routes'.foldl _ _ = routes.foldl _ _
    rw [defaults, defaults, h.labels]

theorem admissible (h : SameLines k routes routes') (ha : Admissible routes sPTP freq pas) : Admissible routes' sPTP freq pas := by
  refine ⟨fun r' hr' => ?_, fun r' hr' => ?_, ha.penalty, ha.root, ha.pv, ha.pw, ha.pa⟩
  all_goals
    obtain ⟨j, hj⟩ := List.mem_iff_getElem?.1 hr'
    obtain ⟨r, h1, h2⟩ := h.back.line hj
  · rw [← h2.mode]; exact ha.modes r (List.mem_of_getElem? h1)
  · rw [h.frequencies_eq, ← h2.id]; exact ha.freqs r (List.mem_of_getElem? h1)

theorem leg (h : SameLines k routes routes') (hg : DistinctIds g) (hx : buildExtGraph g routes sPTP freq = .ok x)
    (hx' : buildExtGraph g routes' sPTP freq = .ok x') {p n : RouteNode K} (hp : p.Wanted g routes) (hn : n.Wanted g routes)
    (hpn : p.Precedes n) :
    legDistance (x'.nodes.map fun p => p.1.node) (p.later routes' k) (n.later routes' k) =
      legDistance (x.nodes.map fun p => p.1.node) p n := by
  classical
  obtain ⟨_, h2⟩ := h.of_node hn
  have hpr : p.route = n.route := by
    have h1 := hp.1
    rw [hpn.1, hn.1] at h1
    exact (Option.some.inj h1).symm
  have hpa : n.route.NodeAt n.dir p.pos p.stop.city.node.id := by
    have := hp.2.1
    rwa [hpr, hpn.2.1] at this
  have hna := hn.2.1
  unfold legDistance
  change legLoop _ p.stop.city.node.id n.stop.city.node.id (n.stop.city.node.x, n.stop.city.node.y) ((n.line routes').nodesOf n.dir) false
    (p.stop.city.node.x, p.stop.city.node.y) 0 = _
  rcases h2.ways n.dir with ⟨_, hw, _⟩ | ⟨hc, ring, hnd, hk0, hk, w1, w2, w3, w4⟩
  · rw [hw]
    refine legLoop_congr _ (fun id _ => ?_) _ _ _
    rw [find_served hg hx', find_served hg hx]
    congr 1
    funext m
    rw [decide_eq_decide]
    exact and_congr_right fun _ => (h.served m).symm
  · have hne : ring ≠ [] := by rintro rfl; simp at hk
    have h2l : 2 ≤ ring.length := by omega
    have hbefore := hpn.2.2
    have hi0 := hna.2 hc
    have hi : n.pos ≤ ring.length := by
      have := (List.getElem?_eq_some_iff.1 hna.1).1
      rw [w2, closed_length hne] at this
      omega
    have key : ∀ {ring : List Int} {i j : Nat} {a : Int}, ring ≠ [] → i ≠ 0 → i ≤ ring.length → (closed ring)[j]? = some a →
        j = (if i = 1 then ring.length else i - 1) → (closed ring)[i - 1]? = some a := by
      intro ring i j a hne hi0 hi hj he
      split_ifs at he with h1
      · rw [he, closed_get hne (le_refl _), Nat.mod_self] at hj
        rw [h1, closed_get hne (Nat.zero_le _), Nat.zero_mod]
        exact hj
      · rw [← he]; exact hj
    have hna' := h2.nodeAt hna
    have hpa' := h2.nodeAt hpa
    have hb' := h2.before hna hbefore
    unfold Route.stopBefore at hbefore hb'
    rw [if_pos hc, w2, closed_length hne, Nat.add_sub_cancel] at hbefore
    have hne' : ring.rotate (k n.ridx n.dir) ≠ [] := by rw [Ne, List.rotate_eq_nil_iff]; exact hne
    rw [if_pos (h2.type.trans hc), w4, closed_length hne', Nat.add_sub_cancel] at hb'
    have hi' : n.route.later (k n.ridx) n.dir n.pos ≤ (ring.rotate (k n.ridx n.dir)).length := by
      have := (List.getElem?_eq_some_iff.1 hna'.1).1
      rw [w4, closed_length hne'] at this
      omega
    have hi0' := hna'.2 (h2.type.trans hc)
    have hna1 := hna.1
    have hpa1 := hpa.1
    have hna1' := hna'.1
    have hpa1' := hpa'.1
    rw [w2] at hna1 hpa1
    rw [w4] at hna1' hpa1'
    rw [w1, w3, legLoop_round _ hnd h2l hi0 hi (key hne hi0 hi hpa1 (Option.some.inj hbefore).symm) hna1,
      legLoop_round _ (List.nodup_rotate.2 hnd) (by rw [List.length_rotate]; exact h2l) hi0' hi'
        (key hne' hi0' hi' hpa1' (Option.some.inj hb').symm) hna1']

theorem inj (h : SameLines k routes routes') {n m : RouteNode K} (hn : n.Wanted g routes) (hm : m.Wanted g routes)
    (he : n.later routes' k = m.later routes' k) : n = m := by
  unfold RouteNode.later at he
  simp only [RouteNode.mk.injEq] at he
  obtain ⟨h1, _, h3, h4, h5⟩ := he
  have hr : n.route = m.route := by
    have := hn.1
    rw [h1, hm.1] at this
    exact (Option.some.inj this).symm
  obtain ⟨_, h2⟩ := h.of_node hm
  have hna := hn.2.1
  rw [hr, h3] at hna
  rw [hr, h1, h3] at h4
  have := h2.later_inj hna hm.2.1 h4
  cases n; cases m
  simp_all

theorem noWorse (h : SameLines k routes routes') (hg : DistinctIds g) (ha : Admissible routes sPTP freq pas)
    (hx : buildExtGraph g routes sPTP freq = .ok x) (hx' : buildExtGraph g routes' sPTP freq = .ok x') (o d : Option (CityNode K)) :
    NoWorse x.edges x'.edges pas pas o d o d (ENode.later routes' k) id := by
  have hcity : ∀ n : ENode K, some (n.later routes' k) = o.map ENode.city ↔ some n = o.map ENode.city := by
    intro n
    cases o with
    | none => simp
    | some c => cases n <;> simp [ENode.later]
  refine ⟨fun c hc => ⟨c, hc, rfl⟩, fun s => rfl, ?_, ?_, ?_, ?_⟩
  · intro e he ht s hi
    obtain ⟨n, hn, hc, rfl⟩ := ((C35_edges hg hx e).2.1).1 ⟨he, ht⟩
    cases hi
    refine ⟨div_pos (mul_pos ?_ ha.pw) ha.pv, le_refl _⟩
    change 0 < n.stop.mode.theta
    rw [hn.2.2.1]
    exact (ha.modes _ (List.mem_of_getElem? hn.1)).theta
  · intro e he ht hi hj
    have hi' := (hcity _).not.2 hi
    have hj' := (hcity _).not.2 hj
    cases hty : e.type with
    | boarding => exact absurd hty ht
    | access =>
      obtain ⟨s, hsw, rfl | rfl⟩ := ((C35_edges hg hx e).1).1 ⟨he, hty⟩
      · exact ⟨_, (((C35_edges hg hx' _).1).2 ⟨_, h.stop_wanted hsw, Or.inl rfl⟩).1, ht, rfl, rfl, hi', hj', le_refl _⟩
      · exact ⟨_, (((C35_edges hg hx' _).1).2 ⟨_, h.stop_wanted hsw, Or.inr rfl⟩).1, ht, rfl, rfl, hi', hj', le_refl _⟩
    | alighting =>
      obtain ⟨n, hn, hc, rfl⟩ := ((C35_edges hg hx e).2.2).1 ⟨he, hty⟩
      obtain ⟨_, h2⟩ := h.of_node hn
      have hca : (n.later routes' k).CanAlight := by
        rcases hc with hc | hc
        · exact Or.inl (h2.type.trans hc)
        · rcases h2.ways n.dir with ⟨_, hw, _⟩ | ⟨hc, _⟩
          · right
            change ((n.line routes').nodesOf n.dir).head? ≠ some n.stop.city.node.id
            rw [hw]; exact hc
          · exact Or.inl (h2.type.trans hc)
      exact ⟨_, (((C35_edges hg hx' _).2.2).2 ⟨_, h.node_wanted hn, hca, rfl⟩).1, ht, rfl, rfl, hi', hj', le_refl _⟩
    | route =>
      obtain ⟨p, n, hp, hn, hpn, rfl⟩ := (mem_route_edges hg hx e).1 ⟨he, hty⟩
      obtain ⟨_, h2⟩ := h.of_node hn
      have hpr : p.route = n.route := by
        have h1 := hp.1
        rw [hpn.1, hn.1] at h1
        exact (Option.some.inj h1).symm
      have hpa : n.route.NodeAt n.dir p.pos p.stop.city.node.id := by
        have := hp.2.1
        rwa [hpr, hpn.2.1] at this
      have hprec : (p.later routes' k).Precedes (n.later routes' k) := by
        refine ⟨hpn.1, hpn.2.1, ?_⟩
        change (n.line routes').stopBefore n.dir (n.route.later (k n.ridx) n.dir n.pos) = some (p.route.later (k p.ridx) p.dir p.pos)
        rw [hpr, hpn.1, hpn.2.1]
        exact h2.before hn.2.1 hpn.2.2
      refine ⟨_, ((mem_route_edges hg hx' _).2 ⟨_, _, h.node_wanted hp, h.node_wanted hn, hprec, rfl⟩).1, ht, rfl, rfl, hi', hj', ?_⟩
      simp only [legTime]
      rw [h.leg hg hx hx' hp hn hpn]
      exact le_refl _
  · intro e he ht
    obtain ⟨n, hn, hc, rfl⟩ := ((C35_edges hg hx e).2.1).1 ⟨he, ht⟩
    obtain ⟨_, h2⟩ := h.of_node hn
    have hcb : (n.later routes' k).CanBoard := by
      rcases hc with hc | hc
      · exact Or.inl (h2.type.trans hc)
      · rcases h2.ways n.dir with ⟨_, hw, _⟩ | ⟨hc, _⟩
        · right
          change ((n.line routes').nodesOf n.dir).getLast? ≠ some n.stop.city.node.id
          rw [hw]; exact hc
        · exact Or.inl (h2.type.trans hc)
    refine ⟨_, (((C35_edges hg hx' _).2.1).2 ⟨_, h.node_wanted hn, hcb, rfl⟩).1, rfl, rfl, rfl, ?_, le_refl _⟩
    change (frequencies routes freq).getD n.route.id 0 / (n.route.mode.d : K) ≤
      (frequencies routes' freq).getD (n.line routes').id 0 / ((n.line routes').mode.d : K)
    rw [h.frequencies_eq, h2.id, h2.mode]
  · intro e₁ he₁ ht₁ e₂ he₂ ht₂ hi hj
    obtain ⟨n, hn, _, rfl⟩ := ((C35_edges hg hx e₁).2.1).1 ⟨he₁, ht₁⟩
    obtain ⟨m, hmm, _, rfl⟩ := ((C35_edges hg hx e₂).2.1).1 ⟨he₂, ht₂⟩
    simp only [ENode.later, ENode.route.injEq] at hj
    rw [h.inj hn hmm hj]

theorem label_le (h : SameLines k routes routes') (hg : DistinctIds g) (ha : Admissible routes sPTP freq pas)
    (hx : buildExtGraph g routes sPTP freq = .ok x) (hx' : buildExtGraph g routes' sPTP freq = .ok x') {o d : Option (CityNode K)}
    {r r' : HResult K} (hr : buildHyperpath ⟨x.nodes, x.edges, pas, o, d⟩ = .ok r)
    (hr' : buildHyperpath ⟨x'.nodes, x'.edges, pas, o, d⟩ = .ok r') {n : ENode K} (hn : n ∈ allNodes x.nodes) :
    r'.label (n.later routes' k) ≤ r.label n := by
  by_cases hfin : r.label n = ⊤
  · rw [hfin]; exact le_top
  obtain ⟨c, hc, hl⟩ := C38_attained ha hx hr hn hfin
  obtain ⟨c', hle, hs⟩ := (h.noWorse hg ha hx hx' o d).strategy hc
  refine (C39_optimal (h.admissible ha) hx' hr' hs).trans ?_
  rw [hl, WithTop.coe_le_coe]
  refine add_le_add hle (le_of_eq ?_)
  cases n <;> rfl

end SameLines

/-- the two lines are the same one: written alike, or a line that goes round, stopping everywhere, described from another stop -/
def SameLine (r r' : Route K) : Prop :=
  r' = r ∨ (r'.id = r.id ∧ r'.mode = r.mode ∧ r.type = .circular ∧ r'.type = .circular ∧ ∀ d, ∃ (ring : List Int) (k : Nat), ring.Nodup ∧
    r.nodesOf d = closed ring ∧ r.stopsOf d = closed ring ∧ r'.nodesOf d = closed (ring.rotate k) ∧ r'.stopsOf d = closed (ring.rotate k))

theorem SameLine.later {r r' : Route K} (h : SameLine r r') : ∃ k, Later k r r' := by
  rcases h with rfl | ⟨h1, h2, h3, h4, h5⟩
  · exact ⟨fun _ => 0, rfl, rfl, rfl, fun d => Or.inl ⟨rfl, rfl, rfl⟩⟩
  · choose ring k hnd w1 w2 w3 w4 using h5
    refine ⟨fun d => if ring d = [] then 0 else k d % (ring d).length, h1, h2, h4.trans h3.symm, fun d => ?_⟩
    by_cases hk : ring d = [] ∨ k d % (ring d).length = 0
    · left
      have : (ring d).rotate (k d) = ring d := by
        rcases hk with hk | hk
        · rw [hk, List.rotate_nil]
        · rw [← List.rotate_mod, hk, List.rotate_zero]
      refine ⟨?_, ?_, ?_⟩
      · split_ifs with he
        · rfl
        · exact hk.resolve_left he
      · rw [w3, w1, this]
      · rw [w4, w2, this]
    · right
      rw [not_or] at hk
      rw [if_neg hk.1]
      exact ⟨h3, ring d, hnd d, hk.2, Nat.mod_lt _ (List.length_pos_of_ne_nil hk.1), w1 d, w2 d, by rw [List.rotate_mod]; exact w3 d,
        by rw [List.rotate_mod]; exact w4 d⟩

theorem sameLines (h : List.Forall₂ SameLine routes routes') : ∃ k, SameLines k routes routes' := by
  have hk : ∀ i : Nat, ∃ k : Dir → Nat, ∀ r r', routes[i]? = some r → routes'[i]? = some r' → Later k r r' := by
    intro i
    cases hr : routes[i]? with
    | none => exact ⟨fun _ => 0, fun r r' e => by cases e⟩
    | some r =>
      cases hr' : routes'[i]? with
      | none => exact ⟨fun _ => 0, fun r r' _ e => by cases e⟩
      | some r' =>
        obtain ⟨l1, e1⟩ := List.getElem?_eq_some_iff.1 hr
        obtain ⟨l2, e2⟩ := List.getElem?_eq_some_iff.1 hr'
        have hl : SameLine routes[i] routes'[i] := h.get l1 l2
        rw [e1, e2] at hl
        obtain ⟨k, hk⟩ := hl.later
        exact ⟨k, fun q q' e e' => by cases e; cases e'; exact hk⟩
  choose k hk using hk
  exact ⟨k, h.length_eq, fun i r r' => hk i r r'⟩

/-- C81: a circular line that stops at all its nodes may be described from any of them: the times are the same. -/
theorem C81_any_first_stop (hg : DistinctIds g) (h : List.Forall₂ SameLine routes routes') (ha : Admissible routes sPTP freq pas)
    (hx : buildExtGraph g routes sPTP freq = .ok x) (hx' : buildExtGraph g routes' sPTP freq = .ok x') {o d : Option (CityNode K)}
    {r r' : HResult K} (hr : buildHyperpath ⟨x.nodes, x.edges, pas, o, d⟩ = .ok r)
    (hr' : buildHyperpath ⟨x'.nodes, x'.edges, pas, o, d⟩ = .ok r') :
    (∀ s, s ∈ stopsOf x'.nodes ↔ s ∈ stopsOf x.nodes) ∧ (∀ c, c ∈ Dict.keys x'.nodes ↔ c ∈ Dict.keys x.nodes) ∧
    (∀ s ∈ stopsOf x.nodes, r'.label (.stop s) = r.label (.stop s)) ∧
    (∀ c ∈ Dict.keys x.nodes, r'.label (.city c) = r.label (.city c)) := by
  obtain ⟨k, hk⟩ := sameLines h
  obtain ⟨_, s1, _, s2, _⟩ := C34_stop_nodes hg hx
  obtain ⟨_, s1', _, s2', _⟩ := C34_stop_nodes hg hx'
  have hs : ∀ s, s ∈ stopsOf x'.nodes ↔ s ∈ stopsOf x.nodes := fun s =>
    ⟨fun hs => (s1 s).2 (hk.back.stop_wanted ((s1' s).1 hs)), fun hs => (s1' s).2 (hk.stop_wanted ((s1 s).1 hs))⟩
  have hc : ∀ c, c ∈ Dict.keys x'.nodes ↔ c ∈ Dict.keys x.nodes := by
    intro c
    rw [s2, s2']
    exact ⟨fun ⟨s, h1, h2⟩ => ⟨s, hk.back.stop_wanted h1, h2⟩, fun ⟨s, h1, h2⟩ => ⟨s, hk.stop_wanted h1, h2⟩⟩
  refine ⟨hs, hc, fun s h => ?_, fun c h => ?_⟩
  · exact le_antisymm (hk.label_le hg ha hx hx' hr hr' ((mem_allNodes _).2 (Or.inr (Or.inl ⟨s, h, rfl⟩))))
      (hk.back.label_le hg (hk.admissible ha) hx' hx hr' hr ((mem_allNodes _).2 (Or.inr (Or.inl ⟨s, (hs s).2 h, rfl⟩))))
  · exact le_antisymm (hk.label_le hg ha hx hx' hr hr' ((mem_allNodes _).2 (Or.inl ⟨c, h, rfl⟩)))
      (hk.back.label_le hg (hk.admissible ha) hx' hx hr' hr ((mem_allNodes _).2 (Or.inl ⟨c, (hc c).2 h, rfl⟩)))

end Generic

section Examples

attribute [local instance] ratMath ratText

/-- a line round the subcentres of a city with four zones, described from the first one -/
def roundLine : Route ℚ := ⟨"o".toList, demoMode, [2, 4, 6, 8, 2], [], [2, 4, 6, 8, 2], [], .circular⟩

/-- and from the third one -/
def roundLater : Route ℚ := ⟨"o".toList, demoMode, [6, 8, 2, 4, 6], [], [6, 8, 2, 4, 6], [], .circular⟩

/-- and a radial line -/
def radialLine : Route ℚ := ⟨"r".toList, demoMode, [1, 2, 0], [0, 2, 1], [1, 2, 0], [0, 2, 1], .predefined⟩

theorem roundSame : List.Forall₂ SameLine [roundLine, radialLine] [roundLater, radialLine] := by
  refine .cons (Or.inr ⟨rfl, rfl, rfl, rfl, fun d => ?_⟩) (.cons (Or.inl rfl) .nil)
  cases d
  · exact ⟨[2, 4, 6, 8], 2, by decide, rfl, rfl, rfl, rfl⟩
  · exact ⟨[], 0, by decide, rfl, rfl, rfl, rfl⟩

/-- C81: from node 1 to node 6, with a transfer -/
example : serviceLabels (demoCity 4) [roundLater, radialLine] 2 none demoPassenger 1 6 =
    serviceLabels (demoCity 4) [roundLine, radialLine] 2 none demoPassenger 1 6 := by decide +kernel

/-- the same line without a stop at the fourth subcentre, where another line stops -/
def skipping (nodes stops : List Int) : List (Route ℚ) :=
  [⟨"o".toList, demoMode, nodes, [], stops, [], .circular⟩, radialLine,
    ⟨"q".toList, demoMode, [7, 8, 0], [0, 8, 7], [7, 8, 0], [0, 8, 7], .predefined⟩]

/-- C81: that the circular line stops at all its nodes is needed: the way from the last stop back to the first one is measured as a
straight line when it is the end of the description, and along the nodes passed otherwise. -/
theorem C81_skipping_circular_line :
    serviceLabels (demoCity 4) (skipping [2, 4, 6, 8, 2] [2, 4, 6, 2]) 2 none demoPassenger 6 2 = some [some (201 / 100)] ∧
    serviceLabels (demoCity 4) (skipping [4, 6, 8, 2, 4] [4, 6, 2, 4]) 2 none demoPassenger 6 2 = some [some (251 / 100)] := by
  decide +kernel

end Examples

end Sidermit
