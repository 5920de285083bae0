import Verif.Proofs.Results
import Verif.Spec.Results
import Verif.Props.TotalCost

/-!
The charges of the sections of a line and the loads.
-/

set_option linter.unusedSectionVars false

namespace Sidermit

variable {K : Type} [Field K] [LinearOrder K] [IsStrictOrderedRing K] [PyMath K] {g : Graph K} {routes : List (Route K)}
  {sPTP : K} {freq : Option (Dict Str K)} {x : ExtGraph K} {pas : Passenger K} {N : Nat} {f : Dict Str K}
  {l : List (ODResult K × Dict (StopNode K) K)} {t : Loads K}

/-- the entries of the tables belong to route nodes -/
theorem table_keys (ha : Admissible routes sPTP freq pas) (hd : DistinctIds g)
    (hx : buildExtGraph g routes sPTP freq = .ok x) (hl : Loading x pas N f l) (ht : getLoads N f l = .ok t) :
    (∀ k ∈ Dict.keys t.z, ∃ n : RouteNode K, n.Wanted g routes ∧ n.key = k) ∧
    (∀ k ∈ Dict.keys t.v, ∃ n : RouteNode K, n.Wanted g routes ∧ n.key = k) ∧
    ∀ k ∈ Dict.keys t.load, ∃ n m : RouteNode K, n.Wanted g routes ∧ m.Wanted g routes ∧ n.Precedes m ∧ n.key = k := by
  obtain ⟨t', r', h, hT, hrt, hv, _⟩ := getLoads_spec (hl.ok ha hd hx)
  rw [ht] at h
  cases h
  rw [hrt]
  simp only [keys_perVehicle]
  have hkey : ∀ (n : RouteNode K) (k : LoadKey K), n.stop = k.2.2 → k = (n.route.id, n.dir, k.2.2) → n.key = k := by
    intro n k h1 h2
    rw [RouteNode.key, h1, ← h2]
  refine ⟨?_, ?_, ?_⟩
  · intro k hk
    obtain ⟨w, hw, n, h1, h2, h3⟩ := hT.mz k hk
    obtain ⟨e, he, hi, hj⟩ := hv.edge w hw
    rw [h1] at hi
    rw [h2] at hj
    rcases edge_cases hd hx he with ⟨_, s, h5, h6⟩ | ⟨_, s, h5, h6⟩ | ⟨_, m, hm, h5, h6⟩ | ⟨_, m, hm, h5, h6⟩ |
      ⟨_, p, m, hp, hm, hpm, h5, h6⟩
    · rw [hi] at h5; cases h5
    · rw [hj] at h6; cases h6
    · rw [hi] at h5; rw [hj] at h6
      cases h6
      exact ⟨n, hm, hkey n k (by injection h5 with h5; exact h5.symm) h3⟩
    · rw [hi] at h5; cases h5
    · rw [hi] at h5; cases h5
  · intro k hk
    obtain ⟨w, hw, n, h1, h2, h3⟩ := hT.mv k hk
    obtain ⟨e, he, hi, hj⟩ := hv.edge w hw
    rw [h1] at hi
    rw [h2] at hj
    rcases edge_cases hd hx he with ⟨_, s, h5, h6⟩ | ⟨_, s, h5, h6⟩ | ⟨_, m, hm, h5, h6⟩ | ⟨_, m, hm, h5, h6⟩ |
      ⟨_, p, m, hp, hm, hpm, h5, h6⟩
    · rw [hi] at h5; cases h5
    · rw [hi] at h5; cases h5
    · rw [hi] at h5; cases h5
    · rw [hi] at h5; rw [hj] at h6
      cases h5
      exact ⟨n, hm, hkey n k (by injection h6 with h6; exact h6.symm) h3⟩
    · rw [hj] at h6; cases h6
  · intro k hk
    obtain ⟨w, hw, n, m', h1, h2, h3⟩ := hT.ml k hk
    obtain ⟨e, he, hi, hj⟩ := hv.edge w hw
    rw [h1] at hi
    rw [h2] at hj
    rcases edge_cases hd hx he with ⟨_, s, h5, h6⟩ | ⟨_, s, h5, h6⟩ | ⟨_, m, hm, h5, h6⟩ | ⟨_, m, hm, h5, h6⟩ |
      ⟨_, p, m, hp, hm, hpm, h5, h6⟩
    · rw [hi] at h5; cases h5
    · rw [hi] at h5; cases h5
    · rw [hi] at h5; cases h5
    · rw [hj] at h6; cases h6
    · rw [hi] at h5; rw [hj] at h6
      cases h5; cases h6
      exact ⟨n, m', hp, hm, hpm, h3.symm⟩

/-- the stop of a route node is known by its line and its node -/
theorem stop_unique (hd : DistinctIds g) (hids : (routes.map Route.id).Nodup) {n m : RouteNode K} (hn : n.Wanted g routes)
    (hm : m.Wanted g routes) (hid : n.route.id = m.route.id) : n.route = m.route ∧
      (n.stop.city.node.id = m.stop.city.node.id → n.stop = m.stop) := by
  obtain ⟨hn1, _, hn3, hn4⟩ := hn
  obtain ⟨hm1, _, hm3, hm4⟩ := hm
  have hroute : n.route = m.route := by
    obtain ⟨ha, hb⟩ := List.getElem?_eq_some_iff.1 hn1
    obtain ⟨ha', hb'⟩ := List.getElem?_eq_some_iff.1 hm1
    have : n.ridx = m.ridx := by
      refine (List.Nodup.getElem_inj_iff hids (hi := by simpa using ha) (hj := by simpa using ha')).1 ?_
      rw [List.getElem_map, List.getElem_map, hb, hb', hid]
    rw [this, hm1] at hn1
    exact (Option.some.inj hn1).symm
  refine ⟨hroute, fun h => ?_⟩
  unfold CityNode.In at hn4 hm4
  obtain ⟨ha, hb⟩ := List.getElem?_eq_some_iff.1 hn4
  obtain ⟨ha', hb'⟩ := List.getElem?_eq_some_iff.1 hm4
  have hidx : n.stop.city.idx = m.stop.city.idx := by
    unfold DistinctIds at hd
    refine (List.Nodup.getElem_inj_iff hd (hi := by simpa using ha) (hj := by simpa using ha')).1 ?_
    rw [List.getElem_map, List.getElem_map, hb, hb', h]
  have hnode : n.stop.city.node = m.stop.city.node := by
    rw [hidx, hm4] at hn4
    exact (Option.some.inj hn4).symm
  have hmode : n.stop.mode = m.stop.mode := by rw [hn3, hm3, hroute]
  cases hs : n.stop with
  | mk md c =>
    cases hs' : m.stop with
    | mk md' c' =>
      rw [hs, hs'] at hidx hnode hmode
      cases c; cases c'
      simp only at hidx hnode hmode
      rw [hidx, hnode, hmode]

/-- a table with entries of route nodes only: the stop found at a node is the one there -/
theorem stopAt_wanted (hd : DistinctIds g) (hids : (routes.map Route.id).Nodup) {d : Dict (LoadKey K) K}
    (hk : ∀ k ∈ Dict.keys d, ∃ n : RouteNode K, n.Wanted g routes ∧ n.key = k) {n : RouteNode K} (hn : n.Wanted g routes) :
    (n.key ∈ Dict.keys d → stopAt d n.route.id n.dir n.stop.city.node.id = some n.stop) ∧
    (n.key ∉ Dict.keys d → stopAt d n.route.id n.dir n.stop.city.node.id = none) := by
  have huniq : ∀ s, stopAt d n.route.id n.dir n.stop.city.node.id = some s → s = n.stop ∧ n.key ∈ Dict.keys d := by
    intro s hs
    obtain ⟨h1, h2⟩ := stopAt_some hs
    obtain ⟨m, hm, hkey⟩ := hk _ h1
    unfold RouteNode.key at hkey
    simp only [Prod.mk.injEq] at hkey
    have := (stop_unique hd hids hm hn hkey.1).2 (by rw [hkey.2.2, h2])
    rw [hkey.2.2] at this
    refine ⟨this, ?_⟩
    rw [RouteNode.key, ← this]
    exact h1
  constructor
  · intro h
    cases hs : stopAt d n.route.id n.dir n.stop.city.node.id with
    | none => exact absurd rfl (stopAt_none hs h)
    | some s => rw [(huniq s hs).1]
  · intro h
    cases hs : stopAt d n.route.id n.dir n.stop.city.node.id with
    | none => rfl
    | some s => exact absurd (huniq s hs).2 h

/-- passengers gained at a stop, after the computation of the cycle times -/
theorem gain_wanted (ha : Admissible routes sPTP freq pas) (hd : DistinctIds g) (hids : (routes.map Route.id).Nodup)
    (hx : buildExtGraph g routes sPTP freq = .ok x) (hl : Loading x pas N f l) (ht : getLoads N f l = .ok t)
    (times : Dict Str K) {n : RouteNode K} (hn : n.Wanted g routes)
    (hb : n.route.mode.bya = 1 ∨ (t.z.getD n.key 0 = 0 → t.v.getD n.key 0 = 0)) :
    gainAt (getCycleTime t.z t.v routes times).z (getCycleTime t.z t.v routes times).v n.route.id n.dir n.stop.city.node.id =
      t.z.getD n.key 0 - t.v.getD n.key 0 := by
  obtain ⟨kz, kv⟩ := C50_applies ha hd hx hl ht
  obtain ⟨mz, mv, _⟩ := table_keys ha hd hx hl ht
  obtain ⟨hz, hv, _⟩ := C50_tables_unchanged kz kv routes times
  obtain ⟨_, hsub⟩ := getCycleTime_keys kz kv routes times
  obtain ⟨m1, m2, m3⟩ := getCycleTime_tables times routes ⟨[], t.z, t.v⟩
  have hk : ∀ k ∈ Dict.keys (getCycleTime t.z t.v routes times).z, ∃ n : RouteNode K, n.Wanted g routes ∧ n.key = k := by
    intro k hk
    rcases hsub k hk with h | h
    · exact mz k h
    · exact mv k h
  obtain ⟨h1, h2⟩ := stopAt_wanted hd hids hk hn
  unfold gainAt
  by_cases hm : n.key ∈ Dict.keys (getCycleTime t.z t.v routes times).z
  · rw [h1 hm]
    show (getCycleTime t.z t.v routes times).z.getD n.key 0 - (getCycleTime t.z t.v routes times).v.getD n.key 0 = _
    rw [hz, hv]
  · rw [h2 hm]
    have hz0 : t.z.getD n.key 0 = 0 := getD_of_not_mem _ fun h => hm (m1 _ h)
    have hv0 : t.v.getD n.key 0 = 0 := by
      rcases hb with hb | hb
      · exact getD_of_not_mem _ fun h => hm (m3 n.route (List.mem_of_getElem? hn.1) hb n.dir n.stop h)
      · exact hb hz0
    rw [hz0, hv0, sub_zero]

theorem route_of_id (hids : (routes.map Route.id).Nodup) {r r' : Route K} (hr : r ∈ routes) (hr' : r' ∈ routes)
    (h : r.id = r'.id) : r = r' := by
  exact List.inj_on_of_nodup_map hids hr hr' h

/-- where no route of the table stops nothing is gained -/
theorem gain_elsewhere {z v : Dict (LoadKey K) K} (hids : (routes.map Route.id).Nodup)
    (hk : ∀ k ∈ Dict.keys z, ∃ n : RouteNode K, n.Wanted g routes ∧ n.key = k) {r : Route K} (hr : r ∈ routes) {d : Dir} {a : Int}
    (ha : a ∉ r.stopsOf d) : gainAt z v r.id d a = 0 := by
  unfold gainAt
  cases hs : stopAt z r.id d a with
  | none => rfl
  | some s =>
    obtain ⟨h1, h2⟩ := stopAt_some hs
    obtain ⟨m, hm, hkey⟩ := hk _ h1
    unfold RouteNode.key at hkey
    simp only [Prod.mk.injEq] at hkey
    have hroute : m.route = r := by
      have := hids
      obtain ⟨i, hi, he⟩ := List.getElem_of_mem hr
      obtain ⟨hj, he'⟩ := List.getElem?_eq_some_iff.1 hm.1
      have hij : i = m.ridx := by
        refine (List.Nodup.getElem_inj_iff hids (hi := by simpa using hi) (hj := by simpa using hj)).1 ?_
        rw [List.getElem_map, List.getElem_map, he, he', hkey.1]
      subst hij
      rw [← he, he']
    have := hm.2.1.1
    rw [hroute, hkey.2.1, hkey.2.2, h2] at this
    exact absurd (List.mem_of_getElem? this) ha

/-- the passengers gained up to a stop are those who leave it -/
theorem gain_upto (ha : Admissible routes sPTP freq pas) (hd : DistinctIds g) (ho : StopsOnce routes)
    (hx : buildExtGraph g routes sPTP freq = .ok x) (hl : Loading x pas N f l) (ht : getLoads N f l = .ok t) {w : Int → K}
    {ridx : Nat} {r : Route K} (hr : routes[ridx]? = some r) (hc : r.type ≠ .circular) {d : Dir} : ∀ (p : Nat) (n : RouteNode K),
      n.Wanted g routes → n.ridx = ridx → n.dir = d → n.pos = p →
      (∀ m : RouteNode K, m.Wanted g routes → m.ridx = ridx → m.dir = d → m.pos ≤ p →
        w m.stop.city.node.id = t.z.getD m.key 0 - t.v.getD m.key 0) →
      (((r.stopsOf d).take (p + 1)).map w).sum = t.load.getD n.key 0
  | 0, n, hn, h1, h2, h3, hw => by
    have hroute : n.route = r := by
      have := hn.1
      rw [h1, hr] at this
      exact (Option.some.inj this).symm
    have hs := hn.2.1.1
    rw [hroute, h2, h3] at hs
    obtain ⟨h4, h5⟩ := List.getElem?_eq_some_iff.1 hs
    have hb := C44_first_stop_balance ha hd ho hx hl ht hn (by rw [hroute]; exact hc) h3
    have : (r.stopsOf d).take 1 = [n.stop.city.node.id] := by
      cases hl' : r.stopsOf d with
      | nil => rw [hl'] at h4; cases h4
      | cons a b => simp only [hl'] at h5; simp at h5; simp [h5]
    rw [this, List.map_singleton, List.sum_singleton, hw n hn h1 h2 (by omega), hb]
    ring
  | p + 1, n, hn, h1, h2, h3, hw => by
    have hroute : n.route = r := by
      have := hn.1
      rw [h1, hr] at this
      exact (Option.some.inj this).symm
    have hs := hn.2.1.1
    rw [hroute, h2, h3] at hs
    obtain ⟨h4, h5⟩ := List.getElem?_eq_some_iff.1 hs
    obtain ⟨q, ⟨hq, hq1, hq2, hq3⟩, _⟩ := (C34_route_nodes hd hx).2.2 ridx r d p ((r.stopsOf d)[p]'(by omega)) hr
      ⟨List.getElem?_eq_getElem _, fun h => absurd h hc⟩
    have ih := gain_upto ha hd ho hx hl ht hr hc p q hq hq1 hq2 hq3 fun m hm e1 e2 e3 => hw m hm e1 e2 (by omega)
    have hpre : q.Precedes n := by
      refine ⟨hq1.trans h1.symm, hq2.trans h2.symm, ?_⟩
      rw [Route.stopBefore, if_neg (by rw [hroute]; exact hc), if_neg (by omega), hq3, h3]
      rfl
    have hb := C44_stop_balance ha hd ho hx hl ht hq hn hpre
    rw [List.take_add_one, hs, List.map_append, List.sum_append, ih]
    simp only [Option.toList_some, List.map_singleton, List.sum_singleton]
    rw [hw n hn h1 h2 (by omega)]
    linear_combination hb

/-! ### rows of lines that are not circular -/

/-- the charges of the nodes of a direction -/
def chargesIn (c : Cycles K) (k : K) (r : Route K) (D : Dir) : List K :=
  (List.range (r.nodesOf D).length).map fun i => (((r.nodesOf D).take (i + 1)).map (gainAt c.z c.v r.id D)).sum / k

/-- the boardings found at the nodes of a direction -/
def boardsIn (c : Cycles K) (r : Route K) (D : Dir) : K := ((r.nodesOf D).map (boardAt c.z r.id D)).sum

/-- the row of a line that is not circular -/
def plainRow (c : Cycles K) (f k : Dict Str K) (r : Route K) : Row K :=
  ⟨r.id, f.getD r.id 0, f.getD r.id 0 / (r.mode.d : K), k.getD r.id 0, c.time.getD r.id 0 * f.getD r.id 0,
    c.time.getD r.id 0 * 60,
    (r.mode.co + r.mode.c1 * k.getD r.id 0) * f.getD r.id 0 * c.time.getD r.id 0 /
      ((boardsIn c r .I + boardsIn c r .R) * f.getD r.id 0),
    absTop (((chargesIn c (k.getD r.id 0) r .I).dropLast ++ (chargesIn c (k.getD r.id 0) r .R).dropLast).foldl leastOf ⊤),
    sections r.nodesI (chargesIn c (k.getD r.id 0) r .I), sections r.nodesR (chargesIn c (k.getD r.id 0) r .R)⟩

theorem pyDiv_zero (a : K) : pyDiv a (0 : K) = .error .ZeroDivisionError := by simp [pyDiv]

/-- when the row exists and what it is -/
theorem twoWayRow_cases (c : Cycles K) (f k : Dict Str K) (r : Route K) (hd : (r.mode.d : K) ≠ 0) :
    (k.getD r.id 0 ≠ 0 ∧ (boardsIn c r .I + boardsIn c r .R) * f.getD r.id 0 ≠ 0 ∧ twoWayRow c f k r = .ok (plainRow c f k r)) ∨
    ((k.getD r.id 0 = 0 ∨ (boardsIn c r .I + boardsIn c r .R) * f.getD r.id 0 = 0) ∧
      twoWayRow c f k r = .error .ZeroDivisionError) := by
  by_cases hk : k.getD r.id 0 = 0
  · refine Or.inr ⟨Or.inl hk, ?_⟩
    unfold twoWayRow
    rw [hk]
    cases hI : r.nodesI with
    | cons a l => rw [charge_fold_zero _ _ _ _ (by simp)]; rfl
    | nil =>
      rw [List.foldlM_nil, py_pure, py_ok_bind]
      cases hR : r.nodesR with
      | cons a l => rw [charge_fold_zero _ _ _ _ (by simp)]; rfl
      | nil =>
        rw [List.foldlM_nil, py_pure, py_ok_bind]
        simp only [zero_mul]
        rw [pyDiv_zero]
        rfl
  · by_cases hb : (boardsIn c r .I + boardsIn c r .R) * f.getD r.id 0 = 0
    · refine Or.inr ⟨Or.inr hb, ?_⟩
      unfold twoWayRow
      rw [charge_fold _ _ _ _ hk, py_ok_bind, charge_fold _ _ _ _ hk, py_ok_bind]
      simp only [zero_add]
      have : ((r.nodesI.map (boardAt c.z r.id .I)).sum + (r.nodesR.map (boardAt c.z r.id .R)).sum) * f.getD r.id 0 = 0 := hb
      rw [this, pyDiv_zero]
      rfl
    · refine Or.inl ⟨hk, hb, ?_⟩
      unfold twoWayRow
      rw [charge_fold _ _ _ _ hk, py_ok_bind, charge_fold _ _ _ _ hk, py_ok_bind]
      simp only [zero_add]
      have hb' : ((r.nodesI.map (boardAt c.z r.id .I)).sum + (r.nodesR.map (boardAt c.z r.id .R)).sum) * f.getD r.id 0 ≠ 0 := hb
      rw [pyDiv_ok hb', py_ok_bind, pyDiv_ok hd, py_ok_bind, py_pure]
      rfl

theorem length_pairs {α : Type} : ∀ l : List α, (pairs l).length = l.length - 1
  | [] => rfl
  | [_] => rfl
  | a :: b :: t => by rw [pairs, List.length_cons, length_pairs (b :: t)]; simp

/-- a section and its charge -/
theorem sections_get {nodes : List Int} {charges : List K} {i : Nat} {a b : Int} {c : K} (hp : (pairs nodes)[i]? = some (a, b))
    (hc : charges[i]? = some c) : (sections nodes charges)[i]? = some (a, b, |c|) := by
  unfold sections
  rw [List.getElem?_zipWith, hp, hc]

theorem sections_pairs {nodes : List Int} {charges : List K} (h : charges.length = nodes.length) :
    (sections nodes charges).map (fun s => (s.1, s.2.1)) = pairs nodes := by
  unfold sections
  rw [List.map_zipWith]
  simp only [Prod.mk.eta]
  have : (pairs nodes).length ≤ charges.length := by rw [length_pairs]; omega
  generalize pairs nodes = p at this
  induction p generalizing charges nodes with
  | nil => simp
  | cons a l ih =>
    cases charges with
    | nil => simp at this
    | cons b m =>
      rw [List.zipWith_cons_cons]
      congr 1
      exact ih (nodes := m.map fun _ => 0) (by simp) (by simpa using this)

/-- the least of a list -/
theorem leastOf_fold : ∀ (l : List K) (acc : WithTop K),
    l.foldl leastOf acc ≤ acc ∧ (∀ c ∈ l, l.foldl leastOf acc ≤ (c : WithTop K)) ∧
    (l.foldl leastOf acc = acc ∨ ∃ c ∈ l, l.foldl leastOf acc = (c : WithTop K))
  | [], acc => ⟨le_refl _, by simp, Or.inl rfl⟩
  | a :: l, acc => by
    rw [List.foldl_cons]
    obtain ⟨h1, h2, h3⟩ := leastOf_fold l (leastOf acc a)
    have hle : leastOf acc a ≤ acc ∧ leastOf acc a ≤ (a : WithTop K) := by
      unfold leastOf
      split
      · next h => exact ⟨h.le, le_refl _⟩
      · next h => exact ⟨le_refl _, not_lt.1 h⟩
    refine ⟨h1.trans hle.1, ?_, ?_⟩
    · intro c hc
      rcases List.mem_cons.1 hc with rfl | hc
      · exact h1.trans hle.2
      · exact h2 c hc
    · rcases h3 with h3 | ⟨c, hc, h3⟩
      · rw [h3]
        unfold leastOf
        split
        · exact Or.inr ⟨a, by simp, rfl⟩
        · exact Or.inl rfl
      · exact Or.inr ⟨c, by simp [hc], h3⟩

end Sidermit
