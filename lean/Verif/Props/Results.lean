import Verif.Proofs.Charges

/-!
C60: the table of the lines, `Optimizer.get_network_results` of `optimizer.py`.
-/

set_option linter.unusedSectionVars false

namespace Sidermit

section Generic

variable {K : Type} [Field K] [LinearOrder K] [IsStrictOrderedRing K] [PyMath K] {g : Graph K} {d : Demand K}
  {pas : Passenger K} {net : Network K} {f : Option (Dict Str K)} {o fin : Optimizer K} {fr : Dict Str K} {t : Loads K}

/-! ## the optimizer of the last iteration -/

/-- an optimizer prepared with the frequencies `fr`, and the tables of its passengers -/
structure LastRun (g : Graph K) (d : Demand K) (pas : Passenger K) (net : Network K) (fr : Dict Str K) (fin : Optimizer K)
    (t : Loads K) : Prop where
  built : Built g d pas net (some fr) fin
  loads : fin.loads fr = .ok t
  nonneg : ∀ id, 0 ≤ fr.getD id 0

/-- C60: the tables of results are about an optimizer prepared with the frequencies of the result, one per line -/
theorem C60_last_iteration (hb : Built g d pas net f o) {res : Res K} (hlen : res.x.length = net.routes.length)
    (hy : ∀ c ∈ res.x, 0 ≤ c) (h : o.lastIteration res = .ok (fr, fin, t)) :
    Gives net res.x fr ∧ LastRun g d pas net fr fin t := by
  obtain ⟨fr', hfr, hg⟩ := hb.vector hlen
  obtain ⟨e1, e2, e3, e4, _⟩ := prepare_fields hb.built
  rw [Optimizer.lastIteration, hfr, py_ok_bind, e1, e2, e3, e4] at h
  obtain ⟨fin', hfin, h⟩ := py_bind_eq_ok.1 h
  obtain ⟨t', ht, h⟩ := py_bind_eq_ok.1 h
  cases h
  have hn := hg.value hy
  refine ⟨hg, ⟨(init_prepare hfin).1, hb.ids, ?_, hb.nodes, hb.walk⟩, ht, hn⟩
  refine ⟨hb.adm.modes, ?_, hb.adm.penalty, hb.adm.root, hb.adm.pv, hb.adm.pw, hb.adm.pa⟩
  intro r hr
  show 0 ≤ (f0 net.routes (some fr)).f.getD r.id 0
  rw [Dict.getD, (C54_start hb.ids (some fr)).2.2.2.2 fr rfl r hr]
  exact hn r.id

theorem LastRun.facts (h : LastRun g d pas net fr fin t) : fin.graph = g ∧ fin.demand = d ∧ fin.pas = pas ∧ fin.net = net ∧
    Admissible net.routes pas.pt (some fin.f) pas ∧ buildExtGraph g net.routes pas.pt (some fin.f) = .ok fin.ext ∧
    Loading fin.ext pas (allNodes fin.ext.nodes).length fr fin.pairs ∧
    getLoads (allNodes fin.ext.nodes).length fr fin.pairs = .ok t := by
  obtain ⟨e1, e2, e3, e4, hf, _, _, hx, _⟩ := prepare_fields h.built.built
  have hadm := h.built.adm
  rw [← hf] at hadm
  refine ⟨e1, e2, e3, e4, hadm, hx, ?_, h.loads⟩
  refine h.built.loading h.nonneg fun r hr hpos => ?_
  rw [hf, Dict.getD, (C54_start h.built.ids (some fr)).2.2.2.2 fr rfl r hr] at hpos
  exact hpos

/-- the shares of the trips at the stops are not negative -/
theorem LastRun.trips (h : LastRun g d pas net fr fin t) (hs : Sensible g d pas) :
    ∀ p ∈ fin.pairs, 0 ≤ p.1.vij ∧ ∀ s, 0 ≤ p.2.getD s 0 := by
  obtain ⟨_, _, _, _, hadm, hx, hl, _⟩ := h.facts
  obtain ⟨_, _, _, _, _, _, _, _, res, shares, w, hres, hw, hsh, hp⟩ := prepare_fields h.built.built
  intro p hpm
  have hcomp := hl.computed p hpm
  rw [hp] at hpm
  obtain ⟨h1, _⟩ := List.of_mem_zip hpm
  constructor
  · cases hv : networkValidator fin.ext.nodes fin.ext.edges pas d.matrix with
    | error e =>
      rw [(C41_all_pairs hadm h.built.nodes hx d.matrix).2 e hv] at hres
      cases hres
    | ok b =>
      have hb : b = true := by
        cases b with
        | true => rfl
        | false =>
          unfold allHyperpaths at hres
          rw [hv, py_ok_bind] at hres
          cases hres
      obtain ⟨l, hl', hf2⟩ := (C41_all_pairs hadm h.built.nodes hx d.matrix).1 (by rw [hv, hb])
      rw [hres] at hl'
      cases hl'
      obtain ⟨q, hq, hqe⟩ := forall₂_exists_left hf2 p.1 h1
      rw [hqe.2.2.2.2.1]
      obtain ⟨c, hc, hq⟩ := List.mem_flatMap.1 hq
      obtain ⟨e, he, rfl⟩ := List.mem_map.1 hq
      exact hs.demand c hc e (List.mem_filter.1 he).1
  · intro s
    have hsp : sharesOf (Dict.keys p.1.paths) p.1.res.label w pas.va pas.pa pas.pv = .ok p.2 := by
      exact List.forall₂_zip ((mapM_forall₂ _ _ _).1 hsh) hpm
    by_cases hne : p.1.paths = []
    · rw [hne] at hsp
      have : p.2 = [] := (Except.ok.inj hsp).symm
      rw [this]
      exact le_refl _
    · obtain ⟨a, ha, hc⟩ := C43_pairs_partial hadm h.built.nodes hx hcomp hne (hs.width w hw) h.built.walk.le hs.walk hadm.pv
      rw [hsp] at ha
      cases ha
      rcases hc with ⟨hc, _⟩ | ⟨hc, _⟩
      · exact (hc.range s).1
      · rw [hc]
        exact le_refl _

/-! ## loads of the sections -/

theorem LastRun.keys (h : LastRun g d pas net fr fin t) (times : Dict Str K) :
    ∀ k ∈ Dict.keys (getCycleTime t.z t.v net.routes times).z, ∃ n : RouteNode K, n.Wanted g net.routes ∧ n.key = k := by
  obtain ⟨_, _, _, _, hadm, hx, hl, ht⟩ := h.facts
  obtain ⟨kz, kv⟩ := C50_applies hadm h.built.nodes hx hl ht
  obtain ⟨mz, mv, _⟩ := table_keys hadm h.built.nodes hx hl ht
  intro k hk
  rcases (getCycleTime_keys kz kv net.routes times).2 k hk with h | h
  · exact mz k h
  · exact mv k h

/-- the passengers gained up to a node are the load of the last stop passed -/
theorem LastRun.section (h : LastRun g d pas net fr fin t) (ho : StopsOnce net.routes) (times : Dict Str K) {ridx : Nat}
    {r : Route K} (hr : net.routes[ridx]? = some r) (hio : r.InOrder) (hsh : r.Shown g net.routes t) {D : Dir} {i : Nat}
    (hi : i + 1 < (r.nodesOf D).length) :
    (lastStopBy (r.stopsOf D) (r.nodesOf D) i = none →
      (((r.nodesOf D).take (i + 1)).map (gainAt (getCycleTime t.z t.v net.routes times).z
        (getCycleTime t.z t.v net.routes times).v r.id D)).sum = 0) ∧
    ∀ s, lastStopBy (r.stopsOf D) (r.nodesOf D) i = some s → ∃ n : RouteNode K, n.Wanted g net.routes ∧ n.ridx = ridx ∧
      n.dir = D ∧ n.stop.city.node.id = s ∧
      (((r.nodesOf D).take (i + 1)).map (gainAt (getCycleTime t.z t.v net.routes times).z
        (getCycleTime t.z t.v net.routes times).v r.id D)).sum = t.load.getD n.key 0 := by
  obtain ⟨_, _, _, _, hadm, hx, hl, ht⟩ := h.facts
  have hmem : r ∈ net.routes := List.mem_of_getElem? hr
  rw [sum_filter_gain (r.stopsOf D) _ (fun a ha => gain_elsewhere h.built.ids (h.keys times) hmem ha)]
  have hF := filter_take (hio.nodes D) (hio.order D) (i + 1)
  have hsubF : ∀ a ∈ ((r.nodesOf D).take (i + 1)).filter (fun a => decide (a ∈ r.stopsOf D)), a ∈ (r.nodesOf D).take (i + 1) :=
    fun a ha => (List.mem_filter.1 ha).1
  unfold lastStopBy
  generalize ((r.nodesOf D).take (i + 1)).filter (fun a => decide (a ∈ r.stopsOf D)) = F at hF hsubF ⊢
  refine ⟨fun hn => ?_, fun s hs => ?_⟩
  · rw [List.getLast?_eq_none_iff.1 hn]; rfl
  obtain ⟨q, hq⟩ : ∃ q, F.length = q + 1 := by
    cases F with
    | nil => cases hs
    | cons a l => exact ⟨l.length, rfl⟩
  have hsq : (r.stopsOf D)[q]? = some s := by
    rw [List.getLast?_eq_getElem?, hq] at hs
    simp only [Nat.add_sub_cancel] at hs
    rw [hF, hq, List.getElem?_take_of_lt (Nat.lt_succ_self q)] at hs
    exact hs
  obtain ⟨n, ⟨hn, h1, h2, h3⟩, _⟩ := (C34_route_nodes h.built.nodes hx).2.2 ridx r D q s hr ⟨hsq, fun hc => absurd hc hio.type⟩
  have hroute : ∀ m : RouteNode K, m.Wanted g net.routes → m.ridx = ridx → m.route = r := by
    intro m hm hm1
    have := hm.1
    rw [hm1, hr] at this
    exact (Option.some.inj this).symm
  have hid : n.stop.city.node.id = s := by
    have := hn.2.1.1
    rw [hroute n hn h1, h2, h3, hsq] at this
    exact (Option.some.inj this).symm
  refine ⟨n, hn, h1, h2, hid, ?_⟩
  rw [hF, hq]
  refine gain_upto hadm h.built.nodes ho hx hl ht hr hio.type q n hn h1 h2 h3 ?_
  intro m hm hm1 hm2 hm3
  have hmr := hroute m hm hm1
  have hms := hm.2.1.1
  rw [hmr, hm2] at hms
  have hmF : m.stop.city.node.id ∈ F := by
    rw [hF, hq]
    exact List.mem_of_getElem? (i := m.pos) (by rw [List.getElem?_take_of_lt (by omega), hms])
  have hcan : m.CanBoard := by
    refine Or.inr ?_
    rw [hmr, hm2]
    intro hlast
    obtain ⟨j, hj, hje⟩ := List.getElem_of_mem (hsubF _ hmF)
    rw [List.getElem_take] at hje
    rw [List.length_take] at hj
    rw [List.getLast?_eq_getElem?] at hlast
    obtain ⟨ha, hb⟩ := List.getElem?_eq_some_iff.1 hlast
    have := (List.Nodup.getElem_inj_iff (hio.nodes D) (hi := by omega) (hj := ha)).1 (hje.trans hb.symm)
    omega
  have := gain_wanted hadm h.built.nodes h.built.ids hx hl ht times hm (by
    rw [hmr]
    rcases hsh with hsh | hsh
    · exact Or.inl hsh
    · exact Or.inr (hsh m hm hmr hcan))
  rw [hmr, hm2] at this
  exact this

/-! ## boardings -/

/-- the boardings found at the nodes of a line are all of them -/
theorem LastRun.boards (h : LastRun g d pas net fr fin t) (times : Dict Str K) {r : Route K} (hr : r ∈ net.routes) {D : Dir}
    {nodes : List Int} (hn : nodes.Nodup) (hsub : ∀ a ∈ r.stopsOf D, a ∈ nodes) :
    (nodes.map (boardAt (getCycleTime t.z t.v net.routes times).z r.id D)).sum = total t.z fun k => k.1 = r.id ∧ k.2.1 = D := by
  classical
  obtain ⟨_, _, _, _, hadm, hx, hl, ht⟩ := h.facts
  obtain ⟨kz, kv⟩ := C50_applies hadm h.built.nodes hx hl ht
  obtain ⟨hz, _, _⟩ := C50_tables_unchanged kz kv net.routes times
  obtain ⟨hnd, hsubk⟩ := getCycleTime_keys kz kv net.routes times
  have hw := h.keys times
  obtain ⟨S, hS, hmem⟩ : ∃ S : List (LoadKey K), S.Nodup ∧ ∀ k, k ∈ S ↔ k ∈ Dict.keys t.z ∨ k ∈ Dict.keys t.v :=
    ⟨(Dict.keys t.z ++ Dict.keys t.v).dedup, List.nodup_dedup _, fun k => by rw [List.mem_dedup, List.mem_append]⟩
  have hnode : ∀ s ∈ stopsIn (getCycleTime t.z t.v net.routes times).z r.id D, ∃ n : RouteNode K, n.Wanted g net.routes ∧
      n.route = r ∧ n.dir = D ∧ n.stop = s := by
    intro s hs
    obtain ⟨n, hn, hkey⟩ := hw _ ((mem_stopsIn _ _ _ _).1 hs)
    unfold RouteNode.key at hkey
    simp only [Prod.mk.injEq] at hkey
    exact ⟨n, hn, route_of_id h.built.ids (List.mem_of_getElem? hn.1) hr hkey.1, hkey.2.1, hkey.2.2⟩
  have he : (fun i => boardAt (getCycleTime t.z t.v net.routes times).z r.id D i) = fun i =>
      (((stopsIn (getCycleTime t.z t.v net.routes times).z r.id D).find? fun s => decide (s.city.node.id = i)).map
        fun s => (getCycleTime t.z t.v net.routes times).z.getD (r.id, D, s) 0).getD 0 := by
    funext i
    exact boardAt_eq _ _ _ _
  rw [show nodes.map (boardAt (getCycleTime t.z t.v net.routes times).z r.id D) = nodes.map
    (fun i => boardAt (getCycleTime t.z t.v net.routes times).z r.id D i) from rfl, he,
    sum_find hn (nodup_stopsIn hnd _ _) ?_ ?_, sum_stopsIn hS ⟨hnd, fun k hk => (hmem k).2 (hsubk k hk)⟩,
    total_eq_sumOver hS ⟨kz, fun k hk => (hmem k).2 (Or.inl hk)⟩]
  · simp only [hz]
  · intro s hs s' hs' hid
    obtain ⟨n, hn, h1, _, h3⟩ := hnode s hs
    obtain ⟨n', hn', h1', _, h3'⟩ := hnode s' hs'
    rw [← h3, ← h3'] at hid ⊢
    exact (stop_unique h.built.nodes h.built.ids hn hn' (by rw [h1, h1'])).2 hid
  · intro s hs
    obtain ⟨n, hn, h1, h2, h3⟩ := hnode s hs
    have := hn.2.1.1
    rw [h1, h2, h3] at this
    exact hsub _ (List.mem_of_getElem? this)

theorem total_dirs {z : Dict (LoadKey K) K} (hz : (Dict.keys z).Nodup) (id : Str) :
    total z (fun k => k.1 = id ∧ k.2.1 = .I) + total z (fun k => k.1 = id ∧ k.2.1 = .R) = total z fun k => k.1 = id := by
  have hk : KeysIn (Dict.keys z) z := ⟨hz, fun k hk => hk⟩
  rw [total_eq_sumOver hz hk, total_eq_sumOver hz hk, total_eq_sumOver hz hk, sumOver_dirs]

/-- a total of 0 without negative entries -/
theorem total_zero {z : Dict (LoadKey K) K} (hz : (Dict.keys z).Nodup) (h0 : ∀ k, 0 ≤ z.getD k 0) (P : LoadKey K → Prop)
    [DecidablePred P] : 0 ≤ total z P ∧ (total z P = 0 → ∀ k, P k → z.getD k 0 = 0) := by
  have hnn : ∀ c ∈ ((z.filter fun p => decide (P p.1)).map Prod.snd), 0 ≤ c := by
    intro c hc
    obtain ⟨p, hp, rfl⟩ := List.mem_map.1 hc
    have := Dict.get?_of_mem z hz (show (p.1, p.2) ∈ z from (List.mem_filter.1 hp).1)
    have h1 := h0 p.1
    rw [Dict.getD, this] at h1
    exact h1
  refine ⟨List.sum_nonneg hnn, fun h k hk => ?_⟩
  cases hg : z.get? k with
  | none => rw [Dict.getD, hg]; rfl
  | some c =>
    rw [Dict.getD, hg]
    have hm : (k, c) ∈ z := Dict.mem_of_get? z hg
    have hc : c ∈ ((z.filter fun p => decide (P p.1)).map Prod.snd) :=
      List.mem_map.2 ⟨(k, c), List.mem_filter.2 ⟨hm, by simpa using hk⟩, rfl⟩
    exact le_antisymm (h ▸ List.single_le_sum hnn c hc) (hnn c hc)

/-- the load of the fullest section is that of some section, or 0 -/
theorem fullest_spec (load : Dict (LoadKey K) K) (id : Str) : 0 ≤ fullest load id ∧ (∀ p ∈ load, p.1.1 = id → p.2 ≤ fullest load id) ∧
    (fullest load id = 0 ∨ ∃ p ∈ load, p.1.1 = id ∧ p.2 = fullest load id) := by
  unfold fullest
  have : ∀ l : List K, 0 ≤ l.foldr max 0 ∧ (∀ y ∈ l, y ≤ l.foldr max 0) ∧ (l.foldr max 0 = 0 ∨ l.foldr max 0 ∈ l) := by
    intro l
    induction l with
    | nil => exact ⟨le_refl _, by simp, Or.inl rfl⟩
    | cons a l ih =>
      rw [List.foldr_cons]
      refine ⟨le_max_of_le_right ih.1, ?_, ?_⟩
      · intro y hy
        rcases List.mem_cons.1 hy with rfl | hy
        · exact le_max_left _ _
        · exact (ih.2.1 y hy).trans (le_max_right _ _)
      · rcases max_choice a (l.foldr max 0) with h | h
        · rw [h]; exact Or.inr (by simp)
        · rw [h]
          rcases ih.2.2 with h' | h'
          · exact Or.inl h'
          · exact Or.inr (by simp [h'])
  obtain ⟨h1, h2, h3⟩ := this ((load.filter fun p : LoadKey K × K => decide (p.1.1 = id)).map Prod.snd)
  refine ⟨h1, ?_, ?_⟩
  · intro p hp hid
    exact h2 _ (List.mem_map.2 ⟨p, List.mem_filter.2 ⟨hp, by simpa using hid⟩, rfl⟩)
  · rcases h3 with h3 | h3
    · exact Or.inl h3
    · obtain ⟨p, hp, he⟩ := List.mem_map.1 h3
      exact Or.inr ⟨p, (List.mem_filter.1 hp).1, by simpa using (List.mem_filter.1 hp).2, he⟩

theorem LastRun.nodup_load (h : LastRun g d pas net fr fin t) : (Dict.keys t.load).Nodup := by
  obtain ⟨_, _, _, _, hadm, hx, hl, ht⟩ := h.facts
  obtain ⟨t', r', h', hT, hrt, _⟩ := getLoads_spec (hl.ok hadm h.built.nodes hx)
  rw [ht] at h'
  cases h'
  rw [hrt]
  simp only [keys_perVehicle]
  exact hT.kl

/-- a line that is not circular and has passengers has boardings -/
theorem LastRun.boardings_pos (h : LastRun g d pas net fr fin t) (hs : Sensible g d pas) (ho : StopsOnce net.routes)
    {r : Route K} (hr : r ∈ net.routes) (hc : r.type ≠ .circular) (hk : 0 < fullest t.load r.id) :
    0 < total t.z fun k => k.1 = r.id := by
  obtain ⟨_, _, _, _, hadm, hx, hl, ht⟩ := h.facts
  obtain ⟨kz, kv⟩ := C50_applies hadm h.built.nodes hx hl ht
  have hnn := C44_nonneg hadm h.built.nodes hx hl ht h.nonneg (h.trips hs)
  have hdir := total_dirs kz r.id
  by_contra hneg
  have h0 := (total_zero kz (fun k => (hnn k).1) fun k => k.1 = r.id).1
  have hzI := (total_zero kz (fun k => (hnn k).1) fun k => k.1 = r.id ∧ k.2.1 = .I)
  have hzR := (total_zero kz (fun k => (hnn k).1) fun k => k.1 = r.id ∧ k.2.1 = .R)
  have hz : ∀ D : Dir, total t.z (fun k => k.1 = r.id ∧ k.2.1 = D) = 0 := by
    intro D
    cases D with
    | I => linarith [hzI.1, hzR.1]
    | R => linarith [hzI.1, hzR.1]
  have hzv : ∀ (D : Dir) (k : LoadKey K), k.1 = r.id → k.2.1 = D → t.z.getD k 0 = 0 ∧ t.v.getD k 0 = 0 := by
    intro D k h1 h2
    refine ⟨(total_zero kz (fun k => (hnn k).1) fun k => k.1 = r.id ∧ k.2.1 = D).2 (hz D) k ⟨h1, h2⟩,
      (total_zero kv (fun k => (hnn k).2.1) fun k => k.1 = r.id ∧ k.2.1 = D).2 ?_ k ⟨h1, h2⟩⟩
    rw [← C44_line_balance hadm h.built.nodes hx hl ht]
    exact hz D
  obtain ⟨_, _, h3⟩ := fullest_spec t.load r.id
  rcases h3 with h3 | ⟨p, hp, hid, hval⟩
  · rw [h3] at hk; exact lt_irrefl _ hk
  · have hpk : p.1 ∈ Dict.keys t.load := List.mem_map.2 ⟨p, hp, rfl⟩
    obtain ⟨n, _, hn, _, _, hkey⟩ := (table_keys hadm h.built.nodes hx hl ht).2.2 p.1 hpk
    have hroute : n.route = r := route_of_id h.built.ids (List.mem_of_getElem? hn.1) hr (by rw [← hid, ← hkey]; rfl)
    have hr' := hn.1
    rw [hroute] at hr'
    have := gain_upto (w := fun _ => 0) hadm h.built.nodes ho hx hl ht hr' hc n.pos n hn rfl rfl rfl (by
      intro m hm hm1 hm2 _
      have hmr : m.route = r := by
        have := hm.1
        rw [hm1, hr'] at this
        exact (Option.some.inj this).symm
      obtain ⟨a, b⟩ := hzv m.dir m.key (by rw [← hmr]; rfl) rfl
      rw [a, b, sub_zero])
    rw [hkey, Dict.getD, Dict.get?_of_mem t.load h.nodup_load (show (p.1, p.2) ∈ t.load from hp)] at this
    simp only [List.map_const', List.sum_replicate, smul_zero, Option.getD_some] at this
    rw [← hval, ← this] at hk
    exact lt_irrefl _ hk

/-! ## the rows -/

theorem forall₂_at {α β : Type} {R : α → β → Prop} {l : List α} {m : List β} (h : List.Forall₂ R l m) {i : Nat} {a : α} {b : β}
    (ha : l[i]? = some a) (hb : m[i]? = some b) : R a b := by
  induction h generalizing i with
  | nil => cases ha
  | cons h _ ih =>
    cases i with
    | zero =>
      simp only [List.getElem?_cons_zero, Option.some.injEq] at ha hb
      rw [← ha, ← hb]; exact h
    | succ i => exact ih (by simpa using ha) (by simpa using hb)

/-- what is known about the streets of the lines and the way passengers board -/
structure Layout (g : Graph K) (net : Network K) (n : Nat) (A B : Route K → List (Node K)) : Prop where
  city : CityShape g n
  boarding : ∀ r ∈ net.routes, r.mode.bya = 0 ∨ r.mode.bya = 1
  out : ∀ r ∈ net.routes, (∀ a ∈ A r, a ∈ g.nodes) ∧ (A r).map Node.id = r.nodesI ∧ OnStreets g r.nodesI
  back : ∀ r ∈ net.routes, (∀ a ∈ B r, a ∈ g.nodes) ∧ (B r).map Node.id = r.nodesR ∧ OnStreets g r.nodesR

theorem LastRun.cycle (h : LastRun g d pas net fr fin t) {n : Nat} {A B : Route K → List (Node K)} (hy : Layout g net n A B) :
    ∃ times, linesTravelTime net.routes g.edgesDistance = .ok times ∧ ∀ T : List (LoadKey K), T.Nodup →
      (∀ k ∈ Dict.keys t.z, k ∈ T) → (∀ k ∈ Dict.keys t.v, k ∈ T) → ∀ r ∈ net.routes,
      (getCycleTime t.z t.v net.routes times).time.getD r.id 0 = cycleOf t.z t.v T A B r := by
  obtain ⟨_, _, _, _, hadm, hx, hl, ht⟩ := h.facts
  obtain ⟨hz, hv'⟩ := C50_applies hadm h.built.nodes hx hl ht
  obtain ⟨times, htimes, htime⟩ := C49_travel_time hy.city h.built.nodes h.built.ids (fun r hr => (h.built.adm.modes r hr).speed)
  refine ⟨times, htimes, ?_⟩
  intro T hT hTz hTv r hr
  obtain ⟨h0, h1⟩ := C50_cycle_time hz hv' h.built.ids times hT hTz hTv hr
  have htr : times.getD r.id 0 = (travelled (A r) + travelled (B r)) / r.mode.v := by
    rw [Dict.getD, htime r hr (A r) (B r) (hy.out r hr).1 (hy.back r hr).1 (hy.out r hr).2.1 (hy.back r hr).2.1
      (hy.out r hr).2.2 (hy.back r hr).2.2]
    rfl
  rw [Dict.getD, cycleOf, standing]
  rcases hy.boarding r hr with hb0 | hb1
  · rw [h0 hb0, if_pos hb0, ← htr]; rfl
  · rw [h1 hb1, if_neg (by rw [hb1]; decide), ← htr]; rfl

theorem LastRun.rows_eq (h : LastRun g d pas net fr fin t) {rows : List (Row K)} (hrows : fin.rows fr t = .ok rows) :
    ∃ times, linesTravelTime net.routes g.edgesDistance = .ok times ∧
      List.Forall₂ (fun r row => rowOf (getCycleTime t.z t.v net.routes times) t.load fr (getK t.load) r = .ok row)
        net.routes rows := by
  obtain ⟨e1, _, _, e4, _⟩ := h.facts
  unfold Optimizer.rows at hrows
  rw [e1, e4] at hrows
  obtain ⟨times, ht, hm⟩ := py_bind_eq_ok.1 hrows
  exact ⟨times, ht, (mapM_forall₂ _ _ _).1 hm⟩

theorem chargesOf_length {l : List K} {m : K} {n : Nat} {c : List K} (h : chargesOf l m n = .ok c) : c.length = n := by
  have := ((mapM_forall₂ _ _ _).1 h).length_eq
  simpa using this.symm

/-- the row of a circular line, but for the charges and the cost -/
theorem circularRow_ok {c : Cycles K} {load : Dict (LoadKey K) K} {f k : Dict Str K} {r : Route K} {row : Row K}
    (h : circularRow c load f k r = .ok row) : row.id = r.id ∧ row.f = f.getD r.id 0 ∧ row.perLine = f.getD r.id 0 / (r.mode.d : K) ∧
      row.k = k.getD r.id 0 ∧ row.fleet = c.time.getD r.id 0 * f.getD r.id 0 ∧ row.minutes = c.time.getD r.id 0 * 60 ∧
      ∃ (D : Dir) (m : K × List K) (charges : List K), D = (if r.nodesI = [] then .R else .I) ∧
        circularMin (loadsAlong load r.id D (r.nodesOf D)) (r.nodesOf D).length = .ok m ∧
        chargesOf m.2 (maxOf m.2) (r.nodesOf D).length = .ok charges ∧
        circularCost r c.time f k ((r.nodesOf D).foldl (fun b i => b + boardAt c.z r.id D i) 0) = .ok row.co ∧
        row.leastLoad = ((|m.1| : K) : WithTop K) ∧
        ∀ D', row.table D' = if D' = D then sections (r.nodesOf D) charges else [] := by
  unfold circularRow at h
  obtain ⟨co, hco, h⟩ := py_bind_eq_ok.1 h
  obtain ⟨m, hm, h⟩ := py_bind_eq_ok.1 h
  obtain ⟨charges, hch, h⟩ := py_bind_eq_ok.1 h
  obtain ⟨per, hper, h⟩ := py_bind_eq_ok.1 h
  obtain ⟨_, hper⟩ := pyDiv_eq_ok.1 hper
  cases h
  refine ⟨rfl, rfl, hper, rfl, rfl, rfl, ?_⟩
  by_cases hI : r.nodesI = []
  · have hlen : decide (r.nodesI.length > 0) = false := by simp [hI]
    rw [hlen] at hco hm hch
    refine ⟨.R, m, charges, by rw [if_pos hI], hm, hch, hco, rfl, ?_⟩
    intro D'
    cases D' with
    | I => simp [Row.table, hI]
    | R => simp [Row.table, hI, Route.nodesOf]
  · have hlen : decide (r.nodesI.length > 0) = true := by simpa using List.length_pos_iff.2 hI
    rw [hlen] at hco hm hch
    refine ⟨.I, m, charges, by rw [if_neg hI], hm, hch, hco, rfl, ?_⟩
    intro D'
    cases D' with
    | I => simp [Row.table, Route.nodesOf, List.length_pos_iff.2 hI]
    | R => simp [Row.table, List.length_pos_iff.2 hI]

/-- C60: one row per line, in the order of the network.  A line that does not run has zeros; the others their frequency, the
frequency of each of the parallel lines, the passengers on the fullest section as capacity, the vehicles needed and the minutes
of a cycle.  The sections are those between successive nodes. -/
theorem C60_rows (h : LastRun g d pas net fr fin t) {n : Nat} {A B : Route K → List (Node K)} (hy : Layout g net n A B)
    {T : List (LoadKey K)} (hT : T.Nodup) (hTz : ∀ k ∈ Dict.keys t.z, k ∈ T) (hTv : ∀ k ∈ Dict.keys t.v, k ∈ T)
    {rows : List (Row K)} (hrows : fin.rows fr t = .ok rows) :
    rows.map Row.id = net.routes.map Route.id ∧ ∀ (i : Nat) (r : Route K) (row : Row K), net.routes[i]? = some r →
      rows[i]? = some row →
      (fr.getD r.id 0 = 0 → row.f = 0 ∧ row.perLine = 0 ∧ row.k = 0 ∧ row.fleet = 0 ∧ row.minutes = 0 ∧ row.co = 0 ∧
        row.leastLoad = ((0 : K) : WithTop K) ∧ ∀ D, ∀ s ∈ row.table D, s.2.2 = 0) ∧
      (fr.getD r.id 0 ≠ 0 → row.f = fr.getD r.id 0 ∧ row.perLine * (r.mode.d : K) = row.f ∧ row.k = fullest t.load r.id ∧
        row.fleet = row.f * cycleOf t.z t.v T A B r ∧ row.minutes = 60 * cycleOf t.z t.v T A B r) ∧
      ((r.type = .circular → r.nodesI = [] ∨ r.nodesR = []) →
        ∀ D, ((row.table D).map fun s => (s.1, s.2.1)) = pairs (r.nodesOf D)) := by
  obtain ⟨times', ht', hf2⟩ := h.rows_eq hrows
  obtain ⟨times, htimes, hcyc⟩ := h.cycle hy
  rw [htimes] at ht'
  have heq := Except.ok.inj ht'
  subst heq
  have hcyc := hcyc T hT hTz hTv
  -- the three kinds of rows
  have hcases : ∀ (r : Route K) (row : Row K), r ∈ net.routes →
      rowOf (getCycleTime t.z t.v net.routes times) t.load fr (getK t.load) r = .ok row →
      (fr.getD r.id 0 = 0 ∧ row = idleRow r) ∨
      (fr.getD r.id 0 ≠ 0 ∧ r.type = .circular ∧
        circularRow (getCycleTime t.z t.v net.routes times) t.load fr (getK t.load) r = .ok row) ∨
      (fr.getD r.id 0 ≠ 0 ∧ r.type ≠ .circular ∧ row = plainRow (getCycleTime t.z t.v net.routes times) fr (getK t.load) r) := by
    intro r row hr hrow
    unfold rowOf at hrow
    have hnn := h.nonneg r.id
    by_cases hf : fr.getD r.id 0 > 0
    · rw [if_pos hf] at hrow
      by_cases hc : r.type = .circular
      · rw [if_pos hc] at hrow
        exact Or.inr (Or.inl ⟨hf.ne', hc, hrow⟩)
      · rw [if_neg hc] at hrow
        refine Or.inr (Or.inr ⟨hf.ne', hc, ?_⟩)
        rcases twoWayRow_cases (getCycleTime t.z t.v net.routes times) fr (getK t.load) r (h.built.adm.modes r hr).lines.ne' with
          ⟨_, _, e⟩ | ⟨_, e⟩
        · rw [e] at hrow; cases hrow; rfl
        · rw [e] at hrow; cases hrow
    · rw [if_neg hf] at hrow
      cases hrow
      exact Or.inl ⟨le_antisymm (not_lt.1 hf) hnn, rfl⟩
  refine ⟨?_, ?_⟩
  · have : ∀ (l : List (Route K)) (m : List (Row K)), (∀ r ∈ l, r ∈ net.routes) →
        List.Forall₂ (fun r row => rowOf (getCycleTime t.z t.v net.routes times) t.load fr (getK t.load) r = .ok row) l m →
        m.map Row.id = l.map Route.id := by
      intro l m hl hf
      induction hf with
      | nil => rfl
      | @cons r row l m hrow _ ih =>
        rw [List.map_cons, List.map_cons, ih fun r hr => hl r (by simp [hr])]
        congr 1
        rcases hcases r row (hl r (by simp)) hrow with ⟨_, rfl⟩ | ⟨_, _, e⟩ | ⟨_, _, rfl⟩
        · rfl
        · exact (circularRow_ok e).1
        · rfl
    exact this _ _ (fun _ h => h) hf2
  · intro i r row hi hrow
    have hr : r ∈ net.routes := List.mem_of_getElem? hi
    have hd : (r.mode.d : K) ≠ 0 := (h.built.adm.modes r hr).lines.ne'
    rcases hcases r row hr (forall₂_at hf2 hi hrow) with ⟨h0, rfl⟩ | ⟨h0, hc, e⟩ | ⟨h0, hc, rfl⟩
    · refine ⟨fun _ => ⟨rfl, rfl, rfl, rfl, rfl, rfl, rfl, ?_⟩, fun h1 => absurd h0 h1, fun _ D => ?_⟩
      · have : ∀ (nodes : List Int), ∀ s ∈ sections nodes (List.replicate nodes.length (0 : K)), s.2.2 = 0 := by
          intro nodes s hs
          unfold sections at hs
          obtain ⟨j, hj, he⟩ := List.getElem_of_mem hs
          rw [List.getElem_zipWith, List.getElem_replicate] at he
          rw [← he]
          exact abs_zero
        intro D
        cases D with
        | I => exact this _
        | R => exact this _
      · cases D with
        | I => exact sections_pairs (by simp)
        | R => exact sections_pairs (by simp)
    · obtain ⟨_, e2, e3, e4, e5, e6, D, m, charges, hD, _, hch, _, _, htab⟩ := circularRow_ok e
      refine ⟨fun h1 => absurd h1 h0, fun _ => ⟨e2, ?_, ?_, ?_, ?_⟩, fun hone D' => ?_⟩
      · rw [e3, e2, div_mul_cancel₀ _ hd]
      · rw [e4, getK_eq]
      · rw [e5, e2, hcyc r hr, mul_comm]
      · rw [e6, hcyc r hr, mul_comm]
      · rw [htab D']
        by_cases hDD : D' = D
        · rw [if_pos hDD, hDD]
          exact sections_pairs (chargesOf_length hch)
        · rw [if_neg hDD]
          have : r.nodesOf D' = [] := by
            by_cases hI : r.nodesI = []
            · rw [if_pos hI] at hD
              cases D' with
              | I => exact hI
              | R => exact absurd hD.symm hDD
            · rw [if_neg hI] at hD
              cases D' with
              | I => exact absurd hD.symm hDD
              | R => exact (hone hc).resolve_left hI
          rw [this]; rfl
    · refine ⟨fun h1 => absurd h1 h0, fun _ => ⟨rfl, ?_, getK_eq _ _, ?_, ?_⟩, fun _ D => ?_⟩
      · exact div_mul_cancel₀ _ hd
      · show (getCycleTime t.z t.v net.routes times).time.getD r.id 0 * fr.getD r.id 0 = fr.getD r.id 0 * _
        rw [hcyc r hr, mul_comm]
      · show (getCycleTime t.z t.v net.routes times).time.getD r.id 0 * 60 = _
        rw [hcyc r hr, mul_comm]
      · cases D with
        | I => exact sections_pairs (by simp [chargesIn, Route.nodesOf])
        | R => exact sections_pairs (by simp [chargesIn, Route.nodesOf])

theorem plainRow_table (c : Cycles K) (f k : Dict Str K) (r : Route K) (D : Dir) :
    (plainRow c f k r).table D = sections (r.nodesOf D) (chargesIn c (k.getD r.id 0) r D) := by
  cases D <;> rfl

/-- the row of a running line that is not circular -/
theorem LastRun.plain (h : LastRun g d pas net fr fin t) {rows : List (Row K)} (hrows : fin.rows fr t = .ok rows) {i : Nat}
    {r : Route K} {row : Row K} (hi : net.routes[i]? = some r) (hrow : rows[i]? = some row) (hc : r.type ≠ .circular)
    (hf : fr.getD r.id 0 ≠ 0) : ∃ times, linesTravelTime net.routes g.edgesDistance = .ok times ∧
      fullest t.load r.id ≠ 0 ∧ (boardsIn (getCycleTime t.z t.v net.routes times) r .I +
        boardsIn (getCycleTime t.z t.v net.routes times) r .R) * fr.getD r.id 0 ≠ 0 ∧
      row = plainRow (getCycleTime t.z t.v net.routes times) fr (getK t.load) r := by
  obtain ⟨times, ht, hf2⟩ := h.rows_eq hrows
  have hr : r ∈ net.routes := List.mem_of_getElem? hi
  have e := forall₂_at hf2 hi hrow
  unfold rowOf at e
  rw [if_pos (lt_of_le_of_ne (h.nonneg r.id) (Ne.symm hf)), if_neg hc] at e
  refine ⟨times, ht, ?_⟩
  rcases twoWayRow_cases (getCycleTime t.z t.v net.routes times) fr (getK t.load) r (h.built.adm.modes r hr).lines.ne' with
    ⟨h1, h2, e'⟩ | ⟨_, e'⟩
  · rw [e'] at e
    rw [getK_eq] at h1
    exact ⟨h1, h2, (Except.ok.inj e).symm⟩
  · rw [e'] at e; cases e

/-- an entry of the loads is not larger than the fullest one -/
theorem load_le_fullest {n : RouteNode K} {r : Route K} (hn : n.route = r) :
    t.load.getD n.key 0 ≤ fullest t.load r.id := by
  obtain ⟨h1, h2, _⟩ := fullest_spec t.load r.id
  cases hg : t.load.get? n.key with
  | none => rw [Dict.getD, hg]; exact h1
  | some c =>
    rw [Dict.getD, hg]
    exact h2 (n.key, c) (Dict.mem_of_get? _ hg) (by rw [← hn]; rfl)

/-- C60: the loads of the sections of a running line that is not circular.  A section has the share of the capacity that is
taken by the passengers who leave the last stop before it; before the first stop there is nobody.  The statement needs that the
tables show all alightings, see `C60_alighting_missed`. -/
theorem C60_loads_partial (h : LastRun g d pas net fr fin t) (hs : Sensible g d pas) (ho : StopsOnce net.routes)
    {rows : List (Row K)} (hrows : fin.rows fr t = .ok rows) {i : Nat} {r : Route K} {row : Row K}
    (hi : net.routes[i]? = some r) (hrow : rows[i]? = some row) (hio : r.InOrder) (hf : fr.getD r.id 0 ≠ 0)
    (hsh : r.Shown g net.routes t) : 0 < row.k ∧ ∀ (D : Dir) (j : Nat) (a b : Int), (pairs (r.nodesOf D))[j]? = some (a, b) →
      ∃ c, (row.table D)[j]? = some (a, b, c) ∧ 0 ≤ c ∧ c ≤ 1 ∧
        (lastStopBy (r.stopsOf D) (r.nodesOf D) j = none → c = 0) ∧
        ∀ s, lastStopBy (r.stopsOf D) (r.nodesOf D) j = some s → ∃ n : RouteNode K, n.Wanted g net.routes ∧ n.ridx = i ∧
          n.dir = D ∧ n.stop.city.node.id = s ∧ c * row.k = t.load.getD n.key 0 := by
  obtain ⟨times, _, hk, _, rfl⟩ := h.plain hrows hi hrow hio.type hf
  obtain ⟨_, _, _, _, hadm, hx, hl, ht⟩ := h.facts
  have hkpos : 0 < fullest t.load r.id := lt_of_le_of_ne (fullest_spec t.load r.id).1 (Ne.symm hk)
  have hkey : (plainRow (getCycleTime t.z t.v net.routes times) fr (getK t.load) r).k = fullest t.load r.id := getK_eq _ _
  refine ⟨by rw [hkey]; exact hkpos, ?_⟩
  intro D j a b hp
  have hj : j + 1 < (r.nodesOf D).length := by
    obtain ⟨h1, _⟩ := List.getElem?_eq_some_iff.1 hp
    rw [length_pairs] at h1
    omega
  obtain ⟨s1, s2⟩ := h.section ho times hi hio hsh hj
  rw [plainRow_table, hkey]
  have hc : (chargesIn (getCycleTime t.z t.v net.routes times) ((getK t.load).getD r.id 0) r D)[j]? =
      some ((((r.nodesOf D).take (j + 1)).map (gainAt (getCycleTime t.z t.v net.routes times).z
        (getCycleTime t.z t.v net.routes times).v r.id D)).sum / fullest t.load r.id) := by
    unfold chargesIn
    rw [List.getElem?_map, List.getElem?_range (by omega), getK_eq]
    rfl
  have hget := sections_get hp hc
  generalize (((r.nodesOf D).take (j + 1)).map (gainAt (getCycleTime t.z t.v net.routes times).z
    (getCycleTime t.z t.v net.routes times).v r.id D)).sum = S at s1 s2 hget
  have hS : 0 ≤ S ∧ S ≤ fullest t.load r.id := by
    cases hls : lastStopBy (r.stopsOf D) (r.nodesOf D) j with
    | none => rw [s1 hls]; exact ⟨le_refl _, hkpos.le⟩
    | some s =>
      obtain ⟨n, hn, hn1, _, _, e⟩ := s2 s hls
      rw [e]
      refine ⟨(C44_nonneg hadm h.built.nodes hx hl ht h.nonneg (h.trips hs) n.key).2.2, load_le_fullest ?_⟩
      have := hn.1
      rw [hn1, hi] at this
      exact (Option.some.inj this).symm
  have habs : |S / fullest t.load r.id| = S / fullest t.load r.id := abs_of_nonneg (div_nonneg hS.1 hkpos.le)
  rw [habs] at hget
  refine ⟨_, hget, div_nonneg hS.1 hkpos.le, (div_le_one hkpos).2 hS.2, ?_, ?_⟩
  · intro hn
    rw [s1 hn, zero_div]
  · intro s hls
    obtain ⟨n, hn, hn1, hn2, hn3, e⟩ := s2 s hls
    exact ⟨n, hn, hn1, hn2, hn3, by rw [div_mul_cancel₀ _ hk, e]⟩

/-! ### the fullest and the emptiest section -/

theorem getElem?_pairs {α : Type} : ∀ (l : List α) (j : Nat) (a b : α), l[j]? = some a → l[j + 1]? = some b →
    (pairs l)[j]? = some (a, b)
  | [], j, a, b, h, _ => by cases h
  | [_], j, a, b, _, h => by simp at h
  | x :: y :: l, 0, a, b, h1, h2 => by
    simp only [List.getElem?_cons_zero, List.getElem?_cons_succ, Option.some.injEq] at h1 h2
    rw [pairs, h1, h2]; rfl
  | x :: y :: l, j + 1, a, b, h1, h2 => by
    rw [pairs, List.getElem?_cons_succ]
    exact getElem?_pairs (y :: l) j a b (by simpa using h1) (by simpa using h2)

/-- an element of a part of a list that is not the last of the part is not the last of the list -/
theorem not_last_of_sublist {s l : List Int} (h : s.Sublist l) {p : Nat} {a b : Int} (ha : s[p]? = some a)
    (hb : s[p + 1]? = some b) : ∃ j c, l[j]? = some a ∧ l[j + 1]? = some c := by
  obtain ⟨f, hf⟩ := List.sublist_iff_exists_orderEmbedding_getElem?_eq.1 h
  have h1 := hf p
  have h2 := hf (p + 1)
  rw [ha] at h1
  rw [hb] at h2
  have hlt : f p < f (p + 1) := f.strictMono (Nat.lt_succ_self p)
  obtain ⟨h3, _⟩ := List.getElem?_eq_some_iff.1 h2.symm
  exact ⟨f p, l[f p + 1]'(by omega), h1.symm, List.getElem?_eq_getElem _⟩

theorem lastStopBy_at {stops nodes : List Int} {j : Nat} {a : Int} (h : nodes[j]? = some a) (ha : a ∈ stops) :
    lastStopBy stops nodes j = some a := by
  unfold lastStopBy
  rw [List.take_add_one, h, List.filter_append]
  simp [ha]

theorem sections_charges {nodes : List Int} {charges : List K} (h : charges.length = nodes.length) :
    (sections nodes charges).map (fun s => s.2.2) = charges.dropLast.map fun c => |c| := by
  unfold sections
  rw [List.map_zipWith, List.dropLast_eq_take]
  have : (pairs nodes).length = charges.length - 1 := by rw [length_pairs, h]
  rw [← this]
  generalize pairs nodes = p
  clear this h
  induction p generalizing charges with
  | nil => simp
  | cons a l ih =>
    cases charges with
    | nil => simp
    | cons b m => simp [ih]

/-- C60: in the row of a running line that is not circular some section is full, and the least load is that of some section and
not larger than that of any -/
theorem C60_extremes_partial (h : LastRun g d pas net fr fin t) (hs : Sensible g d pas) (ho : StopsOnce net.routes)
    {rows : List (Row K)} (hrows : fin.rows fr t = .ok rows) {i : Nat} {r : Route K} {row : Row K}
    (hi : net.routes[i]? = some r) (hrow : rows[i]? = some row) (hio : r.InOrder) (hf : fr.getD r.id 0 ≠ 0)
    (hsh : r.Shown g net.routes t) : (∃ D, ∃ s ∈ row.table D, s.2.2 = 1) ∧
      (∀ D, ∀ s ∈ row.table D, row.leastLoad ≤ (s.2.2 : WithTop K)) ∧ ∃ D, ∃ s ∈ row.table D, row.leastLoad = (s.2.2 : WithTop K) := by
  obtain ⟨hpos, hsec⟩ := C60_loads_partial h hs ho hrows hi hrow hio hf hsh
  obtain ⟨times, _, hk, _, hplain⟩ := h.plain hrows hi hrow hio.type hf
  obtain ⟨_, _, _, _, hadm, hx, hl, ht⟩ := h.facts
  have hr : r ∈ net.routes := List.mem_of_getElem? hi
  have hrk : row.k = fullest t.load r.id := by rw [hplain]; exact getK_eq _ _
  -- a full section
  have hfull : ∃ D, ∃ s ∈ row.table D, s.2.2 = 1 := by
    rcases (fullest_spec t.load r.id).2.2 with h0 | ⟨p, hp, hid, hval⟩
    · exact absurd h0 hk
    · obtain ⟨n, m, hn, hm, hpre, hkey⟩ := (table_keys hadm h.built.nodes hx hl ht).2.2 p.1 (List.mem_map.2 ⟨p, hp, rfl⟩)
      have hnid : n.route.id = r.id := by rw [← hid, ← hkey]; rfl
      have hroute : n.route = r := route_of_id h.built.ids (List.mem_of_getElem? hn.1) hr hnid
      have hmr : m.route = r := by
        have h1 := hn.1
        have h2 := hm.1
        rw [← hpre.1, h1] at h2
        rw [← Option.some.inj h2, hroute]
      obtain ⟨_, hdir, hbef⟩ := hpre
      rw [Route.stopBefore, if_neg (by rw [hmr]; exact hio.type)] at hbef
      have hmp : m.pos = n.pos + 1 := by
        split at hbef
        · cases hbef
        · have := Option.some.inj hbef; omega
      have hns := hn.2.1.1
      have hms := hm.2.1.1
      rw [hroute] at hns
      rw [hmr, hmp, ← hdir] at hms
      obtain ⟨j, c, hj, hj'⟩ := not_last_of_sublist (hio.order n.dir) hns hms
      obtain ⟨w, hw, _, _, _, hw'⟩ := hsec n.dir j _ _ (getElem?_pairs _ _ _ _ hj hj')
      obtain ⟨n', hn', hn1, hn2, hn3, e⟩ := hw' _ (lastStopBy_at hj (List.mem_of_getElem? hns))
      have hn'r : n'.route = r := by
        have := hn'.1
        rw [hn1, hi] at this
        exact (Option.some.inj this).symm
      have hst := (stop_unique h.built.nodes h.built.ids hn' hn (by rw [hn'r, hroute])).2 hn3
      have : n'.key = p.1 := by rw [← hkey, RouteNode.key, RouteNode.key, hn'r, hroute, hn2, hst]
      rw [this, Dict.getD, Dict.get?_of_mem t.load h.nodup_load (show (p.1, p.2) ∈ t.load from hp), hrk] at e
      refine ⟨n.dir, _, List.mem_of_getElem? hw, ?_⟩
      have e' : w * fullest t.load r.id = 1 * fullest t.load r.id := by rw [e, one_mul]; exact hval
      exact mul_right_cancel₀ hk e'
  refine ⟨hfull, ?_⟩
  -- the charges of the sections
  have hcharge : ∀ D, ((row.table D).map fun s => s.2.2) =
      ((chargesIn (getCycleTime t.z t.v net.routes times) ((getK t.load).getD r.id 0) r D).dropLast).map fun c => |c| := by
    intro D
    rw [hplain, plainRow_table, sections_charges (by simp [chargesIn])]
  have hnn : ∀ D, ∀ c ∈ (chargesIn (getCycleTime t.z t.v net.routes times) ((getK t.load).getD r.id 0) r D).dropLast, 0 ≤ c := by
    intro D c hc
    obtain ⟨j, hj, rfl⟩ := List.getElem_of_mem hc
    have hj' : j + 1 < (r.nodesOf D).length := by
      rw [List.length_dropLast] at hj
      simp only [chargesIn, List.length_map, List.length_range] at hj
      omega
    rw [List.getElem_dropLast]
    unfold chargesIn
    rw [List.getElem_map, List.getElem_range, getK_eq]
    refine div_nonneg ?_ (by rw [← hrk]; exact hpos.le)
    obtain ⟨s1, s2⟩ := h.section ho times hi hio hsh hj'
    cases hls : lastStopBy (r.stopsOf D) (r.nodesOf D) j with
    | none => rw [s1 hls]
    | some s =>
      obtain ⟨n, _, _, _, _, e⟩ := s2 s hls
      rw [e]
      exact (C44_nonneg hadm h.built.nodes hx hl ht h.nonneg (h.trips hs) n.key).2.2
  have hmem : ∀ D c, c ∈ (chargesIn (getCycleTime t.z t.v net.routes times) ((getK t.load).getD r.id 0) r D).dropLast ↔
      ∃ s ∈ row.table D, s.2.2 = c := by
    intro D c
    have h1 : ((chargesIn (getCycleTime t.z t.v net.routes times) ((getK t.load).getD r.id 0) r D).dropLast).map (fun c => |c|) =
        (chargesIn (getCycleTime t.z t.v net.routes times) ((getK t.load).getD r.id 0) r D).dropLast := by
      conv_rhs => rw [← List.map_id (chargesIn (getCycleTime t.z t.v net.routes times) ((getK t.load).getD r.id 0) r D).dropLast]
      exact List.map_congr_left fun c hc => abs_of_nonneg (hnn D c hc)
    rw [← h1, ← hcharge D, List.mem_map]
  have hleast : row.leastLoad = absTop (((chargesIn (getCycleTime t.z t.v net.routes times) ((getK t.load).getD r.id 0) r .I).dropLast
      ++ (chargesIn (getCycleTime t.z t.v net.routes times) ((getK t.load).getD r.id 0) r .R).dropLast).foldl leastOf ⊤) := by
    rw [hplain]; rfl
  obtain ⟨_, l2, l3⟩ := leastOf_fold ((chargesIn (getCycleTime t.z t.v net.routes times) ((getK t.load).getD r.id 0) r .I).dropLast
      ++ (chargesIn (getCycleTime t.z t.v net.routes times) ((getK t.load).getD r.id 0) r .R).dropLast) ⊤
  have hin : ∀ D c, c ∈ (chargesIn (getCycleTime t.z t.v net.routes times) ((getK t.load).getD r.id 0) r D).dropLast →
      c ∈ (chargesIn (getCycleTime t.z t.v net.routes times) ((getK t.load).getD r.id 0) r .I).dropLast
        ++ (chargesIn (getCycleTime t.z t.v net.routes times) ((getK t.load).getD r.id 0) r .R).dropLast := by
    intro D c hc
    cases D with
    | I => exact List.mem_append_left _ hc
    | R => exact List.mem_append_right _ hc
  rcases l3 with l3 | ⟨c, hc, l3⟩
  · exfalso
    obtain ⟨D, s, hsm, _⟩ := hfull
    have := l2 _ (hin D _ ((hmem D _).2 ⟨s, hsm, rfl⟩))
    rw [l3] at this
    exact absurd (top_le_iff.1 this) (WithTop.coe_ne_top)
  · have hcD : ∃ D, c ∈ (chargesIn (getCycleTime t.z t.v net.routes times) ((getK t.load).getD r.id 0) r D).dropLast := by
      rcases List.mem_append.1 hc with hc | hc
      · exact ⟨.I, hc⟩
      · exact ⟨.R, hc⟩
    obtain ⟨D, hcD⟩ := hcD
    have hll : row.leastLoad = (c : WithTop K) := by
      rw [hleast, l3, absTop, WithTop.map_coe, abs_of_nonneg (hnn D c hcD)]
    refine ⟨?_, ?_⟩
    · intro D' s hsm
      have := l2 _ (hin D' _ ((hmem D' _).2 ⟨s, hsm, rfl⟩))
      rw [l3] at this
      rw [hll]
      exact this
    · obtain ⟨s, hsm, he⟩ := (hmem D c).1 hcD
      exact ⟨D, s, hsm, by rw [hll, he]⟩

/-- C60: the cost reported for a running line that is not circular is its operators' cost per passenger that boards it -/
theorem C60_cost (h : LastRun g d pas net fr fin t) {rows : List (Row K)} (hrows : fin.rows fr t = .ok rows) {i : Nat}
    {r : Route K} {row : Row K} (hi : net.routes[i]? = some r) (hrow : rows[i]? = some row) (hio : r.InOrder)
    (hf : fr.getD r.id 0 ≠ 0) : (total t.z fun k => k.1 = r.id) ≠ 0 ∧
      row.co * (row.f * total t.z fun k => k.1 = r.id) = (r.mode.co + r.mode.c1 * row.k) * row.fleet := by
  obtain ⟨times, _, hk, hb, rfl⟩ := h.plain hrows hi hrow hio.type hf
  obtain ⟨_, _, _, _, hadm, hx, hl, ht⟩ := h.facts
  obtain ⟨kz, _⟩ := C50_applies hadm h.built.nodes hx hl ht
  have hr : r ∈ net.routes := List.mem_of_getElem? hi
  have hB : ∀ D, boardsIn (getCycleTime t.z t.v net.routes times) r D = _ := fun D => h.boards times hr (hio.nodes D) fun a ha => (hio.order D).subset ha
  have hsum : boardsIn (getCycleTime t.z t.v net.routes times) r .I + boardsIn (getCycleTime t.z t.v net.routes times) r .R =
      total t.z fun k => k.1 = r.id := by rw [hB, hB, total_dirs kz]
  rw [hsum] at hb
  refine ⟨left_ne_zero_of_mul hb, ?_⟩
  show (r.mode.co + r.mode.c1 * (getK t.load).getD r.id 0) * fr.getD r.id 0 *
    (getCycleTime t.z t.v net.routes times).time.getD r.id 0 / ((boardsIn (getCycleTime t.z t.v net.routes times) r .I +
      boardsIn (getCycleTime t.z t.v net.routes times) r .R) * fr.getD r.id 0) * (fr.getD r.id 0 * total t.z fun k => k.1 = r.id) =
    (r.mode.co + r.mode.c1 * (getK t.load).getD r.id 0) * ((getCycleTime t.z t.v net.routes times).time.getD r.id 0 * fr.getD r.id 0)
  rw [hsum, mul_comm (fr.getD r.id 0) (total t.z fun k => k.1 = r.id), div_mul_cancel₀ _ hb]
  ring

theorem mapM_error {α β : Type} (F : α → Py β) (e : PyErr) : ∀ l : List α, (∀ a ∈ l, (∃ b, F a = .ok b) ∨ F a = .error e) →
    (∃ a ∈ l, F a = .error e) → l.mapM F = .error e
  | [], _, h => by obtain ⟨_, h, _⟩ := h; cases h
  | a :: l, hall, hex => by
    rw [mapM_cons]
    rcases hall a (by simp) with ⟨b, hb⟩ | hb
    · rw [hb, py_ok_bind, mapM_error F e l (fun a ha => hall a (by simp [ha])) ?_]
      · rfl
      · obtain ⟨a', ha', h'⟩ := hex
        rcases List.mem_cons.1 ha' with rfl | ha'
        · rw [hb] at h'; cases h'
        · exact ⟨a', ha', h'⟩
    · rw [hb]; rfl

/-- C60: for lines that are not circular the table exists if and only if every line that runs has passengers; otherwise a
division by zero ends the computation -/
theorem C60_defined_iff (h : LastRun g d pas net fr fin t) (hs : Sensible g d pas) (ho : StopsOnce net.routes) {n : Nat}
    {A B : Route K → List (Node K)} (hy : Layout g net n A B) (hio : ∀ r ∈ net.routes, r.InOrder) :
    ((∃ rows, fin.rows fr t = .ok rows) ↔ ∀ r ∈ net.routes, fr.getD r.id 0 ≠ 0 → 0 < fullest t.load r.id) ∧
    ((¬ ∃ rows, fin.rows fr t = .ok rows) → fin.rows fr t = .error .ZeroDivisionError) := by
  obtain ⟨e1, _, _, e4, hadm, hx, hl, ht⟩ := h.facts
  obtain ⟨kz, _⟩ := C50_applies hadm h.built.nodes hx hl ht
  obtain ⟨times, htimes, _⟩ := h.cycle hy
  have hrows : fin.rows fr t = net.routes.mapM (rowOf (getCycleTime t.z t.v net.routes times) t.load fr (getK t.load)) := by
    unfold Optimizer.rows
    rw [e1, e4, htimes, py_ok_bind]
  have hone : ∀ r ∈ net.routes,
      ((fr.getD r.id 0 ≠ 0 → 0 < fullest t.load r.id) ∧
        ∃ row, rowOf (getCycleTime t.z t.v net.routes times) t.load fr (getK t.load) r = .ok row) ∨
      (¬ (fr.getD r.id 0 ≠ 0 → 0 < fullest t.load r.id) ∧
        rowOf (getCycleTime t.z t.v net.routes times) t.load fr (getK t.load) r = .error .ZeroDivisionError) := by
    intro r hr
    unfold rowOf
    by_cases hf : fr.getD r.id 0 > 0
    · rw [if_pos hf, if_neg (hio r hr).type]
      have hB : ∀ D, boardsIn (getCycleTime t.z t.v net.routes times) r D = _ := fun D => h.boards times hr ((hio r hr).nodes D) fun a ha => ((hio r hr).order D).subset ha
      rcases twoWayRow_cases (getCycleTime t.z t.v net.routes times) fr (getK t.load) r (h.built.adm.modes r hr).lines.ne' with
        ⟨h1, _, e⟩ | ⟨h1, e⟩
      · rw [getK_eq] at h1
        exact Or.inl ⟨fun _ => lt_of_le_of_ne (fullest_spec t.load r.id).1 (Ne.symm h1), _, e⟩
      · refine Or.inr ⟨fun hpos => ?_, e⟩
        have hpos := hpos hf.ne'
        rcases h1 with h1 | h1
        · rw [getK_eq] at h1
          exact hpos.ne' h1
        · rw [hB, hB, total_dirs kz] at h1
          exact (mul_pos (h.boardings_pos hs ho hr (hio r hr).type hpos) hf).ne' h1
    · rw [if_neg hf]
      exact Or.inl ⟨fun h0 => absurd (lt_of_le_of_ne (h.nonneg r.id) (Ne.symm h0)) hf, _, rfl⟩
  have hiff : (∃ rows, fin.rows fr t = .ok rows) ↔ ∀ r ∈ net.routes, fr.getD r.id 0 ≠ 0 → 0 < fullest t.load r.id := by
    constructor
    · rintro ⟨rows, hrw⟩ r hr
      rcases hone r hr with ⟨h1, _⟩ | ⟨_, h1⟩
      · exact h1
      · rw [hrows] at hrw
        have hf2 := (mapM_forall₂ _ _ _).1 hrw
        obtain ⟨j, hj, he⟩ := List.getElem_of_mem hr
        have hj' : j < rows.length := by rw [← hf2.length_eq]; exact hj
        have := forall₂_at hf2 (i := j) (by rw [List.getElem?_eq_getElem hj, he]) (List.getElem?_eq_getElem hj')
        rw [h1] at this; cases this
    · intro hall
      rw [hrows]
      obtain ⟨m, hm, _⟩ := mapM_exists (f := rowOf (getCycleTime t.z t.v net.routes times) t.load fr (getK t.load))
        (P := fun _ _ => True) net.routes fun r hr => by
          rcases hone r hr with ⟨_, b, h1⟩ | ⟨h1, _⟩
          · exact ⟨b, h1, trivial⟩
          · exact absurd (hall r hr) h1
      exact ⟨m, hm⟩
  refine ⟨hiff, fun hno => ?_⟩
  rw [hrows]
  refine mapM_error _ _ _ (fun r hr => ?_) ?_
  · rcases hone r hr with ⟨_, h1⟩ | ⟨_, h1⟩
    · exact Or.inl h1
    · exact Or.inr h1
  · by_contra hnone
    refine hno (hiff.2 fun r hr => ?_)
    rcases hone r hr with ⟨h1, _⟩ | ⟨_, h1⟩
    · exact h1
    · exact absurd ⟨r, hr, h1⟩ hnone

/-! ## circular lines -/

theorem maxOf_spec {l : List K} (h : l ≠ []) : maxOf l ∈ l ∧ ∀ x ∈ l, x ≤ maxOf l := by
  cases l with
  | nil => exact absurd rfl h
  | cons a l =>
    have : ∀ (l : List K) (b : K), (l.foldl max b = b ∨ l.foldl max b ∈ l) ∧ b ≤ l.foldl max b ∧ ∀ x ∈ l, x ≤ l.foldl max b := by
      intro l
      induction l with
      | nil => exact fun b => ⟨Or.inl rfl, le_refl _, by simp⟩
      | cons c l ih =>
        intro b
        rw [List.foldl_cons]
        obtain ⟨h1, h2, h3⟩ := ih (max b c)
        refine ⟨?_, (le_max_left _ _).trans h2, ?_⟩
        · rcases h1 with h1 | h1
          · rw [h1]
            rcases max_choice b c with h | h
            · exact Or.inl h
            · rw [h]; exact Or.inr (by simp)
          · exact Or.inr (by simp [h1])
        · intro x hx
          rcases List.mem_cons.1 hx with rfl | hx
          · exact (le_max_right _ _).trans h2
          · exact h3 x hx
    obtain ⟨h1, h2, h3⟩ := this l a
    show l.foldl max a ∈ a :: l ∧ ∀ x ∈ a :: l, x ≤ l.foldl max a
    refine ⟨?_, ?_⟩
    · rcases h1 with h1 | h1
      · rw [h1]; simp
      · simp [h1]
    · intro x hx
      rcases List.mem_cons.1 hx with rfl | hx
      · exact h2
      · exact h3 x hx

theorem minOf_spec {l : List K} (h : l ≠ []) : minOf l ∈ l ∧ ∀ x ∈ l, minOf l ≤ x := by
  cases l with
  | nil => exact absurd rfl h
  | cons a l =>
    have : ∀ (l : List K) (b : K), (l.foldl min b = b ∨ l.foldl min b ∈ l) ∧ l.foldl min b ≤ b ∧ ∀ x ∈ l, l.foldl min b ≤ x := by
      intro l
      induction l with
      | nil => exact fun b => ⟨Or.inl rfl, le_refl _, by simp⟩
      | cons c l ih =>
        intro b
        rw [List.foldl_cons]
        obtain ⟨h1, h2, h3⟩ := ih (min b c)
        refine ⟨?_, h2.trans (min_le_left _ _), ?_⟩
        · rcases h1 with h1 | h1
          · rw [h1]
            rcases min_choice b c with h | h
            · exact Or.inl h
            · rw [h]; exact Or.inr (by simp)
          · exact Or.inr (by simp [h1])
        · intro x hx
          rcases List.mem_cons.1 hx with rfl | hx
          · exact h2.trans (min_le_right _ _)
          · exact h3 x hx
    obtain ⟨h1, h2, h3⟩ := this l a
    show l.foldl min a ∈ a :: l ∧ ∀ x ∈ a :: l, l.foldl min a ≤ x
    refine ⟨?_, ?_⟩
    · rcases h1 with h1 | h1
      · rw [h1]; simp
      · simp [h1]
    · intro x hx
      rcases List.mem_cons.1 hx with rfl | hx
      · exact h2
      · exact h3 x hx

theorem stopAt_isSome {load : Dict (LoadKey K) K} {id : Str} {D : Dir} {a : Int} :
    (∃ s, stopAt load id D a = some s) ↔ RidesFrom load id D a := by
  constructor
  · rintro ⟨s, hs⟩
    exact ⟨s, stopAt_some hs⟩
  · rintro ⟨s, hs, hid⟩
    cases h : stopAt load id D a with
    | none => exact absurd hid (stopAt_none h hs)
    | some s' => exact ⟨s', rfl⟩

/-- the direction of a circular line -/
theorem Route.Ring.dir {r : Route K} {D : Dir} {a : Int} {rest : List Int} (h : r.Ring D a rest) :
    D = if r.nodesI = [] then .R else .I := by
  cases D with
  | I =>
    have := h.nodes
    rw [Route.nodesOf] at this
    rw [if_neg (by rw [this]; simp)]
  | R =>
    have : r.nodesI = [] := (h.other .I (by simp)).1
    rw [if_pos this]

/-- the loads of a circular line: its fullest section is among those of its nodes -/
theorem LastRun.ring (h : LastRun g d pas net fr fin t) {r : Route K} (hr : r ∈ net.routes) {D : Dir}
    {a : Int} {rest : List Int} (hring : r.Ring D a rest) :
    (∀ x ∈ loadsAlong t.load r.id D (r.nodesOf D), x ≤ fullest t.load r.id) ∧
    (fullest t.load r.id ≠ 0 → fullest t.load r.id ∈ loadsAlong t.load r.id D (r.nodesOf D)) := by
  obtain ⟨_, _, _, _, hadm, hx, hl, ht⟩ := h.facts
  obtain ⟨h1, h2, h3⟩ := fullest_spec t.load r.id
  constructor
  · intro x hx
    unfold loadsAlong at hx
    obtain ⟨b, _, hb⟩ := List.mem_filterMap.1 hx
    obtain ⟨s, hs, rfl⟩ := Option.map_eq_some_iff.1 hb
    cases hg : t.load.get? (r.id, D, s) with
    | none => rw [Dict.getD, hg]; exact h1
    | some c => rw [Dict.getD, hg]; exact h2 _ (Dict.mem_of_get? _ hg) rfl
  · intro hne
    rcases h3 with h3 | ⟨p, hp, hid, hval⟩
    · exact absurd h3 hne
    · obtain ⟨n, m, hn, hm, _, hkey⟩ := (table_keys hadm h.built.nodes hx hl ht).2.2 p.1 (List.mem_map.2 ⟨p, hp, rfl⟩)
      have hroute : n.route = r := route_of_id h.built.ids (List.mem_of_getElem? hn.1) hr (by rw [← hid, ← hkey]; rfl)
      have hns := hn.2.1.1
      rw [hroute] at hns
      have hD : n.dir = D := by
        by_contra hD
        rw [(hring.other _ hD).2] at hns
        cases hns
      rw [hD] at hns
      have hnode := hring.stops _ (List.mem_of_getElem? hns)
      have hst := (stopAt_wanted h.built.nodes h.built.ids (d := t.load) (by
        intro k hk
        obtain ⟨n, _, hn, _, _, e⟩ := (table_keys hadm h.built.nodes hx hl ht).2.2 k hk
        exact ⟨n, hn, e⟩) hn).1 (by rw [hkey]; exact List.mem_map.2 ⟨p, hp, rfl⟩)
      rw [hroute, hD] at hst
      unfold loadsAlong
      refine List.mem_filterMap.2 ⟨n.stop.city.node.id, by rw [hring.nodes]; simp [hnode], ?_⟩
      rw [hst]
      have hk : (r.id, D, n.stop) = p.1 := by rw [← hkey, RouteNode.key, hroute, hD]
      simp only [Option.map_some, Option.some.injEq]
      rw [hk, Dict.getD, Dict.get?_of_mem t.load h.nodup_load (show (p.1, p.2) ∈ t.load from hp)]
      exact hval

theorem LastRun.circular (h : LastRun g d pas net fr fin t) {rows : List (Row K)} (hrows : fin.rows fr t = .ok rows) {i : Nat}
    {r : Route K} {row : Row K} (hi : net.routes[i]? = some r) (hrow : rows[i]? = some row) (hc : r.type = .circular)
    (hf : fr.getD r.id 0 ≠ 0) : ∃ times, linesTravelTime net.routes g.edgesDistance = .ok times ∧
      circularRow (getCycleTime t.z t.v net.routes times) t.load fr (getK t.load) r = .ok row := by
  obtain ⟨times, ht, hf2⟩ := h.rows_eq hrows
  have e := forall₂_at hf2 hi hrow
  unfold rowOf at e
  rw [if_pos (lt_of_le_of_ne (h.nonneg r.id) (Ne.symm hf)), if_pos hc] at e
  exact ⟨times, ht, e⟩

theorem loadsAlong_all {load : Dict (LoadKey K) K} {id : Str} {D : Dir} : ∀ {nodes : List Int},
    (∀ a ∈ nodes, RidesFrom load id D a) → loadsAlong load id D nodes = nodes.map fun a =>
      ((stopAt load id D a).map fun s => load.getD (id, D, s) 0).getD 0
  | [], _ => rfl
  | a :: l, h => by
    obtain ⟨s, hs⟩ := stopAt_isSome.2 (h a (by simp))
    have ih := loadsAlong_all (nodes := l) fun b hb => h b (by simp [hb])
    unfold loadsAlong at ih ⊢
    rw [List.filterMap_cons, hs]
    simp only [Option.map_some, List.map_cons, hs, Option.getD_some]
    rw [ih]

theorem loadsAlong_none {load : Dict (LoadKey K) K} {id : Str} {D : Dir} {nodes : List Int}
    (h : ∀ a ∈ nodes, ¬ RidesFrom load id D a) : loadsAlong load id D nodes = [] := by
  unfold loadsAlong
  rw [List.filterMap_eq_nil_iff]
  intro a ha
  cases hs : stopAt load id D a with
  | none => rfl
  | some s => exact absurd (stopAt_isSome.1 ⟨s, hs⟩) (h a ha)

theorem loadsAlong_short {load : Dict (LoadKey K) K} {id : Str} {D : Dir} : ∀ {nodes : List Int},
    (loadsAlong load id D nodes).length ≤ nodes.length ∧
      ((∃ a ∈ nodes, ¬ RidesFrom load id D a) → (loadsAlong load id D nodes).length < nodes.length)
  | [] => ⟨le_refl _, fun ⟨_, h, _⟩ => by cases h⟩
  | b :: l => by
    obtain ⟨h1, h2⟩ := loadsAlong_short (load := load) (id := id) (D := D) (nodes := l)
    unfold loadsAlong at h1 h2 ⊢
    rw [List.filterMap_cons]
    cases hs : stopAt load id D b with
    | none =>
      simp only [Option.map_none, List.length_cons]
      exact ⟨by omega, fun _ => by omega⟩
    | some s =>
      simp only [Option.map_some, List.length_cons]
      refine ⟨by omega, ?_⟩
      rintro ⟨a, ha, hn⟩
      rcases List.mem_cons.1 ha with rfl | ha
      · exact absurd (stopAt_isSome.1 ⟨s, hs⟩) hn
      · have := h2 ⟨a, ha, hn⟩
        omega

theorem chargesOf_ok {l : List K} {m : K} {n : Nat} {c : List K} (h : chargesOf l m n = .ok c) {j : Nat} (hj : j < n) :
    ∃ x, l[j]? = some x ∧ m ≠ 0 ∧ c[j]? = some (x / m) := by
  have hf := (mapM_forall₂ _ _ _).1 h
  have hlen := chargesOf_length h
  have := forall₂_at hf (i := j) (a := j) (b := c[j]'(by omega)) (List.getElem?_range hj) (List.getElem?_eq_getElem _)
  cases hx : l[j]? with
  | none => rw [hx] at this; cases this
  | some x =>
    rw [hx] at this
    obtain ⟨h1, h2⟩ := pyDiv_eq_ok.1 this
    exact ⟨x, rfl, h1, by rw [List.getElem?_eq_getElem (by omega), h2]⟩

/-- C60: the loads of the sections of a running circular line when somebody rides from each of its nodes to the next.  What
happens otherwise is said in `C60_circular_empty` and `C60_circular_fails`. -/
theorem C60_circular_loads_partial (h : LastRun g d pas net fr fin t) (hs : Sensible g d pas) {rows : List (Row K)}
    (hrows : fin.rows fr t = .ok rows) {i : Nat} {r : Route K} {row : Row K} (hi : net.routes[i]? = some r)
    (hrow : rows[i]? = some row) {D : Dir} {a : Int} {rest : List Int} (hring : r.Ring D a rest) (hf : fr.getD r.id 0 ≠ 0)
    (hall : ∀ b ∈ r.nodesOf D, RidesFrom t.load r.id D b) : 0 < row.k ∧
      (∀ (j : Nat) (b b' : Int), (pairs (r.nodesOf D))[j]? = some (b, b') → ∃ c s, (row.table D)[j]? = some (b, b', c) ∧
        0 ≤ c ∧ c ≤ 1 ∧ (r.id, D, s) ∈ Dict.keys t.load ∧ s.city.node.id = b ∧ c * row.k = t.load.getD (r.id, D, s) 0) ∧
      (∃ s ∈ row.table D, s.2.2 = 1) ∧ (∀ s ∈ row.table D, row.leastLoad ≤ (s.2.2 : WithTop K)) ∧
      ∃ s ∈ row.table D, row.leastLoad = (s.2.2 : WithTop K) := by
  obtain ⟨times, _, e⟩ := h.circular hrows hi hrow hring.type hf
  obtain ⟨_, _, _, ek, _, _, D', m, charges, hD', hm, hch, _, hleast, htab⟩ := circularRow_ok e
  have hDD : D' = D := hD'.trans hring.dir.symm
  subst hDD
  obtain ⟨_, _, _, _, hadm, hx, hl, ht⟩ := h.facts
  have hr : r ∈ net.routes := List.mem_of_getElem? hi
  obtain ⟨q1, q2⟩ := h.ring hr hring
  have hLeq := loadsAlong_all hall
  have hne : r.nodesOf D' ≠ [] := by rw [hring.nodes]; simp
  have hLne : loadsAlong t.load r.id D' (r.nodesOf D') ≠ [] := by
    rw [hLeq]
    intro h0
    exact hne (List.map_eq_nil_iff.1 h0)
  generalize hL : loadsAlong t.load r.id D' (r.nodesOf D') = L at hm q1 q2 hLeq hLne
  unfold circularMin at hm
  rw [if_pos (show L.length ≥ 1 from List.length_pos_iff.2 hLne)] at hm
  obtain ⟨q, hq, hm⟩ := py_bind_eq_ok.1 hm
  obtain ⟨hmax, hq⟩ := pyDiv_eq_ok.1 hq
  cases hm
  simp only at hch hleast
  obtain ⟨x1, x2⟩ := maxOf_spec hLne
  obtain ⟨y1, y2⟩ := minOf_spec hLne
  -- no load is negative
  have hnn : ∀ x ∈ L, 0 ≤ x := by
    intro x hx'
    rw [← hL] at hx'
    unfold loadsAlong at hx'
    obtain ⟨b, _, hb⟩ := List.mem_filterMap.1 hx'
    obtain ⟨s, _, rfl⟩ := Option.map_eq_some_iff.1 hb
    exact (C44_nonneg hadm h.built.nodes hx hl ht h.nonneg (h.trips hs) _).2.2
  have hmpos : 0 < maxOf L := lt_of_le_of_ne (hnn _ x1) (Ne.symm hmax)
  have hfull : maxOf L = fullest t.load r.id := by
    have hle := q1 _ x1
    exact le_antisymm hle (x2 _ (q2 (lt_of_lt_of_le hmpos hle).ne'))
  have hk : row.k = maxOf L := by rw [ek, getK_eq, hfull]
  have hlen : L.length = (r.nodesOf D').length := by rw [hLeq, List.length_map]
  have htabD : row.table D' = sections (r.nodesOf D') charges := by rw [htab, if_pos rfl]
  -- the value of a section
  have hval : ∀ (j : Nat) (b b' : Int), (pairs (r.nodesOf D'))[j]? = some (b, b') → ∀ x, L[j]? = some x →
      (row.table D')[j]? = some (b, b', x / maxOf L) := by
    intro j b b' hp x hxj
    have hj : j < (r.nodesOf D').length := by rw [← hlen]; exact (List.getElem?_eq_some_iff.1 hxj).1
    obtain ⟨x', hx', _, hc⟩ := chargesOf_ok hch hj
    rw [hxj] at hx'
    cases hx'
    rw [htabD, sections_get hp hc, abs_of_nonneg (div_nonneg (hnn _ (List.mem_of_getElem? hxj)) hmpos.le)]
  have hfirst : ∀ x ∈ L, ∃ j, L[j]? = some x ∧ j + 1 < (r.nodesOf D').length := by
    intro x hxL
    obtain ⟨j, hj, hje⟩ := List.getElem_of_mem hxL
    have hrest : rest ≠ [] := by
      intro h0
      have := hring.closed
      rw [h0] at this
      cases this
    have hn2 : (r.nodesOf D').length = rest.length + 1 := by rw [hring.nodes]; rfl
    have hrl : 0 < rest.length := List.length_pos_iff.2 hrest
    by_cases hj1 : j + 1 < (r.nodesOf D').length
    · exact ⟨j, by rw [List.getElem?_eq_getElem hj, hje], hj1⟩
    · refine ⟨0, ?_, by omega⟩
      have h0 : (r.nodesOf D')[0]? = (r.nodesOf D')[j]? := by
        have hjj : j = rest.length := by omega
        have hcl := hring.closed
        rw [List.getLast?_eq_getElem?] at hcl
        rw [hring.nodes, hjj]
        obtain ⟨p, hp⟩ : ∃ p, rest.length = p + 1 := ⟨rest.length - 1, by omega⟩
        rw [hp] at hcl ⊢
        rw [List.getElem?_cons_succ]
        simp only [Nat.add_sub_cancel] at hcl
        rw [hcl]; rfl
      have h1 : L[j]? = some x := by rw [List.getElem?_eq_getElem hj, hje]
      rw [hLeq, List.getElem?_map] at h1 ⊢
      rw [h0, h1]
  have hpair : ∀ j, j + 1 < (r.nodesOf D').length → ∃ b b', (pairs (r.nodesOf D'))[j]? = some (b, b') := fun j hj =>
    ⟨_, _, getElem?_pairs _ _ _ _ (List.getElem?_eq_getElem (by omega)) (List.getElem?_eq_getElem hj)⟩
  have hqpos : q = minOf L / maxOf L := hq
  have hq0 : 0 ≤ q := by rw [hqpos]; exact div_nonneg (hnn _ y1) hmpos.le
  rw [abs_of_nonneg hq0] at hleast
  refine ⟨by rw [hk]; exact hmpos, ?_, ?_, ?_, ?_⟩
  · intro j b b' hp
    have hj : j < (r.nodesOf D').length := by
      have := (List.getElem?_eq_some_iff.1 hp).1
      rw [length_pairs] at this
      omega
    have hb : (r.nodesOf D')[j]? = some b := by
      have hj2 : j + 1 < (r.nodesOf D').length := by
        have := (List.getElem?_eq_some_iff.1 hp).1
        rw [length_pairs] at this
        omega
      have := getElem?_pairs _ _ _ _ (List.getElem?_eq_getElem hj) (List.getElem?_eq_getElem hj2)
      rw [hp] at this
      simp only [Option.some.injEq, Prod.mk.injEq] at this
      rw [List.getElem?_eq_getElem hj, this.1]
    obtain ⟨s, hst⟩ := stopAt_isSome.2 (hall b (List.mem_of_getElem? hb))
    have hxj : L[j]? = some (t.load.getD (r.id, D', s) 0) := by
      rw [hLeq, List.getElem?_map, hb, Option.map_some, hst]
      rfl
    have hmem := List.mem_of_getElem? hxj
    refine ⟨_, s, hval j b b' hp _ hxj, div_nonneg (hnn _ hmem) hmpos.le, (div_le_one hmpos).2 (x2 _ hmem), (stopAt_some hst).1,
      (stopAt_some hst).2, ?_⟩
    rw [hk, div_mul_cancel₀ _ hmax]
  · obtain ⟨j, hxj, hj⟩ := hfirst _ x1
    obtain ⟨b, b', hp⟩ := hpair j hj
    exact ⟨_, List.mem_of_getElem? (hval j b b' hp _ hxj), div_self hmax⟩
  · intro s hsm
    obtain ⟨j, hj⟩ := List.mem_iff_getElem?.1 hsm
    have hjlt : j + 1 < (r.nodesOf D').length := by
      have := (List.getElem?_eq_some_iff.1 hj).1
      have hl' := congrArg List.length (sections_pairs (nodes := r.nodesOf D') (chargesOf_length hch))
      rw [htabD] at this
      rw [List.length_map, length_pairs] at hl'
      omega
    obtain ⟨b, b', hp⟩ := hpair j hjlt
    have hxj : L[j]? = some (L[j]'(by omega)) := List.getElem?_eq_getElem _
    have := hval j b b' hp _ hxj
    rw [hj] at this
    cases this
    rw [hleast, hqpos]
    exact WithTop.coe_le_coe.2 ((div_le_div_iff_of_pos_right hmpos).2 (y2 _ (List.mem_of_getElem? hxj)))
  · obtain ⟨j, hxj, hj⟩ := hfirst _ y1
    obtain ⟨b, b', hp⟩ := hpair j hj
    exact ⟨_, List.mem_of_getElem? (hval j b b' hp _ hxj), by rw [hleast, hqpos]⟩

/-- C60: a running circular line without passengers is reported full in all its sections, with least load 0 -/
theorem C60_circular_empty (h : LastRun g d pas net fr fin t) {rows : List (Row K)} (hrows : fin.rows fr t = .ok rows) {i : Nat}
    {r : Route K} {row : Row K} (hi : net.routes[i]? = some r) (hrow : rows[i]? = some row) {D : Dir} {a : Int} {rest : List Int}
    (hring : r.Ring D a rest) (hf : fr.getD r.id 0 ≠ 0) (hnone : ∀ b ∈ r.nodesOf D, ¬ RidesFrom t.load r.id D b) :
    row.k = 0 ∧ row.leastLoad = ((0 : K) : WithTop K) ∧ ∀ s ∈ row.table D, s.2.2 = 1 := by
  obtain ⟨times, _, e⟩ := h.circular hrows hi hrow hring.type hf
  obtain ⟨_, _, _, ek, _, _, D', m, charges, hD', hm, hch, _, hleast, htab⟩ := circularRow_ok e
  have hDD : D' = D := hD'.trans hring.dir.symm
  subst hDD
  have hr : r ∈ net.routes := List.mem_of_getElem? hi
  rw [loadsAlong_none hnone] at hm
  have hm' : m = (0, List.replicate (r.nodesOf D').length 1) := (Except.ok.inj hm).symm
  subst hm'
  simp only at hch hleast
  refine ⟨?_, by rw [hleast, abs_zero], ?_⟩
  · rw [ek, getK_eq]
    by_contra hne
    have := (h.ring hr hring).2 hne
    rw [loadsAlong_none hnone] at this
    cases this
  · have hmax : maxOf (List.replicate (r.nodesOf D').length (1 : K)) = 1 := by
      have hne : List.replicate (r.nodesOf D').length (1 : K) ≠ [] := by rw [hring.nodes]; simp
      exact List.eq_of_mem_replicate (maxOf_spec hne).1
    intro s hsm
    rw [htab, if_pos rfl] at hsm
    have : s.2.2 ∈ (sections (r.nodesOf D') charges).map fun s => s.2.2 := List.mem_map.2 ⟨s, hsm, rfl⟩
    rw [sections_charges (chargesOf_length hch)] at this
    obtain ⟨c, hc, he⟩ := List.mem_map.1 this
    obtain ⟨j, hj, hje⟩ := List.getElem_of_mem (List.mem_of_mem_dropLast hc)
    rw [chargesOf_length hch] at hj
    obtain ⟨x, hx, _, hcx⟩ := chargesOf_ok hch hj
    rw [hmax] at hcx
    have hx1 : x = 1 := List.eq_of_mem_replicate (List.mem_of_getElem? hx)
    have hjc : j < charges.length := by rw [chargesOf_length hch]; exact hj
    rw [List.getElem?_eq_getElem hjc] at hcx
    have hc1 : c = 1 := by rw [← hje, Option.some.inj hcx, hx1, div_one]
    rw [← he, hc1, abs_one]

/-- C60: there is no table when a running circular line has passengers but a node, for example one where it does not stop, from
which nobody rides to the next -/
theorem C60_circular_fails (h : LastRun g d pas net fr fin t) {r : Route K} (hr : r ∈ net.routes) {D : Dir} {a : Int}
    {rest : List Int} (hring : r.Ring D a rest) (hf : fr.getD r.id 0 ≠ 0) (hk : fullest t.load r.id ≠ 0)
    (hgap : ∃ b ∈ r.nodesOf D, ¬ RidesFrom t.load r.id D b) : ¬ ∃ rows, fin.rows fr t = .ok rows := by
  rintro ⟨rows, hrows⟩
  obtain ⟨_, _, hf2⟩ := h.rows_eq hrows
  obtain ⟨i, hi, he⟩ := List.getElem_of_mem hr
  have hi2 : i < rows.length := by rw [← hf2.length_eq]; exact hi
  have hi' : net.routes[i]? = some r := by rw [List.getElem?_eq_getElem hi, he]
  obtain ⟨times, _, e⟩ := h.circular hrows hi' (List.getElem?_eq_getElem hi2) hring.type hf
  obtain ⟨_, _, _, _, _, _, D', m, charges, hD', hm, hch, _⟩ := circularRow_ok e
  have hDD : D' = D := hD'.trans hring.dir.symm
  subst hDD
  have hmem := (h.ring hr hring).2 hk
  have hlt := loadsAlong_short.2 hgap
  generalize loadsAlong t.load r.id D' (r.nodesOf D') = L at hmem hlt hm
  unfold circularMin at hm
  rw [if_pos (show L.length ≥ 1 from List.length_pos_of_mem hmem)] at hm
  obtain ⟨q, _, hm⟩ := py_bind_eq_ok.1 hm
  cases hm
  obtain ⟨x, hx, _⟩ := chargesOf_ok hch hlt
  simp at hx

/-- C60: a node where a circular line does not stop is such a node -/
theorem C60_no_stop_no_ride (h : LastRun g d pas net fr fin t) {r : Route K} (hr : r ∈ net.routes) {D : Dir} {b : Int}
    (hb : b ∉ r.stopsOf D) : ¬ RidesFrom t.load r.id D b := by
  rintro ⟨s, hs, hid⟩
  obtain ⟨_, _, _, _, hadm, hx, hl, ht⟩ := h.facts
  obtain ⟨n, _, hn, _, _, hkey⟩ := (table_keys hadm h.built.nodes hx hl ht).2.2 _ hs
  unfold RouteNode.key at hkey
  simp only [Prod.mk.injEq] at hkey
  have hroute : n.route = r := route_of_id h.built.ids (List.mem_of_getElem? hn.1) hr hkey.1
  have := hn.2.1.1
  rw [hroute, hkey.2.1, hkey.2.2, hid] at this
  exact hb (List.mem_of_getElem? this)

/-- C60: the cost reported for a running circular line counts the passengers that board at its first node twice -/
theorem C60_circular_cost (h : LastRun g d pas net fr fin t) {rows : List (Row K)} (hrows : fin.rows fr t = .ok rows) {i : Nat}
    {r : Route K} {row : Row K} (hi : net.routes[i]? = some r) (hrow : rows[i]? = some row) {D : Dir} {a : Int} {rest : List Int}
    (hring : r.Ring D a rest) (hf : fr.getD r.id 0 ≠ 0) {n : RouteNode K} (hn : n.Wanted g net.routes) (hnr : n.route = r)
    (hna : n.stop.city.node.id = a) :
    ((total t.z fun k => k.1 = r.id) + t.z.getD n.key 0 = 0 → row.co = 0) ∧
    ((total t.z fun k => k.1 = r.id) + t.z.getD n.key 0 ≠ 0 →
      row.co * (row.f * ((total t.z fun k => k.1 = r.id) + t.z.getD n.key 0)) = (r.mode.co + r.mode.c1 * row.k) * row.fleet) := by
  obtain ⟨times, _, e⟩ := h.circular hrows hi hrow hring.type hf
  obtain ⟨_, ef, _, ek, efl, _, D', m, charges, hD', _, _, hco, _, _⟩ := circularRow_ok e
  have hDD : D' = D := hD'.trans hring.dir.symm
  subst hDD
  obtain ⟨_, _, _, _, hadm, hx, hl, ht⟩ := h.facts
  obtain ⟨kz, kv⟩ := C50_applies hadm h.built.nodes hx hl ht
  obtain ⟨hz, _, _⟩ := C50_tables_unchanged kz kv net.routes times
  have hr : r ∈ net.routes := List.mem_of_getElem? hi
  have hnD : n.dir = D' := by
    by_contra hne
    have := hn.2.1.1
    rw [hnr, (hring.other _ hne).2] at this
    cases this
  -- all boardings are in this direction
  have hdir : (total t.z fun k => k.1 = r.id ∧ k.2.1 = D') = total t.z fun k => k.1 = r.id := by
    have hk : KeysIn (Dict.keys t.z) t.z := ⟨kz, fun k hk => hk⟩
    unfold total
    congr 2
    refine List.filter_congr fun p hp => ?_
    have hpk : p.1 ∈ Dict.keys t.z := List.mem_map.2 ⟨p, hp, rfl⟩
    obtain ⟨m', hm', hkey⟩ := (table_keys hadm h.built.nodes hx hl ht).1 p.1 hpk
    rw [decide_eq_decide]
    refine ⟨fun h => h.1, fun hid => ⟨hid, ?_⟩⟩
    have hroute : m'.route = r := route_of_id h.built.ids (List.mem_of_getElem? hm'.1) hr (by rw [← hid, ← hkey]; rfl)
    by_contra hne
    have := hm'.2.1.1
    rw [hroute, (hring.other m'.dir (by rw [← hkey] at hne; exact hne)).2] at this
    cases this
  have hboard : boardAt (getCycleTime t.z t.v net.routes times).z r.id D' a = t.z.getD n.key 0 := by
    obtain ⟨h1, h2⟩ := stopAt_wanted h.built.nodes h.built.ids (h.keys times) hn
    rw [hnr, hnD, hna] at h1 h2
    unfold boardAt
    have hkey : n.key = (r.id, D', n.stop) := by rw [RouteNode.key, hnr, hnD]
    by_cases hm : n.key ∈ Dict.keys (getCycleTime t.z t.v net.routes times).z
    · rw [h1 hm]
      simp only
      rw [hz, hkey]
    · rw [h2 hm, ← hz, getD_of_not_mem _ hm]
  have hsum : (r.nodesOf D').foldl (fun b i => b + boardAt (getCycleTime t.z t.v net.routes times).z r.id D' i) 0 =
      (total t.z fun k => k.1 = r.id) + t.z.getD n.key 0 := by
    have hfold : ∀ (l : List Int) (c : K), l.foldl (fun b i => b + boardAt (getCycleTime t.z t.v net.routes times).z r.id D' i) c =
        c + (l.map (boardAt (getCycleTime t.z t.v net.routes times).z r.id D')).sum := by
      intro l
      induction l with
      | nil => intro c; simp
      | cons b l ih => intro c; rw [List.foldl_cons, ih, List.map_cons, List.sum_cons]; ring
    rw [hfold, hring.nodes, List.map_cons, List.sum_cons, hboard, h.boards times hr hring.once hring.stops, hdir]
    ring
  rw [hsum] at hco
  unfold circularCost at hco
  refine ⟨fun h0 => ?_, fun h0 => ?_⟩
  · rw [if_pos h0] at hco
    exact (Except.ok.inj hco).symm
  · rw [if_neg h0] at hco
    obtain ⟨h1, h2⟩ := pyDiv_eq_ok.1 hco
    rw [h2, ef, ek, efl, mul_comm (fr.getD r.id 0) ((total t.z fun k => k.1 = r.id) + t.z.getD n.key 0), div_mul_cancel₀ _ h1]
    ring

end Generic

end Sidermit
