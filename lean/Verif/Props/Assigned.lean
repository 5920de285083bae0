import Verif.Spec.Assigned
import Verif.Props.Network
import Verif.Props.Mode
import Verif.Props.Constructor

/-!
C97: what assignments to the attributes of modes do to a network that uses them.
-/

set_option linter.unusedSectionVars false

namespace Sidermit

section Generic

variable {K : Type} [Field K] [LinearOrder K] {g : Graph K}

theorem assigned_oid (oid : Nat) (a : ModeAssign K) (m : Mode K) : (assigned oid a m).oid = m.oid := by
  unfold assigned
  split
  · cases a <;> (unfold Mode.assign store; dsimp only; split <;> rfl)
  · rfl

/-- the modes that a network shows are objects with their present values -/
structure Network.Shows (objects : Nat → Mode K) (s : Network K) : Prop where
  routes : ∀ r ∈ s.routes, r.mode = objects r.mode.oid
  modes : ∀ m ∈ s.modes, m = objects m.oid

/-- what is kept whatever is assigned -/
structure Network.Kept (g : Graph K) (s : Network K) : Prop where
  graph : s.graph = g
  ids : s.routeIds = s.routes.map Route.id
  nodup : s.routeIds.Nodup
  objects : (s.modes.map Mode.oid).Nodup
  few : s.modes.length ≤ 2

theorem modesOk_few {l : List (Mode K)} (h : ModesOk l) : l.length ≤ 2 := by
  rcases h with h | ⟨a, b, rfl, _⟩
  · omega
  · exact le_refl _

/-- `add_transport_mode`, for any list of modes -/
theorem addTransportMode_any {s : Network K} (hnd : s.modes.Nodup) (m : Mode K) :
    (m ∈ s.modes ∧ s.addTransportMode m = (s, none)) ∨
    (m ∉ s.modes ∧ ModesOk (s.modes ++ [m]) ∧ s.addTransportMode m = ({ s with modes := s.modes ++ [m] }, none)) ∨
    (m ∉ s.modes ∧ ¬ ModesOk (s.modes ++ [m]) ∧ ∃ e, s.addTransportMode m = (s, some e)) := by
  classical
  by_cases hm : m ∈ s.modes
  · exact .inl ⟨hm, by simp [Network.addTransportMode, hm]⟩
  by_cases hok : ModesOk s.modes
  · rw [addTransportMode_eq hok, if_neg hm]
    by_cases h1 : ModesOk (s.modes ++ [m])
    · exact .inr (.inl ⟨hm, h1, if_pos h1⟩)
    · refine .inr (.inr ⟨hm, h1, ?_⟩)
      rw [if_neg h1]
      split
      · exact ⟨_, rfl⟩
      · exact ⟨_, rfl⟩
  · have hno : ¬ ModesOk (s.modes ++ [m]) := by
      intro h
      apply hok
      rcases h with h | ⟨a, b, h, _⟩
      · exact .inl (by rw [List.length_append, List.length_singleton] at h; omega)
      · have := congrArg List.length h
        simp at this
        exact .inl (by omega)
    refine .inr (.inr ⟨hm, hno, ?_⟩)
    unfold Network.addTransportMode
    rw [if_pos hm]
    by_cases hn : (s.modes.map Mode.name).Nodup
    · rw [checkModes_eq hm hn]
      have hlen : 2 ≤ s.modes.length := by
        by_contra h
        exact hok (.inl (by omega))
      have h0 : s.modes ≠ [] := fun h => by simp [h] at hlen
      have h1 : ¬ (s.modes.length = 1 ∧ (m.d = 1 ∨ ∃ m' ∈ s.modes, m'.d = 1)) := fun h => by omega
      by_cases h2 : m.name ∈ s.modes.map Mode.name
      · rw [if_pos h2]; exact ⟨_, rfl⟩
      · rw [if_neg h2, if_neg h0, if_neg h1]; exact ⟨_, rfl⟩
    · have hnd' : ([m] ++ s.modes).Nodup := by simpa [hm] using hnd
      have : Network.checkModes s.modes m = .error .AddMode := by
        unfold Network.checkModes
        rw [foldl_collectMode _ _ hnd', addAll_dup _ _ (by simp) (by simp [hn])]
        rfl
      rw [this]
      exact ⟨_, rfl⟩

/-- `add_route`, for any list of modes -/
theorem addRoute_any {s : Network K} (hnd : s.modes.Nodup) (r : Route K) :
    (∃ e, s.addRoute r = (s, some e)) ∨
    (r.id ∉ s.routeIds ∧ r.mode ∈ s.modes ∧
      s.addRoute r = ({ s with routes := s.routes ++ [r], routeIds := s.routeIds ++ [r.id] }, none)) ∨
    (r.id ∉ s.routeIds ∧ r.mode ∉ s.modes ∧ ModesOk (s.modes ++ [r.mode]) ∧
      s.addRoute r = ({ s with routes := s.routes ++ [r], routeIds := s.routeIds ++ [r.id], modes := s.modes ++ [r.mode] }, none)) := by
  unfold Network.addRoute
  rw [edgesValidator_eq]
  by_cases h1 : OnStreets s.graph r.nodesI
  · rw [if_pos h1]
    simp only [Network.pyOr, Network.register]
    by_cases h2 : r.id ∈ s.routeIds
    · exact .inl ⟨.RouteIdDuplicated, by simp [h2]⟩
    · rw [if_pos h2]
      rcases addTransportMode_any hnd r.mode with ⟨h3, h4⟩ | ⟨h3, h5, h4⟩ | ⟨h3, _, e, h4⟩
      · exact .inr (.inl ⟨h2, h3, by rw [h4]⟩)
      · exact .inr (.inr ⟨h2, h3, h5, by rw [h4]⟩)
      · exact .inl ⟨e, by rw [h4]⟩
  · rw [if_neg h1]
    exact .inl ⟨_, rfl⟩

theorem removeRoute_modes (s : Network K) (ms : List (Mode K)) (id : Str) :
    { s with modes := ms }.removeRoute id = ({ (s.removeRoute id).1 with modes := ms }, (s.removeRoute id).2) := by
  unfold Network.removeRoute
  dsimp only
  split
  · split <;> rfl
  · rfl

theorem removeLoop_modes (m : Mode K) (ms : List (Mode K)) : ∀ (fuel i : Nat) (s : Network K),
    Network.removeLoop m fuel i { s with modes := ms } =
      ({ (Network.removeLoop m fuel i s).1 with modes := ms }, (Network.removeLoop m fuel i s).2) := by
  intro fuel
  induction fuel with
  | zero => intro i s; rfl
  | succ fuel ih =>
    intro i s
    rw [Network.removeLoop, Network.removeLoop]
    dsimp only
    cases s.routes[i]? with
    | none => rfl
    | some r =>
      dsimp only
      by_cases h : r.mode = m
      · rw [if_pos h, if_pos h, removeRoute_modes]
        generalize s.removeRoute r.id = q
        obtain ⟨q1, _ | e⟩ := q
        · exact ih (i + 1) q1
        · rfl
      · rw [if_neg h, if_neg h]
        exact ih (i + 1) s

/-- `remove_transport_mode`, for any list of modes -/
theorem removeTransportMode_any {s : Network K} (hids : s.routeIds = s.routes.map Route.id) (hnd : s.routeIds.Nodup) (m : Mode K) :
    s.removeTransportMode m =
      ({ s with modes := s.modes.filter (· ≠ m), routes := survivors m s.routes,
                routeIds := (survivors m s.routes).map Route.id }, none) := by
  have h := removeTransportMode_eq (s := { s with modes := [] }) ⟨hids, hnd, .inl (by simp)⟩ m
  unfold Network.removeTransportMode at h ⊢
  have h' : Network.removeLoop m s.routes.length 0 { s with modes := [] } =
      ({ s with modes := [], routes := survivors m s.routes, routeIds := (survivors m s.routes).map Route.id }, none) := h
  have key := removeLoop_modes m (s.modes.filter (· ≠ m)) s.routes.length 0 { s with modes := [] }
  rw [h'] at key
  exact key

/-- a call keeps what is kept -/
theorem kept_call {objects : Nat → Mode K} {s : Network K} (hk : s.Kept g) (hs : s.Shows objects) {c : NetCall K} (hc : c.Of objects) :
    (c.run s).1.Kept g ∧ (c.run s).1.Shows objects := by
  have hnd : s.modes.Nodup := hk.objects.of_map
  have hnew : ∀ m, m = objects m.oid → m ∉ s.modes → m.oid ∉ s.modes.map Mode.oid := by
    intro m hm hno hin
    obtain ⟨m', hm', he⟩ := List.mem_map.1 hin
    apply hno
    rw [hm, ← he, ← hs.modes m' hm']
    exact hm'
  cases c with
  | addRoute r =>
    have hc' : r.mode = objects r.mode.oid := hc
    simp only [NetCall.run]
    rcases addRoute_any hnd r with ⟨e, h⟩ | ⟨h1, h2, h⟩ | ⟨h1, h2, h3, h⟩
    · rw [h]; exact ⟨hk, hs⟩
    · rw [h]
      refine ⟨⟨hk.graph, by simp [hk.ids], ?_, hk.objects, hk.few⟩, ⟨fun r' hr' => ?_, hs.modes⟩⟩
      · exact List.nodup_append.2 ⟨hk.nodup, by simp, by simpa using fun a ha (he : a = r.id) => h1 (he ▸ ha)⟩
      · rcases List.mem_append.1 hr' with h | h
        · exact hs.routes r' h
        · rw [List.mem_singleton.1 h]; exact hc'
    · rw [h]
      refine ⟨⟨hk.graph, by simp [hk.ids], ?_, ?_, modesOk_few h3⟩, ⟨fun r' hr' => ?_, fun m hm => ?_⟩⟩
      · exact List.nodup_append.2 ⟨hk.nodup, by simp, by simpa using fun a ha (he : a = r.id) => h1 (he ▸ ha)⟩
      · show ((s.modes ++ [r.mode]).map Mode.oid).Nodup
        rw [List.map_append, List.nodup_append]
        refine ⟨hk.objects, by simp, ?_⟩
        rintro a ha b hb rfl
        have := hnew r.mode hc' h2
        simp only [List.map_cons, List.map_nil, List.mem_singleton] at hb
        exact this (hb ▸ ha)
      · rcases List.mem_append.1 hr' with h | h
        · exact hs.routes r' h
        · rw [List.mem_singleton.1 h]; exact hc'
      · rcases List.mem_append.1 hm with h | h
        · exact hs.modes m h
        · rw [List.mem_singleton.1 h]; exact hc'
  | removeRoute id =>
    simp only [NetCall.run]
    have h := removeRoute_eq (s := { s with modes := [] }) ⟨hk.ids, hk.nodup, .inl (by simp)⟩ id
    have h' := removeRoute_modes { s with modes := [] } s.modes id
    rw [h] at h'
    have h2 : s.removeRoute id = { ({ s with modes := [] } : Network K) with modes := s.modes }.removeRoute id := rfl
    rw [h2, h']
    split_ifs
    · refine ⟨⟨hk.graph, rfl, ?_, hk.objects, hk.few⟩, ⟨fun r hr => hs.routes r (List.mem_filter.1 hr).1, hs.modes⟩⟩
      exact (hk.ids ▸ hk.nodup).sublist (List.Sublist.map _ List.filter_sublist)
    · exact ⟨⟨hk.graph, hk.ids, hk.nodup, hk.objects, hk.few⟩, ⟨hs.routes, hs.modes⟩⟩
  | addMode m =>
    have hc' : m = objects m.oid := hc
    simp only [NetCall.run]
    rcases addTransportMode_any hnd m with ⟨_, h⟩ | ⟨h2, h3, h⟩ | ⟨_, _, e, h⟩
    · rw [h]; exact ⟨hk, hs⟩
    · rw [h]
      refine ⟨⟨hk.graph, hk.ids, hk.nodup, ?_, modesOk_few h3⟩, ⟨hs.routes, fun m' hm => ?_⟩⟩
      · show ((s.modes ++ [m]).map Mode.oid).Nodup
        rw [List.map_append, List.nodup_append]
        refine ⟨hk.objects, by simp, ?_⟩
        rintro a ha b hb rfl
        have := hnew m hc' h2
        simp only [List.map_cons, List.map_nil, List.mem_singleton] at hb
        exact this (hb ▸ ha)
      · rcases List.mem_append.1 hm with h | h
        · exact hs.modes m' h
        · rw [List.mem_singleton.1 h]; exact hc'
    · rw [h]; exact ⟨hk, hs⟩
  | removeMode m =>
    simp only [NetCall.run]
    rw [removeTransportMode_any hk.ids hk.nodup]
    refine ⟨⟨hk.graph, rfl, ?_, ?_, ?_⟩, ⟨fun r hr => hs.routes r ((survivors_sublist m _).subset hr), fun m' hm => hs.modes m' (List.mem_filter.1 hm).1⟩⟩
    · exact (hk.ids ▸ hk.nodup).sublist (List.Sublist.map _ (survivors_sublist m _))
    · exact hk.objects.sublist (List.Sublist.map _ List.filter_sublist)
    · exact le_trans (List.length_filter_le _ _) hk.few

/-- **C97**: after any history of calls and assignments, accepted or not, the lines and the list of modes show the present values of the
mode objects, so that all lines of a mode agree; all values are in their ranges; the names of lines are listed and distinct; at most two
mode objects are registered, each once. -/
theorem C97_lines_show_the_present_values {P : FleetStep K → Prop} {s : Fleet K} (h : Fleet.Reachable g P s) :
    (∀ r ∈ s.net.routes, r.mode = s.objects r.mode.oid) ∧ (∀ m ∈ s.net.modes, m = s.objects m.oid) ∧
    (∀ i, (s.objects i).oid = i ∧ (s.objects i).InRange) ∧
    s.net.graph = g ∧ s.net.routeIds = s.net.routes.map Route.id ∧ s.net.routeIds.Nodup ∧
    (s.net.modes.map Mode.oid).Nodup ∧ s.net.modes.length ≤ 2 := by
  suffices hall : s.net.Shows s.objects ∧ (∀ i, (s.objects i).oid = i ∧ (s.objects i).InRange) ∧ s.net.Kept g from
    ⟨hall.1.routes, hall.1.modes, hall.2.1, hall.2.2.graph, hall.2.2.ids, hall.2.2.nodup, hall.2.2.objects, hall.2.2.few⟩
  induction h with
  | init objects h =>
    refine ⟨⟨?_, ?_⟩, h, ⟨rfl, rfl, ?_, ?_, ?_⟩⟩ <;> simp [Network.init]
  | call h hc hP ih =>
    obtain ⟨h1, h2⟩ := kept_call ih.2.2 ih.1 hc
    exact ⟨h2, ih.2.1, h1⟩
  | @assign s h oid a hP ih =>
    obtain ⟨h1, h2, h3⟩ := ih
    refine ⟨⟨?_, ?_⟩, fun i => ⟨?_, ?_⟩, ⟨h3.graph, ?_, h3.nodup, ?_, ?_⟩⟩
    · intro r hr
      obtain ⟨r', hr', rfl⟩ := List.mem_map.1 hr
      show assigned oid a r'.mode = assigned oid a (s.objects (assigned oid a r'.mode).oid)
      rw [assigned_oid, ← h1.routes r' hr']
    · intro m hm
      obtain ⟨m', hm', rfl⟩ := List.mem_map.1 hm
      show assigned oid a m' = assigned oid a (s.objects (assigned oid a m').oid)
      rw [assigned_oid, ← h1.modes m' hm']
    · exact (assigned_oid oid a _).trans (h2 i).1
    · show (assigned oid a (s.objects i)).InRange
      unfold assigned
      split
      · exact Mode.assign_inRange (h2 i).2 a
      · exact (h2 i).2
    · show s.net.routeIds = (s.net.routes.map _).map Route.id
      rw [h3.ids, List.map_map]
      rfl
    · show ((s.net.modes.map (assigned oid a)).map Mode.oid).Nodup
      rw [List.map_map]
      have : Mode.oid ∘ assigned oid a = Mode.oid (K := K) := funext fun m => assigned_oid oid a m
      rw [this]
      exact h3.objects
    · show (s.net.modes.map _).length ≤ 2
      rw [List.length_map]
      exact h3.few

/-! ## assignments that no check depends on -/

/-- the call with the modes changed by a function -/
def NetCall.mapModes (φ : Mode K → Mode K) : NetCall K → NetCall K
  | .addRoute r => .addRoute { r with mode := φ r.mode }
  | .removeRoute id => .removeRoute id
  | .addMode m => .addMode (φ m)
  | .removeMode m => .removeMode (φ m)

/-- the function keeps the objects apart, and the name and the parallel lines of each -/
structure Harmless (objects : Nat → Mode K) (φ : Mode K → Mode K) : Prop where
  inj : ∀ m m', m = objects m.oid → m' = objects m'.oid → φ m = φ m' → m = m'
  name : ∀ m, m = objects m.oid → (φ m).name = m.name
  d : ∀ m, m = objects m.oid → (φ m).d = m.d

theorem modesOk_map {objects : Nat → Mode K} {φ : Mode K → Mode K} (hφ : Harmless objects φ) {l : List (Mode K)}
    (hl : ∀ m ∈ l, m = objects m.oid) : ModesOk (l.map φ) ↔ ModesOk l := by
  unfold ModesOk
  rw [List.length_map]
  refine or_congr Iff.rfl ?_
  constructor
  · rintro ⟨a, b, h, h1, h2⟩
    match l, hl, h with
    | [x, y], hl, h =>
      simp only [List.map_cons, List.map_nil, List.cons.injEq, and_true] at h
      obtain ⟨rfl, rfl⟩ := h
      rw [hφ.name x (hl x (by simp)), hφ.name y (hl y (by simp))] at h1
      rw [hφ.d x (hl x (by simp)), hφ.d y (hl y (by simp))] at h2
      exact ⟨x, y, rfl, h1, h2⟩
  · rintro ⟨x, y, rfl, h1, h2⟩
    refine ⟨φ x, φ y, rfl, ?_, ?_⟩
    · rw [hφ.name x (hl x (by simp)), hφ.name y (hl y (by simp))]; exact h1
    · rw [hφ.d x (hl x (by simp)), hφ.d y (hl y (by simp))]; exact h2

theorem survivors_map {objects : Nat → Mode K} {φ : Mode K → Mode K} (hφ : Harmless objects φ) {m : Mode K} (hm : m = objects m.oid)
    (l : List (Route K)) (hl : ∀ r ∈ l, r.mode = objects r.mode.oid) :
    survivors (φ m) (l.map fun r => { r with mode := φ r.mode }) = (survivors m l).map fun r => { r with mode := φ r.mode } := by
  have hiff : ∀ r ∈ l, φ r.mode = φ m ↔ r.mode = m := fun r hr => ⟨hφ.inj _ _ (hl r hr) hm, fun h => by rw [h]⟩
  clear hl
  induction l using survivors.induct m with
  | case1 => rfl
  | case2 r h => simp [survivors, h]
  | case3 r h => simp [survivors, h, hiff r (by simp)]
  | case4 r r' t h ih =>
    simp only [List.map_cons] at ih ⊢
    simp only [survivors, h, if_true, List.map_cons]
    rw [ih fun q hq => hiff q (by simp [hq])]
  | case5 r r' t h ih =>
    simp only [List.map_cons] at ih ⊢
    simp only [survivors, h, hiff r (by simp), if_false, List.map_cons]
    rw [ih fun q hq => hiff q (List.mem_cons_of_mem _ hq)]

/-- assignments and calls commute -/
theorem call_mapModes {objects : Nat → Mode K} {φ : Mode K → Mode K} (hφ : Harmless objects φ) {s : Network K} (hw : s.Wf)
    (hs : s.Shows objects) {c : NetCall K} (hc : c.Of objects) :
    (c.mapModes φ).run (s.mapModes φ) = ((c.run s).1.mapModes φ, (c.run s).2) := by
  classical
  have hmem : ∀ m, m = objects m.oid → (φ m ∈ (s.mapModes φ).modes ↔ m ∈ s.modes) := by
    intro m hm
    constructor
    · intro h
      obtain ⟨m', hm', he⟩ := List.mem_map.1 h
      rw [← hφ.inj _ _ (hs.modes m' hm') hm he]
      exact hm'
    · exact fun h => List.mem_map_of_mem h
  have hok : ModesOk (s.mapModes φ).modes := (modesOk_map hφ hs.modes).2 hw.modes
  have hw' : (s.mapModes φ).Wf := by
    refine ⟨?_, hw.nodup, hok⟩
    show s.routeIds = (s.routes.map _).map Route.id
    rw [List.map_map, hw.ids]
    rfl
  have happ : ∀ m, m = objects m.oid → (ModesOk ((s.mapModes φ).modes ++ [φ m]) ↔ ModesOk (s.modes ++ [m])) := by
    intro m hm
    rw [← modesOk_map hφ (l := s.modes ++ [m])]
    · simp [Network.mapModes]
    · intro m' hm'
      rcases List.mem_append.1 hm' with h | h
      · exact hs.modes m' h
      · rw [List.mem_singleton.1 h]; exact hm
  have hname : ∀ m, m = objects m.oid → ((φ m).name ∈ (s.mapModes φ).modes.map Mode.name ↔ m.name ∈ s.modes.map Mode.name) := by
    intro m hm
    rw [hφ.name m hm]
    have : (s.mapModes φ).modes.map Mode.name = s.modes.map Mode.name := by
      show (s.modes.map φ).map Mode.name = _
      rw [List.map_map]
      exact List.map_congr_left fun m' hm' => hφ.name m' (hs.modes m' hm')
    rw [this]
  cases c with
  | addRoute r =>
    have hc' : r.mode = objects r.mode.oid := hc
    simp only [NetCall.run, NetCall.mapModes]
    rw [addRoute_eq hok, addRoute_eq hw.modes]
    have e1 : (s.mapModes φ).graph = s.graph := rfl
    have e2 : (s.mapModes φ).routeIds = s.routeIds := rfl
    simp only [e1, e2, hmem r.mode hc', happ r.mode hc', hname r.mode hc']
    split_ifs <;> first | rfl | simp [Network.mapModes]
  | removeRoute id =>
    simp only [NetCall.run, NetCall.mapModes]
    rw [removeRoute_eq hw', removeRoute_eq hw]
    have e2 : (s.mapModes φ).routeIds = s.routeIds := rfl
    simp only [e2]
    split_ifs
    · simp [Network.mapModes, List.filter_map, Function.comp_def]
    · rfl
  | addMode m =>
    have hc' : m = objects m.oid := hc
    simp only [NetCall.run, NetCall.mapModes]
    rw [addTransportMode_eq hok, addTransportMode_eq hw.modes]
    simp only [hmem m hc', happ m hc', hname m hc']
    split_ifs <;> first | rfl | simp [Network.mapModes]
  | removeMode m =>
    have hc' : m = objects m.oid := hc
    simp only [NetCall.run, NetCall.mapModes]
    rw [removeTransportMode_eq hw', removeTransportMode_eq hw]
    have h1 : (s.mapModes φ).routes = s.routes.map fun r => { r with mode := φ r.mode } := rfl
    have h2 : (s.mapModes φ).modes.filter (· ≠ φ m) = (s.modes.filter (· ≠ m)).map φ := by
      show (s.modes.map φ).filter (· ≠ φ m) = _
      rw [List.filter_map]
      congr 1
      apply List.filter_congr
      intro m' hm'
      have : φ m' = φ m ↔ m' = m := ⟨hφ.inj _ _ (hs.modes m' hm') hc', fun h => by rw [h]⟩
      simp [this]
    rw [h2, h1, survivors_map hφ hc' s.routes hs.routes]
    simp [Network.mapModes, Function.comp_def]

theorem mapModes_self {objects : Nat → Mode K} {s : Network K} (hs : s.Shows objects) :
    s.mapModes (fun m => objects m.oid) = s := by
  have e1 : s.routes.map (fun r => ({ r with mode := objects r.mode.oid } : Route K)) = s.routes := by
    conv_rhs => rw [← List.map_id s.routes]
    apply List.map_congr_left
    intro r hr
    rw [← hs.routes r hr]
    rfl
  have e2 : s.modes.map (fun m => objects m.oid) = s.modes := by
    conv_rhs => rw [← List.map_id s.modes]
    exact List.map_congr_left fun m hm => (hs.modes m hm).symm
  unfold Network.mapModes
  rw [e1, e2]

theorem assigned_harmless {oid : Nat} {a : ModeAssign K} (ha : ¬ (FleetStep.assign oid a).Checked) (m : Mode K) :
    (assigned oid a m).name = m.name ∧ (assigned oid a m).d = m.d := by
  unfold assigned
  split
  · cases a <;> first | exact absurd trivial ha | skip
    all_goals
      unfold Mode.assign store
      dsimp only
      split <;> exact ⟨rfl, rfl⟩
  · exact ⟨rfl, rfl⟩

/-- **C97**: if neither names nor numbers of parallel lines are assigned, the network after a history of calls and assignments is one that
calls alone give: all that holds for networks after calls alone holds for it. -/
theorem C97_as_if_assigned_before {s : Fleet K} (h : Fleet.Reachable g (fun c => ¬ c.Checked) s) : Network.Reachable g s.net := by
  suffices key : ∀ objects' : Nat → Mode K, (∀ i, (objects' i).oid = i ∧ (objects' i).name = (s.objects i).name ∧
      (objects' i).d = (s.objects i).d) → Network.Reachable g (s.net.mapModes fun m => objects' m.oid) by
    obtain ⟨h1, h2, h3, _⟩ := C97_lines_show_the_present_values h
    have := key s.objects fun i => ⟨(h3 i).1, rfl, rfl⟩
    have he := mapModes_self ⟨h1, h2⟩
    rwa [he] at this
  induction h with
  | init objects h => exact fun _ _ => .init
  | @call s h c hc hP ih =>
    intro objects' ho
    obtain ⟨h1, h2, h3, _⟩ := C97_lines_show_the_present_values h
    have hφ : Harmless s.objects fun m => objects' m.oid := by
      refine ⟨fun m m' hm hm' he => ?_, fun m hm => ?_, fun m hm => ?_⟩
      · have he' : objects' m.oid = objects' m'.oid := he
        have : m.oid = m'.oid := by rw [← (ho m.oid).1, he', (ho m'.oid).1]
        rw [hm, hm', this]
      · exact (ho m.oid).2.1.trans (congrArg Mode.name hm.symm)
      · exact (ho m.oid).2.2.trans (congrArg Mode.d hm.symm)
    have hself := mapModes_self ⟨h1, h2⟩
    have hw : s.net.Wf := by
      have := ih s.objects fun i => ⟨(h3 i).1, rfl, rfl⟩
      rw [hself] at this
      exact this.wf
    have hcomm := call_mapModes hφ hw ⟨h1, h2⟩ hc
    have : ((FleetStep.call c).run s).1.net.mapModes (fun m => objects' m.oid) =
        ((c.mapModes fun m => objects' m.oid).run (s.net.mapModes fun m => objects' m.oid)).1 := by
      rw [hcomm]
      rfl
    rw [this]
    exact (ih objects' ho).call _
  | @assign s h oid a hP ih =>
    intro objects' ho
    have hsame : ((FleetStep.assign oid a).run s).1.net.mapModes (fun m => objects' m.oid) =
        s.net.mapModes fun m => objects' m.oid := by
      simp [FleetStep.run, Network.mapModes, Function.comp_def, assigned_oid]
    rw [hsame]
    refine ih objects' fun i => ?_
    obtain ⟨q1, q2, q3⟩ := ho i
    obtain ⟨p1, p2⟩ := assigned_harmless hP (s.objects i)
    exact ⟨q1, q2.trans p1, q3.trans p2⟩

/-! ## assignments of names and of numbers of parallel lines -/

/-- **C97**: a mode that is not registered becomes so only if the present values of all modes go together: the names differ, and one of
the two has a single line per street. -/
theorem C97_registration_checks_present_values {P : FleetStep K → Prop} {s : Fleet K} (h : Fleet.Reachable g P s) {m : Mode K}
    (hm : m ∉ s.net.modes) :
    ((s.net.addTransportMode m).2 = none ↔ s.net.modes = [] ∨
      ∃ m', s.net.modes = [m'] ∧ m'.name ≠ m.name ∧ (m'.d = 1 ∨ m.d = 1)) ∧
    ((s.net.addTransportMode m).2 ≠ none → (s.net.addTransportMode m).1 = s.net) := by
  have hnd : s.net.modes.Nodup := (C97_lines_show_the_present_values h).2.2.2.2.2.2.1.of_map
  have hiff : ModesOk (s.net.modes ++ [m]) ↔ s.net.modes = [] ∨
      ∃ m', s.net.modes = [m'] ∧ m'.name ≠ m.name ∧ (m'.d = 1 ∨ m.d = 1) := by
    constructor
    · rintro (h | ⟨a, b, h, h1, h2⟩)
      · left
        rw [List.length_append, List.length_singleton] at h
        exact List.length_eq_zero_iff.1 (by omega)
      · right
        have h' : s.net.modes ++ [m] = [a] ++ [b] := h
        obtain ⟨e1, e2⟩ := List.append_inj' h' rfl
        cases e2
        exact ⟨a, e1, h1, h2⟩
    · rintro (h | ⟨m', h, h1, h2⟩)
      · rw [h]; exact .inl (by simp)
      · rw [h]; exact .inr ⟨m', m, rfl, h1, h2⟩
  rcases addTransportMode_any hnd m with ⟨h1, _⟩ | ⟨_, h2, h3⟩ | ⟨_, h2, e, h3⟩
  · exact absurd h1 hm
  · rw [h3, ← hiff]; simp [h2]
  · rw [h3, ← hiff]; simp [h2]

/-- **C97**: what an assignment does is not looked at by the network: a further line of a registered mode is accepted exactly as before. -/
theorem C97_registered_modes_are_not_checked {P : FleetStep K → Prop} {s : Fleet K} (h : Fleet.Reachable g P s) {r : Route K}
    (hm : r.mode ∈ s.net.modes) :
    (s.net.addRoute r).2 = none ↔ OnStreets g r.nodesI ∧ r.id ∉ s.net.routeIds := by
  have hg : s.net.graph = g := (C97_lines_show_the_present_values h).2.2.2.1
  unfold Network.addRoute
  rw [edgesValidator_eq, hg]
  by_cases h1 : OnStreets g r.nodesI
  · rw [if_pos h1]
    simp only [Network.pyOr, Network.register]
    by_cases h2 : r.id ∈ s.net.routeIds
    · simp [h2]
    · simp [h2, h1, Network.addTransportMode, hm]
  · rw [if_neg h1]
    refine iff_of_false ?_ fun h => h1 h.1
    show (some PyErr.NodeSequencesIsNotValid : Option PyErr) ≠ none
    simp

theorem not_suit {routes : List (Route K)} {a b : Mode K} (ha : UsesMode routes a) (hb : UsesMode routes b) (hab : a ≠ b)
    (h : a.name = b.name ∨ (a.d ≠ 1 ∧ b.d ≠ 1)) : ¬ SuitModes routes := by
  rintro (⟨m, _, h1⟩ | ⟨m, m', h1, _, _, h2, h3⟩)
  · exact hab ((h1 a ha).trans (h1 b hb).symm)
  · rcases h2 a ha with rfl | rfl <;> rcases h2 b hb with rfl | rfl
    · exact hab rfl
    · rcases h with h | ⟨h, h'⟩
      · exact h1 h
      · exact h3.elim h h'
    · rcases h with h | ⟨h, h'⟩
      · exact h1 h.symm
      · exact h3.elim h' h
    · exact hab rfl

theorem usesMode_map {s : Network K} {m : Mode K} (φ : Mode K → Mode K) (h : UsesMode s.routes m) :
    UsesMode (s.mapModes φ).routes (φ m) := by
  obtain ⟨r, hr, rfl, d, i, id, hn⟩ := h
  exact ⟨{ r with mode := φ r.mode }, List.mem_map_of_mem hr, rfl, d, i, id, hn⟩

end Generic

section Ordered

variable {K : Type} [Field K] [LinearOrder K] [IsStrictOrderedRing K] [PyMath K] {g : Graph K} {pas : Passenger K}
  {f : Option (Dict Str K)}

theorem workable_map {s : Network K} (h : Workable g pas s f) {φ : Mode K → Mode K} (hr : ∀ m : Mode K, m.Runs → (φ m).Runs)
    (hf : ∀ m : Mode K, (φ m).fini = m.fini) : Workable g pas (s.mapModes φ) f := by
  have hmem : ∀ {p : Route K → Prop}, (∀ r ∈ s.routes, p { r with mode := φ r.mode }) → ∀ r ∈ (s.mapModes φ).routes, p r := by
    intro p hp r hr
    obtain ⟨r', h1, rfl⟩ := List.mem_map.1 hr
    exact hp r' h1
  refine ⟨h.nodes, h.width, ?_, hmem fun r hr => h.sound r hr, hmem fun r hr => h.stops r hr, hmem fun r h1 => hr _ (h.modes r h1),
    fun fr hfr => hmem fun r hr => h.freqs fr hfr r hr, hmem fun r hr => ?_, h.root, h.transfer, h.pv, h.pw, h.pa, h.va⟩
  · have : (s.mapModes φ).routes.map Route.id = s.routes.map Route.id := by simp [Network.mapModes, Function.comp_def]
    rw [this]
    exact h.ids
  · show 0 ≤ (φ r.mode).fini
    rw [hf]
    exact h.start r hr

/-- **C97**: giving a mode the name of another one is accepted, although the network would have refused the mode under this name; if lines
of both run, no optimizer can be built from the network any more. -/
theorem C97_same_name {P : FleetStep K → Prop} {s : Fleet K} (h : Fleet.Reachable g P s) {a b : Mode K}
    (ha : UsesMode s.net.routes a) (hb : UsesMode s.net.routes b) (hab : a ≠ b) (hw : Workable g pas s.net f) (d : Demand K) :
    ((FleetStep.assign b.oid (.name (some a.name))).run s).2 = none ∧
    ∃ e, Optimizer.prepare g d pas ((FleetStep.assign b.oid (.name (some a.name))).run s).1.net f = .error e := by
  obtain ⟨h1, _, h3, _⟩ := C97_lines_show_the_present_values h
  have hobj : ∀ {m : Mode K}, UsesMode s.net.routes m → m = s.objects m.oid := by
    rintro m ⟨r, hr, rfl, _⟩
    exact h1 r hr
  have hoid : a.oid ≠ b.oid := fun he => hab (by rw [hobj ha, hobj hb, he])
  refine ⟨rfl, ?_⟩
  have hs : ¬ SuitModes ((FleetStep.assign b.oid (.name (some a.name))).run s).1.net.routes := by
    refine not_suit (usesMode_map (assigned b.oid (.name (some a.name))) ha) (usesMode_map (assigned b.oid (.name (some a.name))) hb) ?_ (.inl ?_)
    · intro he
      apply hoid
      rw [← assigned_oid b.oid (.name (some a.name)) a, he, assigned_oid]
    · unfold assigned
      rw [if_neg hoid, if_pos rfl]
      rfl
  have hw' : Workable g pas ((FleetStep.assign b.oid (.name (some a.name))).run s).1.net f := by
    refine workable_map hw (fun m hm => ?_) fun m => ?_
    · unfold assigned
      split
      · exact ⟨hm.tat, hm.theta, hm.speed, hm.lines⟩
      · exact hm
    · unfold assigned
      split <;> rfl
  rcases (C69_prepare_iff (d := d) hw').2 fun hh => hs hh.2 with h | h
  · exact ⟨_, h⟩
  · exact ⟨_, h⟩

/-- **C97**: giving several parallel lines to the only mode with a single line per street is accepted; if lines of both modes run, no
optimizer can be built from the network any more. -/
theorem C97_no_single_lines {P : FleetStep K → Prop} {s : Fleet K} (h : Fleet.Reachable g P s) {a b : Mode K}
    (ha : UsesMode s.net.routes a) (hb : UsesMode s.net.routes b) (hab : a ≠ b) (hd : a.d ≠ 1) {k : Int} (hk : 2 ≤ k)
    (hw : Workable g pas s.net f) (d : Demand K) :
    ((FleetStep.assign b.oid (.d (some k))).run s).2 = none ∧
    ∃ e, Optimizer.prepare g d pas ((FleetStep.assign b.oid (.d (some k))).run s).1.net f = .error e := by
  obtain ⟨h1, _, h3, _⟩ := C97_lines_show_the_present_values h
  have hobj : ∀ {m : Mode K}, UsesMode s.net.routes m → m = s.objects m.oid := by
    rintro m ⟨r, hr, rfl, _⟩
    exact h1 r hr
  have hoid : a.oid ≠ b.oid := fun he => hab (by rw [hobj ha, hobj hb, he])
  have hset : ∀ m : Mode K, m.assign (.d (some k)) = ({ m with d := k }, none) := by
    intro m
    have : ¬ k < 0 := by omega
    simp [Mode.assign, store, checkNonneg, this]
  refine ⟨by simp [FleetStep.run, hset], ?_⟩
  have hs : ¬ SuitModes ((FleetStep.assign b.oid (.d (some k))).run s).1.net.routes := by
    refine not_suit (usesMode_map (assigned b.oid (.d (some k))) ha) (usesMode_map (assigned b.oid (.d (some k))) hb) ?_ (.inr ⟨?_, ?_⟩)
    · intro he
      apply hoid
      rw [← assigned_oid b.oid (.d (some k)) a, he, assigned_oid]
    · unfold assigned
      rw [if_neg hoid]
      exact hd
    · unfold assigned
      rw [if_pos rfl, hset]
      show k ≠ 1
      omega
  have hw' : Workable g pas ((FleetStep.assign b.oid (.d (some k))).run s).1.net f := by
    refine workable_map hw (fun m hm => ?_) fun m => ?_
    · unfold assigned
      split
      · rw [hset]
        exact ⟨hm.tat, hm.theta, hm.speed, by show (0 : K) < (k : K); exact_mod_cast (by omega : (0 : Int) < k)⟩
      · exact hm
    · unfold assigned
      split
      · rw [hset]
      · rfl
  rcases (C69_prepare_iff (d := d) hw').2 fun hh => hs hh.2 with h | h
  · exact ⟨_, h⟩
  · exact ⟨_, h⟩

end Ordered

/-! ## Examples -/

section Examples

attribute [local instance] ratMath ratText

/-- object 2 is a metro, the others are buses -/
def demoObjects (i : Nat) : Mode ℚ := if i = 2 then demoMetro else { demoMode with oid := i }

theorem demoObjects_ok (i : Nat) : (demoObjects i).oid = i ∧ (demoObjects i).InRange := by
  unfold demoObjects
  split
  · subst_vars
    exact ⟨rfl, by unfold Mode.InRange; decide +kernel⟩
  · refine ⟨rfl, ?_⟩
    have h : demoMode.InRange := by unfold Mode.InRange; decide +kernel
    exact h

def fleetBus : Route ℚ := ⟨"a".toList, demoMode, [1, 2, 0], [0, 2, 1], [1, 2, 0], [0, 2, 1], .custom⟩
def fleetMetro : Route ℚ := ⟨"b".toList, demoMetro, [1, 2, 0], [0, 2, 1], [1, 0], [0, 1], .custom⟩

/-- a line of buses and a line of metros are added, then the capacity of the metros is changed -/
def demoFleet : Fleet ℚ :=
  ((FleetStep.assign 2 (.kmax (some 500))).run
    ((FleetStep.call (.addRoute fleetMetro)).run
      ((FleetStep.call (.addRoute fleetBus)).run ⟨demoObjects, Network.init (demoCity 3)⟩).1).1).1

theorem demoFleet_reachable : Fleet.Reachable (demoCity 3) (fun c => ¬ c.Checked) demoFleet :=
  .assign (.call (c := .addRoute fleetMetro) (.call (c := .addRoute fleetBus) (.init demoObjects demoObjects_ok)
    (show fleetBus.mode = demoObjects 1 from rfl) id) (show fleetMetro.mode = demoObjects 2 from rfl) id) id

/-- both lines are there, the line of metros has the new capacity -/
theorem demoFleet_net : demoFleet.net = ⟨demoCity 3, [fleetBus, { fleetMetro with mode := { demoMetro with kmax := 500 } }],
    ["a".toList, "b".toList], [demoMode, { demoMetro with kmax := 500 }]⟩ := by decide +kernel

/-- the metro is renamed: the network keeps two modes of one name, which it refuses to a third one and to the same ones when they are
registered, and it still accepts lines -/
example : (((FleetStep.assign 2 (.name (some "bus".toList))).run demoFleet).1.net.modes.map Mode.name) = ["bus".toList, "bus".toList] ∧
    (((FleetStep.assign 2 (.name (some "bus".toList))).run demoFleet).1.net.addRoute
      { fleetBus with id := "c".toList }).2 = none ∧
    ((Network.init (demoCity 3)).addTransportMode demoMode).1.addTransportMode { demoMetro with name := "bus".toList } =
      (((Network.init (demoCity 3)).addTransportMode demoMode).1, some .AddMode) := by decide +kernel

/-- the hypotheses of C97_same_name and C97_no_single_lines hold -/
theorem demoFleet_workable : Workable (demoCity 3) demoFair demoFleet.net none where
  nodes := demoShape.2
  width := ⟨2, by decide +kernel, by decide +kernel⟩
  ids := by rw [demoFleet_net]; decide +kernel
  sound := by
    rw [demoFleet_net]
    intro r hr
    simp only [List.mem_cons, List.not_mem_nil, or_false] at hr
    rcases hr with rfl | rfl
    · exact Or.inr ⟨by decide, by constructor <;> decide⟩
    · exact Or.inr ⟨by decide, by constructor <;> decide⟩
  stops := by
    rw [demoFleet_net]
    have key : ∀ a : Int, a ∈ [1, 2, 0, (0 : Int), 2, 1] → ∃ c ∈ (demoCity 3).nodes, c.id = a := by decide +kernel
    intro r hr a ⟨d, i, h1, _⟩
    simp only [List.mem_cons, List.not_mem_nil, or_false] at hr
    refine key a ?_
    have h2 := List.mem_of_getElem? h1
    rcases hr with rfl | rfl <;> cases d <;> simp [Route.stopsOf, fleetBus, fleetMetro] at h2 <;> simp <;> omega
  modes := by
    rw [demoFleet_net]
    intro r hr
    simp only [List.mem_cons, List.not_mem_nil, or_false] at hr
    rcases hr with rfl | rfl
    · exact ⟨by decide +kernel, by decide +kernel, by decide +kernel, by decide +kernel⟩
    · exact ⟨by decide +kernel, by decide +kernel, by decide +kernel, by decide +kernel⟩
  freqs := by intro fr h; cases h
  start := by rw [demoFleet_net]; decide +kernel
  root := busWorkable.root
  transfer := busWorkable.transfer
  pv := busWorkable.pv
  pw := busWorkable.pw
  pa := busWorkable.pa
  va := busWorkable.va

theorem demoFleet_uses : UsesMode demoFleet.net.routes demoMode ∧ UsesMode demoFleet.net.routes { demoMetro with kmax := 500 } := by
  rw [demoFleet_net]
  exact ⟨⟨fleetBus, by simp, rfl, .I, 0, 1, by constructor <;> decide⟩,
    ⟨{ fleetMetro with mode := { demoMetro with kmax := 500 } }, by simp, rfl, .I, 0, 1, by constructor <;> decide⟩⟩

example (d : Demand ℚ) : ∃ e, Optimizer.prepare (demoCity 3) d demoFair
    ((FleetStep.assign 2 (.name (some "bus".toList))).run demoFleet).1.net none = .error e :=
  (C97_same_name demoFleet_reachable demoFleet_uses.1 demoFleet_uses.2 (by decide +kernel) demoFleet_workable d).2

example (d : Demand ℚ) : ∃ e, Optimizer.prepare (demoCity 3) d demoFair
    ((FleetStep.assign 1 (.d (some 3))).run demoFleet).1.net none = .error e :=
  (C97_no_single_lines demoFleet_reachable demoFleet_uses.2 demoFleet_uses.1 (by decide +kernel) (by decide +kernel) (by decide)
    demoFleet_workable d).2

/-- before the assignments the optimizer can be built -/
example : (Optimizer.prepare (demoCity 3) ⟨demoCity 3, [(1, [(0, 5)])], 5⟩ demoFair demoFleet.net none).isOk = true ∧
    (Optimizer.prepare (demoCity 3) ⟨demoCity 3, [(1, [(0, 5)])], 5⟩ demoFair
      ((FleetStep.assign 2 (.name (some "bus".toList))).run demoFleet).1.net none).isOk = false := by decide +kernel

/-- the hypotheses of C97_registration_checks_present_values and C97_registered_modes_are_not_checked hold, and both answers occur -/
example : demoObjects 3 ∉ demoFleet.net.modes ∧ demoMode ∈ demoFleet.net.modes ∧ OnStreets (demoCity 3) [1, 2, 0] := by
  rw [demoFleet_net]; decide +kernel

end Examples

end Sidermit
