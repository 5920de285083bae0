import Verif.Spec.Shared
import Verif.Props.Idle
import Verif.Props.Behaviour
import Verif.Props.Scale

/-!
C96: what becomes of an optimizer when its inputs are changed after it was built.
-/

set_option linter.unusedSectionVars false

namespace Sidermit

section Generic

variable {K : Type} [Field K] [LinearOrder K] [IsStrictOrderedRing K] [PyMath K]

variable {g : Graph K} {d : Demand K} {pas : Passenger K} {net : Network K} {f : Option (Dict Str K)} {o : Optimizer K}

/-! ## the trips -/

/-- C96: the cost, the constraints and the tables of loads do not see calls that change the trips, at any frequencies, whatever other
calls come between them. -/
theorem C96_trips_are_remembered (o : Optimizer K) (calls : List (InputCall K)) [DecidablePred (InputCall.OnDemand (K := K))] :
    (∀ y, (o.later calls).vrc y = (o.later (calls.filter fun c => ¬ c.OnDemand)).vrc y) ∧
    (∀ y, (o.later calls).constrains y = (o.later (calls.filter fun c => ¬ c.OnDemand)).constrains y) ∧
    ∀ fr, (o.later calls).loads fr = o.loads fr := by
  have key : ∀ (calls : List (InputCall K)) (a b : Optimizer K), (∃ x, b = { a with demand := x }) →
      ∃ x, b.later (calls.filter fun c => ¬ c.OnDemand) = { a.later calls with demand := x } := by
    intro calls
    induction calls with
    | nil => intro a b h; exact h
    | cons c t ih =>
      rintro a b ⟨x, rfl⟩
      cases c with
      | demand i j v =>
        rw [List.filter_cons_of_neg (by simp [InputCall.OnDemand])]
        exact ih _ _ ⟨x, rfl⟩
      | net c =>
        rw [List.filter_cons_of_pos (by simp [InputCall.OnDemand])]
        exact ih _ _ ⟨x, rfl⟩
      | passenger p q =>
        rw [List.filter_cons_of_pos (by simp [InputCall.OnDemand])]
        exact ih _ _ ⟨x, rfl⟩
  obtain ⟨x, hx⟩ := key calls o o ⟨o.demand, rfl⟩
  refine ⟨fun y => ?_, fun y => ?_, ?_⟩
  · rw [hx]; rfl
  · rw [hx]; rfl
  · clear hx key
    induction calls generalizing o with
    | nil => intro fr; rfl
    | cons c t ih =>
      intro fr
      have h1 : o.later (c :: t) = (c.run o).later t := rfl
      rw [h1, ih]
      cases c <;> rfl

/-! ## the tables of results -/

theorem later_kept (calls : List (InputCall K)) : ∀ o : Optimizer K, (o.later calls).graph = o.graph ∧ (o.later calls).lines = o.lines ∧
    (o.later calls).f = o.f ∧ (o.later calls).ext = o.ext ∧ (o.later calls).pairs = o.pairs := by
  induction calls with
  | nil => intro o; exact ⟨rfl, rfl, rfl, rfl, rfl⟩
  | cons c t ih =>
    intro o
    have h1 : o.later (c :: t) = (c.run o).later t := rfl
    rw [h1]
    obtain ⟨a1, a2, a3, a4, a5⟩ := ih (c.run o)
    rw [a1, a2, a3, a4, a5]
    cases c <;> exact ⟨rfl, rfl, rfl, rfl, rfl⟩

/-- the optimizer has the objects as they are -/
theorem later_inputs (calls : List (InputCall K)) : ∀ o : Optimizer K,
    (o.later calls).demand = (Inputs.after ⟨o.demand, o.net, o.pas⟩ calls).demand ∧
    (o.later calls).net = (Inputs.after ⟨o.demand, o.net, o.pas⟩ calls).net ∧
    (o.later calls).pas = (Inputs.after ⟨o.demand, o.net, o.pas⟩ calls).pas := by
  induction calls with
  | nil => intro o; exact ⟨rfl, rfl, rfl⟩
  | cons c t ih =>
    intro o
    have h1 : o.later (c :: t) = (c.run o).later t := rfl
    rw [h1]
    have h := ih (c.run o)
    cases c <;> exact h

/-- the values for a trip, for two totals -/
theorem overall_total (fin : Optimizer K) (fr : Dict Str K) (t : Loads K) {n : K} (hn : n ≠ 0) (hn' : fin.demand.total ≠ 0) :
    { fin with demand := { fin.demand with total := n } }.overall fr t =
      (fin.overall fr t).map (Overall.perTrip (fin.demand.total / n)) := by
  have hdiv : ∀ a : K, a / n = fin.demand.total / n * (a / fin.demand.total) := by
    intro a; field_simp
  unfold Optimizer.overall
  show (fin.operatorsCost t.z t.v fr (getK t.load) >>= _) = _
  cases fin.operatorsCost t.z t.v fr (getK t.load) with
  | error e => rfl
  | ok co =>
    simp only [py_ok_bind]
    cases usersCost (allNodes fin.ext.nodes).length fr fin.ext fin.pas co.2.z co.2.v fin.pairs with
    | error e => rfl
    | ok cu =>
      simp only [py_ok_bind]
      cases resourcesConsumer (allNodes fin.ext.nodes).length fr fin.ext fin.pas.va co.2.z co.2.v fin.pairs with
      | error e => rfl
      | ok u =>
        simp only [py_ok_bind]
        cases linesTravelTime fin.net.routes fin.graph.edgesDistance with
        | error e => rfl
        | ok times =>
          simp only [py_ok_bind]
          generalize averages (K := K) _ = q
          cases q with
          | error e => rfl
          | ok sizes =>
            simp only [py_ok_bind, pyDiv, hn, hn', if_false]
            simp only [py_pure, Except.map, Overall.perTrip]
            rw [hdiv (_ + _ + _), hdiv co.1, hdiv (infrastructureCost _ _ _ _), hdiv cu, hdiv u.tv, hdiv u.te, hdiv u.ta, hdiv u.t]
            simp only [mul_assoc]

/-- without trips the table of the whole network raises -/
theorem overall_no_trips (fin : Optimizer K) (fr : Dict Str K) (t : Loads K) (h : fin.demand.total = 0) (w : Overall K) :
    fin.overall fr t ≠ .ok w := by
  unfold Optimizer.overall
  cases fin.operatorsCost t.z t.v fr (getK t.load) with
  | error e => exact fun h => nomatch h
  | ok co =>
    simp only [py_ok_bind]
    cases usersCost (allNodes fin.ext.nodes).length fr fin.ext fin.pas co.2.z co.2.v fin.pairs with
    | error e => exact fun h => nomatch h
    | ok cu =>
      simp only [py_ok_bind]
      cases resourcesConsumer (allNodes fin.ext.nodes).length fr fin.ext fin.pas.va co.2.z co.2.v fin.pairs with
      | error e => exact fun h => nomatch h
      | ok u =>
        simp only [py_ok_bind]
        cases linesTravelTime fin.net.routes fin.graph.edgesDistance with
        | error e => exact fun h => nomatch h
        | ok times =>
          simp only [py_ok_bind]
          generalize averages (K := K) _ = q
          cases q with
          | error e => exact fun h => nomatch h
          | ok sizes =>
            rw [h]
            simp only [py_ok_bind, pyDiv, if_true]
            exact fun h => nomatch h

/-- C96: before any calls, the report is the one of the other properties -/
theorem C96_report_at_once (ho : Optimizer.prepare g d pas net f = .ok o) (best : Option (Res K)) :
    o.report d.total best = o.overallResults best := by
  obtain ⟨_, e2, _⟩ := prepare_fields ho
  unfold Optimizer.report Optimizer.overallResults
  cases best with
  | none => rfl
  | some r =>
    simp only
    cases hl : o.lastIteration r with
    | error e => rfl
    | ok l =>
      have hd : l.2.1.demand = d := by
        rw [Optimizer.lastIteration] at hl
        obtain ⟨fr, h1, h2⟩ := py_bind_eq_ok.1 hl
        obtain ⟨fin, h3, h4⟩ := py_bind_eq_ok.1 h2
        obtain ⟨t, h5, h6⟩ := py_bind_eq_ok.1 h4
        cases h6
        exact (init_passenger h3).2.1.trans e2
      simp only [py_ok_bind]
      rw [← hd]

/-- C96: the table of lines is that of an optimizer built now, from the objects as they are after the calls, if the network has the
same names of lines.  The table of the whole network has the costs and hours of an optimizer built now, but divided by the number of
trips there were when the optimizer was built. -/
theorem C96_results_are_new (ho : Optimizer.prepare g d pas net f = .ok o) (calls : List (InputCall K)) {f' : Option (Dict Str K)}
    {o' : Optimizer K} {w : Inputs K} (hw : w = Inputs.after ⟨d, net, pas⟩ calls)
    (ho' : Optimizer.prepare g w.demand w.pas w.net f' = .ok o') (hids : w.net.routes.map Route.id = net.routes.map Route.id)
    (best : Option (Res K)) :
    (o.later calls).networkResults best = o'.networkResults best ∧
    ∀ v, o'.overallResults best = .ok v → d.total ≠ 0 →
      w.demand.total ≠ 0 ∧ (o.later calls).report d.total best = .ok (v.perTrip (w.demand.total / d.total)) := by
  obtain ⟨e1, e2, e3, e4, _, _, e7, _⟩ := prepare_fields ho
  obtain ⟨i1, i2, i3⟩ := later_inputs calls o
  rw [e2, e3, e4, ← hw] at i1 i2 i3
  rw [← i1] at ho' ⊢
  rw [← i2] at ho' hids
  rw [← i3] at ho'
  obtain ⟨h1, h2, _⟩ := later_kept calls o
  obtain ⟨q1, q2, q3, q4, _, _, q7, _⟩ := prepare_fields ho'
  have hl : (o.later calls).lines = o'.lines := by rw [h2, e7, q7, f0_lines, f0_lines, hids]
  have hlast : ∀ r, (o.later calls).lastIteration r = o'.lastIteration r := by
    intro r
    rw [Optimizer.lastIteration, Optimizer.lastIteration, hl, h1, e1, q1, q2, q3, q4]
  constructor
  · unfold Optimizer.networkResults
    cases best with
    | none => rfl
    | some r => simp only [hlast]
  · intro w hw hn
    unfold Optimizer.overallResults at hw
    unfold Optimizer.report
    cases best with
    | none => cases hw
    | some r =>
      simp only [hlast] at hw ⊢
      cases hlr : o'.lastIteration r with
      | error e => rw [hlr] at hw; cases hw
      | ok l =>
        rw [hlr] at hw
        simp only [py_ok_bind] at hw ⊢
        have hd : l.2.1.demand = (o.later calls).demand := by
          rw [Optimizer.lastIteration] at hlr
          obtain ⟨fr, k1, k2⟩ := py_bind_eq_ok.1 hlr
          obtain ⟨fin, k3, k4⟩ := py_bind_eq_ok.1 k2
          obtain ⟨t, k5, k6⟩ := py_bind_eq_ok.1 k4
          cases k6
          exact (init_passenger k3).2.1.trans q2
        have hn' : l.2.1.demand.total ≠ 0 := fun h0 => overall_no_trips _ _ _ h0 w hw
        refine ⟨hd ▸ hn', ?_⟩
        rw [overall_total _ _ _ hn hn', hw, hd]
        rfl

/-! ## the social values of time -/

theorem assign_social {a : PassengerAttr} (ha : a.Social) (p : Passenger K) (x : Option K) :
    (p.assign a x).1.va = p.va ∧ (p.assign a x).1.pv = p.pv ∧ (p.assign a x).1.pw = p.pw ∧ (p.assign a x).1.pa = p.pa ∧
      (p.assign a x).1.pt = p.pt := by
  cases a <;> first | exact ha.elim | skip
  all_goals
    unfold Passenger.assign store
    dsimp only
    split <;> exact ⟨rfl, rfl, rfl, rfl, rfl⟩

/-- C96: after assignments to the social values of time, accepted or not, the optimizer is the one that would be built now. -/
theorem C96_social_values_are_read (hb : Built g d pas net f o) (ho : Optimizer.init g d pas net f = .ok o)
    (calls : List (PassengerAttr × Option K)) (hc : ∀ c ∈ calls, c.1.Social) :
    Optimizer.init g d (Inputs.after ⟨d, net, pas⟩ (calls.map fun c => .passenger c.1 c.2)).pas net f =
      .ok (o.later (calls.map fun c => .passenger c.1 c.2)) := by
  have hpas : (Inputs.after ⟨d, net, pas⟩ (calls.map fun c => .passenger c.1 c.2)).pas =
      (o.later (calls.map fun c => .passenger c.1 c.2)).pas := by
    obtain ⟨_, e2, e3, e4⟩ := init_passenger ho
    rw [(later_inputs _ o).2.2, e2, e3, e4]
  rw [hpas]
  have key : ∀ (calls : List (PassengerAttr × Option K)) (o : Optimizer K), (∀ c ∈ calls, c.1.Social) →
      ∃ q, o.later (calls.map fun c => .passenger c.1 c.2) = { o with pas := q } ∧
        q.va = o.pas.va ∧ q.pv = o.pas.pv ∧ q.pw = o.pas.pw ∧ q.pa = o.pas.pa ∧ q.pt = o.pas.pt := by
    intro calls
    induction calls with
    | nil => intro o _; exact ⟨o.pas, rfl, rfl, rfl, rfl, rfl, rfl⟩
    | cons c t ih =>
      intro o hc
      obtain ⟨q, hq, q1, q2, q3, q4, q5⟩ := ih (InputCall.run o (.passenger c.1 c.2)) fun c hc' => hc c (List.mem_cons_of_mem _ hc')
      obtain ⟨a1, a2, a3, a4, a5⟩ := assign_social (hc c List.mem_cons_self) o.pas c.2
      refine ⟨q, hq, q1.trans a1, q2.trans a2, q3.trans a3, q4.trans a4, q5.trans a5⟩
  obtain ⟨q, hq, q1, q2, q3, q4, q5⟩ := key calls o hc
  have hp : o.pas = pas := (init_passenger ho).2.2.1
  rw [hp] at q1 q2 q3 q4 q5
  have hpv : pas.pv ≠ 0 := hb.adm.pv.ne'
  rw [hq]
  rw [(C67_same_choices (p := pas) (q := q) ⟨q1, q5, hpv, by rw [q2]; exact hpv, by rw [q3, q2], by rw [q4, q2]⟩ g d net f).2.2, ho]
  rfl

/-! ## the lines -/

theorem later_net (calls : List (NetCall K)) : ∀ o : Optimizer K, o.later (calls.map .net) =
    { o with net := calls.foldl (fun s c => (c.run s).1) o.net } := by
  induction calls with
  | nil => intro o; rfl
  | cons c t ih => intro o; exact ih (InputCall.run o (.net c))

/-- the times of travel of the lines that two networks share -/
theorem times_same {dist : Dict Int (Dict Int K)} {routes routes' : List (Route K)} (hids : (routes.map Route.id).Nodup)
    (hids' : (routes'.map Route.id).Nodup) (hv : ∀ r ∈ routes, r.mode.v ≠ 0) (hv' : ∀ r ∈ routes', r.mode.v ≠ 0) :
    ∃ t t', linesTravelTime routes dist = .ok t ∧ linesTravelTime routes' dist = .ok t' ∧
      ∀ r ∈ routes, r ∈ routes' → t.getD r.id 0 = t'.getD r.id 0 := by
  refine ⟨_, _, linesTravelTime_fold dist routes hv [], linesTravelTime_fold dist routes' hv' [], ?_⟩
  intro r hr hr'
  rw [Dict.getD, Dict.getD, (tableOf_fold _ routes [] hids).1 r hr, (tableOf_fold _ routes' [] hids').1 r hr']

/-- the cycles of the lines that two networks share -/
theorem cycles_same {z v : Dict (LoadKey K) K} (hz : TableOk z) (hv : TableOk v) {routes routes' : List (Route K)}
    (hids : (routes.map Route.id).Nodup) (hids' : (routes'.map Route.id).Nodup) {t t' : Dict Str K} {r : Route K} (hr : r ∈ routes)
    (hr' : r ∈ routes') (ht : t.getD r.id 0 = t'.getD r.id 0) :
    (getCycleTime z v routes t).time.getD r.id 0 = (getCycleTime z v routes' t').time.getD r.id 0 := by
  classical
  have hS : (Dict.keys z ++ Dict.keys v).dedup.Nodup := List.nodup_dedup _
  have hz' : KeysIn (Dict.keys z ++ Dict.keys v).dedup z := ⟨hz, fun k hk => List.mem_dedup.2 (by simp [hk])⟩
  have hv' : KeysIn (Dict.keys z ++ Dict.keys v).dedup v := ⟨hv, fun k hk => List.mem_dedup.2 (by simp [hk])⟩
  obtain ⟨_, h1⟩ := cycle_fold hS t z v routes ⟨[], z, v⟩ ⟨fun _ => rfl, fun _ => rfl, hz', hv'⟩
  obtain ⟨_, h2⟩ := cycle_fold hS t' z v routes' ⟨[], z, v⟩ ⟨fun _ => rfl, fun _ => rfl, hz', hv'⟩
  unfold getCycleTime
  rw [h1, h2, Dict.getD, Dict.getD, (tableOf_fold _ routes [] hids).1 r hr, (tableOf_fold _ routes' [] hids').1 r hr', ht]

/-- the costs of an optimizer whose network is `net'` now -/
theorem costs_now (hb : Built g d pas net f o) {fr : Dict Str K} (hfr : ∀ id, 0 ≤ fr.getD id 0) (hrun : Carries o fr) {t : Loads K}
    (ht : o.loads fr = .ok t) {u : Resources K}
    (hu : resourcesConsumer (allNodes o.ext.nodes).length fr o.ext pas.va t.z t.v o.pairs = .ok u) (net' : Network K)
    {times : Dict Str K} (htimes : linesTravelTime net'.routes g.edgesDistance = .ok times) :
    { o with net := net' }.costs fr t =
      .ok (operatorsCost net'.routes (getCycleTime t.z t.v net'.routes times).time fr (getK t.load),
        infrastructureCost g net'.routes net'.modes fr, resourcesCost pas u) := by
  obtain ⟨e1, _, e3, _, hf, _, _, hx, _⟩ := prepare_fields hb.built
  have hadm := hb.adm
  rw [← hf] at hadm
  have hl := hb.loading_of hfr hrun
  obtain ⟨kz, kv⟩ := C50_applies hadm hb.nodes hx hl ht
  obtain ⟨uz, uv, _⟩ := C50_tables_unchanged kz kv net'.routes times
  have hu' : resourcesConsumer (allNodes o.ext.nodes).length fr o.ext pas.va (getCycleTime t.z t.v net'.routes times).z
      (getCycleTime t.z t.v net'.routes times).v o.pairs = .ok u := by
    rw [← hu, resources_spec (hl.users hadm hb.nodes hx hb.walk.ne'), resources_spec (hl.users hadm hb.nodes hx hb.walk.ne')]
    simp only [tvW_congr uz uv]
  rw [Optimizer.costs, Optimizer.operatorsCost]
  dsimp only
  rw [e1, e3, htimes]
  simp only [py_ok_bind, py_pure]
  rw [usersCost, hu']
  rfl

/-- the costs before and after calls on the network -/
theorem costs_before_after (hb : Built g d pas net f o) {fr : Dict Str K} (hfr : ∀ id, 0 ≤ fr.getD id 0) (hrun : Carries o fr)
    {net' : Network K} (hids : (net'.routes.map Route.id).Nodup) (hv : ∀ r ∈ net'.routes, r.mode.v ≠ 0) :
    ∃ t cu, ∃ c c' : Dict Str K, o.loads fr = .ok t ∧
      o.costs fr t = .ok (operatorsCost net.routes c fr (getK t.load), infrastructureCost g net.routes net.modes fr, cu) ∧
      { o with net := net' }.costs fr t =
        .ok (operatorsCost net'.routes c' fr (getK t.load), infrastructureCost g net'.routes net'.modes fr, cu) ∧
      ∀ r ∈ net.routes, r ∈ net'.routes → c.getD r.id 0 = c'.getD r.id 0 := by
  obtain ⟨e1, _, e3, e4, hf, _, _, hx, _⟩ := prepare_fields hb.built
  have hadm := hb.adm
  rw [← hf] at hadm
  have hl := hb.loading_of hfr hrun
  obtain ⟨t, ht⟩ := C44_terminates hadm hb.nodes hx hl
  obtain ⟨u, hu⟩ := C52_terminates (z := t.z) (v := t.v) hadm hb.nodes hx hl hb.walk.ne'
  obtain ⟨kz, kv⟩ := C50_applies hadm hb.nodes hx hl ht
  obtain ⟨times, times', h1, h2, h3⟩ := times_same (dist := g.edgesDistance) hb.ids hids
    (fun r hr => (hb.adm.modes r hr).speed.ne') hv
  refine ⟨t, resourcesCost pas u, _, _, ht, ?_, costs_now hb hfr hrun ht hu net' h2, fun r hr hr' => cycles_same kz kv hb.ids hids hr hr' (h3 r hr hr')⟩
  have := costs_now hb hfr hrun ht hu net h1
  rw [← e4] at this
  rw [← e4]
  exact this

/-- the cost at frequencies, from its parts -/
theorem vrc_of_costs {o : Optimizer K} {y : List K} {fr : Dict Str K} {t : Loads K} {c : K × K × K} (hy : foptToF o.lines y = .ok fr)
    (ht : o.loads fr = .ok t) (hc : o.costs fr t = .ok c) : o.vrc y = .ok (c.1 + c.2.1 + c.2.2) := by
  rw [Optimizer.vrc, hy, py_ok_bind, ht, py_ok_bind, hc]
  rfl

/-- what adding lines and modes makes of a network -/
theorem added (calls : List (NetCall K)) : ∀ s : Network K, s.Wf → (∀ c ∈ calls, c.Adds) →
    (calls.foldl (fun s c => (c.run s).1) s).Wf ∧
    (∃ rs, (calls.foldl (fun s c => (c.run s).1) s).routes = s.routes ++ rs) ∧
    ∃ ms, (calls.foldl (fun s c => (c.run s).1) s).modes = s.modes ++ ms := by
  induction calls with
  | nil => intro s h _; exact ⟨h, ⟨[], (List.append_nil _).symm⟩, [], (List.append_nil _).symm⟩
  | cons c t ih =>
    intro s h hc
    have hone : (c.run s).1.Wf ∧ (∃ rs, (c.run s).1.routes = s.routes ++ rs) ∧ ∃ ms, (c.run s).1.modes = s.modes ++ ms := by
      have hc' := hc c List.mem_cons_self
      cases c with
      | removeRoute => exact hc'.elim
      | removeMode => exact hc'.elim
      | addRoute r =>
        refine ⟨h.addRoute r, ?_⟩
        simp only [NetCall.run]
        rw [addRoute_eq h.modes]
        split_ifs
        all_goals first
          | exact ⟨⟨[], (List.append_nil _).symm⟩, [], (List.append_nil _).symm⟩
          | exact ⟨⟨[r], rfl⟩, [], (List.append_nil _).symm⟩
          | exact ⟨⟨[r], rfl⟩, [r.mode], rfl⟩
      | addMode m =>
        refine ⟨h.addMode m, ?_⟩
        simp only [NetCall.run]
        rw [addTransportMode_eq h.modes]
        split_ifs
        all_goals first
          | exact ⟨⟨[], (List.append_nil _).symm⟩, [], (List.append_nil _).symm⟩
          | exact ⟨⟨[], (List.append_nil _).symm⟩, [m], rfl⟩
    obtain ⟨w, ⟨rs, hrs⟩, ms, hms⟩ := hone
    obtain ⟨w', ⟨rs', hrs'⟩, ms', hms'⟩ := ih (c.run s).1 w fun c hc' => hc c (List.mem_cons_of_mem _ hc')
    refine ⟨w', ⟨rs ++ rs', ?_⟩, ms ++ ms', ?_⟩
    · rw [List.foldl_cons, hrs', hrs, List.append_assoc]
    · rw [List.foldl_cons, hms', hms, List.append_assoc]

/-- what removing lines makes of a network -/
theorem removed (ids : List Str) : ∀ s : Network K, s.Wf →
    (ids.foldl (fun s id => (s.removeRoute id).1) s).Wf ∧
    (ids.foldl (fun s id => (s.removeRoute id).1) s).routes = s.routes.filter (fun r => r.id ∉ ids) ∧
    (ids.foldl (fun s id => (s.removeRoute id).1) s).modes = s.modes := by
  induction ids with
  | nil => intro s h; exact ⟨h, by simp, rfl⟩
  | cons id t ih =>
    intro s h
    have hone : (s.removeRoute id).1.routes = s.routes.filter (fun r => r.id ≠ id) ∧ (s.removeRoute id).1.modes = s.modes := by
      rw [removeRoute_eq h]
      split_ifs with hid
      · exact ⟨rfl, rfl⟩
      · refine ⟨?_, rfl⟩
        symm
        rw [List.filter_eq_self]
        intro r hr
        rw [h.ids] at hid
        have : r.id ≠ id := fun he => hid (he ▸ List.mem_map_of_mem hr)
        simpa using this
    obtain ⟨w, h1, h2⟩ := ih (s.removeRoute id).1 (h.removeRoute id)
    refine ⟨w, ?_, ?_⟩
    · rw [List.foldl_cons, h1, hone.1, List.filter_filter]
      congr 1
      funext r
      by_cases h1 : r.id = id <;> by_cases h2 : r.id ∈ t <;> simp [h1, h2]
    · rw [List.foldl_cons, h2, hone.2]

/-- C96: lines and modes that are added to the network do not change the cost at any frequencies of the lines there were, and not which
frequencies are feasible.  The optimizer gets a constraint for every added line and for every street and added mode, so the number of
constraints it has counted when it was built is wrong. -/
theorem C96_added_lines_cost_nothing (hb : Built g d pas net f o) (hw : Network.Reachable g net) {n : Nat} (hs : CityShape g n)
    (hm : ∀ r ∈ net.routes, r.mode ∈ net.modes) (calls : List (NetCall K)) (hc : ∀ c ∈ calls, c.Adds)
    {w : Inputs K} (hw' : w = Inputs.after ⟨d, net, pas⟩ (calls.map .net))
    (hin : ∀ r ∈ w.net.routes, r.mode.InRange)
    (hin' : ∀ m ∈ w.net.modes, m.InRange ∧ 0 < m.d)
    {y : List K} (hlen : y.length = net.routes.length) (hy : ∀ q ∈ y, 0 ≤ q) :
    ∃ fr, Gives net y fr ∧ (Carries o fr → ∃ a k k', o.vrc y = .ok a ∧ (o.later (calls.map .net)).vrc y = .ok a ∧
      o.constrains y = .ok k ∧ (o.later (calls.map .net)).constrains y = .ok k' ∧ ((∀ q ∈ k', q ≤ 0) ↔ ∀ q ∈ k, q ≤ 0) ∧
      k.length = net.routes.length + g.edges.length * net.modes.length ∧
      k'.length = w.net.routes.length + g.edges.length * w.net.modes.length) := by
  classical
  obtain ⟨e1, e2, e3, e4, hf, _, _, hx, _⟩ := prepare_fields hb.built
  obtain ⟨fr, hfr, hg⟩ := hb.vector hlen
  refine ⟨fr, hg, fun hrun => ?_⟩
  have hnet : w.net = (o.later (calls.map .net)).net := by rw [(later_inputs _ o).2.1, e2, e3, e4, hw']
  rw [hnet] at hin hin' ⊢
  rw [later_net, e4] at hin hin' ⊢
  dsimp only at hin hin' ⊢
  obtain ⟨w', ⟨rs, hrs⟩, ms, hms⟩ := added calls net hw.wf hc
  generalize calls.foldl (fun s c => (c.run s).1) net = net' at *
  have hids' : (net'.routes.map Route.id).Nodup := w'.ids ▸ w'.nodup
  obtain ⟨t, cu, c, c', ht, hc1, hc2, hcc⟩ := costs_before_after hb (hg.value hy) hrun hids' fun r hr => (hin r hr).2.2.2.1.ne'
  have hidle : IdleRoutes net.routes net'.routes fr := by
    refine ⟨hb.ids.of_map _, hids'.of_map _, fun r hr => by rw [hrs]; simp [hr], fun r hr hno => ?_⟩
    rw [Dict.getD]
    cases hget : fr.get? r.id with
    | none => rfl
    | some q =>
      exfalso
      have hk : r.id ∈ Dict.keys fr := (Dict.mem_keys_iff fr r.id).2 ⟨q, hget⟩
      rw [hg.1] at hk
      obtain ⟨r', hr', he⟩ := List.mem_map.1 hk
      have : r' = r := List.inj_on_of_nodup_map hids' (by rw [hrs]; simp [hr']) hr he
      exact hno (this ▸ hr')
  have hco : operatorsCost net'.routes c' fr (getK t.load) = operatorsCost net.routes c fr (getK t.load) :=
    C93_operators hidle fun r hr => ⟨hcc r hr (hidle.lines r hr), rfl⟩
  have hci : infrastructureCost g net'.routes net'.modes fr = infrastructureCost g net.routes net.modes fr :=
    C93_infrastructure hs hb.nodes hidle hw.wf.modes.names_nodup.of_map w'.modes.names_nodup.of_map (fun m hm => by rw [hms]; simp [hm]) hm
  have hd : ∀ m ∈ net'.modes, 0 < m.d := fun m hm => (hin' m hm).2
  have hsub : ∀ m ∈ net.modes, m ∈ net'.modes := fun m hm => by rw [hms]; simp [hm]
  obtain ⟨q, hq, hql, _⟩ := C47_values hs net.routes net.modes fr fun m hm => hd m (hsub m hm)
  obtain ⟨q', hq', hql', _⟩ := C47_values hs net'.routes net'.modes fr hd
  have hfl := C93_street_limits hs hb.nodes hidle hd (fun m hm => (hin' m hm).1.2.2.2.2.2.1) hsub hm hq hq'
  refine ⟨_, kConstrains net.routes (mostLoaded t.load) ++ q, kConstrains net'.routes (mostLoaded t.load) ++ q',
    vrc_of_costs hfr ht hc1, ?_, ?_, ?_, ?_, ?_, ?_⟩
  · rw [← hco, ← hci]
    exact vrc_of_costs hfr ht hc2
  · rw [Optimizer.constrains, hfr, py_ok_bind, ht, py_ok_bind, e1, e4, hq]; rfl
  · have ht' : { o with net := net' }.loads fr = .ok t := ht
    rw [Optimizer.constrains]
    dsimp only
    rw [hfr, py_ok_bind, ht', py_ok_bind, e1, hq']; rfl
  · simp only [List.mem_append, or_imp, forall_and, hfl]
    refine and_congr_left fun _ => ?_
    have hadm := hb.adm
    rw [← hf] at hadm
    have hkeys := (table_keys hadm hb.nodes hx (hb.loading_of (hg.value hy) hrun) ht).2.2
    simp only [kConstrains, hrs, List.map_append, List.mem_append, or_imp, forall_and]
    refine and_iff_left fun w hw' => ?_
    obtain ⟨r, hr, rfl⟩ := List.mem_map.1 hw'
    have hnone : (mostLoaded t.load).get? r.id = none := by
      cases hget : (mostLoaded t.load).get? r.id with
      | none => rfl
      | some q =>
        exfalso
        obtain ⟨p, hp, hpid⟩ := (C45_maximum t.load r.id).1.1 ⟨q, hget⟩
        obtain ⟨n', _, hn', _, _, hk⟩ := hkeys p.1 (List.mem_map_of_mem hp)
        have hid : n'.route.id = r.id := by rw [← hpid, ← hk]; rfl
        have hmem : n'.route ∈ net.routes := List.mem_of_getElem? hn'.1
        rw [hrs, List.map_append, List.nodup_append] at hids'
        exact hids'.2.2 _ (List.mem_map_of_mem hmem) _ (List.mem_map_of_mem hr) hid
    rw [Dict.getD, hnone]
    have := (hin r (by rw [hrs]; simp [hr])).2.2.2.2.2.2.1
    simpa using this
  · rw [List.length_append, hql, kConstrains, List.length_map]
  · rw [List.length_append, hql', kConstrains, List.length_map]

/-- fewer lines use fewer streets -/
theorem infrastructure_fewer {n : Nat} (hs : CityShape g n) (hids : DistinctIds g) (hroot : ∀ x : K, 0 ≤ PyMath.sqrt x)
    {routes routes' : List (Route K)} (hsub : ∀ r ∈ routes', r ∈ routes) {modes : List (Mode K)} (hnd : modes.Nodup)
    (hin : ∀ m ∈ modes, m.InRange) (fr : Dict Str K) :
    infrastructureCost g routes' modes fr ≤ infrastructureCost g routes modes fr := by
  classical
  choose S hS using fun m => C46_streets_exist g n routes fr m
  have hS' : ∀ m, EachOnce (UsedStreet g n routes' fr m)
      ((S m).filter fun p => UsedStreet g n routes' fr m p.1 p.2 ∨ UsedStreet g n routes' fr m p.2 p.1) := by
    intro m
    refine ⟨(hS m).once.filter _, fun a b => ?_⟩
    simp only [List.mem_filter, decide_eq_true_eq]
    have hmono : ∀ a b, UsedStreet g n routes' fr m a b → UsedStreet g n routes fr m a b := by
      rintro a b ⟨h1, h2, h3, r, hr, h4⟩
      exact ⟨h1, h2, h3, r, hsub r hr, h4⟩
    constructor
    · intro h
      rcases ((hS m).all a b).1 (h.imp (hmono a b) (hmono b a)) with h1 | h1
      · exact .inl ⟨h1, h⟩
      · exact .inr ⟨h1, h.symm⟩
    · rintro (h | h)
      · exact h.2
      · exact h.2.symm
  rw [C46_cost hs hids routes hnd fr fun m _ => hS m, C46_cost hs hids routes' hnd fr fun m _ => hS' m]
  apply List.sum_le_sum
  intro m hm
  have h := hin m hm
  refine mul_le_mul_of_nonneg_left (mul_le_mul_of_nonneg_left ?_ (by exact_mod_cast h.2.2.2.2.2.2.2.2.2.1)) h.2.2.1
  unfold lengthOf
  refine (List.filter_sublist.map _).sum_le_sum fun q hq => ?_
  obtain ⟨p, _, rfl⟩ := List.mem_map.1 hq
  exact hroot _

/-- the calls that remove lines -/
theorem later_removed (ids : List Str) (o : Optimizer K) : o.later (ids.map fun id => .net (.removeRoute id)) =
    { o with net := ids.foldl (fun s id => (s.removeRoute id).1) o.net } := by
  have h : ids.map (fun id => InputCall.net (K := K) (.removeRoute id)) = (ids.map NetCall.removeRoute).map .net := by
    rw [List.map_map]; rfl
  rw [h, later_net, List.foldl_map]
  rfl

/-- C96: lines that are removed from the network still carry their passengers.  Every line has a price at the frequencies, which is not
negative; when lines are removed, the operators pay the prices of the others, the users pay what they paid, no more is built, and
frequencies that were feasible remain so. -/
theorem C96_removed_lines_carry_on (hb : Built g d pas net f o) (hw : Network.Reachable g net) {n : Nat} (hs : CityShape g n)
    (hsen : Sensible g d pas) (hco : Costly g pas net) (hd : ∀ m ∈ net.modes, 0 < m.d)
    {y : List K} (hlen : y.length = net.routes.length) (hy : ∀ q ∈ y, 0 ≤ q) :
    ∃ fr, Gives net y fr ∧ (Carries o fr → ∃ t ci cu k, ∃ price : Route K → K, (∀ r ∈ net.routes, 0 ≤ price r) ∧
      o.loads fr = .ok t ∧ o.costs fr t = .ok ((net.routes.map price).sum, ci, cu) ∧
      o.vrc y = .ok ((net.routes.map price).sum + ci + cu) ∧ o.constrains y = .ok k ∧
      ∀ ids : List Str, ∃ ci' k', ci' ≤ ci ∧
        (o.later (ids.map fun id => .net (.removeRoute id))).costs fr t =
          .ok (((net.routes.filter fun r => r.id ∉ ids).map price).sum, ci', cu) ∧
        (o.later (ids.map fun id => .net (.removeRoute id))).vrc y =
          .ok (((net.routes.filter fun r => r.id ∉ ids).map price).sum + ci' + cu) ∧
        (o.later (ids.map fun id => .net (.removeRoute id))).constrains y = .ok k' ∧ ((∀ w ∈ k, w ≤ 0) → ∀ w ∈ k', w ≤ 0)) := by
  classical
  obtain ⟨e1, _, e3, e4, hf, _, _, hx, _⟩ := prepare_fields hb.built
  have hadm := hb.adm
  rw [← hf] at hadm
  obtain ⟨fr, hfr, hg⟩ := hb.vector hlen
  refine ⟨fr, hg, fun hrun => ?_⟩
  have hfn : ∀ id, 0 ≤ fr.getD id 0 := hg.value hy
  have hl := hb.loading_of hfn hrun
  obtain ⟨t, ht⟩ := C44_terminates hadm hb.nodes hx hl
  have hlo : o.loads fr = .ok t := ht
  obtain ⟨u, hu⟩ := C52_terminates (z := t.z) (v := t.v) hadm hb.nodes hx hl hb.walk.ne'
  obtain ⟨kz, kv⟩ := C50_applies hadm hb.nodes hx hl ht
  have hspeed : ∀ r ∈ net.routes, 0 < r.mode.v := fun r hr => (hb.adm.modes r hr).speed
  obtain ⟨times, _, htimes, _, _⟩ := times_same (dist := g.edgesDistance) hb.ids hb.ids (fun r hr => (hspeed r hr).ne')
    (fun r hr => (hspeed r hr).ne')
  have htab := C44_nonneg hadm hb.nodes hx hl ht hfn (hb.trips hsen hl)
  have hT : ∀ r ∈ net.routes, 0 ≤ times.getD r.id 0 := fun r hr =>
    (C49_nonneg_symmetric hs hb.nodes hadm.root hb.ids hspeed htimes hr).1
  have hmem : ∀ {D : Dict (LoadKey K) K}, TableOk D → (∀ k, 0 ≤ D.getD k 0) → ∀ id : Str, 0 ≤ total D fun k => k.1 = id := by
    intro D hD h0 id
    apply List.sum_nonneg
    intro a ha
    obtain ⟨p, hp, rfl⟩ := List.mem_map.1 ha
    have := h0 p.1
    rwa [Dict.getD, Dict.get?_of_mem D hD (List.mem_filter.1 hp).1] at this
  have hcyc : ∀ r ∈ net.routes, 0 ≤ (getCycleTime t.z t.v net.routes times).time.getD r.id 0 := by
    intro r hr
    obtain ⟨c0, c1⟩ := C50_cycle_time kz kv hb.ids times (S := (Dict.keys t.z ++ Dict.keys t.v).dedup) (List.nodup_dedup _)
      (fun k hk => List.mem_dedup.2 (List.mem_append_left _ hk)) (fun k hk => List.mem_dedup.2 (List.mem_append_right _ hk)) hr
    have hin := hco.lines r hr
    have ht0 : 0 ≤ r.mode.t / 3600 := div_nonneg hin.2.2.2.2.1 (by norm_num)
    rcases hin.2.2.2.2.2.2.2.2.2.2.2 with hb0 | hb1
    · rw [Dict.getD, c0 hb0]
      exact add_nonneg (hT r hr) (mul_nonneg ht0 (add_nonneg (hmem kz (fun k => (htab k).1) _) (hmem kv (fun k => (htab k).2.1) _)))
    · rw [Dict.getD, c1 hb1]
      refine add_nonneg (hT r hr) (mul_nonneg ht0 ?_)
      apply List.sum_nonneg
      intro a ha
      obtain ⟨k, _, rfl⟩ := List.mem_map.1 ha
      exact le_max_of_le_left (htab k).1
  have hK : ∀ id, 0 ≤ (getK t.load).getD id 0 := by
    intro id
    rw [getK_eq]
    unfold fullest
    generalize ((t.load.filter fun p => decide (p.1.1 = id)).map Prod.snd) = L
    induction L with
    | nil => exact le_rfl
    | cons a L ih => exact le_max_of_le_right ih
  obtain ⟨q, hq, _, _⟩ := C47_values hs net.routes net.modes fr hd
  have hc0 := costs_now hb hfn hrun ht hu net htimes
  have ho : { o with net := net } = o := by rw [← e4]
  rw [ho, operatorsCost_eq] at hc0
  refine ⟨t, infrastructureCost g net.routes net.modes fr, resourcesCost pas u, kConstrains net.routes (mostLoaded t.load) ++ q,
    fun r => (r.mode.co + r.mode.c1 * (getK t.load).getD r.id 0) * fr.getD r.id 0 *
      (getCycleTime t.z t.v net.routes times).time.getD r.id 0, fun r hr => ?_, ht, hc0, vrc_of_costs hfr ht hc0, ?_, ?_⟩
  · have h := hco.lines r hr
    exact mul_nonneg (mul_nonneg (add_nonneg h.1 (mul_nonneg h.2.1 (hK _))) (hfn _)) (hcyc r hr)
  · rw [Optimizer.constrains, hfr, py_ok_bind, hlo, py_ok_bind, e1, e4, hq]; rfl
  · intro ids
    obtain ⟨w', hrs, hms⟩ := removed ids net hw.wf
    rw [later_removed, e4]
    generalize ids.foldl (fun s id => (s.removeRoute id).1) net = net' at *
    have hids' : (net'.routes.map Route.id).Nodup := w'.ids ▸ w'.nodup
    have hsub : ∀ r ∈ net'.routes, r ∈ net.routes := fun r hr => by rw [hrs] at hr; exact (List.mem_filter.1 hr).1
    obtain ⟨tm, times', h1, h2, h3⟩ := times_same (dist := g.edgesDistance) hb.ids hids'
      (fun r hr => (hspeed r hr).ne') fun r hr => (hspeed r (hsub r hr)).ne'
    rw [htimes] at h1
    cases h1
    have hc1 := costs_now hb hfn hrun ht hu net' h2
    have hop : operatorsCost net'.routes (getCycleTime t.z t.v net'.routes times').time fr (getK t.load) =
        ((net.routes.filter fun r => r.id ∉ ids).map fun r => (r.mode.co + r.mode.c1 * (getK t.load).getD r.id 0) * fr.getD r.id 0 *
          (getCycleTime t.z t.v net.routes times).time.getD r.id 0).sum := by
      rw [operatorsCost_eq, ← hrs]
      congr 1
      apply List.map_congr_left
      intro r hr
      rw [cycles_same kz kv hb.ids hids' (hsub r hr) hr (h3 r (hsub r hr) hr)]
    rw [hop] at hc1
    have hd' : ∀ m ∈ net'.modes, 0 < m.d := by rw [hms]; exact hd
    obtain ⟨q', hq', _, _⟩ := C47_values hs net'.routes net'.modes fr hd'
    refine ⟨_, kConstrains net'.routes (mostLoaded t.load) ++ q', ?_, hc1,
      vrc_of_costs (o := { o with net := net' }) hfr ht hc1, ?_, ?_⟩
    · rw [hms]
      exact infrastructure_fewer hs hb.nodes hadm.root hsub hw.wf.modes.names_nodup.of_map hco.modes fr
    · have ht' : { o with net := net' }.loads fr = .ok t := ht
      rw [Optimizer.constrains]
      dsimp only
      rw [hfr, py_ok_bind, ht', py_ok_bind, e1, hq']; rfl
    · rw [List.forall_mem_append, List.forall_mem_append]
      rintro ⟨k1, k2⟩
      constructor
      · intro w hw'
        obtain ⟨r, hr, rfl⟩ := List.mem_map.1 hw'
        exact k1 _ (List.mem_map_of_mem (hsub r hr))
      · rw [C47_feasible_iff hs hb.nodes net.routes net.modes fr hd hq] at k2
        rw [C47_feasible_iff hs hb.nodes net'.routes net'.modes fr hd' hq']
        intro a ha b hb' hst m hm
        refine le_trans ?_ (k2 a ha b hb' hst m (hms ▸ hm))
        unfold vehicleFlow
        rw [hrs]
        have hl' : (((net.routes.filter fun r => r.id ∉ ids).filter fun r => r.mode = m).Sublist
            (net.routes.filter fun r => r.mode = m)) := List.filter_sublist.filter _
        refine (hl'.map _).sum_le_sum fun v hv => ?_
        obtain ⟨r, _, rfl⟩ := List.mem_map.1 hv
        exact mul_nonneg (hfn _) (Nat.cast_nonneg _)

end Generic

section Examples

attribute [local instance] ratMath ratText

theorem busReachable : Network.Reachable (demoCity 3) busNet := by
  have h : (demoBuses.map NetCall.addRoute).foldl (fun s c => (c.run s).1) (Network.init (demoCity 3)) = busNet := by decide +kernel
  rw [← h]
  exact (Network.Reachable.init.call (.addRoute _)).call (.addRoute _)

/-- the line `c` is removed -/
def cRemoved : List (InputCall ℚ) := ["c".toList].map fun id => .net (.removeRoute id)

/-- another line of the same name -/
def shuttle : Route ℚ := ⟨"c".toList, demoMode, [2, 4], [4, 2], [2, 4], [4, 2], .custom⟩

/-- the cost of an optimizer that is built from the objects as they are now -/
def newCost (o : Optimizer ℚ) (y : List ℚ) : Option ℚ :=
  (Optimizer.prepare o.graph o.demand o.pas o.net none).toOption.bind fun o' => (o'.vrc y).toOption

/-- C96: after 600 trips replace 6, the cost that is minimised is the old one; the report on the same frequencies has the new cost,
divided by the 16 trips there were before and not by the 610 there are. -/
theorem C96_trips_not_seen :
    (busOpt.later [.demand 1 4 600]).demand.matrix = [(1, [(4, 600), (2, 3), (0, 5)]), (4, [(1, 2)])] ∧
    busDemand.total = 16 ∧ (busOpt.later [.demand 1 4 600]).demand.total = 610 ∧
    (busOpt.vrc [2, 3]).toOption = some (217459 / 1350) ∧
    ((busOpt.later [.demand 1 4 600]).vrc [2, 3]).toOption = some (217459 / 1350) ∧
    newCost (busOpt.later [.demand 1 4 600]) [2, 3] = some (16998311 / 2700) ∧
    ((busOpt.later [.demand 1 4 600]).report busDemand.total (some ⟨[2, 3], true, 0, [], 0, 3⟩)).toOption.map (·.vrc) =
      some (16998311 / 2700 / 16) := by decide +kernel

/-- C96: without line `c` no optimizer can be built, since trips cannot be made; the optimizer that was built before still gives a cost,
which is lower, and finds the frequencies feasible. -/
theorem C96_removed_line_is_free :
    (busOpt.later cRemoved).net.routes.map Route.id = ["a".toList] ∧
    (Optimizer.prepare (demoCity 3) busDemand demoFair (busOpt.later cRemoved).net none).toOption.isSome = false ∧
    (busOpt.vrc [2, 3]).toOption = some (217459 / 1350) ∧
    ((busOpt.later cRemoved).vrc [2, 3]).toOption = some (33203 / 270) ∧ (33203 / 270 : ℚ) < 217459 / 1350 ∧
    ((busOpt.later cRemoved).constrains [2, 3]).toOption.map (fun k => decide (∀ w ∈ k, w ≤ 0)) = some true := by decide +kernel

/-- C96: another line under the name of a line that was removed runs at its frequency, and its passengers take the way of the old one. -/
theorem C96_name_is_reused :
    (busOpt.later (cRemoved ++ [.net (.addRoute shuttle)])).net.routes.map Route.id = busNet.routes.map Route.id ∧
    ((busOpt.later (cRemoved ++ [.net (.addRoute shuttle)])).vrc [2, 3]).toOption = some (216109 / 1350) ∧
    newCost (busOpt.later (cRemoved ++ [.net (.addRoute shuttle)])) [2, 3] = some (216118 / 1350) := by decide +kernel

/-- C96: the hypotheses hold when a tram line is added: the costs are the same, and there are 39 constraints instead of 20; and when line
`c` is removed -/
example : Built (demoCity 3) busDemand demoFair busNet none busOpt ∧ Network.Reachable (demoCity 3) busNet ∧
    CityShape (demoCity 3) 3 ∧ (∀ r ∈ busNet.routes, r.mode ∈ busNet.modes) ∧ (∀ m ∈ busNet.modes, 0 < m.d) ∧
    Sensible (demoCity 3) busDemand demoFair ∧ Costly (demoCity 3) demoFair busNet ∧
    (∀ r ∈ (Inputs.after ⟨busDemand, busNet, demoFair⟩ ([.addRoute tramLine].map .net)).net.routes, r.mode.InRange) ∧
    (∀ m ∈ (Inputs.after ⟨busDemand, busNet, demoFair⟩ ([.addRoute tramLine].map .net)).net.modes, m.InRange ∧ 0 < m.d) ∧
    (Inputs.after ⟨busDemand, busNet, demoFair⟩ ([.addRoute tramLine].map .net)).net.routes = busNet.routes ++ [tramLine] ∧
    ((busOpt.later ([.addRoute tramLine].map .net)).vrc [2, 3]).toOption = some (217459 / 1350) ∧
    (busOpt.constrains [2, 3]).toOption.map List.length = some 20 ∧
    ((busOpt.later ([.addRoute tramLine].map .net)).constrains [2, 3]).toOption.map List.length = some 39 := by
  obtain ⟨hr, hm, hv, hk, hk'⟩ :
      (Inputs.after ⟨busDemand, busNet, demoFair⟩ ([.addRoute tramLine].map .net)).net.routes = busNet.routes ++ [tramLine] ∧
      (Inputs.after ⟨busDemand, busNet, demoFair⟩ ([.addRoute tramLine].map .net)).net.modes = [demoMode, tramLine.mode] ∧
      ((busOpt.later ([.addRoute tramLine].map .net)).vrc [2, 3]).toOption = some (217459 / 1350) ∧
      (busOpt.constrains [2, 3]).toOption.map List.length = some 20 ∧
      ((busOpt.later ([.addRoute tramLine].map .net)).constrains [2, 3]).toOption.map List.length = some 39 := by decide +kernel
  have h1 : demoMode.InRange := by unfold Mode.InRange; decide +kernel
  have h2 : tramLine.mode.InRange := by unfold Mode.InRange; decide +kernel
  refine ⟨busBuilt, busReachable, demoShape.1, by decide +kernel, by decide +kernel, busSensible, busCostly, ?_, ?_, hr, hv, hk,
    hk'⟩
  · rw [hr]
    intro r hr
    rcases List.mem_append.1 hr with h | h
    · exact busCostly.lines r h
    · rw [List.mem_singleton.1 h]; exact h2
  · rw [hm]
    intro m hm
    simp only [List.mem_cons, List.not_mem_nil, or_false] at hm
    rcases hm with rfl | rfl
    · exact ⟨h1, by decide⟩
    · exact ⟨h2, by decide⟩

/-- C96: the frequencies 2 and 3 carry all passengers -/
example : ∃ fr, Gives busNet [2, 3] fr ∧ Carries busOpt fr := by
  obtain ⟨fr, _, hg⟩ := busBuilt.vector (y := [2, 3]) rfl
  refine ⟨fr, hg, busBuilt.carries fun r hr _ => ?_⟩
  obtain ⟨i, hi⟩ := List.getElem?_of_mem hr
  rw [Dict.getD, hg.2 i r hi]
  match i, hi with
  | 0, _ => simp
  | 1, _ => simp

/-- C96: a social value of time that is accepted, one that is not, and the costs -/
example : Optimizer.init (demoCity 3) busDemand demoFair busNet none = .ok busOpt ∧
    (∀ c ∈ [(PassengerAttr.spv, some (40 : ℚ)), (.spw, some (-1))], c.1.Social) ∧
    ((busOpt.later [.passenger .spv (some 40), .passenger .spw (some (-1))]).pas.spv,
      (busOpt.later [.passenger .spv (some 40), .passenger .spw (some (-1))]).pas.spw) = (40, busOpt.pas.spw) ∧
    ((busOpt.later [.passenger .spv (some 40)]).vrc [2, 3]).toOption = some (771233 / 1350) := by
  have hc : busOpt.constrains busOpt.fopt = .ok (((busOpt.constrains busOpt.fopt).toOption).getD []) :=
    isOk_of_toOption _ (by decide +kernel)
  refine ⟨?_, ?_, by decide +kernel⟩
  · rw [Optimizer.init, busBuilt.built, py_ok_bind, hc]
    rfl
  · intro c hc
    simp only [List.mem_cons, List.not_mem_nil, or_false] at hc
    rcases hc with rfl | rfl <;> trivial

/-- C96: after the trips have changed, an optimizer can be built, and the names of the lines are the same -/
example : (Optimizer.prepare (demoCity 3) (Inputs.after ⟨busDemand, busNet, demoFair⟩ [.demand 1 4 600]).demand
      (Inputs.after ⟨busDemand, busNet, demoFair⟩ [.demand 1 4 600]).pas
      (Inputs.after ⟨busDemand, busNet, demoFair⟩ [.demand 1 4 600]).net none).toOption.isSome = true ∧
    (Inputs.after ⟨busDemand, busNet, demoFair⟩ [.demand 1 4 600]).net.routes.map Route.id = busNet.routes.map Route.id := by
  decide +kernel

end Examples

end Sidermit
