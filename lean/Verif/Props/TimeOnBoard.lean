import Verif.Props.UsersCost
import Verif.Spec.UsersCost

/-!
C58: the time on board from the tables of loads, `users_cost.py`.
-/

set_option linter.unusedSectionVars false

namespace Sidermit

section Generic

variable {K : Type} [Field K] [LinearOrder K] [IsStrictOrderedRing K] [PyMath K] {g : Graph K} {routes : List (Route K)}
  {sPTP : K} {freq : Option (Dict Str K)} {x : ExtGraph K} {pas : Passenger K} {N : Nat} {f : Dict Str K}
  {l : List (ODResult K × Dict (StopNode K) K)} {z v : Dict (LoadKey K) K} {vp : K} {u : Resources K} {r : Loads K}

/-! ## directions -/

theorem lastIndex_aux {id : Int} : ∀ (l : List Int) (k i : Nat), (id ∉ l →
    (l.zipIdx k).foldl (fun i p => if p.1 = id then p.2 else i) i = i) ∧
    (l.Nodup → ∀ j, l[j]? = some id → (l.zipIdx k).foldl (fun i p => if p.1 = id then p.2 else i) i = k + j)
  | [], k, i => ⟨fun _ => rfl, fun _ j hj => by simp at hj⟩
  | a :: l, k, i => by
    refine ⟨?_, ?_⟩
    · intro h
      rw [List.mem_cons, not_or] at h
      rw [List.zipIdx_cons, List.foldl_cons, (lastIndex_aux l (k + 1) _).1 h.2]
      exact if_neg (Ne.symm h.1)
    · intro hn j hj
      rw [List.nodup_cons] at hn
      rw [List.zipIdx_cons, List.foldl_cons]
      cases j with
      | zero =>
        rw [List.getElem?_cons_zero, Option.some.injEq] at hj
        subst hj
        rw [(lastIndex_aux l (k + 1) _).1 hn.1]
        simp
      | succ j =>
        rw [List.getElem?_cons_succ] at hj
        rw [(lastIndex_aux l (k + 1) _).2 hn.2 j hj]
        omega

theorem lastIndex_eq {l : List Int} (h : l.Nodup) {id : Int} {j : Nat} (hj : l[j]? = some id) : lastIndex l id = j := by
  unfold lastIndex
  rw [(lastIndex_aux l 0 0).2 h j hj, Nat.zero_add]

theorem guessDir_eq {p n : RouteNode K} (hp : p.Wanted g routes) (hn : n.Wanted g routes) (h : p.Precedes n)
    (ht : n.route.TwoWay) : p.route = n.route ∧
      guessDir n.route p.stop.city.node.id n.stop.city.node.id = n.dir := by
  have hr : p.route = n.route := by
    have h1 := hp.1
    rw [h.1, hn.1] at h1
    exact (Option.some.inj h1).symm
  refine ⟨hr, ?_⟩
  obtain ⟨h1, h2, h3⟩ := h
  unfold Route.stopBefore at h3
  rw [if_neg ht.type] at h3
  split at h3
  · cases h3
  next h0 =>
  have h3 := Option.some.inj h3
  have hp1 := hp.2.1.1
  have hn1 := hn.2.1.1
  rw [hr, h2] at hp1
  unfold guessDir
  cases hdir : n.dir with
  | I =>
    rw [hdir] at hp1 hn1
    simp only [Route.stopsOf] at hp1 hn1
    rw [lastIndex_eq ht.nodup hp1, lastIndex_eq ht.nodup hn1, if_pos (by omega)]
  | R =>
    rw [hdir] at hp1 hn1
    simp only [Route.stopsOf] at hp1 hn1
    rw [ht.back] at hp1 hn1
    have hlp : p.pos < n.route.stopsI.length := by
      have := (List.getElem?_eq_some_iff.1 hp1).1
      simpa using this
    have hln : n.pos < n.route.stopsI.length := by
      have := (List.getElem?_eq_some_iff.1 hn1).1
      simpa using this
    rw [List.getElem?_reverse hlp] at hp1
    rw [List.getElem?_reverse hln] at hn1
    rw [lastIndex_eq ht.nodup hp1, lastIndex_eq ht.nodup hn1, if_neg (by omega)]

/-! ## sums over the edges -/

/-- the elements, edge by edge -/
theorem flow_edges (ψ : ENode K → ENode K → K) {E : List (EEdge K)} (hE : (E.map fun e => (e.i, e.j)).Nodup) :
    ∀ {vs : List (Item K)}, (∀ w ∈ vs, (∃ e ∈ E, e.i = w.i ∧ e.j = w.j) ∨ ψ w.i w.j = 0) →
    flow ψ vs = (E.map fun e => ψ e.i e.j * flow (between e.i e.j) vs).sum
  | [], _ => by simp
  | w :: vs, h => by
    have ih := flow_edges ψ hE (vs := vs) fun w' hw' => h w' (List.mem_cons_of_mem _ hw')
    rw [flow_cons, ih]
    have h1 : (E.map fun e => ψ e.i e.j * flow (between e.i e.j) (w :: vs)) =
        E.map fun e => (if (e.i, e.j) = (w.i, w.j) then ψ w.i w.j * w.pax else 0) + ψ e.i e.j * flow (between e.i e.j) vs := by
      apply List.map_congr_left
      intro e _
      rw [flow_cons, mul_add]
      congr 1
      unfold between
      by_cases he : (e.i, e.j) = (w.i, w.j)
      · rw [if_pos he]
        rw [Prod.mk.injEq] at he
        rw [he.1, he.2]
        simp
      · rw [if_neg he]
        rw [if_neg, zero_mul, mul_zero]
        rintro ⟨a, b⟩
        exact he (by rw [a, b])
    rw [h1, List.sum_map_add]
    congr 1
    rcases h w (by simp) with ⟨e, he, hi, hj⟩ | h0
    · have : ∀ E : List (EEdge K), (E.map fun e => (e.i, e.j)).Nodup → e ∈ E →
          (E.map fun e => if (e.i, e.j) = (w.i, w.j) then ψ w.i w.j * w.pax else 0).sum = ψ w.i w.j * w.pax := by
        intro E
        induction E with
        | nil => intro _ h; cases h
        | cons a E ih =>
          intro hn hm
          rw [List.map_cons, List.nodup_cons] at hn
          rw [List.map_cons, List.sum_cons]
          by_cases ha : (a.i, a.j) = (w.i, w.j)
          · rw [if_pos ha, List.sum_eq_zero, add_zero]
            intro y hy
            obtain ⟨b, hb, rfl⟩ := List.mem_map.1 hy
            refine if_neg fun hb' => hn.1 ?_
            rw [ha, ← hb']
            exact List.mem_map_of_mem hb
          · rw [if_neg ha, zero_add]
            refine ih hn.2 ?_
            rcases List.mem_cons.1 hm with rfl | hm
            · exact absurd (by rw [hi, hj]) ha
            · exact hm
      exact (this E hE he).symm
    · rw [h0, zero_mul, List.sum_eq_zero]
      intro y hy
      obtain ⟨b, hb, rfl⟩ := List.mem_map.1 hy
      simp

theorem weigh_eq (d : Dict (LoadKey K) K) (χ : LoadKey K → K) : weigh f (perVehicle f d) χ = tally χ d := by
  have h1 : ∀ d' : Dict (LoadKey K) K, weigh f d' χ = tally (fun k => χ k * vehicles f k.1) d' := by
    intro d'
    unfold weigh tally
    congr 1
    apply List.map_congr_left
    intro p _
    ring
  rw [h1, tally_perVehicle]
  congr 1
  funext k
  rw [mul_assoc, mul_comm (vehicles f k.1), vehicleFactor_mul, mul_one]

theorem flow_trace (ψ : ENode K → ENode K → K) :
    flow ψ (trace N f l) = (l.map fun p => flow ψ (stopsTrace N f p (Dict.keys p.1.paths))).sum := by
  unfold trace
  rw [flow_flatMap]

/-- those in moving vehicles -/
theorem ride_trace (ha : Admissible routes sPTP freq pas) (hd : DistinctIds g) (ho : StopsOnce routes)
    (hx : buildExtGraph g routes sPTP freq = .ok x) (hl : Loading x pas N f l) (hr : getLoads N f l = .ok r) :
    flow (rideW x.edges) (trace N f l) = movingTime f x.edges r.load := by
  obtain ⟨t, r', h, ht, hrt, hv, _⟩ := getLoads_spec (hl.ok ha hd hx)
  rw [hr] at h
  cases h
  unfold movingTime
  rw [flow_edges (rideW x.edges) (E := x.edges.filter fun e => decide (e.type = .route))]
  · congr 1
    apply List.map_congr_left
    intro e he
    rw [List.mem_filter, decide_eq_true_eq] at he
    obtain ⟨he, hty⟩ := he
    rcases edge_cases hd hx he with ⟨h, _⟩ | ⟨h, _⟩ | ⟨h, _⟩ | ⟨h, _⟩ | ⟨_, p, n, hp, hn, hpn, h5, h6⟩
    · rw [hty] at h; cases h
    · rw [hty] at h; cases h
    · rw [hty] at h; cases h
    · rw [hty] at h; cases h
    · rw [rideW_eq hx he h5 h6, h5, h6]
      congr 1
      unfold ridersFrom
      rw [hrt]
      simp only
      have hvf : vehicles f p.route.id * vehicleFactor f p.key = 1 := by
        rw [mul_comm]
        exact vehicleFactor_mul f p.key
      rw [entry_eq ht.kl, ht.load, ← mul_assoc, hvf, one_mul]
      apply flow_congr
      intro w hw
      obtain ⟨e', he', hi, hj⟩ := hv.edge w hw
      rw [← hi, ← hj]
      rcases edge_cases hd hx he' with ⟨_, s, h5, h6⟩ | ⟨_, s, h5, h6⟩ | ⟨_, m, hm, h5, h6⟩ | ⟨_, m, hm, h5, h6⟩ | ⟨_, p', m, hp', hm, hpm, h5, h6⟩
      · rw [h5, h6]; simp [lW, between]
      · rw [h5, h6]; simp [lW, between]
      · rw [h5, h6]; simp [lW, between]
      · rw [h5, h6]; simp [lW, between]
      · rw [h5, h6]
        simp only [lW, between, ENode.route.injEq]
        by_cases h : p' = p
        · subst h
          rw [if_pos ⟨rfl, precedes_right hd hx hm hn hpm hpn⟩]
          exact (if_pos rfl).symm
        · rw [if_neg, if_neg]
          · exact fun h' => h (key_inj ho hp' hp h')
          · exact fun h' => h h'.1
  · exact (List.filter_sublist.map _).nodup (C35_no_parallel_edges hx)
  · intro w hw
    obtain ⟨e, he, hi, hj⟩ := hv.edge w hw
    by_cases hty : e.type = .route
    · exact Or.inl ⟨e, by rw [List.mem_filter, decide_eq_true_eq]; exact ⟨he, hty⟩, hi, hj⟩
    · refine Or.inr ?_
      rw [← hi, ← hj]
      rcases edge_cases hd hx he with ⟨_, s, h5, h6⟩ | ⟨_, s, h5, h6⟩ | ⟨_, m, hm, h5, h6⟩ | ⟨_, m, hm, h5, h6⟩ | ⟨h, _⟩
      · rw [h5, h6]; rfl
      · rw [h5, h6]; rfl
      · rw [h5, h6]; rfl
      · rw [h5, h6]; rfl
      · exact absurd h hty

/-- `δ` gives at every route node the value of `χ` that the code reads there: that of the direction it guesses -/
def ReadAs (g : Graph K) (routes : List (Route K)) (χ δ : LoadKey K → K) : Prop :=
  ∀ p n : RouteNode K, p.Wanted g routes → n.Wanted g routes → p.Precedes n →
    χ (n.route.id, guessDir n.route p.stop.city.node.id n.stop.city.node.id, n.stop) = δ n.key

theorem precedes_route {p n : RouteNode K} (hp : p.Wanted g routes) (hn : n.Wanted g routes) (h : p.Precedes n) :
    p.route = n.route := by
  have h1 := hp.1
  rw [h.1, hn.1] at h1
  exact (Option.some.inj h1).symm

/-- those who alight -/
theorem alight_trace (ha : Admissible routes sPTP freq pas) (hd : DistinctIds g)
    (hx : buildExtGraph g routes sPTP freq = .ok x) (hl : Loading x pas N f l) {α : LoadKey K → K}
    (hα : ReadAs g routes (alightingDelay v) α) {p : ODResult K × Dict (StopNode K) K} (hp : p ∈ l) :
    flow (alightW x.nodes v) (stopsTrace N f p (Dict.keys p.1.paths)) =
      flow (vW α) (stopsTrace N f p (Dict.keys p.1.paths)) := by
  apply flow_congr
  intro w hw
  obtain ⟨⟨_, hprev⟩, e, hes, he, hi, hj⟩ := hl.item ha hd hx hp hw
  rw [← hi] at hprev hes
  rw [← hi, ← hj]
  rcases edge_cases hd hx he with ⟨_, s, h5, h6⟩ | ⟨_, s, h5, h6⟩ | ⟨_, m, hm, h5, h6⟩ | ⟨_, m, hm, h5, h6⟩ | ⟨_, p', m, hp', hm, hpm, h5, h6⟩
  · rw [h5, h6]; rfl
  · rw [h5, h6]; rfl
  · rw [h5, h6]; rfl
  · have hpv := (hprev m h5).resolve_left fun h => h e hes _ h6
    rw [h5, h6]
    unfold alightW vW
    simp only
    cases hq : prevOf x.nodes m with
    | none => exact absurd hq hpv
    | some q =>
      simp only
      obtain ⟨entries, hsp⟩ := extSpec hx
      have hq' := hq
      unfold prevOf at hq'
      obtain ⟨e2, h7, h8⟩ := Option.bind_eq_some_iff.1 hq'
      have h9 := List.find?_some h7
      have h10 := hsp.nodes.perm.mem_iff.1 (List.mem_of_find?_eq_some h7)
      simp only [decide_eq_true_eq] at h9
      obtain ⟨hqn, hqp⟩ := (hsp.ents.prev e2 h10 q).1 h8
      rw [h9] at hqp
      have hg := hα q m ((hsp.mem_node hd q).1 hqn) hm hqp
      rw [show α (m.route.id, m.dir, m.stop) = α m.key from rfl, ← hg]
      unfold alightingDelay
      simp only
      rw [hm.2.2.1]
  · rw [h5, h6]; rfl

/-- those who stay on board at a stop are those on board behind it who did not board there -/
theorem through_trace (ha : Admissible routes sPTP freq pas) (hd : DistinctIds g)
    (hx : buildExtGraph g routes sPTP freq = .ok x) (hl : Loading x pas N f l) {δ : LoadKey K → K}
    (hδ : ReadAs g routes (stopDelay z v) δ) (hb : ∀ r ∈ routes, r.mode.bya = 0 ∨ r.mode.bya = 1) {p : ODResult K × Dict (StopNode K) K} (hp : p ∈ l) :
    flow (throughW z v p.1.res.succ) (stopsTrace N f p (Dict.keys p.1.paths)) =
      flow (lW δ) (stopsTrace N f p (Dict.keys p.1.paths)) - flow (zW δ) (stopsTrace N f p (Dict.keys p.1.paths)) := by
  classical
  obtain ⟨_, _, hedge, ⟨rank, hrank, _⟩, _⟩ := (hl.computed p hp).reach ha hd hx
  obtain ⟨hN, _⟩ := (hl.run p hp).net ha hd hx (hl.computed p hp)
  obtain ⟨hvis, _⟩ := pair_visited (hl.ok ha hd hx p hp)
  let φ : ENode K → K := fun y => match y with
    | .route n => if ∃ e ∈ p.1.res.succ (.route n), ∃ m, e.j = .route m then δ n.key else 0
    | _ => 0
  have hφ : flow (fun i j => φ j - φ i) (stopsTrace N f p (Dict.keys p.1.paths)) = 0 := by
    rw [hvis.balance φ (fun _ => 0) (fun s => rfl)]
    ring
  have hone : ∀ n : RouteNode K, p.1.Reach (.route n) → ∃ e, p.1.res.succ (.route n) = [e] := by
    intro n hn
    obtain ⟨e, he, _⟩ := C40_legs ha hx ((hl.computed p hp).result ha hx) hn.1 (by
      simp) (by
      intro b hbs hbt
      obtain ⟨hbx, hbi⟩ := hedge _ b hbs
      rcases edge_cases hd hx hbx with ⟨h, _⟩ | ⟨h, _⟩ | ⟨_, m, hm, h5, h6⟩ | ⟨h, _⟩ | ⟨h, _⟩
      · rw [hbt] at h; cases h
      · rw [hbt] at h; cases h
      · rw [hbi] at h5; cases h5
      · rw [hbt] at h; cases h
      · rw [hbt] at h; cases h)
    exact ⟨e, he⟩
  have key : flow (throughW z v p.1.res.succ) (stopsTrace N f p (Dict.keys p.1.paths)) =
      flow (fun i j => (φ j - φ i) + (lW δ i j - zW δ i j)) (stopsTrace N f p (Dict.keys p.1.paths)) := by
    apply flow_congr
    intro w hw
    obtain ⟨⟨⟨hled, hreach⟩, _⟩, e, hes, he, hi, hj⟩ := hl.item ha hd hx hp hw
    rw [← hi] at hled hreach hes
    have hnext : stopOf p.1.dest e.j = false → p.1.Reach e.j := fun h => (hN.next _ ⟨hled, hreach⟩ e hes h).2
    rw [← hi, ← hj]
    have hzero : (∀ q m, ¬ (e.i = .route q ∧ e.j = .route m)) → throughW z v p.1.res.succ e.i e.j = 0 := by
      intro h
      unfold throughW
      apply List.sum_eq_zero
      intro y hy
      obtain ⟨b, _, rfl⟩ := List.mem_map.1 hy
      unfold stayW
      split
      · next h1 h2 _ => exact absurd ⟨h1, h2⟩ (h _ _)
      · rfl
    rcases edge_cases hd hx he with ⟨_, s, h5, h6⟩ | ⟨_, s, h5, h6⟩ | ⟨_, m, hm, h5, h6⟩ | ⟨_, m, hm, h5, h6⟩ | ⟨_, q, m, hq, hm, hqm, h5, h6⟩
    · rw [hzero (by simp [h5]), h5, h6]; simp [lW, zW, φ]
    · rw [hzero (by simp [h5]), h5, h6]; simp [lW, zW, φ]
    · rw [hzero (by simp [h5])]
      have hm' : p.1.Reach (.route m) := by
        have := hnext (by rw [h6]; rfl)
        rwa [h6] at this
      obtain ⟨b, hbs⟩ := hone m hm'
      have hb1 : b ∈ p.1.res.succ (.route m) := by rw [hbs]; simp
      obtain ⟨hbx, hbi⟩ := hedge _ b hb1
      have : ∃ m', b.j = .route m' := by
        rcases edge_cases hd hx hbx with ⟨_, s, h7, h8⟩ | ⟨_, s, h7, h8⟩ | ⟨_, m', hm', h7, h8⟩ | ⟨_, m', hm', h7, h8⟩ | ⟨_, q, m', hq, hm', hqm, h7, h8⟩
        · rw [hbi] at h7; cases h7
        · rw [hbi] at h7; cases h7
        · rw [hbi] at h7; cases h7
        · rw [hbi] at h7
          have h7 := ENode.route.inj h7
          subst h7
          have r1 := hrank _ b hb1
          have r2 := hrank _ e hes
          rw [h5, h6] at r2
          rw [h8] at r1
          omega
        · exact ⟨m', h8⟩
      rw [h5, h6]
      simp only [φ, lW, zW]
      rw [if_pos ⟨b, hb1, this⟩]
      simp [RouteNode.key]
    · rw [hzero (by simp [h6])]
      rw [h5] at hreach
      obtain ⟨b, hbs⟩ := hone m hreach
      rw [h5, hbs, List.mem_singleton] at hes
      subst hes
      rw [h5, h6]
      simp only [φ, lW, zW]
      rw [if_neg]
      · simp
      · rw [hbs]
        rintro ⟨b, hb1, m', hm'⟩
        rw [List.mem_singleton] at hb1
        rw [hb1, h6] at hm'
        cases hm'
    · have hm' : p.1.Reach (.route m) := by
        have := hnext (by rw [h6]; rfl)
        rwa [h6] at this
      obtain ⟨b, hbs⟩ := hone m hm'
      have hqs : ∃ e ∈ p.1.res.succ (.route q), ∃ m, e.j = .route m := ⟨e, by rw [← h5]; exact hes, m, h6⟩
      rw [h5, h6]
      simp only [φ, lW, zW]
      rw [if_pos hqs]
      have hroute := precedes_route hq hm hqm
      have hg := hδ q m hq hm hqm
      have hpass : ∀ a c : K, passing m.stop.mode a c = if m.stop.mode.bya = 1 then max a c else a + c := by
        intro a c
        unfold passing
        rw [hm.2.2.1]
        rcases hb _ (List.mem_of_getElem? hm.1) with h | h <;> rw [h] <;> simp
      have hstay : ∀ m', b.j = .route m' → stayW z v (.route q) (.route m) b.j = δ m.key := by
        intro m' hm'
        rw [hm', ← hg]
        unfold stayW stopDelay
        simp only
        rw [hroute, ← hm.2.2.1, hpass]
      unfold throughW
      rw [hbs, List.map_singleton, List.sum_singleton]
      by_cases hbr : ∃ m', b.j = .route m'
      · obtain ⟨m', hm''⟩ := hbr
        rw [if_pos ⟨b, by simp, m', hm''⟩, hstay m' hm'']
        simp [RouteNode.key]
      · rw [if_neg]
        · have : stayW z v (.route q) (.route m) b.j = 0 := by
            unfold stayW
            split
            · next h3 => exact absurd ⟨_, h3⟩ hbr
            · rfl
          rw [this]
          simp [RouteNode.key]
        · rintro ⟨b', hb', h'⟩
          rw [List.mem_singleton] at hb'
          exact hbr (hb' ▸ h')
  rw [key, flow_add, hφ, zero_add, flow_sub]

/-- the time on board with the delays that the code reads -/
theorem onBoard_read (ha : Admissible routes sPTP freq pas) (hd : DistinctIds g) (ho : StopsOnce routes)
    (hx : buildExtGraph g routes sPTP freq = .ok x) (hl : Loading x pas N f l)
    (hb : ∀ r ∈ routes, r.mode.bya = 0 ∨ r.mode.bya = 1) (hvp : vp ≠ 0) (hu : resourcesConsumer N f x vp z v l = .ok u)
    (hr : getLoads N f l = .ok r) {α δ : LoadKey K → K} (hα : ReadAs g routes (alightingDelay v) α)
    (hδ : ReadAs g routes (stopDelay z v) δ) :
    u.tv = movingTime f x.edges r.load + weigh f r.v α + (weigh f r.load δ - weigh f r.z δ) := by
  rw [resources_spec (hl.users ha hd hx hvp)] at hu
  cases hu
  rw [← ride_trace ha hd ho hx hl hr]
  obtain ⟨t, r', h, ht, hrt, hv, _⟩ := getLoads_spec (hl.ok ha hd hx)
  rw [hr] at h
  cases h
  rw [hrt]
  simp only
  rw [weigh_eq, weigh_eq, weigh_eq, ht.v, ht.load, ht.z, flow_trace, flow_trace, flow_trace, flow_trace]
  have key : ∀ l' : List (ODResult K × Dict (StopNode K) K), (∀ p ∈ l', p ∈ l) →
      (l'.map fun p => flow (tvW x z v p.1.res.succ) (stopsTrace N f p (Dict.keys p.1.paths))).sum =
      (l'.map fun p => flow (rideW x.edges) (stopsTrace N f p (Dict.keys p.1.paths))).sum +
      (l'.map fun p => flow (vW α) (stopsTrace N f p (Dict.keys p.1.paths))).sum +
      ((l'.map fun p => flow (lW δ) (stopsTrace N f p (Dict.keys p.1.paths))).sum -
       (l'.map fun p => flow (zW δ) (stopsTrace N f p (Dict.keys p.1.paths))).sum) := by
    intro l'
    induction l' with
    | nil => intro _; simp
    | cons p t ih =>
      intro hsub
      have h1 : flow (tvW x z v p.1.res.succ) (stopsTrace N f p (Dict.keys p.1.paths)) =
          flow (rideW x.edges) (stopsTrace N f p (Dict.keys p.1.paths)) +
          flow (alightW x.nodes v) (stopsTrace N f p (Dict.keys p.1.paths)) +
          flow (throughW z v p.1.res.succ) (stopsTrace N f p (Dict.keys p.1.paths)) := by
        unfold tvW
        rw [flow_add, flow_add]
      simp only [List.map_cons, List.sum_cons]
      rw [ih fun q hq => hsub q (List.mem_cons_of_mem _ hq), h1, alight_trace ha hd hx hl hα (hsub p (by simp)),
        through_trace ha hd hx hl hδ hb (hsub p (by simp))]
      ring
  exact key l fun p hp => hp

/-- C58 (networks of two-way lines that go back over the same stops; in other networks it fails, see `C58_circular_fails`):
the time on board is what the tables of the loading tell: the load of every section times the time of it; those who alight
wait for half of those who alight there; and those who stay on board wait until all have boarded and alighted -/
theorem C58_time_on_board_partial (ha : Admissible routes sPTP freq pas) (hd : DistinctIds g) (ho : StopsOnce routes)
    (hx : buildExtGraph g routes sPTP freq = .ok x) (hl : Loading x pas N f l) (hvp : vp ≠ 0) (h2 : ∀ r ∈ routes, r.TwoWay)
    (hb : ∀ r ∈ routes, r.mode.bya = 0 ∨ r.mode.bya = 1) (hu : resourcesConsumer N f x vp z v l = .ok u)
    (hr : getLoads N f l = .ok r) :
    u.tv = movingTime f x.edges r.load + weigh f r.v (alightingDelay v) +
      (weigh f r.load (stopDelay z v) - weigh f r.z (stopDelay z v)) := by
  obtain ⟨h1, h2⟩ : ReadAs g routes (alightingDelay v) (alightingDelay v) ∧ ReadAs g routes (stopDelay z v) (stopDelay z v) := by
    refine ⟨?_, ?_⟩ <;> intro p n hp hn hpn <;>
      rw [(guessDir_eq hp hn hpn (h2 _ (List.mem_of_getElem? hn.1))).2] <;> rfl
  exact onBoard_read ha hd ho hx hl hb hvp hu hr h1 h2

end Generic

section Examples

attribute [local instance] ratMath ratText

/-- the time on board from the tables -/
def demoOnBoard (rs : List (Route ℚ)) (od : Dict Int (Dict Int ℚ)) (f : Dict Str ℚ) : Py ℚ := do
  let x ← buildExtGraph (demoCity 3) rs 2 none
  let r ← demoPipeline rs od f
  let t ← r.2.2
  return movingTime f x.edges t.load + weigh f t.v (alightingDelay t.v) +
      (weigh f t.load (stopDelay t.z t.v) - weigh f t.z (stopDelay t.z t.v))

/-- the two lines that are not circular -/
def demoTwoWay : List (Route ℚ) := demoRoutes.take 2

/-- trips of which some stay on board at node 2 -/
def twoWayOD : Dict Int (Dict Int ℚ) := [(1, [(2, 3), (0, 5), (4, 6)]), (0, [(1, 7)])]

def twoWayExt : ExtGraph ℚ := ((buildExtGraph (demoCity 3) demoTwoWay 2 none).toOption).getD ⟨[], []⟩

/-- the hypotheses of C58 -/
example : Admissible demoTwoWay 2 none demoPassenger ∧ DistinctIds (demoCity 3) ∧ StopsOnce demoTwoWay ∧
    (∀ r ∈ demoTwoWay, r.TwoWay) ∧ (∀ r ∈ demoTwoWay, r.mode.bya = 0 ∨ r.mode.bya = 1) ∧
    buildExtGraph (demoCity 3) demoTwoWay 2 none = .ok twoWayExt ∧
    ∃ res, allHyperpaths twoWayExt.nodes twoWayExt.edges demoPassenger twoWayOD = .ok res ∧ ∀ shares,
      Loading twoWayExt demoPassenger (allNodes twoWayExt.nodes).length (frequencies demoTwoWay none) (res.zip shares) := by
  have hd : DistinctIds (demoCity 3) := by unfold DistinctIds; decide +kernel
  have hx : buildExtGraph (demoCity 3) demoTwoWay 2 none = .ok twoWayExt := by decide +kernel
  have ha : Admissible demoTwoWay 2 none demoPassenger := by
    refine ⟨fun r hr => demoAdmissible.modes r (List.mem_of_mem_take hr), ?_, by norm_num, demoAdmissible.root,
      by norm_num [demoPassenger], by norm_num [demoPassenger], by norm_num [demoPassenger]⟩
    decide +kernel
  have h2 : ∀ r ∈ demoTwoWay, r.type ≠ .circular ∧ r.stopsI.Nodup ∧ r.stopsR = r.stopsI.reverse := by decide +kernel
  refine ⟨ha, hd, StopsOnce.of_nodup (by decide +kernel) ?_, fun r hr => ⟨(h2 r hr).1, (h2 r hr).2.1, (h2 r hr).2.2⟩,
    by decide +kernel, hx, ?_⟩
  · have : ∀ r ∈ demoTwoWay, ∀ d ∈ [Dir.I, Dir.R],
        if r.type = .circular then (r.stopsOf d).tail.Nodup else (r.stopsOf d).Nodup := by decide +kernel
    exact fun r hr d => this r hr d (by cases d <;> simp)
  · have hv : networkValidator twoWayExt.nodes twoWayExt.edges demoPassenger twoWayOD = .ok true := by decide +kernel
    obtain ⟨res, hres, _⟩ := (C41_all_pairs ha hd hx twoWayOD).1 hv
    refine ⟨res, hres, fun shares => C44_applies ha hd hx ?_ hres shares⟩
    exact getD_nonneg (by decide +kernel)

example : (demoResources demoTwoWay twoWayOD (defaultFrequencies demoTwoWay)).map Resources.tv = .ok (51449 / 3600) ∧
    demoOnBoard demoTwoWay twoWayOD (defaultFrequencies demoTwoWay) = .ok (51449 / 3600) := by decide +kernel

/-- C58 fails for circular lines: the direction is found from the last occurrence of a stop in the list, where the first stop
comes again, so those who alight at the second stop do not wait -/
theorem C58_circular_fails :
    (demoResources (demoRoutes.drop 2) [(2, [(4, 6)])] (defaultFrequencies demoRoutes)).map Resources.tv = .ok 3 ∧
    demoOnBoard (demoRoutes.drop 2) [(2, [(4, 6)])] (defaultFrequencies demoRoutes) = .ok (301 / 100) := by decide +kernel

end Examples

end Sidermit
