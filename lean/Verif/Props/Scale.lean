import Verif.Proofs.ScaleSearch
import Verif.Proofs.Charges
import Verif.Props.TotalCost
import Verif.Props.Results

/-!
C70: `c` times the trips.  C71: `c` times the trips and the frequencies.
-/

set_option linter.unusedSectionVars false

namespace Sidermit

section Generic

variable {K : Type} [Field K] [LinearOrder K] [IsStrictOrderedRing K] [PyMath K]

/-! ## the constructor -/

theorem constrains_times {c : K} (hc : c ≠ 0) (o : Optimizer K) (y : List K) :
    ((o.timesTrips c).constrains y).map (fun _ => ()) = (o.constrains y).map fun _ => () := by
  unfold Optimizer.constrains Optimizer.loads
  show ((foptToF o.lines y >>= _) : Py (List K)).map _ = _
  cases foptToF o.lines y with
  | error _ => rfl
  | ok fr =>
    simp only [py_ok_bind]
    show ((getLoads (allNodes o.ext.nodes).length fr (timesTrips c o.pairs) >>= _) : Py (List K)).map _ = _
    rw [getLoads_times hc]
    cases getLoads (allNodes o.ext.nodes).length fr o.pairs with
    | error _ => rfl
    | ok t =>
      simp only [Except.map, py_ok_bind]
      simp only [Optimizer.timesTrips]
      cases fmaxConstrains o.graph o.net.routes o.net.modes fr <;> rfl

theorem init_times {c : K} (hc : c ≠ 0) (g : Graph K) (d : Demand K) (pas : Passenger K) (net : Network K)
    (f : Option (Dict Str K)) :
    Optimizer.init g (d.times c) pas net f = (Optimizer.init g d pas net f).map (Optimizer.timesTrips c) := by
  unfold Optimizer.init
  rw [prepare_times hc]
  cases Optimizer.prepare g d pas net f with
  | error _ => rfl
  | ok o =>
    simp only [Except.map, py_ok_bind]
    have h := constrains_times hc o o.fopt
    have hf : (o.timesTrips c).fopt = o.fopt := rfl
    rw [hf]
    cases h1 : (o.timesTrips c).constrains o.fopt with
    | error e =>
      cases h2 : o.constrains o.fopt with
      | error e' => rw [h1, h2] at h; cases h; rfl
      | ok _ => rw [h1, h2] at h; cases h
    | ok _ =>
      cases h2 : o.constrains o.fopt with
      | error e' => rw [h1, h2] at h; cases h
      | ok _ => rfl

variable {g : Graph K} {d : Demand K} {pas : Passenger K} {net : Network K} {f : Option (Dict Str K)} {o o' : Optimizer K}

/-- C70: with `c` times the trips the constructor fails in the same cases, with the same exception -/
theorem C70_same_failures {c : K} (hc : c ≠ 0) (g : Graph K) (d : Demand K) (pas : Passenger K) (net : Network K)
    (f : Option (Dict Str K)) (e : PyErr) :
    Optimizer.init g (d.times c) pas net f = .error e ↔ Optimizer.init g d pas net f = .error e := by
  rw [init_times hc]
  cases Optimizer.init g d pas net f with
  | error _ => exact Iff.rfl
  | ok _ => constructor <;> intro h <;> cases h

/-- C70: and otherwise the network, the paths, the shares of the stops and the initial frequencies are the same, and the trips of
each pair are `c` times as many -/
theorem C70_same_paths {c : K} (hc : c ≠ 0) (h : Optimizer.init g d pas net f = .ok o) :
    ∃ o', Optimizer.init g (d.times c) pas net f = .ok o' ∧ o'.f = o.f ∧ o'.fopt = o.fopt ∧ o'.lines = o.lines ∧
      o'.ext = o.ext ∧ List.Forall₂ (fun p q => q.1.origin = p.1.origin ∧ q.1.dest = p.1.dest ∧ q.1.res = p.1.res ∧
        q.1.paths = p.1.paths ∧ q.1.vij = c * p.1.vij ∧ q.2 = p.2) o.pairs o'.pairs := by
  refine ⟨o.timesTrips c, by rw [init_times hc, h]; rfl, rfl, rfl, rfl, rfl, ?_⟩
  show List.Forall₂ _ o.pairs (o.pairs.map fun p => (p.1.scale c, p.2))
  rw [List.forall₂_map_right_iff]
  exact List.forall₂_same.2 fun p _ => ⟨rfl, rfl, rfl, rfl, rfl, rfl⟩

theorem Built.times (hb : Built g d pas net f o) {c : K} (hc : c ≠ 0) : Built g (d.times c) pas net f (o.timesTrips c) :=
  ⟨by rw [prepare_times hc, hb.built]; rfl, hb.ids, hb.adm, hb.nodes, hb.walk⟩

/-- C70: the passengers that board, alight and ride in each vehicle are `c` times as many -/
theorem C70_loads {c : K} (hc : c ≠ 0) (h : Optimizer.init g d pas net f = .ok o)
    (h' : Optimizer.init g (d.times c) pas net f = .ok o') {fr : Dict Str K} {t : Loads K} (ht : o.loads fr = .ok t) :
    ∃ t', o'.loads fr = .ok t' ∧ ∀ k, t'.z.getD k 0 = c * t.z.getD k 0 ∧ t'.v.getD k 0 = c * t.v.getD k 0 ∧
      t'.load.getD k 0 = c * t.load.getD k 0 := by
  rw [init_times hc, h] at h'
  cases h'
  refine ⟨t.times c, ?_, fun k => ⟨getD_times c _ k, getD_times c _ k, getD_times c _ k⟩⟩
  show getLoads (allNodes o.ext.nodes).length fr (timesTrips c o.pairs) = _
  rw [getLoads_times hc]
  unfold Optimizer.loads at ht
  rw [ht]
  rfl

/-! ## the users -/

theorem boardSum_times {e : K} {f f' : Dict Str K} (hf : TimesF e f f') (succ : ENode K → List (EEdge K)) (y : ENode K) :
    boardSum f' succ y = e * boardSum f succ y := by
  unfold boardSum
  rw [← List.sum_map_mul_left]
  congr 1
  apply List.map_congr_left
  intro b _
  unfold lineF
  cases b.j with
  | route n => exact hf _
  | _ => simp

theorem disOf_times {e : K} (he : e ≠ 0) {f f' : Dict Str K} (hf : TimesF e f f') (succ : ENode K → List (EEdge K)) :
    disOf f' succ = disOf f succ := by
  funext w
  obtain ⟨i, j, pax⟩ := w
  unfold disOf
  cases i with
  | stop s =>
    cases j with
    | route n =>
      simp only
      have := boardSum_times hf succ (.stop s)
      unfold boardSum at this
      rw [this, hf, mul_div_mul_left _ _ he]
    | _ => rfl
  | _ => rfl

theorem stopsTrace_times {e : K} (he : e ≠ 0) {f f' : Dict Str K} (hf : TimesF e f f') (N : Nat)
    (p : ODResult K × Dict (StopNode K) K) (l : List (StopNode K)) : stopsTrace N f' p l = stopsTrace N f p l := by
  have h1 : loadKids f' p.1.res.succ p.1.dest = loadKids f p.1.res.succ p.1.dest := by
    funext w
    unfold loadKids
    rw [disOf_times he hf]
  have h2 : out f' p.1.res.succ = out f p.1.res.succ := by
    funext w
    unfold out
    rw [disOf_times he hf]
  unfold stopsTrace
  congr 1
  funext s
  unfold stopTrace
  rw [h1, h2]

theorem teW_times {e : K} (he : e ≠ 0) {f f' : Dict Str K} (hf : TimesF e f f') (succ : ENode K → List (EEdge K))
    (i j : ENode K) : e * teW f' succ i j = teW f succ i j := by
  unfold teW
  cases i with
  | stop s =>
    cases j with
    | route n =>
      simp only
      rw [boardSum_times hf, mul_div_assoc, ← div_div, ← mul_div_assoc, mul_div_cancel₀ _ he]
    | _ => simp
  | _ => simp

/-! ## sums over the tables -/

theorem total_times (c : K) (d : Dict (LoadKey K) K) (P : LoadKey K → Prop) [DecidablePred P] :
    total (times c d) P = c * total d P := by
  unfold total times
  rw [List.filter_map, List.map_map, ← List.sum_map_mul_left]
  rfl

theorem dwellMax_times {c : K} (hc : 0 ≤ c) (z v : Dict (LoadKey K) K) (id : Str) (S : List (LoadKey K)) :
    dwellMax (times c z) (times c v) id S = c * dwellMax z v id S := by
  unfold dwellMax
  rw [← List.sum_map_mul_left]
  congr 1
  apply List.map_congr_left
  intro k _
  rw [getD_times, getD_times, mul_max_of_nonneg _ _ hc]

theorem standing_times {c : K} (hc : 0 ≤ c) (z v : Dict (LoadKey K) K) (S : List (LoadKey K)) (r : Route K) :
    standing (times c z) (times c v) S r = c * standing z v S r := by
  unfold standing
  rw [total_times, total_times, dwellMax_times hc]
  split <;> ring

theorem fullest_times {c : K} (hc : 0 ≤ c) (load : Dict (LoadKey K) K) (id : Str) :
    fullest (times c load) id = c * fullest load id := by
  have key : ∀ l : List K, (l.map (c * ·)).foldr max 0 = c * l.foldr max 0 := by
    intro l
    induction l with
    | nil => simp
    | cons a t ih => rw [List.map_cons, List.foldr_cons, List.foldr_cons, ih, mul_max_of_nonneg _ _ hc]
  unfold fullest
  rw [← key]
  unfold times
  rw [List.filter_map, List.map_map, List.map_map]
  rfl

theorem alightW_times (x : ExtGraph K) (c : K) (v : Dict (LoadKey K) K) (i j : ENode K) :
    alightW x.nodes (times c v) i j = c * alightW x.nodes v i j := by
  unfold alightW
  cases i with
  | route n =>
    cases j with
    | stop s =>
      simp only
      cases prevOf x.nodes n with
      | none => simp
      | some p => simp only; rw [getD_times]; ring
    | _ => simp
  | _ => simp

theorem throughW_times {c : K} (hc : 0 ≤ c) (z v : Dict (LoadKey K) K) (succ : ENode K → List (EEdge K)) (i j : ENode K) :
    throughW (times c z) (times c v) succ i j = c * throughW z v succ i j := by
  unfold throughW
  rw [← List.sum_map_mul_left]
  congr 1
  apply List.map_congr_left
  intro b _
  unfold stayW
  cases i with
  | route p =>
    cases j with
    | route n =>
      cases b.j with
      | route _ =>
        simp only
        rw [getD_times, getD_times]
        unfold passing
        rw [← mul_max_of_nonneg _ _ hc]
        split
        · ring
        · split <;> ring
      | _ => simp
    | _ => simp
  | _ => simp

/-! ## the users' times with both factors -/

/-- what the users spend: walking to the first stop, walking later, waiting, moving, standing at stops, and changing -/
structure Spent (K : Type) where
  access : K
  walks : K
  waiting : K
  riding : K
  standing : K
  changes : K

def spent (N : Nat) (f : Dict Str K) (x : ExtGraph K) (vp : K) (z v : Dict (LoadKey K) K)
    (l : List (ODResult K × Dict (StopNode K) K)) : Spent K :=
  ⟨(l.map fun p => ((Dict.keys p.1.paths).map (accessOf vp p)).sum).sum,
    (l.map fun p => ((stopsTrace N f p (Dict.keys p.1.paths)).map fun w => walkW w.i w.j).sum).sum,
    (l.map fun p => flow (teW f p.1.res.succ) (stopsTrace N f p (Dict.keys p.1.paths))).sum,
    (l.map fun p => flow (rideW x.edges) (stopsTrace N f p (Dict.keys p.1.paths))).sum,
    (l.map fun p => flow (dwellW x z v p.1.res.succ) (stopsTrace N f p (Dict.keys p.1.paths))).sum,
    (l.map fun p => flow (trW p.1.dest) (stopsTrace N f p (Dict.keys p.1.paths))).sum⟩

theorem flow_weights (ψ χ : ENode K → ENode K → K) (s : K) (vs : List (Item K)) :
    flow (fun i j => ψ i j + s * χ i j) vs = flow ψ vs + s * flow χ vs := by
  unfold flow
  rw [← List.sum_map_mul_left, ← List.sum_map_add]
  congr 1
  apply List.map_congr_left
  intro w _
  ring

variable {x : ExtGraph K} {N : Nat} {l : List (ODResult K × Dict (StopNode K) K)} {z v : Dict (LoadKey K) K} {vp : K}

theorem resources_both {c e s : K} (hc : c ≠ 0) (he : e ≠ 0) (hs : 0 ≤ s) {f f' : Dict Str K} (hf : TimesF e f f')
    (hl : ∀ p ∈ timesTrips c l, UserOk N f' x vp p) :
    resourcesConsumer N f' x vp (times s z) (times s v) (timesTrips c l) =
      .ok ⟨c * (spent N f x vp z v l).access + (spent N f x vp z v l).walks, c / e * (spent N f x vp z v l).waiting,
        c * ((spent N f x vp z v l).riding + s * (spent N f x vp z v l).standing), c * (spent N f x vp z v l).changes⟩ := by
  rw [resources_spec hl]
  have hsum : ∀ (a : K) (F G : ODResult K × Dict (StopNode K) K → K), (∀ p, G (p.1.scale c, p.2) = a * F p) →
      ((timesTrips c l).map G).sum = a * (l.map F).sum := by
    intro a F G h
    unfold timesTrips
    rw [List.map_map, ← List.sum_map_mul_left]
    congr 1
    exact List.map_congr_left fun p _ => h p
  have htr : ∀ p : ODResult K × Dict (StopNode K) K, stopsTrace N f' (p.1.scale c, p.2) (Dict.keys p.1.paths) =
      (stopsTrace N f p (Dict.keys p.1.paths)).map (Item.scale c) := by
    intro p
    rw [stopsTrace_times he hf, stopsTrace_scale hc]
  have hkeys : ∀ p : ODResult K, (p.scale c).paths = p.paths := fun _ => rfl
  have hres : ∀ p : ODResult K, (p.scale c).res = p.res := fun _ => rfl
  have hdest : ∀ p : ODResult K, (p.scale c).dest = p.dest := fun _ => rfl
  congr 2
  · rw [List.sum_map_add]
    congr 1
    · refine hsum c _ _ fun p => ?_
      simp only [hkeys]
      rw [← List.sum_map_mul_left]
      congr 1
      apply List.map_congr_left
      intro b _
      unfold accessOf stopTrips ODResult.scale
      simp only
      ring
    · have := hsum 1 (fun p => ((stopsTrace N f p (Dict.keys p.1.paths)).map fun w => walkW w.i w.j).sum)
        (fun p => ((stopsTrace N f' p (Dict.keys p.1.paths)).map fun w => walkW w.i w.j).sum) fun p => by
          simp only [hkeys, htr]
          rw [List.map_map, one_mul]
          rfl
      rw [this, one_mul]
      rfl
  · refine hsum (c / e) _ _ fun p => ?_
    simp only [hkeys, hres, htr]
    rw [flow_scale]
    have : teW f p.1.res.succ = fun i j => 0 + e * teW f' p.1.res.succ i j := by
      funext i j
      rw [zero_add, teW_times he hf]
    rw [this, flow_weights (fun _ _ => 0)]
    have h0 : flow (fun _ _ => (0 : K)) (stopsTrace N f p (Dict.keys p.1.paths)) = 0 := by simp [flow]
    rw [h0, zero_add, ← mul_assoc, div_mul_cancel₀ _ he]
  · show _ = c * ((l.map fun p => flow (rideW x.edges) (stopsTrace N f p (Dict.keys p.1.paths))).sum +
      s * (l.map fun p => flow (dwellW x z v p.1.res.succ) (stopsTrace N f p (Dict.keys p.1.paths))).sum)
    rw [← List.sum_map_mul_left, ← List.sum_map_add]
    refine hsum c _ _ fun p => ?_
    simp only [hkeys, hres, htr]
    rw [flow_scale, ← flow_weights]
    congr 2
    funext i j
    unfold tvW dwellW
    rw [alightW_times, throughW_times hs]
    ring
  · refine hsum c _ _ fun p => ?_
    simp only [hkeys, hdest, htr]
    rw [flow_scale]

/-! ## signs -/

theorem signs_of_line {a b : K} (h : ∀ c : K, 0 < c → 0 ≤ c * a + b) : 0 ≤ a ∧ 0 ≤ b := by
  constructor
  · by_contra ha
    rw [not_le] at ha
    have hc : 0 < (|b| + 1) / (-a) := div_pos (by positivity) (by linarith)
    have := h _ hc
    have h2 : (|b| + 1) / (-a) * a = -(|b| + 1) := by
      have : a ≠ 0 := ha.ne
      field_simp
    rw [h2] at this
    linarith [le_abs_self b]
  · by_contra hb
    rw [not_le] at hb
    rcases le_or_gt a 0 with ha | ha
    · have := h 1 one_pos
      linarith
    · have hc : 0 < -b / (2 * a) := div_pos (by linarith) (by linarith)
      have := h _ hc
      have h2 : -b / (2 * a) * a = -b / 2 := by
        have : a ≠ 0 := ha.ne'
        field_simp
      rw [h2] at this
      linarith

/-- the trips of the pairs and the shares of the stops are not negative -/
theorem Built.trips (hb : Built g d pas net f o) (hsen : Sensible g d pas) {fr : Dict Str K}
    (hl : Loading o.ext pas (allNodes o.ext.nodes).length fr o.pairs) : ∀ p ∈ o.pairs, 0 ≤ p.1.vij ∧ ∀ s, 0 ≤ p.2.getD s 0 := by
  obtain ⟨_, _, _, _, hf, _, _, hx, res, shares, w, hres, hw, hsh, hp⟩ := prepare_fields hb.built
  have hadm := hb.adm
  rw [← hf] at hadm
  intro p hpm
  have hcomp := hl.computed p hpm
  rw [hp] at hpm
  obtain ⟨h1, _⟩ := List.of_mem_zip hpm
  constructor
  · cases hv : networkValidator o.ext.nodes o.ext.edges pas d.matrix with
    | error e =>
      rw [(C41_all_pairs hadm hb.nodes hx d.matrix).2 e hv] at hres
      cases hres
    | ok b =>
      have hbt : b = true := by
        cases b with
        | true => rfl
        | false =>
          unfold allHyperpaths at hres
          rw [hv, py_ok_bind] at hres
          cases hres
      obtain ⟨l, hl', hf2⟩ := (C41_all_pairs hadm hb.nodes hx d.matrix).1 (by rw [hv, hbt])
      rw [hres] at hl'
      cases hl'
      obtain ⟨q, hq, hqe⟩ := forall₂_exists_left hf2 p.1 h1
      rw [hqe.2.2.2.2.1]
      obtain ⟨c, hc, hq⟩ := List.mem_flatMap.1 hq
      obtain ⟨e, he, rfl⟩ := List.mem_map.1 hq
      exact hsen.demand c hc e (List.mem_filter.1 he).1
  · intro s
    have hsp : sharesOf (Dict.keys p.1.paths) p.1.res.label w pas.va pas.pa pas.pv = .ok p.2 := by
      exact List.forall₂_zip ((mapM_forall₂ _ _ _).1 hsh) hpm
    by_cases hne : p.1.paths = []
    · rw [hne] at hsp
      have : p.2 = [] := (Except.ok.inj hsp).symm
      rw [this]
      exact le_refl _
    · obtain ⟨a, ha, hc⟩ := C43_pairs_partial hadm hb.nodes hx hcomp hne (hsen.width w hw) hb.walk.le hsen.walk hadm.pv
      rw [hsp] at ha
      cases ha
      rcases hc with ⟨hc, _⟩ | ⟨hc, _⟩
      · exact (hc.range s).1
      · rw [hc]
        exact le_refl _

/-! ## the total cost -/

/-- the conditions on the numbers of a city, its modes and its passengers under which no cost is negative -/
structure Costly (g : Graph K) (pas : Passenger K) (net : Network K) : Prop where
  lines : ∀ r ∈ net.routes, r.mode.InRange
  modes : ∀ m ∈ net.modes, m.InRange
  widths : ∀ a ∈ g.nodes, 0 ≤ a.width
  access : 0 ≤ pas.spa
  waiting : 0 ≤ pas.spw
  riding : 0 ≤ pas.spv
  changing : 0 ≤ pas.spt

/-- with `c` times the trips and `e` times the frequencies -/
def Spent.both (p : Spent K) (c e : K) : Resources K :=
  ⟨c * p.access + p.walks, c / e * p.waiting, c * (p.riding + c / e * p.standing), c * p.changes⟩

theorem vrc_both (hb : Built g d pas net f o) {n : Nat} (hs : CityShape g n) (hm : net.modes.Nodup) {y : List K}
    (hlen : y.length = net.routes.length) (hy : ∀ q ∈ y, 0 < q) (hin : ∀ r ∈ net.routes, r.mode.InRange) :
    ∃ fr times t, Gives net y fr ∧ foptToF o.lines y = .ok fr ∧ linesTravelTime net.routes g.edgesDistance = .ok times ∧
      o.loads fr = .ok t ∧ Loading o.ext pas (allNodes o.ext.nodes).length fr o.pairs ∧
      ∃ S : List (LoadKey K), ∀ c e : K, 0 < c → 0 < e →
        (o.timesTrips c).vrc (y.map (e * ·)) = .ok
          ((net.routes.map fun r => (r.mode.co + r.mode.c1 * (c / e * fullest t.load r.id)) * (e * fr.getD r.id 0) *
              (times.getD r.id 0 + c / e * standing t.z t.v S r)).sum + infrastructureCost g net.routes net.modes fr +
            resourcesCost pas ((spent (allNodes o.ext.nodes).length fr o.ext pas.va t.z t.v o.pairs).both c e)) := by
  classical
  obtain ⟨fr, hfr, hg⟩ := hb.vector hlen
  obtain ⟨e1, e2, e3, e4, hf, _, hlines, hx, _⟩ := prepare_fields hb.built
  have hadm := hb.adm
  rw [← hf] at hadm
  have hpos : ∀ r ∈ net.routes, 0 < fr.getD r.id 0 := by
    intro r hr
    obtain ⟨i, hi, he⟩ := List.getElem_of_mem hr
    have h := hg.2 i r (by rw [List.getElem?_eq_getElem hi, he])
    have hi' : i < y.length := by omega
    rw [Dict.getD, h, List.getElem?_eq_getElem hi']
    exact hy _ (List.getElem_mem hi')
  have hl := hb.loading (hg.value fun q hq => (hy q hq).le) fun r hr _ => hpos r hr
  obtain ⟨t, ht⟩ := C44_terminates hadm hb.nodes hx hl
  obtain ⟨times, htimes, _⟩ := C49_travel_time hs hb.nodes hb.ids (fun r hr => (hb.adm.modes r hr).speed)
  obtain ⟨kz, kv⟩ := C50_applies hadm hb.nodes hx hl ht
  obtain ⟨mz, mv, ml⟩ := table_keys hadm hb.nodes hx hl ht
  have hkey : ∀ (m : RouteNode K) (k : LoadKey K), m.Wanted g net.routes → m.key = k → fr.getD k.1 0 ≠ 0 := by
    intro m k hw hk
    rw [← hk]
    exact (hpos m.route (List.mem_of_getElem? hw.1)).ne'
  have hrun : ∀ k, k ∈ Dict.keys t.z ∨ k ∈ Dict.keys t.v ∨ k ∈ Dict.keys t.load → fr.getD k.1 0 ≠ 0 := by
    rintro k (h | h | h)
    · obtain ⟨m, h1, h2⟩ := mz k h
      exact hkey m k h1 h2
    · obtain ⟨m, h1, h2⟩ := mv k h
      exact hkey m k h1 h2
    · obtain ⟨m, _, h1, _, _, h2⟩ := ml k h
      exact hkey m k h1 h2
  refine ⟨fr, times, t, hg, hfr, htimes, ht, hl, (Dict.keys t.z ++ Dict.keys t.v).dedup, ?_⟩
  intro c e hc he
  have hs0 : 0 ≤ c / e := (div_pos hc he).le
  have hF : TimesF e fr (Sidermit.times e fr) := timesF e fr
  have hload : getLoads (allNodes o.ext.nodes).length (Sidermit.times e fr) (timesTrips c o.pairs) = .ok (t.times (c / e)) :=
    getLoads_both hc.ne' he.ne' hF _ ht hrun
  have hb' := hb.times hc.ne'
  have hl' : Loading o.ext pas (allNodes o.ext.nodes).length (Sidermit.times e fr) (timesTrips c o.pairs) :=
    hb'.loading (fr := Sidermit.times e fr)
      (fun id => by rw [hF]; exact mul_nonneg he.le (hg.value (fun q hq => (hy q hq).le) id))
      (fun r hr _ => by rw [hF]; exact mul_pos he (hpos r hr))
  have kz' : TableOk (Sidermit.times (c / e) t.z) := by unfold TableOk; rw [keys_times]; exact kz
  have kv' : TableOk (Sidermit.times (c / e) t.v) := by unfold TableOk; rw [keys_times]; exact kv
  obtain ⟨uz, uv, _⟩ := C50_tables_unchanged kz' kv' net.routes times
  have hu : resourcesConsumer (allNodes o.ext.nodes).length (Sidermit.times e fr) o.ext pas.va
      (getCycleTime (Sidermit.times (c / e) t.z) (Sidermit.times (c / e) t.v) net.routes times).z
      (getCycleTime (Sidermit.times (c / e) t.z) (Sidermit.times (c / e) t.v) net.routes times).v (timesTrips c o.pairs) =
      .ok ((spent (allNodes o.ext.nodes).length fr o.ext pas.va t.z t.v o.pairs).both c e) :=
    Eq.trans (by
      rw [resources_spec (hl'.users hadm hb.nodes hx hb.walk.ne'),
        resources_spec (z := Sidermit.times (c / e) t.z) (v := Sidermit.times (c / e) t.v)
          (hl'.users hadm hb.nodes hx hb.walk.ne')]
      simp only [tvW_congr uz uv])
      (resources_both (z := t.z) (v := t.v) hc.ne' he.ne' hs0 hF (hl'.users hadm hb.nodes hx hb.walk.ne'))
  have hinf : infrastructureCost g net.routes net.modes (Sidermit.times e fr) = infrastructureCost g net.routes net.modes fr := by
    refine C46_frequency_irrelevant hs hb.nodes net.routes hm fun r _ => ?_
    rw [hF, mul_eq_zero]
    simp [he.ne']
  have hS : (Dict.keys t.z ++ Dict.keys t.v).dedup.Nodup := List.nodup_dedup _
  have hcyc : ∀ r ∈ net.routes,
      (getCycleTime (Sidermit.times (c / e) t.z) (Sidermit.times (c / e) t.v) net.routes times).time.getD r.id 0 =
        times.getD r.id 0 + c / e * standing t.z t.v (Dict.keys t.z ++ Dict.keys t.v).dedup r := by
    intro r hr
    obtain ⟨h0, h1⟩ := C50_cycle_time kz' kv' hb.ids times hS
      (by intro k hk; rw [keys_times] at hk; rw [List.mem_dedup]; exact List.mem_append_left _ hk)
      (by intro k hk; rw [keys_times] at hk; rw [List.mem_dedup]; exact List.mem_append_right _ hk) hr
    rw [← standing_times hs0, Dict.getD, standing]
    rcases (hin r hr).2.2.2.2.2.2.2.2.2.2.2 with hb0 | hb1
    · rw [h0 hb0, if_pos hb0]; rfl
    · rw [h1 hb1, if_neg (by rw [hb1]; decide)]; rfl
  have hv1 : foptToF (o.timesTrips c).lines (y.map (e * ·)) = .ok (Sidermit.times e fr) := by
    show foptToF o.lines _ = _
    rw [foptToF_times, hfr]
    rfl
  have hv2 : (o.timesTrips c).loads (Sidermit.times e fr) = .ok (t.times (c / e)) := hload
  have hv3 : (o.timesTrips c).costs (Sidermit.times e fr) (t.times (c / e)) = .ok
      (Sidermit.operatorsCost net.routes
        (getCycleTime (Sidermit.times (c / e) t.z) (Sidermit.times (c / e) t.v) net.routes times).time (Sidermit.times e fr)
        (getK (Sidermit.times (c / e) t.load)), infrastructureCost g net.routes net.modes fr,
        resourcesCost pas ((spent (allNodes o.ext.nodes).length fr o.ext pas.va t.z t.v o.pairs).both c e)) := by
    unfold Optimizer.costs Optimizer.operatorsCost
    simp only [Optimizer.timesTrips, Loads.times]
    rw [e4, e1, e3, htimes]
    simp only [py_ok_bind, py_pure]
    rw [usersCost, hu, hinf]
    rfl
  rw [Optimizer.vrc, hv1, py_ok_bind, hv2, py_ok_bind, hv3, py_ok_bind, py_pure]
  congr 3
  show Sidermit.operatorsCost net.routes _ _ _ = _
  rw [operatorsCost_eq]
  congr 1
  apply List.map_congr_left
  intro r hr
  rw [hcyc r hr, getK_eq, fullest_times hs0, hF]

theorem spent_nonneg (hb : Built g d pas net f o) (hsen : Sensible g d pas) (hco : Costly g pas net) {fr : Dict Str K}
    (hfr : ∀ id, 0 ≤ fr.getD id 0) {t : Loads K} (ht : o.loads fr = .ok t)
    (hl : Loading o.ext pas (allNodes o.ext.nodes).length fr o.pairs) {p : Spent K}
    (hp : p = spent (allNodes o.ext.nodes).length fr o.ext pas.va t.z t.v o.pairs) :
    0 ≤ p.access ∧ 0 ≤ p.walks ∧ 0 ≤ p.waiting ∧ 0 ≤ p.riding ∧ 0 ≤ p.standing ∧ 0 ≤ p.changes := by
  obtain ⟨_, _, _, _, hf, _, _, hx, _⟩ := prepare_fields hb.built
  have hadm := hb.adm
  rw [← hf] at hadm
  have hV := hb.trips hsen hl
  have htab := C44_nonneg hadm hb.nodes hx hl ht hfr hV
  have key : ∀ c s : K, 0 < c → 0 ≤ s → 0 ≤ c * p.access + p.walks ∧ 0 ≤ c / 1 * p.waiting ∧
      0 ≤ c * (p.riding + s * p.standing) ∧ 0 ≤ c * p.changes := by
    intro c s hc hs
    have hl' : Loading o.ext pas (allNodes o.ext.nodes).length fr (timesTrips c o.pairs) := hl.scaled c
    have h := resources_both (z := t.z) (v := t.v) hc.ne' one_ne_zero hs (TimesF.one fr)
      (hl'.users hadm hb.nodes hx hb.walk.ne')
    rw [← hp] at h
    refine C59_nonneg hadm hb.nodes hx hl' hb.walk h hfr ?_ ?_ (fun r hr => (hco.lines r hr).2.2.2.2.1) hco.widths
    · intro q hq
      obtain ⟨q0, hq0, rfl⟩ := List.mem_map.1 hq
      exact ⟨mul_nonneg hc.le (hV q0 hq0).1, (hV q0 hq0).2⟩
    · intro k
      rw [getD_times, getD_times]
      exact ⟨mul_nonneg hs (htab k).1, mul_nonneg hs (htab k).2.1⟩
  obtain ⟨h1, h2⟩ := signs_of_line fun c hc => (key c 0 hc le_rfl).1
  obtain ⟨h3, h4⟩ := signs_of_line (a := p.standing) (b := p.riding) fun s hs => by
    have := (key 1 s one_pos hs.le).2.2.1
    linarith
  have h5 := key 1 0 one_pos le_rfl
  refine ⟨h1, h2, ?_, h4, h3, ?_⟩
  · simpa using h5.2.1
  · simpa using h5.2.2.2

/-- C70: with `c` times the trips and `e` times the frequencies the total cost is `q₀ + q₁ e + q₂ c + q₃ c / e + q₄ c² / e`, with
coefficients that depend on neither and are not negative -/
theorem C70_cost (hb : Built g d pas net f o) {n : Nat} (hs : CityShape g n) (hm : net.modes.Nodup) (hsen : Sensible g d pas)
    (hco : Costly g pas net) {y : List K} (hlen : y.length = net.routes.length) (hy : ∀ q ∈ y, 0 < q) :
    ∃ q₀ q₁ q₂ q₃ q₄ : K, 0 ≤ q₀ ∧ 0 ≤ q₁ ∧ 0 ≤ q₂ ∧ 0 ≤ q₃ ∧ 0 ≤ q₄ ∧ ∀ c e : K, 0 < c → 0 < e →
      ∀ o', Optimizer.prepare g (d.times c) pas net f = .ok o' →
        o'.vrc (y.map (e * ·)) = .ok (q₀ + q₁ * e + q₂ * c + q₃ * (c / e) + q₄ * (c ^ 2 / e)) := by
  obtain ⟨fr, times, t, hg, hfr, htimes, ht, hl, S, hvrc⟩ := vrc_both hb hs hm hlen hy hco.lines
  obtain ⟨_, _, _, _, hf, _, _, hx, _⟩ := prepare_fields hb.built
  have hadm := hb.adm
  rw [← hf] at hadm
  have hfn : ∀ id, 0 ≤ fr.getD id 0 := hg.value fun q hq => (hy q hq).le
  have hV := hb.trips hsen hl
  have htab := C44_nonneg hadm hb.nodes hx hl ht hfn hV
  obtain ⟨s1, s2, s3, s4, s5, s6⟩ := spent_nonneg hb hsen hco hfn ht hl rfl
  generalize hP : spent (allNodes o.ext.nodes).length fr o.ext pas.va t.z t.v o.pairs = P at hvrc s1 s2 s3 s4 s5 s6
  have hT : ∀ r ∈ net.routes, 0 ≤ times.getD r.id 0 := fun r hr =>
    (C49_nonneg_symmetric hs hb.nodes hadm.root hb.ids (fun r hr => (hb.adm.modes r hr).speed) htimes hr).1
  obtain ⟨kz, kv⟩ := C50_applies hadm hb.nodes hx hl ht
  have hmem : ∀ {D : Dict (LoadKey K) K}, TableOk D → (∀ k, 0 ≤ D.getD k 0) → ∀ id : Str, 0 ≤ total D fun k => k.1 = id := by
    intro D hD h0 id
    apply List.sum_nonneg
    intro a ha
    obtain ⟨p, hp, rfl⟩ := List.mem_map.1 ha
    have := h0 p.1
    rwa [Dict.getD, Dict.get?_of_mem D hD (List.mem_filter.1 hp).1] at this
  have hSt : ∀ r ∈ net.routes, 0 ≤ standing t.z t.v S r := by
    intro r hr
    unfold standing
    refine mul_nonneg (div_nonneg (hco.lines r hr).2.2.2.2.1 (by norm_num)) ?_
    split
    · exact add_nonneg (hmem kz (fun k => (htab k).1) _) (hmem kv (fun k => (htab k).2.1) _)
    · apply List.sum_nonneg
      intro a ha
      obtain ⟨k, _, rfl⟩ := List.mem_map.1 ha
      exact le_max_of_le_left (htab k).1
  have hK : ∀ id, 0 ≤ fullest t.load id := by
    intro id
    unfold fullest
    generalize ((t.load.filter fun p => decide (p.1.1 = id)).map Prod.snd) = L
    induction L with
    | nil => exact le_rfl
    | cons a L ih => exact le_max_of_le_right ih
  have hI : 0 ≤ infrastructureCost g net.routes net.modes fr := by
    choose T hT' using fun m => C46_streets_exist g n net.routes fr m
    rw [C46_cost hs hb.nodes net.routes hm fr fun m _ => hT' m]
    apply List.sum_nonneg
    intro a ha
    obtain ⟨m, hmm, rfl⟩ := List.mem_map.1 ha
    have hr := hco.modes m hmm
    refine mul_nonneg hr.2.2.1 (mul_nonneg (by exact_mod_cast hr.2.2.2.2.2.2.2.2.2.1) (List.sum_nonneg ?_))
    intro b hb'
    obtain ⟨p, _, rfl⟩ := List.mem_map.1 hb'
    exact hadm.root _
  have hsum : ∀ F : Route K → K, (∀ r ∈ net.routes, 0 ≤ F r) → 0 ≤ (net.routes.map F).sum := by
    intro F hF
    apply List.sum_nonneg
    intro a ha
    obtain ⟨r, hr, rfl⟩ := List.mem_map.1 ha
    exact hF r hr
  have hco0 := fun r hr => (hco.lines r hr).1
  have hc10 := fun r hr => (hco.lines r hr).2.1
  refine ⟨infrastructureCost g net.routes net.modes fr + pas.spa * P.walks,
    (net.routes.map fun r => r.mode.co * fr.getD r.id 0 * times.getD r.id 0).sum,
    (net.routes.map fun r => r.mode.co * fr.getD r.id 0 * standing t.z t.v S r +
      r.mode.c1 * fullest t.load r.id * fr.getD r.id 0 * times.getD r.id 0).sum +
      (pas.spa * P.access + pas.spv * P.riding + pas.spv * (pas.spt / 60) * P.changes),
    pas.spw * P.waiting,
    (net.routes.map fun r => r.mode.c1 * fullest t.load r.id * fr.getD r.id 0 * standing t.z t.v S r).sum +
      pas.spv * P.standing, ?_, ?_, ?_, ?_, ?_, ?_⟩
  · exact add_nonneg hI (mul_nonneg hco.access s2)
  · exact hsum _ fun r hr => mul_nonneg (mul_nonneg (hco0 r hr) (hfn _)) (hT r hr)
  · refine add_nonneg (hsum _ fun r hr => add_nonneg ?_ ?_) (add_nonneg (add_nonneg ?_ ?_) ?_)
    · exact mul_nonneg (mul_nonneg (hco0 r hr) (hfn _)) (hSt r hr)
    · exact mul_nonneg (mul_nonneg (mul_nonneg (hc10 r hr) (hK _)) (hfn _)) (hT r hr)
    · exact mul_nonneg hco.access s1
    · exact mul_nonneg hco.riding s4
    · exact mul_nonneg (mul_nonneg hco.riding (div_nonneg hco.changing (by norm_num))) s6
  · exact mul_nonneg hco.waiting s3
  · exact add_nonneg (hsum _ fun r hr => mul_nonneg (mul_nonneg (mul_nonneg (hc10 r hr) (hK _)) (hfn _)) (hSt r hr))
      (mul_nonneg hco.riding s5)
  · intro c e hc he o' ho'
    rw [prepare_times hc.ne', hb.built] at ho'
    cases ho'
    rw [hvrc c e hc he]
    congr 1
    have hne : e ≠ 0 := he.ne'
    have hops : (net.routes.map fun r => (r.mode.co + r.mode.c1 * (c / e * fullest t.load r.id)) * (e * fr.getD r.id 0) *
          (times.getD r.id 0 + c / e * standing t.z t.v S r)).sum =
        (net.routes.map fun r => r.mode.co * fr.getD r.id 0 * times.getD r.id 0).sum * e +
        (net.routes.map fun r => r.mode.co * fr.getD r.id 0 * standing t.z t.v S r +
          r.mode.c1 * fullest t.load r.id * fr.getD r.id 0 * times.getD r.id 0).sum * c +
        (net.routes.map fun r => r.mode.c1 * fullest t.load r.id * fr.getD r.id 0 * standing t.z t.v S r).sum *
          (c ^ 2 / e) := by
      rw [← List.sum_map_mul_right, ← List.sum_map_mul_right, ← List.sum_map_mul_right, ← List.sum_map_add,
        ← List.sum_map_add]
      congr 1
      apply List.map_congr_left
      intro r _
      field_simp
      ring
    rw [hops, resourcesCost, Spent.both]
    field_simp
    ring

/-! ## the constraints -/

theorem vehicleFlow_times {e : K} {f f' : Dict Str K} (hf : TimesF e f f') (routes : List (Route K)) (m : Mode K) (a b : Int) :
    vehicleFlow routes f' m a b = e * vehicleFlow routes f m a b := by
  unfold vehicleFlow
  rw [← List.sum_map_mul_left]
  congr 1
  apply List.map_congr_left
  intro r _
  rw [hf, mul_assoc]

/-- C70: with `c` times the trips and `e` times the frequencies the passengers on the fullest section of each line are `c / e`
times as many, and the vehicles on each street `e` times -/
theorem C70_constraints (hb : Built g d pas net f o) {n : Nat} (hs : CityShape g n) (hd : ∀ m ∈ net.modes, 0 < m.d) {y : List K}
    (hlen : y.length = net.routes.length) (hy : ∀ q ∈ y, 0 < q) (hm : net.modes.Nodup)
    (hin : ∀ r ∈ net.routes, r.mode.InRange) {c e : K} (hc : 0 < c) (he : 0 < e)
    (ho' : Optimizer.prepare g (d.times c) pas net f = .ok o') :
    ∃ w w', o.constrains y = .ok w ∧ o'.constrains (y.map (e * ·)) = .ok w' ∧ w'.length = w.length ∧
      (∀ (i : Nat) (r : Route K), net.routes[i]? = some r → ∃ a, w[i]? = some (a - r.mode.kmax) ∧
        w'[i]? = some (c / e * a - r.mode.kmax)) ∧
      ∀ (i j : Nat) (m : Mode K), i < g.edges.length → net.modes[j]? = some m → ∃ a,
        w[net.routes.length + (i * net.modes.length + j)]? = some ((a - m.fmax) / (m.d : K)) ∧
        w'[net.routes.length + (i * net.modes.length + j)]? = some ((e * a - m.fmax) / (m.d : K)) := by
  rw [prepare_times hc.ne', hb.built] at ho'
  cases ho'
  obtain ⟨fr, _, t, hg, hfr, _, ht, hrun, _⟩ := vrc_both hb hs hm hlen hy hin
  obtain ⟨e1, _, _, e4, hf, _, _, hx, _⟩ := prepare_fields hb.built
  have hadm := hb.adm
  rw [← hf] at hadm
  have hpos : ∀ r ∈ net.routes, 0 < fr.getD r.id 0 := by
    intro r hr
    obtain ⟨i, hi, he⟩ := List.getElem_of_mem hr
    have h := hg.2 i r (by rw [List.getElem?_eq_getElem hi, he])
    have hi' : i < y.length := by omega
    rw [Dict.getD, h, List.getElem?_eq_getElem hi']
    exact hy _ (List.getElem_mem hi')
  obtain ⟨mz, mv, ml⟩ := table_keys hadm hb.nodes hx hrun ht
  have hkey : ∀ (m : RouteNode K) (k : LoadKey K), m.Wanted g net.routes → m.key = k → fr.getD k.1 0 ≠ 0 := by
    intro m k hw hk
    rw [← hk]
    exact (hpos m.route (List.mem_of_getElem? hw.1)).ne'
  have hload : getLoads (allNodes o.ext.nodes).length (times e fr) (timesTrips c o.pairs) = .ok (t.times (c / e)) := by
    refine getLoads_both hc.ne' he.ne' (timesF e fr) _ ht ?_
    rintro k (h | h | h)
    · obtain ⟨m, h1, h2⟩ := mz k h
      exact hkey m k h1 h2
    · obtain ⟨m, h1, h2⟩ := mv k h
      exact hkey m k h1 h2
    · obtain ⟨m, _, h1, _, _, h2⟩ := ml k h
      exact hkey m k h1 h2
  obtain ⟨w, hw, hwl, hwv⟩ := C47_values hs net.routes net.modes fr hd
  obtain ⟨w', hw', hwl', hwv'⟩ := C47_values hs net.routes net.modes (times e fr) hd
  have hk : ∀ most : Dict Str K, (kConstrains net.routes most).length = net.routes.length := fun most => by
    unfold kConstrains; rw [List.length_map]
  refine ⟨kConstrains net.routes (mostLoaded t.load) ++ w, kConstrains net.routes (mostLoaded (times (c / e) t.load)) ++ w',
    ?_, ?_, ?_, ?_, ?_⟩
  · rw [Optimizer.constrains, hfr, py_ok_bind, ht, py_ok_bind, e1, e4, hw]
    rfl
  · have h1 : foptToF (o.timesTrips c).lines (y.map (e * ·)) = .ok (times e fr) := by
      show foptToF o.lines _ = _
      rw [foptToF_times, hfr]
      rfl
    have h2 : (o.timesTrips c).loads (times e fr) = .ok (t.times (c / e)) := hload
    rw [Optimizer.constrains, h1, py_ok_bind, h2, py_ok_bind]
    simp only [Optimizer.timesTrips]
    rw [e1, e4, hw']
    rfl
  · rw [List.length_append, List.length_append, hk, hk, hwl, hwl']
  · intro i r hr
    have hi : i < net.routes.length := (List.getElem?_eq_some_iff.1 hr).1
    refine ⟨fullest t.load r.id, ?_, ?_⟩
    · rw [List.getElem?_append_left (by rw [hk]; exact hi), kConstrains, List.getElem?_map, hr, ← fullest_eq]
      rfl
    · rw [List.getElem?_append_left (by rw [hk]; exact hi), kConstrains, List.getElem?_map, hr,
        ← fullest_times (div_pos hc he).le, ← fullest_eq]
      rfl
  · intro i j m hi hj
    obtain ⟨a, b, ha, hb', h⟩ := hwv i j g.edges[i] m (List.getElem?_eq_getElem hi) hj
    obtain ⟨a', b', ha', hb'', h'⟩ := hwv' i j g.edges[i] m (List.getElem?_eq_getElem hi) hj
    rw [ha] at ha'
    rw [hb'] at hb''
    cases ha'
    cases hb''
    refine ⟨vehicleFlow net.routes fr m a.id b.id, ?_, ?_⟩
    · rw [List.getElem?_append_right (by rw [hk]; omega), hk, Nat.add_sub_cancel_left, h]
    · rw [List.getElem?_append_right (by rw [hk]; omega), hk, Nat.add_sub_cancel_left, h',
        vehicleFlow_times (timesF e fr)]

/-! ## consequences -/

/-- C70: with the same frequencies, more trips never cost less, and each further trip costs at least as much as the one before -/
theorem C70_more_trips (hb : Built g d pas net f o) {n : Nat} (hs : CityShape g n) (hm : net.modes.Nodup)
    (hsen : Sensible g d pas) (hco : Costly g pas net) {y : List K} (hlen : y.length = net.routes.length) (hy : ∀ q ∈ y, 0 < q) :
    ∃ V : K → K, (∀ c, 0 < c → ∀ o', Optimizer.prepare g (d.times c) pas net f = .ok o' → o'.vrc y = .ok (V c)) ∧
      (∀ c c', 0 < c → c ≤ c' → V c ≤ V c') ∧
      ∀ c h, 0 < c → 0 ≤ h → V (c + h) - V c ≤ V (c + 2 * h) - V (c + h) := by
  obtain ⟨q₀, q₁, q₂, q₃, q₄, h0, h1, h2, h3, h4, hv⟩ := C70_cost hb hs hm hsen hco hlen hy
  have hone : y.map ((1 : K) * ·) = y := by simp
  refine ⟨fun c => q₀ + q₁ + (q₂ + q₃) * c + q₄ * c ^ 2, ?_, ?_, ?_⟩
  · intro c hc o' ho'
    have := hv c 1 hc one_pos o' ho'
    rw [hone] at this
    rw [this]
    congr 1
    ring
  · intro c c' hc hcc
    have h5 : c ^ 2 ≤ c' ^ 2 := pow_le_pow_left₀ hc.le hcc 2
    have := mul_le_mul_of_nonneg_left hcc (add_nonneg h2 h3)
    have := mul_le_mul_of_nonneg_left h5 h4
    simp only
    linarith
  · intro c h hc hh
    simp only
    nlinarith [mul_nonneg h4 (mul_nonneg hh hh)]

/-- C71: when the frequencies grow with the trips, the total cost does not fall but the cost of a trip does not rise -/
theorem C71_economies (hb : Built g d pas net f o) {n : Nat} (hs : CityShape g n) (hm : net.modes.Nodup)
    (hsen : Sensible g d pas) (hco : Costly g pas net) {y : List K} (hlen : y.length = net.routes.length) (hy : ∀ q ∈ y, 0 < q)
    (htrips : 0 < d.total) {c c' : K} (hc : 0 < c) (hcc : c ≤ c') {o₁ o₂ : Optimizer K}
    (h₁ : Optimizer.prepare g (d.times c) pas net f = .ok o₁) (h₂ : Optimizer.prepare g (d.times c') pas net f = .ok o₂) :
    ∃ V₁ V₂, o₁.vrc (y.map (c * ·)) = .ok V₁ ∧ o₂.vrc (y.map (c' * ·)) = .ok V₂ ∧ V₁ ≤ V₂ ∧
      V₂ / (d.times c').total ≤ V₁ / (d.times c).total := by
  obtain ⟨q₀, q₁, q₂, q₃, q₄, h0, h1, h2, h3, h4, hv⟩ := C70_cost hb hs hm hsen hco hlen hy
  have hc' : 0 < c' := hc.trans_le hcc
  refine ⟨_, _, hv c c hc hc o₁ h₁, hv c' c' hc' hc' o₂ h₂, ?_, ?_⟩
  · rw [div_self hc.ne', div_self hc'.ne', pow_two, pow_two, mul_div_assoc, mul_div_assoc, div_self hc.ne', div_self hc'.ne']
    have := mul_le_mul_of_nonneg_left hcc h1
    have := mul_le_mul_of_nonneg_left hcc h2
    have := mul_le_mul_of_nonneg_left hcc h4
    linarith
  · show _ / (c' * d.total) ≤ _ / (c * d.total)
    have key : ∀ a : K, 0 < a → (q₀ + q₁ * a + q₂ * a + q₃ * (a / a) + q₄ * (a ^ 2 / a)) / (a * d.total) =
        ((q₀ + q₃) / a + (q₁ + q₂ + q₄)) / d.total := by
      intro a ha
      have := ha.ne'
      have := htrips.ne'
      field_simp
      ring
    rw [key c hc, key c' hc']
    refine div_le_div_of_nonneg_right (add_le_add ?_ le_rfl) htrips.le
    exact div_le_div_of_nonneg_left (add_nonneg h0 h3) hc hcc

/-- C71: and the room left in the vehicles is the same -/
theorem C71_same_room (hb : Built g d pas net f o) {n : Nat} (hs : CityShape g n) (hd : ∀ m ∈ net.modes, 0 < m.d) {y : List K}
    (hlen : y.length = net.routes.length) (hy : ∀ q ∈ y, 0 < q) (hm : net.modes.Nodup)
    (hin : ∀ r ∈ net.routes, r.mode.InRange) {c : K} (hc : 0 < c) (ho' : Optimizer.prepare g (d.times c) pas net f = .ok o') :
    ∃ w w', o.constrains y = .ok w ∧ o'.constrains (y.map (c * ·)) = .ok w' ∧
      w'.take net.routes.length = w.take net.routes.length := by
  obtain ⟨w, w', h1, h2, h3, h4, _⟩ := C70_constraints hb hs hd hlen hy hm hin hc hc ho'
  refine ⟨w, w', h1, h2, ?_⟩
  apply List.ext_getElem?
  intro i
  rw [List.getElem?_take, List.getElem?_take]
  split
  · next hi =>
    obtain ⟨a, ha, ha'⟩ := h4 i _ (List.getElem?_eq_getElem hi)
    rw [ha, ha', div_self hc.ne', one_mul]
  · rfl

/-- C71: with the same trips, the total cost is a convex function of a common factor on the frequencies, so that between two
factors it is not above the larger of both costs -/
theorem C71_frequency_factor (hb : Built g d pas net f o) {n : Nat} (hs : CityShape g n) (hm : net.modes.Nodup)
    (hsen : Sensible g d pas) (hco : Costly g pas net) {y : List K} (hlen : y.length = net.routes.length) (hy : ∀ q ∈ y, 0 < q) :
    ∃ V : K → K, (∀ e, 0 < e → o.vrc (y.map (e * ·)) = .ok (V e)) ∧
      ∀ e e' a b, 0 < e → 0 < e' → 0 ≤ a → 0 ≤ b → a + b = 1 → V (a * e + b * e') ≤ a * V e + b * V e' := by
  obtain ⟨q₀, q₁, q₂, q₃, q₄, h0, h1, h2, h3, h4, hv⟩ := C70_cost hb hs hm hsen hco hlen hy
  have hsame : Optimizer.prepare g (d.times 1) pas net f = .ok (o.timesTrips 1) := (hb.times one_ne_zero).built
  have hpairs : timesTrips 1 o.pairs = o.pairs := by
    unfold timesTrips
    have : (fun p : ODResult K × Dict (StopNode K) K => (p.1.scale 1, p.2)) = id := by
      funext p
      unfold ODResult.scale
      rw [one_mul]
      rfl
    rw [this, List.map_id]
  refine ⟨fun e => q₀ + q₂ + q₁ * e + (q₃ + q₄) / e, ?_, ?_⟩
  · intro e he
    have h := hv 1 e one_pos he _ hsame
    have h' : (o.timesTrips 1).vrc (y.map (e * ·)) = o.vrc (y.map (e * ·)) := by
      unfold Optimizer.vrc Optimizer.loads Optimizer.costs Optimizer.operatorsCost
      simp only [Optimizer.timesTrips, hpairs]
    rw [← h', h]
    congr 1
    ring
  · intro e e' a b he he' ha hb' hab
    have hmid : 0 < a * e + b * e' := by
      rcases ha.eq_or_lt with h | h
      · have : b = 1 := by rw [← h] at hab; simpa using hab
        rw [← h, this]; simpa using he'
      · exact add_pos_of_pos_of_nonneg (mul_pos h he) (mul_nonneg hb' he'.le)
    have hinv : 1 / (a * e + b * e') ≤ a / e + b / e' := by
      rw [div_add_div _ _ he.ne' he'.ne', div_le_div_iff₀ hmid (mul_pos he he')]
      have hb1 : b = 1 - a := by linarith
      subst hb1
      nlinarith [mul_nonneg (mul_nonneg ha hb') (mul_self_nonneg (e - e'))]
    have hq : (q₃ + q₄) / (a * e + b * e') ≤ a * ((q₃ + q₄) / e) + b * ((q₃ + q₄) / e') := by
      have := mul_le_mul_of_nonneg_left hinv (add_nonneg h3 h4)
      calc (q₃ + q₄) / (a * e + b * e') = (q₃ + q₄) * (1 / (a * e + b * e')) := by ring
        _ ≤ (q₃ + q₄) * (a / e + b / e') := this
        _ = _ := by ring
    have h5 : q₀ + q₂ = (a + b) * (q₀ + q₂) := by rw [hab, one_mul]
    simp only
    nlinarith [hq, h5]

/-! ## the demand built from parameters -/

theorem matrix_get?_times (c : K) (m : Dict Int (Dict Int K)) (o : Int) :
    (timesMatrix c m).get? o = (m.get? o).map (times c) := by
  induction m with
  | nil => rfl
  | cons p t ih =>
    show Dict.get? ((p.1, times c p.2) :: timesMatrix c t) o = _
    rw [Dict.get?_cons, show (p :: t : Dict Int (Dict Int K)) = (p.1, p.2) :: t from rfl, Dict.get?_cons, ih]
    split <;> rfl

theorem matrix_set_times (c : K) (m : Dict Int (Dict Int K)) (o : Int) (row : Dict Int K) :
    (timesMatrix c m).set o (times c row) = timesMatrix c (m.set o row) := by
  induction m with
  | nil => rfl
  | cons p t ih =>
    obtain ⟨k, r⟩ := p
    show Dict.set ((k, times c r) :: timesMatrix c t) o (times c row) = timesMatrix c (Dict.set ((k, r) :: t) o row)
    by_cases h : k = o
    · simp only [Dict.set, if_pos h]
      rfl
    · simp only [Dict.set, if_neg h]
      rw [ih]
      rfl

theorem setCell_times (c : K) (m : Dict Int (Dict Int K)) (o e : Int) (v : K) :
    setCell (timesMatrix c m) o e (c * v) = timesMatrix c (setCell m o e v) := by
  unfold setCell
  rw [Dict.getD, matrix_get?_times, Dict.getD]
  cases m.get? o with
  | none =>
    show (timesMatrix c m).set o (Dict.set (times c []) e (c * v)) = _
    rw [set_times, matrix_set_times]
    rfl
  | some row =>
    show (timesMatrix c m).set o (Dict.set (times c row) e (c * v)) = _
    rw [set_times, matrix_set_times]
    rfl

theorem defaultMatrix_times (c : K) (nodes : List (Node K)) : timesMatrix c (defaultMatrix nodes) = defaultMatrix nodes := by
  have hin : ∀ (o : Node K) (l : List (Node K)) (m : Dict Int (Dict Int K)), timesMatrix c m = m →
      timesMatrix c (l.foldl (fun m d => setCell m o.id d.id 0) m) = l.foldl (fun m d => setCell m o.id d.id 0) m := by
    intro o l
    induction l with
    | nil => exact fun m h => h
    | cons a t ih =>
      intro m h
      refine ih _ ?_
      rw [← setCell_times, mul_zero, h]
  have hout : ∀ (l : List (Node K)) (m : Dict Int (Dict Int K)), timesMatrix c m = m →
      timesMatrix c (l.foldl (fun m o => nodes.foldl (fun m d => setCell m o.id d.id 0) m) m) =
        l.foldl (fun m o => nodes.foldl (fun m d => setCell m o.id d.id 0) m) m := by
    intro l
    induction l with
    | nil => exact fun m h => h
    | cons a t ih =>
      intro m h
      exact ih _ (hin a nodes m h)
  exact hout nodes [] rfl

theorem demand_init_times (c : K) (g : Graph K) : (Demand.init g).times c = Demand.init g := by
  unfold Demand.times Demand.init
  simp only [defaultMatrix_times, mul_zero]

theorem change_times {c : K} (hc : 0 < c) (d : Demand K) (o e : Int) (v : K) :
    (d.times c).change o e (c * v) = (d.change o e v).map (Demand.times c) := by
  unfold Demand.change Demand.changeVij
  by_cases hv : v < 0
  · rw [if_pos hv, if_pos (mul_neg_of_pos_of_neg hc hv)]
    rfl
  · rw [if_neg hv, if_neg (not_lt.2 (mul_nonneg hc.le (not_lt.1 hv)))]
    have hm : (d.times c).matrix = timesMatrix c d.matrix := rfl
    rw [hm, matrix_get?_times]
    cases d.matrix.get? o with
    | none => rfl
    | some row =>
      cases row with
      | nil => rfl
      | cons p t =>
        have hr : (times c (p :: t) : Dict Int K) = (p.1, c * p.2) :: times c t := rfl
        simp only [Option.map_some, hr]
        rw [← hr, get?_times]
        cases Dict.get? (p :: t) e with
        | none => rfl
        | some old =>
          simp only [Option.map_some, Except.map]
          congr 1
          unfold Demand.times
          simp only [setCell_times]
          congr 1
          ring

theorem changeIf_times {c : K} (hc : 0 < c) (d : Demand K) (b : Prop) [Decidable b] (o e : Int) (v : K) :
    (d.times c).changeIf b o e (c * v) = (d.changeIf b o e v).map (Demand.times c) := by
  unfold Demand.changeIf
  split
  · exact change_times hc d o e v
  · rfl

theorem map_bind_times {c : K} {e e' : Py (Demand K)} {k k' : Demand K → Py (Demand K)} (h : e' = e.map (Demand.times c))
    (hk : ∀ d, k' (d.times c) = (k d).map (Demand.times c)) : (e' >>= k') = (e >>= k).map (Demand.times c) := by
  subst h
  cases e with
  | error _ => rfl
  | ok d => exact hk d

/-- the five values for `c` times the trips -/
def TripValues.times (c : K) (t : TripValues K) : TripValues K :=
  ⟨c * t.pCbd, c * t.pSc, c * t.pOsc, c * t.scCbd, c * t.scOsc⟩

theorem tripValues_times (c : K) (n : Int) (y a alpha beta : K) :
    tripValues n (c * y) a alpha beta = (tripValues n y a alpha beta).times c := by
  unfold tripValues TripValues.times
  have h : (if n ≠ 0 then c * y / (n : K) else c * y) = c * (if n ≠ 0 then y / (n : K) else y) := by
    split
    · rw [mul_div_assoc]
    · rfl
  simp only [h]
  congr 1
  · ring
  · ring
  · split <;> ring
  · ring
  · split <;> ring

theorem demandStep_times {c : K} (hc : 0 < c) (t : TripValues K) (d : Demand K) (oe : Int × Int) :
    demandStep (t.times c) (d.times c) oe = (demandStep t d oe).map (Demand.times c) := by
  unfold demandStep
  have hg : (d.times c).graph = d.graph := rfl
  simp only [hg, TripValues.times]
  split
  · rfl
  · split
    · rfl
    · refine map_bind_times (changeIf_times hc _ _ _ _ _) fun d => ?_
      refine map_bind_times (changeIf_times hc _ _ _ _ _) fun d => ?_
      refine map_bind_times (changeIf_times hc _ _ _ _ _) fun d => ?_
      refine map_bind_times (changeIf_times hc _ _ _ _ _) fun d => ?_
      exact changeIf_times hc _ _ _ _ _

/-- C70: the demand built from parameters with `c` times the total is the demand with `c` times the trips of each pair, and it
is refused with the same exception in the same cases -/
theorem C70_parameters {c : K} (hc : 0 < c) (g : Graph K) (y a alpha beta : K) :
    Demand.buildFromParameters g (c * y) a alpha beta = (Demand.buildFromParameters g y a alpha beta).map (Demand.times c) := by
  unfold Demand.buildFromParameters
  have hv : demandValidator (c * y) a alpha beta = demandValidator y a alpha beta := by
    unfold demandValidator
    have : (c * y < 0) ↔ (y < 0) := ⟨fun h => by
      by_contra h'
      exact absurd (mul_nonneg hc.le (not_lt.1 h')) (not_le.2 h), fun h => mul_neg_of_pos_of_neg hc h⟩
    simp only [this]
  rw [hv]
  cases demandValidator y a alpha beta with
  | error _ => rfl
  | ok _ =>
    simp only [py_ok_bind]
    cases g.n with
    | none => rfl
    | some n =>
      simp only
      rw [tripValues_times]
      have h := foldlM_times (φ := Demand.times c) (ψ := id)
        (step := demandStep (tripValues n y a alpha beta)) (step' := demandStep ((tripValues n y a alpha beta).times c))
        (fun s a => demandStep_times hc _ s a) (matrixKeys (Demand.init g).matrix) (Demand.init g)
      rw [List.map_id, demand_init_times] at h
      exact h

end Generic

section Examples

attribute [local instance] ratMath ratText

theorem busSensible : Sensible (demoCity 3) busDemand demoFair where
  demand := by decide +kernel
  width := by decide +kernel
  walk := by decide +kernel

theorem busCostly : Costly (demoCity 3) demoFair busNet where
  lines := by unfold Mode.InRange; decide +kernel
  modes := by unfold Mode.InRange; decide +kernel
  widths := by decide +kernel
  access := by decide +kernel
  waiting := by decide +kernel
  riding := by decide +kernel
  changing := by decide +kernel

/-- C70, C71: the hypotheses hold for the network of two lines and the frequencies 2 and 3, and the demand has trips -/
example : Built (demoCity 3) busDemand demoFair busNet none busOpt ∧ CityShape (demoCity 3) 3 ∧ busNet.modes.Nodup ∧
    Sensible (demoCity 3) busDemand demoFair ∧ Costly (demoCity 3) demoFair busNet ∧ (∀ m ∈ busNet.modes, 0 < m.d) ∧
    [(2 : ℚ), 3].length = busNet.routes.length ∧ (∀ q ∈ [(2 : ℚ), 3], 0 < q) ∧ 0 < busDemand.total :=
  ⟨busBuilt, demoShape.1, by decide +kernel, busSensible, busCostly, by decide +kernel, by decide +kernel, by decide +kernel,
    by decide +kernel⟩

/-- C70: with twice the trips an optimizer is built, and its cost at the frequencies 2 and 3 and at 4 and 6 -/
example : Optimizer.prepare (demoCity 3) (busDemand.times 2) demoFair busNet none = .ok (busOpt.timesTrips 2) ∧
    (busOpt.timesTrips 2).vrc [2, 3] = .ok (366313 / 1350) ∧
    (busOpt.timesTrips 2).vrc [4, 6] = .ok (401393 / 1350) ∧
    ((busOpt.timesTrips 2).constrains [2, 3]).map (fun c => c.take 2) = .ok [-106, -116] := by
  refine ⟨(busBuilt.times (by decide)).built, by decide +kernel, by decide +kernel, by decide +kernel⟩

/-- C70: a demand built from parameters, with 30 trips and with 60 -/
example : ((Demand.buildFromParameters (demoCity 2) (60 : ℚ) (3 / 4) (1 / 2) (1 / 4)).map fun d => (d.total, d.matrix.length)) =
    .ok (60, 5) ∧
    (Demand.buildFromParameters (demoCity 2) (-60 : ℚ) (3 / 4) (1 / 2) (1 / 4)).map (fun d => d.total) = .error .YOutOfRange := by
  refine ⟨by decide +kernel, by decide +kernel⟩

end Examples

end Sidermit
