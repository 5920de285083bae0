import Verif.Props.Shares
import Verif.Proofs.Loading
import Verif.Spec.Assignment

/-!
C43-C45: distribution of the trips over the stops of the origin, loading of the lines, most loaded section,
`assignment.py`.
-/

set_option linter.unusedSectionVars false

namespace Sidermit

section Generic

variable {K : Type} [Field K] [LinearOrder K] [IsStrictOrderedRing K] [PyMath K] {g : Graph K} {routes : List (Route K)}
  {sPTP : K} {freq : Option (Dict Str K)} {x : ExtGraph K} {pas : Passenger K}

/-! ## C44: the loading conserves passengers -/

/-- the result of a pair is what `get_all_hyperpaths` computes -/
def ODResult.Computed (x : ExtGraph K) (pas : Passenger K) (e : ODResult K) : Prop :=
  hyperpathOD ⟨x.nodes, x.edges, pas, none, none⟩ e.origin e.dest = .ok (e.res, e.paths)

/-- the four kinds of edges -/
theorem edge_cases (hd : DistinctIds g) (hx : buildExtGraph g routes sPTP freq = .ok x) {e : EEdge K} (he : e ∈ x.edges) :
    (e.type = .access ∧ ∃ s : StopNode K, e.i = .city s.city ∧ e.j = .stop s) ∨
    (e.type = .access ∧ ∃ s : StopNode K, e.i = .stop s ∧ e.j = .city s.city) ∨
    (e.type = .boarding ∧ ∃ n : RouteNode K, n.Wanted g routes ∧ e.i = .stop n.stop ∧ e.j = .route n) ∨
    (e.type = .alighting ∧ ∃ n : RouteNode K, n.Wanted g routes ∧ e.i = .route n ∧ e.j = .stop n.stop) ∨
    (e.type = .route ∧ ∃ p n : RouteNode K, p.Wanted g routes ∧ n.Wanted g routes ∧ p.Precedes n ∧ e.i = .route p ∧
      e.j = .route n) := by
  obtain ⟨entries, h⟩ := extSpec hx
  have hw := h.mem_node hd
  have he' := he
  rw [h.mem_edges] at he'
  rcases he' with ⟨s, hs, rfl | rfl⟩ | ⟨n, hn, hb, rfl⟩ | ⟨n, hn, hb, rfl⟩ | ⟨n, hn, p, hp, rfl⟩
  · exact Or.inl ⟨rfl, s, rfl, rfl⟩
  · exact Or.inr (Or.inl ⟨rfl, s, rfl, rfl⟩)
  · exact Or.inr (Or.inr (Or.inl ⟨rfl, n.node, (hw _).1 ⟨n, hn, rfl⟩, rfl, rfl⟩))
  · exact Or.inr (Or.inr (Or.inr (Or.inl ⟨rfl, n.node, (hw _).1 ⟨n, hn, rfl⟩, rfl, rfl⟩)))
  · have := (h.ents.prev n hn p).1 hp
    exact Or.inr (Or.inr (Or.inr (Or.inr ⟨rfl, p, n.node, (hw _).1 this.1, (hw _).1 ⟨n, hn, rfl⟩, this.2, rfl, rfl⟩)))

/-- a strategy from a node to the same node does not exist, but at the node itself -/
theorem strategy_same (hg : Searchable (allNodes x.nodes) x.edges pas) {co : CityNode K} {n : ENode K} {c : K}
    (h : Strategy x.edges pas (some co) (some co) n c) : n = .city co := by
  induction h with
  | arrive d hd => rw [Option.some.inj hd]
  | go e he hb hi hj c hc ih => exact absurd (by rw [ih]; rfl) hj
  | wait s l hne _ hl _ ih =>
    obtain ⟨p, hp⟩ := List.exists_mem_of_ne_nil _ hne
    obtain ⟨n, hn⟩ := hg.boarded _ (hl p hp).1 (hl p hp).2.1
    have := ih p hp
    rw [hn] at this
    cases this

theorem sum_shares (a : K) (l : List (EEdge K)) (F : EEdge K → K) (h0 : (l.map F).sum ≠ 0) :
    (l.map fun e => a * (F e / (l.map F).sum)).sum = a := by
  rw [List.sum_map_mul_left]
  have : (l.map fun e => F e / (l.map F).sum) = l.map fun e => F e * ((l.map F).sum)⁻¹ := by
    apply List.map_congr_left
    intro e _
    rw [div_eq_mul_inv]
  rw [this, List.sum_map_mul_right, mul_inv_cancel₀ h0, mul_one]

/-- the label is finite, and the destination is not reached -/
def ODResult.Reach (e : ODResult K) (y : ENode K) : Prop :=
  e.res.label y ≠ ⊤ ∧ stopOf e.dest y = false ∧ y ≠ .city e.dest

/-- a node to which trips of the pair are led -/
def Reached (p : ODResult K × Dict (StopNode K) K) (y : ENode K) : Prop := LedTo p y ∧ p.1.Reach y

theorem LedTo.of_trips {p : ODResult K × Dict (StopNode K) K} {s : StopNode K} (hs : s ∈ Dict.keys p.1.paths)
    (h : stopTrips p s ≠ 0) : LedTo p (.stop s) := by
  unfold stopTrips at h
  refine .start hs ?_ ?_
  · rintro h0
    rw [h0] at h
    simp at h
  · rintro h0
    rw [h0] at h
    simp at h

theorem LedTo.step {p : ODResult K × Dict (StopNode K) K} {y : ENode K} (h : LedTo p y) {e : EEdge K}
    (he : e ∈ p.1.res.succ y) (hs : stopOf p.1.dest e.j = false) : LedTo p e.j := by
  refine h.next he ?_
  rintro s hj hc
  rw [hj] at hs
  simp [stopOf, hc] at hs

/-- what the search gives, for the loading -/
theorem ODResult.Computed.reach (ha : Admissible routes sPTP freq pas) (hd : DistinctIds g)
    (hx : buildExtGraph g routes sPTP freq = .ok x) {e : ODResult K} (he : e.Computed x pas) :
    (∀ s ∈ Dict.keys e.paths, e.Reach (.stop s)) ∧
    (∀ s ∈ Dict.keys e.paths, s ∈ stopsOf x.nodes ∧ s.city = e.origin) ∧
    (∀ y, ∀ e' ∈ e.res.succ y, e' ∈ x.edges ∧ e'.i = y) ∧
    (∃ rank : ENode K → Nat, (∀ y, ∀ e' ∈ e.res.succ y, rank e'.j < rank y) ∧
      ∀ s ∈ Dict.keys e.paths, rank (.stop s) < (allNodes x.nodes).length) ∧
    (∀ y, ∀ b0 ∈ e.res.succ y, b0.type = .boarding → ∃ s, y = .stop s ∧
      (∀ b ∈ e.res.succ y, b.type = .boarding ∧ (∃ n, b.j = .route n) ∧ e.res.label b.j ≠ ⊤)) ∧
    (∀ y, e.Reach y → ∀ e' ∈ e.res.succ y, stopOf e.dest e'.j = false → e.Reach e'.j) ∧
    (∀ y, e.Reach y → (∀ b ∈ e.res.succ y, b.type ≠ .boarding) → ∃ e', e.res.succ y = [e'] ∧ e' ∈ x.edges ∧ e'.i = y) := by
  have hg : HInput.Good ⟨x.nodes, x.edges, pas, some e.origin, some e.dest⟩ := ha.searchable hx
  obtain ⟨r', paths', h1, hr, h3, h4⟩ := hyperpathOD_spec (h := ⟨x.nodes, x.edges, pas, none, none⟩) (ha.searchable hx)
    e.origin e.dest
  unfold ODResult.Computed at he
  rw [h1] at he
  simp only [Except.ok.injEq, Prod.mk.injEq] at he
  obtain ⟨he1, he2⟩ := he
  rw [he1] at hr
  rw [he1, he2] at h1
  rw [he2, he1] at h3
  simp only at hr h3
  obtain ⟨st, Q, hF, hb⟩ := buildHyperpath_spec hg
  rw [hr] at hb
  have hsucc : e.res.succ = finalSucc st := by rw [Except.ok.inj hb]
  have hedge : ∀ y, ∀ e' ∈ e.res.succ y, e' ∈ x.edges ∧ e'.i = y := by
    intro y e' he'
    rw [hsucc] at he'
    obtain ⟨hQ, hei⟩ := (finalSucc_spec hg hF y).1 e' he'
    exact ⟨(hF.inv.seen e' hQ).1, hei⟩
  obtain ⟨hkeys, _⟩ := C41_paths ha hd hx h1
  have hin : ∀ s ∈ Dict.keys e.paths, .stop s ∈ allNodes x.nodes := by
    intro s hs
    exact (mem_allNodes _).2 (Or.inr (Or.inl ⟨s, ((hkeys s).1 hs).1, rfl⟩))
  -- the two cases of a node with a finite label
  have hboard : ∀ y, ∀ b0 ∈ e.res.succ y, b0.type = .boarding → ∃ s, y = .stop s ∧
      (∀ b ∈ e.res.succ y, b.type = .boarding ∧ (∃ n, b.j = .route n) ∧ e.res.label b.j ≠ ⊤) := by
    intro y b0 hb0 ht0
    obtain ⟨s, rfl, _, hbs, _, t, ht, _⟩ := C40_lines ha hx hr hb0 ht0
    refine ⟨s, rfl, fun b hb => ⟨(hbs b hb).2.1, hg.boarded b (hbs b hb).1 (hbs b hb).2.1, ?_⟩⟩
    rw [ht b hb]
    exact WithTop.coe_ne_top
  refine ⟨?_, fun s hs => ⟨((hkeys s).1 hs).1, ((hkeys s).1 hs).2.1⟩, hedge,
    ⟨rankOf ⟨x.nodes, x.edges, pas, some e.origin, some e.dest⟩ st,
      by rw [hsucc]; exact rankOf_lt hg hF, fun s hs => rankOf_lt_length (hin s hs)⟩, hboard, ?_, ?_⟩
  · intro s hs
    obtain ⟨h5, h6, h7⟩ := (hkeys s).1 hs
    refine ⟨h7, ?_, by simp⟩
    by_contra hst
    simp only [stopOf, Bool.not_eq_false, decide_eq_true_eq] at hst
    obtain ⟨c, hc, _⟩ := C38_attained ha hx hr (hin s hs) h7
    rw [← hst, h6] at hc
    cases strategy_same (ha.searchable hx) hc
  · rintro y ⟨hl, hs, hc⟩ e' he' hns
    refine ⟨?_, hns, ?_⟩
    · by_cases hB : ∃ b0 ∈ e.res.succ y, b0.type = .boarding
      · obtain ⟨b0, hb0, ht0⟩ := hB
        obtain ⟨s, rfl, hall⟩ := hboard y b0 hb0 ht0
        exact (hall e' he').2.2
      · push Not at hB
        obtain ⟨e1, h5, _, _, h6, _⟩ := C40_legs ha hx hr hl (by simpa using hc) hB
        rw [h5, List.mem_singleton] at he'
        rw [he']
        exact h6
    · intro hcity
      obtain ⟨hex, hei⟩ := hedge y e' he'
      rcases edge_cases hd hx hex with ⟨_, s, h5, h6⟩ | ⟨_, s, h5, h6⟩ | ⟨_, n, _, h5, h6⟩ | ⟨_, n, _, h5, h6⟩ | ⟨_, p, n, _, _, _, h5, h6⟩
      · rw [h6] at hcity; cases hcity
      · rw [h6] at hcity
        have hcd := ENode.city.inj hcity
        rw [← hei, h5] at hs
        simp [stopOf, hcd] at hs
      · rw [h6] at hcity; cases hcity
      · rw [h6] at hcity; cases hcity
      · rw [h6] at hcity; cases hcity
  · rintro y ⟨hl, hs, hc⟩ hB
    obtain ⟨e1, h5, h6, h7, _, _⟩ := C40_legs ha hx hr hl (by simpa using hc) hB
    exact ⟨e1, h5, h6, h7⟩

/-- what the loading needs of the search and of the frequencies -/
theorem LinesRun.net (ha : Admissible routes sPTP freq pas) (hd : DistinctIds g)
    (hx : buildExtGraph g routes sPTP freq = .ok x) {p : ODResult K × Dict (StopNode K) K} (he : p.1.Computed x pas)
    {f : Dict Str K} (hf : LinesRun f p) :
    Net f p.1.res.succ p.1.dest (Reached p) ∧ ∀ s ∈ Dict.keys p.1.paths, stopTrips p s ≠ 0 → Reached p (.stop s) := by
  obtain ⟨hk, _, hedge, _, hboard, hnext, hleg⟩ := he.reach ha hd hx
  have hsum : ∀ s, LedTo p (.stop s) → ∀ b0 ∈ p.1.res.succ (.stop s), b0.type = .boarding →
      ((p.1.res.succ (.stop s)).map fun b => lineF f b.j).sum ≠ 0 := by
    intro s hs b0 hb0 ht0
    obtain ⟨b', hb', n, hn, hpos⟩ := hf.some_line s hs b0 hb0 ht0
    have hle : lineF f b'.j ≤ ((p.1.res.succ (.stop s)).map fun b => lineF f b.j).sum := by
      refine List.single_le_sum ?_ _ (List.mem_map.2 ⟨b', hb', rfl⟩)
      intro z hz
      obtain ⟨b, _, rfl⟩ := List.mem_map.1 hz
      unfold lineF
      split
      · exact hf.nonneg _
      · exact le_refl _
    have : 0 < lineF f b'.j := by rw [hn]; exact hpos
    exact ne_of_gt (this.trans_le hle)
  refine ⟨⟨fun y hy e' he' hns => ⟨hy.1.step he' hns, hnext y hy.2 e' he' hns⟩, ?_, ?_⟩, fun s hs h0 => ⟨.of_trips hs h0, hk s hs⟩⟩
  · rintro y ⟨hled, hy⟩ a
    by_cases hB : ∃ b0 ∈ p.1.res.succ y, b0.type = .boarding
    · obtain ⟨b0, hb0, ht0⟩ := hB
      obtain ⟨s, rfl, hall⟩ := hboard y b0 hb0 ht0
      have h0 := hsum s hled b0 hb0 ht0
      rw [← sum_shares a (p.1.res.succ (.stop s)) (fun b => lineF f b.j) h0]
      congr 1
      apply List.map_congr_left
      intro b hb
      obtain ⟨n, hn⟩ := (hall b hb).2.1
      rw [sum_shares a (p.1.res.succ (.stop s)) (fun b => lineF f b.j) h0, hn]
      rfl
    · push Not at hB
      obtain ⟨e1, h5, h6, h7⟩ := hleg y hy hB
      have ht1 := hB e1 (by rw [h5]; simp)
      rw [h5]
      simp only [List.map_cons, List.map_nil, List.sum_cons, List.sum_nil, add_zero]
      rcases edge_cases hd hx h6 with ⟨_, s, h8, h9⟩ | ⟨_, s, h8, h9⟩ | ⟨ht, _⟩ | ⟨_, n, _, h8, h9⟩ | ⟨_, p, n, _, _, _, h8, h9⟩
      · rw [← h7, h8, h9]; rfl
      · rw [← h7, h8, h9]; rfl
      · exact absurd ht ht1
      · rw [← h7, h8, h9]; rfl
      · rw [← h7, h8, h9]; rfl
  · rintro s ⟨hled, hy⟩ e' he' n hn
    obtain ⟨hex, hei⟩ := hedge _ e' he'
    have ht : e'.type = .boarding := by
      rcases edge_cases hd hx hex with ⟨_, s, h5, h6⟩ | ⟨_, s, h5, h6⟩ | ⟨ht, _⟩ | ⟨_, n, _, h5, h6⟩ | ⟨_, p, n, _, _, _, h5, h6⟩
      · rw [hn] at h6; cases h6
      · rw [hn] at h6; cases h6
      · exact ht
      · rw [hn] at h6; cases h6
      · rw [hei] at h5; cases h5
    obtain ⟨s', hs', hall⟩ := hboard _ e' he' ht
    exact ⟨fun b hb => (hall b hb).2.1, hsum s hled e' he' ht⟩

/-- the results of the search meet what the loading needs -/
theorem ODResult.Computed.ok (ha : Admissible routes sPTP freq pas) (hd : DistinctIds g)
    (hx : buildExtGraph g routes sPTP freq = .ok x) {p : ODResult K × Dict (StopNode K) K} (he : p.1.Computed x pas)
    {f : Dict Str K} (hf : LinesRun f p) : PairOk (allNodes x.nodes).length f x.edges p := by
  obtain ⟨_, h2, h3, h4, _⟩ := he.reach ha hd hx
  exact ⟨⟨_, hf.net ha hd hx he⟩, fun s hs => (h2 s hs).2, h3, h4⟩

/-- what the theorems on the loading assume: the pairs are those computed by the search, the frequencies let the passengers
go on, and the bound on the rounds is at least the number of nodes -/
structure Loading (x : ExtGraph K) (pas : Passenger K) (N : Nat) (f : Dict Str K)
    (l : List (ODResult K × Dict (StopNode K) K)) : Prop where
  rounds : (allNodes x.nodes).length ≤ N
  computed : ∀ p ∈ l, p.1.Computed x pas
  run : ∀ p ∈ l, LinesRun f p

theorem Loading.ok {N : Nat} {f : Dict Str K} {l : List (ODResult K × Dict (StopNode K) K)} (h : Loading x pas N f l)
    (ha : Admissible routes sPTP freq pas) (hd : DistinctIds g) (hx : buildExtGraph g routes sPTP freq = .ok x) :
    ∀ p ∈ l, PairOk N f x.edges p := by
  intro p hp
  obtain ⟨h1, h2, h3, rank, h4, h5⟩ := (h.computed p hp).ok ha hd hx (h.run p hp)
  exact ⟨h1, h2, h3, rank, h4, fun s hs => (h5 s hs).trans_le h.rounds⟩

theorem vehicleFactor_mul (f : Dict Str K) (k : LoadKey K) : vehicleFactor f k * vehicles f k.1 = 1 := by
  unfold vehicleFactor vehicles
  split
  · simp
  · next h => exact inv_mul_cancel₀ h

theorem total_eq_tally (d : Dict (LoadKey K) K) (P : LoadKey K → Prop) [DecidablePred P] :
    total d P = tally (fun k => if P k then 1 else 0) d := by
  unfold total tally
  induction d with
  | nil => rfl
  | cons p t ih =>
    rw [List.filter_cons, List.map_cons, List.sum_cons, ← ih]
    by_cases h : P p.1
    · simp [h]
    · simp [h]

theorem hourly_eq_tally (f : Dict Str K) (d : Dict (LoadKey K) K) (P : LoadKey K → Prop) [DecidablePred P] :
    hourly f (perVehicle f d) P = tally (fun k => if P k then 1 else 0) d := by
  have h1 : ∀ d' : Dict (LoadKey K) K, hourly f d' P = tally (fun k => (if P k then 1 else 0) * vehicles f k.1) d' := by
    intro d'
    unfold hourly tally
    induction d' with
    | nil => rfl
    | cons p t ih =>
      rw [List.filter_cons, List.map_cons, List.sum_cons, ← ih]
      by_cases h : P p.1
      · simp only [h, decide_true, if_true, List.map_cons, List.sum_cons, one_mul]
        ring
      · simp [h]
  rw [h1, tally_perVehicle]
  congr 1
  funext k
  rw [mul_assoc, mul_comm (vehicles f k.1), vehicleFactor_mul, mul_one]

variable {N : Nat} {f : Dict Str K} {l : List (ODResult K × Dict (StopNode K) K)} {r : Loads K}

/-- C44: the loading ends without an exception -/
theorem C44_terminates (ha : Admissible routes sPTP freq pas) (hd : DistinctIds g)
    (hx : buildExtGraph g routes sPTP freq = .ok x) (hl : Loading x pas N f l) : ∃ r, getLoads N f l = .ok r := by
  obtain ⟨_, r, h, _⟩ := getLoads_spec (hl.ok ha hd hx)
  exact ⟨r, h⟩

/-- C44: on each route and direction, as many passengers alight as board -/
theorem C44_line_balance (ha : Admissible routes sPTP freq pas) (hd : DistinctIds g)
    (hx : buildExtGraph g routes sPTP freq = .ok x) (hl : Loading x pas N f l) (hr : getLoads N f l = .ok r)
    (id : Str) (dir : Dir) :
    total r.z (fun k => k.1 = id ∧ k.2.1 = dir) = total r.v (fun k => k.1 = id ∧ k.2.1 = dir) := by
  obtain ⟨t, r', h, ht, hrt, hv, _⟩ := getLoads_spec (hl.ok ha hd hx)
  rw [hr] at h
  cases h
  rw [hrt, total_eq_tally, total_eq_tally, tally_perVehicle, tally_perVehicle, ht.z, ht.v, ← sub_eq_zero, ← flow_sub]
  let φ : ENode K → K := fun y => match y with
    | .route n => (if n.route.id = id ∧ n.dir = dir then 1 else 0) * vehicleFactor f (n.route.id, n.dir, n.stop)
    | _ => 0
  have hb := hv.balance φ (fun _ => 0) (fun s => rfl)
  have h0 : (l.map fun p => pairTrips p * ((0 : K) - 0)).sum = 0 := by
    apply List.sum_eq_zero
    intro z hz
    obtain ⟨p, _, rfl⟩ := List.mem_map.1 hz
    simp
  rw [h0] at hb
  refine Eq.trans ?_ hb
  apply flow_congr
  intro w hw
  obtain ⟨e, he, hi, hj⟩ := hv.edge w hw
  rw [← hi, ← hj]
  rcases edge_cases hd hx he with ⟨_, s, h5, h6⟩ | ⟨_, s, h5, h6⟩ | ⟨_, n, _, h5, h6⟩ | ⟨_, n, _, h5, h6⟩ | ⟨_, p, n, hp, hn, hpn, h5, h6⟩
  · rw [h5, h6]; simp [zW, vW, φ]
  · rw [h5, h6]; simp [zW, vW, φ]
  · rw [h5, h6]; simp [zW, vW, φ]
  · rw [h5, h6]; simp [zW, vW, φ]
  · rw [h5, h6]
    have hroute : p.route = n.route := by
      have h1 := hp.1
      rw [hpn.1, hn.1] at h1
      exact (Option.some.inj h1).symm
    simp only [zW, vW, φ, hroute, hpn.2.1, vehicleFactor]
    simp

theorem sum_sub {α : Type} (F G : α → K) (l : List α) : (l.map fun a => F a - G a).sum = (l.map F).sum - (l.map G).sum := by
  induction l with
  | nil => simp
  | cons a l ih =>
    simp only [List.map_cons, List.sum_cons]
    rw [ih]
    ring

theorem tripsOf_eq (l : List (ODResult K × Dict (StopNode K) K)) (P : ODResult K → Prop) [DecidablePred P] :
    tripsOf l P = (l.map fun p => pairTrips p * (if P p.1 then 1 else 0)).sum := by
  unfold tripsOf
  induction l with
  | nil => rfl
  | cons p l ih =>
    rw [List.filter_cons, List.map_cons, List.sum_cons, ← ih]
    by_cases h : P p.1
    · simp only [h, decide_true, if_true, List.map_cons, List.sum_cons, mul_one]
      rfl
    · simp [h]

/-- C44: in an hour, the passengers who board at the stops of a node of the city are those who alight there, plus the trips
that start at the node, less the trips that end there -/
theorem C44_city_balance (ha : Admissible routes sPTP freq pas) (hd : DistinctIds g)
    (hx : buildExtGraph g routes sPTP freq = .ok x) (hl : Loading x pas N f l) (hr : getLoads N f l = .ok r)
    (c : CityNode K) :
    hourly f r.z (fun k => k.2.2.city = c) + tripsOf l (fun e => e.dest = c) =
      hourly f r.v (fun k => k.2.2.city = c) + tripsOf l (fun e => e.origin = c) := by
  obtain ⟨t, r', h, ht, hrt, hv, _⟩ := getLoads_spec (hl.ok ha hd hx)
  rw [hr] at h
  cases h
  rw [hrt]
  simp only
  rw [hourly_eq_tally, hourly_eq_tally, ht.z, ht.v]
  let ψ : CityNode K → K := fun c' => if c' = c then 1 else 0
  let φ : ENode K → K := fun y => match y with
    | .stop s => ψ s.city
    | .city c' => ψ c'
    | .route _ => 0
  have hb := hv.balance φ ψ (fun s => rfl)
  have hT : (l.map fun p => pairTrips p * (ψ p.1.dest - ψ p.1.origin)).sum =
      tripsOf l (fun e => e.dest = c) - tripsOf l (fun e => e.origin = c) := by
    rw [tripsOf_eq, tripsOf_eq, ← sum_sub]
    congr 1
    apply List.map_congr_left
    intro p _
    simp only [ψ]
    ring
  rw [hT] at hb
  have hflow : flow (fun i j => φ j - φ i) (trace N f l) =
      flow (vW fun k => if k.2.2.city = c then 1 else 0) (trace N f l) -
        flow (zW fun k => if k.2.2.city = c then 1 else 0) (trace N f l) := by
    rw [← flow_sub]
    apply flow_congr
    intro w hw
    obtain ⟨e, he, hi, hj⟩ := hv.edge w hw
    rw [← hi, ← hj]
    rcases edge_cases hd hx he with ⟨_, s, h5, h6⟩ | ⟨_, s, h5, h6⟩ | ⟨_, n, _, h5, h6⟩ | ⟨_, n, _, h5, h6⟩ | ⟨_, p, n, hp, hn, hpn, h5, h6⟩
    all_goals rw [h5, h6]; simp [zW, vW, φ, ψ]
  rw [hflow] at hb
  linear_combination -hb

/-- a table entry is a number of passengers, divided among the vehicles -/
theorem entry_eq {d : Dict (LoadKey K) K} (hn : (Dict.keys d).Nodup) (k : LoadKey K) :
    (perVehicle f d).getD k 0 = vehicleFactor f k * tally (fun j => if j = k then 1 else 0) d := by
  rw [getD_eq_tally _ (by rw [keys_perVehicle]; exact hn), tally_perVehicle]
  unfold tally
  rw [← List.sum_map_mul_left]
  congr 1
  apply List.map_congr_left
  intro p _
  by_cases h : p.1 = k
  · rw [h]
    simp
  · simp [h]

/-- the key tells the route node -/
theorem key_inj (ho : StopsOnce routes) {n m : RouteNode K} (hn : n.Wanted g routes)
    (hm : m.Wanted g routes) (h : n.key = m.key) : n = m := by
  unfold RouteNode.key at h
  simp only [Prod.mk.injEq] at h
  obtain ⟨h1, h2, h3⟩ := h
  obtain ⟨hn1, hn2, hn3, hn4⟩ := hn
  obtain ⟨hm1, hm2, hm3, hm4⟩ := hm
  have hidx : n.ridx = m.ridx := by
    obtain ⟨ha, hb⟩ := List.getElem?_eq_some_iff.1 hn1
    obtain ⟨ha', hb'⟩ := List.getElem?_eq_some_iff.1 hm1
    refine (List.Nodup.getElem_inj_iff ho.ids (hi := by simpa using ha) (hj := by simpa using ha')).1 ?_
    rw [List.getElem_map, List.getElem_map, hb, hb', h1]
  have hroute : n.route = m.route := by
    rw [hidx, hm1] at hn1
    exact (Option.some.inj hn1).symm
  have hpos : n.pos = m.pos := by
    refine ho.once m.route (List.mem_of_getElem? hm1) m.dir n.pos m.pos m.stop.city.node.id ?_ hm2
    rw [← hroute, ← h2, ← h3]
    exact hn2
  cases n
  cases m
  simp only at hidx hroute hpos h2 h3
  subst hidx hroute hpos h2 h3
  rfl

/-- a route node has one predecessor -/
theorem precedes_left (hd : DistinctIds g) (hx : buildExtGraph g routes sPTP freq = .ok x) {p q n : RouteNode K}
    (hp : p.Wanted g routes) (hq : q.Wanted g routes) (h1 : p.Precedes n) (h2 : q.Precedes n) : p = q := by
  obtain ⟨_, _, h⟩ := C34_route_nodes hd hx
  have hpos : q.pos = p.pos := by
    have := h1.2.2
    rw [h2.2.2] at this
    exact Option.some.inj this
  exact (h p.ridx p.route p.dir p.pos _ hp.1 hp.2.1).unique ⟨hp, rfl, rfl, rfl⟩
    ⟨hq, h2.1.trans h1.1.symm, h2.2.1.trans h1.2.1.symm, hpos⟩

/-- a route node precedes one route node -/
theorem precedes_right (hd : DistinctIds g) (hx : buildExtGraph g routes sPTP freq = .ok x) {p n m : RouteNode K}
    (hn : n.Wanted g routes) (hm : m.Wanted g routes) (h1 : p.Precedes n) (h2 : p.Precedes m) : n = m := by
  obtain ⟨_, _, h⟩ := C34_route_nodes hd hx
  have hroute : n.route = m.route := by
    have h3 := hn.1
    rw [← h1.1, h2.1, hm.1] at h3
    exact (Option.some.inj h3).symm
  have hdir : n.dir = m.dir := h1.2.1.symm.trans h2.2.1
  have hpos : n.pos = m.pos := by
    have hb := h1.2.2
    have hb' := h2.2.2
    have hn2 := hn.2.1
    have hm2 := hm.2.1
    rw [hroute, hdir] at hb hn2
    unfold Route.NodeAt at hn2 hm2
    obtain ⟨hn3, hn4⟩ := hn2
    obtain ⟨hm3, hm4⟩ := hm2
    have hln := (List.getElem?_eq_some_iff.1 hn3).1
    have hlm := (List.getElem?_eq_some_iff.1 hm3).1
    unfold Route.stopBefore at hb hb'
    by_cases hc : m.route.type = .circular
    · rw [if_pos hc] at hb hb'
      have e := Option.some.inj (hb.trans hb'.symm)
      have := hn4 hc
      have := hm4 hc
      split at e <;> split at e <;> omega
    · rw [if_neg hc] at hb hb'
      split at hb
      · cases hb
      · split at hb'
        · cases hb'
        · have e := Option.some.inj (hb.trans hb'.symm)
          omega
  exact (h n.ridx n.route n.dir n.pos _ hn.1 hn.2.1).unique ⟨hn, rfl, rfl, rfl⟩
    ⟨hm, h2.1.symm.trans h1.1, hdir.symm, hpos.symm⟩

/-- at a route node: what arrives and boards is what alights and goes on -/
theorem node_balance (ha : Admissible routes sPTP freq pas) (hd : DistinctIds g) (ho : StopsOnce routes)
    (hx : buildExtGraph g routes sPTP freq = .ok x) (hl : Loading x pas N f l) (hr : getLoads N f l = .ok r)
    {n : RouteNode K} (hn : n.Wanted g routes) (arrive : ENode K → ENode K → K)
    (harr : ∀ i j, (∀ p m : RouteNode K, i = .route p → j = .route m → False) → arrive i j = 0)
    (harr' : ∀ p m : RouteNode K, p.Wanted g routes → m.Wanted g routes → p.Precedes m →
      arrive (.route p) (.route m) = if m = n then 1 else 0) :
    r.z.getD n.key 0 + vehicleFactor f n.key * flow arrive (trace N f l) = r.v.getD n.key 0 + r.load.getD n.key 0 := by
  obtain ⟨t, r', h, ht, hrt, hv, _⟩ := getLoads_spec (hl.ok ha hd hx)
  rw [hr] at h
  cases h
  rw [hrt]
  simp only
  rw [entry_eq ht.kz, entry_eq ht.kv, entry_eq ht.kl, ht.z, ht.v, ht.load, ← mul_add, ← mul_add]
  congr 1
  let φ : ENode K → K := fun y => match y with
    | .route m => if m = n then 1 else 0
    | _ => 0
  have hb := hv.balance φ (fun _ => 0) (fun s => rfl)
  have h0 : (l.map fun p => pairTrips p * ((0 : K) - 0)).sum = 0 := by
    apply List.sum_eq_zero
    intro z hz
    obtain ⟨p, _, rfl⟩ := List.mem_map.1 hz
    simp
  rw [h0] at hb
  rw [← flow_add, ← flow_add, ← sub_eq_zero, ← flow_sub]
  refine Eq.trans ?_ hb
  apply flow_congr
  intro w hw
  obtain ⟨e, he, hi, hj⟩ := hv.edge w hw
  rw [← hi, ← hj]
  have hkey : ∀ m : RouteNode K, m.Wanted g routes →
      (if (m.route.id, m.dir, m.stop) = n.key then (1 : K) else 0) = if m = n then 1 else 0 := by
    intro m hm
    by_cases h : m = n
    · subst h
      simp [RouteNode.key]
    · rw [if_neg h, if_neg]
      exact fun h' => h (key_inj ho hm hn h')
  rcases edge_cases hd hx he with ⟨_, s, h5, h6⟩ | ⟨_, s, h5, h6⟩ | ⟨_, m, hm, h5, h6⟩ | ⟨_, m, hm, h5, h6⟩ | ⟨_, p, m, hp, hm, hpm, h5, h6⟩
  · rw [h5, h6, harr _ _ (by rintro p m h h'; cases h)]; simp [zW, vW, lW, φ]
  · rw [h5, h6, harr _ _ (by rintro p m h h'; cases h)]; simp [zW, vW, lW, φ]
  · rw [h5, h6, harr _ _ (by rintro p m h h'; cases h)]
    simp only [zW, vW, lW, φ, hkey m hm]
    ring
  · rw [h5, h6, harr _ _ (by rintro p m h h'; cases h')]
    simp only [zW, vW, lW, φ, hkey m hm]
    ring
  · rw [h5, h6, harr' p m hp hm hpm]
    simp only [zW, vW, lW, φ, hkey p hp]
    ring

/-- C44: the load that leaves a stop is the load that arrives from the stop before, plus the boardings, less the
alightings -/
theorem C44_stop_balance (ha : Admissible routes sPTP freq pas) (hd : DistinctIds g) (ho : StopsOnce routes)
    (hx : buildExtGraph g routes sPTP freq = .ok x) (hl : Loading x pas N f l) (hr : getLoads N f l = .ok r)
    {p n : RouteNode K} (hp : p.Wanted g routes) (hn : n.Wanted g routes) (hpn : p.Precedes n) :
    r.load.getD p.key 0 + r.z.getD n.key 0 = r.v.getD n.key 0 + r.load.getD n.key 0 := by
  rw [← node_balance ha hd ho hx hl hr hn (lW fun k => if k = p.key then 1 else 0) ?_ ?_]
  · obtain ⟨t, r', h, ht, hrt, hv, _⟩ := getLoads_spec (hl.ok ha hd hx)
    rw [hr] at h
    cases h
    rw [hrt]
    simp only
    rw [entry_eq ht.kl, ht.load]
    have hroute : p.route = n.route := by
      have h1 := hp.1
      rw [hpn.1, hn.1] at h1
      exact (Option.some.inj h1).symm
    have : vehicleFactor f p.key = vehicleFactor f n.key := by
      unfold vehicleFactor RouteNode.key
      rw [hroute]
    rw [this]
    ring
  · intro i j h
    unfold lW
    split
    · next p m => exact (h p m rfl rfl).elim
    · rfl
  · intro q m hq hm hqm
    unfold lW
    simp only
    by_cases h : m = n
    · subst h
      rw [precedes_left hd hx hq hp hqm hpn]
      simp [RouteNode.key]
    · rw [if_neg h, if_neg]
      intro hk
      have := key_inj ho hq hp hk
      subst this
      exact h (precedes_right hd hx hm hn hqm hpn)

/-- C44: nobody arrives at the first stop of a direction: who boards there, goes on -/
theorem C44_first_stop_balance (ha : Admissible routes sPTP freq pas) (hd : DistinctIds g) (ho : StopsOnce routes)
    (hx : buildExtGraph g routes sPTP freq = .ok x) (hl : Loading x pas N f l) (hr : getLoads N f l = .ok r)
    {n : RouteNode K} (hn : n.Wanted g routes) (hc : n.route.type ≠ .circular) (h0 : n.pos = 0) :
    r.z.getD n.key 0 = r.v.getD n.key 0 + r.load.getD n.key 0 := by
  rw [← node_balance ha hd ho hx hl hr hn (fun _ _ => 0) (fun _ _ _ => rfl) ?_]
  · have : flow (fun _ _ : ENode K => (0 : K)) (trace N f l) = 0 := by
      apply List.sum_eq_zero
      intro z hz
      obtain ⟨p, _, rfl⟩ := List.mem_map.1 hz
      simp
    rw [this, mul_zero, add_zero]
  · intro p m _ _ hpm
    rw [if_neg]
    rintro rfl
    have := hpm.2.2
    unfold Route.stopBefore at this
    rw [if_neg hc, if_pos h0] at this
    cases this

/-- C44: the tables have no negative entries -/
theorem C44_nonneg (ha : Admissible routes sPTP freq pas) (hd : DistinctIds g)
    (hx : buildExtGraph g routes sPTP freq = .ok x) (hl : Loading x pas N f l) (hr : getLoads N f l = .ok r)
    (hf : ∀ id, 0 ≤ f.getD id 0) (hV : ∀ p ∈ l, 0 ≤ p.1.vij ∧ ∀ s, 0 ≤ p.2.getD s 0) (k : LoadKey K) :
    0 ≤ r.z.getD k 0 ∧ 0 ≤ r.v.getD k 0 ∧ 0 ≤ r.load.getD k 0 := by
  obtain ⟨t, r', h, ht, hrt, hv, hpos⟩ := getLoads_spec (hl.ok ha hd hx)
  rw [hr] at h
  cases h
  have hpax := hpos hf (fun p hp s _ => div_nonneg (mul_nonneg (hV p hp).1 ((hV p hp).2 s)) (by norm_num))
  rw [hrt]
  simp only
  rw [entry_eq ht.kz, entry_eq ht.kv, entry_eq ht.kl, ht.z, ht.v, ht.load]
  have hfac : 0 ≤ vehicleFactor f k := by
    unfold vehicleFactor
    split
    · exact zero_le_one
    · exact inv_nonneg.2 (hf _)
  have hflow : ∀ ψ : ENode K → ENode K → K, (∀ i j, 0 ≤ ψ i j) → 0 ≤ flow ψ (trace N f l) := by
    intro ψ hψ
    apply List.sum_nonneg
    intro z hz
    obtain ⟨w, hw, rfl⟩ := List.mem_map.1 hz
    exact mul_nonneg (hψ _ _) (hpax w hw)
  have hind : ∀ j : LoadKey K, (0 : K) ≤ if j = k then 1 else 0 := by
    intro j
    split
    · exact zero_le_one
    · exact le_refl _
  refine ⟨mul_nonneg hfac (hflow _ ?_), mul_nonneg hfac (hflow _ ?_), mul_nonneg hfac (hflow _ ?_)⟩
  · intro i j
    unfold zW
    split
    · exact hind _
    · exact le_refl _
  · intro i j
    unfold vW
    split
    · exact hind _
    · exact le_refl _
  · intro i j
    unfold lW
    split
    · exact hind _
    · exact le_refl _

/-- C44: the passengers of several pairs add up -/
theorem C44_superposition (ha : Admissible routes sPTP freq pas) (hd : DistinctIds g)
    (hx : buildExtGraph g routes sPTP freq = .ok x) {l₁ l₂ : List (ODResult K × Dict (StopNode K) K)}
    (hl : Loading x pas N f (l₁ ++ l₂)) {r₁ r₂ : Loads K} (h₁ : getLoads N f l₁ = .ok r₁) (h₂ : getLoads N f l₂ = .ok r₂)
    (hr : getLoads N f (l₁ ++ l₂) = .ok r) (k : LoadKey K) :
    r.z.getD k 0 = r₁.z.getD k 0 + r₂.z.getD k 0 ∧ r.v.getD k 0 = r₁.v.getD k 0 + r₂.v.getD k 0 ∧
    r.load.getD k 0 = r₁.load.getD k 0 + r₂.load.getD k 0 := by
  have hok := hl.ok ha hd hx
  obtain ⟨t, r', h, ht, hrt, _⟩ := getLoads_spec hok
  obtain ⟨t1, r1', g1, ht1, hrt1, _⟩ := getLoads_spec (fun p hp => hok p (List.mem_append_left _ hp))
  obtain ⟨t2, r2', g2, ht2, hrt2, _⟩ := getLoads_spec (fun p hp => hok p (List.mem_append_right _ hp))
  rw [hr] at h
  rw [h₁] at g1
  rw [h₂] at g2
  cases h
  cases g1
  cases g2
  have htr : trace N f (l₁ ++ l₂) = trace N f l₁ ++ trace N f l₂ := by simp [trace]
  rw [hrt, hrt1, hrt2]
  simp only
  rw [entry_eq ht.kz, entry_eq ht.kv, entry_eq ht.kl, entry_eq ht1.kz, entry_eq ht1.kv, entry_eq ht1.kl, entry_eq ht2.kz,
    entry_eq ht2.kv, entry_eq ht2.kl, ht.z, ht.v, ht.load, ht1.z, ht1.v, ht1.load, ht2.z, ht2.v, ht2.load, htr, flow_append,
    flow_append, flow_append]
  exact ⟨mul_add _ _ _, mul_add _ _ _, mul_add _ _ _⟩

/-- C44: two lines that are both attractive at a stop for all the pairs take the same number of passengers per vehicle
there: the passengers divide in proportion to the frequencies -/
theorem C44_split (ha : Admissible routes sPTP freq pas) (hd : DistinctIds g) (ho : StopsOnce routes)
    (hx : buildExtGraph g routes sPTP freq = .ok x) (hl : Loading x pas N f l) (hr : getLoads N f l = .ok r)
    {n m : RouteNode K} (hn : n.Wanted g routes) (hm : m.Wanted g routes) (hs : n.stop = m.stop)
    (hfn : f.getD n.route.id 0 ≠ 0) (hfm : f.getD m.route.id 0 ≠ 0)
    (hat : ∀ p ∈ l, (∃ b ∈ p.1.res.succ (.stop n.stop), b.j = .route n) ∧ ∃ b ∈ p.1.res.succ (.stop n.stop), b.j = .route m) :
    r.z.getD n.key 0 = r.z.getD m.key 0 := by
  have hok := hl.ok ha hd hx
  obtain ⟨t, r', h, ht, hrt, hv, _⟩ := getLoads_spec hok
  rw [hr] at h
  cases h
  have hnd : ∀ p ∈ l, ((p.1.res.succ (.stop n.stop)).map EEdge.j).Nodup := by
    intro p hp
    obtain ⟨b, hb, hbj⟩ := (hat p hp).1
    have hedge := (hok p hp).edge
    obtain ⟨hbx, hbi⟩ := hedge _ b hb
    have ht : b.type = .boarding := by
      rcases edge_cases hd hx hbx with ⟨_, s, h5, h6⟩ | ⟨_, s, h5, h6⟩ | ⟨h, _⟩ | ⟨_, m, hm, h5, h6⟩ | ⟨_, p, m, hp, hm, hpm, h5, h6⟩
      · rw [hbj] at h6; cases h6
      · rw [hbj] at h6; cases h6
      · exact h
      · rw [hbj] at h6; cases h6
      · rw [hbi] at h5; cases h5
    obtain ⟨r', paths', h1, hres, _, _⟩ := hyperpathOD_spec (h := ⟨x.nodes, x.edges, pas, none, none⟩) (ha.searchable hx)
      p.1.origin p.1.dest
    have hcomp := hl.computed p hp
    unfold ODResult.Computed at hcomp
    rw [h1] at hcomp
    simp only [Except.ok.injEq, Prod.mk.injEq] at hcomp
    rw [hcomp.1] at hres
    obtain ⟨_, _, hnd, _⟩ := C40_lines ha hx hres hb ht
    refine List.Nodup.map_on ?_ hnd
    intro b1 hb1 b2 hb2 h12
    obtain ⟨hb1x, hb1i⟩ := hedge _ b1 hb1
    obtain ⟨hb2x, hb2i⟩ := hedge _ b2 hb2
    exact List.inj_on_of_nodup_map (C35_no_parallel_edges hx) hb1x hb2x (by simp [hb1i, hb2i, h12])
  have hz : ∀ q : RouteNode K, q.Wanted g routes → flow (zW fun k => if k = q.key then 1 else 0) (trace N f l) =
      flow (between (.stop q.stop) (.route q)) (trace N f l) := by
    intro q hq
    apply flow_congr
    intro w hw
    obtain ⟨e, he, hi, hj⟩ := hv.edge w hw
    rw [← hi, ← hj]
    rcases edge_cases hd hx he with ⟨_, s, h5, h6⟩ | ⟨_, s, h5, h6⟩ | ⟨_, m, hm, h5, h6⟩ | ⟨_, m, hm, h5, h6⟩ | ⟨_, p, m, hp, hm, hpm, h5, h6⟩
    · rw [h5, h6]; simp [zW, between]
    · rw [h5, h6]; simp [zW, between]
    · rw [h5, h6]
      simp only [zW, between]
      by_cases h : m = q
      · subst h
        simp [RouteNode.key]
      · rw [if_neg, if_neg]
        · rintro ⟨_, h'⟩
          exact h (ENode.route.inj h')
        · exact fun h' => h (key_inj ho hm hq h')
    · rw [h5, h6]; simp [zW, between]
    · rw [h5, h6]; simp [zW, between]
  have hsplit := trace_split (f := f) (N := N) (l := l) (s := n.stop) (n := n) (m := m)
    (fun p hp => ⟨hnd p hp, (hat p hp).1, (hat p hp).2⟩)
  rw [hrt]
  simp only
  rw [entry_eq ht.kz, entry_eq ht.kz, ht.z, ht.z, hz n hn, hz m hm]
  rw [← hs]
  have e1 : vehicleFactor f n.key = (f.getD n.route.id 0)⁻¹ := by
    unfold vehicleFactor RouteNode.key
    simp only
    rw [if_neg hfn]
  have e2 : vehicleFactor f m.key = (f.getD m.route.id 0)⁻¹ := by
    unfold vehicleFactor RouteNode.key
    simp only
    rw [if_neg hfm]
  rw [e1, e2]
  field_simp
  linear_combination hsplit

theorem forall₂_exists_left {α β : Type} {R : α → β → Prop} {l : List α} {m : List β} (h : List.Forall₂ R l m) :
    ∀ b ∈ m, ∃ a ∈ l, R a b := by
  induction h with
  | nil => intro b hb; cases hb
  | cons h _ ih =>
    intro b hb
    rcases List.mem_cons.1 hb with rfl | hb
    · exact ⟨_, by simp, h⟩
    · obtain ⟨a, ha, hR⟩ := ih b hb
      exact ⟨a, List.mem_cons_of_mem _ ha, hR⟩

theorem nodup_stopsAt {nodes : ENodes K} (h : (stopsOf nodes).Nodup) (c : CityNode K) : (stopsAt nodes (some c)).Nodup := by
  unfold stopsAt Dict.getD
  simp only
  cases hc : Dict.get? nodes c with
  | none => simp [Dict.keys]
  | some v =>
    simp only [Option.getD_some]
    unfold stopsOf at h
    exact (List.nodup_flatMap.1 h).1 _ (Dict.mem_of_get? _ hc)

/-- the frequencies of the graph let the passengers of its hyperpaths go on -/
theorem linesRun_graph (ha : Admissible routes sPTP freq pas) (hd : DistinctIds g)
    (hx : buildExtGraph g routes sPTP freq = .ok x) (hf : ∀ id, 0 ≤ (frequencies routes freq).getD id 0)
    {p : ODResult K × Dict (StopNode K) K} (he : p.1.Computed x pas) : LinesRun (frequencies routes freq) p := by
  refine ⟨hf, ?_⟩
  intro s _ b hb ht
  generalize p.1 = e at he hb ⊢
  obtain ⟨r', paths', h1, hr, _⟩ := hyperpathOD_spec (h := ⟨x.nodes, x.edges, pas, none, none⟩) (ha.searchable hx)
    e.origin e.dest
  unfold ODResult.Computed at he
  rw [h1] at he
  simp only [Except.ok.injEq, Prod.mk.injEq] at he
  rw [he.1] at hr
  obtain ⟨_, _, _, hall, _⟩ := C40_lines ha hx hr hb ht
  obtain ⟨hbx, _, _, hpos⟩ := hall b hb
  obtain ⟨n, hn, _, rfl⟩ := (C35_edges hd hx b).2.1.1 ⟨hbx, ht⟩
  refine ⟨_, hb, n, rfl, ?_⟩
  have hm := (ha.modes n.route (List.mem_of_getElem? hn.1)).lines
  unfold lineFreq at hpos
  simp only [Option.getD_some] at hpos
  have := mul_pos hpos hm
  rwa [div_mul_cancel₀ _ hm.ne'] at this

/-- C44: the theorems on the loading apply to what `get_all_hyperpaths` returns, with any shares and the frequencies of the
graph -/
theorem C44_applies (ha : Admissible routes sPTP freq pas) (hd : DistinctIds g)
    (hx : buildExtGraph g routes sPTP freq = .ok x) (hf : ∀ id, 0 ≤ (frequencies routes freq).getD id 0)
    {od : Dict Int (Dict Int K)} {res : List (ODResult K)} (hres : allHyperpaths x.nodes x.edges pas od = .ok res)
    (shares : List (Dict (StopNode K) K)) :
    Loading x pas (allNodes x.nodes).length (frequencies routes freq) (res.zip shares) := by
  have hcomp : ∀ e ∈ res, e.Computed x pas := by
    obtain ⟨h1, h2⟩ := C41_all_pairs ha hd hx od
    cases hv : networkValidator x.nodes x.edges pas od with
    | error err =>
      rw [h2 err hv] at hres
      cases hres
    | ok b =>
      cases b with
      | false =>
        unfold allHyperpaths at hres
        rw [hv, py_ok_bind] at hres
        cases hres
      | true =>
        obtain ⟨l, hl, hf2⟩ := h1 hv
        rw [hres] at hl
        cases hl
        intro e he
        obtain ⟨q, _, hq⟩ := forall₂_exists_left hf2 e he
        exact hq.2.2.2.2.2
  refine ⟨le_refl _, fun p hp => hcomp p.1 (List.of_mem_zip hp).1, fun p hp => ?_⟩
  exact linesRun_graph ha hd hx hf (hcomp p.1 (List.of_mem_zip hp).1)

/-- C43 for a pair computed by the search -/
theorem C43_pairs_partial (ha : Admissible routes sPTP freq pas) (hd : DistinctIds g)
    (hx : buildExtGraph g routes sPTP freq = .ok x) {e : ODResult K} (he : e.Computed x pas) (hne : e.paths ≠ []) {p vp spa spv : K}
    (hp : 0 < p) (hvp : 0 ≤ vp) (hspa : 0 < spa) (hspv : 0 < spv) :
    ∃ a, sharesOf (Dict.keys e.paths) e.res.label p vp spa spv = .ok a ∧ (
      (SharesOk (Dict.keys e.paths) a ∧ assignedTrips (e, a) = e.vij) ∨
      (a = [] ∧ assignedTrips (e, a) = 0 ∧ ∃ s1 ∈ Dict.keys e.paths, ∃ s2 ∈ Dict.keys e.paths, s1 ≠ s2 ∧ s1.mode.d = 1 ∧
        ∃ l1 l2 : K, e.res.label (.stop s1) = (l1 : WithTop K) ∧ e.res.label (.stop s2) = (l2 : WithTop K) ∧
          Tie p vp spa spv s2.mode.d l1 l2)) := by
  obtain ⟨hkeys, _⟩ := C41_paths ha hd hx he
  obtain ⟨r', paths', h1, hr, h3, _⟩ := hyperpathOD_spec (h := ⟨x.nodes, x.edges, pas, none, none⟩) (ha.searchable hx)
    e.origin e.dest
  have he' := he
  unfold ODResult.Computed at he'
  rw [h1] at he'
  simp only [Except.ok.injEq, Prod.mk.injEq] at he'
  rw [he'.1, he'.2] at h3
  have hnd : (Dict.keys e.paths).Nodup := by
    rw [h3]
    exact (nodup_stopsAt (C34_stop_nodes hd hx).1 _).filter _
  have hk : Dict.keys e.paths ≠ [] := by
    intro h
    exact hne (List.map_eq_nil_iff.1 h)
  have hlines : ∀ s ∈ Dict.keys e.paths, 1 ≤ s.mode.d := by
    intro s hs
    have hw := ((C34_stop_nodes hd hx).2.1 s).1 ((hkeys s).1 hs).1
    obtain ⟨_, r, hr, hm, _⟩ := hw
    have := (ha.modes r hr).lines
    rw [hm] at this
    have h0 : (0 : Int) < s.mode.d := by exact_mod_cast this
    omega
  obtain ⟨a, h5, h6⟩ := C43_shares_partial (p := p) (vp := vp) (spa := spa) (spv := spv) hnd hk
    (fun s hs => ((hkeys s).1 hs).2.2) hlines hp hvp hspa hspv
  refine ⟨a, h5, ?_⟩
  rcases h6 with h6 | ⟨h6, h7⟩
  · refine Or.inl ⟨h6, ?_⟩
    unfold assignedTrips
    simp only
    have : (fun s => e.vij * a.getD s 0 / 100) = fun s => e.vij / 100 * a.getD s 0 := by
      funext s
      ring
    rw [this, List.sum_map_mul_left, h6.sum]
    ring
  · refine Or.inr ⟨h6, ?_, h7⟩
    unfold assignedTrips
    apply List.sum_eq_zero
    intro z hz
    obtain ⟨s, _, rfl⟩ := List.mem_map.1 hz
    rw [h6]
    simp [Dict.getD, Dict.get?]

/-- routes without repeated stops (circular ones but for the first, which is the last again) -/
theorem StopsOnce.of_nodup (hids : (routes.map Route.id).Nodup)
    (h : ∀ r ∈ routes, ∀ d, if r.type = .circular then (r.stopsOf d).tail.Nodup else (r.stopsOf d).Nodup) : StopsOnce routes := by
  refine ⟨hids, ?_⟩
  intro r hr d i j id hi hj
  have h := h r hr d
  obtain ⟨hi1, hi2⟩ := hi
  obtain ⟨hj1, hj2⟩ := hj
  split at h
  · next hc =>
    have hi0 := hi2 hc
    have hj0 := hj2 hc
    have hi' : (r.stopsOf d).tail[i - 1]? = some id := by
      rw [List.getElem?_tail, show i - 1 + 1 = i by omega]
      exact hi1
    have hj' : (r.stopsOf d).tail[j - 1]? = some id := by
      rw [List.getElem?_tail, show j - 1 + 1 = j by omega]
      exact hj1
    obtain ⟨a, ha⟩ := List.getElem?_eq_some_iff.1 hi'
    obtain ⟨b, hb⟩ := List.getElem?_eq_some_iff.1 hj'
    have := (List.Nodup.getElem_inj_iff h (hi := a) (hj := b)).1 (ha.trans hb.symm)
    omega
  · obtain ⟨a, ha⟩ := List.getElem?_eq_some_iff.1 hi1
    obtain ⟨b, hb⟩ := List.getElem?_eq_some_iff.1 hj1
    exact (List.Nodup.getElem_inj_iff h (hi := a) (hj := b)).1 (ha.trans hb.symm)

theorem getD_nonneg {d : Dict Str K} (h : ∀ p ∈ d, 0 ≤ p.2) (id : Str) : 0 ≤ d.getD id 0 := by
  unfold Dict.getD
  cases hg : d.get? id with
  | none => exact le_refl _
  | some v => exact h _ (Dict.mem_of_get? _ hg)

/-! ## C45: most loaded section -/

/-- C45: for each route with loads, the largest of them, or 0 if they are all negative; nothing for other routes -/
theorem C45_maximum (load : Dict (LoadKey K) K) (id : Str) :
    ((∃ m, (mostLoaded load).get? id = some m) ↔ ∃ p ∈ load, p.1.1 = id) ∧
    (∀ m, (mostLoaded load).get? id = some m → 0 ≤ m ∧ (∀ p ∈ load, p.1.1 = id → p.2 ≤ m) ∧
      (m = 0 ∨ ∃ p ∈ load, p.1.1 = id ∧ p.2 = m)) := by
  have key : ∀ (l : Dict (LoadKey K) K) (d : Dict Str K), (∀ m, d.get? id = some m → 0 ≤ m) →
      ((∃ m, (l.foldl maxStep d).get? id = some m) ↔ (∃ m, d.get? id = some m) ∨ ∃ p ∈ l, p.1.1 = id) ∧
      (∀ m, (l.foldl maxStep d).get? id = some m → 0 ≤ m ∧ d.getD id 0 ≤ m ∧ (∀ p ∈ l, p.1.1 = id → p.2 ≤ m) ∧
        (m = d.getD id 0 ∨ ∃ p ∈ l, p.1.1 = id ∧ p.2 = m)) := by
    intro l
    induction l with
    | nil =>
      intro d hd
      refine ⟨by simp, fun m hm => ?_⟩
      have : d.getD id 0 = m := by
        unfold Dict.getD
        rw [show d.get? id = some m from hm]
        rfl
      exact ⟨hd m hm, this.le, by simp, Or.inl this.symm⟩
    | cons q l ih =>
      intro d hd
      rw [List.foldl_cons]
      by_cases hq : q.1.1 = id
      · have hself : (maxStep d q).get? id = some (if q.2 > d.getD id 0 then q.2 else d.getD id 0) := by
          unfold maxStep
          rw [hq]
          exact Dict.get?_set_self _ _ _
        have hD : (maxStep d q).getD id 0 = if q.2 > d.getD id 0 then q.2 else d.getD id 0 := by
          unfold Dict.getD at hself ⊢
          rw [hself]
          rfl
        have h0 : 0 ≤ d.getD id 0 := by
          unfold Dict.getD
          cases h : d.get? id with
          | none => exact le_refl _
          | some v => exact hd v h
        have hge : d.getD id 0 ≤ (maxStep d q).getD id 0 ∧ q.2 ≤ (maxStep d q).getD id 0 := by
          rw [hD]
          split
          · next h => exact ⟨h.le, le_refl _⟩
          · next h => exact ⟨le_refl _, not_lt.1 h⟩
        obtain ⟨i1, i2⟩ := ih (maxStep d q) (by
          intro m hm
          rw [hself] at hm
          rw [← Option.some.inj hm, ← hD]
          exact h0.trans hge.1)
        refine ⟨?_, ?_⟩
        · rw [i1]
          constructor
          · intro _
            exact Or.inr ⟨q, by simp, hq⟩
          · intro _
            exact Or.inl ⟨_, hself⟩
        · intro m hm
          obtain ⟨j1, j2, j3, j4⟩ := i2 m hm
          refine ⟨j1, hge.1.trans j2, ?_, ?_⟩
          · intro p hp hpid
            rcases List.mem_cons.1 hp with rfl | hp
            · exact hge.2.trans j2
            · exact j3 p hp hpid
          · rcases j4 with j4 | ⟨p, hp, h1, h2⟩
            · rw [hD] at j4
              split at j4
              · exact Or.inr ⟨q, by simp, hq, j4.symm⟩
              · exact Or.inl j4
            · exact Or.inr ⟨p, List.mem_cons_of_mem _ hp, h1, h2⟩
      · have hother : (maxStep d q).get? id = d.get? id := by
          unfold maxStep
          exact Dict.get?_set_ne _ _ (Ne.symm hq)
        have hD : (maxStep d q).getD id 0 = d.getD id 0 := by
          unfold Dict.getD
          rw [hother]
        obtain ⟨i1, i2⟩ := ih (maxStep d q) (by rw [hother]; exact hd)
        refine ⟨?_, ?_⟩
        · rw [i1, hother]
          simp [hq]
        · intro m hm
          obtain ⟨j1, j2, j3, j4⟩ := i2 m hm
          rw [hD] at j2 j4
          refine ⟨j1, j2, ?_, ?_⟩
          · intro p hp hpid
            rcases List.mem_cons.1 hp with rfl | hp
            · exact absurd hpid hq
            · exact j3 p hp hpid
          · rcases j4 with j4 | ⟨p, hp, h1, h2⟩
            · exact Or.inl j4
            · exact Or.inr ⟨p, List.mem_cons_of_mem _ hp, h1, h2⟩
  obtain ⟨h1, h2⟩ := key load [] (by intro m hm; cases hm)
  refine ⟨?_, ?_⟩
  · unfold mostLoaded
    rw [h1]
    simp [Dict.get?]
  · intro m hm
    obtain ⟨j1, _, j3, j4⟩ := h2 m hm
    exact ⟨j1, j3, j4⟩

end Generic

section Examples

attribute [local instance] ratMath ratText

/-- search, shares and loading on the routes `rs` with the trips `od` and the frequencies `f` -/
def demoPipeline (rs : List (Route ℚ)) (od : Dict Int (Dict Int ℚ)) (f : Dict Str ℚ) :
    Py (List (ODResult ℚ) × List (Dict (StopNode ℚ) ℚ) × Py (Loads ℚ)) := do
  let x ← buildExtGraph (demoCity 3) rs 2 none
  let res ← allHyperpaths x.nodes x.edges demoPassenger od
  let shares ← getAssignment res 2 4 6 2
  return (res, shares, getLoads (allNodes x.nodes).length f (res.zip shares))

/-- an entry of a table: route, direction, node and value -/
def showTable (d : Dict (LoadKey ℚ) ℚ) : List (Str × Dir × Int × ℚ) := d.map fun p => (p.1.1, p.1.2.1, p.1.2.2.city.node.id, p.2)

def demoOD : Dict Int (Dict Int ℚ) := [(1, [(4, 5), (2, 3)]), (4, [(1, 4), (2, 1)])]

/-- the shares of the four pairs, two of them with two stops -/
example : ((demoPipeline demoRoutes demoOD (defaultFrequencies demoRoutes)).toOption.map fun r => r.2.1.map fun d =>
    d.map Prod.snd) = some [[205/9, 695/9], [100], [205/9, 695/9], [100]] := by decide +kernel

/-- the tables: transfers at node 2 between the lines `a` and `c` -/
def demoTable (q : Loads ℚ → Dict (LoadKey ℚ) ℚ) : List (Str × Dir × Int × ℚ) :=
  match demoPipeline demoRoutes demoOD (defaultFrequencies demoRoutes) with
  | .ok (_, _, .ok t) => showTable (q t)
  | _ => []

example : demoTable Loads.z = [("a".toList, .I, 1, 149/36), ("c".toList, .I, 2, 41/36), ("b".toList, .I, 1, 139/36),
    ("b".toList, .R, 4, 139/45), ("c".toList, .I, 4, 86/45), ("a".toList, .R, 2, 41/45)] := by decide +kernel

example : demoTable Loads.v = [("a".toList, .I, 2, 149/36), ("c".toList, .I, 4, 41/36), ("b".toList, .I, 4, 139/36),
    ("b".toList, .R, 1, 139/45), ("c".toList, .I, 2, 86/45), ("a".toList, .R, 1, 41/45)] := by decide +kernel

/-- the hypotheses of C44 and of C43 for pairs hold for it -/
example : Admissible demoRoutes 2 none demoPassenger ∧ DistinctIds (demoCity 3) ∧ StopsOnce demoRoutes ∧
    buildExtGraph (demoCity 3) demoRoutes 2 none = .ok demoExt ∧
    ∃ res, allHyperpaths demoExt.nodes demoExt.edges demoPassenger demoOD = .ok res ∧ ∀ shares,
      Loading demoExt demoPassenger (allNodes demoExt.nodes).length (frequencies demoRoutes none) (res.zip shares) := by
  have hd : DistinctIds (demoCity 3) := by unfold DistinctIds; decide +kernel
  have hx : buildExtGraph (demoCity 3) demoRoutes 2 none = .ok demoExt := by decide +kernel
  refine ⟨demoAdmissible, hd, StopsOnce.of_nodup (by decide +kernel) ?_, hx, ?_⟩
  · have : ∀ r ∈ demoRoutes, ∀ d ∈ [Dir.I, Dir.R],
        if r.type = .circular then (r.stopsOf d).tail.Nodup else (r.stopsOf d).Nodup := by decide +kernel
    exact fun r hr d => this r hr d (by cases d <;> simp)
  · have hv : networkValidator demoExt.nodes demoExt.edges demoPassenger demoOD = .ok true := by decide +kernel
    obtain ⟨res, hres, _⟩ := (C41_all_pairs demoAdmissible hd hx demoOD).1 hv
    refine ⟨res, hres, fun shares => C44_applies demoAdmissible hd hx ?_ hres shares⟩
    exact getD_nonneg (by decide +kernel)

/-- C44: the hypothesis on the frequencies is needed: with all the frequencies 0, which the optimisation allows, the loading
ends with a division by zero -/
theorem C44_zero_frequencies_fail : ((demoPipeline demoRoutes demoOD []).toOption.map fun r => r.2.2) =
    some (.error .ZeroDivisionError) := by decide +kernel

/-- two lines of two modes with the same attributes on the same way -/
def twinLines : List (Route ℚ) :=
  [⟨"a".toList, demoMode, [1, 2, 0], [0, 2, 1], [1, 2, 0], [0, 2, 1], .custom⟩,
   ⟨"b".toList, { demoMode with oid := 2, name := "tram".toList }, [1, 2, 0], [0, 2, 1], [1, 2, 0], [0, 2, 1], .custom⟩]

/-- C43 fails: both stops have the same label, neither gets a share, and the five trips of the hour are in no table -/
theorem C43_twin_lines_lose_trips :
    (demoPipeline twinLines [(1, [(0, 5)])] (defaultFrequencies twinLines)).map (fun r =>
      (r.1.map fun e => ((Dict.keys e.paths).length, e.vij))) = .ok [(2, 5)] ∧
    (demoPipeline twinLines [(1, [(0, 5)])] (defaultFrequencies twinLines)).map (fun r => r.2.1) = .ok [[]] ∧
    (demoPipeline twinLines [(1, [(0, 5)])] (defaultFrequencies twinLines)).map (fun r => r.2.2) = .ok (.ok ⟨[], [], []⟩) := by
  decide +kernel

/-- stops of the two modes -/
def demoStop (d : Int) : StopNode ℚ := ⟨{ demoMode with oid := d.toNat, d := d }, ⟨0, ⟨0, 0, 0, 0, 0, 2, 0, [], .cbd⟩⟩⟩

/-- C43: the hypotheses of the meaning of the shares; two lines at 1/2 from the middle of a street of width 2, and a
difference of labels worth a walk of 1/4 -/
example : ¬ Tie (2 : ℚ) 4 6 2 (demoStop 2).mode.d 1 (1 + 3/16) ∧ (demoStop 2).mode.d % 2 = 0 ∧
    sharesTwo (demoStop 1) (demoStop 2) ((1 : ℚ) : WithTop ℚ) ((1 + 3/16 : ℚ) : WithTop ℚ) 2 4 6 2 =
      .ok [(demoStop 1, 75/2), (demoStop 2, 125/2)] := by
  refine ⟨?_, by decide, by decide +kernel⟩
  unfold Tie indifference lastLine
  norm_num [demoStop]

/-- C43: the restriction on the number of lines is needed.  Three lines are at -2/3, 0 and 2/3 in a street of width 2.  With a
difference of labels worth a walk of 1/4 the stop in the middle gets 29 %, as if there were lines at -1/3 and 1/3, so
travellers at 3/8 from the middle go to the other stop, though it is worse. -/
theorem C43_odd_lines_misplaced :
    sharesTwo (demoStop 1) (demoStop 3) ((1 : ℚ) : WithTop ℚ) ((1 + 3/16 : ℚ) : WithTop ℚ) 2 4 6 2 =
      .ok [(demoStop 1, 175/6), (demoStop 3, 425/6)] ∧
    (175/6 : ℚ) / 100 * (2 / 2) < 3/8 ∧
    ∀ i, i < 3 → costFrom (4 : ℚ) 6 2 1 (3/8) 0 < costFrom 4 6 2 (1 + 3/16) (3/8) (linePosition 2 3 i) := by
  refine ⟨by decide +kernel, by norm_num, ?_⟩
  intro i hi
  have : i = 0 ∨ i = 1 ∨ i = 2 := by omega
  rcases this with rfl | rfl | rfl <;> norm_num [costFrom, linePosition, abs_of_pos, abs_of_neg]

/-- C45 -/
example : mostLoaded [(("a".toList, Dir.I, demoStop 1), (3 : ℚ)), (("a".toList, .R, demoStop 1), 5), (("b".toList, .I, demoStop 1), -1)] =
    [("a".toList, 5), ("b".toList, 0)] := by decide +kernel

end Examples

end Sidermit
