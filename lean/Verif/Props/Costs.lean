import Verif.Proofs.Cycle
import Verif.Props.Assignment
import Verif.Props.City

/-!
C46-C51: infrastructure, capacity constraints, travel and cycle time of the lines, operators cost.
-/

set_option linter.unusedSectionVars false

namespace Sidermit

variable {K : Type} [Field K] [LinearOrder K] [IsStrictOrderedRing K] [PyMath K]

/-! ### C46: infrastructure -/

/-- there is a list of the streets that a mode uses -/
theorem C46_streets_exist (g : Graph K) (n : Nat) (routes : List (Route K)) (f : Dict Str K) (m : Mode K) :
    ∃ S, EachOnce (UsedStreet g n routes f m) S := exists_eachOnce g.nodes fun _ _ h => ⟨h.1, h.2.1⟩

/-- C46: the length built for a mode is `d` times the length of the streets it uses, whatever the direction and the number of
its lines; a mode that runs nowhere is not in the table. -/
theorem C46_mode_length {g : Graph K} {n : Nat} (hs : CityShape g n) (hd : DistinctIds g) (routes : List (Route K))
    {modes : List (Mode K)} (hm : modes.Nodup) (f : Dict Str K) {m : Mode K} (hmem : m ∈ modes)
    {S : List (Node K × Node K)} (hS : EachOnce (UsedStreet g n routes f m) S) :
    (modeDistance g routes modes f).getD m 0 = (m.d : K) * lengthOf S ∧
    (m ∈ Dict.keys (modeDistance g routes modes f) ↔ ∃ a b, UsedStreet g n routes f m a b) := by
  classical
  choose T hT using fun m => C46_streets_exist g n routes f m
  have hfold := modeDistance_fold hs hd routes f T hT modes [] hm (by simp [Dict.keys])
  have hdef : modeDistance g routes modes f = (modes.filter fun m => T m ≠ []).map fun m => (m, lengthOf (T m) * (m.d : K)) :=
    hfold.trans (List.nil_append _)
  have hlen : lengthOf (T m) = lengthOf S := (hT m).sum_eq hS nodeDistance fun a b _ => nodeDistance_comm a b
  have hused : T m ≠ [] ↔ ∃ a b, UsedStreet g n routes f m a b := by
    constructor
    · intro h
      obtain ⟨⟨a, b⟩, hp⟩ := List.exists_mem_of_ne_nil _ h
      rcases ((hT m).all a b).2 (Or.inl hp) with h | h
      · exact ⟨a, b, h⟩
      · exact ⟨b, a, h⟩
    · rintro ⟨a, b, h⟩ h0
      have := ((hT m).all a b).1 (Or.inl h)
      rw [h0] at this
      simp at this
  constructor
  · rw [hdef]
    unfold Dict.getD
    rw [get?_map_of_nodup _ _ (hm.filter _)]
    by_cases h0 : T m = []
    · rw [if_neg (by simp [h0]), ← hlen, h0]
      simp [lengthOf]
    · rw [if_pos (List.mem_filter.2 ⟨hmem, by simpa using h0⟩), hlen, mul_comm]
      rfl
  · rw [hdef, ← hused]
    unfold Dict.keys
    rw [List.map_map]
    have hid : (Prod.fst ∘ fun m => (m, lengthOf (T m) * (m.d : K))) = (id : Mode K → Mode K) := rfl
    rw [hid, List.map_id, List.mem_filter]
    simp [hmem]

/-- C46: the infrastructure cost is the sum of the costs of the modes -/
theorem C46_cost {g : Graph K} {n : Nat} (hs : CityShape g n) (hd : DistinctIds g) (routes : List (Route K))
    {modes : List (Mode K)} (hm : modes.Nodup) (f : Dict Str K) {S : Mode K → List (Node K × Node K)}
    (hS : ∀ m ∈ modes, EachOnce (UsedStreet g n routes f m) (S m)) :
    infrastructureCost g routes modes f = (modes.map fun m => m.c2 * ((m.d : K) * lengthOf (S m))).sum := by
  classical
  choose T hT using fun m => C46_streets_exist g n routes f m
  have hfold := modeDistance_fold hs hd routes f T hT modes [] hm (by simp [Dict.keys])
  unfold infrastructureCost
  have hdef : modeDistance g routes modes f = (modes.filter fun m => T m ≠ []).map fun m => (m, lengthOf (T m) * (m.d : K)) :=
    hfold.trans (List.nil_append _)
  rw [hdef, foldl_add_sum _ (fun p : Mode K × K => p.1.c2 * p.2), zero_add, List.map_map]
  clear hdef hfold hm
  induction modes with
  | nil => rfl
  | cons m ms ih =>
    have hlen : lengthOf (T m) = lengthOf (S m) :=
      (hT m).sum_eq (hS m (List.mem_cons_self ..)) nodeDistance fun a b _ => nodeDistance_comm a b
    rw [List.filter_cons, List.map_cons, List.sum_cons, ← ih fun m' hm' => hS m' (List.mem_cons_of_mem _ hm'), ← hlen]
    by_cases h0 : T m = []
    · rw [if_neg (by simp [h0]), h0]
      simp [lengthOf]
    · rw [if_pos (by simpa using h0), List.map_cons, List.sum_cons]
      change m.c2 * (lengthOf (T m) * (m.d : K)) + _ = _
      ring

/-- C46: only whether a line runs matters, not its frequency -/
theorem C46_frequency_irrelevant {g : Graph K} {n : Nat} (hs : CityShape g n) (hd : DistinctIds g) (routes : List (Route K))
    {modes : List (Mode K)} (hm : modes.Nodup) {f f' : Dict Str K}
    (hf : ∀ r ∈ routes, f.getD r.id 0 = 0 ↔ f'.getD r.id 0 = 0) :
    infrastructureCost g routes modes f = infrastructureCost g routes modes f' := by
  choose T hT using fun m => C46_streets_exist g n routes f m
  have hT' : ∀ m ∈ modes, EachOnce (UsedStreet g n routes f' m) (T m) := by
    intro m _
    have : UsedStreet g n routes f' m = UsedStreet g n routes f m := by
      funext a b
      unfold UsedStreet Drives
      apply propext
      constructor
      · rintro ⟨h1, h2, h3, r, hr, q1, q2, q3⟩
        exact ⟨h1, h2, h3, r, hr, q1, fun h => q2 ((hf r hr).1 h), q3⟩
      · rintro ⟨h1, h2, h3, r, hr, q1, q2, q3⟩
        exact ⟨h1, h2, h3, r, hr, q1, fun h => q2 ((hf r hr).2 h), q3⟩
    rw [this]
    exact hT m
  rw [C46_cost hs hd routes hm f fun m _ => hT m, C46_cost hs hd routes hm f' hT']

/-! ### C47: capacity of the streets -/

theorem getElem?_rows {α : Type} (w : Nat) (rows : List (List α)) (hw : ∀ l ∈ rows, l.length = w) : ∀ (i j : Nat), j < w →
    rows.flatten[i * w + j]? = (rows[i]?).bind fun l => l[j]? := by
  induction rows with
  | nil => intro i j _; simp
  | cons l t ih =>
    intro i j hj
    have hl : l.length = w := hw l (List.mem_cons_self ..)
    rw [List.flatten_cons]
    cases i with
    | zero =>
      rw [Nat.zero_mul, Nat.zero_add, List.getElem?_append_left (by rw [hl]; exact hj)]
      rfl
    | succ i =>
      have : (i + 1) * w + j = l.length + (i * w + j) := by rw [hl]; ring
      rw [this, List.getElem?_append_right (Nat.le_add_right _ _), Nat.add_sub_cancel_left]
      exact ih (fun l' h' => hw l' (List.mem_cons_of_mem _ h')) i j hj

theorem filterMap_at {α β : Type} (F : α → Option β) (es : List α) (h : ∀ e ∈ es, (F e).isSome) :
    (es.filterMap F).length = es.length ∧ ∀ (i : Nat) (e : α), es[i]? = some e → (es.filterMap F)[i]? = F e := by
  induction es with
  | nil => simp
  | cons e t ih =>
    obtain ⟨b, hb⟩ := Option.isSome_iff_exists.1 (h e (List.mem_cons_self ..))
    obtain ⟨i1, i2⟩ := ih fun e' he' => h e' (List.mem_cons_of_mem _ he')
    rw [List.filterMap_cons_some hb]
    refine ⟨by rw [List.length_cons, List.length_cons, i1], ?_⟩
    intro i e' he'
    cases i with
    | zero =>
      rw [List.getElem?_cons_zero] at he' ⊢
      cases he'
      exact hb.symm
    | succ i =>
      rw [List.getElem?_cons_succ] at he' ⊢
      exact i2 i e' he'

theorem edgeIds_at {g : Graph K} {n : Nat} (hs : CityShape g n) : g.edgeIds.length = g.edges.length ∧
    ∀ (i : Nat) (e : Edge), g.edges[i]? = some e → ∃ a b, g.nodes[e.node1]? = some a ∧ g.nodes[e.node2]? = some b ∧
      g.edgeIds[i]? = some (a.id, b.id) := by
  have hin := (C10_edge_list hs).2.2.2
  unfold Graph.edgeIds
  refine ⟨(filterMap_at _ g.edges fun e he => ?_).1, fun i e he => ?_⟩
  · rw [List.getElem?_eq_getElem (hin e he).1, List.getElem?_eq_getElem (hin e he).2]
    rfl
  · have hm : e ∈ g.edges := List.mem_of_getElem? he
    refine ⟨_, _, List.getElem?_eq_getElem (hin e hm).1, List.getElem?_eq_getElem (hin e hm).2,
      ((filterMap_at _ g.edges fun e he => ?_).2 i e he).trans ?_⟩
    · rw [List.getElem?_eq_getElem (hin e he).1, List.getElem?_eq_getElem (hin e he).2]
      rfl
    · rw [List.getElem?_eq_getElem (hin e hm).1, List.getElem?_eq_getElem (hin e hm).2]

/-- C47: one value for each edge and mode, in this order, which is what the vehicles of the mode per hour on the edge exceed its
capacity by, per parallel line -/
theorem C47_values {g : Graph K} {n : Nat} (hs : CityShape g n) (routes : List (Route K)) (modes : List (Mode K))
    (f : Dict Str K) (hd : ∀ m ∈ modes, 0 < m.d) :
    ∃ c, fmaxConstrains g routes modes f = .ok c ∧ c.length = g.edges.length * modes.length ∧
      ∀ (i j : Nat) (e : Edge) (m : Mode K), g.edges[i]? = some e → modes[j]? = some m →
        ∃ a b, g.nodes[e.node1]? = some a ∧ g.nodes[e.node2]? = some b ∧
          c[i * modes.length + j]? = some ((vehicleFlow routes f m a.id b.id - m.fmax) / (m.d : K)) := by
  have hd' : ∀ m ∈ modes, (m.d : K) ≠ 0 := fun m hm => by
    have := hd m hm
    exact_mod_cast this.ne'
  refine ⟨_, fmaxConstrains_ok g routes modes f hd', ?_, ?_⟩
  · rw [List.length_flatMap]
    simp only [List.length_map, List.map_const', List.sum_replicate, smul_eq_mul]
    rw [(edgeIds_at hs).1]
  · intro i j e m he hm
    obtain ⟨a, b, ha, hb, hi⟩ := (edgeIds_at hs).2 i e he
    refine ⟨a, b, ha, hb, ?_⟩
    rw [List.flatMap_def, getElem?_rows modes.length _ _ i j (List.getElem?_eq_some_iff.1 hm).1]
    · rw [List.getElem?_map, hi]
      simp [hm]
    · intro l hl
      obtain ⟨e', _, rfl⟩ := List.mem_map.1 hl
      simp

/-- C47: no value is positive if and only if on no street a mode has more vehicles per hour than its capacity -/
theorem C47_feasible_iff {g : Graph K} {n : Nat} (hs : CityShape g n) (hids : DistinctIds g) (routes : List (Route K))
    (modes : List (Mode K)) (f : Dict Str K) (hd : ∀ m ∈ modes, 0 < m.d) {c : List K}
    (hc : fmaxConstrains g routes modes f = .ok c) :
    (∀ x ∈ c, x ≤ 0) ↔ ∀ a ∈ g.nodes, ∀ b ∈ g.nodes, Street n a b → ∀ m ∈ modes, vehicleFlow routes f m a.id b.id ≤ m.fmax := by
  have hpos : ∀ m ∈ modes, (0 : K) < (m.d : K) := fun m hm => by exact_mod_cast hd m hm
  rw [fmaxConstrains_ok g routes modes f fun m hm => (hpos m hm).ne'] at hc
  cases hc
  have hiff : ∀ m ∈ modes, ∀ x : K, (x - m.fmax) / (m.d : K) ≤ 0 ↔ x ≤ m.fmax := by
    intro m hm x
    rw [div_le_iff₀ (hpos m hm), zero_mul, sub_nonpos]
  constructor
  · intro h a ha b hb hst m hm
    rw [← hiff m hm]
    apply h
    rw [List.mem_flatMap]
    exact ⟨(a.id, b.id), (mem_edgeIds_iff hs hids _ _).2 ⟨a, ha, b, hb, rfl, rfl, hst⟩, List.mem_map.2 ⟨m, hm, rfl⟩⟩
  · intro h x hx
    rw [List.mem_flatMap] at hx
    obtain ⟨⟨i, j⟩, he, hx⟩ := hx
    obtain ⟨m, hm, rfl⟩ := List.mem_map.1 hx
    obtain ⟨a, ha, b, hb, rfl, rfl, hst⟩ := (mem_edgeIds_iff hs hids _ _).1 he
    exact (hiff m hm _).2 (h a ha b hb hst m hm)

/-- C47: a mode with `d = 0`, which its constructor accepts, makes the constraints fail -/
theorem C47_no_lines {g : Graph K} {n : Nat} (hs : CityShape g n) (hn : 0 < n) (routes : List (Route K))
    (modes : List (Mode K)) (f : Dict Str K) {m : Mode K} (hm : m ∈ modes) (h0 : m.d = 0) :
    fmaxConstrains g routes modes f = .error .ZeroDivisionError := by
  have herr : ∀ e : Int × Int, fmaxEdge routes modes f e = .error .ZeroDivisionError := by
    intro e
    unfold fmaxEdge
    induction modes with
    | nil => cases hm
    | cons m' t ih =>
      rw [List.mapM_cons]
      by_cases h' : (m'.d : K) = 0
      · have : fmaxEntry routes f e m' = .error .ZeroDivisionError := by
          unfold fmaxEntry pyDiv
          rw [if_pos h']
          rfl
        rw [this]
        rfl
      · rw [fmaxEntry_ok routes f e h', py_ok_bind]
        rcases List.mem_cons.1 hm with rfl | hm
        · exact absurd (by rw [h0]; exact Int.cast_zero) h'
        · rw [ih hm]
          rfl
  have hne : g.edgeIds ≠ [] := by
    intro h
    have h1 := (edgeIds_at hs).1
    rw [h, (C10_edge_list hs).2.2.1] at h1
    simp only [List.length_nil] at h1
    split at h1
    · omega
    · split at h1
      · omega
      · split at h1 <;> omega
  unfold fmaxConstrains
  cases hes : g.edgeIds with
  | nil => exact absurd hes hne
  | cons e t =>
    rw [List.mapM_cons, herr e]
    rfl

/-! ### C48: capacity of the vehicles -/

/-- C48: one value for each route, which is positive if and only if some section has more passengers per vehicle than the
largest vehicle of the mode can take; it is the excess of the most loaded section. -/
theorem C48_vehicle_capacity (routes : List (Route K)) (load : Dict (LoadKey K) K) :
    (kConstrains routes (mostLoaded load)).length = routes.length ∧
    ∀ (i : Nat) (r : Route K), routes[i]? = some r → 0 ≤ r.mode.kmax →
      ∃ x, (kConstrains routes (mostLoaded load))[i]? = some x ∧
        (x ≤ 0 ↔ ∀ p ∈ load, p.1.1 = r.id → p.2 ≤ r.mode.kmax) ∧
        (0 < x → ∃ p ∈ load, p.1.1 = r.id ∧ x = p.2 - r.mode.kmax) ∧ -r.mode.kmax ≤ x := by
  refine ⟨by simp [kConstrains], ?_⟩
  intro i r hr hk
  obtain ⟨h1, h2⟩ := C45_maximum load r.id
  refine ⟨(mostLoaded load).getD r.id 0 - r.mode.kmax, by simp [kConstrains, hr], ?_, ?_, ?_⟩
  · cases hg : (mostLoaded load).get? r.id with
    | none =>
      have hno : ∀ p ∈ load, p.1.1 ≠ r.id := fun p hp he => by
        obtain ⟨m, hm⟩ := h1.2 ⟨p, hp, he⟩
        rw [hg] at hm
        cases hm
      have : (mostLoaded load).getD r.id 0 = 0 := by unfold Dict.getD; rw [hg]; rfl
      rw [this, zero_sub, neg_nonpos]
      exact ⟨fun _ p hp he => absurd he (hno p hp), fun _ => hk⟩
    | some m =>
      have : (mostLoaded load).getD r.id 0 = m := by unfold Dict.getD; rw [hg]; rfl
      rw [this, sub_nonpos]
      obtain ⟨q1, q2, q3⟩ := h2 m hg
      constructor
      · exact fun h p hp he => (q2 p hp he).trans h
      · intro h
        rcases q3 with q3 | ⟨p, hp, he, q3⟩
        · rw [q3]; exact hk
        · rw [← q3]; exact h p hp he
  · intro hx
    cases hg : (mostLoaded load).get? r.id with
    | none =>
      have : (mostLoaded load).getD r.id 0 = 0 := by unfold Dict.getD; rw [hg]; rfl
      rw [this, zero_sub] at hx
      exact absurd hx (not_lt.2 (neg_nonpos.2 hk))
    | some m =>
      have : (mostLoaded load).getD r.id 0 = m := by unfold Dict.getD; rw [hg]; rfl
      rw [this] at hx ⊢
      rcases (h2 m hg).2.2 with q3 | ⟨p, hp, he, q3⟩
      · rw [q3, zero_sub] at hx
        exact absurd hx (not_lt.2 (neg_nonpos.2 hk))
      · exact ⟨p, hp, he, by rw [q3]⟩
  · have : 0 ≤ (mostLoaded load).getD r.id 0 := by
      unfold Dict.getD
      cases hg : (mostLoaded load).get? r.id with
      | none => exact le_refl _
      | some m => exact (h2 m hg).1
    rw [← zero_sub]
    exact sub_le_sub_right this _

/-! ### C49: travel time of the lines -/

theorem travelled_lookup {g : Graph K} {n : Nat} (hs : CityShape g n) (hd : DistinctIds g) {A : List (Node K)}
    (hA : ∀ a ∈ A, a ∈ g.nodes) (hst : OnStreets g (A.map Node.id)) :
    ((pairs (A.map Node.id)).map fun p => (lookup2 g.edgesDistance p.1 p.2).getD 0).sum = travelled A := by
  unfold travelled
  induction A with
  | nil => rfl
  | cons a t ih =>
    cases t with
    | nil => rfl
    | cons b t =>
      have hst' : OnStreets g ((b :: t).map Node.id) := fun p hp => hst p (by
        change p ∈ (a.id, b.id) :: pairs ((b :: t).map Node.id)
        exact List.mem_cons_of_mem _ hp)
      have hab : g.edgeExist a.id b.id = true := hst (a.id, b.id) (by
        change (a.id, b.id) ∈ (a.id, b.id) :: pairs ((b :: t).map Node.id)
        exact List.mem_cons_self ..)
      have ha := hA a (List.mem_cons_self ..)
      have hb := hA b (List.mem_cons_of_mem _ (List.mem_cons_self ..))
      have h1 : (lookup2 g.edgesDistance a.id b.id).getD 0 = nodeDistance a b := by
        rw [(edgesDistance_iff hs hd ha hb _).2 ⟨(edgeExist_iff hs hd ha hb).1 hab, rfl⟩]
        rfl
      have := ih (fun c hc => hA c (List.mem_cons_of_mem _ hc)) hst'
      change (lookup2 g.edgesDistance a.id b.id).getD 0 + ((pairs ((b :: t).map Node.id)).map fun p =>
        (lookup2 g.edgesDistance p.1 p.2).getD 0).sum = nodeDistance a b + ((pairs (b :: t)).map fun p =>
          nodeDistance p.1 p.2).sum
      rw [h1, this]

/-- C49: the travel time of a route on the streets of the city is the length of both directions over the speed of the mode -/
theorem C49_travel_time {g : Graph K} {n : Nat} (hs : CityShape g n) (hd : DistinctIds g) {routes : List (Route K)}
    (hids : (routes.map Route.id).Nodup) (hv : ∀ r ∈ routes, 0 < r.mode.v) :
    ∃ t, linesTravelTime routes g.edgesDistance = .ok t ∧ ∀ r ∈ routes, ∀ A B : List (Node K),
      (∀ a ∈ A, a ∈ g.nodes) → (∀ b ∈ B, b ∈ g.nodes) → A.map Node.id = r.nodesI → B.map Node.id = r.nodesR →
      OnStreets g r.nodesI → OnStreets g r.nodesR → t.get? r.id = some ((travelled A + travelled B) / r.mode.v) := by
  refine ⟨_, linesTravelTime_fold g.edgesDistance routes (fun r hr => (hv r hr).ne') [], ?_⟩
  intro r hr A B hA hB eA eB sA sB
  rw [(tableOf_fold _ routes [] hids).1 r hr, ← eA, ← eB, travelled_lookup hs hd hA (by rw [eA]; exact sA),
    travelled_lookup hs hd hB (by rw [eB]; exact sB)]

/-- C49: in any city and for any sequences of nodes the time is not negative, and a route that returns on the same way takes the
same time in both directions -/
theorem C49_nonneg_symmetric {g : Graph K} {n : Nat} (hs : CityShape g n) (hd : DistinctIds g) (hsq : ∀ y : K, 0 ≤ PyMath.sqrt y)
    {routes : List (Route K)} (hids : (routes.map Route.id).Nodup) (hv : ∀ r ∈ routes, 0 < r.mode.v) {t : Dict Str K}
    (ht : linesTravelTime routes g.edgesDistance = .ok t) {r : Route K} (hr : r ∈ routes) :
    0 ≤ t.getD r.id 0 ∧ (r.nodesR = r.nodesI.reverse → ∀ A : List (Node K), (∀ a ∈ A, a ∈ g.nodes) → A.map Node.id = r.nodesI →
      OnStreets g r.nodesI → t.getD r.id 0 = 2 * travelled A / r.mode.v) := by
  have hfold : linesTravelTime routes g.edgesDistance = _ :=
    linesTravelTime_fold g.edgesDistance routes (fun r hr => (hv r hr).ne') []
  constructor
  · rw [ht] at hfold
    cases hfold
    have hpos : ∀ l : List (Int × Int), 0 ≤ (l.map fun p => (lookup2 g.edgesDistance p.1 p.2).getD 0).sum := by
      intro l
      apply List.sum_nonneg
      intro x hx
      obtain ⟨⟨i, j⟩, _, rfl⟩ := List.mem_map.1 hx
      cases hl : lookup2 g.edgesDistance i j with
      | none => exact le_refl _
      | some v =>
        obtain ⟨⟨a, ha, rfl⟩, ⟨b, hb, rfl⟩⟩ := edgesDistance_nodes hd hl
        rw [((edgesDistance_iff hs hd ha hb v).1 hl).2]
        exact hsq _
    unfold Dict.getD
    rw [(tableOf_fold _ routes [] hids).1 r hr]
    exact div_nonneg (add_nonneg (hpos _) (hpos _)) (hv r hr).le
  · intro hrev A hA eA sA
    obtain ⟨t', ht', h⟩ := C49_travel_time hs hd hids hv
    rw [ht] at ht'
    cases ht'
    have hpr : ∀ l : List (Node K), travelled l.reverse = travelled l := by
      intro l
      unfold travelled
      induction l with
      | nil => rfl
      | cons a t ih =>
        rw [List.reverse_cons]
        cases t with
        | nil => rfl
        | cons b t =>
          have happ : ∀ (l : List (Node K)) (x y : Node K), pairs (l ++ [x] ++ [y]) = pairs (l ++ [x]) ++ [(x, y)] := by
            intro l x y
            induction l with
            | nil => rfl
            | cons c l ihl =>
              cases l with
              | nil => rfl
              | cons d l =>
                change (c, d) :: pairs (d :: l ++ [x] ++ [y]) = (c, d) :: (pairs (d :: l ++ [x]) ++ [(x, y)])
                rw [ihl]
          rw [List.reverse_cons] at ih ⊢
          rw [happ, List.map_append, List.sum_append, ih]
          change _ + (nodeDistance b a + 0) = nodeDistance a b + (List.map (fun p => nodeDistance p.1 p.2) (pairs (b :: t))).sum
          rw [nodeDistance_comm b a]
          ring
    have eB : A.reverse.map Node.id = r.nodesR := by rw [List.map_reverse, eA, hrev]
    have sB : OnStreets g r.nodesR := by
      rw [hrev]
      intro p hp
      have hmem : ∀ (l : List Int) (p : Int × Int), p ∈ pairs l.reverse → (p.2, p.1) ∈ pairs l := by
        intro l
        induction l with
        | nil => intro p hp; cases hp
        | cons a t ih =>
          intro p hp
          cases t with
          | nil => cases hp
          | cons b t =>
            have happ : ∀ (l : List Int) (x y : Int), pairs (l ++ [x] ++ [y]) = pairs (l ++ [x]) ++ [(x, y)] := by
              intro l x y
              induction l with
              | nil => rfl
              | cons c l ihl =>
                cases l with
                | nil => rfl
                | cons d l =>
                  change (c, d) :: pairs (d :: l ++ [x] ++ [y]) = (c, d) :: (pairs (d :: l ++ [x]) ++ [(x, y)])
                  rw [ihl]
            rw [List.reverse_cons, List.reverse_cons, happ, ← List.reverse_cons] at hp
            change _ ∈ (a, b) :: pairs (b :: t)
            rcases List.mem_append.1 hp with hp | hp
            · exact List.mem_cons_of_mem _ (ih p hp)
            · simp only [List.mem_cons, List.not_mem_nil, or_false] at hp
              rw [hp]
              exact List.mem_cons_self ..
      have hp' : g.edgeExist p.2 p.1 = true := sA _ (hmem _ _ hp)
      obtain ⟨⟨a, ha, hai⟩, ⟨b, hb, hbi⟩⟩ := edgeExist_nodes hp'
      rw [← hai, ← hbi] at hp' ⊢
      exact (edgeExist_iff hs hd hb ha).2 (street_symm ((edgeExist_iff hs hd ha hb).1 hp'))
    have := h r hr A A.reverse hA (fun b hb => hA b (List.mem_reverse.1 hb)) eA eB sA sB
    unfold Dict.getD
    rw [this, hpr]
    change (travelled A + travelled A) / r.mode.v = _
    ring

/-! ### C50: cycle time -/

/-- the tables of the boarding and alighting passengers: each key once -/
def TableOk (d : Dict (LoadKey K) K) : Prop := (Dict.keys d).Nodup

/-- C50: the cycle time is the travel time plus the time at the stops: `t` seconds for each passenger that boards or alights
(sequential), or for the larger of both numbers at each stop (simultaneous).  `S` is any list of the entries of the tables. -/
theorem C50_cycle_time {z v : Dict (LoadKey K) K} (hz : TableOk z) (hv : TableOk v) {routes : List (Route K)}
    (hids : (routes.map Route.id).Nodup) (times : Dict Str K) {S : List (LoadKey K)} (hS : S.Nodup)
    (hzS : ∀ k ∈ Dict.keys z, k ∈ S) (hvS : ∀ k ∈ Dict.keys v, k ∈ S) {r : Route K} (hr : r ∈ routes) :
    (r.mode.bya = 0 → (getCycleTime z v routes times).time.get? r.id = some (times.getD r.id 0 +
      r.mode.t / 3600 * (total z (fun k => k.1 = r.id) + total v fun k => k.1 = r.id))) ∧
    (r.mode.bya = 1 → (getCycleTime z v routes times).time.get? r.id = some (times.getD r.id 0 +
      r.mode.t / 3600 * dwellMax z v r.id S)) := by
  have hz' : KeysIn S z := ⟨hz, hzS⟩
  have hv' : KeysIn S v := ⟨hv, hvS⟩
  obtain ⟨_, h2⟩ := cycle_fold hS times z v routes ⟨[], z, v⟩ ⟨fun _ => rfl, fun _ => rfl, hz', hv'⟩
  unfold getCycleTime
  rw [h2, (tableOf_fold _ routes [] hids).1 r hr]
  unfold dwell
  constructor
  · intro h0
    rw [if_pos h0, total_eq_sumOver hS hz', total_eq_sumOver hS hv']
  · intro h1
    rw [if_neg (by rw [h1]; decide), if_pos h1]
    rfl

/-- C50: handling boarding and alighting at the same time is never slower than one after the other, and it saves at most half
of the time at the stops -/
theorem C50_simultaneous_between {z v : Dict (LoadKey K) K} (hz : TableOk z) (hv : TableOk v)
    (hz0 : ∀ k, 0 ≤ z.getD k 0) (hv0 : ∀ k, 0 ≤ v.getD k 0) {S : List (LoadKey K)} (hS : S.Nodup)
    (hzS : ∀ k ∈ Dict.keys z, k ∈ S) (hvS : ∀ k ∈ Dict.keys v, k ∈ S) (id : Str) :
    dwellMax z v id S ≤ total z (fun k => k.1 = id) + total v (fun k => k.1 = id) ∧
    (total z (fun k => k.1 = id) + total v fun k => k.1 = id) / 2 ≤ dwellMax z v id S := by
  rw [total_eq_sumOver hS ⟨hz, hzS⟩, total_eq_sumOver hS ⟨hv, hvS⟩]
  unfold sumOver dwellMax
  generalize S.filter (fun k => decide (k.1 = id)) = L
  induction L with
  | nil => simp
  | cons k t ih =>
    simp only [List.map_cons, List.sum_cons]
    have h1 := hz0 k
    have h2 := hv0 k
    have h3 : max (z.getD k 0) (v.getD k 0) ≤ z.getD k 0 + v.getD k 0 := max_le (by linarith) (by linarith)
    have h4 := le_max_left (z.getD k 0) (v.getD k 0)
    have h5 := le_max_right (z.getD k 0) (v.getD k 0)
    constructor
    · linarith [ih.1]
    · linarith [ih.2]

/-- C50: the call may add keys to the tables, but they read the same afterwards; a second call gives the same times -/
theorem C50_tables_unchanged {z v : Dict (LoadKey K) K} (hz : TableOk z) (hv : TableOk v) (routes : List (Route K))
    (times : Dict Str K) :
    (∀ k, (getCycleTime z v routes times).z.getD k 0 = z.getD k 0) ∧
    (∀ k, (getCycleTime z v routes times).v.getD k 0 = v.getD k 0) ∧
    (getCycleTime (getCycleTime z v routes times).z (getCycleTime z v routes times).v routes times).time =
      (getCycleTime z v routes times).time := by
  classical
  obtain ⟨S, hS, hmem⟩ : ∃ S : List (LoadKey K), S.Nodup ∧ ∀ k, k ∈ S ↔ k ∈ Dict.keys z ∨ k ∈ Dict.keys v :=
    ⟨(Dict.keys z ++ Dict.keys v).dedup, List.nodup_dedup _, fun k => by rw [List.mem_dedup, List.mem_append]⟩
  have hz' : KeysIn S z := ⟨hz, fun k hk => (hmem k).2 (Or.inl hk)⟩
  have hv' : KeysIn S v := ⟨hv, fun k hk => (hmem k).2 (Or.inr hk)⟩
  obtain ⟨h1, h2⟩ := cycle_fold hS times z v routes ⟨[], z, v⟩ ⟨fun _ => rfl, fun _ => rfl, hz', hv'⟩
  refine ⟨h1.z, h1.v, ?_⟩
  have h3 : SameTables S ⟨0, z, v, []⟩ ⟨0, (getCycleTime z v routes times).z, (getCycleTime z v routes times).v, []⟩ := h1
  obtain ⟨_, h4⟩ := cycle_fold hS times z v routes
    ⟨[], (getCycleTime z v routes times).z, (getCycleTime z v routes times).v⟩ h3
  exact h4.trans h2.symm

/-- C50: the tables that the loading of the lines gives meet the hypotheses above -/
theorem C50_applies {g : Graph K} {routes : List (Route K)} {sPTP : K} {freq : Option (Dict Str K)} {x : ExtGraph K}
    {pas : Passenger K} {N : Nat} {f : Dict Str K} {l : List (ODResult K × Dict (StopNode K) K)} {r : Loads K}
    (ha : Admissible routes sPTP freq pas) (hd : DistinctIds g) (hx : buildExtGraph g routes sPTP freq = .ok x)
    (hl : Loading x pas N f l) (hr : getLoads N f l = .ok r) : TableOk r.z ∧ TableOk r.v := by
  obtain ⟨t, r', h, ht, hrt, _⟩ := getLoads_spec (hl.ok ha hd hx)
  rw [hr] at h
  cases h
  rw [hrt]
  unfold TableOk
  simp only [keys_perVehicle]
  exact ⟨ht.kz, ht.kv⟩

/-- C50: with the tables of the loading, every passenger boards and alights once for each use of a line, so the time at the stops
of a line of sequential boarding and alighting is twice `t` for each boarding -/
theorem C50_sequential_loading {g : Graph K} {routes : List (Route K)} {sPTP : K} {freq : Option (Dict Str K)} {x : ExtGraph K}
    {pas : Passenger K} {N : Nat} {f : Dict Str K} {l : List (ODResult K × Dict (StopNode K) K)} {r : Loads K}
    (ha : Admissible routes sPTP freq pas) (hd : DistinctIds g) (hx : buildExtGraph g routes sPTP freq = .ok x)
    (hl : Loading x pas N f l) (hr : getLoads N f l = .ok r) (hids : (routes.map Route.id).Nodup) (times : Dict Str K)
    {u : Route K} (hu : u ∈ routes) (h0 : u.mode.bya = 0) :
    (getCycleTime r.z r.v routes times).time.get? u.id = some (times.getD u.id 0 +
      u.mode.t / 3600 * (2 * (total r.z (fun k => k.1 = u.id ∧ k.2.1 = .I) + total r.z fun k => k.1 = u.id ∧ k.2.1 = .R))) := by
  classical
  obtain ⟨hz, hv⟩ := C50_applies ha hd hx hl hr
  have hS : (Dict.keys r.z ++ Dict.keys r.v).dedup.Nodup := List.nodup_dedup _
  rw [(C50_cycle_time hz hv hids times hS (fun k hk => List.mem_dedup.2 (List.mem_append_left _ hk))
    (fun k hk => List.mem_dedup.2 (List.mem_append_right _ hk)) hu).1 h0]
  have split : ∀ d : Dict (LoadKey K) K, total d (fun k => k.1 = u.id) =
      total d (fun k => k.1 = u.id ∧ k.2.1 = .I) + total d fun k => k.1 = u.id ∧ k.2.1 = .R := by
    intro d
    unfold total
    induction d with
    | nil => simp
    | cons p t ih =>
      obtain ⟨⟨a, dir, s⟩, y⟩ := p
      simp only [List.filter_cons]
      by_cases h : a = u.id
      · cases dir
        · simp [h, ih, add_assoc]
        · simp [h, ih, add_left_comm]
      · simp [h, ih]
  have h1 := C44_line_balance ha hd hx hl hr u.id .I
  have h2 := C44_line_balance ha hd hx hl hr u.id .R
  rw [split r.z, split r.v, ← h1, ← h2]
  congr 2
  ring

/-! ### C51: operators cost -/

theorem operatorsCost_eq (routes : List (Route K)) (cycle f k : Dict Str K) :
    operatorsCost routes cycle f k = (routes.map fun r =>
      (r.mode.co + r.mode.c1 * k.getD r.id 0) * f.getD r.id 0 * cycle.getD r.id 0).sum := by
  unfold operatorsCost
  have key : ∀ acc : K, routes.foldl (operatorStep cycle f k) acc = acc + (routes.map fun r =>
      (r.mode.co + r.mode.c1 * k.getD r.id 0) * f.getD r.id 0 * cycle.getD r.id 0).sum := by
    induction routes with
    | nil => intro acc; simp
    | cons r t ih =>
      intro acc
      rw [List.foldl_cons, ih, List.map_cons, List.sum_cons]
      unfold operatorStep
      by_cases h : f.getD r.id 0 = 0
      · rw [if_pos h, h]; ring
      · rw [if_neg h]; ring
  rw [key, zero_add]

/-- C51: the cost is the sum over the active lines of the cost of a vehicle of the size of the line times the fleet -/
theorem C51_sum (routes : List (Route K)) (cycle f k : Dict Str K) [DecidablePred (Active (K := K) f)] :
    operatorsCost routes cycle f k = ((routes.filter fun r => Active f r).map fun r =>
      (r.mode.co + r.mode.c1 * k.getD r.id 0) * (f.getD r.id 0 * cycle.getD r.id 0)).sum := by
  rw [operatorsCost_eq]
  induction routes with
  | nil => rfl
  | cons r t ih =>
    rw [List.map_cons, List.sum_cons, ih, List.filter_cons]
    by_cases h : Active f r
    · rw [if_pos (decide_eq_true h), List.map_cons, List.sum_cons]
      ring
    · rw [if_neg (by simpa using h)]
      have : f.getD r.id 0 = 0 := not_not.1 h
      rw [this]
      ring

/-- C51: the lines without frequency do not matter -/
theorem C51_inactive (routes : List (Route K)) {cycle cycle' f k k' : Dict Str K}
    (h : ∀ r ∈ routes, Active f r → cycle.getD r.id 0 = cycle'.getD r.id 0 ∧ k.getD r.id 0 = k'.getD r.id 0) :
    operatorsCost routes cycle f k = operatorsCost routes cycle' f k' := by
  rw [operatorsCost_eq, operatorsCost_eq]
  congr 1
  apply List.map_congr_left
  intro r hr
  by_cases h0 : f.getD r.id 0 = 0
  · rw [h0]; ring
  · rw [(h r hr h0).1, (h r hr h0).2]

/-- C51: the cost is not negative, and it does not decrease if vehicles get larger, cycles longer or lines more frequent -/
theorem C51_monotone {routes : List (Route K)} (hm : ∀ r ∈ routes, r.mode.InRange) {cycle cycle' f f' k k' : Dict Str K}
    (hc : ∀ r ∈ routes, 0 ≤ cycle.getD r.id 0 ∧ cycle.getD r.id 0 ≤ cycle'.getD r.id 0)
    (hf : ∀ r ∈ routes, 0 ≤ f.getD r.id 0 ∧ f.getD r.id 0 ≤ f'.getD r.id 0)
    (hk : ∀ r ∈ routes, 0 ≤ k.getD r.id 0 ∧ k.getD r.id 0 ≤ k'.getD r.id 0) :
    0 ≤ operatorsCost routes cycle f k ∧ operatorsCost routes cycle f k ≤ operatorsCost routes cycle' f' k' := by
  rw [operatorsCost_eq, operatorsCost_eq]
  constructor
  · apply List.sum_nonneg
    intro x hx
    obtain ⟨r, hr, rfl⟩ := List.mem_map.1 hx
    obtain ⟨h1, h2, _⟩ := hm r hr
    exact mul_nonneg (mul_nonneg (add_nonneg h1 (mul_nonneg h2 (hk r hr).1)) (hf r hr).1) (hc r hr).1
  · apply List.sum_le_sum
    intro r hr
    obtain ⟨h1, h2, _⟩ := hm r hr
    have e1 : r.mode.co + r.mode.c1 * k.getD r.id 0 ≤ r.mode.co + r.mode.c1 * k'.getD r.id 0 :=
      add_le_add_right (mul_le_mul_of_nonneg_left (hk r hr).2 h2) _
    have e0 : 0 ≤ r.mode.co + r.mode.c1 * k.getD r.id 0 := add_nonneg h1 (mul_nonneg h2 (hk r hr).1)
    exact mul_le_mul (mul_le_mul e1 (hf r hr).2 (hf r hr).1 (e0.trans e1)) (hc r hr).2 (hc r hr).1
      (mul_nonneg (e0.trans e1) ((hf r hr).1.trans (hf r hr).2))

/-! ### Examples -/

section Examples

attribute [local instance] ratMath ratText

def demoMetro : Mode ℚ := { demoMode with oid := 2, name := "metro".toList, d := 2 }

/-- the demonstration city meets the hypotheses of C46, C47 and C49 -/
theorem demoShape : CityShape (demoCity 3) 3 ∧ DistinctIds (demoCity 3) := by
  have h : buildFromParameters (K := ℚ) 3 10 (1/2) 2 none none none none none = .ok (demoCity 3) := by decide +kernel
  exact (buildFromParameters_shape h).2

/-- C46: lines a (both directions) and c of the bus use the streets 1-2, 2-0, 2-4, 4-6 and 6-2; the metro, of two parallel lines,
uses 1-2, 2-0 and 0-4.  (The stand-in for the cosine puts 4 and 6 at the centre.) -/
example : [demoMode, demoMetro].Nodup ∧
    modeDistance (demoCity 3) demoRoutes [demoMode, demoMetro] (defaultFrequencies demoRoutes) =
      [(demoMode, 35), (demoMetro, 30)] ∧
    infrastructureCost (demoCity 3) demoRoutes [demoMode, demoMetro] (defaultFrequencies demoRoutes) = 13/2 := by
  refine ⟨by decide +kernel, by decide +kernel, by decide +kernel⟩

/-- C46: a mode without an active line builds nothing -/
example : modeDistance (demoCity 3) demoRoutes [demoMode, demoMetro] [("a".toList, 3), ("c".toList, 1)] = [(demoMode, 35)] ∧
    modeDistance (demoCity 3) demoRoutes [demoMode, demoMetro] [("a".toList, 3)] = [(demoMode, 15)] := by
  refine ⟨by decide +kernel, by decide +kernel⟩

/-- C47: 150 vehicles per hour of line a exceed the 120 of the mode in both streets of the line, in both directions -/
example : (fmaxConstrains (demoCity 3) demoRoutes [demoMode, demoMetro] [("a".toList, 150), ("b".toList, 60)]).map
    (fun c => (c.length, c.filter fun x => 0 < x, c.take 4)) = .ok (36, [30, 30, 30, 30], [30, -30, 30, -30]) := by
  decide +kernel

example : fmaxConstrains (demoCity 3) demoRoutes [demoMode, { demoMetro with d := 0 }] [] = .error .ZeroDivisionError := by
  decide +kernel

/-- C48 -/
example : kConstrains demoRoutes (mostLoaded [(("a".toList, Dir.I, demoStop 1), (3 : ℚ)), (("a".toList, .R, demoStop 1), 125),
    (("b".toList, .I, demoStop 1), 20)]) = [5, -100, -120] ∧ ∀ r ∈ demoRoutes, 0 ≤ r.mode.kmax := by
  refine ⟨by decide +kernel, by decide +kernel⟩

/-- C49: the lines of the demonstration run on streets -/
example : (demoRoutes.map Route.id).Nodup ∧ (∀ r ∈ demoRoutes, 0 < r.mode.v) ∧
    (∀ r ∈ demoRoutes, (pairs r.nodesI ++ pairs r.nodesR).all (fun p => (demoCity 3).edgeExist p.1 p.2) = true) ∧
    linesTravelTime demoRoutes (demoCity 3).edgesDistance = .ok [("a".toList, 3/2), ("b".toList, 3/2), ("c".toList, 1)] := by
  refine ⟨by decide +kernel, by decide +kernel, by decide +kernel, by decide +kernel⟩

/-- C50: one boards at stop 1, three alight at stop 0, and at stop 2 two board and five alight: 11 times 2 seconds one after the
other; 9 times 2 seconds at the same time -/
example :
    let s : Int → StopNode ℚ := fun i => ⟨demoMode, ⟨i.toNat, ⟨i, 0, 0, 0, 0, 2, 0, [], .cbd⟩⟩⟩
    let z : Dict (LoadKey ℚ) ℚ := [(("a".toList, .I, s 1), 1), (("a".toList, .I, s 2), 2)]
    let v : Dict (LoadKey ℚ) ℚ := [(("a".toList, .I, s 2), 5), (("a".toList, .I, s 0), 3)]
    let r : Route ℚ := ⟨"a".toList, demoMode, [1, 2, 0], [0, 2, 1], [1, 2, 0], [0, 2, 1], .custom⟩
    (Dict.keys z).Nodup ∧ (Dict.keys v).Nodup ∧
    (getCycleTime z v [r] [("a".toList, 3/2)]).time = [("a".toList, 3/2 + 11 * 2 / 3600)] ∧
    (getCycleTime z v [{ r with mode := { demoMode with bya := 1 } }] [("a".toList, 3/2)]).time =
      [("a".toList, 3/2 + 9 * 2 / 3600)] ∧
    (getCycleTime z v [{ r with mode := { demoMode with bya := 1 } }] [("a".toList, 3/2)]).z.length = 3 := by
  refine ⟨by decide +kernel, by decide +kernel, by decide +kernel, by decide +kernel, by decide +kernel⟩

/-- C51: (8 + 2 * 10) * 3 * 3/2 for line a; line b does not run -/
example : operatorsCost demoRoutes [("a".toList, 3/2), ("b".toList, 3/2), ("c".toList, 1)] [("a".toList, 3), ("c".toList, 1)]
    [("a".toList, 10), ("b".toList, 7)] = 126 + 8 := by decide +kernel

end Examples

end Sidermit
