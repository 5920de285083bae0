import Verif.Proofs.GraphReal
import Verif.Spec.RatMath

/-!
# Properties of the city graph (C08 - C15)
-/

namespace Sidermit

section Generic

variable {K : Type} [Field K] [LinearOrder K] [IsStrictOrderedRing K] [PyMath K]

/-! ## C12: parameter validation is exact -/

/-- **C12.** The validator accepts exactly the documented parameters, and so does the builder. -/
theorem C12_parameters_validator_exact (n : Int) (l g p : K) (etha : Option K) (ethaZone : Option Int)
    (angles gi hi : Option (List K)) :
    (parametersValidator n l g p etha ethaZone angles gi hi = .ok () ↔
      CityParamsOk n l g p etha ethaZone angles gi hi) ∧
    ((∃ r, buildFromParameters n l g p etha ethaZone angles gi hi = .ok r) ↔
      CityParamsOk n l g p etha ethaZone angles gi hi) :=
  ⟨parametersValidator_iff n l g p etha ethaZone angles gi hi (), buildFromParameters_ok_iff⟩

omit [IsStrictOrderedRing K] [PyMath K] in
/-- **C12**, exceptions: the scalar parameters are reported in the documented order. -/
theorem C12_parameters_validator_errors (n : Int) (l g p : K) (etha : Option K) (ethaZone : Option Int)
    (angles gi hi : Option (List K)) :
    (n < 0 → parametersValidator n l g p etha ethaZone angles gi hi = .error .NIsNotValidNumber) ∧
    (0 ≤ n → l < 0 → parametersValidator n l g p etha ethaZone angles gi hi = .error .LIsNotValidNumber) ∧
    (0 ≤ n → 0 ≤ l → g < 0 → parametersValidator n l g p etha ethaZone angles gi hi = .error .GIsNotValidNumber) ∧
    (0 ≤ n → 0 ≤ l → 0 ≤ g → p < 0 →
      parametersValidator n l g p etha ethaZone angles gi hi = .error .PIsNotValidNumber) ∧
    (0 ≤ n → 0 ≤ l → 0 ≤ g → 0 ≤ p → etha = none → ethaZone ≠ none →
      parametersValidator n l g p etha ethaZone angles gi hi = .error .EthaValueRequired) ∧
    (0 ≤ n → 0 ≤ l → 0 ≤ g → 0 ≤ p → etha ≠ none → ethaZone = none →
      parametersValidator n l g p etha ethaZone angles gi hi = .error .EthaZoneValueRequired) := by
  refine ⟨?_, ?_, ?_, ?_, ?_, ?_⟩
  · intro h; simp [parametersValidator, raiseIf, h]
  · intro h1 h2; simp [parametersValidator, raiseIf, not_lt.2 h1, h2]
  · intro h1 h2 h3; simp [parametersValidator, raiseIf, not_lt.2 h1, not_lt.2 h2, h3]
  · intro h1 h2 h3 h4; simp [parametersValidator, raiseIf, not_lt.2 h1, not_lt.2 h2, not_lt.2 h3, h4]
  · intro h1 h2 h3 h4 h5 h6
    cases ethaZone with
    | none => exact absurd rfl h6
    | some z => simp [parametersValidator, raiseIf, not_lt.2 h1, not_lt.2 h2, not_lt.2 h3, not_lt.2 h4, checkEtha, h5]
  · intro h1 h2 h3 h4 h5 h6
    cases etha with
    | none => exact absurd rfl h5
    | some z => simp [parametersValidator, raiseIf, not_lt.2 h1, not_lt.2 h2, not_lt.2 h3, not_lt.2 h4, checkEtha, h6]

/-! ## C08: node set -/

/-- **C08.** A parametric city has `2n+1` nodes; position `j` holds the node with id `j`: the CBD (zone 0) first, then
periphery `2z-1` and subcentre `2z` of every zone `z`. -/
theorem C08_parametric_city_nodes {n : Int} {l g p : K} {etha : Option K} {ethaZone : Option Int}
    {angles gi hi : Option (List K)} {r : Graph K}
    (h : buildFromParameters n l g p etha ethaZone angles gi hi = .ok r) :
    r.n = some n ∧ r.nodes.length = 2 * n.toNat + 1 ∧
    r.nodes.map Node.id = (List.range (2 * n.toNat + 1)).map (fun j : Nat => (j : Int)) ∧
    (∃ c, r.nodes[0]? = some c ∧ c.kind = .cbd ∧ c.id = 0 ∧ c.zone = 0) ∧
    (∀ z : Nat, 1 ≤ z → z ≤ n.toNat → ∃ a b, r.nodes[2 * z - 1]? = some a ∧ r.nodes[2 * z]? = some b ∧
      a.kind = .periphery ∧ a.id = 2 * z - 1 ∧ a.zone = z ∧
      b.kind = .subcenter ∧ b.id = 2 * z ∧ b.zone = z) := by
  have hok := (buildFromParameters_ok_iff).1 ⟨r, h⟩
  obtain ⟨m, rfl⟩ := Int.eq_ofNat_of_zero_le hok.n_nonneg
  rw [buildFromParameters_eq hok] at h
  cases h
  refine ⟨rfl, by simp, ?_, ?_, ?_⟩
  · simp [cityNodes_ids]
  · refine ⟨nodeAt (docGeo m l g etha ethaZone angles gi hi) p 0, ?_, ?_, ?_, ?_⟩
    · show (cityNodes _ p m)[0]? = _
      rw [getElem?_cityNodes, if_pos (by omega)]
    · rw [nodeAt_kind]; rfl
    · rw [nodeAt_id]; rfl
    · rw [nodeAt_zone]; rfl
  · intro z h1 h2
    simp only [Int.toNat_natCast] at h2
    refine ⟨nodeAt (docGeo m l g etha ethaZone angles gi hi) p (2 * z - 1), nodeAt (docGeo m l g etha ethaZone angles gi hi) p (2 * z), ?_, ?_, ?_, ?_, ?_, ?_, ?_, ?_⟩
    · rw [getElem?_cityNodes, if_pos (by omega)]
    · rw [getElem?_cityNodes, if_pos (by omega)]
    · rw [nodeAt_kind, kindAt_periphery]; omega
    · rw [nodeAt_id]; omega
    · rw [nodeAt_zone]; unfold zoneAt; omega
    · rw [nodeAt_kind, kindAt_subcenter]; omega
    · rw [nodeAt_id]; omega
    · rw [nodeAt_zone]; unfold zoneAt; omega

/-! ## C13: asymmetries relocate nodes without changing the topology -/

/-- **C13.** With any accepted options the city has the nodes of the documented geometry (`docGeo`), and its zones and
edges (hence ids, kinds, names, zones of nodes and streets) are those of the symmetric city. -/
theorem C13_asymmetries_only_move_nodes {n : Int} {l g p : K} {etha : Option K} {ethaZone : Option Int}
    {angles gi hi : Option (List K)} {r : Graph K}
    (h : buildFromParameters n l g p etha ethaZone angles gi hi = .ok r) :
    r.nodes = cityNodes (docGeo n.toNat l g etha ethaZone angles gi hi) p n.toNat ∧
    ∃ s, buildFromParameters n l g p none none none none none = .ok s ∧
      r.zones = s.zones ∧ r.edges = s.edges ∧
      r.nodes.map (fun nd => (nd.id, nd.kind, nd.zone, nd.name, nd.width)) =
        s.nodes.map (fun nd => (nd.id, nd.kind, nd.zone, nd.name, nd.width)) := by
  have hok := (buildFromParameters_ok_iff).1 ⟨r, h⟩
  obtain ⟨m, rfl⟩ := Int.eq_ofNat_of_zero_le hok.n_nonneg
  rw [buildFromParameters_eq hok] at h
  cases h
  refine ⟨rfl, ?_⟩
  have hsym : CityParamsOk (m : Int) l g p none none none none none :=
    ⟨hok.n_nonneg, hok.l_nonneg, hok.g_nonneg, hok.p_nonneg, Or.inl ⟨rfl, rfl⟩, by simp, by simp, by simp⟩
  refine ⟨_, buildFromParameters_eq hsym, rfl, rfl, ?_⟩
  simp only [cityNodes, List.map_map]
  apply List.map_congr_left
  intro j _
  simp only [Function.comp, nodeAt_id, nodeAt_kind, nodeAt_zone, nodeAt_width, Prod.mk.injEq, true_and, and_true]
  unfold nodeAt
  split
  · rfl
  · simp only; split <;> rfl

/-- **C13**, geometry: the radius and direction of every node in terms of the parameters. -/
theorem C13_positions {n : Int} {l g p : K} {etha : Option K} {ethaZone : Option Int}
    {angles gi hi : Option (List K)} {r : Graph K}
    (h : buildFromParameters n l g p etha ethaZone angles gi hi = .ok r) (i : Nat) (hi' : i < n.toNat) :
    ∃ pn sn, r.nodes[2 * i + 1]? = some pn ∧ r.nodes[2 * i + 2]? = some sn ∧
      pn.angle = sn.angle ∧
      (angles = none → pn.angle = 360 / (n : K) * (i : K)) ∧
      (∀ a, angles = some a → a[i]? = some pn.angle) ∧
      (gi = none → sn.radius = l) ∧ (∀ a, gi = some a → ∃ c, a[i]? = some c ∧ sn.radius = c * l) ∧
      (hi = none → pn.radius = l + g * l) ∧
      (∀ a, hi = some a → ∃ c, a[i]? = some c ∧ pn.radius = c * (l + g * l)) ∧
      (pn.x, pn.y) = getXY pn.radius pn.angle ∧ (sn.x, sn.y) = getXY sn.radius sn.angle := by
  have hok := (buildFromParameters_ok_iff).1 ⟨r, h⟩
  obtain ⟨m, rfl⟩ := Int.eq_ofNat_of_zero_le hok.n_nonneg
  rw [buildFromParameters_eq hok] at h
  cases h
  simp only [Int.toNat_natCast] at hi'
  refine ⟨nodeAt (docGeo m l g etha ethaZone angles gi hi) p (2 * i + 1), nodeAt (docGeo m l g etha ethaZone angles gi hi) p (2 * i + 2), ?_, ?_, ?_⟩
  · rw [getElem?_cityNodes, if_pos (by omega)]
  · rw [getElem?_cityNodes, if_pos (by omega)]
  rw [nodeAt_periphery, nodeAt_subcenter]
  have hlen : ∀ a : List K, (a.length : Int) = (m : Int) → i < a.length := by intro a ha; omega
  refine ⟨rfl, ?_, ?_, ?_, ?_, ?_, ?_, rfl, rfl⟩
  · rintro rfl; simp [docGeo]
  · rintro a rfl
    have := hlen a (hok.angles_ok a rfl).1
    simp [docGeo, this]
  · rintro rfl; simp [docGeo]
  · rintro a rfl
    have := hlen a (hok.gi_ok a rfl).1
    exact ⟨a[i], by simp [this], by simp [docGeo, this]⟩
  · rintro rfl; simp [docGeo]
  · rintro a rfl
    have := hlen a (hok.hi_ok a rfl).1
    exact ⟨a[i], by simp [this], by simp [docGeo, this]⟩

/-- **C13**, CBD: at the origin, or at the fraction `etha` of the radius of the subcentre of `ethaZone`, in its
direction. -/
theorem C13_cbd_position {n : Int} {l g p : K} {etha : Option K} {ethaZone : Option Int}
    {angles gi hi : Option (List K)} {r : Graph K}
    (h : buildFromParameters n l g p etha ethaZone angles gi hi = .ok r) :
    ∃ c, r.nodes[0]? = some c ∧ c.kind = .cbd ∧
      (etha = none → c.x = 0 ∧ c.y = 0 ∧ c.radius = 0) ∧
      (∀ e z, etha = some e → ethaZone = some z → ∃ sc, r.nodes[2 * z.toNat]? = some sc ∧
        sc.kind = .subcenter ∧ sc.zone = z ∧ c.radius = e * sc.radius ∧ c.angle = sc.angle ∧
        c.x = e * sc.x ∧ c.y = e * sc.y) := by
  have hok := (buildFromParameters_ok_iff).1 ⟨r, h⟩
  obtain ⟨m, rfl⟩ := Int.eq_ofNat_of_zero_le hok.n_nonneg
  rw [buildFromParameters_eq hok] at h
  cases h
  refine ⟨nodeAt (docGeo m l g etha ethaZone angles gi hi) p 0, by
    show (cityNodes _ p m)[0]? = _
    rw [getElem?_cityNodes, if_pos (by omega)], by rw [nodeAt_kind]; rfl, ?_, ?_⟩
  · rintro rfl; simp [nodeAt, docGeo]
  · rintro e z rfl rfl
    rcases hok.etha_ok with ⟨h1, _⟩ | ⟨e', z', he, hz, _, _, h3, h4⟩
    · cases h1
    · cases he; cases hz
      obtain ⟨k, hk⟩ : ∃ k : Nat, z = (k : Int) + 1 := ⟨(z - 1).toNat, by omega⟩
      subst hk
      have e1 : 2 * ((k : Int) + 1).toNat = 2 * k + 2 := by omega
      have e2 : ((k : Int) + 1 - 1).toNat = k := by omega
      rw [e1]
      refine ⟨nodeAt (docGeo m l g (some e) (some ((k : Int) + 1)) angles gi hi) p (2 * k + 2), by rw [getElem?_cityNodes, if_pos (by omega)], ?_⟩
      rw [nodeAt_subcenter]
      simp [nodeAt, docGeo, mul_assoc]

end Generic

section Streets

variable {K : Type}

/-! ## C09 - C11: edges -/

/-- Every parametric city is a well formed city with distinct ids: the hypotheses of C09-C11 and C14. -/
theorem parametric_city_well_formed [Field K] [LinearOrder K] [IsStrictOrderedRing K] [PyMath K]
    {n : Int} {l g p : K} {etha : Option K} {ethaZone : Option Int}
    {angles gi hi : Option (List K)} {r : Graph K}
    (h : buildFromParameters n l g p etha ethaZone angles gi hi = .ok r) :
    0 ≤ n ∧ CityShape r n.toNat ∧ DistinctIds r := buildFromParameters_shape h

/-- **C09.** `edge_exist` holds exactly for the documented streets. -/
theorem C09_edge_exist_iff_street {g : Graph K} {n : Nat} (hs : CityShape g n) (hd : DistinctIds g) :
    (∀ a ∈ g.nodes, ∀ b ∈ g.nodes, (g.edgeExist a.id b.id = true ↔ Street n a b)) ∧
    (∀ i j : Int, g.edgeExist i j = true → (∃ a ∈ g.nodes, a.id = i) ∧ (∃ b ∈ g.nodes, b.id = j)) :=
  ⟨fun _ ha _ hb => edgeExist_iff hs hd ha hb, fun _ _ h => edgeExist_nodes h⟩

/-- **C09**, consequences: the relation is symmetric, without loops, and never joins two peripheries or a periphery and
the CBD. -/
theorem C09_edge_relation {g : Graph K} {n : Nat} (hs : CityShape g n) (hd : DistinctIds g) :
    (∀ i j : Int, g.edgeExist i j = g.edgeExist j i) ∧ (∀ i : Int, g.edgeExist i i = false) ∧
    (∀ a ∈ g.nodes, ∀ b ∈ g.nodes, a.kind = .periphery → b.kind = .periphery → g.edgeExist a.id b.id = false) ∧
    (∀ a ∈ g.nodes, ∀ b ∈ g.nodes, a.kind = .periphery → b.kind = .cbd → g.edgeExist a.id b.id = false) := by
  have key : ∀ i j : Int, g.edgeExist i j = true → g.edgeExist j i = true := by
    intro i j h
    obtain ⟨⟨a, ha, rfl⟩, ⟨b, hb, rfl⟩⟩ := edgeExist_nodes h
    rw [edgeExist_iff hs hd ha hb] at h
    rw [edgeExist_iff hs hd hb ha]
    exact street_symm h
  refine ⟨fun i j => ?_, fun i => ?_, ?_, ?_⟩
  · rw [Bool.eq_iff_iff]; exact ⟨key i j, key j i⟩
  · rw [Bool.eq_false_iff]
    intro h
    obtain ⟨⟨a, ha, rfl⟩, _⟩ := edgeExist_nodes h
    rw [edgeExist_iff hs hd ha ha] at h
    exact street_irrefl h
  · intro a ha b hb h1 h2
    rw [Bool.eq_false_iff]
    intro h
    rw [edgeExist_iff hs hd ha hb] at h
    unfold Street at h
    rw [h1, h2] at h
    simp at h
  · intro a ha b hb h1 h2
    rw [Bool.eq_false_iff]
    intro h
    rw [edgeExist_iff hs hd ha hb] at h
    unfold Street at h
    rw [h1, h2] at h
    simp at h

/-- **C10.** No ordered pair of nodes occurs twice, ids are `1..m`, and `m` is 0, 4, 10 or `6n`. -/
theorem C10_edge_list {g : Graph K} {n : Nat} (hs : CityShape g n) :
    (g.edges.map fun e => (e.node1, e.node2)).Nodup ∧
    g.edges.map Edge.id = List.range' 1 g.edges.length ∧
    g.edges.length = (if n = 0 then 0 else if n = 1 then 4 else if n = 2 then 10 else 6 * n) ∧
    ∀ e ∈ g.edges, e.node1 < g.nodes.length ∧ e.node2 < g.nodes.length := by
  rw [hs.edges, hs.len]
  refine ⟨?_, ?_, ?_, ?_⟩
  · rw [cityEdges, numberEdges_map_pair]; exact nodup_edgePairs n
  · rw [cityEdges, numberEdges_map_id, length_numberEdges]
  · rw [cityEdges, length_numberEdges]; exact length_edgePairs n
  · intro e he
    have := (mem_cityEdges_iff (n := n) (a := e.node1) (b := e.node2)).1 ⟨e, he, rfl, rfl⟩
    exact this.lt

/-- **C11.** There is a path of edges between any two nodes (also for `n = 0`, where there is only one node). -/
theorem C11_strongly_connected {g : Graph K} {n : Nat} (hs : CityShape g n) (hd : DistinctIds g) {a b : Node K}
    (ha : a ∈ g.nodes) (hb : b ∈ g.nodes) :
    Relation.ReflTransGen (fun i j : Int => g.edgeExist i j = true) a.id b.id := by
  have hsym : ∀ i j : Int, Relation.ReflTransGen (fun i j : Int => g.edgeExist i j = true) i j →
      Relation.ReflTransGen (fun i j : Int => g.edgeExist i j = true) j i := by
    intro i j h
    induction h with
    | refl => exact .refl
    | tail _ h1 ih =>
      refine Relation.ReflTransGen.head ?_ ih
      have := (C09_edge_relation hs hd).1
      rw [this]; exact h1
  have h0 : 0 < g.nodes.length := by rw [hs.len]; omega
  -- every node reaches the CBD
  have hc : ∀ x ∈ g.nodes,
      Relation.ReflTransGen (fun i j : Int => g.edgeExist i j = true) x.id g.nodes[0].id := by
    intro x hx
    obtain ⟨i, hi, rfl⟩ := List.mem_iff_getElem.1 hx
    have hi' := hi
    rw [hs.len] at hi'
    have hk : ∀ j (hj : j < g.nodes.length), g.nodes[j].kind = kindAt j ∧ g.nodes[j].zone = zoneAt j :=
      fun j hj => ⟨hs.kind j _ (List.getElem?_eq_getElem hj), hs.zone j _ (List.getElem?_eq_getElem hj)⟩
    have step : ∀ j k (hj : j < g.nodes.length) (hk' : k < g.nodes.length), StreetIdx n j k →
        g.edgeExist g.nodes[j].id g.nodes[k].id = true := by
      intro j k hj hk' h
      rw [edgeExist_iff hs hd (List.getElem_mem hj) (List.getElem_mem hk')]
      have hj2 := hj; have hk2 := hk'
      rw [hs.len] at hj2 hk2
      exact (street_iff_idx hj2 hk2 _ _ (hk j hj).1 (hk j hj).2 (hk k hk').1 (hk k hk').2).2 h
    by_cases hz : i = 0
    · subst hz; exact .refl
    · by_cases hodd : i % 2 = 1
      · have hlt : i + 1 < g.nodes.length := by rw [hs.len]; omega
        refine .head (step i (i + 1) hi hlt ?_) (.single (step (i + 1) 0 hlt h0 ?_))
        · exact Or.inl ⟨(i - 1) / 2, by omega, by omega⟩
        · exact Or.inl ⟨(i - 1) / 2, by omega, by omega⟩
      · refine .single (step i 0 hi h0 ?_)
        exact Or.inl ⟨(i - 1) / 2, by omega, by omega⟩
  exact (hc a ha).trans (hsym _ _ (hc b hb))

/-- **C11**, quantitative: in fact at most four edges are needed, going through the CBD. -/
theorem C11_within_four_edges {g : Graph K} {n : Nat} (hs : CityShape g n) (hd : DistinctIds g) {a b : Node K}
    (ha : a ∈ g.nodes) (hb : b ∈ g.nodes) :
    ∃ path : List Int, path.head? = some a.id ∧ path.getLast? = some b.id ∧ path.length ≤ 5 ∧
      ∀ pr ∈ pairs path, g.edgeExist pr.1 pr.2 = true := by
  have h0 : 0 < g.nodes.length := by rw [hs.len]; omega
  have hk : ∀ j (hj : j < g.nodes.length), g.nodes[j].kind = kindAt j ∧ g.nodes[j].zone = zoneAt j :=
    fun j hj => ⟨hs.kind j _ (List.getElem?_eq_getElem hj), hs.zone j _ (List.getElem?_eq_getElem hj)⟩
  have step : ∀ j k (hj : j < g.nodes.length) (hk' : k < g.nodes.length), StreetIdx n j k →
      g.edgeExist g.nodes[j].id g.nodes[k].id = true := by
    intro j k hj hk' h
    rw [edgeExist_iff hs hd (List.getElem_mem hj) (List.getElem_mem hk')]
    have hj2 := hj; have hk2 := hk'
    rw [hs.len] at hj2 hk2
    exact (street_iff_idx hj2 hk2 _ _ (hk j hj).1 (hk j hj).2 (hk k hk').1 (hk k hk').2).2 h
  have hsym := (C09_edge_relation hs hd).1
  obtain ⟨i, hi, rfl⟩ := List.mem_iff_getElem.1 ha
  obtain ⟨j, hj, rfl⟩ := List.mem_iff_getElem.1 hb
  have hi' := hi; have hj' := hj
  rw [hs.len] at hi' hj'
  -- way to the CBD, as a list not containing the CBD
  have up : ∀ i (hi : i < g.nodes.length), ∃ l : List Int, l.length ≤ 2 ∧
      (l ++ [g.nodes[0].id]).head? = some g.nodes[i].id ∧
      ∀ pr ∈ pairs (l ++ [g.nodes[0].id]), g.edgeExist pr.1 pr.2 = true := by
    intro i hi
    have hi' := hi
    rw [hs.len] at hi'
    by_cases hz : i = 0
    · subst hz; exact ⟨[], by simp, by simp, by simp [pairs]⟩
    · by_cases hodd : i % 2 = 1
      · have hlt : i + 1 < g.nodes.length := by rw [hs.len]; omega
        refine ⟨[g.nodes[i].id, g.nodes[i + 1].id], by simp, by simp, ?_⟩
        intro pr hpr
        simp only [List.cons_append, List.nil_append, pairs, List.mem_cons, List.not_mem_nil, or_false] at hpr
        rcases hpr with rfl | rfl
        · exact step i (i + 1) hi hlt (Or.inl ⟨(i - 1) / 2, by omega, by omega⟩)
        · exact step (i + 1) 0 hlt h0 (Or.inl ⟨(i - 1) / 2, by omega, by omega⟩)
      · refine ⟨[g.nodes[i].id], by simp, by simp, ?_⟩
        intro pr hpr
        simp only [List.cons_append, List.nil_append, pairs, List.mem_cons, List.not_mem_nil, or_false] at hpr
        subst hpr
        exact step i 0 hi h0 (Or.inl ⟨(i - 1) / 2, by omega, by omega⟩)
  obtain ⟨l1, hl1, hh1, hp1⟩ := up i hi
  obtain ⟨l2, hl2, hh2, hp2⟩ := up j hj
  have glue : ∀ (l : List Int) (c : Int) (r : List Int), pairs (l ++ c :: r) = pairs (l ++ [c]) ++ pairs (c :: r) := by
    intro l c r
    induction l with
    | nil => simp [pairs]
    | cons x t ih =>
      cases t with
      | nil => simp [pairs]
      | cons y t' => simp only [List.cons_append, pairs] at ih ⊢; rw [ih]
  have rev : ∀ l : List Int, pairs l.reverse = (pairs l).reverse.map Prod.swap := by
    intro l
    induction l with
    | nil => rfl
    | cons x t ih =>
      cases t with
      | nil => rfl
      | cons y t' =>
        have : (x :: y :: t').reverse = t'.reverse ++ y :: [x] := by simp
        rw [this, glue]
        have h2 : t'.reverse ++ [y] = (y :: t').reverse := by simp
        rw [h2, ih]
        simp [pairs, Prod.swap]
  refine ⟨l1 ++ g.nodes[0].id :: l2.reverse, ?_, ?_, ?_, ?_⟩
  · cases l1 with
    | nil => simpa using hh1
    | cons x t => simpa using hh1
  · have h3 : (l2 ++ [g.nodes[0].id]).reverse = g.nodes[0].id :: l2.reverse := by simp
    rw [List.getLast?_append, ← h3, List.getLast?_reverse, hh2]
    rfl
  · simp; omega
  · intro pr hpr
    rw [glue, List.mem_append] at hpr
    rcases hpr with h | h
    · exact hp1 pr h
    · have h3 : g.nodes[0].id :: l2.reverse = (l2 ++ [g.nodes[0].id]).reverse := by simp
      rw [h3, rev] at h
      simp only [List.mem_map, List.mem_reverse] at h
      obtain ⟨q, hq, rfl⟩ := h
      have := hp2 q hq
      rw [hsym]; exact this

end Streets

/-! ## C14: distances -/

/-- **C14.** The table contains exactly the streets, each with the Euclidean distance of its ends. -/
theorem C14_edge_distances {g : Graph ℝ} {n : Nat} (hs : CityShape g n) (hd : DistinctIds g) :
    (∀ a ∈ g.nodes, ∀ b ∈ g.nodes, ∀ v, lookup2 g.edgesDistance a.id b.id = some v ↔
      Street n a b ∧ v = Real.sqrt ((a.x - b.x) ^ 2 + (a.y - b.y) ^ 2)) ∧
    (∀ (i j : Int) (v : ℝ), lookup2 g.edgesDistance i j = some v →
      0 ≤ v ∧ lookup2 g.edgesDistance j i = some v ∧
      (∃ a ∈ g.nodes, a.id = i) ∧ (∃ b ∈ g.nodes, b.id = j)) := by
  refine ⟨fun a ha b hb v => edgesDistance_iff hs hd ha hb v, ?_⟩
  intro i j v h
  obtain ⟨⟨a, ha, rfl⟩, ⟨b, hb, rfl⟩⟩ := edgesDistance_nodes hd h
  have h' := (edgesDistance_iff hs hd ha hb v).1 h
  refine ⟨?_, ?_, ⟨a, ha, rfl⟩, ⟨b, hb, rfl⟩⟩
  · rw [h'.2]; exact Real.sqrt_nonneg _
  · rw [edgesDistance_iff hs hd hb ha v]
    refine ⟨street_symm h'.1, ?_⟩
    rw [h'.2]
    unfold nodeDistance
    congr 1
    ring

/-- **C14**, keys: a missing table entry means there is no street (the code's `defaultdict` then reads 0). -/
theorem C14_missing_entry {g : Graph ℝ} {n : Nat} (hs : CityShape g n) (hd : DistinctIds g) {a b : Node ℝ}
    (ha : a ∈ g.nodes) (hb : b ∈ g.nodes) :
    lookup2 g.edgesDistance a.id b.id = none ↔ g.edgeExist a.id b.id = false := by
  rw [Bool.eq_false_iff, ne_eq, edgeExist_iff hs hd ha hb]
  constructor
  · intro h hst
    have := (edgesDistance_iff hs hd ha hb _).2 ⟨hst, rfl⟩
    rw [h] at this; cases this
  · intro h
    cases hl : lookup2 g.edgesDistance a.id b.id with
    | none => rfl
    | some v => exact absurd ((edgesDistance_iff hs hd ha hb v).1 hl).1 h

/-! ## C15: polar coordinates -/

/-- **C15.** The two conversions are inverse to each other and the angle is always in `[0, 360)`. -/
theorem C15_polar_round_trip :
    (∀ r θ : ℝ, 0 < r → 0 ≤ θ → θ < 360 → getAngle (getXY r θ).1 (getXY r θ).2 = .ok θ) ∧
    (∀ x y : ℝ, ∃ a, getAngle x y = .ok a ∧ 0 ≤ a ∧ a < 360 ∧
      getXY (Real.sqrt (x ^ 2 + y ^ 2)) a = (x, y)) := by
  refine ⟨fun r θ hr h0 h1 => getAngle_getXY r θ hr h0 h1, fun x y => ?_⟩
  obtain ⟨a, ha, h0, h1⟩ := getAngle_range x y
  exact ⟨a, ha, h0, h1, getXY_getAngle x y a ha⟩

/-! ## Examples: the hypotheses are met by concrete cities -/

section Examples
attribute [local instance] ratMath

/-- The city of the test-suite (`n = 2, l = 10, g = 0.5, p = 2`): 5 nodes, 10 edges, distances 5 and 10. -/
example : (buildFromParameters (K := ℚ) 2 10 (1/2) 2 none none none none none).toOption.map
    (fun g => (g.nodes.map Node.id, g.edges.length, g.edgeExist 2 4, g.edgeExist 1 3)) =
    some ([0, 1, 2, 3, 4], 10, true, false) := by decide +kernel

example : (buildFromParameters (K := ℚ) 2 10 (1/2) 2 none none none none none).toOption.map
    (fun g => [lookup2 g.edgesDistance 1 2, lookup2 g.edgesDistance 2 0, lookup2 g.edgesDistance 1 3]) =
    some [some 5, some 10, none] := by decide +kernel

/-- An asymmetric city with four zones and a displaced CBD. -/
example : (buildFromParameters (K := ℚ) 4 10 (1/2) 2 (some (1/2)) (some 2) (some [0, 90, 180, 270])
    (some [1, 2, 1, 1]) (some [1, 1, 1, 2])).toOption.map
    (fun g => g.nodes.map fun nd => (nd.x, nd.y)) =
    some [(0, 10), (15, 0), (10, 0), (0, 15), (0, 20), (-15, 0), (-10, 0), (0, -30), (0, -10)] := by decide +kernel

/-- parameters that are accepted, and some that are not -/
example : CityParamsOk (K := ℚ) 2 10 (1/2) 2 (some (1/2)) (some 2) (some [0, 180]) none none :=
  (parametersValidator_iff _ _ _ _ _ _ _ _ _ ()).1 (by decide +kernel)

example : parametersValidator (K := ℚ) 2 10 (1/2) 2 (some (1/2)) (some 3) none none none =
    .error .EthaZoneValueIsNotValid := by decide +kernel
example : parametersValidator (K := ℚ) 2 10 (1/2) 2 none none (some [0, 361]) none none =
    .error .AngleValueIsNotValid := by decide +kernel

/-- well formed cities exist for every `n` (over the reals) -/
example (n : Nat) : ∃ g : Graph ℝ, CityShape g n ∧ DistinctIds g := by
  have h : CityParamsOk (K := ℝ) (n : Int) 10 (1/2) 2 none none none none none :=
    ⟨by omega, by norm_num, by norm_num, by norm_num, Or.inl ⟨rfl, rfl⟩, by simp, by simp, by simp⟩
  have := buildFromParameters_shape (buildFromParameters_eq h)
  exact ⟨_, by simpa using this.2⟩

end Examples

end Sidermit
