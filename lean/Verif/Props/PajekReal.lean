import Verif.Props.Pajek
import Verif.Props.City
import Verif.Proofs.PajekReal

/-!
# Export and import of the cities built from parameters (C16), over the real numbers
-/

set_option linter.unusedSectionVars false

namespace Sidermit

section Turned

theorem subcenters_turned (ns : List (Node ℝ)) : subcentersOf (ns.map turned) = (subcentersOf ns).map turned := by
  unfold subcentersOf; rw [List.filter_map]; rfl

theorem peripheries_turned (ns : List (Node ℝ)) : peripheriesOf (ns.map turned) = (peripheriesOf ns).map turned := by
  unfold peripheriesOf; rw [List.filter_map]; rfl

theorem radii_turned (ns : List (Node ℝ)) : (ns.map turned).map Node.radius = ns.map Node.radius := by
  rw [List.map_map]; rfl

theorem meanSc_turned (ns : List (Node ℝ)) : meanSc (ns.map turned) = meanSc ns := by
  unfold meanSc; rw [subcenters_turned, radii_turned, List.length_map]

theorem meanP_turned (ns : List (Node ℝ)) : meanP (ns.map turned) = meanP ns := by
  unfold meanP; rw [peripheries_turned, radii_turned, List.length_map]

end Turned

variable [NumText ℝ]

/-- **C16**, cities from parameters.  The export of a city with at most 4999 zones whose numbers read back is accepted exactly
when its nodes can be described by parameters, and the result has the same nodes: ids, names, coordinates, types, zones,
widths and radii; the directions too, except that 360 degrees, and any direction of a node at the origin, become 0. -/
theorem C16_parameters {n : Int} {l g p : ℝ} {etha : Option ℝ} {ethaZone : Option Int} {angles gi hi : Option (List ℝ)}
    {r : Graph ℝ} (h : buildFromParameters n l g p etha ethaZone angles gi hi = .ok r)
    (hxy : ∀ nd ∈ r.nodes, ReadsBack nd.x ∧ ReadsBack nd.y) (hp : ReadsBack p) (g' : Graph ℝ) :
    buildFromContent r.exportPajek = .ok g' ↔
      n ≤ 4999 ∧ Describable (r.nodes.map turned) ∧ g' = describedCity (r.nodes.map turned) n.toNat := by
  obtain ⟨hn0, hs, hd⟩ := buildFromParameters_shape h
  have hnode := params_node h
  have hw : ∀ nd ∈ r.nodes, Writable nd := fun nd hnd =>
    ⟨(hnode nd hnd).2.2.2, (hxy nd hnd).1, (hxy nd hnd).2, by rw [(hnode nd hnd).2.2.1]; exact hp⟩
  rw [C16_round_trip hs hw]
  have hf : ∀ ns, List.Forall₂ Remeasured r.nodes ns ↔ ns = r.nodes.map turned := by
    intro ns
    have : ∀ (l ns : List (Node ℝ)), (∀ nd ∈ l, nd ∈ r.nodes) → (List.Forall₂ Remeasured l ns ↔ ns = l.map turned) := by
      intro l
      induction l with
      | nil => intro ns _; simp
      | cons a t ih =>
        intro ns hm
        have ha := hnode a (hm a List.mem_cons_self)
        rw [List.forall₂_cons_left_iff]
        constructor
        · rintro ⟨b, u, h1, h2, rfl⟩
          rw [remeasured_iff ha.1 ha.2.1] at h1
          rw [ih u fun nd hnd => hm nd (List.mem_cons_of_mem _ hnd)] at h2
          rw [h1, h2]; rfl
        · rintro rfl
          exact ⟨turned a, t.map turned, (remeasured_iff ha.1 ha.2.1).2 rfl,
            (ih _ fun nd hnd => hm nd (List.mem_cons_of_mem _ hnd)).2 rfl, rfl⟩
    exact this r.nodes ns fun nd hnd => hnd
  constructor
  · rintro ⟨h1, ns, h2, _, _, h5, h6⟩
    rw [hf] at h2
    subst h2
    exact ⟨by omega, h5, h6⟩
  · rintro ⟨h1, h5, h6⟩
    refine ⟨by omega, _, (hf _).2 rfl, ?_, ?_, h5, h6⟩
    · intro nd hnd
      obtain ⟨a, ha, rfl⟩ := List.mem_map.1 hnd
      exact turned_ok (hnode a ha).2.1
    · apply idsAcrossZones_of_distinct
      rw [List.map_map]
      exact hd

omit [NumText ℝ] in
/-- the subcentres and peripheries of a city are as many as its zones -/
theorem lengths_city {ns : List (Node ℝ)} {n : Nat} (ho : CityOrder ns n) :
    (subcentersOf ns).length = n ∧ (peripheriesOf ns).length = n := by
  obtain ⟨at', rfl, hat⟩ := ho.exists_at
  obtain ⟨_, f2, f3⟩ := filters_at hat
  rw [f2, f3]; simp

omit [NumText ℝ] in
theorem cityOrder_of_shape {g : Graph ℝ} {n : Nat} (h : CityShape g n) : CityOrder g.nodes n := ⟨h.len, h.kind, h.zone⟩

omit [NumText ℝ] in
theorem centerOf_city {ns : List (Node ℝ)} {n : Nat} (ho : CityOrder ns n) {c : Node ℝ} (hc : ns[0]? = some c) :
    centerOf ns = (c.radius, c.angle) := by
  obtain ⟨at', hns, hat⟩ := ho.exists_at
  rw [(foundAt_eq hns hat).1]
  have : ns[0]? = some (at' 0) := by rw [hns]; simp
  rw [this] at hc
  cases hc
  rfl

omit [NumText ℝ] in
/-- radii that are not negative, positive when there is one: the mean is positive -/
theorem meanSc_pos {ns : List (Node ℝ)} (h0 : ∀ sc ∈ subcentersOf ns, 0 ≤ sc.radius)
    (h1 : ∀ sc ∈ subcentersOf ns, sc.radius ≠ 0) (hne : subcentersOf ns ≠ []) : 0 < meanSc ns := by
  unfold meanSc
  apply div_pos
  · have key : ∀ l : List (Node ℝ), (∀ sc ∈ l, 0 < sc.radius) → l ≠ [] → 0 < (l.map Node.radius).sum := by
      intro l
      induction l with
      | nil => intro _ h; exact absurd rfl h
      | cons a t ih =>
        intro h _
        rw [List.map_cons, List.sum_cons]
        have ha := h a List.mem_cons_self
        by_cases ht : t = []
        · subst ht; simpa using ha
        · have := ih (fun sc hsc => h sc (List.mem_cons_of_mem _ hsc)) ht
          linarith
    exact key _ (fun sc hsc => lt_of_le_of_ne (h0 sc hsc) (Ne.symm (h1 sc hsc))) hne
  · exact_mod_cast List.length_pos_iff.2 hne

/-- **C16**, centred cities: without displacement of the CBD the export is accepted exactly when there are at most 4999 zones,
no subcentre is at the origin and the peripheries are, on average, at least as far as the subcentres. -/
theorem C16_centred {n : Int} {l g p : ℝ} {angles gi hi : Option (List ℝ)}
    {r : Graph ℝ} (h : buildFromParameters n l g p none none angles gi hi = .ok r)
    (hxy : ∀ nd ∈ r.nodes, ReadsBack nd.x ∧ ReadsBack nd.y) (hp : ReadsBack p) :
    (∃ g' : Graph ℝ, buildFromContent r.exportPajek = .ok g') ↔
      n ≤ 4999 ∧ (∀ sc ∈ r.nodes, sc.kind = .subcenter → sc.radius ≠ 0) ∧
      ((subcentersOf r.nodes).map Node.radius).sum ≤ ((peripheriesOf r.nodes).map Node.radius).sum := by
  obtain ⟨hn0, hs, hd⟩ := buildFromParameters_shape h
  have hnode := params_node h
  have ho := cityOrder_of_shape hs
  have hot : CityOrder (r.nodes.map turned) n.toNat := by
    refine ⟨by rw [List.length_map, ho.len], ?_, ?_⟩ <;>
    · intro j nd hj
      rw [List.getElem?_map, Option.map_eq_some_iff] at hj
      obtain ⟨a, ha, rfl⟩ := hj
      first | exact ho.kind j a ha | exact ho.zone j a ha
  obtain ⟨hl1, hl2⟩ := lengths_city ho
  have hc : centerOf (r.nodes.map turned) = (0, 0) := by
    obtain ⟨c, hc0, _, hc1, _⟩ := C13_cbd_position h
    obtain ⟨_, _, hcr⟩ := hc1 rfl
    have : (r.nodes.map turned)[0]? = some (turned c) := by rw [List.getElem?_map, hc0]; rfl
    rw [centerOf_city hot this]
    simp [turned, hcr]
  have hdesc : Describable (r.nodes.map turned) ↔ (∀ sc ∈ r.nodes, sc.kind = .subcenter → sc.radius ≠ 0) ∧
      ((subcentersOf r.nodes).map Node.radius).sum ≤ ((peripheriesOf r.nodes).map Node.radius).sum := by
    have hmean : meanSc r.nodes ≤ meanP r.nodes ↔
        ((subcentersOf r.nodes).map Node.radius).sum ≤ ((peripheriesOf r.nodes).map Node.radius).sum := by
      unfold meanSc meanP
      rw [hl1, hl2]
      by_cases h0 : n.toNat = 0
      · have e1 : subcentersOf r.nodes = [] := List.length_eq_zero_iff.1 (by omega)
        have e2 : peripheriesOf r.nodes = [] := List.length_eq_zero_iff.1 (by omega)
        rw [e1, e2]; simp
      · exact div_le_div_iff_of_pos_right (by exact_mod_cast Nat.pos_of_ne_zero h0)
    have hmem : ∀ sc, sc ∈ subcentersOf r.nodes ↔ sc ∈ r.nodes ∧ sc.kind = .subcenter := by
      intro sc; unfold subcentersOf; rw [List.mem_filter]; simp
    constructor
    · intro hD
      refine ⟨?_, hmean.1 (by have := hD.outside; rwa [meanSc_turned, meanP_turned] at this)⟩
      intro sc hsc hk h0
      refine hD.aligned (turned sc) ?_ ?_ h0
      · rw [subcenters_turned]; exact List.mem_map_of_mem ((hmem sc).2 ⟨hsc, hk⟩)
      · unfold Aligned; rw [hc]; simp only [turned, h0, true_or, if_true]; norm_num
    · rintro ⟨h1, h2⟩
      refine ⟨?_, ?_, ?_, ?_⟩
      · intro hne
        rw [meanSc_turned]
        apply meanSc_pos
        · intro sc hsc; exact (hnode sc ((hmem sc).1 hsc).1).2.1.radius
        · intro sc hsc; exact h1 sc ((hmem sc).1 hsc).1 ((hmem sc).1 hsc).2
        · rw [subcenters_turned] at hne
          intro hnil; rw [hnil] at hne; exact hne rfl
      · rw [meanSc_turned, meanP_turned]; exact hmean.2 h2
      · intro sc hsc _
        rw [subcenters_turned] at hsc
        obtain ⟨a, ha, rfl⟩ := List.mem_map.1 hsc
        exact h1 a ((hmem a).1 ha).1 ((hmem a).1 ha).2
      · intro sc hsc
        rw [hc]
        have := (towards_mem hsc).1
        rw [subcenters_turned] at this
        obtain ⟨a, ha, rfl⟩ := List.mem_map.1 this
        exact (hnode a ((hmem a).1 ha).1).2.1.radius
  constructor
  · rintro ⟨g', hg'⟩
    obtain ⟨h1, h2, _⟩ := (C16_parameters h hxy hp g').1 hg'
    exact ⟨h1, hdesc.1 h2⟩
  · rintro ⟨h1, h2⟩
    exact ⟨_, (C16_parameters h hxy hp _).2 ⟨h1, hdesc.2 h2, rfl⟩⟩

/-- **C16**, displaced CBD: accepted with at most 4999 zones, no subcentre at the origin, the peripheries on average at least as
far as the subcentres, and no other subcentre in the direction of the zone the CBD moves to (up to a thousandth of a degree). -/
theorem C16_displaced {n : Int} {l g p e : ℝ} {z : Int} {angles gi hi : Option (List ℝ)}
    {r : Graph ℝ} (h : buildFromParameters n l g p (some e) (some z) angles gi hi = .ok r)
    (hxy : ∀ nd ∈ r.nodes, ReadsBack nd.x ∧ ReadsBack nd.y) (hp : ReadsBack p) (hn : n ≤ 4999)
    (hr : ∀ sc ∈ r.nodes, sc.kind = .subcenter → sc.radius ≠ 0)
    (hsum : ((subcentersOf r.nodes).map Node.radius).sum ≤ ((peripheriesOf r.nodes).map Node.radius).sum)
    (hdir : ∀ sc ∈ r.nodes, ∀ sc' ∈ r.nodes, sc.kind = .subcenter → sc'.kind = .subcenter → sc.zone = z → sc'.zone ≠ z →
      1 / 1000 < |(turned sc).angle - (turned sc').angle|) :
    ∃ g' : Graph ℝ, buildFromContent r.exportPajek = .ok g' := by
  obtain ⟨hn0, hs, hd⟩ := buildFromParameters_shape h
  have hnode := params_node h
  have ho := cityOrder_of_shape hs
  have hot : CityOrder (r.nodes.map turned) n.toNat := by
    refine ⟨by rw [List.length_map, ho.len], ?_, ?_⟩ <;>
    · intro j nd hj
      rw [List.getElem?_map, Option.map_eq_some_iff] at hj
      obtain ⟨a, ha, rfl⟩ := hj
      first | exact ho.kind j a ha | exact ho.zone j a ha
  obtain ⟨hl1, hl2⟩ := lengths_city ho
  have hmem : ∀ sc, sc ∈ subcentersOf r.nodes ↔ sc ∈ r.nodes ∧ sc.kind = .subcenter := by
    intro sc; unfold subcentersOf; rw [List.mem_filter]; simp
  have hmean : meanSc r.nodes ≤ meanP r.nodes := by
    unfold meanSc meanP
    rw [hl1, hl2]
    exact div_le_div_of_nonneg_right hsum (Nat.cast_nonneg _)
  obtain ⟨c, hc0, _, _, hc1⟩ := C13_cbd_position h
  obtain ⟨s0, hs0, hs0k, hs0z, hcr, hca, _, _⟩ := hc1 e z rfl rfl
  have hs0m : s0 ∈ r.nodes := List.mem_of_getElem? hs0
  have hc : centerOf (r.nodes.map turned) = ((turned c).radius, (turned c).angle) := by
    apply centerOf_city hot
    rw [List.getElem?_map, hc0]; rfl
  have hok := (buildFromParameters_ok_iff).1 ⟨r, h⟩
  have he : 0 ≤ e ∧ e ≤ 1 := by
    rcases hok.etha_ok with ⟨h1, _⟩ | ⟨e', z', h1, _, h3, h4, _⟩
    · cases h1
    · cases h1; exact ⟨h3, h4⟩
  refine ⟨_, (C16_parameters h hxy hp _).2 ⟨hn, ⟨?_, ?_, ?_, ?_⟩, rfl⟩⟩
  · intro hne
    rw [meanSc_turned]
    apply meanSc_pos
    · intro sc hsc; exact (hnode sc ((hmem sc).1 hsc).1).2.1.radius
    · intro sc hsc; exact hr sc ((hmem sc).1 hsc).1 ((hmem sc).1 hsc).2
    · rw [subcenters_turned] at hne
      intro hnil; rw [hnil] at hne; exact hne rfl
  · rw [meanSc_turned, meanP_turned]; exact hmean
  · intro sc hsc _
    rw [subcenters_turned] at hsc
    obtain ⟨a, ha, rfl⟩ := List.mem_map.1 hsc
    exact hr a ((hmem a).1 ha).1 ((hmem a).1 ha).2
  · intro sc hsc
    obtain ⟨h1, h2⟩ := towards_mem hsc
    rw [subcenters_turned] at h1
    obtain ⟨a, ha, rfl⟩ := List.mem_map.1 h1
    obtain ⟨ham, hak⟩ := (hmem a).1 ha
    have hanon := (hnode a ham).2.1.radius
    have hs0r := (hnode s0 hs0m).2.1.radius
    rw [hc]
    show c.radius ≤ a.radius
    rw [hcr]
    by_cases he0 : e = 0
    · rw [he0, zero_mul]; exact hanon
    · have hang : (turned c).angle = (turned s0).angle := by
        simp only [turned, hcr, hca, mul_eq_zero, he0, false_or]
      have haz : a.zone = z := by
        by_contra hne
        have := hdir s0 hs0m a ham hs0k hak hs0z hne
        unfold Aligned at h2
        rw [hc, hang] at h2
        simp only at h2
        rw [lt_abs] at this
        rcases this with this | this <;> linarith [h2.1, h2.2]
      have hsame : a = s0 := by
        obtain ⟨j, hj, rfl⟩ := List.mem_iff_getElem.1 ham
        have k1 := hs.kind j _ (List.getElem?_eq_getElem hj)
        have z1 := hs.zone j _ (List.getElem?_eq_getElem hj)
        have k2 := hs.kind _ _ hs0
        have z2 := hs.zone _ _ hs0
        rw [hak] at k1
        rw [haz, ← hs0z, z2] at z1
        rw [hs0k, k1] at k2
        have : j = 2 * z.toNat := (kindAt_zoneAt_inj k2 z1.symm)
        rw [← this, List.getElem?_eq_getElem hj] at hs0
        exact Option.some.inj hs0
      rw [hsame]
      nlinarith [he.2, hs0r]

end Sidermit
