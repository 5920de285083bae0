import Verif.Props.PajekReal

/-!
# The parameters of an imported city (C62)
-/

set_option linter.unusedSectionVars false

namespace Sidermit

section Generic

variable {K : Type} [Field K] [LinearOrder K] [IsStrictOrderedRing K] [PyMath K] [NumText K]

theorem getElem_zone {ns : List (Node K)} {n : Nat} (ho : CityOrder ns n) :
    ∃ at' : Nat → Node K, ns = (List.range (2 * n + 1)).map at' ∧ ns[0]? = some (at' 0) ∧
      (∀ i, i < n → ns[2 * i + 1]? = some (at' (2 * i + 1)) ∧ ns[2 * i + 2]? = some (at' (2 * i + 2))) ∧
      peripheriesOf ns = (List.range n).map (fun i => at' (2 * i + 1)) ∧
      subcentersOf ns = (List.range n).map (fun i => at' (2 * i + 2)) ∧
      centerOf ns = ((at' 0).radius, (at' 0).angle) ∧
      (∀ j, j < 2 * n + 1 → (at' j).kind = kindAt j ∧ (at' j).zone = zoneAt j) := by
  obtain ⟨at', hns, hat⟩ := ho.exists_at
  obtain ⟨_, f2, f3⟩ := filters_at hat
  have hget : ∀ j, j < 2 * n + 1 → ns[j]? = some (at' j) := by
    intro j hj
    rw [hns, List.getElem?_map, List.getElem?_range hj]; rfl
  exact ⟨at', hns, hget 0 (by omega), fun i hi => ⟨hget _ (by omega), hget _ (by omega)⟩, by rw [hns]; exact f2,
    by rw [hns]; exact f3, (foundAt_eq hns hat).1, hat⟩

/-- **C62.** The parameters of an imported city are accepted by the construction from parameters, and give back the radius
of every node and the direction of every subcentre: the factors multiply the mean distances, and their mean is 1.  The
peripheries take the direction of their subcentre; the CBD keeps its radius, in the direction of the subcentre that it was
found to lie towards, and is at the origin without one. -/
theorem C62_rebuild {data : Str} {g : Graph K} (h : buildFromContent data = .ok g) (hne : g.nodes ≠ []) :
    ∃ (n : Nat) (l gg p : K) (gi hi : List K) (r : Graph K),
      g.n = some (n : Int) ∧ g.l = some l ∧ g.g = some gg ∧ g.p = some p ∧ g.gi = some gi ∧ g.hi = some hi ∧
      gi.sum = n ∧ hi.sum = n ∧
      buildFromParameters n l gg p g.etha g.ethaZone g.angles (some gi) (some hi) = .ok r ∧
      (∀ i, i < n → ∃ P S P' S', g.nodes[2 * i + 1]? = some P ∧ g.nodes[2 * i + 2]? = some S ∧
        r.nodes[2 * i + 1]? = some P' ∧ r.nodes[2 * i + 2]? = some S' ∧
        P'.radius = P.radius ∧ S'.radius = S.radius ∧ S'.angle = S.angle ∧ P'.angle = S.angle) ∧
      (∃ c c', g.nodes[0]? = some c ∧ r.nodes[0]? = some c' ∧
        (g.etha = none → c'.radius = 0) ∧
        (∀ e z, g.etha = some e → g.ethaZone = some z → c'.radius = c.radius ∧
          ∃ S, g.nodes[2 * z.toNat]? = some S ∧ S.kind = .subcenter ∧ c'.angle = S.angle ∧
            c.angle - 1 / 1000 ≤ S.angle ∧ S.angle ≤ c.angle + 1 / 1000)) := by
  obtain ⟨rows, hr⟩ := buildFromContent_rows h
  obtain ⟨n, ns, rows', h1, h2, h3, h4, h5, h6, h7, rfl⟩ := (C17_exact hr g).1 ⟨h, hne⟩
  obtain ⟨at', hns, hz0, hzi, hP, hS, hcen, hat⟩ := getElem_zone h5
  have hin : ∀ i, i < n → at' (2 * i + 2) ∈ ns ∧ at' (2 * i + 1) ∈ ns := fun i hi =>
    ⟨List.mem_of_getElem? (hzi i hi).2, List.mem_of_getElem? (hzi i hi).1⟩
  have hlS : (subcentersOf ns).length = n := by rw [hS]; simp
  have hlP : (peripheriesOf ns).length = n := by rw [hP]; simp
  have hpos : 0 < n → 0 < meanSc ns ∧ 0 < meanP ns := by
    intro hn
    have := h7.away (by intro hnil; rw [hnil] at hlS; simp at hlS; omega)
    exact ⟨this, lt_of_lt_of_le this h7.outside⟩
  have hz : n = 0 → meanSc ns = 0 ∧ meanP ns = 0 := by
    rintro rfl
    unfold meanSc meanP
    rw [hS, hP]; simp
  have hlg : meanSc ns + (meanP ns - meanSc ns) / meanSc ns * meanSc ns = meanP ns := by
    rcases Nat.eq_zero_or_pos n with h0 | h0
    · rw [(hz h0).1, (hz h0).2]; simp
    · rw [div_mul_cancel₀ _ (ne_of_gt (hpos h0).1)]; ring
  have hm0 : 0 ≤ meanSc ns := by
    rcases Nat.eq_zero_or_pos n with h0 | h0
    · rw [(hz h0).1]
    · exact (hpos h0).1.le
  have hmp0 : 0 ≤ meanP ns := le_trans hm0 h7.outside
  have htow : ∀ sc, towards ns = some sc → ∃ k, k < n ∧ sc = at' (2 * k + 2) := by
    intro sc hsc
    have := (towards_mem hsc).1
    rw [hS] at this
    obtain ⟨k, hk, rfl⟩ := List.mem_map.1 this
    exact ⟨k, List.mem_range.1 hk, rfl⟩
  have hlast : 0 ≤ (ns.getLast?.map Node.width).getD 0 := by
    cases hL : ns.getLast? with
    | none => simp
    | some x => exact (h4 x (List.mem_of_getLast? hL)).width
  have hok : CityParamsOk (n : Int) (meanSc ns) ((meanP ns - meanSc ns) / meanSc ns) ((ns.getLast?.map Node.width).getD 0)
      ((towards ns).map fun sc => (centerOf ns).1 / sc.radius) ((towards ns).map Node.zone)
      (some ((subcentersOf ns).map Node.angle)) (some ((subcentersOf ns).map fun sc => sc.radius / meanSc ns))
      (some ((peripheriesOf ns).map fun p => p.radius / meanP ns)) := by
    refine ⟨by omega, hm0, div_nonneg (sub_nonneg.2 h7.outside) hm0, hlast, ?_, ?_, ?_, ?_⟩
    · cases ht : towards ns with
      | none => left; exact ⟨rfl, rfl⟩
      | some sc =>
        right
        obtain ⟨k, hk, rfl⟩ := htow sc ht
        refine ⟨_, _, rfl, rfl, ?_, ?_, ?_, ?_⟩
        · rw [hcen]
          exact div_nonneg (h4 _ (List.mem_of_getElem? hz0)).radius (h4 _ (hin k hk).1).radius
        · have h0 : (at' (2 * k + 2)).radius ≠ 0 := h7.aligned _ (towards_mem ht).1 (towards_mem ht).2
          have h1 : 0 < (at' (2 * k + 2)).radius := lt_of_le_of_ne (h4 _ (hin k hk).1).radius (Ne.symm h0)
          rw [div_le_one h1]
          exact h7.inside _ ht
        · rw [(hat _ (by omega)).2, zoneAt_subcenter]; omega
        · rw [(hat _ (by omega)).2, zoneAt_subcenter]; omega
    · rintro a ha
      cases ha
      refine ⟨by rw [List.length_map, hlS], ?_⟩
      intro x hx
      obtain ⟨sc, hsc, rfl⟩ := List.mem_map.1 hx
      exact (h4 sc (List.mem_filter.1 hsc).1).angle
    · rintro a ha
      cases ha
      refine ⟨by rw [List.length_map, hlS], ?_⟩
      intro x hx
      obtain ⟨sc, hsc, rfl⟩ := List.mem_map.1 hx
      exact div_nonneg (h4 sc (List.mem_filter.1 hsc).1).radius hm0
    · rintro a ha
      cases ha
      refine ⟨by rw [List.length_map, hlP], ?_⟩
      intro x hx
      obtain ⟨sc, hsc, rfl⟩ := List.mem_map.1 hx
      exact div_nonneg (h4 sc (List.mem_filter.1 hsc).1).radius hmp0
  obtain ⟨r, hbr⟩ := (buildFromParameters_ok_iff).2 hok
  have hsum1 : ((subcentersOf ns).map fun sc => sc.radius / meanSc ns).sum = n := by
    have e : ((subcentersOf ns).map fun sc => sc.radius / meanSc ns) =
        ((subcentersOf ns).map Node.radius).map (fun x => x / meanSc ns) := by rw [List.map_map]; rfl
    rw [e, sum_div']
    rcases Nat.eq_zero_or_pos n with h0 | h0
    · subst h0; rw [hS]; simp
    · rw [div_eq_iff (ne_of_gt (hpos h0).1)]
      unfold meanSc
      rw [hlS, mul_div_cancel₀]
      exact_mod_cast h0.ne'
  have hsum2 : ((peripheriesOf ns).map fun sc => sc.radius / meanP ns).sum = n := by
    have e : ((peripheriesOf ns).map fun sc => sc.radius / meanP ns) =
        ((peripheriesOf ns).map Node.radius).map (fun x => x / meanP ns) := by rw [List.map_map]; rfl
    rw [e, sum_div']
    rcases Nat.eq_zero_or_pos n with h0 | h0
    · subst h0; rw [hP]; simp
    · rw [div_eq_iff (ne_of_gt (hpos h0).2)]
      unfold meanP
      rw [hlP, mul_div_cancel₀]
      exact_mod_cast h0.ne'
  have hzones : ∀ i, i < n → ∃ P' S', r.nodes[2 * i + 1]? = some P' ∧ r.nodes[2 * i + 2]? = some S' ∧
        P'.radius = (at' (2 * i + 1)).radius ∧ S'.radius = (at' (2 * i + 2)).radius ∧ S'.angle = (at' (2 * i + 2)).angle ∧
        P'.angle = (at' (2 * i + 2)).angle := by
    intro i hi
    obtain ⟨P', S', a1, a2, a3, _, a5, _, a7, _, a9, _⟩ := C13_positions hbr i (by omega)
    refine ⟨P', S', a1, a2, ?_, ?_, ?_, ?_⟩
    · obtain ⟨c, hc, hc'⟩ := a9 _ rfl
      rw [hP, List.map_map, List.getElem?_map, List.getElem?_range hi] at hc
      cases hc
      rw [hc', hlg]
      exact div_mul_cancel₀ _ (ne_of_gt (hpos (by omega)).2)
    · obtain ⟨c, hc, hc'⟩ := a7 _ rfl
      rw [hS, List.map_map, List.getElem?_map, List.getElem?_range hi] at hc
      cases hc
      rw [hc']
      exact div_mul_cancel₀ _ (ne_of_gt (hpos (by omega)).1)
    · have := a5 _ rfl
      rw [hS, List.map_map, List.getElem?_map, List.getElem?_range hi] at this
      rw [← a3]
      exact (Option.some.inj this).symm
    · have := a5 _ rfl
      rw [hS, List.map_map, List.getElem?_map, List.getElem?_range hi] at this
      exact (Option.some.inj this).symm
  refine ⟨n, meanSc ns, _, _, _, _, r, rfl, rfl, rfl, rfl, rfl, rfl, hsum1, hsum2, hbr, ?_, ?_⟩
  · intro i hi
    obtain ⟨P', S', a1, a2, a3, a4, a5, a6⟩ := hzones i hi
    exact ⟨_, _, P', S', (hzi i hi).1, (hzi i hi).2, a1, a2, a3, a4, a5, a6⟩
  · obtain ⟨c', hc0, _, hc1, hc2⟩ := C13_cbd_position hbr
    refine ⟨_, c', hz0, hc0, fun he => (hc1 he).2.2, ?_⟩
    intro e z he hz'
    obtain ⟨sc', b1, b2, b3, b4, b5, _, _⟩ := hc2 e z he hz'
    have he' : (towards ns).map (fun sc => (centerOf ns).1 / sc.radius) = some e := he
    have hz'' : (towards ns).map Node.zone = some z := hz'
    cases ht : towards ns with
    | none => rw [ht] at he'; cases he'
    | some sc =>
      rw [ht] at he' hz''
      obtain ⟨k, hk, rfl⟩ := htow sc ht
      have hzk : z = (k : Int) + 1 := by
        have := Option.some.inj hz''
        rw [(hat _ (by omega)).2, zoneAt_subcenter] at this
        omega
      have hk2 : 2 * z.toNat = 2 * k + 2 := by omega
      obtain ⟨P', S', a1, a2, a3, a4, a5, a6⟩ := hzones k hk
      rw [hk2, a2] at b1
      cases b1
      have h0 : (at' (2 * k + 2)).radius ≠ 0 := h7.aligned _ (towards_mem ht).1 (towards_mem ht).2
      have hal := (towards_mem ht).2
      unfold Aligned at hal
      rw [hcen] at hal
      refine ⟨?_, at' (2 * k + 2), by rw [hk2]; exact (hzi k hk).2, ?_, by rw [b5, a5], hal⟩
      · rw [b4, a4, ← Option.some.inj he', hcen]
        exact div_mul_cancel₀ _ h0
      · rw [(hat _ (by omega)).1]; unfold kindAt; rw [if_neg (by omega), if_neg (by omega)]

end Generic

section Real

variable [NumText ℝ]

/-- **C62**, positions: over the real numbers rebuilding an imported city from its parameters gives the same position for every
subcentre, for the peripheries in the direction of their subcentre, and for a CBD at the origin or exactly in the
direction of the subcentre it was found to lie towards. -/
theorem C62_positions {data : Str} {g : Graph ℝ} (h : buildFromContent data = .ok g) (hne : g.nodes ≠ []) :
    ∃ (n : Nat) (l gg p : ℝ) (r : Graph ℝ), g.n = some (n : Int) ∧ g.l = some l ∧ g.g = some gg ∧ g.p = some p ∧
      buildFromParameters n l gg p g.etha g.ethaZone g.angles g.gi g.hi = .ok r ∧
      (∀ i, i < n → ∃ P S P' S', g.nodes[2 * i + 1]? = some P ∧ g.nodes[2 * i + 2]? = some S ∧
        r.nodes[2 * i + 1]? = some P' ∧ r.nodes[2 * i + 2]? = some S' ∧
        (S'.x = S.x ∧ S'.y = S.y) ∧ (P.angle = S.angle ∨ P.radius = 0 → P'.x = P.x ∧ P'.y = P.y)) ∧
      (∃ c c', g.nodes[0]? = some c ∧ r.nodes[0]? = some c' ∧
        (c.radius = 0 → c'.x = c.x ∧ c'.y = c.y) ∧
        (∀ z S, g.ethaZone = some z → g.nodes[2 * z.toNat]? = some S → S.angle = c.angle → c'.x = c.x ∧ c'.y = c.y)) := by
  obtain ⟨n, l, gg, p, gi, hi, r, e1, e2, e3, e4, e5, e6, _, _, hb, hz, hc⟩ := C62_rebuild h hne
  obtain ⟨_, _, _, _, _, _, rows, rows', _, _, hrow⟩ := C17_well_formed h (Or.inr hne)
  have hxy : ∀ nd ∈ g.nodes, (nd.x, nd.y) = getXY nd.radius nd.angle := by
    intro nd hnd
    obtain ⟨ro, _, hR⟩ := forall₂_left_of_mem hrow nd hnd
    rw [hR.radius]
    exact (getXY_getAngle _ _ _ hR.angle).symm
  have hrxy := fun nd hnd => (params_node hb nd hnd).1
  have same : ∀ a ∈ g.nodes, ∀ b ∈ r.nodes, b.radius = a.radius → (b.angle = a.angle ∨ a.radius = 0) → b.x = a.x ∧ b.y = a.y := by
    intro a ha b hb' hr hang
    have h1 := hxy a ha
    have h2 := hrxy b hb'
    have : (b.x, b.y) = (a.x, a.y) := by
      rw [h1, h2, hr]
      rcases hang with h3 | h3
      · rw [h3]
      · rw [h3]; simp [getXY]
    exact ⟨congrArg Prod.fst this, congrArg Prod.snd this⟩
  refine ⟨n, l, gg, p, r, e1, e2, e3, e4, by rw [e5, e6]; exact hb, ?_, ?_⟩
  · intro i hi'
    obtain ⟨P, S, P', S', a1, a2, a3, a4, a5, a6, a7, a8⟩ := hz i hi'
    refine ⟨P, S, P', S', a1, a2, a3, a4, ?_, ?_⟩
    · exact same S (List.mem_of_getElem? a2) S' (List.mem_of_getElem? a4) a6 (Or.inl a7)
    · rintro hh
      refine same P (List.mem_of_getElem? a1) P' (List.mem_of_getElem? a3) a5 ?_
      rcases hh with hh | hh
      · left; rw [a8, hh]
      · right; exact hh
  · obtain ⟨c, c', b1, b2, b3, b4⟩ := hc
    have hez : g.etha = none ↔ g.ethaZone = none := by
      obtain ⟨rows, hr⟩ := buildFromContent_rows h
      obtain ⟨_, _, _, _, _, _, _, _, _, _, rfl⟩ := (C17_exact hr g).1 ⟨h, hne⟩
      simp [describedCity]
    refine ⟨c, c', b1, b2, ?_, ?_⟩
    · intro h0
      refine same c (List.mem_of_getElem? b1) c' (List.mem_of_getElem? b2) ?_ (Or.inr h0)
      cases he : g.etha with
      | none => rw [b3 he, h0]
      | some e =>
        cases hzz : g.ethaZone with
        | none => rw [hez.2 hzz] at he; cases he
        | some z => exact (b4 e z he hzz).1
    · intro z S hzz hS hang
      cases he : g.etha with
      | none => rw [hez.1 he] at hzz; cases hzz
      | some e =>
        obtain ⟨k1, S0, k2, _, k3, _⟩ := b4 e z he hzz
        rw [hS] at k2
        cases k2
        exact same c (List.mem_of_getElem? b1) c' (List.mem_of_getElem? b2) k1 (Or.inl (k3.trans hang))

/-- **C62**, symmetric cities: exporting a symmetric city (equally spaced zones, no factors, CBD at the origin) with 1 to 4999
zones and importing it gives the very same nodes and the same parameters: the distances `l`, `g` and `p` are recovered and
all factors are 1. -/
theorem C62_symmetric {n : Nat} {l g p : ℝ} {r : Graph ℝ} (h : buildFromParameters n l g p none none none none none = .ok r)
    (hxy : ∀ nd ∈ r.nodes, ReadsBack nd.x ∧ ReadsBack nd.y) (hp : ReadsBack p) (hn : 0 < n) (hn' : n ≤ 4999) (hl : 0 < l) :
    ∃ g' : Graph ℝ, buildFromContent r.exportPajek = .ok g' ∧ g'.nodes = r.nodes ∧ g'.zones = r.zones ∧ g'.edges = r.edges ∧
      g'.n = r.n ∧ g'.l = r.l ∧ g'.g = r.g ∧ g'.p = r.p ∧
      g'.gi = some (List.replicate n 1) ∧ g'.hi = some (List.replicate n 1) := by
  have hok := (buildFromParameters_ok_iff).1 ⟨r, h⟩
  have hg := hok.g_nonneg
  have hr := h
  rw [buildFromParameters_eq hok] at hr
  obtain ⟨_, hs, _⟩ := buildFromParameters_shape h
  simp only [Int.toNat_natCast] at hs
  have ho := cityOrder_of_shape hs
  obtain ⟨at', hns, hz0, hzi, hP, hS, _, _⟩ := getElem_zone ho
  have hzr : ∀ i, i < n → (at' (2 * i + 1)).radius = l + g * l ∧ (at' (2 * i + 2)).radius = l := by
    intro i hi
    obtain ⟨P', S', a1, a2, _, _, _, a6, _, a8, _⟩ := C13_positions h i (by omega)
    rw [(hzi i hi).1] at a1
    rw [(hzi i hi).2] at a2
    cases a1; cases a2
    exact ⟨a8 rfl, a6 rfl⟩
  have hn0 : (n : ℝ) ≠ 0 := by exact_mod_cast hn.ne'
  have hsc : (subcentersOf r.nodes).map Node.radius = List.replicate n l := by
    rw [hS, List.map_map, List.eq_replicate_iff]
    refine ⟨by simp, ?_⟩
    intro b hb
    obtain ⟨i, hi, rfl⟩ := List.mem_map.1 hb
    exact (hzr i (List.mem_range.1 hi)).2
  have hpe : (peripheriesOf r.nodes).map Node.radius = List.replicate n (l + g * l) := by
    rw [hP, List.map_map, List.eq_replicate_iff]
    refine ⟨by simp, ?_⟩
    intro b hb
    obtain ⟨i, hi, rfl⟩ := List.mem_map.1 hb
    exact (hzr i (List.mem_range.1 hi)).1
  obtain ⟨hl1, hl2⟩ := lengths_city ho
  have hmS : meanSc r.nodes = l := by
    unfold meanSc
    rw [hsc, hl1, List.sum_replicate, nsmul_eq_mul, mul_div_cancel_left₀ _ hn0]
  have hmP : meanP r.nodes = l + g * l := by
    unfold meanP
    rw [hpe, hl2, List.sum_replicate, nsmul_eq_mul, mul_div_cancel_left₀ _ hn0]
  have hpos : 0 < l + g * l := by positivity
  obtain ⟨g', hg'⟩ := (C16_centred h hxy hp).2 ⟨by omega, by
      intro sc hsc' hk
      have : sc.radius ∈ (subcentersOf r.nodes).map Node.radius :=
        List.mem_map_of_mem (List.mem_filter.2 ⟨hsc', by simpa using hk⟩)
      rw [hsc, List.mem_replicate] at this
      rw [this.2]; exact hl.ne', by
      rw [hsc, hpe, List.sum_replicate, List.sum_replicate]
      apply nsmul_le_nsmul_right
      nlinarith⟩
  obtain ⟨_, _, hgg⟩ := (C16_parameters h hxy hp g').1 hg'
  have hturn : r.nodes.map turned = r.nodes := by
    conv_rhs => rw [← List.map_id r.nodes]
    apply List.map_congr_left
    intro nd hnd
    have hang : nd.angle < 360 ∧ (nd.radius = 0 → nd.angle = 0) := by
      have hm := hnd
      rw [← Except.ok.inj hr] at hm
      obtain ⟨j, hj, rfl⟩ := List.mem_map.1 hm
      rw [List.mem_range] at hj
      have hlt : ∀ i, i < n → (360 : ℝ) / n * i < 360 := by
        intro i hi
        rw [div_mul_eq_mul_div, div_lt_iff₀ (by exact_mod_cast hn)]
        have : (i : ℝ) < n := by exact_mod_cast hi
        linarith
      rcases Nat.eq_zero_or_pos j with rfl | hj0
      · show (0 : ℝ) < 360 ∧ (_ → (0 : ℝ) = 0)
        exact ⟨by norm_num, fun _ => rfl⟩
      · rcases Nat.even_or_odd' j with ⟨k, rfl | rfl⟩
        · obtain ⟨i, rfl⟩ : ∃ i, k = i + 1 := ⟨k - 1, by omega⟩
          rw [show 2 * (i + 1) = 2 * i + 2 by ring, nodeAt_subcenter]
          exact ⟨hlt i (by omega), fun h0 => absurd h0 hl.ne'⟩
        · rw [nodeAt_periphery]
          exact ⟨hlt k (by omega), fun h0 => absurd h0 hpos.ne'⟩
    unfold turned
    by_cases h0 : nd.radius = 0
    · rw [if_pos (Or.inl h0), ← hang.2 h0]; rfl
    · rw [if_neg (by rintro (h1 | h1); exacts [h0 h1, absurd h1 hang.1.ne])]; rfl
  have hrl : r.l = some l ∧ r.g = some g ∧ r.p = some p ∧ r.n = some (n : Int) := by
    rw [← Except.ok.inj hr]; exact ⟨rfl, rfl, rfl, rfl⟩
  refine ⟨g', hg', ?_⟩
  rw [hgg, hturn]
  simp only [Int.toNat_natCast]
  refine ⟨rfl, hs.zones.symm, hs.edges.symm, hs.n_eq.symm, ?_, ?_, ?_, ?_, ?_⟩
  · rw [hrl.1]; show some (meanSc r.nodes) = _; rw [hmS]
  · rw [hrl.2.1]
    show some ((meanP r.nodes - meanSc r.nodes) / meanSc r.nodes) = _
    rw [hmS, hmP, add_sub_cancel_left, mul_div_cancel_right₀ _ hl.ne']
  · rw [hrl.2.2.1]
    show some ((r.nodes.getLast?.map Node.width).getD 0) = _
    cases hL : r.nodes.getLast? with
    | none =>
      rw [List.getLast?_eq_none_iff] at hL
      have := hs.len
      rw [hL] at this
      simp at this
    | some x =>
      have := (params_node h x (List.mem_of_getLast? hL)).2.2.1
      simp [this]
  · show some ((subcentersOf r.nodes).map fun sc => sc.radius / meanSc r.nodes) = _
    rw [show ((subcentersOf r.nodes).map fun sc => sc.radius / meanSc r.nodes) =
      ((subcentersOf r.nodes).map Node.radius).map (fun x => x / meanSc r.nodes) by rw [List.map_map]; rfl, hsc,
      List.map_replicate, hmS, div_self hl.ne']
  · show some ((peripheriesOf r.nodes).map fun sc => sc.radius / meanP r.nodes) = _
    rw [show ((peripheriesOf r.nodes).map fun sc => sc.radius / meanP r.nodes) =
      ((peripheriesOf r.nodes).map Node.radius).map (fun x => x / meanP r.nodes) by rw [List.map_map]; rfl, hpe,
      List.map_replicate, hmP, div_self hpos.ne']

end Real

end Sidermit
