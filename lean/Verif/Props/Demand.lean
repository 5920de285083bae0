import Verif.Proofs.DemandParams
import Verif.Proofs.DemandContent
import Verif.Proofs.Graph
import Verif.Proofs.RatText

/-!
# Properties of the demand matrix (C01 - C07)
-/

set_option linter.unusedSectionVars false

namespace Sidermit

variable {K : Type} [Field K] [LinearOrder K] [IsStrictOrderedRing K]

/-! ## C01: the total is the sum of the cells -/

/-- **C01.** After any constructor and any sequence of accepted or rejected `change_vij` calls and of reads of arbitrary
cells, the total is the sum of all cells. -/
theorem C01_total_is_cell_sum [NumText K] {g : Graph K} {d : Demand K} (h : Demand.History g (fun _ _ => True) d) :
    d.total = cellSum d.matrix := consistent_history h

/-- **C01**, cell by cell: for a city with distinct ids (and no reads of cells of foreign ids) the total is the sum over
all ordered pairs of nodes. -/
theorem C01_total_over_node_pairs [NumText K] {g : Graph K} (hd : DistinctIds g) {d : Demand K}
    (h : Demand.History g (fun o e => IsNodeId g o ∧ IsNodeId g e) d) :
    d.total = (g.nodes.map fun o => (g.nodes.map fun e => (lookup2 d.matrix o.id e.id).getD 0).sum).sum := by
  rw [← nodeCells_sum hd (nodeCells_history h)]
  exact consistent_history h

/-! ## C02: `change_vij` -/

/-- **C02**, acceptance: the three exceptions and their precedence. -/
theorem C02_change_vij_outcome [NumText K] {g : Graph K} {d : Demand K}
    (h : Demand.History g (fun o e => IsNodeId g o ∧ IsNodeId g e) d) (o e : Int) (v : K) :
    ((d.changeVij o e v).2 = some .TripsValueIsNotValid ↔ v < 0) ∧
    ((d.changeVij o e v).2 = some .OriginIdDoesNotFound ↔ 0 ≤ v ∧ ¬ IsNodeId g o) ∧
    ((d.changeVij o e v).2 = some .DestinationIdDoesNotFound ↔ 0 ≤ v ∧ IsNodeId g o ∧ ¬ IsNodeId g e) ∧
    ((d.changeVij o e v).2 = none ↔ 0 ≤ v ∧ IsNodeId g o ∧ IsNodeId g e) := by
  have hc := nodeCells_history h
  by_cases hv : v < 0
  · have h1 : d.changeVij o e v = (d, some .TripsValueIsNotValid) := by unfold Demand.changeVij; rw [if_pos hv]
    simp [h1, hv]
  · have hv' := not_lt.1 hv
    by_cases ho : IsNodeId g o
    · by_cases he : IsNodeId g e
      · have h1 := changeVij_of_lookup hv' ((nodeCells_lookup hc o e).2 ⟨ho, he⟩)
        simp [h1, hv, hv', ho, he]
      · obtain ⟨c, row, hr⟩ := (nodeCells_row hc o).2 ho
        have hn : lookup2 d.matrix o e = none := by
          have := mt (nodeCells_lookup hc o e).1 (fun hh => he hh.2)
          simpa using this
        have hn' : Dict.get? (c :: row) e = none := by simpa [lookup2, hr] using hn
        have h1 : d.changeVij o e v = (d, some .DestinationIdDoesNotFound) := by
          unfold Demand.changeVij; rw [if_neg hv, hr]; simp only [hn']
        simp [h1, hv, hv', ho, he]
    · have h1 : d.changeVij o e v = (d, some .OriginIdDoesNotFound) := by
        unfold Demand.changeVij
        rw [if_neg hv]
        cases hr : d.matrix.get? o with
        | none => rfl
        | some row =>
          cases row with
          | nil => rfl
          | cons c row => exact absurd ((nodeCells_row hc o).1 ⟨c, row, hr⟩) ho
      simp [h1, hv, hv', ho]

/-- **C02**, effect: an accepted call changes one cell and adjusts the total by the difference; a rejected call changes
nothing.  (Any object, even one reached by reading foreign cells.) -/
theorem C02_change_vij_effect (d : Demand K) (o e : Int) (v : K) :
    ((d.changeVij o e v).2 = none →
      lookup2 (d.changeVij o e v).1.matrix o e = some v ∧
      (∀ a b, (a, b) ≠ (o, e) → lookup2 (d.changeVij o e v).1.matrix a b = lookup2 d.matrix a b) ∧
      (∃ old, lookup2 d.matrix o e = some old ∧ (d.changeVij o e v).1.total = d.total - old + v) ∧
      (d.changeVij o e v).1.graph = d.graph) ∧
    ((d.changeVij o e v).2 ≠ none → (d.changeVij o e v).1 = d) := by
  rcases changeVij_cases d o e v with ⟨hv, hl, h1⟩ | ⟨_, err, h1⟩
  · obtain ⟨old, hold⟩ := Option.isSome_iff_exists.1 hl
    rw [h1]
    refine ⟨fun _ => ⟨?_, ?_, ⟨old, hold, ?_⟩, rfl⟩, by simp⟩
    · simp [Demand.upd, lookup2_setCell]
    · intro a b hab
      simp only [Demand.upd]
      rw [lookup2_setCell, if_neg]
      rintro ⟨rfl, rfl⟩
      exact hab rfl
    · simp [Demand.upd, hold]
  · rw [h1]; simp

/-! ## C05: parameter validation -/

/-- **C05.** The validator accepts exactly the documented parameters. -/
theorem C05_demand_parameters_exact (y a alpha beta : K) :
    demandValidator y a alpha beta = .ok () ↔ DemandParamsOk y a alpha beta := demandValidator_iff y a alpha beta

/-- **C05**, exceptions: the first violated condition is reported. -/
theorem C05_demand_parameters_errors (y a alpha beta : K) :
    (y < 0 → demandValidator y a alpha beta = .error .YOutOfRange) ∧
    (0 ≤ y → ¬ (0 ≤ a ∧ a ≤ 1) → demandValidator y a alpha beta = .error .AOutOfRange) ∧
    (0 ≤ y → 0 ≤ a → a ≤ 1 → ¬ (0 ≤ alpha ∧ alpha ≤ 1) →
      demandValidator y a alpha beta = .error .AlphaOutOfRange) ∧
    (0 ≤ y → 0 ≤ a → a ≤ 1 → 0 ≤ alpha → alpha ≤ 1 → ¬ (0 ≤ beta ∧ beta < 1) →
      demandValidator y a alpha beta = .error .BetaOutOfRange) ∧
    (0 ≤ y → 0 ≤ a → a ≤ 1 → 0 ≤ alpha → alpha ≤ 1 → 0 ≤ beta → beta < 1 → 1 < alpha + beta →
      demandValidator y a alpha beta = .error .AlphaBetaOutOfRange) := by
  unfold demandValidator
  refine ⟨?_, ?_, ?_, ?_, ?_⟩
  · intro h1; rw [raiseIf_pos h1]; rfl
  · intro h1 h2
    rw [raiseIf_neg (not_lt.2 h1), py_ok_bind, raiseIf_pos]; · rfl
    by_contra hc; simp only [not_or, not_lt, gt_iff_lt] at hc; exact h2 ⟨hc.2, hc.1⟩
  · intro h1 h2 h3 h4
    rw [raiseIf_neg (not_lt.2 h1), py_ok_bind, raiseIf_neg (by simp [h2, h3]), py_ok_bind, raiseIf_pos]; · rfl
    by_contra hc; simp only [not_or, not_lt, gt_iff_lt] at hc; exact h4 ⟨hc.2, hc.1⟩
  · intro h1 h2 h3 h4 h5 h6
    rw [raiseIf_neg (not_lt.2 h1), py_ok_bind, raiseIf_neg (by simp [h2, h3]), py_ok_bind,
      raiseIf_neg (by simp [h4, h5]), py_ok_bind, raiseIf_pos]; · rfl
    by_contra hc; simp only [not_or, not_lt, ge_iff_le, not_le] at hc; exact h6 ⟨hc.2, hc.1⟩
  · intro h1 h2 h3 h4 h5 h6 h7 h8
    rw [raiseIf_neg (not_lt.2 h1), py_ok_bind, raiseIf_neg (by simp [h2, h3]), py_ok_bind,
      raiseIf_neg (by simp [h4, h5]), py_ok_bind, raiseIf_neg (by simp [h6, h7]), py_ok_bind, raiseIf_pos h8]

/-- **C05**, builder: on a city with distinct ids `build_from_parameters` raises only what the validator raises. -/
theorem C05_build_accepts_iff {g : Graph K} {n : Nat} (hs : CityShape g n) (hd : DistinctIds g) (y a alpha beta : K) :
    (∃ d, Demand.buildFromParameters g y a alpha beta = .ok d) ↔ DemandParamsOk y a alpha beta := by
  constructor
  · rintro ⟨d, h⟩
    unfold Demand.buildFromParameters at h
    rw [py_bind_eq_ok] at h
    obtain ⟨u, h1, _⟩ := h
    exact (demandValidator_iff y a alpha beta).1 h1
  · intro h
    obtain ⟨d, h1, _⟩ := demandParams_ok hs.n_eq (by omega) hd h
    exact ⟨d, h1⟩

/-! ## C03: total of a parametric demand -/

/-- **C03.** A parametric demand has exactly `y` trips if the city has zones, and none otherwise. -/
theorem C03_parametric_total {g : Graph K} {n : Nat} (hs : CityShape g n) (hd : DistinctIds g) {y a alpha beta : K}
    {d : Demand K} (h : Demand.buildFromParameters g y a alpha beta = .ok d) :
    d.total = if n = 0 then 0 else y := by
  have hp := (C05_build_accepts_iff hs hd y a alpha beta).1 ⟨d, h⟩
  obtain ⟨d', h1, hc, hcons, hcell⟩ := demandParams_ok hs.n_eq (by omega) hd hp
  rw [h] at h1; cases h1
  rw [hcons, nodeCells_sum hd hc]
  have : (g.nodes.map fun o => (g.nodes.map fun e => (lookup2 d.matrix o.id e.id).getD 0).sum) =
      (g.nodes.map fun o => (g.nodes.map fun e =>
        (cellVal (tripValues (n : Int) y a alpha beta) (some o) (some e)).getD 0).sum) := by
    apply List.map_congr_left
    intro o ho
    congr 1
    apply List.map_congr_left
    intro e he
    rw [hcell o ho e he]; rfl
  rw [this, totalSum hs]
  split
  · rename_i h0; subst h0; simp
  · rename_i h0
    obtain ⟨e1, e2⟩ := tripValues_rows (n := n) (by omega) (y := y) (a := a) (alpha := alpha) hp.beta_lt
    rw [e1, e2]
    have : (n : K) ≠ 0 := by exact_mod_cast h0
    field_simp
    ring

/-! ## C04: spatial pattern -/

/-- **C04.** Cells of a parametric demand.  `yz = y/n` is the demand of one zone. -/
theorem C04_parametric_cells {g : Graph K} {n : Nat} (hs : CityShape g n) (hd : DistinctIds g) (hn : 1 ≤ n)
    {y a alpha beta : K} {d : Demand K} (h : Demand.buildFromParameters g y a alpha beta = .ok d)
    {o e : Node K} (ho : o ∈ g.nodes) (he : e ∈ g.nodes) :
    ∃ v, lookup2 d.matrix o.id e.id = some v ∧ 0 ≤ v ∧
      (o.kind = .cbd → v = 0) ∧ (e.kind = .periphery → v = 0) ∧ (o.id = e.id → v = 0) ∧
      (o.kind = .periphery → e.kind = .cbd → v = alpha * (a * (y / n))) ∧
      (o.kind = .periphery → e.kind = .subcenter → o.zone = e.zone →
        v = (if n = 1 then 1 - alpha else beta) * (a * (y / n))) ∧
      (o.kind = .periphery → e.kind = .subcenter → o.zone ≠ e.zone →
        v = (1 - alpha - beta) * (a * (y / n)) / ((n : K) - 1)) ∧
      (o.kind = .subcenter → e.kind = .cbd →
        v = (if n = 1 then 1 else alpha / (1 - beta)) * ((1 - a) * (y / n))) ∧
      (o.kind = .subcenter → e.kind = .subcenter → o.zone ≠ e.zone →
        v = (1 - alpha - beta) / (1 - beta) * ((1 - a) * (y / n)) / ((n : K) - 1)) := by
  have hp := (C05_build_accepts_iff hs hd y a alpha beta).1 ⟨d, h⟩
  obtain ⟨d', h1, hc, _, hcell⟩ := demandParams_ok hs.n_eq (by omega) hd hp
  rw [h] at h1; cases h1
  have hoz : ∀ x ∈ g.nodes, x.kind ≠ .cbd → 1 ≤ x.zone ∧ x.zone ≤ n := by
    intro x hx hk
    obtain ⟨j, hj, rfl⟩ := List.mem_iff_getElem.1 hx
    have hj' := hj
    rw [hs.len] at hj'
    rw [hs.kind j _ (List.getElem?_eq_getElem hj)] at hk
    rw [hs.zone j _ (List.getElem?_eq_getElem hj)]
    have : j ≠ 0 := by rintro rfl; exact hk rfl
    unfold zoneAt
    omega
  have hgt : o.kind ≠ .cbd → e.kind ≠ .cbd → o.zone ≠ e.zone → (n : Int) > 1 := by
    intro a1 a2 a3
    have := hoz o ho a1; have := hoz e he a2
    omega
  have hnz : (n : Int) ≠ 0 := by omega
  have hn1 : ((n : Int) > 1) ↔ ¬ n = 1 := by omega
  refine ⟨_, hcell o ho e he, hc.nonneg _ _ _ (hcell o ho e he), ?_, ?_, ?_, ?_, ?_, ?_, ?_, ?_⟩
  · intro k; simp [cellVal, k]
  · intro k
    cases hk : o.kind <;> simp [cellVal, k, hk]
  · intro hid
    have hoe : o = e := by
      obtain ⟨i, hi, rfl⟩ := List.mem_iff_getElem.1 ho
      obtain ⟨j, hj, rfl⟩ := List.mem_iff_getElem.1 he
      have := nodup_getElem_inj hd hi hj hid
      subst this; rfl
    subst hoe
    cases hk : o.kind <;> simp [cellVal, hk]
  · intro k1 k2; simp [cellVal, k1, k2, tripValues, show n ≠ 0 by omega]
  · intro k1 k2 hz
    by_cases h1 : n = 1
    · subst h1; simp [cellVal, k1, k2, hz, tripValues]
    · have := hn1.2 h1
      simp [cellVal, k1, k2, hz, tripValues, h1, show n ≠ 0 by omega, show 1 < n by omega]
  · intro k1 k2 hz
    have := hgt (by simp [k1]) (by simp [k2]) hz
    simp [cellVal, k1, k2, hz, tripValues, show n ≠ 0 by omega, show 1 < n by omega]
  · intro k1 k2
    by_cases h1 : n = 1
    · subst h1; simp [cellVal, k1, k2, tripValues]
    · simp [cellVal, k1, k2, tripValues, h1, show n ≠ 0 by omega, show 1 < n by omega]
      ring
  · intro k1 k2 hz
    have := hgt (by simp [k1]) (by simp [k2]) hz
    simp [cellVal, k1, k2, hz, tripValues, show n ≠ 0 by omega, show 1 < n by omega]
    ring

/-- **C04**, generation: a periphery generates `a*y/n` trips, a subcentre `(1-a)*y/n`, the CBD none. -/
theorem C04_parametric_generation {g : Graph K} {n : Nat} (hs : CityShape g n) (hd : DistinctIds g) (hn : 1 ≤ n)
    {y a alpha beta : K} {d : Demand K} (h : Demand.buildFromParameters g y a alpha beta = .ok d)
    {o : Node K} (ho : o ∈ g.nodes) :
    (g.nodes.map fun e => (lookup2 d.matrix o.id e.id).getD 0).sum =
      match o.kind with
      | .cbd => 0
      | .periphery => a * (y / n)
      | .subcenter => (1 - a) * (y / n) := by
  have hp := (C05_build_accepts_iff hs hd y a alpha beta).1 ⟨d, h⟩
  obtain ⟨d', h1, hc, _, hcell⟩ := demandParams_ok hs.n_eq (by omega) hd hp
  rw [h] at h1; cases h1
  have : (g.nodes.map fun e => (lookup2 d.matrix o.id e.id).getD 0) = (g.nodes.map fun e =>
        (cellVal (tripValues (n : Int) y a alpha beta) (some o) (some e)).getD 0) := by
    apply List.map_congr_left
    intro e he
    rw [hcell o ho e he]; rfl
  rw [this, rowSum hs _ ho]
  obtain ⟨e1, e2⟩ := tripValues_rows (n := n) (by omega) (y := y) (a := a) (alpha := alpha) hp.beta_lt
  unfold rowVal
  cases o.kind
  · rfl
  · exact e1
  · exact e2

/-! ## C06: matrix given as content -/

/-- **C06.** A matrix of the right size without negative entries is stored cell by cell, and nothing else is accepted. -/
theorem C06_content_stored {g : Graph K} (hd : DistinctIds g) (mx : List (List K)) :
    ((∃ d, Demand.buildFromContent g mx = .ok d) ↔
      mx.length = g.nodes.length ∧ (∀ row ∈ mx, row.length = g.nodes.length) ∧ (∀ row ∈ mx, ∀ v ∈ row, 0 ≤ v)) ∧
    (∀ d, Demand.buildFromContent g mx = .ok d → ∀ i j (hi : i < g.nodes.length) (hj : j < g.nodes.length),
      ∃ row v, mx[i]? = some row ∧ row[j]? = some v ∧ lookup2 d.matrix g.nodes[i].id g.nodes[j].id = some v) := by
  have key : ∀ d, Demand.buildFromContent g mx = .ok d → ContentOk g mx := by
    intro d h
    by_contra hno
    rcases buildFromContent_error hd hno with ⟨h1, _⟩ | ⟨h1, _⟩ <;> rw [h1] at h <;> cases h
  refine ⟨⟨?_, ?_⟩, ?_⟩
  · rintro ⟨d, h⟩
    have := key d h
    exact ⟨this.rows, this.cols, this.nonneg⟩
  · rintro ⟨h1, h2, h3⟩
    obtain ⟨d, h, _⟩ := buildFromContent_ok hd ⟨h1, h2, h3⟩
    exact ⟨d, h⟩
  · intro d h i j hi hj
    obtain ⟨d', h', hst⟩ := buildFromContent_ok hd (key d h)
    rw [h] at h'; cases h'
    exact hst.done i j hi hj (Or.inl ((key d h).rows ▸ hi))

/-- **C06**, exceptions. -/
theorem C06_content_errors {g : Graph K} (hd : DistinctIds g) {mx : List (List K)} {err : PyErr}
    (h : Demand.buildFromContent g mx = .error err) :
    (err = .DemandMatrixIsNotValid ∧ (mx.length ≠ g.nodes.length ∨ ∃ row ∈ mx, row.length ≠ g.nodes.length)) ∨
    (err = .VijIsNotValid ∧ ∃ row ∈ mx, ∃ v ∈ row, v < 0) := by
  by_cases hok : ContentOk g mx
  · obtain ⟨d, h', _⟩ := buildFromContent_ok hd hok
    rw [h] at h'; cases h'
  · rcases buildFromContent_error hd hok with ⟨h1, h2⟩ | ⟨h1, h2⟩ <;> rw [h] at h1 <;> cases h1
    · exact Or.inl ⟨rfl, h2⟩
    · exact Or.inr ⟨rfl, h2⟩

/-! ## C07: CSV round trip -/

/-- **C07.** Writing a demand and reading the file for the same city gives the same object back (matrix, total), if the
numbers it contains survive printing. -/
theorem C07_csv_round_trip [NumText K] {g : Graph K} {d : Demand K}
    (h : Demand.History g (fun o e => IsNodeId g o ∧ IsNodeId g e) d)
    (hp : ∀ o e v, lookup2 d.matrix o e = some v → PrintsWell v) :
    Demand.buildFromFile g d.toCsv = .ok d :=
  buildFromFile_toCsv (nodeCells_history h) (consistent_history h) hp

/-! ## Examples -/

section Examples
attribute [local instance] ratMath ratText

/-- the demand of the test-suite on a two-zone city: P1-CBD, P1-SC1, P1-SC2, SC1-CBD, SC1-SC2 and the total -/
example : ((buildFromParameters (K := ℚ) 2 10 (1/2) 2 none none none none none).toOption.bind fun g =>
    (Demand.buildFromParameters g 1000 (1/2) (1/3) (1/3)).toOption.map fun d =>
      [lookup2 d.matrix 1 0, lookup2 d.matrix 1 2, lookup2 d.matrix 1 4, lookup2 d.matrix 2 0, lookup2 d.matrix 2 4,
       lookup2 d.matrix 0 1, some d.total]) =
    some [some (250/3), some (250/3), some (250/3), some 125, some 125, some 0, some 1000] := by decide +kernel

example : DemandParamsOk (K := ℚ) 1000 (1/2) (1/3) (1/3) := (demandValidator_iff _ _ _ _).1 (by decide +kernel)

/-- a city without zones: the trips vanish -/
example : ((buildFromParameters (K := ℚ) 0 10 (1/2) 2 none none none none none).toOption.bind fun g =>
    (Demand.buildFromParameters g 1000 (1/2) (1/3) (1/3)).toOption.map fun d => d.total) = some 0 := by decide +kernel

/-- a history with an accepted call, a rejected one and a read: the matrix handed out by `get_matrix` is live, and
reading the cell of a foreign id makes it a legal cell -/
example : ((buildFromParameters (K := ℚ) 1 10 (1/2) 2 none none none none none).toOption.map fun g =>
    let d0 := Demand.init g
    let d1 := (d0.changeVij 1 0 7).1
    let d2 := (d1.changeVij 1 0 (-1)).1
    let d3 := (d2.readCell 99 1).1
    let d4 := d3.changeVij 99 1 5
    ((d1.changeVij 99 1 5).2, d2.total, d4.2, d4.1.total)) =
    some (some .OriginIdDoesNotFound, 7, none, 12) := by decide +kernel

/-- a matrix given as content -/
example : ((buildFromParameters (K := ℚ) 1 10 (1/2) 2 none none none none none).toOption.map fun g =>
    (Demand.buildFromContent g [[0, 0, 0], [1, 0, 2], [3, 0, 0]]).toOption.map fun d =>
      (lookup2 d.matrix 1 2, d.total)) = some (some (some 2, 6)) := by decide +kernel

/-- the hypothesis of the round trip holds for all rationals, printed as fractions -/
example (q : ℚ) : PrintsWell q := ratText_printsWell q

/-- a CSV file -/
example : ((buildFromParameters (K := ℚ) 1 10 (1/2) 2 none none none none none).toOption.bind fun g =>
    (Demand.buildFromContent g [[0, 0, 0], [1, 0, 1/2], [3, 0, 0]]).toOption.map fun d =>
      (Demand.buildFromFile g d.toCsv).toOption.map fun d' => decide (d' = d)) = some (some true) := by decide +kernel

end Examples

end Sidermit
