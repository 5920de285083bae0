import Verif.Proofs.Demand
import Verif.Proofs.Text
import Verif.Spec.City

/-! Demand from a matrix given as content, and the CSV round trip. -/

set_option linter.unusedSectionVars false
set_option linter.unusedSimpArgs false

namespace Sidermit

variable {K : Type} [Field K] [LinearOrder K]

/-- a matrix that fits the city -/
structure ContentOk (g : Graph K) (mx : List (List K)) : Prop where
  rows : mx.length = g.nodes.length
  cols : ∀ row ∈ mx, row.length = g.nodes.length
  nonneg : ∀ row ∈ mx, ∀ v ∈ row, 0 ≤ v

theorem pyGet_eq_ok {α : Type} {xs : List α} {i : Nat} {a : α} : pyGet xs i = .ok a ↔ xs[i]? = some a := by
  unfold pyGet; cases h : xs[i]? <;> simp

theorem pyGet_lt {α : Type} {xs : List α} {i : Nat} (h : i < xs.length) : pyGet xs i = .ok xs[i] := by
  rw [pyGet_eq_ok, List.getElem?_eq_getElem h]

theorem nodup_getElem_inj {g : Graph K} (hd : DistinctIds g) {i j : Nat} (hi : i < g.nodes.length)
    (hj : j < g.nodes.length) (h : g.nodes[i].id = g.nodes[j].id) : i = j := by
  have h1 : (g.nodes.map Node.id)[i]'(by simpa using hi) = (g.nodes.map Node.id)[j]'(by simpa using hj) := by
    simpa using h
  exact (List.Nodup.getElem_inj_iff hd).1 h1

/-- progress of the construction: rows before `i` are stored, and the first `j` cells of row `i` -/
structure Stored (g : Graph K) (mx : List (List K)) (i j : Nat) (d : Demand K) : Prop where
  cells : d.NodeCells g
  done : ∀ i' j' (hi : i' < g.nodes.length) (hj : j' < g.nodes.length), (i' < i ∨ (i' = i ∧ j' < j)) →
    ∃ row v, mx[i']? = some row ∧ row[j']? = some v ∧ lookup2 d.matrix g.nodes[i'].id g.nodes[j'].id = some v

theorem contentCell_ok (hd : DistinctIds g) {mx : List (List K)} {i j : Nat} (hi : i < g.nodes.length)
    {row : List K} (hrow : mx[i]? = some row) (hlen : row.length = g.nodes.length) (hj : j < row.length)
    {d : Demand K} (h : Stored g mx i j d) :
    (row[j] < 0 → contentCell g.nodes g.nodes[i].id row d j = .error .VijIsNotValid) ∧
    (0 ≤ row[j] → ∃ d', contentCell g.nodes g.nodes[i].id row d j = .ok d' ∧ Stored g mx i (j + 1) d') := by
  have hjn : j < g.nodes.length := by omega
  unfold contentCell
  rw [pyGet_lt hjn, py_ok_bind, pyGet_lt hj, py_ok_bind]
  constructor
  · intro hv; rw [raiseIf_pos hv]; rfl
  · intro hv
    rw [raiseIf_neg (not_lt.2 hv), py_ok_bind]
    have hl : (lookup2 d.matrix g.nodes[i].id g.nodes[j].id).isSome :=
      (nodeCells_lookup h.cells _ _).2 ⟨List.mem_map.2 ⟨_, List.getElem_mem hi, rfl⟩,
        List.mem_map.2 ⟨_, List.getElem_mem hjn, rfl⟩⟩
    refine ⟨_, change_of_lookup hv hl, nodeCells_kept g _ _ _ _ h.cells hv hl, ?_⟩
    intro i' j' hi' hj' hlt
    by_cases he : i' = i ∧ j' = j
    · obtain ⟨rfl, rfl⟩ := he
      refine ⟨row, row[j'], hrow, List.getElem?_eq_getElem hj, ?_⟩
      unfold Demand.upd
      simp only
      rw [lookup2_setCell, if_pos ⟨rfl, rfl⟩]
    · obtain ⟨r, v, h1, h2, h3⟩ := h.done i' j' hi' hj' (by omega)
      refine ⟨r, v, h1, h2, ?_⟩
      unfold Demand.upd
      simp only
      rw [lookup2_setCell, if_neg, h3]
      rintro ⟨a, b⟩
      exact he ⟨nodup_getElem_inj hd hi' hi a, nodup_getElem_inj hd hj' hjn b⟩

theorem stored_next {mx : List (List K)} {i : Nat} {d : Demand K} (h : Stored g mx i g.nodes.length d) :
    Stored g mx (i + 1) 0 d :=
  ⟨h.cells, fun i' j' hi hj hlt => h.done i' j' hi hj (by omega)⟩

theorem contentRow_ok (hd : DistinctIds g) {mx : List (List K)} {i : Nat} (hi : i < g.nodes.length)
    {row : List K} (hrow : mx[i]? = some row) {d : Demand K} (h : Stored g mx i 0 d) :
    (row.length ≠ g.nodes.length → contentRow g.nodes mx d i = .error .DemandMatrixIsNotValid) ∧
    (row.length = g.nodes.length → (∃ v ∈ row, v < 0) → contentRow g.nodes mx d i = .error .VijIsNotValid) ∧
    (row.length = g.nodes.length → (∀ v ∈ row, 0 ≤ v) →
      ∃ d', contentRow g.nodes mx d i = .ok d' ∧ Stored g mx (i + 1) 0 d') := by
  unfold contentRow
  rw [pyGet_eq_ok.2 hrow, py_ok_bind]
  refine ⟨?_, ?_, ?_⟩
  · intro hl; rw [raiseIf_pos (Ne.symm hl)]; rfl
  · intro hl hneg
    rw [raiseIf_neg (not_not.2 hl.symm), py_ok_bind, pyGet_lt hi, py_ok_bind]
    cases hr : List.foldlM (contentCell g.nodes g.nodes[i].id row) d (List.range row.length) with
    | ok d' =>
      exfalso
      have hall := foldlM_range_inv _ (fun j d => Stored g mx i j d ∧ ∀ j' (h : j' < row.length), j' < j → 0 ≤ row[j'])
        row.length (by
          rintro j s s' hj ⟨hp, hq⟩ hs
          obtain ⟨c1, c2⟩ := contentCell_ok hd hi hrow hl hj hp
          by_cases hv : row[j] < 0
          · rw [c1 hv] at hs; cases hs
          · obtain ⟨d1, e1, e2⟩ := c2 (not_lt.1 hv)
            rw [e1] at hs; cases hs
            refine ⟨e2, ?_⟩
            intro j' hj' hlt
            by_cases hjj : j' = j
            · subst hjj; exact not_lt.1 hv
            · exact hq j' hj' (by omega)) ⟨h, by intro j' _ h0; omega⟩ hr
      obtain ⟨v, hv, hneg⟩ := hneg
      obtain ⟨j, hj, rfl⟩ := List.mem_iff_getElem.1 hv
      exact absurd (hall.2 j hj hj) (not_le.2 hneg)
    | error e =>
      obtain ⟨j, s, hj, hp, hf⟩ := foldlM_range_error _ (fun j d => Stored g mx i j d) row.length (by
          intro j s s' hj hp hs
          obtain ⟨c1, c2⟩ := contentCell_ok hd hi hrow hl hj hp
          by_cases hv : row[j] < 0
          · rw [c1 hv] at hs; cases hs
          · obtain ⟨d1, e1, e2⟩ := c2 (not_lt.1 hv)
            rw [e1] at hs; cases hs
            exact e2) h hr
      obtain ⟨c1, c2⟩ := contentCell_ok hd hi hrow hl hj hp
      by_cases hv : row[j] < 0
      · rw [c1 hv] at hf; cases hf; rfl
      · obtain ⟨d1, e1, e2⟩ := c2 (not_lt.1 hv)
        rw [e1] at hf; cases hf
  · intro hl hnn
    rw [raiseIf_neg (not_not.2 hl.symm), py_ok_bind, pyGet_lt hi, py_ok_bind]
    obtain ⟨d', h1, h2⟩ := foldlM_range_progress (contentCell g.nodes g.nodes[i].id row)
      (fun j d => Stored g mx i j d) row.length (by
        intro j s hj hp
        exact (contentCell_ok hd hi hrow hl hj hp).2 (hnn _ (List.getElem_mem hj))) h
    exact ⟨d', h1, stored_next (hl ▸ h2)⟩

theorem stored_init [IsStrictOrderedRing K] (g : Graph K) (mx : List (List K)) : Stored g mx 0 0 (Demand.init g) :=
  ⟨nodeCells_init g, by intro i' j' _ _ h; omega⟩

theorem buildFromContent_ok [IsStrictOrderedRing K] {g : Graph K} (hd : DistinctIds g) {mx : List (List K)}
    (h : ContentOk g mx) : ∃ d, Demand.buildFromContent g mx = .ok d ∧ Stored g mx mx.length 0 d := by
  unfold Demand.buildFromContent
  rw [raiseIf_neg (not_not.2 h.rows.symm), py_ok_bind]
  exact foldlM_range_progress (contentRow g.nodes mx) (fun i d => Stored g mx i 0 d) mx.length (by
    intro i s hi hp
    have hin : i < g.nodes.length := h.rows ▸ hi
    have hm := List.getElem_mem hi
    exact (contentRow_ok hd hin (List.getElem?_eq_getElem hi) hp).2.2 (h.cols _ hm) (h.nonneg _ hm))
    (stored_init g mx)

theorem buildFromContent_error [IsStrictOrderedRing K] {g : Graph K} (hd : DistinctIds g) {mx : List (List K)}
    (h : ¬ ContentOk g mx) :
    (Demand.buildFromContent g mx = .error .DemandMatrixIsNotValid ∧
      (mx.length ≠ g.nodes.length ∨ ∃ row ∈ mx, row.length ≠ g.nodes.length)) ∨
    (Demand.buildFromContent g mx = .error .VijIsNotValid ∧ ∃ row ∈ mx, ∃ v ∈ row, v < 0) := by
  unfold Demand.buildFromContent
  by_cases hl : g.nodes.length = mx.length
  · rw [raiseIf_neg (not_not.2 hl), py_ok_bind]
    cases hr : List.foldlM (contentRow g.nodes mx) (Demand.init g) (List.range mx.length) with
    | ok d' =>
      exfalso
      apply h
      have := foldlM_range_inv _ (fun i d => Stored g mx i 0 d ∧ ∀ i' (hi' : i' < mx.length), i' < i →
        mx[i'].length = g.nodes.length ∧ ∀ v ∈ mx[i'], 0 ≤ v) mx.length (by
          rintro i s s' hi ⟨hp, hq⟩ hs
          have hin : i < g.nodes.length := hl ▸ hi
          obtain ⟨c1, c2, c3⟩ := contentRow_ok hd hin (List.getElem?_eq_getElem hi) hp
          by_cases hlen : mx[i].length = g.nodes.length
          · by_cases hneg : ∃ v ∈ mx[i], v < 0
            · rw [c2 hlen hneg] at hs; cases hs
            · have hnn : ∀ v ∈ mx[i], 0 ≤ v := fun v hv => not_lt.1 (fun hlt => hneg ⟨v, hv, hlt⟩)
              obtain ⟨d1, e1, e2⟩ := c3 hlen hnn
              rw [e1] at hs; cases hs
              refine ⟨e2, ?_⟩
              intro i' hi' hlt
              by_cases hii : i' = i
              · subst hii; exact ⟨hlen, hnn⟩
              · exact hq i' hi' (by omega)
          · rw [c1 hlen] at hs; cases hs) ⟨stored_init g mx, by intro i' _ h0; omega⟩ hr
      refine ⟨hl.symm, ?_, ?_⟩
      · intro row hrow
        obtain ⟨i, hi, rfl⟩ := List.mem_iff_getElem.1 hrow
        exact (this.2 i hi hi).1
      · intro row hrow
        obtain ⟨i, hi, rfl⟩ := List.mem_iff_getElem.1 hrow
        exact (this.2 i hi hi).2
    | error e =>
      obtain ⟨i, s, hi, hp, hf⟩ := foldlM_range_error _ (fun i d => Stored g mx i 0 d) mx.length (by
          intro i s s' hi hp hs
          have hin : i < g.nodes.length := hl ▸ hi
          obtain ⟨c1, c2, c3⟩ := contentRow_ok hd hin (List.getElem?_eq_getElem hi) hp
          by_cases hlen : mx[i].length = g.nodes.length
          · by_cases hneg : ∃ v ∈ mx[i], v < 0
            · rw [c2 hlen hneg] at hs; cases hs
            · obtain ⟨d1, e1, e2⟩ := c3 hlen (fun v hv => not_lt.1 (fun hlt => hneg ⟨v, hv, hlt⟩))
              rw [e1] at hs; cases hs; exact e2
          · rw [c1 hlen] at hs; cases hs) (stored_init g mx) hr
      have hin : i < g.nodes.length := hl ▸ hi
      obtain ⟨c1, c2, c3⟩ := contentRow_ok hd hin (List.getElem?_eq_getElem hi) hp
      by_cases hlen : mx[i].length = g.nodes.length
      · by_cases hneg : ∃ v ∈ mx[i], v < 0
        · rw [c2 hlen hneg] at hf; cases hf
          exact Or.inr ⟨rfl, mx[i], List.getElem_mem hi, hneg⟩
        · obtain ⟨d1, e1, e2⟩ := c3 hlen (fun v hv => not_lt.1 (fun hlt => hneg ⟨v, hv, hlt⟩))
          rw [e1] at hf; cases hf
      · rw [c1 hlen] at hf; cases hf
        exact Or.inl ⟨rfl, Or.inr ⟨mx[i], List.getElem_mem hi, hlen⟩⟩
  · rw [raiseIf_pos hl]
    exact Or.inl ⟨rfl, Or.inl (fun e => hl e.symm)⟩

/-! ### CSV -/

variable [NumText K]

/-- the cells of a matrix in file order -/
def matrixEntries (m : Dict Int (Dict Int K)) : List (Int × Int × K) := m.flatMap fun r => r.2.map fun c => (r.1, c.1, c.2)

theorem splitOn_lines {ls : List Str} (h : ∀ l ∈ ls, '\n' ∉ l) :
    splitOn '\n' (ls.flatMap fun l => l ++ ['\n']) = ls ++ [[]] := by
  induction ls with
  | nil => rfl
  | cons l t ih =>
    have := ih (fun x hx => h x (List.mem_cons_of_mem _ hx))
    simp only [List.flatMap_cons, List.append_assoc, List.singleton_append]
    rw [splitOn_append_sep _ (fun c hc e => h l List.mem_cons_self (by rw [← e]; exact hc)), this]
    rfl

theorem readLines_lines {ls : List Str} (h : ∀ l ∈ ls, '\n' ∉ l) :
    readLines (ls.flatMap fun l => l ++ ['\n']) = ls := by
  unfold readLines
  simp only [splitOn_lines h]
  simp

theorem printsWell_no_newline {v : K} (h : PrintsWell v) : '\n' ∉ (NumText.fmt v : Str) := by
  intro hc
  have := (h.2 _ hc).2
  simp [isSpace] at this

theorem csvLine_no_newline (o e : Int) {v : K} (h : PrintsWell v) : '\n' ∉ csvLine o e v := by
  unfold csvLine
  intro hc
  simp only [List.mem_append, List.mem_cons] at hc
  rcases hc with hc | hc | hc | hc | hc
  · exact (showInt_ne_newline o _ hc) rfl
  · simp at hc
  · exact (showInt_ne_newline e _ hc) rfl
  · simp at hc
  · exact printsWell_no_newline h hc

theorem csvStep_line (d : Demand K) (o e : Int) {v : K} (h : PrintsWell v) :
    csvStep d (csvLine o e v) = d.change o e v := by
  unfold csvStep csvLine
  rw [splitOn_append_sep _ (showInt_ne_comma o), splitOn_append_sep _ (showInt_ne_comma e),
    splitOn_of_not_mem (fun c hc => (h.2 c hc).1)]
  simp only [pyInt_showInt]
  have : strip (NumText.fmt v : Str) = NumText.fmt v := by
    apply strip_eq_self
    intro c hc
    exact (h.2 c hc).2
  rw [this, h.1]

theorem matrixEntries_eq {m : Dict Int (Dict Int K)} (hn : KeysNodup m) :
    matrixEntries m = (matrixKeys m).map fun k => (k.1, k.2, (lookup2 m k.1 k.2).getD 0) := by
  unfold matrixEntries matrixKeys
  rw [List.map_flatMap, List.flatMap_def, List.flatMap_def]
  congr 1
  apply List.map_congr_left
  intro r hr
  rw [List.map_map]
  apply List.map_congr_left
  intro c hc
  have h1 := Dict.get?_of_mem m hn.1 (k := r.1) (v := r.2) hr
  have h2 := Dict.get?_of_mem r.2 (hn.2 r hr) (k := c.1) (v := c.2) hc
  simp [lookup2, h1, h2]

theorem buildFromFile_toCsv [IsStrictOrderedRing K] {g : Graph K} {d : Demand K} (h : d.NodeCells g)
    (hc : d.Consistent) (hp : ∀ o e v, lookup2 d.matrix o e = some v → PrintsWell v) :
    Demand.buildFromFile g d.toCsv = .ok d := by
  have hn := nodeCells_nodup h
  have hval : ∀ k ∈ matrixKeys d.matrix, ∃ v, lookup2 d.matrix k.1 k.2 = some v ∧ 0 ≤ v ∧ PrintsWell v := by
    intro k hk
    obtain ⟨v, hv⟩ := Option.isSome_iff_exists.1 ((mem_matrixKeys hn k).1 hk)
    exact ⟨v, hv, h.nonneg _ _ _ hv, hp _ _ _ hv⟩
  have hfile : readLines d.toCsv = "origin,destination,vij".toList ::
      (matrixKeys d.matrix).map fun k => csvLine k.1 k.2 ((lookup2 d.matrix k.1 k.2).getD 0) := by
    have : d.toCsv = ("origin,destination,vij".toList ::
      (matrixKeys d.matrix).map fun k => csvLine k.1 k.2 ((lookup2 d.matrix k.1 k.2).getD 0)).flatMap
        fun l => l ++ ['\n'] := by
      unfold Demand.toCsv
      have e := matrixEntries_eq hn
      unfold matrixEntries at e
      rw [e, List.flatMap_map, List.flatMap_cons, List.flatMap_map]
      rfl
    rw [this]
    apply readLines_lines
    intro l hl
    rcases List.mem_cons.1 hl with rfl | hl
    · decide
    · obtain ⟨k, hk, rfl⟩ := List.mem_map.1 hl
      obtain ⟨v, hv, _, hw⟩ := hval k hk
      rw [hv]
      exact csvLine_no_newline _ _ hw
  unfold Demand.buildFromFile
  rw [hfile, List.drop_succ_cons, List.drop_zero, List.foldlM_map]
  obtain ⟨d', h1, h2, h3, h4⟩ := fold_cells
    (f := fun s k => csvStep s (csvLine k.1 k.2 ((lookup2 d.matrix k.1 k.2).getD 0)))
    (val := fun k => lookup2 d.matrix k.1 k.2) (nodup_matrixKeys hn) (d0 := Demand.init g)
    (fun s k hk hg hl => by
      obtain ⟨v, hv, h0, hw⟩ := hval k hk
      simp only [hv, Option.getD_some]
      rw [csvStep_line _ _ _ hw, change_of_lookup h0 hl])
    (fun k hk => by
      show (lookup2 (defaultMatrix g.nodes) k.1 k.2).isSome = true
      rw [lookup2_isSome_of_shape (m' := d.matrix) h.shape.symm]
      exact (mem_matrixKeys hn k).1 hk)
  rw [h1]
  have hcons : d'.Consistent := foldlM_invariant _ Demand.Consistent _
      (fun s k s' _ hp hq => kept_csvStep (P := Demand.Consistent) (fun d o e v hd _ _ => consistent_upd hd o e v) hp hq)
      (consistent_init g) h1
  have hm : d'.matrix = d.matrix := by
    refine matrix_ext (h3.trans h.shape.symm) (keysNodup_of_shape h3.symm (defaultMatrix_allZero g.nodes).1) ?_
    intro o e
    rw [h4]
    cases hl : lookup2 d.matrix o e with
    | none =>
      have hk : (o, e) ∉ matrixKeys d.matrix := by
        rw [mem_matrixKeys hn]; simp [hl]
      rw [if_neg hk]
      have := lookup2_isSome_of_shape h.shape o e
      rw [hl] at this
      have h5 : lookup2 (defaultMatrix g.nodes) o e = none := by simpa using this.symm
      exact h5
    | some v =>
      have hk : (o, e) ∈ matrixKeys d.matrix := by
        rw [mem_matrixKeys hn]; simp [hl]
      rw [if_pos hk]
      simp [hl]
  have ht : d'.total = d.total := by rw [hcons, hc, hm]
  congr 1
  cases d; cases d'
  simp only at hm ht h2
  have hg := h.graph
  simp only at hg
  subst hm; subst ht; subst hg; subst h2
  rfl

end Sidermit
