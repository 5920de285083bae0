import Verif.Proofs.PajekText
import Verif.Proofs.GraphReal
import Verif.Proofs.RatText
import Verif.Spec.RatMath

/-!
# Properties of the text of a city (C16, C17)
-/

set_option linter.unusedSectionVars false

namespace Sidermit

section Generic

variable {K : Type} [Field K] [LinearOrder K] [IsStrictOrderedRing K] [PyMath K] [NumText K]

/-! ## C17: imported cities are well formed -/

omit [Field K] [LinearOrder K] [IsStrictOrderedRing K] [PyMath K] [NumText K] in
/-- **C17**, reading.  In a text with one `*vertices` line the nodes are the lines after it, as many as declared (or as there
are); each of them has the seven words of its row.  Nothing else is accepted, and all other lines are ignored. -/
theorem C17_reading {data : Str} {before after : List Str} {head : Str} (hdata : splitOn '\n' data = before ++ head :: after)
    (hb : ∀ l ∈ before, isVertices l = false) (hh : isVertices head = true) (ha : ∀ l ∈ after, isVertices l = false)
    (rows : List FileRow) :
    pajekRows data = .ok rows ↔
      ∃ k : Int, verticesCount head = .ok k ∧ List.Forall₂ LineOfRow (after.take k.toNat) rows :=
  pajekRows_iff hdata hb hh ha rows

/-- **C17.** The contents that give a city, and the city they give: the rows can be put in the order of a city (CBD, then
periphery and subcentre of zones 1 to n, n at most 4999), the nodes of different zones have different ids, the numbers can be
read and pass the checks of the nodes, and the nodes can be described by parameters.  The nodes of the city are those rows in
that order. -/
theorem C17_exact {data : Str} {rows : List FileRow} (hr : pajekRows data = .ok rows) (g : Graph K) :
    (buildFromContent data = .ok g ∧ g.nodes ≠ []) ↔
      ∃ n ns rows', n ≤ 4999 ∧ rows'.Perm rows ∧ List.Forall₂ NodeOfRow rows' ns ∧ (∀ nd ∈ ns, NodeOk nd) ∧
        CityOrder ns n ∧ IdsAcrossZones ns ∧ Describable ns ∧ g = describedCity ns n :=
  buildFromContent_iff hr g

omit [IsStrictOrderedRing K] [PyMath K] [NumText K] in
theorem cityShape_described {ns : List (Node K)} {n : Nat} (h : CityOrder ns n) : CityShape (describedCity ns n) n :=
  ⟨rfl, h.len, h.kind, h.zone, rfl, rfl⟩

theorem buildFromContent_rows {data : Str} {g : Graph K} (h : buildFromContent data = .ok g) :
    ∃ rows, pajekRows data = .ok rows := by
  unfold buildFromContent at h
  rw [py_bind_eq_ok] at h
  obtain ⟨rows, hr, _⟩ := h
  exact ⟨rows, hr⟩

/-- **C17.** An accepted content with at least one zone, or with a CBD, gives a well formed city: one CBD in zone 0, one
periphery and one subcentre in each of the zones 1 to n, and the streets of such a city; its nodes are the rows of the file. -/
theorem C17_well_formed {data : Str} {g : Graph K} (h : buildFromContent data = .ok g) (hne : g.n ≠ some 0 ∨ g.nodes ≠ []) :
    ∃ n : Nat, n ≤ 4999 ∧ CityShape g n ∧ IdsAcrossZones g.nodes ∧
      (∃ c, g.nodes.filter (fun nd => nd.kind = .cbd) = [c] ∧ c.zone = 0) ∧
      (∀ z : Nat, 1 ≤ z → z ≤ n → ∃ p sc, g.nodes.filter (fun nd => nd.zone = (z : Int)) = [p, sc] ∧
        p.kind = .periphery ∧ sc.kind = .subcenter) ∧
      ∃ rows rows', pajekRows data = .ok rows ∧ rows'.Perm rows ∧ List.Forall₂ NodeOfRow rows' g.nodes := by
  obtain ⟨rows, hr⟩ := buildFromContent_rows h
  have hnodes : g.nodes ≠ [] := by
    rcases hne with hne | hne
    · intro hnil
      have h' := h
      unfold buildFromContent at h'
      rw [hr] at h'
      simp only [py_ok_bind, raiseIf_bind_eq_ok, not_not] at h'
      obtain ⟨⟨hodd, hmax⟩, h'⟩ := h'
      rw [py_bind_eq_ok] at h'
      obtain ⟨ns, hns, h'⟩ := h'
      rw [mapM_readNode_iff] at hns
      have hlen : (sortRows rows).length = ns.length := hns.length_eq
      have hok : ∀ nd ∈ ns, NodeOk nd := by
        intro nd hnd
        obtain ⟨r, _, hR⟩ := forall₂_left_of_mem hns nd hnd
        exact hR.2
      have hn := cityFrom_n h'
      have hpos : 0 < ((sortRows rows).length - 1) / 2 := by
        apply Nat.pos_of_ne_zero
        intro h0
        rw [h0] at hn
        exact hne hn
      have hord := cityFrom_order hpos (by omega) (fun nd hnd => (hok nd hnd).cbd) (nodes_before hns (sortRows_sorted rows)) h'
      have := ((cityFrom_iff hord hok g).1 h').2.2
      rw [this] at hnil
      have hl := hord.len
      have e : (describedCity ns (((sortRows rows).length - 1) / 2)).nodes = ns := rfl
      rw [e] at hnil
      rw [hnil] at hl
      simp at hl
    · exact hne
  obtain ⟨n, ns, rows', h1, h2, h3, h4, h5, h6, h7, rfl⟩ := (C17_exact hr g).1 ⟨h, hnodes⟩
  refine ⟨n, h1, cityShape_described h5, h6, ?_, ?_, rows, rows', hr, h2, h3⟩
  · obtain ⟨at', hns, hat⟩ := h5.exists_at
    refine ⟨at' 0, ?_, ?_⟩
    · show ns.filter _ = _
      rw [hns]; exact (filters_at hat).1
    · rw [(hat 0 (by omega)).2]; rfl
  · intro z hz1 hz2
    obtain ⟨at', hns, hat⟩ := h5.exists_at
    obtain ⟨i, rfl⟩ : ∃ i, z = i + 1 := ⟨z - 1, by omega⟩
    refine ⟨at' (2 * i + 1), at' (2 * i + 2), ?_, ?_, ?_⟩
    · show ns.filter _ = _
      rw [hns, List.filter_map]
      have : (List.range (2 * n + 1)).filter ((fun nd : Node K => decide (nd.zone = ((i + 1 : Nat) : Int))) ∘ at') =
          [2 * i + 1, 2 * i + 2] := by
        have e1 : (List.range (2 * n + 1)).filter ((fun nd : Node K => decide (nd.zone = ((i + 1 : Nat) : Int))) ∘ at') =
            (List.range (2 * n + 1)).filter fun j => (j + 1) / 2 = i + 1 := by
          apply List.filter_congr
          intro j hj
          simp only [List.mem_range] at hj
          simp only [Function.comp, (hat j hj).2, zoneAt]
          congr 1
          apply propext
          exact ⟨fun h => by exact_mod_cast h, fun h => by exact_mod_cast h⟩
        rw [e1]
        have e2 : List.range (2 * n + 1) = List.range' 0 (2 * i + 1) ++ ([2 * i + 1, 2 * i + 2] ++ List.range' (2 * i + 3) (2 * n + 1 - (2 * i + 3))) := by
          rw [List.range_eq_range']
          have a1 : [2 * i + 1, 2 * i + 2] = List.range' (0 + (2 * i + 1)) 2 := by simp [List.range']
          rw [a1]
          have a2 : List.range' (2 * i + 3) (2 * n + 1 - (2 * i + 3)) = List.range' (0 + (2 * i + 1) + 2) (2 * n + 1 - (2 * i + 3)) := by
            congr 1; omega
          rw [a2]
          rw [List.range'_append_1, List.range'_append_1]
          congr 1; omega
        rw [e2, List.filter_append, List.filter_append]
        have b1 : (List.range' 0 (2 * i + 1)).filter (fun j => decide ((j + 1) / 2 = i + 1)) = [] := by
          rw [List.filter_eq_nil_iff]; intro a ha; simp only [List.mem_range'_1] at ha; simp; omega
        have b2 : (List.range' (2 * i + 3) (2 * n + 1 - (2 * i + 3))).filter (fun j => decide ((j + 1) / 2 = i + 1)) = [] := by
          rw [List.filter_eq_nil_iff]; intro a ha; simp only [List.mem_range'_1] at ha; simp; omega
        have b3 : [2 * i + 1, 2 * i + 2].filter (fun j => decide ((j + 1) / 2 = i + 1)) = [2 * i + 1, 2 * i + 2] := by
          rw [List.filter_eq_self]; intro a ha; simp at ha; simp; omega
        rw [b1, b2, b3]; rfl
      rw [this]; rfl
    · rw [(hat _ (by omega)).1]; unfold kindAt; rw [if_neg (by omega), if_pos (by omega)]
    · rw [(hat _ (by omega)).1]; unfold kindAt; rw [if_neg (by omega), if_neg (by omega)]

/-- **C17**, ids.  All ids are different exactly when no zone has the same id for its periphery and its subcentre; the code
does not check that (see `C17_shared_id`), so the distinctness that users rely on needs this hypothesis. -/
theorem C17_distinct_partial {data : Str} {g : Graph K} (h : buildFromContent data = .ok g) (hne : g.nodes ≠ []) :
    DistinctIds g ↔ ∀ p ∈ g.nodes, ∀ sc ∈ g.nodes, p.kind = .periphery → sc.kind = .subcenter → p.zone = sc.zone → p.id ≠ sc.id := by
  obtain ⟨n, _, hs, hids, _⟩ := C17_well_formed h (Or.inr hne)
  constructor
  · intro hd p hp sc hsc hkp hks _ he
    have : p = sc := List.inj_on_of_nodup_map hd hp hsc he
    rw [this, hks] at hkp
    cases hkp
  · intro hz
    unfold DistinctIds
    rw [List.Nodup, List.pairwise_map]
    refine (List.pairwise_iff_getElem.2 ?_)
    intro j k hj hk hjk he
    have h1 := List.pairwise_iff_getElem.1 hids j k hj hk hjk
    have ej := List.getElem?_eq_getElem hj
    have ek := List.getElem?_eq_getElem hk
    by_cases hzz : g.nodes[j].zone = g.nodes[k].zone
    · have z1 := hs.zone j _ ej
      have z2 := hs.zone k _ ek
      have k1 := hs.kind j _ ej
      have k2 := hs.kind k _ ek
      rw [hzz, z2] at z1
      have : (k + 1) / 2 = (j + 1) / 2 := by unfold zoneAt at z1; exact_mod_cast z1
      refine hz _ (List.getElem_mem hj) _ (List.getElem_mem hk) ?_ ?_ hzz he
      · rw [k1]; unfold kindAt; rw [if_neg (by omega), if_pos (by omega)]
      · rw [k2]; unfold kindAt; rw [if_neg (by omega), if_neg (by omega)]
    · exact h1 hzz he

/-- **C17**, rejections: an even number of rows, or more than 9999, is reported before any number of the rows is read. -/
theorem C17_number_of_rows {data : Str} {rows : List FileRow} (hr : pajekRows data = .ok rows)
    (h : rows.length % 2 = 0 ∨ 9999 < rows.length) :
    (buildFromContent data : Py (Graph K)) = .error .LineNumberInFileIsNotValid := by
  unfold buildFromContent
  rw [hr]
  simp only [py_ok_bind]
  rw [raiseIf_pos]
  · rfl
  · rw [(sortRows_perm rows).length_eq]
    unfold acceptedRows
    omega

omit [Field K] [LinearOrder K] [IsStrictOrderedRing K] [PyMath K] [NumText K] in
/-- **C17**, rejections: the first line of a node that is not the text of a row is reported, as an error of the format without
seven words, otherwise of its type, of its id or of its zone, in this order. -/
theorem C17_bad_line {data : Str} {before good after : List Str} {head bad : Str} {k : Int} {rows : List FileRow}
    (hdata : splitOn '\n' data = before ++ head :: (good ++ bad :: after))
    (hb : ∀ l ∈ before, isVertices l = false) (hh : isVertices head = true) (hk : verticesCount head = .ok k)
    (hlt : good.length < k.toNat) (hg : ∀ l ∈ good, isVertices l = false) (hgood : List.Forall₂ LineOfRow good rows)
    (hbad : isVertices bad = false) :
    ((splitWs bad).length ≠ 7 → pajekRows data = .error .PajekFormatIsNotValid) ∧
    (∀ i name x y t z w, splitWs bad = [i, name, x, y, t, z, w] →
      ((∀ c : Kind, t ≠ c.text) → pajekRows data = .error .NodeTypeIsNotValid) ∧
      (∀ c : Kind, t = c.text → pyInt i = none → pajekRows data = .error .NodeIdIsNotAnInteger) ∧
      (∀ (c : Kind) (id : Int), t = c.text → pyInt i = some id → pyInt z = none →
        pajekRows data = .error .ZoneIdIsNotAnInteger)) := by
  have key : ∀ e, rowOfLine bad = .error e → pajekRows data = .error e := by
    intro e he
    unfold pajekRows
    rw [hdata, foldlM_append, fileLines_skip before hb]
    simp only [py_ok_bind]
    rw [foldlM_cons]
    have hstep : fileStep (0, []) head = .ok (k, []) := by
      unfold fileStep; simp only [hh, if_true, hk]; rfl
    rw [hstep]
    simp only [py_ok_bind]
    rw [foldlM_append]
    have hgen : ∀ (good : List Str) (rows acc : List FileRow) (k : Int), good.length < k.toNat →
        (∀ l ∈ good, isVertices l = false) → List.Forall₂ LineOfRow good rows →
        good.foldlM fileStep (k, acc) = .ok (k - good.length, acc ++ rows) := by
      intro good
      induction good with
      | nil => intro rows acc k _ _ hf; cases hf; simp
      | cons l t ih =>
        intro rows acc k hlt hno hf
        cases hf with
        | cons h1 h2 =>
          rename_i r rs
          rw [foldlM_cons]
          have : fileStep (k, acc) l = .ok (k - 1, acc ++ [r]) := by
            unfold fileStep
            simp only [hno l List.mem_cons_self, Bool.false_eq_true, if_false]
            have : k > 0 := by simp at hlt; omega
            simp only [this, if_true, rowOfLine_iff.2 h1]
            rfl
          rw [this]
          simp only [py_ok_bind]
          rw [ih rs _ (k - 1) (by simp at hlt; omega) (fun l' hl' => hno l' (List.mem_cons_of_mem _ hl')) h2]
          simp
          omega
    rw [hgen good rows [] k hlt hg hgood]
    simp only [py_ok_bind]
    rw [foldlM_cons]
    have : fileStep (k - good.length, [] ++ rows) bad = .error e := by
      unfold fileStep
      simp only [hbad, Bool.false_eq_true, if_false]
      have : k - (good.length : Int) > 0 := by omega
      simp only [this, if_true, he]
      rfl
    rw [this]
    rfl
  refine ⟨?_, ?_⟩
  · intro h
    apply key
    unfold rowOfLine
    split
    · rename_i hw; rw [hw] at h; simp at h
    · rfl
  · intro i name x y t z w hw
    refine ⟨?_, ?_, ?_⟩
    · intro ht
      apply key
      have : kindOf t = none := by
        cases hkk : kindOf t with
        | none => rfl
        | some c => exact absurd (kindOf_iff.1 hkk) (ht c)
      unfold rowOfLine
      rw [hw]
      simp only [mkRow, this]
    · intro c ht hi
      apply key
      unfold rowOfLine
      rw [hw]
      simp only [mkRow, kindOf_iff.2 ht, hi]
    · intro c id ht hi hz
      apply key
      unfold rowOfLine
      rw [hw]
      simp only [mkRow, kindOf_iff.2 ht, hi, hz]

/-! ## C16: export and import -/

omit [Field K] [LinearOrder K] [IsStrictOrderedRing K] [PyMath K] in
/-- **C16**, the text: reading the exported text gives one row per node, in the same order, with its id, name, type and zone
and the printed coordinates and width. -/
theorem C16_text (g : Graph K) (h : ∀ nd ∈ g.nodes, Writable nd) :
    ∃ rows, pajekRows g.exportPajek = .ok rows ∧
      List.Forall₂ (fun r nd => r.id = nd.id ∧ r.name = nd.name ∧ r.kind = nd.kind ∧ r.zone = nd.zone ∧
        NumText.parse r.x = some nd.x ∧ NumText.parse r.y = some nd.y ∧ NumText.parse r.width = some nd.width) rows g.nodes := by
  refine ⟨_, pajekRows_export g h, ?_⟩
  rw [List.forall₂_map_left_iff, List.forall₂_same]
  intro nd hnd
  exact ⟨rfl, rfl, rfl, rfl, (h nd hnd).x.1, (h nd hnd).y.1, (h nd hnd).width.1⟩

/-- **C16.** For every city, with at most 4999 zones, whose numbers read back: its export is accepted exactly when its nodes,
with radius and angle taken from the coordinates, pass the checks of nodes, ids and parameters; and the result has those
nodes, in the same order, and the same zones and edges. -/
theorem C16_round_trip {g : Graph K} {n : Nat} (hs : CityShape g n) (hw : ∀ nd ∈ g.nodes, Writable nd) (g' : Graph K) :
    buildFromContent g.exportPajek = .ok g' ↔
      n ≤ 4999 ∧ ∃ ns, List.Forall₂ Remeasured g.nodes ns ∧ (∀ nd ∈ ns, NodeOk nd) ∧ IdsAcrossZones ns ∧ Describable ns ∧
        g' = describedCity ns n := by
  have hr := pajekRows_export g hw
  have hlen : (g.nodes.map rowOfNode).length = 2 * n + 1 := by simp [hs.len]
  have hrow : ∀ nd ∈ g.nodes, ∀ nd', NodeOfRow (rowOfNode nd) nd' ↔ Remeasured nd nd' := by
    intro nd hnd nd'
    constructor
    · intro h
      have hx : nd'.x = nd.x := Option.some.inj (h.x.symm.trans (hw nd hnd).x.1)
      have hy : nd'.y = nd.y := Option.some.inj (h.y.symm.trans (hw nd hnd).y.1)
      have hwd : nd'.width = nd.width := Option.some.inj (h.width.symm.trans (hw nd hnd).width.1)
      exact ⟨h.id, h.name, h.kind, h.zone, hx, hy, hwd, by rw [← hx, ← hy]; exact h.radius,
        by rw [← hx, ← hy]; exact h.angle⟩
    · intro h
      exact ⟨h.id, h.name, h.kind, h.zone, by rw [h.x]; exact (hw nd hnd).x.1, by rw [h.y]; exact (hw nd hnd).y.1,
        by rw [h.width]; exact (hw nd hnd).width.1, by rw [h.x, h.y]; exact h.radius, by rw [h.x, h.y]; exact h.angle⟩
  have hf2 : ∀ ns, List.Forall₂ NodeOfRow (g.nodes.map rowOfNode) ns ↔ List.Forall₂ Remeasured g.nodes ns := by
    intro ns
    rw [List.forall₂_map_left_iff, List.forall₂_iff_get, List.forall₂_iff_get]
    refine and_congr_right fun _ => forall_congr' fun i => forall_congr' fun h1 => forall_congr' fun h2 => ?_
    exact hrow _ (List.get_mem g.nodes ⟨i, h1⟩) _
  have hord : ∀ ns, List.Forall₂ Remeasured g.nodes ns → CityOrder ns n := by
    intro ns hf
    have hl : ns.length = 2 * n + 1 := by rw [← hf.length_eq, hs.len]
    have hget : ∀ (j : Nat) (nd : Node K), ns[j]? = some nd → ∃ nd0, g.nodes[j]? = some nd0 ∧ Remeasured nd0 nd := by
      intro j nd hj
      obtain ⟨h2, rfl⟩ := List.getElem?_eq_some_iff.1 hj
      have h1 : j < g.nodes.length := by rw [hf.length_eq]; exact h2
      exact ⟨g.nodes[j], List.getElem?_eq_getElem h1, hf.get h1 h2⟩
    refine ⟨hl, ?_, ?_⟩
    · intro j nd hj
      obtain ⟨nd0, h0, hR⟩ := hget j nd hj
      rw [hR.kind]; exact hs.kind j _ h0
    · intro j nd hj
      obtain ⟨nd0, h0, hR⟩ := hget j nd hj
      rw [hR.zone]; exact hs.zone j _ h0
  constructor
  · intro h
    -- the graph is not empty: the first row is the CBD
    have hne : g'.nodes ≠ [] := by
      by_cases h0 : n = 0
      · subst h0
        have h' := h
        unfold buildFromContent at h'
        rw [hr] at h'
        simp only [py_ok_bind, raiseIf_bind_eq_ok, not_not] at h'
        obtain ⟨_, h'⟩ := h'
        rw [py_bind_eq_ok] at h'
        obtain ⟨ns, hns, h'⟩ := h'
        rw [mapM_readNode_iff] at hns
        have hl1 : (sortRows (g.nodes.map rowOfNode)).length = 1 := by rw [(sortRows_perm _).length_eq, hlen]
        rw [hl1] at h'
        obtain ⟨c, hc⟩ := List.length_eq_one_iff.1 (show g.nodes.length = 1 by rw [hs.len])
        rw [hc] at hns
        have e1 : sortRows (List.map rowOfNode [c]) = [rowOfNode c] := rfl
        rw [e1] at hns
        cases hns with
        | cons h1 h2 =>
          cases h2
          have hz := cityFrom_zero h'
          rename_i nd
          have hk : nd.kind = .cbd := by
            rw [h1.1.kind]
            exact hs.kind 0 c (by rw [hc]; rfl)
          rw [hz]
          simp [hk]
      · intro hnil
        have h' := h
        obtain ⟨m, _, hs', _⟩ := C17_well_formed h (Or.inl (by
          have h' := h
          unfold buildFromContent at h'
          rw [hr] at h'
          simp only [py_ok_bind, raiseIf_bind_eq_ok, not_not] at h'
          obtain ⟨_, h'⟩ := h'
          rw [py_bind_eq_ok] at h'
          obtain ⟨ns, _, h'⟩ := h'
          rw [cityFrom_n h', (sortRows_perm _).length_eq, hlen]
          intro hc
          have := Option.some.inj hc
          omega))
        have := hs'.len
        rw [hnil] at this
        simp at this
    obtain ⟨m, ns, rows', h1, h2, h3, h4, h5, h6, h7, h8⟩ := (C17_exact hr g').1 ⟨h, hne⟩
    have hm : m = n := by
      have e := h5.len
      rw [← h3.length_eq, h2.length_eq, hlen] at e
      omega
    subst hm
    -- the rows are already in order
    obtain ⟨ns0, hns0⟩ : ∃ ns0 : List FileRow, ns0 = g.nodes.map rowOfNode := ⟨_, rfl⟩
    have hsort := sortRows_city h2 h3 h5
    have hsorted : sortRows (g.nodes.map rowOfNode) = g.nodes.map rowOfNode := by
      apply sortRows_of_sorted
      rw [List.pairwise_iff_getElem]
      intro j k hj hk hjk
      simp only [List.length_map] at hj hk
      unfold FileRow.Before
      simp only [List.getElem_map, rowOfNode]
      rw [hs.kind j _ (List.getElem?_eq_getElem hj), hs.zone j _ (List.getElem?_eq_getElem hj),
        hs.kind k _ (List.getElem?_eq_getElem hk), hs.zone k _ (List.getElem?_eq_getElem hk)]
      exact before_at hjk
    rw [hsorted] at hsort
    rw [← hsort, hf2] at h3
    exact ⟨h1, ns, h3, h4, h6, h7, h8⟩
  · rintro ⟨h1, ns, h2, h3, h4, h5, h6⟩
    exact ((C17_exact hr g').2 ⟨n, ns, _, h1, List.Perm.refl _, (hf2 ns).2 h2, h3, hord ns h2, h4, h5, h6⟩).1

/-- **C16**, what is kept: ids, names, types, zones, coordinates, widths, in the same order, and the zones and edges. -/
theorem C16_kept {g g' : Graph K} {n : Nat} (hs : CityShape g n) (hw : ∀ nd ∈ g.nodes, Writable nd)
    (h : buildFromContent g.exportPajek = .ok g') :
    g'.nodes.map (fun nd => (nd.id, nd.name, nd.x, nd.y, nd.kind, nd.zone, nd.width)) =
      g.nodes.map (fun nd => (nd.id, nd.name, nd.x, nd.y, nd.kind, nd.zone, nd.width)) ∧
    g'.zones = g.zones ∧ g'.edges = g.edges ∧ g'.n = g.n := by
  obtain ⟨_, ns, hf, a1, a2, a3, rfl⟩ := (C16_round_trip hs hw g').1 h
  refine ⟨?_, hs.zones.symm, hs.edges.symm, hs.n_eq.symm⟩
  show ns.map _ = _
  clear hs hw h a1 a2 a3
  generalize g.nodes = l at hf
  induction hf with
  | nil => rfl
  | cons h1 _ ih =>
    rw [List.map_cons, List.map_cons, ih, h1.id, h1.name, h1.x, h1.y, h1.kind, h1.zone, h1.width]

/-- **C16**, imported cities: exporting a city that came from a file and importing it again gives exactly the same city, with
the same parameters, when its numbers read back. -/
theorem C16_imported {data : Str} {g : Graph K} (h : buildFromContent data = .ok g) (hne : g.nodes ≠ [])
    (hn : ∀ nd ∈ g.nodes, ReadsBack nd.x ∧ ReadsBack nd.y ∧ ReadsBack nd.width) :
    buildFromContent g.exportPajek = .ok g := by
  obtain ⟨rows, hr⟩ := buildFromContent_rows h
  obtain ⟨n, ns, rows', h1, h2, h3, h4, h5, h6, h7, rfl⟩ := (C17_exact hr g).1 ⟨h, hne⟩
  have hrow : ∀ nd ∈ ns, ∃ r ∈ rows', NodeOfRow r nd := fun nd hnd => forall₂_left_of_mem h3 nd hnd
  rw [C16_round_trip (cityShape_described h5) (n := n)]
  · refine ⟨h1, ns, ?_, h4, h6, h7, rfl⟩
    show List.Forall₂ Remeasured ns ns
    rw [List.forall₂_same]
    intro nd hnd
    obtain ⟨r, _, hR⟩ := hrow nd hnd
    exact ⟨rfl, rfl, rfl, rfl, rfl, rfl, rfl, hR.radius, hR.angle⟩
  · intro nd hnd
    obtain ⟨r, hrm, hR⟩ := hrow nd hnd
    refine ⟨?_, (hn nd hnd).1, (hn nd hnd).2.1, (hn nd hnd).2.2⟩
    rw [hR.name]
    exact pajekRows_words hr r (h2.mem_iff.1 hrm)

/-- **C16**, cities with more than 4999 zones are exported but the text is not accepted. -/
theorem C16_too_many_zones {g : Graph K} {n : Nat} (hs : CityShape g n) (hw : ∀ nd ∈ g.nodes, Writable nd) (hn : 4999 < n) :
    (buildFromContent g.exportPajek : Py (Graph K)) = .error .LineNumberInFileIsNotValid := by
  apply C17_number_of_rows (pajekRows_export g hw)
  right
  rw [List.length_map, hs.len]
  omega

end Generic

end Sidermit
