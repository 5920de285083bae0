import Verif.Proofs.Pajek

/-! Reading and writing the text of a city. -/

set_option linter.unusedSectionVars false
set_option linter.unusedSimpArgs false

namespace Sidermit

variable {K : Type}

/-! ### lines -/

theorem kindOf_iff {s : Str} {k : Kind} : kindOf s = some k ↔ s = k.text := by
  unfold kindOf
  constructor
  · intro h
    split at h
    · cases h; assumption
    · split at h
      · cases h; assumption
      · split at h
        · cases h; assumption
        · cases h
  · rintro rfl
    cases k <;> decide

theorem rowOfLine_iff {line : Str} {r : FileRow} : rowOfLine line = .ok r ↔ LineOfRow line r := by
  unfold rowOfLine LineOfRow
  constructor
  · intro h
    split at h
    · rename_i i name x y k z w hw
      unfold mkRow at h
      split at h
      · cases h
      · rename_i kd hk
        split at h
        · cases h
        · rename_i i' hi
          split at h
          · cases h
          · rename_i z' hz
            cases h
            rw [kindOf_iff] at hk
            exact ⟨i, z, by rw [hw, hk], hi, hz⟩
    · cases h
  · rintro ⟨i, z, hw, hi, hz⟩
    rw [hw]
    simp only
    unfold mkRow
    rw [kindOf_iff.2 rfl]
    simp only [hi, hz]

/-- lines without a `*vertices` line: the declared number of rows is read, or as many as there are -/
theorem fileLines_iff (lines : List Str) (hno : ∀ l ∈ lines, isVertices l = false) (k : Int) (acc rows : List FileRow) :
    (∃ k', lines.foldlM fileStep (k, acc) = .ok (k', rows)) ↔
      ∃ rs, List.Forall₂ LineOfRow (lines.take k.toNat) rs ∧ rows = acc ++ rs := by
  induction lines generalizing k acc with
  | nil =>
    simp only [foldlM_nil, List.take_nil, List.forall₂_nil_left_iff]
    constructor
    · rintro ⟨k', h⟩; cases h; exact ⟨[], rfl, by simp⟩
    · rintro ⟨rs, rfl, rfl⟩; exact ⟨k, by simp⟩
  | cons l t ih =>
    have hl : isVertices l = false := hno l List.mem_cons_self
    have ht := fun l' hl' => hno l' (List.mem_cons_of_mem _ hl')
    rw [foldlM_cons]
    unfold fileStep
    simp only [hl, Bool.false_eq_true, if_false]
    by_cases hk : k > 0
    · simp only [hk, if_true, py_pure]
      obtain ⟨m, hm⟩ : ∃ m, k.toNat = m + 1 := ⟨k.toNat - 1, by omega⟩
      have hm' : (k - 1).toNat = m := by omega
      rw [hm, List.take_succ_cons]
      constructor
      · rintro ⟨k', h⟩
        rw [bind_assoc, py_bind_eq_ok] at h
        obtain ⟨r, hr, h⟩ := h
        simp only [py_ok_bind] at h
        obtain ⟨rs, h1, h2⟩ := (ih ht (k - 1) (acc ++ [r])).1 ⟨k', h⟩
        rw [hm'] at h1
        exact ⟨r :: rs, .cons (rowOfLine_iff.1 hr) h1, by simp [h2]⟩
      · rintro ⟨rs, h1, rfl⟩
        cases h1 with
        | cons hr h1 =>
          rename_i r rs
          obtain ⟨k', hk'⟩ := (ih ht (k - 1) (acc ++ [r])).2 ⟨rs, by rw [hm']; exact h1, by simp⟩
          refine ⟨k', ?_⟩
          rw [rowOfLine_iff.2 hr]
          simp only [py_ok_bind]
          exact hk'
    · simp only [hk, if_false, py_ok_bind]
      have h0 : k.toNat = 0 := by omega
      have := ih ht k acc
      rw [h0, List.take_zero] at this ⊢
      exact this

/-- lines before the `*vertices` line are ignored -/
theorem fileLines_skip (lines : List Str) (hno : ∀ l ∈ lines, isVertices l = false) (acc : List FileRow) :
    lines.foldlM fileStep (0, acc) = .ok (0, acc) := by
  induction lines with
  | nil => rfl
  | cons l t ih =>
    rw [foldlM_cons]
    unfold fileStep
    simp only [hno l List.mem_cons_self, Bool.false_eq_true, if_false, gt_iff_lt, lt_irrefl, py_ok_bind]
    exact ih fun l' hl' => hno l' (List.mem_cons_of_mem _ hl')

/-- the rows of a text with one `*vertices` line -/
theorem pajekRows_iff {data : Str} {pre post : List Str} {hd : Str} (hdata : splitOn '\n' data = pre ++ hd :: post)
    (hpre : ∀ l ∈ pre, isVertices l = false) (hhd : isVertices hd = true) (hpost : ∀ l ∈ post, isVertices l = false)
    (rows : List FileRow) :
    pajekRows data = .ok rows ↔ ∃ k, verticesCount hd = .ok k ∧ List.Forall₂ LineOfRow (post.take k.toNat) rows := by
  unfold pajekRows
  rw [hdata, foldlM_append, fileLines_skip pre hpre]
  simp only [py_ok_bind]
  rw [foldlM_cons]
  have hstep : fileStep (0, []) hd = (verticesCount hd >>= fun n => .ok (n, [])) := by
    unfold fileStep; simp only [hhd, if_true]; rfl
  rw [hstep, bind_assoc, bind_assoc]
  constructor
  · intro h
    rw [py_bind_eq_ok] at h
    obtain ⟨k, hk, h⟩ := h
    simp only [py_ok_bind, py_bind_eq_ok] at h
    obtain ⟨s, hs, hr⟩ := h
    cases hr
    obtain ⟨rs, h1, h2⟩ := (fileLines_iff post hpost k [] s.2).1 ⟨s.1, hs⟩
    exact ⟨k, hk, by rw [h2]; simpa using h1⟩
  · rintro ⟨k, hk, h⟩
    obtain ⟨k', hk'⟩ := (fileLines_iff post hpost k [] rows).2 ⟨rows, h, by simp⟩
    rw [hk]
    simp only [py_ok_bind]
    rw [hk']
    rfl

/-! ### words -/

theorem splitWsAux_words (s : Str) : ∀ cur : Str, (∀ c ∈ cur, isSpace c = false) → ∀ w ∈ splitWsAux cur s, IsWord w := by
  induction s with
  | nil =>
    intro cur hcur w hw
    unfold splitWsAux at hw
    split at hw
    · simp at hw
    · rename_i h
      simp only [List.mem_singleton] at hw
      subst hw
      exact ⟨by simpa using h, by intro c hc; exact hcur c (by simpa using hc)⟩
  | cons c cs ih =>
    intro cur hcur w hw
    unfold splitWsAux at hw
    split at hw
    · split at hw
      · exact ih [] (by simp) w hw
      · rename_i h
        rw [List.mem_cons] at hw
        rcases hw with rfl | hw
        · exact ⟨by simpa using h, by intro c hc; exact hcur c (by simpa using hc)⟩
        · exact ih [] (by simp) w hw
    · rename_i hc
      refine ih (c :: cur) ?_ w hw
      intro d hd
      rw [List.mem_cons] at hd
      rcases hd with rfl | hd
      · simpa using hc
      · exact hcur d hd

theorem splitWs_words (s w : Str) (hw : w ∈ splitWs s) : IsWord w := splitWsAux_words s [] (by simp) w hw

theorem LineOfRow.name_word {line : Str} {r : FileRow} (h : LineOfRow line r) : IsWord r.name := by
  obtain ⟨i, z, hw, _⟩ := h
  exact splitWs_words line _ (by rw [hw]; simp)

theorem fileStep_words {s s' : Int × List FileRow} {line : Str} (h : fileStep s line = .ok s')
    (hs : ∀ r ∈ s.2, IsWord r.name) : ∀ r ∈ s'.2, IsWord r.name := by
  unfold fileStep at h
  split at h
  · rw [py_bind_eq_ok] at h
    obtain ⟨n, _, h⟩ := h
    cases h; exact hs
  · split at h
    · rw [py_bind_eq_ok] at h
      obtain ⟨r, hr, h⟩ := h
      cases h
      intro r' hr'
      rw [List.mem_append, List.mem_singleton] at hr'
      rcases hr' with h' | rfl
      · exact hs r' h'
      · exact (rowOfLine_iff.1 hr).name_word
    · cases h; exact hs

theorem pajekRows_words {data : Str} {rows : List FileRow} (h : pajekRows data = .ok rows) : ∀ r ∈ rows, IsWord r.name := by
  unfold pajekRows at h
  rw [py_bind_eq_ok] at h
  obtain ⟨s, hs, h⟩ := h
  cases h
  exact foldlM_invariant fileStep (fun s => ∀ r ∈ s.2, IsWord r.name) _ (fun s a s' _ hP hs => fileStep_words hs hP)
    (by simp) hs

/-! ### nodes -/

section Nodes

variable [Field K] [LinearOrder K]

theorem mkNode_iff {kind : Kind} {id : Int} {x y radius angle width : K} {zone : Int} {name : Str} {nd : Node K} :
    mkNode kind id x y radius angle width zone name = .ok nd ↔
      NodeOk nd ∧ nd = { id, x, y, radius, angle, width, zone, name, kind } := by
  unfold mkNode
  simp only [raiseIf_bind_eq_ok, py_pure, Except.ok.injEq, not_and, not_not, not_lt, not_or, gt_iff_lt]
  constructor
  · rintro ⟨h1, h2, h3, h4, rfl⟩
    exact ⟨⟨h1, h2, h3, h4⟩, rfl⟩
  · rintro ⟨h, rfl⟩
    exact ⟨h.cbd, h.radius, h.angle, h.width, rfl⟩

theorem pyFloat_iff [NumText K] {s : Str} {v : K} : (pyFloat s : Py K) = .ok v ↔ NumText.parse s = some v := by
  unfold pyFloat
  cases h : (NumText.parse s : Option K) <;> simp

theorem readNode_iff [PyMath K] [NumText K] {r : FileRow} {nd : Node K} :
    readNode r = .ok nd ↔ NodeOfRow r nd ∧ NodeOk nd := by
  unfold readNode
  simp only [py_bind_eq_ok, pyFloat_iff, mkNode_iff]
  constructor
  · rintro ⟨x, hx, y, hy, w, hw, a, ha, hok, rfl⟩
    exact ⟨⟨rfl, rfl, rfl, rfl, hx, hy, hw, rfl, ha⟩, hok⟩
  · rintro ⟨h, hok⟩
    refine ⟨_, h.x, _, h.y, _, h.width, _, h.angle, hok, ?_⟩
    rw [← h.radius, ← h.id, ← h.name, ← h.kind, ← h.zone]

theorem mapM_readNode_iff [PyMath K] [NumText K] (rows : List FileRow) (ns : List (Node K)) :
    rows.mapM readNode = .ok ns ↔ List.Forall₂ (fun r nd => NodeOfRow r nd ∧ NodeOk nd) rows ns := by
  induction rows generalizing ns with
  | nil => simp [eq_comm]
  | cons r t ih =>
    rw [List.mapM_cons]
    constructor
    · intro h
      rw [py_bind_eq_ok] at h
      obtain ⟨nd, h1, h⟩ := h
      rw [py_bind_eq_ok] at h
      obtain ⟨l, h2, h⟩ := h
      cases h
      exact .cons (readNode_iff.1 h1) ((ih l).1 h2)
    · intro h
      cases h with
      | cons h1 h2 =>
        rw [readNode_iff.2 h1, (ih _).2 h2]
        rfl

end Nodes

/-! ### sorting -/

instance : Std.Total FileRow.Before where
  total a b := by unfold FileRow.Before; omega

instance : IsTrans FileRow FileRow.Before where
  trans a b c := by unfold FileRow.Before; omega

theorem sortRows_sorted (rows : List FileRow) : (sortRows rows).Pairwise FileRow.Before :=
  List.pairwise_insertionSort FileRow.Before rows

theorem sortRows_perm (rows : List FileRow) : (sortRows rows).Perm rows := List.perm_insertionSort _ rows

theorem sortRows_of_sorted {rows : List FileRow} (h : rows.Pairwise FileRow.Before) : sortRows rows = rows :=
  h.insertionSort_eq

theorem forall₂_left_of_mem {α β : Type} {R : α → β → Prop} {l : List α} {l' : List β} (h : List.Forall₂ R l l') :
    ∀ b ∈ l', ∃ a ∈ l, R a b := by
  induction h with
  | nil => intro b hb; cases hb
  | cons h1 _ ih =>
    intro b hb
    rcases List.mem_cons.1 hb with rfl | hb
    · exact ⟨_, List.mem_cons_self, h1⟩
    · obtain ⟨a, ha, hR⟩ := ih b hb
      exact ⟨a, List.mem_cons_of_mem _ ha, hR⟩

theorem forall₂_pairwise {α β : Type} {R : α → β → Prop} {r : α → α → Prop} {q : β → β → Prop}
    (hrq : ∀ a b a' b', R a a' → R b b' → r a b → q a' b') {l : List α} {l' : List β} (h : List.Forall₂ R l l')
    (hp : l.Pairwise r) : l'.Pairwise q := by
  induction h with
  | nil => exact .nil
  | cons h1 h2 ih =>
    rw [List.pairwise_cons] at hp ⊢
    refine ⟨?_, ih hp.2⟩
    intro b' hb'
    obtain ⟨b, hb, hR⟩ := forall₂_left_of_mem h2 b' hb'
    exact hrq _ _ _ _ h1 hR (hp.1 b hb)

/-! ### the exported text -/

section Export

variable [NumText K]

/-- the row of a node -/
def rowOfNode (nd : Node K) : FileRow :=
  ⟨nd.id, nd.name, NumText.fmt nd.x, NumText.fmt nd.y, nd.kind, nd.zone, NumText.fmt nd.width⟩

theorem Kind.text_word (k : Kind) : IsWord k.text := by
  cases k <;> exact ⟨by decide, by decide⟩

theorem showInt_word (i : Int) : IsWord (showInt i) := ⟨showInt_ne_nil i, showInt_not_space i⟩

/-- the words of the line of a node -/
theorem nodeLine_words {nd : Node K} (h : Writable nd) :
    splitWs (nodeLine nd) = [showInt nd.id, nd.name, NumText.fmt nd.x, NumText.fmt nd.y, nd.kind.text, showInt nd.zone,
      NumText.fmt nd.width] := by
  unfold nodeLine
  apply splitWs_joinWith
  intro w hw
  simp only [List.mem_cons, List.not_mem_nil, or_false] at hw
  rcases hw with rfl | rfl | rfl | rfl | rfl | rfl | rfl
  · exact showInt_word _
  · exact h.name
  · exact h.x.2
  · exact h.y.2
  · exact Kind.text_word _
  · exact showInt_word _
  · exact h.width.2

theorem nodeLine_row {nd : Node K} (h : Writable nd) : LineOfRow (nodeLine nd) (rowOfNode nd) :=
  ⟨_, _, nodeLine_words h, pyInt_showInt _, pyInt_showInt _⟩

theorem joinWith_chars (ws : List Str) (c : Char) (h : c ∈ joinWith ' ' ws) : c = ' ' ∨ ∃ w ∈ ws, c ∈ w := by
  induction ws with
  | nil => simp [joinWith] at h
  | cons w ws ih =>
    cases ws with
    | nil => exact Or.inr ⟨w, by simp, by simpa [joinWith] using h⟩
    | cons w' ws' =>
      rw [show joinWith ' ' (w :: w' :: ws') = w ++ ' ' :: joinWith ' ' (w' :: ws') from rfl, List.mem_append,
        List.mem_cons] at h
      rcases h with h | h | h
      · exact Or.inr ⟨w, by simp, h⟩
      · exact Or.inl h
      · rcases ih h with h | ⟨v, hv, hc⟩
        · exact Or.inl h
        · exact Or.inr ⟨v, List.mem_cons_of_mem _ hv, hc⟩

theorem IsWord.no_newline {w : Str} (h : IsWord w) : ∀ c ∈ w, c ≠ '\n' := by
  intro c hc he
  have := h.2 c hc
  rw [he] at this
  exact absurd this (by decide)

theorem nodeLine_no_newline {nd : Node K} (h : Writable nd) : ∀ c ∈ nodeLine nd, c ≠ '\n' := by
  intro c hc
  unfold nodeLine at hc
  rcases joinWith_chars _ c hc with rfl | ⟨w, hw, hcw⟩
  · decide
  · refine IsWord.no_newline ?_ c hcw
    simp only [List.mem_cons, List.not_mem_nil, or_false] at hw
    rcases hw with rfl | rfl | rfl | rfl | rfl | rfl | rfl
    · exact showInt_word _
    · exact h.name
    · exact h.x.2
    · exact h.y.2
    · exact Kind.text_word _
    · exact showInt_word _
    · exact h.width.2

theorem nodeLine_not_vertices (nd : Node K) : isVertices (nodeLine nd) = false := by
  unfold isVertices nodeLine
  cases hs : showInt nd.id with
  | nil => exact absurd hs (showInt_ne_nil _)
  | cons c cs =>
    have hc := showInt_chars nd.id c (by rw [hs]; simp)
    have : c.toLower ≠ '*' := by
      rcases hc with rfl | ⟨d, hd, rfl⟩
      · decide
      · interval_cases d <;> decide
    have e : joinWith ' ' [c :: cs, nd.name, NumText.fmt nd.x, NumText.fmt nd.y, nd.kind.text, showInt nd.zone, NumText.fmt nd.width] =
        c :: (cs ++ ' ' :: joinWith ' ' [nd.name, NumText.fmt nd.x, NumText.fmt nd.y, nd.kind.text, showInt nd.zone, NumText.fmt nd.width]) := rfl
    rw [e]
    simp [List.isPrefixOf, Ne.symm this]

/-- the lines of the body -/
theorem splitOn_body (ns : List (Node K)) (h : ∀ nd ∈ ns, Writable nd) :
    splitOn '\n' (ns.flatMap fun nd => nodeLine nd ++ ['\n']) = ns.map nodeLine ++ [[]] := by
  induction ns with
  | nil => rfl
  | cons nd t ih =>
    rw [List.flatMap_cons, List.append_assoc, List.singleton_append,
      splitOn_append_sep _ (nodeLine_no_newline (h nd List.mem_cons_self)), ih fun a ha => h a (List.mem_cons_of_mem _ ha)]
    rfl

def headLine1 : Str := "Content format: [node_id] [node_name] [x] [y] [node_type] [zone_id] [node_width]".toList
def headLine2 : Str := "Content format: each row provides have whitespace separated values".toList

theorem pajekHead_eq : pajekHead = headLine1 ++ '\n' :: (headLine2 ++ '\n' :: ([] ++ '\n' :: [])) := by decide +kernel

/-- the lines of the exported text -/
theorem splitOn_export (g : Graph K) (h : ∀ nd ∈ g.nodes, Writable nd) :
    splitOn '\n' g.exportPajek = [headLine1, headLine2, []] ++
      ("*vertices ".toList ++ showInt (g.nodes.length : Int)) :: (g.nodes.map nodeLine ++ [[]]) := by
  unfold Graph.exportPajek
  rw [pajekHead_eq]
  simp only [List.append_assoc, List.cons_append, List.nil_append, List.singleton_append]
  rw [splitOn_append_sep _ (by decide), splitOn_append_sep _ (by decide)]
  have e0 : ∀ t : Str, splitOn '\n' ('\n' :: t) = [] :: splitOn '\n' t := fun t => by simp [splitOn]
  rw [e0]
  have ev : ∀ t : Str, splitOn '\n' ("*vertices ".toList ++ (showInt (g.nodes.length : Int) ++ '\n' :: t)) =
      ("*vertices ".toList ++ showInt (g.nodes.length : Int)) :: splitOn '\n' t := by
    intro t
    rw [← List.append_assoc, splitOn_append_sep]
    intro c hc
    rw [List.mem_append] at hc
    rcases hc with hc | hc
    · revert c; decide
    · exact showInt_ne_newline _ c hc
  rw [ev, splitOn_body _ h]

theorem verticesLine_is (n : Int) : isVertices ("*vertices ".toList ++ showInt n) = true := by
  unfold isVertices
  rw [List.map_append]
  rfl

theorem verticesLine_count (n : Int) : verticesCount ("*vertices ".toList ++ showInt n) = .ok n := by
  have : splitWs ("*vertices ".toList ++ showInt n) = ["*vertices".toList, showInt n] := by
    have e : "*vertices ".toList ++ showInt n = joinWith ' ' ["*vertices".toList, showInt n] := rfl
    rw [e]
    apply splitWs_joinWith
    intro w hw
    simp only [List.mem_cons, List.not_mem_nil, or_false] at hw
    rcases hw with rfl | rfl
    · exact ⟨by decide, by decide⟩
    · exact showInt_word _
  unfold verticesCount
  rw [this]
  simp only [pyInt_showInt]

/-- the rows read from the exported text are those of the nodes -/
theorem pajekRows_export (g : Graph K) (h : ∀ nd ∈ g.nodes, Writable nd) :
    pajekRows g.exportPajek = .ok (g.nodes.map rowOfNode) := by
  rw [pajekRows_iff (splitOn_export g h) (by decide) (verticesLine_is _)]
  · refine ⟨_, verticesLine_count _, ?_⟩
    rw [Int.toNat_natCast, List.take_append_of_le_length (by simp), List.take_of_length_le (by simp)]
    rw [List.forall₂_map_left_iff, List.forall₂_map_right_iff, List.forall₂_same]
    exact fun nd hnd => nodeLine_row (h nd hnd)
  · intro l hl
    rw [List.mem_append, List.mem_singleton] at hl
    rcases hl with hl | rfl
    · obtain ⟨nd, _, rfl⟩ := List.mem_map.1 hl
      exact nodeLine_not_vertices nd
    · rfl

end Export

/-! ### the whole import -/

section Build

variable [Field K] [LinearOrder K] [IsStrictOrderedRing K] [PyMath K] [NumText K]

theorem cityFrom_n {ns : List (Node K)} {n : Nat} {g : Graph K} (h : cityFrom ns n = .ok g) : g.n = some (n : Int) := by
  unfold cityFrom at h
  simp only [py_bind_eq_ok] at h
  obtain ⟨_, _, _, _, _, _, _, _, _, _, _, _, h⟩ := h
  cases h
  rfl

/-- a graph without zones has only the CBD -/
theorem cityFrom_zero {ns : List (Node K)} {g : Graph K} (h : cityFrom ns 0 = .ok g) :
    g.nodes = ns.filter fun nd => nd.kind = .cbd := by
  unfold cityFrom at h
  simp only [py_bind_eq_ok] at h
  obtain ⟨_, _, _, _, _, _, _, _, _, _, g', h1, h⟩ := h
  cases h
  unfold importNodes at h1
  simp only [List.range_zero, foldlM_nil, Except.ok.injEq] at h1
  rw [← h1, foldl_addCbd]
  rfl

theorem nodes_before {rows : List FileRow} {ns : List (Node K)} (hf : List.Forall₂ (fun r nd => NodeOfRow r nd ∧ NodeOk nd) rows ns)
    (hs : rows.Pairwise FileRow.Before) : ns.Pairwise NodeBefore := by
  refine forall₂_pairwise ?_ hf hs
  intro a b a' b' ha hb hab
  unfold NodeBefore
  unfold FileRow.Before at hab
  rw [ha.1.zone, ha.1.kind, hb.1.zone, hb.1.kind]
  exact hab

/-- rows of nodes in the order of a city are sorted, and there is no other order -/
theorem sortRows_city {rows rows' : List FileRow} {ns : List (Node K)} {n : Nat} (hp : rows'.Perm rows)
    (hf : List.Forall₂ NodeOfRow rows' ns) (ho : CityOrder ns n) : sortRows rows = rows' := by
  have hlen : rows'.length = 2 * n + 1 := by rw [hf.length_eq, ho.len]
  have hat : ∀ j r, rows'[j]? = some r → r.kind = kindAt j ∧ r.zone = zoneAt j := by
    intro j r hr
    obtain ⟨hj, rfl⟩ := List.getElem?_eq_some_iff.1 hr
    have hj' : j < ns.length := by rw [← hf.length_eq]; exact hj
    have hn := List.Forall₂.get hf hj hj'
    simp only [List.get_eq_getElem] at hn
    have e := List.getElem?_eq_getElem hj'
    exact ⟨by rw [← hn.kind]; exact ho.kind j _ e, by rw [← hn.zone]; exact ho.zone j _ e⟩
  have hs : rows'.Pairwise FileRow.Before := by
    rw [List.pairwise_iff_getElem]
    intro j k hj hk hjk
    unfold FileRow.Before
    obtain ⟨h1, h2⟩ := hat j _ (List.getElem?_eq_getElem hj)
    obtain ⟨h3, h4⟩ := hat k _ (List.getElem?_eq_getElem hk)
    rw [h1, h2, h3, h4]
    exact before_at hjk
  refine ((sortRows_perm rows).trans hp.symm).eq_of_pairwise ?_ (sortRows_sorted rows) hs
  intro a b ha hb hab hba
  have ha' : a ∈ rows' := hp.mem_iff.2 ((sortRows_perm rows).mem_iff.1 ha)
  obtain ⟨j, hj⟩ := List.getElem?_of_mem ha'
  obtain ⟨k, hk⟩ := List.getElem?_of_mem hb
  have hz : a.zone = b.zone ∧ a.kind.rank = b.kind.rank := by
    unfold FileRow.Before at hab hba
    rcases hab with h | h <;> rcases hba with h' | h' <;> constructor <;> omega
  have : j = k := kindAt_zoneAt_inj (by rw [← (hat j a hj).1, ← (hat k b hk).1]; exact rank_inj hz.2)
    (by rw [← (hat j a hj).2, ← (hat k b hk).2]; exact hz.1)
  rw [this, hk] at hj
  exact (Option.some.inj hj).symm

/-- **Exactly the contents that are accepted**, apart from a single row that is not the CBD. -/
theorem buildFromContent_iff {data : Str} {rows : List FileRow} (hr : pajekRows data = .ok rows) (g : Graph K) :
    (buildFromContent data = .ok g ∧ g.nodes ≠ []) ↔
      ∃ n ns rows', n ≤ 4999 ∧ rows'.Perm rows ∧ List.Forall₂ NodeOfRow rows' ns ∧ (∀ nd ∈ ns, NodeOk nd) ∧
        CityOrder ns n ∧ IdsAcrossZones ns ∧ Describable ns ∧ g = describedCity ns n := by
  constructor
  · rintro ⟨h, hne⟩
    unfold buildFromContent at h
    rw [hr] at h
    simp only [py_ok_bind, raiseIf_bind_eq_ok, not_not] at h
    obtain ⟨hacc, h⟩ := h
    rw [py_bind_eq_ok] at h
    obtain ⟨ns, hns, h⟩ := h
    rw [mapM_readNode_iff] at hns
    have hlen : (sortRows rows).length = ns.length := hns.length_eq
    obtain ⟨hodd, hmax⟩ := hacc
    have hl : ns.length = 2 * (((sortRows rows).length - 1) / 2) + 1 := by omega
    have hok : ∀ nd ∈ ns, NodeOk nd := by
      intro nd hnd
      obtain ⟨r, _, hR⟩ := forall₂_left_of_mem hns nd hnd
      exact hR.2
    have hord : CityOrder ns (((sortRows rows).length - 1) / 2) := by
      by_cases h0 : ((sortRows rows).length - 1) / 2 = 0
      · rw [h0] at h hl ⊢
        have hz := cityFrom_zero h
        obtain ⟨c, rfl⟩ : ∃ c, ns = [c] := List.length_eq_one_iff.1 (by omega)
        have hk : c.kind = .cbd := by
          by_contra hk
          apply hne
          rw [hz]
          simp [hk]
        refine ⟨rfl, ?_, ?_⟩
        · intro j nd hj
          cases j with
          | zero => cases hj; exact hk
          | succ j => simp at hj
        · intro j nd hj
          cases j with
          | zero => cases hj; exact (hok c (by simp)).cbd hk
          | succ j => simp at hj
      · exact cityFrom_order (Nat.pos_of_ne_zero h0) hl (fun nd hnd => (hok nd hnd).cbd) (nodes_before hns (sortRows_sorted rows)) h
    rw [cityFrom_iff hord hok] at h
    exact ⟨_, ns, sortRows rows, by omega, sortRows_perm rows, hns.imp (fun _ _ h => h.1), hok, hord, h⟩
  · rintro ⟨n, ns, rows', hn, hp, hf, hok, hord, hid, hd, rfl⟩
    have hs := sortRows_city hp hf hord
    have hlen : rows'.length = 2 * n + 1 := by rw [hf.length_eq, hord.len]
    refine ⟨?_, ?_⟩
    · unfold buildFromContent
      rw [hr]
      simp only [py_ok_bind]
      rw [hs, raiseIf_neg (by rw [not_not]; unfold acceptedRows; rw [hlen]; omega)]
      simp only [py_ok_bind]
      have hm : rows'.mapM readNode = .ok ns := by
        rw [mapM_readNode_iff, List.forall₂_iff_get]
        refine ⟨hf.length_eq, fun i h1 h2 => ⟨hf.get h1 h2, hok _ (List.get_mem ns ⟨i, h2⟩)⟩⟩
      rw [hm]
      simp only [py_ok_bind]
      have : (rows'.length - 1) / 2 = n := by rw [hlen]; omega
      rw [this]
      exact (cityFrom_iff hord hok _).2 ⟨hid, hd, rfl⟩
    · show ns ≠ []
      intro h
      have := hord.len
      rw [h] at this
      simp at this

end Build

end Sidermit
