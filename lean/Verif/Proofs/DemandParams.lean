import Verif.Proofs.Demand
import Verif.Proofs.GraphStreet
import Mathlib.Tactic.FieldSimp

/-! The parametric demand: every cell, the trips generated by every node, and the total. -/

set_option linter.unusedSectionVars false
set_option linter.unusedSimpArgs false

namespace Sidermit

variable {K : Type} [Field K] [LinearOrder K]

theorem demandValidator_iff (y a alpha beta : K) :
    demandValidator y a alpha beta = .ok () ↔ DemandParamsOk y a alpha beta := by
  unfold demandValidator
  simp only [raiseIf_bind_eq_ok, raiseIf_eq_ok, not_or, not_lt, ge_iff_le, gt_iff_lt, not_le]
  constructor
  · rintro ⟨h1, ⟨h2, h3⟩, ⟨h4, h5⟩, ⟨h6, h7⟩, h8⟩
    exact ⟨h1, h3, h2, h5, h4, h7, h6, h8⟩
  · rintro ⟨h1, h2, h3, h4, h5, h6, h7, h8⟩
    exact ⟨h1, ⟨h3, h2⟩, ⟨h5, h4⟩, ⟨h7, h6⟩, h8⟩

theorem findNode_append (l : List (Node K)) (x : Node K) (i : Int) :
    findNode (l ++ [x]) i = if x.id = i then some x else findNode l i := by
  simp [findNode, List.foldl_append]

theorem findNode_eq {l : List (Node K)} (h : (l.map Node.id).Nodup) {x : Node K} (hx : x ∈ l) :
    findNode l x.id = some x := by
  induction l using List.reverseRecOn with
  | nil => simp at hx
  | append_singleton t z ih =>
    rw [findNode_append]
    rw [List.map_append, List.nodup_append] at h
    rcases List.mem_append.1 hx with hx | hx
    · rw [if_neg, ih h.1 hx]
      intro e
      exact h.2.2 x.id (List.mem_map.2 ⟨x, hx, rfl⟩) z.id (by simp) e.symm
    · simp only [List.mem_singleton] at hx
      subst hx
      rw [if_pos rfl]

/-- the cell values of a parametric demand (`none`: not assigned) -/
def cellVal (t : TripValues K) (on dn : Option (Node K)) : Option K :=
  if on.map Node.kind = some .cbd then none
  else if dn.map Node.kind = some .periphery then none
  else if on.map Node.kind = some .periphery ∧ dn.map Node.kind = some .cbd then some t.pCbd
  else if on.map Node.kind = some .periphery ∧ dn.map Node.kind = some .subcenter ∧ on.map Node.zone = dn.map Node.zone
    then some t.pSc
  else if on.map Node.kind = some .periphery ∧ dn.map Node.kind = some .subcenter ∧ on.map Node.zone ≠ dn.map Node.zone
    then some t.pOsc
  else if on.map Node.kind = some .subcenter ∧ dn.map Node.kind = some .cbd then some t.scCbd
  else if on.map Node.kind = some .subcenter ∧ dn.map Node.kind = some .subcenter ∧
    on.map Node.zone ≠ dn.map Node.zone then some t.scOsc
  else none

/-- all five values are usable -/
structure TripValues.Nonneg (t : TripValues K) : Prop where
  h1 : 0 ≤ t.pCbd
  h2 : 0 ≤ t.pSc
  h3 : 0 ≤ t.pOsc
  h4 : 0 ≤ t.scCbd
  h5 : 0 ≤ t.scOsc

theorem demandStep_eq {t : TripValues K} (ht : t.Nonneg) {d : Demand K} {k : Int × Int}
    (hl : (lookup2 d.matrix k.1 k.2).isSome) :
    demandStep t d k = .ok (match cellVal t (findNode d.graph.nodes k.1) (findNode d.graph.nodes k.2) with
      | none => d | some v => d.upd k.1 k.2 v) := by
  unfold demandStep cellVal
  generalize findNode d.graph.nodes k.1 = on
  generalize findNode d.graph.nodes k.2 = dn
  have c : ∀ v, 0 ≤ v → d.change k.1 k.2 v = .ok (d.upd k.1 k.2 v) := fun v hv => change_of_lookup hv hl
  have c1 := c _ ht.h1; have c2 := c _ ht.h2; have c3 := c _ ht.h3; have c4 := c _ ht.h4; have c5 := c _ ht.h5
  simp only
  generalize on.map Node.kind = ok
  generalize dn.map Node.kind = dk
  by_cases hz : on.map Node.zone = dn.map Node.zone <;>
  rcases ok with _ | (_ | _ | _) <;> rcases dk with _ | (_ | _ | _) <;>
    simp [Demand.changeIf, hz, c1, c2, c3, c4, c5]

theorem tripValues_nonneg [IsStrictOrderedRing K] {n : Int} (hn : 0 ≤ n) {y a alpha beta : K}
    (h : DemandParamsOk y a alpha beta) : (tripValues n y a alpha beta).Nonneg := by
  have hb : 0 < 1 - beta := by linarith [h.beta_lt]
  have hyz : 0 ≤ (if n ≠ 0 then y / (n : K) else y) := by
    split
    · exact div_nonneg h.y_nonneg (by exact_mod_cast hn)
    · exact h.y_nonneg
  have h1a : 0 ≤ 1 - a := by linarith [h.a_le]
  have hg : 0 ≤ 1 - alpha - beta := by linarith [h.sum_le]
  have hal : 0 ≤ 1 - alpha := by linarith [h.alpha_le]
  unfold tripValues
  by_cases hn1 : n > 1
  · have hnk : (0 : K) < (n : K) - 1 := by
      have : (1 : K) < (n : K) := by exact_mod_cast hn1
      linarith
    simp only [hn1, if_true]
    refine ⟨?_, ?_, ?_, ?_, ?_⟩ <;> simp only
    · exact mul_nonneg h.alpha_nonneg (mul_nonneg h.a_nonneg hyz)
    · exact mul_nonneg h.beta_nonneg (mul_nonneg h.a_nonneg hyz)
    · exact div_nonneg (mul_nonneg hg (mul_nonneg h.a_nonneg hyz)) hnk.le
    · exact mul_nonneg (mul_nonneg h1a hyz) (div_nonneg h.alpha_nonneg hb.le)
    · exact div_nonneg (mul_nonneg (mul_nonneg h1a hyz) (div_nonneg hg hb.le)) hnk.le
  · simp only [hn1, if_false]
    refine ⟨?_, ?_, ?_, ?_, ?_⟩ <;> simp only
    · exact mul_nonneg h.alpha_nonneg (mul_nonneg h.a_nonneg hyz)
    · exact mul_nonneg hal (mul_nonneg h.a_nonneg hyz)
    · exact le_refl _
    · exact mul_nonneg (mul_nonneg h1a hyz) zero_le_one
    · exact le_refl _

/-- what `build_from_parameters` returns -/
theorem demandParams_ok [IsStrictOrderedRing K] {g : Graph K} {n : Int} (hgn : g.n = some n) (hn : 0 ≤ n)
    (hd : DistinctIds g) {y a alpha beta : K} (h : DemandParamsOk y a alpha beta) :
    ∃ d, Demand.buildFromParameters g y a alpha beta = .ok d ∧ d.NodeCells g ∧ d.Consistent ∧
      ∀ o ∈ g.nodes, ∀ e ∈ g.nodes, lookup2 d.matrix o.id e.id =
        some ((cellVal (tripValues n y a alpha beta) (some o) (some e)).getD 0) := by
  have hkn := (defaultMatrix_allZero g.nodes).1
  have ht := tripValues_nonneg hn h
  obtain ⟨d, h1, h2, h3, h4⟩ := fold_cells (f := demandStep (tripValues n y a alpha beta))
    (val := fun k => cellVal (tripValues n y a alpha beta) (findNode g.nodes k.1) (findNode g.nodes k.2))
    (nodup_matrixKeys hkn) (d0 := Demand.init g)
    (fun d k hk hg hl => by
      have := demandStep_eq ht hl
      rw [hg] at this
      exact this)
    (fun k hk => (mem_matrixKeys hkn k).1 hk)
  have hb : Demand.buildFromParameters g y a alpha beta = .ok d := by
    unfold Demand.buildFromParameters
    rw [(demandValidator_iff y a alpha beta).2 h, py_ok_bind, hgn]
    exact h1
  refine ⟨d, hb, ⟨h2, h3, ?_⟩, ?_, ?_⟩
  · intro o e v hv
    rw [h4] at hv
    have hinit := (nodeCells_init g).nonneg o e v
    split at hv
    · cases hc : cellVal (tripValues n y a alpha beta) (findNode g.nodes o) (findNode g.nodes e) with
      | none => simp only [hc] at hv; exact hinit hv
      | some w =>
        simp only [hc] at hv
        cases hv
        unfold cellVal at hc
        obtain ⟨p1, p2, p3, p4, p5⟩ := ht
        split at hc
        · cases hc
        split at hc
        · cases hc
        split at hc
        · cases hc; exact p1
        split at hc
        · cases hc; exact p2
        split at hc
        · cases hc; exact p3
        split at hc
        · cases hc; exact p4
        split at hc
        · cases hc; exact p5
        · cases hc
    · exact hinit hv
  · have h1' : (matrixKeys (Demand.init g).matrix).foldlM (demandStep (tripValues n y a alpha beta)) (Demand.init g)
        = .ok d := h1
    exact foldlM_invariant _ Demand.Consistent _
      (fun s k s' _ hp hq => kept_demandStep (P := Demand.Consistent) (fun d o e v hd _ _ => consistent_upd hd o e v) hp hq)
      (consistent_init g) h1'
  · intro o ho e he
    rw [h4, if_pos]
    · simp only [findNode_eq hd ho, findNode_eq hd he]
      cases hc : cellVal (tripValues n y a alpha beta) (some o) (some e) with
      | some v => rfl
      | none =>
        simp only [Option.orElse, Option.getD_none]
        show lookup2 (defaultMatrix g.nodes) o.id e.id = _
        rw [defaultMatrix_lookup, if_pos ⟨List.mem_map.2 ⟨o, ho, rfl⟩, List.mem_map.2 ⟨e, he, rfl⟩⟩]
    · rw [mem_matrixKeys hkn]
      simp only
      rw [defaultMatrix_lookup, if_pos ⟨List.mem_map.2 ⟨o, ho, rfl⟩, List.mem_map.2 ⟨e, he, rfl⟩⟩]
      rfl

/-! ### Sums -/

/-- the cells of a nodup dictionary summed over its keys -/
theorem wsum_keys {α β : Type} [DecidableEq α] (f : β → K) (d : Dict α β) (hn : (Dict.keys d).Nodup) :
    wsum f d = ((Dict.keys d).map fun k => ((d.get? k).map f).getD 0).sum := by
  unfold wsum Dict.keys
  rw [List.map_map]
  congr 1
  apply List.map_congr_left
  intro r hr
  have := Dict.get?_of_mem d hn (k := r.1) (v := r.2) hr
  simp [this]

theorem defaultMatrix_keys (ns : List (Node K)) (o : Int) (h : o ∈ Dict.keys (defaultMatrix ns)) :
    o ∈ ns.map Node.id := by
  have inner : ∀ (i : Int) (ds : List (Node K)) (m : Dict Int (Dict Int K)),
      o ∈ Dict.keys (ds.foldl (fun m d => setCell m i d.id 0) m) → o ∈ Dict.keys m ∨ o = i := by
    intro i ds
    induction ds with
    | nil => intro m h; exact Or.inl h
    | cons d t ih =>
      intro m h
      rcases ih _ h with h | h
      · unfold setCell at h
        rw [Dict.keys_set] at h
        split at h
        · exact Or.inl h
        · rcases List.mem_append.1 h with h | h
          · exact Or.inl h
          · exact Or.inr (by simpa using h)
      · exact Or.inr h
  have outer : ∀ (os : List (Node K)) (m : Dict Int (Dict Int K)),
      o ∈ Dict.keys (os.foldl (fun m o => ns.foldl (fun m d => setCell m o.id d.id 0) m) m) →
      o ∈ Dict.keys m ∨ o ∈ os.map Node.id := by
    intro os
    induction os with
    | nil => intro m h; exact Or.inl h
    | cons d t ih =>
      intro m h
      rcases ih _ h with h | h
      · rcases inner _ _ _ h with h | h
        · exact Or.inl h
        · exact Or.inr (by simp [h])
      · exact Or.inr (by simp only [List.map_cons, List.mem_cons]; exact Or.inr h)
  rcases outer ns [] h with h | h
  · simp [Dict.keys] at h
  · exact h

theorem nodeCells_sum {g : Graph K} (hd : DistinctIds g) {d : Demand K} (h : d.NodeCells g) :
    cellSum d.matrix =
      (g.nodes.map fun o => (g.nodes.map fun e => (lookup2 d.matrix o.id e.id).getD 0).sum).sum := by
  have hn := nodeCells_nodup h
  have hperm : (Dict.keys d.matrix).Perm (g.nodes.map Node.id) := by
    refine (List.perm_ext_iff_of_nodup hn.1 hd).2 ?_
    intro o
    constructor
    · intro ho
      -- the row cannot be empty: it has the keys of the default matrix
      rw [keys_of_shape h.shape] at ho
      exact defaultMatrix_keys g.nodes o ho
    · intro ho
      obtain ⟨c, row, hr⟩ := (nodeCells_row h o).2 ho
      exact (Dict.mem_keys_iff _ _).2 ⟨_, hr⟩
  rw [cellSum_eq, wsum_keys _ _ hn.1]
  rw [(hperm.map _).sum_eq, List.map_map]
  congr 1
  apply List.map_congr_left
  intro o ho
  simp only [Function.comp]
  obtain ⟨c, row, hr⟩ := (nodeCells_row h o.id).2 (List.mem_map.2 ⟨o, ho, rfl⟩)
  rw [hr]
  simp only [Option.map_some, Option.getD_some]
  have hrn := hn.2 _ (Dict.mem_of_get? _ hr)
  rw [wsum_keys _ _ hrn]
  have hperm2 : (Dict.keys (c :: row)).Perm (g.nodes.map Node.id) := by
    refine (List.perm_ext_iff_of_nodup hrn hd).2 ?_
    intro e
    have h2 := nodeCells_lookup h o.id e
    rw [Dict.mem_keys_iff, ← Option.isSome_iff_exists]
    have h3 : (lookup2 d.matrix o.id e) = Dict.get? (c :: row) e := by simp [lookup2, hr]
    rw [← h3, h2]
    exact ⟨fun h => h.2, fun h => ⟨List.mem_map.2 ⟨o, ho, rfl⟩, h⟩⟩
  rw [(hperm2.map _).sum_eq, List.map_map]
  congr 1
  apply List.map_congr_left
  intro e _
  simp only [Function.comp, lookup2, hr, Option.bind_some, Option.map_id]
  rfl

/-- sums over the nodes of a city, zone by zone -/
theorem nodes_sum {g : Graph K} {n : Nat} (hs : CityShape g n) (φ : Kind → Int → K) :
    (g.nodes.map fun nd => φ nd.kind nd.zone).sum =
      φ .cbd 0 + ((List.range n).map fun (i : Nat) => φ .periphery ((i : Int) + 1) + φ .subcenter ((i : Int) + 1)).sum := by
  have h1 : (g.nodes.map fun nd => φ nd.kind nd.zone) = (List.range (2 * n + 1)).map fun j => φ (kindAt j) (zoneAt j) := by
    apply List.ext_getElem
    · simp [hs.len]
    · intro j h1 h2
      simp only [List.getElem_map, List.getElem_range]
      simp only [List.length_map] at h1
      rw [hs.kind j _ (List.getElem?_eq_getElem h1), hs.zone j _ (List.getElem?_eq_getElem h1)]
  rw [h1]
  clear h1 hs
  induction n with
  | zero => simp [kindAt, zoneAt]
  | succ m ih =>
    have e : 2 * (m + 1) + 1 = (2 * m + 1) + 1 + 1 := by ring
    rw [e, List.range_succ, List.range_succ, List.map_append, List.map_append, List.sum_append, List.sum_append, ih,
      List.range_succ, List.map_append, List.sum_append]
    have k1 : kindAt (2 * m + 1) = .periphery := by rw [kindAt_periphery]; omega
    have k2 : kindAt (2 * m + 1 + 1) = .subcenter := by rw [kindAt_subcenter]; omega
    have z1 : zoneAt (2 * m + 1) = (m : Int) + 1 := by unfold zoneAt; omega
    have z2 : zoneAt (2 * m + 1 + 1) = (m : Int) + 1 := by unfold zoneAt; omega
    simp only [List.map_cons, List.map_nil, List.sum_cons, List.sum_nil, k1, k2, z1, z2]
    ring

theorem range_single (n k : Nat) (hk : k < n) (s t : K) :
    ((List.range n).map fun (i : Nat) => if (k : Int) + 1 = (i : Int) + 1 then s else t).sum = s + ((n : K) - 1) * t := by
  have aux : ∀ m : Nat, ((List.range m).map fun (i : Nat) => if (k : Int) + 1 = (i : Int) + 1 then s else t).sum =
      if k < m then s + ((m : K) - 1) * t else (m : K) * t := by
    intro m
    induction m with
    | zero => simp
    | succ m ih =>
      rw [List.range_succ, List.map_append, List.sum_append, ih]
      simp only [List.map_cons, List.map_nil, List.sum_cons, List.sum_nil, Nat.cast_add, Nat.cast_one]
      by_cases h1 : k < m
      · have h2 : ¬ ((k : Int) + 1 = (m : Int) + 1) := by omega
        rw [if_pos h1, if_neg h2, if_pos (by omega)]; ring
      · by_cases h3 : k = m
        · subst h3
          rw [if_neg h1, if_pos rfl, if_pos (by omega)]; ring
        · have h2 : ¬ ((k : Int) + 1 = (m : Int) + 1) := by omega
          rw [if_neg h1, if_neg h2, if_neg (by omega)]; ring
  rw [aux, if_pos hk]

theorem range_const (n : Nat) (c : K) : ((List.range n).map fun (_ : Nat) => c).sum = (n : K) * c := by
  simp

/-- trips generated by one node -/
def rowVal (t : TripValues K) (n : Nat) (o : Node K) : K :=
  match o.kind with
  | .cbd => 0
  | .periphery => t.pCbd + (t.pSc + ((n : K) - 1) * t.pOsc)
  | .subcenter => t.scCbd + ((n : K) - 1) * t.scOsc

theorem rowSum {g : Graph K} {n : Nat} (hs : CityShape g n) (t : TripValues K) {o : Node K} (ho : o ∈ g.nodes) :
    (g.nodes.map fun e => (cellVal t (some o) (some e)).getD 0).sum = rowVal t n o := by
  have hz : o.kind = .cbd ∨ ∃ k : Nat, k < n ∧ o.zone = (k : Int) + 1 := by
    obtain ⟨j, hj, rfl⟩ := List.mem_iff_getElem.1 ho
    have hj' := hj
    rw [hs.len] at hj'
    rw [hs.kind j _ (List.getElem?_eq_getElem hj), hs.zone j _ (List.getElem?_eq_getElem hj)]
    by_cases h0 : j = 0
    · left; simp [kindAt, h0]
    · right; exact ⟨(j - 1) / 2, by omega, by unfold zoneAt; omega⟩
  have key : ∀ φ : Kind → Int → K, (∀ e ∈ g.nodes, (cellVal t (some o) (some e)).getD 0 = φ e.kind e.zone) →
      (g.nodes.map fun e => (cellVal t (some o) (some e)).getD 0).sum =
      φ .cbd 0 + ((List.range n).map fun (i : Nat) => φ .periphery ((i : Int) + 1) + φ .subcenter ((i : Int) + 1)).sum := by
    intro φ hφ
    rw [← nodes_sum hs φ]
    congr 1
    exact List.map_congr_left hφ
  unfold rowVal
  cases hk : o.kind with
  | cbd =>
    rw [key (fun _ _ => 0)]
    · simp
    · intro e _; simp [cellVal, hk]
  | periphery =>
    obtain ⟨k, hkn, hkz⟩ : ∃ k : Nat, k < n ∧ o.zone = (k : Int) + 1 := by
      rcases hz with h | h
      · rw [hk] at h; cases h
      · exact h
    rw [key (fun kd z => match kd with
      | .cbd => t.pCbd | .periphery => 0 | .subcenter => if (k : Int) + 1 = z then t.pSc else t.pOsc)]
    · simp only [zero_add]
      rw [range_single n k hkn]
    · intro e _
      cases he : e.kind <;> simp [cellVal, hk, he, hkz]
      split <;> simp
  | subcenter =>
    obtain ⟨k, hkn, hkz⟩ : ∃ k : Nat, k < n ∧ o.zone = (k : Int) + 1 := by
      rcases hz with h | h
      · rw [hk] at h; cases h
      · exact h
    rw [key (fun kd z => match kd with
      | .cbd => t.scCbd | .periphery => 0 | .subcenter => if (k : Int) + 1 = z then 0 else t.scOsc)]
    · simp only [zero_add]
      rw [range_single n k hkn, zero_add]
    · intro e _
      cases he : e.kind <;> simp [cellVal, hk, he, hkz]
      split <;> simp

theorem totalSum {g : Graph K} {n : Nat} (hs : CityShape g n) (t : TripValues K) :
    (g.nodes.map fun o => (g.nodes.map fun e => (cellVal t (some o) (some e)).getD 0).sum).sum =
      (n : K) * ((t.pCbd + (t.pSc + ((n : K) - 1) * t.pOsc)) + (t.scCbd + ((n : K) - 1) * t.scOsc)) := by
  have : (g.nodes.map fun o => (g.nodes.map fun e => (cellVal t (some o) (some e)).getD 0).sum) =
      g.nodes.map fun o => (fun (kd : Kind) (_ : Int) => match kd with
        | .cbd => 0
        | .periphery => t.pCbd + (t.pSc + ((n : K) - 1) * t.pOsc)
        | .subcenter => t.scCbd + ((n : K) - 1) * t.scOsc) o.kind o.zone := by
    apply List.map_congr_left
    intro o ho
    rw [rowSum hs t ho]
    rfl
  rw [this]
  refine (nodes_sum hs (fun (kd : Kind) (_ : Int) => match kd with
        | .cbd => 0
        | .periphery => t.pCbd + (t.pSc + ((n : K) - 1) * t.pOsc)
        | .subcenter => t.scCbd + ((n : K) - 1) * t.scOsc)).trans ?_
  simp

/-- trips generated by a periphery / a subcentre -/
theorem tripValues_rows [IsStrictOrderedRing K] {n : Nat} (hn : 0 < n) {y a alpha beta : K} (hb : beta < 1) :
    let t := tripValues (n : Int) y a alpha beta
    t.pCbd + (t.pSc + ((n : K) - 1) * t.pOsc) = a * (y / n) ∧
    t.scCbd + ((n : K) - 1) * t.scOsc = (1 - a) * (y / n) := by
  have hb' : (1 - beta) ≠ 0 := by
    intro h; linarith
  have hn0 : (n : Int) ≠ 0 := by omega
  by_cases h1 : (n : Int) > 1
  · have hk : ((n : K) - 1) ≠ 0 := by
      have : (1 : K) < (n : K) := by exact_mod_cast h1
      intro h; linarith
    simp only [tripValues, h1, if_true, hn0, ne_eq, not_false_eq_true, Int.cast_natCast]
    constructor
    · field_simp; ring
    · field_simp; ring
  · have h2 : n = 1 := by omega
    subst h2
    simp [tripValues]
    ring

end Sidermit
