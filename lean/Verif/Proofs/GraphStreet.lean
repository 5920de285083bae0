import Verif.Proofs.Graph
import Mathlib.Tactic.Tauto
import Mathlib.Logic.Relation

/-! The edges of a well formed city are the documented streets. -/

set_option linter.unusedSectionVars false

namespace Sidermit

variable {K : Type}

/-- successor zone position on the ring -/
def nxt (n i : Nat) : Nat := if i = n - 1 then 0 else i + 1

theorem nxt_lt {n i : Nat} (h : i < n) : nxt n i < n := by unfold nxt; split <;> omega

theorem emod_small {n : Nat} {d : Int} (h1 : -(n : Int) < d) (h2 : d < n) :
    d % (n : Int) = if 0 ≤ d then d else d + n := by
  split
  · rename_i h; exact Int.emod_eq_of_lt h h2
  · rename_i h
    rw [← Int.add_emod_right]
    exact Int.emod_eq_of_lt (by omega) (by omega)

theorem neighbourZones_iff {n i j : Nat} (hi : i < n) (hj : j < n) :
    NeighbourZones n ((i : Int) + 1) ((j : Int) + 1) ↔ 2 ≤ n ∧ (j = nxt n i ∨ i = nxt n j) := by
  unfold NeighbourZones nxt
  by_cases hn : 2 ≤ n
  · have h1 : (1 : Int) % (n : Int) = 1 := Int.emod_eq_of_lt (by omega) (by omega)
    rw [h1, emod_small (by omega) (by omega), emod_small (by omega) (by omega)]
    constructor
    · rintro ⟨h, h2⟩
      refine ⟨hn, ?_⟩
      rcases h2 with h2 | h2 <;> split at h2 <;> [left; left; right; right] <;> split <;> omega
    · rintro ⟨_, h2⟩
      rcases h2 with h2 | h2 <;> split at h2 <;> refine ⟨by omega, ?_⟩ <;> [left; left; right; right] <;>
        split <;> omega
  · have : n = 1 := by omega
    subst this
    have : i = 0 := by omega
    have : j = 0 := by omega
    subst i j
    simp

theorem kindAt_cbd {j : Nat} : kindAt j = .cbd ↔ j = 0 := by
  unfold kindAt; split
  · simp [*]
  · split <;> simp [*]

theorem kindAt_periphery {j : Nat} : kindAt j = .periphery ↔ j % 2 = 1 := by
  unfold kindAt; split
  · simp [*]
  · split <;> simp [*]

theorem kindAt_subcenter {j : Nat} : kindAt j = .subcenter ↔ j ≠ 0 ∧ j % 2 = 0 := by
  unfold kindAt; split
  · simp [*]
  · split
    · simp [*]
    · simp; omega

/-- the relation on positions is the documented relation on nodes -/
theorem street_iff_idx {n a b : Nat} (ha : a < 2 * n + 1) (hb : b < 2 * n + 1) (x y : Node K)
    (hxk : x.kind = kindAt a) (hxz : x.zone = zoneAt a) (hyk : y.kind = kindAt b) (hyz : y.zone = zoneAt b) :
    Street n x y ↔ StreetIdx n a b := by
  unfold Street StreetIdx
  rw [hxk, hxz, hyk, hyz]
  simp only [kindAt_cbd, kindAt_periphery, kindAt_subcenter]
  unfold zoneAt
  constructor
  · rintro (⟨h1, h2, h3⟩ | ⟨h1, h2, h3⟩ | ⟨h1, h2⟩ | ⟨h1, h2⟩ | ⟨h1, h2, h3⟩)
    · exact Or.inl ⟨(a - 1) / 2, by omega, by omega⟩
    · exact Or.inl ⟨(a - 1) / 2, by omega, by omega⟩
    · exact Or.inl ⟨(a - 1) / 2, by omega, by omega⟩
    · exact Or.inl ⟨(b - 1) / 2, by omega, by omega⟩
    · right
      obtain ⟨i, rfl⟩ : ∃ i, a = 2 * i + 2 := ⟨a / 2 - 1, by omega⟩
      obtain ⟨j, rfl⟩ : ∃ j, b = 2 * j + 2 := ⟨b / 2 - 1, by omega⟩
      have e1 : (((2 * i + 2 + 1) / 2 : Nat) : Int) = (i : Int) + 1 := by omega
      have e2 : (((2 * j + 2 + 1) / 2 : Nat) : Int) = (j : Int) + 1 := by omega
      rw [e1, e2, neighbourZones_iff (by omega) (by omega)] at h3
      obtain ⟨hn, h | h⟩ := h3
      · exact ⟨i, by omega, hn, Or.inl ⟨rfl, by rw [h]; rfl⟩⟩
      · exact ⟨j, by omega, hn, Or.inr ⟨by rw [h]; rfl, rfl⟩⟩
  · rintro (⟨i, hi, h⟩ | ⟨i, hi, hn, h⟩)
    · rcases h with ⟨rfl, rfl⟩ | ⟨rfl, rfl⟩ | ⟨rfl, rfl⟩ | ⟨rfl, rfl⟩
      · left; omega
      · right; left; omega
      · right; right; left; omega
      · right; right; right; left; omega
    · right; right; right; right
      have hj := nxt_lt hi
      have e1 : ∀ i : Nat, (((2 * i + 2 + 1) / 2 : Nat) : Int) = (i : Int) + 1 := by intro i; omega
      rcases h with ⟨rfl, rfl⟩ | ⟨rfl, rfl⟩
      · refine ⟨by omega, by omega, ?_⟩
        rw [e1, e1]
        exact (neighbourZones_iff hi hj).2 ⟨hn, Or.inl rfl⟩
      · refine ⟨by omega, by omega, ?_⟩
        rw [e1, e1]
        exact (neighbourZones_iff hj hi).2 ⟨hn, Or.inr rfl⟩

theorem mem_cityEdges_iff {n a b : Nat} :
    (∃ e ∈ cityEdges n, e.node1 = a ∧ e.node2 = b) ↔ StreetIdx n a b := by
  rw [← mem_edgePairs, ← numberEdges_map_pair 1 (edgePairs (cityZones n)), List.mem_map]
  simp [cityEdges]

theorem distinct_idx {g : Graph K} (hd : DistinctIds g) {i j : Nat} {a b : Node K} (ha : g.nodes[i]? = some a)
    (hb : g.nodes[j]? = some b) (h : a.id = b.id) : i = j := by
  have h1 : (g.nodes.map Node.id)[i]? = some a.id := by simp [ha]
  have h2 : (g.nodes.map Node.id)[j]? = some a.id := by simp [hb, h]
  have hi : i < (g.nodes.map Node.id).length := (List.getElem?_eq_some_iff.1 h1).1
  exact (List.getElem?_inj hi hd).1 (h1.trans h2.symm)

theorem edgeExist_iff {g : Graph K} {n : Nat} (hs : CityShape g n) (hd : DistinctIds g) {a b : Node K}
    (ha : a ∈ g.nodes) (hb : b ∈ g.nodes) : g.edgeExist a.id b.id = true ↔ Street n a b := by
  obtain ⟨i, hi, rfl⟩ := List.mem_iff_getElem.1 ha
  obtain ⟨j, hj, rfl⟩ := List.mem_iff_getElem.1 hb
  have h1 : g.nodes[i]? = some g.nodes[i] := List.getElem?_eq_getElem hi
  have h2 : g.nodes[j]? = some g.nodes[j] := List.getElem?_eq_getElem hj
  have hi' := hi
  have hj' := hj
  rw [hs.len] at hi' hj'
  rw [street_iff_idx hi' hj' _ _ (hs.kind i _ h1) (hs.zone i _ h1) (hs.kind j _ h2) (hs.zone j _ h2),
    ← mem_cityEdges_iff, ← hs.edges]
  unfold Graph.edgeExist
  rw [List.any_eq_true]
  constructor
  · rintro ⟨e, he, h⟩
    simp only [decide_eq_true_eq] at h
    obtain ⟨x, hx, hxi⟩ := Option.map_eq_some_iff.1 h.1
    obtain ⟨y, hy, hyi⟩ := Option.map_eq_some_iff.1 h.2
    exact ⟨e, he, distinct_idx hd hx h1 hxi, distinct_idx hd hy h2 hyi⟩
  · rintro ⟨e, he, rfl, rfl⟩
    exact ⟨e, he, by simp [h1, h2]⟩

theorem edgeExist_nodes {g : Graph K} {a b : Int} (h : g.edgeExist a b = true) :
    (∃ x ∈ g.nodes, x.id = a) ∧ (∃ y ∈ g.nodes, y.id = b) := by
  unfold Graph.edgeExist at h
  rw [List.any_eq_true] at h
  obtain ⟨e, _, h⟩ := h
  simp only [decide_eq_true_eq] at h
  obtain ⟨x, hx, hxi⟩ := Option.map_eq_some_iff.1 h.1
  obtain ⟨y, hy, hyi⟩ := Option.map_eq_some_iff.1 h.2
  exact ⟨⟨x, List.mem_of_getElem? hx, hxi⟩, ⟨y, List.mem_of_getElem? hy, hyi⟩⟩

theorem neighbourZones_symm {n : Nat} {z w : Int} (h : NeighbourZones n z w) : NeighbourZones n w z :=
  ⟨h.1.symm, h.2.symm⟩

theorem street_symm {n : Nat} {a b : Node K} (h : Street n a b) : Street n b a := by
  unfold Street at *
  rcases h with ⟨h1, h2, h3⟩ | ⟨h1, h2, h3⟩ | ⟨h1, h2⟩ | ⟨h1, h2⟩ | ⟨h1, h2, h3⟩
  · exact Or.inr (Or.inl ⟨h2, h1, h3.symm⟩)
  · exact Or.inl ⟨h2, h1, h3.symm⟩
  · exact Or.inr (Or.inr (Or.inr (Or.inl ⟨h2, h1⟩)))
  · exact Or.inr (Or.inr (Or.inl ⟨h2, h1⟩))
  · exact Or.inr (Or.inr (Or.inr (Or.inr ⟨h2, h1, neighbourZones_symm h3⟩)))

theorem street_irrefl {n : Nat} {a : Node K} : ¬ Street n a a := by
  unfold Street NeighbourZones
  rintro (⟨h1, h2, _⟩ | ⟨h1, h2, _⟩ | ⟨h1, h2⟩ | ⟨h1, h2⟩ | ⟨_, _, h, _⟩)
  · rw [h1] at h2; cases h2
  · rw [h1] at h2; cases h2
  · rw [h1] at h2; cases h2
  · rw [h1] at h2; cases h2
  · exact h rfl

/-! ### counting -/

theorem nodup_edgePairs (n : Nat) : (edgePairs (cityZones n)).Nodup := by
  unfold edgePairs
  rw [length_cityZones]
  by_cases h1 : n = 1
  · subst h1; decide
  by_cases h2 : n = 2
  · subst h2; decide
  by_cases h3 : n > 2
  · simp only [h1, h2, h3, if_false, if_true]
    rw [List.nodup_flatMap]
    constructor
    · intro i hi
      simp only [List.mem_range] at hi
      have hj : (if i = n - 1 then 0 else i + 1) < n := nxt_lt hi
      have hne : (if i = n - 1 then 0 else i + 1) ≠ i := by split <;> omega
      simp only [getElem?_cityZones hi, getElem?_cityZones hj, Option.map_some, Option.getD_some]
      generalize (if i = n - 1 then 0 else i + 1) = j at *
      simp [List.nodup_cons]
      omega
    · refine List.Pairwise.imp_of_mem ?_ List.pairwise_lt_range
      intro i i' hi hi' hlt
      simp only [List.mem_range] at hi hi'
      have hj : (if i = n - 1 then 0 else i + 1) < n := nxt_lt hi
      have hj' : (if i' = n - 1 then 0 else i' + 1) < n := nxt_lt hi'
      have e : (if i = n - 1 then 0 else i + 1) = i + 1 := if_neg (by omega)
      have e' : (if i' = n - 1 then 0 else i' + 1) = i' + 1 ∨
          (i' = n - 1 ∧ (if i' = n - 1 then 0 else i' + 1) = 0) := by split <;> simp [*]
      simp only [Function.onFun, List.disjoint_left]
      rintro ⟨a, b⟩ h h'
      simp only [getElem?_cityZones hi, getElem?_cityZones hj, getElem?_cityZones hi', getElem?_cityZones hj',
        Option.map_some, Option.getD_some, List.mem_cons, Prod.mk.injEq, List.not_mem_nil, or_false] at h h'
      rw [e] at h
      generalize (if i' = n - 1 then 0 else i' + 1) = j' at *
      rcases h with ⟨rfl, rfl⟩ | ⟨rfl, rfl⟩ | ⟨rfl, rfl⟩ | ⟨rfl, rfl⟩ | ⟨rfl, rfl⟩ | ⟨rfl, rfl⟩ <;> omega
  · have h0 : n = 0 := by omega
    subst h0; simp

theorem length_edgePairs (n : Nat) :
    (edgePairs (cityZones n)).length = if n = 0 then 0 else if n = 1 then 4 else if n = 2 then 10 else 6 * n := by
  unfold edgePairs
  rw [length_cityZones]
  by_cases h1 : n = 1
  · subst h1; rfl
  by_cases h2 : n = 2
  · subst h2; rfl
  by_cases h3 : n > 2
  · have h0 : n ≠ 0 := by omega
    simp only [h1, h2, h3, h0, if_false, if_true]
    rw [List.length_flatMap]
    simp
    omega
  · have h0 : n = 0 := by omega
    subst h0; simp

end Sidermit
