import Verif.Spec.City
import Verif.Proofs.PyLemmas
import Verif.Proofs.Text
import Mathlib.Tactic.Ring
import Mathlib.Tactic.Linarith
import Mathlib.Tactic.Positivity
import Mathlib.Algebra.Order.Field.Basic

/-! Construction of the city graph: closed form of the node list, of the zones and of the edge list. -/

set_option linter.unusedSectionVars false
set_option linter.unusedSimpArgs false

namespace Sidermit

section Edges

@[simp] theorem length_cityZones (n : Nat) : (cityZones n).length = n := by simp [cityZones]

theorem getElem?_cityZones {n i : Nat} (h : i < n) :
    (cityZones n)[i]? = some { id := (i : Int) + 1, periphery := 2 * i + 1, subcenter := 2 * i + 2 } := by
  simp [cityZones, h]

theorem cityZones_succ (n : Nat) : cityZones (n + 1) =
    cityZones n ++ [{ id := (n : Int) + 1, periphery := 2 * n + 1, subcenter := 2 * n + 2 }] := by
  simp [cityZones, List.range_succ]

/-- membership in the list of pairs of `__build_edges` -/
theorem mem_edgePairs (n a b : Nat) : (a, b) ∈ edgePairs (cityZones n) ↔ StreetIdx n a b := by
  unfold edgePairs StreetIdx
  rw [length_cityZones]
  by_cases h1 : n = 1
  · subst h1
    simp only [if_true, getElem?_cityZones (show 0 < 1 by omega)]
    simp
  by_cases h2 : n = 2
  · subst h2
    simp only [h1, if_false, if_true, getElem?_cityZones (show 0 < 2 by omega),
      getElem?_cityZones (show 1 < 2 by omega)]
    simp
    constructor
    · intro h
      rcases h with h | h | h | h | h | h | h | h | h | h
      · exact Or.inl ⟨0, by omega, by omega⟩
      · exact Or.inl ⟨0, by omega, by omega⟩
      · exact Or.inl ⟨0, by omega, by omega⟩
      · exact Or.inl ⟨0, by omega, by omega⟩
      · exact Or.inr ⟨0, by omega, by simp; omega⟩
      · exact Or.inr ⟨0, by omega, by simp; omega⟩
      · exact Or.inl ⟨1, by omega, by omega⟩
      · exact Or.inl ⟨1, by omega, by omega⟩
      · exact Or.inl ⟨1, by omega, by omega⟩
      · exact Or.inl ⟨1, by omega, by omega⟩
    · rintro (⟨i, hi, h⟩ | ⟨i, hi, h⟩)
      · have : i = 0 ∨ i = 1 := by omega
        rcases this with rfl | rfl <;> rcases h with ⟨rfl, rfl⟩ | ⟨rfl, rfl⟩ | ⟨rfl, rfl⟩ | ⟨rfl, rfl⟩ <;> simp
      · have : i = 0 ∨ i = 1 := by omega
        rcases this with rfl | rfl <;> rcases h with ⟨rfl, rfl⟩ | ⟨rfl, rfl⟩ <;> simp
  by_cases h3 : n > 2
  · simp only [h1, h2, h3, if_false, if_true, List.mem_flatMap, List.mem_range]
    constructor
    · rintro ⟨i, hi, h⟩
      have hj : (if i = n - 1 then 0 else i + 1) < n := by split <;> omega
      simp only [getElem?_cityZones hi, getElem?_cityZones hj, Option.map_some, Option.getD_some,
        List.mem_cons, Prod.mk.injEq, List.not_mem_nil, or_false] at h
      rcases h with h | h | h | h | h | h
      · exact Or.inl ⟨i, hi, Or.inl h⟩
      · exact Or.inl ⟨i, hi, Or.inr (Or.inl h)⟩
      · exact Or.inl ⟨i, hi, Or.inr (Or.inr (Or.inl h))⟩
      · exact Or.inl ⟨i, hi, Or.inr (Or.inr (Or.inr h))⟩
      · exact Or.inr ⟨i, hi, by omega, Or.inl h⟩
      · exact Or.inr ⟨i, hi, by omega, Or.inr h⟩
    · rintro (⟨i, hi, h⟩ | ⟨i, hi, _, h⟩)
      · refine ⟨i, hi, ?_⟩
        have hj : (if i = n - 1 then 0 else i + 1) < n := by split <;> omega
        simp only [getElem?_cityZones hi, getElem?_cityZones hj, Option.map_some, Option.getD_some,
          List.mem_cons, Prod.mk.injEq, List.not_mem_nil, or_false]
        tauto
      · refine ⟨i, hi, ?_⟩
        have hj : (if i = n - 1 then 0 else i + 1) < n := by split <;> omega
        simp only [getElem?_cityZones hi, getElem?_cityZones hj, Option.map_some, Option.getD_some,
          List.mem_cons, Prod.mk.injEq, List.not_mem_nil, or_false]
        tauto
  · have h0 : n = 0 := by omega
    subst h0
    simp

/-- one end of every street is a subcentre -/
theorem StreetIdx.subcenter {n a b : Nat} (h : StreetIdx n a b) :
    (a ≠ 0 ∧ a % 2 = 0) ∨ (b ≠ 0 ∧ b % 2 = 0) := by
  rcases h with ⟨i, _, h⟩ | ⟨i, _, _, h⟩ <;> rcases h with h | h
  all_goals first | (right; omega) | (left; omega) | skip
  rcases h with h | h | h <;> omega

theorem StreetIdx.lt {n a b : Nat} (h : StreetIdx n a b) : a < 2 * n + 1 ∧ b < 2 * n + 1 := by
  rcases h with ⟨i, hi, h⟩ | ⟨i, hi, _, h⟩
  · omega
  · have hj : (if i = n - 1 then 0 else i + 1) < n := by split <;> omega
    omega

theorem length_numberEdges (k : Nat) (ps : List (Nat × Nat)) : (numberEdges k ps).length = ps.length := by
  induction ps generalizing k with
  | nil => rfl
  | cons p t ih => simp [numberEdges, ih]

theorem numberEdges_append (k : Nat) (ps qs : List (Nat × Nat)) :
    numberEdges k (ps ++ qs) = numberEdges k ps ++ numberEdges (k + ps.length) qs := by
  induction ps generalizing k with
  | nil => simp [numberEdges]
  | cons p t ih =>
    simp only [List.cons_append, numberEdges, ih, List.length_cons]
    have : k + 1 + t.length = k + (t.length + 1) := by omega
    rw [this]

theorem numberEdges_map_pair (k : Nat) (ps : List (Nat × Nat)) :
    (numberEdges k ps).map (fun e => (e.node1, e.node2)) = ps := by
  induction ps generalizing k with
  | nil => rfl
  | cons p t ih => simp [numberEdges, ih]

theorem numberEdges_map_id (k : Nat) (ps : List (Nat × Nat)) :
    (numberEdges k ps).map Edge.id = List.range' k ps.length := by
  induction ps generalizing k with
  | nil => rfl
  | cons p t ih => simp [numberEdges, ih, List.range'_succ]

variable {K : Type}

/-- the loop of `__build_edges` succeeds when no pair is forbidden -/
theorem foldlM_mkEdge [Field K] [LinearOrder K] (nodes : List (Node K)) (ps : List (Nat × Nat))
    (h : ∀ pr ∈ ps, ∀ k, mkEdge nodes k pr.1 pr.2 = .ok ⟨k, pr.1, pr.2⟩) (es : List Edge) :
    ps.foldlM (init := es) (fun es pr => do
      let e ← mkEdge nodes (es.length + 1) pr.1 pr.2
      return es ++ [e]) = (.ok (es ++ numberEdges (es.length + 1) ps) : Py (List Edge)) := by
  induction ps generalizing es with
  | nil => simp [numberEdges]
  | cons p t ih =>
    rw [foldlM_cons, h p List.mem_cons_self]
    simp only [py_ok_bind, py_pure]
    have := ih (fun pr hpr => h pr (List.mem_cons_of_mem _ hpr)) (es ++ [⟨es.length + 1, p.1, p.2⟩])
    simp only [py_pure] at this
    rw [this]
    simp [numberEdges]

theorem mkEdge_ok [Field K] [LinearOrder K] {nodes : List (Node K)} {n : Nat}
    (hk : ∀ j nd, nodes[j]? = some nd → nd.kind = kindAt j) {a b : Nat} (h : StreetIdx n a b) (k : Nat) :
    mkEdge nodes k a b = .ok ⟨k, a, b⟩ := by
  have key : ∀ j kd, (nodes[j]?).map Node.kind = some kd → kd = kindAt j := by
    intro j kd h
    obtain ⟨nd, h1, h2⟩ := Option.map_eq_some_iff.1 h
    rw [← h2]; exact hk j nd h1
  have hp : ∀ j, (nodes[j]?).map Node.kind = some .periphery → ¬ (j ≠ 0 ∧ j % 2 = 0) := by
    intro j hj
    have := key j _ hj
    unfold kindAt at this
    intro ⟨h1, h2⟩
    rw [if_neg h1, if_neg (by omega)] at this
    cases this
  have hc : ∀ j, (nodes[j]?).map Node.kind = some .cbd → ¬ (j ≠ 0 ∧ j % 2 = 0) := by
    intro j hj
    have := key j _ hj
    unfold kindAt at this
    intro ⟨h1, h2⟩
    rw [if_neg h1, if_neg (by omega)] at this
    cases this
  have hs := h.subcenter
  unfold mkEdge
  simp only
  rw [raiseIf_neg (fun ⟨h1, h2⟩ => hs.elim (hp _ h1) (hp _ h2)),
    raiseIf_neg (fun ⟨h1, h2⟩ => hs.elim (hp _ h1) (hc _ h2)),
    raiseIf_neg (fun ⟨h1, h2⟩ => hs.elim (hc _ h1) (hp _ h2))]
  rfl

/-- `__build_edges` on a city with `n` zones never raises and gives the edge list of the city -/
theorem buildEdges_city [Field K] [LinearOrder K] (g : Graph K) (n : Nat)
    (hk : ∀ j nd, g.nodes[j]? = some nd → nd.kind = kindAt j) (hz : g.zones = cityZones n) :
    buildEdges g = .ok { g with edges := cityEdges n } := by
  unfold buildEdges
  rw [foldlM_mkEdge g.nodes _ (by
    intro pr hpr k
    obtain ⟨a, b⟩ := pr
    rw [hz, mem_edgePairs] at hpr
    exact mkEdge_ok hk hpr k)]
  simp [cityEdges, hz]

end Edges

section Build

variable {K : Type} [Field K] [LinearOrder K] [IsStrictOrderedRing K] [PyMath K]

@[simp] theorem length_cityNodes (geo : Geo K) (w : K) (n : Nat) : (cityNodes geo w n).length = 2 * n + 1 := by
  simp [cityNodes]

omit [LinearOrder K] [IsStrictOrderedRing K] in
theorem getElem?_cityNodes (geo : Geo K) (w : K) (n j : Nat) :
    (cityNodes geo w n)[j]? = if j < 2 * n + 1 then some (nodeAt geo w j) else none := by
  simp only [cityNodes, List.getElem?_map]
  split
  · rename_i h; simp [List.getElem?_range h]
  · rename_i h; simp [List.getElem?_eq_none (show (List.range (2 * n + 1)).length ≤ j by simp; omega)]

omit [LinearOrder K] [IsStrictOrderedRing K] in
theorem nodeAt_kind (geo : Geo K) (w : K) (j : Nat) : (nodeAt geo w j).kind = kindAt j := by
  unfold nodeAt kindAt
  split
  · rfl
  · simp only; split <;> rfl

omit [LinearOrder K] [IsStrictOrderedRing K] in
theorem nodeAt_id (geo : Geo K) (w : K) (j : Nat) : (nodeAt geo w j).id = j := by
  unfold nodeAt
  split
  · rename_i h; simp [h]
  · simp only; split <;> rfl

omit [LinearOrder K] [IsStrictOrderedRing K] in
theorem nodeAt_zone (geo : Geo K) (w : K) (j : Nat) : (nodeAt geo w j).zone = zoneAt j := by
  unfold nodeAt zoneAt
  split
  · rename_i h; simp [h]
  · rename_i h; simp only; split <;> (simp only; omega)

omit [LinearOrder K] [IsStrictOrderedRing K] in
theorem nodeAt_width (geo : Geo K) (w : K) (j : Nat) : (nodeAt geo w j).width = w := by
  unfold nodeAt
  split
  · rfl
  · simp only; split <;> rfl

omit [LinearOrder K] [IsStrictOrderedRing K] in
theorem nodeAt_periphery (geo : Geo K) (w : K) (i : Nat) : nodeAt geo w (2 * i + 1) =
    { id := 2 * i + 1, x := geo.rp i * PyMath.cosDeg (geo.ang i), y := geo.rp i * PyMath.sinDeg (geo.ang i),
      radius := geo.rp i, angle := geo.ang i, width := w, zone := i + 1,
      name := "P_".toList ++ showInt (i + 1), kind := .periphery } := by
  unfold nodeAt
  have h1 : (2 * i + 1 - 1) / 2 = i := by omega
  have h2 : (2 * i + 1) % 2 = 1 := by omega
  simp only [h1, h2, if_true, if_neg (show ¬ 2 * i + 1 = 0 by omega)]
  simp

omit [LinearOrder K] [IsStrictOrderedRing K] in
theorem nodeAt_subcenter (geo : Geo K) (w : K) (i : Nat) : nodeAt geo w (2 * i + 2) =
    { id := 2 * i + 2, x := geo.rsc i * PyMath.cosDeg (geo.ang i), y := geo.rsc i * PyMath.sinDeg (geo.ang i),
      radius := geo.rsc i, angle := geo.ang i, width := w, zone := i + 1,
      name := "SC_".toList ++ showInt (i + 1), kind := .subcenter } := by
  unfold nodeAt
  have h1 : (2 * i + 2 - 1) / 2 = i := by omega
  have h2 : ¬ (2 * i + 2) % 2 = 1 := by omega
  simp only [h1, h2, if_false, if_neg (show ¬ 2 * i + 2 = 0 by omega)]
  simp

omit [LinearOrder K] [IsStrictOrderedRing K] in
theorem cityNodes_kind (geo : Geo K) (w : K) (n : Nat) :
    ∀ j nd, (cityNodes geo w n)[j]? = some nd → nd.kind = kindAt j := by
  intro j nd h
  rw [getElem?_cityNodes] at h
  split at h
  · cases h; exact nodeAt_kind geo w j
  · cases h

omit [LinearOrder K] [IsStrictOrderedRing K] in
/-- a change of geometry that only affects the node at one position -/
theorem modify_cityNodes (geo geo' : Geo K) (w : K) (n j : Nat) (f : Node K → Node K)
    (hj : f (nodeAt geo w j) = nodeAt geo' w j)
    (ho : ∀ i, i < 2 * n + 1 → i ≠ j → nodeAt geo' w i = nodeAt geo w i) :
    (cityNodes geo w n).modify j f = cityNodes geo' w n := by
  apply List.ext_getElem?
  intro i
  rw [List.getElem?_modify, getElem?_cityNodes, getElem?_cityNodes]
  by_cases hi : i < 2 * n + 1
  · simp only [hi, if_true, Option.map_eq_map, Option.map_some]
    by_cases hij : j = i
    · subst hij; simp [hj]
    · simp [hij, ho i hi (Ne.symm hij)]
  · simp [hi]

omit [LinearOrder K] [IsStrictOrderedRing K] in
theorem cityNodes_succ (geo : Geo K) (w : K) (n : Nat) :
    cityNodes geo w (n + 1) = cityNodes geo w n ++ [nodeAt geo w (2 * n + 1), nodeAt geo w (2 * n + 2)] := by
  unfold cityNodes
  rw [show 2 * (n + 1) + 1 = (2 * n + 1) + 1 + 1 by omega, List.range_succ, List.range_succ]
  simp

omit [LinearOrder K] [IsStrictOrderedRing K] in
theorem cityNodes_ids (geo : Geo K) (w : K) (n : Nat) :
    (cityNodes geo w n).map Node.id = (List.range (2 * n + 1)).map (fun j : Nat => (j : Int)) := by
  unfold cityNodes
  rw [List.map_map]
  apply List.map_congr_left
  intro j _
  exact nodeAt_id geo w j

omit [LinearOrder K] [IsStrictOrderedRing K] in
theorem cityNodes_distinct (geo : Geo K) (w : K) (n : Nat) : ((cityNodes geo w n).map Node.id).Nodup := by
  rw [cityNodes_ids]
  exact List.Nodup.map (fun a b h => by simpa using h) List.nodup_range

/-- `addZone` adds zone `n+1` of the city -/
theorem addZone_city (g : Graph K) (geo : Geo K) (w : K) (n : Nat) (hn : g.nodes = cityNodes geo w n)
    (hz : g.zones = cityZones n) :
    addZone g (some (nodeAt geo w (2 * n + 1))) (some (nodeAt geo w (2 * n + 2))) (some ((n : Int) + 1)) =
      .ok { g with nodes := cityNodes geo w (n + 1), zones := cityZones (n + 1), edges := cityEdges (n + 1) } := by
  unfold addZone
  rw [raiseIf_neg (by rw [hn, length_cityNodes]; omega)]
  simp only [py_ok_bind, Option.getD_some]
  unfold mkZone
  rw [raiseIf_neg (by omega)]
  simp only [py_ok_bind, nodeAt_periphery, nodeAt_subcenter, ne_eq, not_true_eq_false, raiseIf_false, or_self,
    py_pure]
  rw [← nodeAt_periphery, ← nodeAt_subcenter]
  unfold addNodes
  rw [raiseIf_neg]
  · simp only [py_ok_bind, py_pure, hn, hz, length_cityNodes]
    rw [buildEdges_city _ (n + 1)]
    · simp [cityNodes_succ, cityZones_succ]
    · intro j nd h
      rw [← cityNodes_succ] at h
      exact cityNodes_kind geo w (n + 1) j nd h
    · simp [cityZones_succ]
  · simp only [hn, cityNodes_ids, nodeAt_id, List.mem_map, List.mem_range, not_or, not_exists, not_and]
    constructor <;> · intro x hx h; omega

/-- geometry of the symmetric city -/
def symGeo (n : Nat) (l g : K) : Geo K :=
  { ang := fun i => 360 / (n : K) * (i : K), rp := fun _ => l + g * l, rsc := fun _ => l, rc := 0, ac := 0 }

omit [PyMath K] in
theorem sym_angle_range {n k : Nat} (hk : k < n) : 0 ≤ 360 / (n : K) * (k : K) ∧ 360 / (n : K) * (k : K) ≤ 360 := by
  have hn : (0 : K) < n := by exact_mod_cast (by omega : 0 < n)
  have hkn : (k : K) ≤ n := by exact_mod_cast hk.le
  refine ⟨by positivity, ?_⟩
  rw [div_mul_eq_mul_div, div_le_iff₀ hn]
  nlinarith

omit [PyMath K] in
theorem mkNode_ok (kind : Kind) (id : Int) (x y radius angle width : K) (zone : Int) (name : Str)
    (h1 : kind = .cbd → zone = 0) (h2 : 0 ≤ radius) (h3 : 0 ≤ angle) (h4 : angle ≤ 360) (h5 : 0 ≤ width) :
    mkNode kind id x y radius angle width zone name =
      .ok { id, x, y, radius, angle, width, zone, name, kind } := by
  unfold mkNode
  rw [raiseIf_neg (fun h => h.2 (h1 h.1)), raiseIf_neg (not_lt.2 h2),
    raiseIf_neg (not_or.2 ⟨not_lt.2 h3, not_lt.2 h4⟩), raiseIf_neg (not_lt.2 h5)]
  rfl

/-- one pass of the zone loop of `build_from_parameters` -/
theorem zoneStep_city (g : Graph K) (n : Nat) (l gg p : K) (hl : 0 ≤ l) (hg : 0 ≤ gg) (hp : 0 ≤ p) (k : Nat)
    (hk : k < n) (hn : g.nodes = cityNodes (symGeo n l gg) p k) (hz : g.zones = cityZones k) :
    zoneStep (n : Int) l gg p g k =
      .ok { g with nodes := cityNodes (symGeo n l gg) p (k + 1), zones := cityZones (k + 1),
                   edges := cityEdges (k + 1) } := by
  have hn0 : (((n : Int)) : K) ≠ 0 := by
    have : (n : K) ≠ 0 := by exact_mod_cast (by omega : n ≠ 0)
    simpa using this
  have hr := sym_angle_range (K := K) hk
  have hlg : 0 ≤ l + gg * l := by positivity
  unfold zoneStep
  simp only [pyDiv]
  rw [if_neg hn0]
  simp only [py_ok_bind, Int.cast_natCast]
  rw [mkNode_ok .periphery _ _ _ _ _ _ _ _ (by simp) hlg hr.1 hr.2 hp,
    mkNode_ok .subcenter _ _ _ _ _ _ _ _ (by simp) hl hr.1 hr.2 hp]
  simp only [py_ok_bind]
  have := addZone_city g (symGeo n l gg) p k hn hz
  rw [nodeAt_periphery, nodeAt_subcenter] at this
  simpa [symGeo, getXY] using this

/-- the whole zone loop -/
theorem zoneLoop_city (n : Nat) (l gg p : K) (hl : 0 ≤ l) (hg : 0 ≤ gg) (hp : 0 ≤ p) (g0 : Graph K)
    (hn : g0.nodes = cityNodes (symGeo n l gg) p 0) (hz : g0.zones = []) (he : g0.edges = []) :
    (List.range n).foldlM (zoneStep (n : Int) l gg p) g0 =
      .ok { g0 with nodes := cityNodes (symGeo n l gg) p n, zones := cityZones n, edges := cityEdges n } := by
  have := foldlM_range_ok (zoneStep (n : Int) l gg p)
    (fun k => { g0 with nodes := cityNodes (symGeo n l gg) p k, zones := cityZones k, edges := cityEdges k }) n
    (by
      intro k hk
      rw [zoneStep_city _ n l gg p hl hg hp k hk rfl rfl])
  rw [← this]
  congr 1
  cases g0
  simp_all [cityZones, cityEdges, edgePairs, numberEdges]

end Build

section Asymmetry

variable {K : Type} [Field K] [LinearOrder K] [IsStrictOrderedRing K] [PyMath K]

omit [LinearOrder K] [IsStrictOrderedRing K] in
theorem nodeAt_congr (geo geo' : Geo K) (w : K) (j : Nat) (hc : j = 0 → geo.rc = geo'.rc ∧ geo.ac = geo'.ac)
    (ha : j ≠ 0 → geo.ang ((j - 1) / 2) = geo'.ang ((j - 1) / 2))
    (hp : j % 2 = 1 → geo.rp ((j - 1) / 2) = geo'.rp ((j - 1) / 2))
    (hs : j ≠ 0 → j % 2 = 0 → geo.rsc ((j - 1) / 2) = geo'.rsc ((j - 1) / 2)) :
    nodeAt geo w j = nodeAt geo' w j := by
  unfold nodeAt
  by_cases h0 : j = 0
  · simp only [h0, if_true, hc h0]
  · simp only [h0, if_false]
    by_cases h1 : j % 2 = 1
    · simp only [h1, if_true, ha h0, hp h1]
    · simp only [h1, if_false, ha h0, hs h0 (by omega)]

omit [LinearOrder K] [IsStrictOrderedRing K] in
theorem modify2_cityNodes (geo geo' : Geo K) (w : K) (n j j' : Nat) (f f' : Node K → Node K) (hjj : j ≠ j')
    (hj : f (nodeAt geo w j) = nodeAt geo' w j) (hj' : f' (nodeAt geo w j') = nodeAt geo' w j')
    (ho : ∀ i, i < 2 * n + 1 → i ≠ j → i ≠ j' → nodeAt geo' w i = nodeAt geo w i) :
    ((cityNodes geo w n).modify j f).modify j' f' = cityNodes geo' w n := by
  apply List.ext_getElem?
  intro i
  rw [List.getElem?_modify, List.getElem?_modify, getElem?_cityNodes, getElem?_cityNodes]
  by_cases hi : i < 2 * n + 1
  · simp only [hi, if_true, Option.map_eq_map, Option.map_some]
    by_cases hij : j = i
    · subst hij; simp [hj, Ne.symm hjj]
    · by_cases hij' : j' = i
      · subst hij'; simp [hj', hjj]
      · simp [hij, hij', ho i hi (Ne.symm hij) (Ne.symm hij')]
  · simp [hi]

theorem pyGet_ok {α : Type} {xs : List α} {i : Nat} {a : α} (h : xs[i]? = some a) : pyGet xs i = .ok a := by
  simp [pyGet, h]

theorem pyGet_city_periphery (geo : Geo K) (w : K) {n i : Nat} (h : i < n) :
    pyGet (cityNodes geo w n) (2 * i + 1) = .ok (nodeAt geo w (2 * i + 1)) :=
  pyGet_ok (by rw [getElem?_cityNodes, if_pos (by omega)])

theorem pyGet_city_subcenter (geo : Geo K) (w : K) {n i : Nat} (h : i < n) :
    pyGet (cityNodes geo w n) (2 * i + 2) = .ok (nodeAt geo w (2 * i + 2)) :=
  pyGet_ok (by rw [getElem?_cityNodes, if_pos (by omega)])

/-- the first `k` values of `f` replaced by those of `f'` -/
def upTo (k : Nat) (f' f : Nat → K) : Nat → K := fun i => if i < k then f' i else f i

omit [Field K] [LinearOrder K] [IsStrictOrderedRing K] [PyMath K] in
theorem upTo_zero (f' f : Nat → K) : upTo 0 f' f = f := by funext i; simp [upTo]

theorem anglesLoop_city (g : Graph K) (geo : Geo K) (w : K) (n : Nat) (angles : List K)
    (hn : g.nodes = cityNodes geo w n) (hz : g.zones = cityZones n) (hl : angles.length = n) (k : Nat)
    (hk : k ≤ n) :
    (List.range k).foldlM (anglesStep angles) g =
      .ok { g with nodes := cityNodes { geo with ang := upTo k (fun i => angles.getD i 0) geo.ang } w n } := by
  have := foldlM_range_ok (anglesStep angles)
    (fun k => { g with nodes := cityNodes { geo with ang := upTo k (fun i => angles.getD i 0) geo.ang } w n }) k
    (by
      intro i hi
      have hin : i < n := by omega
      have hia : i < angles.length := by omega
      unfold anglesStep
      simp only [Graph.modifyNode, hz]
      rw [pyGet_ok (getElem?_cityZones hin), pyGet_ok (List.getElem?_eq_getElem hia)]
      simp only [py_ok_bind]
      rw [pyGet_city_periphery _ _ hin, pyGet_city_subcenter _ _ hin]
      simp only [py_ok_bind, py_pure]
      congr 2
      apply modify2_cityNodes
      · omega
      · simp [nodeAt_periphery, getXY, upTo, hia]
      · simp [nodeAt_subcenter, getXY, upTo, hia]
      · intro m hm h1 h2
        apply nodeAt_congr <;> simp
        intro h0
        unfold upTo
        have : (m - 1) / 2 ≠ i := by omega
        by_cases hlt : (m - 1) / 2 < i
        · rw [if_pos (by omega), if_pos hlt]
        · rw [if_neg (by omega), if_neg hlt])
  rw [← this]
  congr 1
  simp only [upTo_zero]
  cases g
  simp_all

theorem giLoop_city (g : Graph K) (geo : Geo K) (w : K) (n : Nat) (gi : List K)
    (hn : g.nodes = cityNodes geo w n) (hz : g.zones = cityZones n) (hl : gi.length = n) (k : Nat)
    (hk : k ≤ n) :
    (List.range k).foldlM (giStep gi) g =
      .ok { g with nodes := cityNodes { geo with rsc := upTo k (fun i => gi.getD i 0 * geo.rsc i) geo.rsc } w n } := by
  have := foldlM_range_ok (giStep gi)
    (fun k => { g with nodes := cityNodes { geo with rsc := upTo k (fun i => gi.getD i 0 * geo.rsc i) geo.rsc } w n }) k
    (by
      intro i hi
      have hin : i < n := by omega
      have hia : i < gi.length := by omega
      unfold giStep
      simp only [Graph.modifyNode, hz]
      rw [pyGet_ok (getElem?_cityZones hin), pyGet_ok (List.getElem?_eq_getElem hia)]
      simp only [py_ok_bind]
      rw [pyGet_city_subcenter _ _ hin]
      simp only [py_ok_bind, py_pure]
      congr 2
      apply modify_cityNodes
      · simp [nodeAt_subcenter, getXY, upTo, hia]
      · intro m hm h1
        apply nodeAt_congr <;> simp
        intro h0 h0'
        unfold upTo
        have : (m - 1) / 2 ≠ i := by omega
        by_cases hlt : (m - 1) / 2 < i
        · rw [if_pos (by omega), if_pos hlt]
        · rw [if_neg (by omega), if_neg hlt])
  rw [← this]
  congr 1
  simp only [upTo_zero]
  cases g
  simp_all

theorem hiLoop_city (g : Graph K) (geo : Geo K) (w : K) (n : Nat) (hi : List K)
    (hn : g.nodes = cityNodes geo w n) (hz : g.zones = cityZones n) (hl : hi.length = n) (k : Nat)
    (hk : k ≤ n) :
    (List.range k).foldlM (hiStep hi) g =
      .ok { g with nodes := cityNodes { geo with rp := upTo k (fun i => hi.getD i 0 * geo.rp i) geo.rp } w n } := by
  have := foldlM_range_ok (hiStep hi)
    (fun k => { g with nodes := cityNodes { geo with rp := upTo k (fun i => hi.getD i 0 * geo.rp i) geo.rp } w n }) k
    (by
      intro i hii
      have hin : i < n := by omega
      have hia : i < hi.length := by omega
      unfold hiStep
      simp only [Graph.modifyNode, hz]
      rw [pyGet_ok (getElem?_cityZones hin), pyGet_ok (List.getElem?_eq_getElem hia)]
      simp only [py_ok_bind]
      rw [pyGet_city_periphery _ _ hin]
      simp only [py_ok_bind, py_pure]
      congr 2
      apply modify_cityNodes
      · simp [nodeAt_periphery, getXY, upTo, hia]
      · intro m hm h1
        apply nodeAt_congr <;> simp
        intro h0
        unfold upTo
        have : (m - 1) / 2 ≠ i := by omega
        by_cases hlt : (m - 1) / 2 < i
        · rw [if_pos (by omega), if_pos hlt]
        · rw [if_neg (by omega), if_neg hlt])
  rw [← this]
  congr 1
  simp only [upTo_zero]
  cases g
  simp_all

omit [LinearOrder K] [IsStrictOrderedRing K] in
/-- geometries that agree on the zones of the city give the same nodes -/
theorem cityNodes_congr (geo geo' : Geo K) (w : K) (n : Nat) (hc : geo.rc = geo'.rc ∧ geo.ac = geo'.ac)
    (ha : ∀ i < n, geo.ang i = geo'.ang i) (hp : ∀ i < n, geo.rp i = geo'.rp i)
    (hs : ∀ i < n, geo.rsc i = geo'.rsc i) : cityNodes geo w n = cityNodes geo' w n := by
  unfold cityNodes
  apply List.map_congr_left
  intro j hj
  simp at hj
  apply nodeAt_congr
  · intro _; exact hc
  · intro h; exact ha _ (by omega)
  · intro h; exact hp _ (by omega)
  · intro h _; exact hs _ (by omega)

/-- `__angles_asymmetry` on a city -/
theorem anglesAsymmetry_city (g : Graph K) (geo : Geo K) (w : K) (n : Nat) (angles : List K)
    (hn : g.nodes = cityNodes geo w n) (hz : g.zones = cityZones n) (hl : angles.length = n) :
    anglesAsymmetry g angles =
      .ok { g with nodes := cityNodes { geo with ang := fun i => angles.getD i 0 } w n, edges := cityEdges n } := by
  unfold anglesAsymmetry
  rw [hz, length_cityZones, anglesLoop_city g geo w n angles hn hz hl n (le_refl n)]
  simp only [py_ok_bind]
  rw [cityNodes_congr _ { geo with ang := fun i => angles.getD i 0 } w n]
  · rw [buildEdges_city _ n (cityNodes_kind _ w n) (by exact hz)]; simp [hz]
  · exact ⟨rfl, rfl⟩
  · intro i hi; simp [upTo, hi]
  · intro i hi; rfl
  · intro i hi; rfl

theorem giAsymmetry_city (g : Graph K) (geo : Geo K) (w : K) (n : Nat) (gi : List K)
    (hn : g.nodes = cityNodes geo w n) (hz : g.zones = cityZones n) (hl : gi.length = n) :
    giAsymmetry g gi =
      .ok { g with nodes := cityNodes { geo with rsc := fun i => gi.getD i 0 * geo.rsc i } w n,
                   edges := cityEdges n } := by
  unfold giAsymmetry
  rw [hz, length_cityZones, giLoop_city g geo w n gi hn hz hl n (le_refl n)]
  simp only [py_ok_bind]
  rw [cityNodes_congr _ { geo with rsc := fun i => gi.getD i 0 * geo.rsc i } w n]
  · rw [buildEdges_city _ n (cityNodes_kind _ w n) (by exact hz)]; simp [hz]
  · exact ⟨rfl, rfl⟩
  · intro i hi; rfl
  · intro i hi; rfl
  · intro i hi; simp [upTo, hi]

theorem hiAsymmetry_city (g : Graph K) (geo : Geo K) (w : K) (n : Nat) (hi : List K)
    (hn : g.nodes = cityNodes geo w n) (hz : g.zones = cityZones n) (hl : hi.length = n) :
    hiAsymmetry g hi =
      .ok { g with nodes := cityNodes { geo with rp := fun i => hi.getD i 0 * geo.rp i } w n,
                   edges := cityEdges n } := by
  unfold hiAsymmetry
  rw [hz, length_cityZones, hiLoop_city g geo w n hi hn hz hl n (le_refl n)]
  simp only [py_ok_bind]
  rw [cityNodes_congr _ { geo with rp := fun i => hi.getD i 0 * geo.rp i } w n]
  · rw [buildEdges_city _ n (cityNodes_kind _ w n) (by exact hz)]; simp [hz]
  · exact ⟨rfl, rfl⟩
  · intro i hi; rfl
  · intro i hi; simp [upTo, hi]
  · intro i hi; rfl

theorem ethaAsymmetry_city (g : Graph K) (geo : Geo K) (w : K) (n : Nat) (e : K) (z : Int)
    (hn : g.nodes = cityNodes geo w n) (hz : g.zones = cityZones n) (h1 : 0 < z) (h2 : z ≤ n) :
    ethaAsymmetry g e z =
      .ok { g with nodes := cityNodes { geo with rc := e * geo.rsc (z - 1).toNat,
                                                 ac := geo.ang (z - 1).toNat } w n,
                   edges := cityEdges n } := by
  have hi : (z - 1).toNat < n := by omega
  unfold ethaAsymmetry
  rw [hz, pyGet_ok (getElem?_cityZones hi)]
  simp only [py_ok_bind]
  rw [hn, pyGet_city_subcenter _ _ hi]
  simp only [py_ok_bind]
  have : (cityNodes geo w n).map (fun nd => if nd.kind = .cbd then
      { nd with x := (getXY (e * (nodeAt geo w (2 * (z - 1).toNat + 2)).radius)
                        (nodeAt geo w (2 * (z - 1).toNat + 2)).angle).1,
                y := (getXY (e * (nodeAt geo w (2 * (z - 1).toNat + 2)).radius)
                        (nodeAt geo w (2 * (z - 1).toNat + 2)).angle).2,
                radius := e * (nodeAt geo w (2 * (z - 1).toNat + 2)).radius,
                angle := (nodeAt geo w (2 * (z - 1).toNat + 2)).angle } else nd) =
      cityNodes { geo with rc := e * geo.rsc (z - 1).toNat, ac := geo.ang (z - 1).toNat } w n := by
    unfold cityNodes
    rw [List.map_map]
    apply List.map_congr_left
    intro j _
    simp only [Function.comp, nodeAt_kind, nodeAt_subcenter, getXY]
    by_cases h0 : j = 0
    · subst h0
      simp [kindAt, nodeAt]
    · have : kindAt j ≠ .cbd := by
        unfold kindAt; rw [if_neg h0]; split <;> simp
      rw [if_neg this]
      apply nodeAt_congr <;> simp [h0]
  rw [this]
  rw [buildEdges_city _ n (cityNodes_kind _ w n) (by rfl)]

/-- replacement of an optional list -/
def optRepl (xs : Option (List K)) (f : Nat → K) : Nat → K :=
  match xs with | none => f | some a => fun i => a.getD i 0

/-- scaling by an optional list -/
def optScale (xs : Option (List K)) (f : Nat → K) : Nat → K :=
  match xs with | none => f | some a => fun i => a.getD i 0 * f i

omit [IsStrictOrderedRing K] [PyMath K] [Field K] in
theorem checkList_eq_ok (n : Int) (xs : Option (List K)) (bad : K → Prop) [DecidablePred bad] (e1 e2 : PyErr)
    (u : Unit) :
    checkList n xs bad e1 e2 = .ok u ↔ ∀ a, xs = some a → (a.length : Int) = n ∧ ∀ x ∈ a, ¬ bad x := by
  cases xs with
  | none => simp [checkList]
  | some a =>
    simp only [checkList, raiseIf_bind_eq_ok, raiseIf_eq_ok, Option.some.injEq, forall_eq', not_not, not_exists,
      not_and]

omit [IsStrictOrderedRing K] [PyMath K] in
theorem parametersValidator_iff (n : Int) (l g p : K) (etha : Option K) (ethaZone : Option Int)
    (angles gi hi : Option (List K)) (u : Unit) :
    parametersValidator n l g p etha ethaZone angles gi hi = .ok u ↔
      CityParamsOk n l g p etha ethaZone angles gi hi := by
  unfold parametersValidator
  simp only [raiseIf_bind_eq_ok, not_lt]
  constructor
  · rintro ⟨h1, h2, h3, h4, h⟩
    rw [py_bind_eq_ok] at h
    obtain ⟨u1, he, h⟩ := h
    rw [py_bind_eq_ok] at h
    obtain ⟨u2, ha, h⟩ := h
    rw [py_bind_eq_ok] at h
    obtain ⟨u3, hg, hh⟩ := h
    rw [checkList_eq_ok] at ha hg hh
    refine ⟨h1, h2, h3, h4, ?_, ?_, ?_, ?_⟩
    · cases etha with
      | none => cases ethaZone with
        | none => exact Or.inl ⟨rfl, rfl⟩
        | some z => simp [checkEtha] at he
      | some e => cases ethaZone with
        | none => simp [checkEtha] at he
        | some z =>
          simp only [checkEtha, raiseIf_bind_eq_ok, raiseIf_eq_ok, not_or, not_lt, gt_iff_lt, not_le] at he
          exact Or.inr ⟨e, z, rfl, rfl, he.1.1, he.1.2, by omega, he.2.2⟩
    · intro a h; have := ha a h; simpa [not_or, not_lt] using this
    · intro a h; have := hg a h; simpa [not_lt] using this
    · intro a h; have := hh a h; simpa [not_lt] using this
  · intro h
    refine ⟨h.n_nonneg, h.l_nonneg, h.g_nonneg, h.p_nonneg, ?_⟩
    rw [py_bind_eq_ok]
    refine ⟨(), ?_, ?_⟩
    · rcases h.etha_ok with ⟨rfl, rfl⟩ | ⟨e, z, rfl, rfl, h1, h2, h3, h4⟩
      · rfl
      · simp only [checkEtha, raiseIf_bind_eq_ok, raiseIf_eq_ok, not_or, not_lt, gt_iff_lt, not_le]
        exact ⟨⟨h1, h2⟩, by omega, h4⟩
    · rw [py_bind_eq_ok]
      refine ⟨(), ?_, ?_⟩
      · rw [checkList_eq_ok]; intro a ha; have := h.angles_ok a ha; simpa [not_or, not_lt] using this
      · rw [py_bind_eq_ok]
        refine ⟨(), ?_, ?_⟩
        · rw [checkList_eq_ok]; intro a ha; have := h.gi_ok a ha; simpa [not_lt] using this
        · rw [checkList_eq_ok]; intro a ha; have := h.hi_ok a ha; simpa [not_lt] using this

/-- **Closed form of `build_from_parameters`** on accepted parameters. -/
theorem buildFromParameters_eq {n : Nat} {l g p : K} {etha : Option K} {ethaZone : Option Int}
    {angles gi hi : Option (List K)} (h : CityParamsOk (n : Int) l g p etha ethaZone angles gi hi) :
    buildFromParameters (n : Int) l g p etha ethaZone angles gi hi =
      .ok { nodes := cityNodes (docGeo n l g etha ethaZone angles gi hi) p n, zones := cityZones n,
            edges := cityEdges n, n := some (n : Int), l := some l, g := some g, p := some p, etha := etha,
            ethaZone := ethaZone, angles := angles, gi := gi, hi := hi } := by
  unfold buildFromParameters
  rw [(parametersValidator_iff _ _ _ _ _ _ _ _ _ ()).2 h]
  rw [mkNode_ok .cbd 0 0 0 0 0 p 0 _ (by simp) (le_refl 0) (le_refl 0) (by norm_num) h.p_nonneg]
  simp only [py_ok_bind, Int.toNat_natCast]
  rw [zoneLoop_city n l g p h.l_nonneg h.g_nonneg h.p_nonneg _
    (by simp [addCbd, Graph.empty, cityNodes, nodeAt, symGeo, List.range_succ]) rfl rfl]
  simp only [py_ok_bind]
  -- angles
  have hA : ∀ (g0 : Graph K) (geo : Geo K), g0.nodes = cityNodes geo p n → g0.zones = cityZones n →
      g0.edges = cityEdges n → whenSome g0 angles anglesAsymmetry = .ok { g0 with
        nodes := cityNodes { geo with ang := optRepl angles geo.ang } p n } := by
    intro g0 geo h1 h2 h3
    cases ha : angles with
    | none => simp only [whenSome, optRepl, optScale]; rw [← h1]
    | some a =>
      have := (h.angles_ok a ha).1
      simp only [whenSome, optRepl, optScale]
      rw [anglesAsymmetry_city g0 geo p n a h1 h2 (by omega), ← h3]
  have hG : ∀ (g0 : Graph K) (geo : Geo K), g0.nodes = cityNodes geo p n → g0.zones = cityZones n →
      g0.edges = cityEdges n → whenSome g0 gi giAsymmetry = .ok { g0 with
        nodes := cityNodes { geo with rsc := optScale gi geo.rsc } p n } := by
    intro g0 geo h1 h2 h3
    cases ha : gi with
    | none => simp only [whenSome, optRepl, optScale]; rw [← h1]
    | some a =>
      have := (h.gi_ok a ha).1
      simp only [whenSome, optRepl, optScale]
      rw [giAsymmetry_city g0 geo p n a h1 h2 (by omega), ← h3]
  have hH : ∀ (g0 : Graph K) (geo : Geo K), g0.nodes = cityNodes geo p n → g0.zones = cityZones n →
      g0.edges = cityEdges n → whenSome g0 hi hiAsymmetry = .ok { g0 with
        nodes := cityNodes { geo with rp := optScale hi geo.rp } p n } := by
    intro g0 geo h1 h2 h3
    cases ha : hi with
    | none => simp only [whenSome, optRepl, optScale]; rw [← h1]
    | some a =>
      have := (h.hi_ok a ha).1
      simp only [whenSome, optRepl, optScale]
      rw [hiAsymmetry_city g0 geo p n a h1 h2 (by omega), ← h3]
  rw [hA _ (symGeo n l g) rfl rfl rfl]
  simp only [py_ok_bind]
  rw [hG _ _ rfl rfl rfl]
  simp only [py_ok_bind]
  rw [hH _ _ rfl rfl rfl]
  simp only [py_ok_bind]
  rcases h.etha_ok with ⟨rfl, rfl⟩ | ⟨e, z, rfl, rfl, h1, h2, h3, h4⟩
  · simp only [whenEtha, py_ok_bind, py_pure]
    congr 2
    simp only [docGeo, symGeo]
    congr 2 <;> cases angles <;> cases gi <;> cases hi <;> rfl
  · simp only [whenEtha]
    rw [ethaAsymmetry_city _ _ p n e z rfl rfl (by omega) h4]
    simp only [py_ok_bind, py_pure]
    congr 2
    simp only [docGeo, symGeo]
    congr 2 <;> cases angles <;> cases gi <;> cases hi <;> rfl

theorem buildFromParameters_ok_iff {n : Int} {l g p : K} {etha : Option K} {ethaZone : Option Int}
    {angles gi hi : Option (List K)} :
    (∃ r, buildFromParameters n l g p etha ethaZone angles gi hi = .ok r) ↔
      CityParamsOk n l g p etha ethaZone angles gi hi := by
  constructor
  · rintro ⟨r, hr⟩
    unfold buildFromParameters at hr
    rw [py_bind_eq_ok] at hr
    obtain ⟨u, hu, _⟩ := hr
    exact (parametersValidator_iff _ _ _ _ _ _ _ _ _ u).1 hu
  · intro h
    obtain ⟨m, rfl⟩ := Int.eq_ofNat_of_zero_le h.n_nonneg
    exact ⟨_, buildFromParameters_eq h⟩

/-- a graph made of city nodes is a well formed city -/
theorem cityShape_of_nodes (g : Graph K) (geo : Geo K) (w : K) (n : Nat) (hn : g.nodes = cityNodes geo w n)
    (hz : g.zones = cityZones n) (he : g.edges = cityEdges n) (hnn : g.n = some (n : Int)) : CityShape g n where
  n_eq := hnn
  len := by rw [hn, length_cityNodes]
  kind := by rw [hn]; exact cityNodes_kind geo w n
  zone := by
    rw [hn]; intro j nd h
    rw [getElem?_cityNodes] at h
    split at h
    · cases h; exact nodeAt_zone geo w j
    · cases h
  zones := hz
  edges := he

/-- every parametric city is a well formed city with distinct ids -/
theorem buildFromParameters_shape {n : Int} {l g p : K} {etha : Option K} {ethaZone : Option Int}
    {angles gi hi : Option (List K)} {r : Graph K}
    (h : buildFromParameters n l g p etha ethaZone angles gi hi = .ok r) :
    0 ≤ n ∧ CityShape r n.toNat ∧ DistinctIds r := by
  have hok := (buildFromParameters_ok_iff).1 ⟨r, h⟩
  obtain ⟨m, rfl⟩ := Int.eq_ofNat_of_zero_le hok.n_nonneg
  rw [buildFromParameters_eq hok] at h
  cases h
  refine ⟨hok.n_nonneg, cityShape_of_nodes _ _ p _ rfl rfl rfl rfl, ?_⟩
  exact cityNodes_distinct _ p _

end Asymmetry

end Sidermit
