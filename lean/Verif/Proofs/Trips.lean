import Verif.Spec.Trips
import Verif.Props.Scale
import Mathlib.Algebra.BigOperators.Group.Finset.Basic
import Mathlib.Algebra.Order.BigOperators.Group.Finset

/-!
Sums over the cells of a matrix, and the pairs that the constructor prepares, cell by cell.
-/

set_option linter.unusedSectionVars false

namespace Sidermit

section Sums

variable {K : Type} [Field K]

theorem mem_cells {m : Dict Int (Dict Int K)} {c : Int × Int × K} :
    c ∈ cells m ↔ ∃ row, (c.1, row) ∈ m ∧ (c.2.1, c.2.2) ∈ row := by
  unfold cells
  rw [List.mem_flatMap]
  constructor
  · rintro ⟨p, hp, hc⟩
    obtain ⟨q, hq, rfl⟩ := List.mem_map.1 hc
    exact ⟨p.2, hp, hq⟩
  · rintro ⟨row, h1, h2⟩
    exact ⟨_, h1, List.mem_map.2 ⟨_, h2, rfl⟩⟩

theorem tripsIn_of_mem {m : Dict Int (Dict Int K)} (hm : IsMatrix m) {c : Int × Int × K} (hc : c ∈ cells m) :
    tripsIn m c.1 c.2.1 = c.2.2 := by
  obtain ⟨row, h1, h2⟩ := mem_cells.1 hc
  unfold tripsIn
  rw [Dict.getD, Dict.getD, Dict.get?_of_mem m hm.rows h1]
  show (Dict.get? row c.2.1).getD 0 = _
  rw [Dict.get?_of_mem row (hm.columns _ h1) h2]
  rfl

theorem mem_of_tripsIn {m : Dict Int (Dict Int K)} {i j : Int} (h : tripsIn m i j ≠ 0) : (i, j, tripsIn m i j) ∈ cells m := by
  unfold tripsIn at h ⊢
  rw [mem_cells]
  rw [Dict.getD, Dict.getD] at *
  cases hr : m.get? i with
  | none => rw [hr] at h; exact absurd rfl h
  | some row =>
    rw [hr] at h
    refine ⟨row, Dict.mem_of_get? _ hr, ?_⟩
    simp only [Option.getD_some] at h ⊢
    cases hv : row.get? j with
    | none => rw [hv] at h; exact absurd rfl h
    | some v =>
      exact Dict.mem_of_get? _ hv

theorem cells_nodup {m : Dict Int (Dict Int K)} (hm : IsMatrix m) : ((cells m).map fun c => (c.1, c.2.1)).Nodup := by
  unfold cells
  rw [List.map_flatMap, List.nodup_flatMap]
  constructor
  · intro p hp
    have := hm.columns p hp
    rw [List.map_map]
    show (p.2.map fun q => (p.1, q.1)).Nodup
    have h2 : (p.2.map fun q => (p.1, q.1)) = (Dict.keys p.2).map fun j => (p.1, j) := by
      rw [Dict.keys, List.map_map]; rfl
    rw [h2]
    exact this.map fun a b h => (Prod.mk.inj h).2
  · have := hm.rows
    rw [Dict.keys, List.Nodup, List.pairwise_map] at this
    refine this.imp ?_
    intro a b hab x hx hy
    simp only [List.map_map, List.mem_map] at hx hy
    obtain ⟨q, _, rfl⟩ := hx
    obtain ⟨q', _, h⟩ := hy
    exact hab (Prod.mk.inj h).1.symm

/-- a sum over the cells is a sum over pairs of places -/
theorem sum_cells {m : Dict Int (Dict Int K)} (hm : IsMatrix m) {S : Finset (Int × Int)}
    (hS : ∀ c ∈ cells m, (c.1, c.2.1) ∈ S) {G : Int → Int → K → K} (hG : ∀ i j, G i j 0 = 0) :
    ((cells m).map fun c => G c.1 c.2.1 c.2.2).sum = ∑ p ∈ S, G p.1 p.2 (tripsIn m p.1 p.2) := by
  classical
  have h1 : ((cells m).map fun c => G c.1 c.2.1 c.2.2) =
      ((cells m).map fun c => (c.1, c.2.1)).map fun p => G p.1 p.2 (tripsIn m p.1 p.2) := by
    rw [List.map_map]
    apply List.map_congr_left
    intro c hc
    simp only [Function.comp]
    rw [tripsIn_of_mem hm hc]
  rw [h1, ← List.sum_toFinset _ (cells_nodup hm)]
  apply Finset.sum_subset
  · intro p hp
    rw [List.mem_toFinset] at hp
    obtain ⟨c, hc, rfl⟩ := List.mem_map.1 hp
    exact hS c hc
  · intro p _ hp
    have h0 : tripsIn m p.1 p.2 = 0 := by
      by_contra h
      exact hp (List.mem_toFinset.2 (List.mem_map.2 ⟨_, mem_of_tripsIn h, rfl⟩))
    rw [h0, hG]

/-- a finite set with the places of the cells of two matrices -/
theorem cells_cover (ms : List (Dict Int (Dict Int K))) :
    ∃ S : Finset (Int × Int), ∀ m ∈ ms, ∀ c ∈ cells m, (c.1, c.2.1) ∈ S := by
  classical
  exact ⟨(ms.flatMap fun m => (cells m).map fun c => (c.1, c.2.1)).toFinset, fun m hm c hc =>
    List.mem_toFinset.2 (List.mem_flatMap.2 ⟨m, hm, List.mem_map.2 ⟨c, hc, rfl⟩⟩)⟩

end Sums

section Pairs

variable {K : Type} [Field K] [LinearOrder K] [IsStrictOrderedRing K] [PyMath K]

/-- the result of one trip from `i` to `j` -/
def unitsOf (x : ExtGraph K) (pas : Passenger K) (w : K) (i j : Int) : List (ODResult K × Dict (StopNode K) K) :=
  match odResult x.nodes x.edges pas i j 1 with
  | .error _ => []
  | .ok l => l.map fun e => (e, match sharesOf (Dict.keys e.paths) e.res.label w pas.va pas.pa pas.pv with
    | .error _ => []
    | .ok s => s)

theorem odResult_scale (nodes : ENodes K) (edges : List (EEdge K)) (pas : Passenger K) (i j : Int) (v : K) :
    odResult nodes edges pas i j v = (odResult nodes edges pas i j 1).map fun l => l.map (ODResult.scale v) := by
  unfold odResult
  cases cityOf nodes i with
  | none => rfl
  | some a =>
    cases cityOf nodes j with
    | none => rfl
    | some b =>
      simp only
      cases hyperpathOD ⟨nodes, edges, pas, none, none⟩ a b with
      | error _ => rfl
      | ok r => simp [ODResult.scale, Except.map, bind, Except.bind, pure, Except.pure]

/-- the pairs of a cell -/
def cellPairs (x : ExtGraph K) (pas : Passenger K) (w : K) (c : Int × Int × K) : List (ODResult K × Dict (StopNode K) K) :=
  if c.2.2 ≠ 0 then (unitsOf x pas w c.1 c.2.1).map fun u => (u.1.scale c.2.2, u.2) else []

/-- a cell is processed without exception -/
def CellOk (x : ExtGraph K) (pas : Passenger K) (w : K) (i j : Int) : Prop :=
  ∃ l, odResult x.nodes x.edges pas i j 1 = .ok l ∧
    ∀ e ∈ l, ∃ s, sharesOf (Dict.keys e.paths) e.res.label w pas.va pas.pa pas.pv = .ok s

theorem forall₂_split {α β : Type} {R : α → β → Prop} : ∀ {a b : List α} {q : List β}, List.Forall₂ R (a ++ b) q →
    ∃ q1 q2, q = q1 ++ q2 ∧ List.Forall₂ R a q1 ∧ List.Forall₂ R b q2
  | [], _, q, h => ⟨[], q, rfl, .nil, h⟩
  | _ :: _, _, _, .cons h t => by
    obtain ⟨q1, q2, rfl, h1, h2⟩ := forall₂_split t
    exact ⟨_ :: q1, q2, rfl, .cons h h1, h2⟩

/-- the results of a list of cells -/
theorem flat_ok {α β : Type} {F : α → Py (List β)} {l : List α} {r : List β} :
    (l.mapM F >>= fun q => pure q.flatten) = .ok r ↔ ∃ q, List.Forall₂ (fun a b => F a = .ok b) l q ∧ r = q.flatten := by
  rw [py_bind_eq_ok]
  simp only [mapM_forall₂, py_pure, Except.ok.injEq]
  constructor
  · rintro ⟨q, h1, h2⟩; exact ⟨q, h1, h2.symm⟩
  · rintro ⟨q, h1, h2⟩; exact ⟨q, h1, h2.symm⟩

/-- the search, cell by cell -/
theorem odAll_cells (nodes : ENodes K) (edges : List (EEdge K)) (pas : Passenger K) (m : Dict Int (Dict Int K))
    (r : List (ODResult K)) : odAll nodes edges pas m = .ok r ↔
      ∃ q, List.Forall₂ (fun c b => odCell nodes edges pas c.1 c.2 = .ok b) (cells m) q ∧ r = q.flatten := by
  unfold odAll
  induction m generalizing r with
  | nil =>
    rw [flat_ok]
    constructor
    · rintro ⟨q, h, rfl⟩; cases h; exact ⟨[], .nil, rfl⟩
    · rintro ⟨q, h, rfl⟩; cases h; exact ⟨[], .nil, rfl⟩
  | cons p m ih =>
    simp only [flat_ok] at ih ⊢
    have hcell : cells (p :: m) = (p.2.map fun q => (p.1, q.1, q.2)) ++ cells m := by
      unfold cells; rw [List.flatMap_cons]
    constructor
    · rintro ⟨q, h, rfl⟩
      cases h with
      | cons h1 h2 =>
        rename_i b q
        unfold odRow at h1
        rw [flat_ok] at h1
        obtain ⟨q1, h3, rfl⟩ := h1
        obtain ⟨q2, h4, h5⟩ := (ih q.flatten).1 ⟨q, h2, rfl⟩
        refine ⟨q1 ++ q2, ?_, ?_⟩
        · rw [hcell]
          refine List.rel_append ?_ h4
          rw [List.forall₂_map_left_iff]
          exact h3
        · rw [List.flatten_cons, List.flatten_append, h5]
    · rintro ⟨q, h, rfl⟩
      rw [hcell] at h
      obtain ⟨q1, q2, rfl, h1, h2⟩ := forall₂_split h
      obtain ⟨q3, h3, h4⟩ := (ih q2.flatten).2 ⟨q2, h2, rfl⟩
      rw [List.forall₂_map_left_iff] at h1
      refine ⟨q1.flatten :: q3, .cons ?_ h3, ?_⟩
      · unfold odRow
        rw [flat_ok]
        exact ⟨q1, h1, rfl⟩
      · rw [List.flatten_append, List.flatten_cons, h4]

/-- the search and the shares succeed exactly if they do for each cell with trips, and then this is what they give -/
theorem pairs_cells (x : ExtGraph K) (pas : Passenger K) (w : K) (m : Dict Int (Dict Int K)) :
    (∀ res shares, odAll x.nodes x.edges pas m = .ok res → getAssignment res w pas.va pas.pa pas.pv = .ok shares →
      (∀ c ∈ cells m, c.2.2 ≠ 0 → CellOk x pas w c.1 c.2.1) ∧ res.zip shares = (cells m).flatMap (cellPairs x pas w)) ∧
    ((∀ c ∈ cells m, c.2.2 ≠ 0 → CellOk x pas w c.1 c.2.1) →
      ∃ res shares, odAll x.nodes x.edges pas m = .ok res ∧ getAssignment res w pas.va pas.pa pas.pv = .ok shares) := by
  constructor
  · intro res shares h1 h2
    obtain ⟨q, hq, rfl⟩ := (odAll_cells _ _ _ _ _).1 h1
    unfold getAssignment at h2
    rw [mapM_forall₂] at h2
    clear h1
    generalize cells m = L at *
    induction hq generalizing shares with
    | nil =>
      rw [List.flatten_nil] at h2
      cases h2
      exact ⟨by simp, rfl⟩
    | @cons c b L q hc hq ih =>
      rw [List.flatten_cons] at h2
      obtain ⟨s1, s2, rfl, g1, g2⟩ := forall₂_split h2
      obtain ⟨i1, i2⟩ := ih s2 g2
      have hlen : b.length = s1.length := g1.length_eq
      rw [List.flatMap_cons, List.flatten_cons, List.zip_append hlen, i2]
      unfold odCell at hc
      by_cases hv : c.2.2 ≠ 0
      · rw [if_pos hv, odResult_scale] at hc
        cases hu : odResult x.nodes x.edges pas c.1 c.2.1 1 with
        | error e => rw [hu] at hc; cases hc
        | ok l =>
          rw [hu] at hc
          have hbl : b = l.map (ODResult.scale c.2.2) := (Except.ok.inj hc).symm
          rw [hbl] at g1 ⊢
          rw [List.forall₂_map_left_iff] at g1
          have hzip : (l.map (ODResult.scale c.2.2)).zip s1 = cellPairs x pas w c := by
            unfold cellPairs unitsOf
            rw [if_pos hv, hu]
            simp only
            rw [List.map_map]
            clear hu hc hbl hlen h2
            induction g1 with
            | nil => rfl
            | @cons e s l s1 he _ ih =>
              have he' : sharesOf (Dict.keys e.paths) e.res.label w pas.va pas.pa pas.pv = .ok s := he
              rw [List.map_cons, List.zip_cons_cons, List.map_cons, ih]
              simp only [Function.comp, he']
          refine ⟨?_, by rw [hzip]⟩
          intro c' hc' hv'
          rcases List.mem_cons.1 hc' with rfl | hc'
          · refine ⟨l, hu, fun e he => ?_⟩
            obtain ⟨s, _, hs⟩ := forall₂_exists_left g1.flip e he
            exact ⟨s, hs⟩
          · exact i1 c' hc' hv'
      · rw [if_neg hv] at hc
        have hb : b = [] := (Except.ok.inj hc).symm
        rw [hb] at hlen
        have hs1 : s1 = [] := List.length_eq_zero_iff.1 hlen.symm
        rw [hb, hs1]
        unfold cellPairs
        rw [if_neg hv]
        refine ⟨?_, rfl⟩
        intro c' hc' hv'
        rcases List.mem_cons.1 hc' with rfl | hc'
        · exact absurd hv' hv
        · exact i1 c' hc' hv'
  · intro h
    have h1 : ∃ q : List (List (ODResult K)),
        List.Forall₂ (fun c b => odCell x.nodes x.edges pas c.1 c.2 = .ok b) (cells m) q ∧
        ∃ s : List (Dict (StopNode K) K),
          List.Forall₂ (fun e s => sharesOf (Dict.keys e.paths) e.res.label w pas.va pas.pa pas.pv = .ok s) q.flatten s := by
      generalize cells m = L at h
      induction L with
      | nil => exact ⟨[], .nil, [], .nil⟩
      | cons c L ih =>
        obtain ⟨q, hq, s, hs⟩ := ih fun c' hc' => h c' (List.mem_cons_of_mem _ hc')
        by_cases hv : c.2.2 ≠ 0
        · obtain ⟨l, hl, hsh⟩ := h c (by simp) hv
          have hsl : ∃ s1, List.Forall₂ (fun e s => sharesOf (Dict.keys e.paths) e.res.label w pas.va pas.pa pas.pv = .ok s)
              (l.map (ODResult.scale c.2.2)) s1 := by
            clear hl
            induction l with
            | nil => exact ⟨[], .nil⟩
            | cons e l ihl =>
              obtain ⟨s, hs⟩ := hsh e (by simp)
              obtain ⟨s1, hs1⟩ := ihl fun e' he' => hsh e' (List.mem_cons_of_mem _ he')
              exact ⟨s :: s1, .cons hs hs1⟩
          obtain ⟨s1, hs1⟩ := hsl
          refine ⟨l.map (ODResult.scale c.2.2) :: q, .cons ?_ hq, s1 ++ s, ?_⟩
          · unfold odCell
            rw [if_pos hv, odResult_scale, hl]
            rfl
          · rw [List.flatten_cons]
            exact List.rel_append hs1 hs
        · refine ⟨[] :: q, .cons ?_ hq, s, ?_⟩
          · unfold odCell
            rw [if_neg hv]
          · rw [List.flatten_cons, List.nil_append]
            exact hs
    obtain ⟨q, hq, s, hs⟩ := h1
    refine ⟨q.flatten, s, (odAll_cells _ _ _ _ _).2 ⟨q, hq, rfl⟩, ?_⟩
    unfold getAssignment
    rw [mapM_forall₂]
    exact hs

end Pairs

end Sidermit
