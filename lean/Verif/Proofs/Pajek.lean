import Verif.Spec.Pajek
import Verif.Proofs.Graph
import Verif.Proofs.ExtEdges
import Mathlib.Data.List.Sort
import Mathlib.Data.List.Perm.Subperm
import Mathlib.Tactic.FieldSimp

/-! Building a city from a list of nodes, and reading and writing its text. -/

set_option linter.unusedSectionVars false
set_option linter.unusedSimpArgs false

namespace Sidermit

variable {K : Type}

/-! ### lists in the order of a city -/

theorem kindAt_zoneAt_inj {j k : Nat} (hk : kindAt j = kindAt k) (hz : zoneAt j = zoneAt k) : j = k := by
  unfold zoneAt at hz
  unfold kindAt at hk
  have hz' : (j + 1) / 2 = (k + 1) / 2 := by exact_mod_cast hz
  by_cases h0 : j = 0 <;> by_cases h1 : k = 0 <;> by_cases h2 : j % 2 = 1 <;> by_cases h3 : k % 2 = 1 <;>
    simp [h0, h1, h2, h3] at hk ⊢ <;> omega

theorem rank_inj {a b : Kind} (h : a.rank = b.rank) : a = b := by
  cases a <;> cases b <;> first | rfl | (simp [Kind.rank] at h)

/-- a list in the order of a city as a function of the position -/
theorem CityOrder.exists_at {ns : List (Node K)} {n : Nat} (h : CityOrder ns n) :
    ∃ at' : Nat → Node K, ns = (List.range (2 * n + 1)).map at' ∧
      ∀ j, j < 2 * n + 1 → (at' j).kind = kindAt j ∧ (at' j).zone = zoneAt j := by
  have h0 : 0 < ns.length := by rw [h.len]; omega
  refine ⟨fun j => (ns[j]?).getD ns[0], ?_, ?_⟩
  · apply List.ext_getElem?
    intro j
    rw [List.getElem?_map]
    by_cases hj : j < 2 * n + 1
    · have : j < ns.length := by rw [h.len]; exact hj
      simp [List.getElem?_range hj, List.getElem?_eq_getElem this]
    · have h1 : ns.length ≤ j := by rw [h.len]; omega
      have h2 : (List.range (2 * n + 1)).length ≤ j := by simp; omega
      rw [List.getElem?_eq_none h1, List.getElem?_eq_none h2]; rfl
  · intro j hj
    have : j < ns.length := by rw [h.len]; exact hj
    have e := List.getElem?_eq_getElem this
    simp only [e, Option.getD_some]
    exact ⟨h.kind j _ e, h.zone j _ e⟩

theorem cityOrder_of_at {n : Nat} {at' : Nat → Node K}
    (h : ∀ j, j < 2 * n + 1 → (at' j).kind = kindAt j ∧ (at' j).zone = zoneAt j) :
    CityOrder ((List.range (2 * n + 1)).map at') n where
  len := by simp
  kind := by
    intro j nd hj
    rw [List.getElem?_map, Option.map_eq_some_iff] at hj
    obtain ⟨i, hi, rfl⟩ := hj
    rw [List.getElem?_eq_some_iff] at hi
    obtain ⟨hl, rfl⟩ := hi
    simp at hl ⊢
    exact (h j hl).1
  zone := by
    intro j nd hj
    rw [List.getElem?_map, Option.map_eq_some_iff] at hj
    obtain ⟨i, hi, rfl⟩ := hj
    rw [List.getElem?_eq_some_iff] at hi
    obtain ⟨hl, rfl⟩ := hi
    simp at hl ⊢
    exact (h j hl).2

theorem range_filter_subcenter (n : Nat) :
    (List.range (2 * n + 1)).filter (fun j => kindAt j = .subcenter) = (List.range n).map fun i => 2 * i + 2 := by
  induction n with
  | zero => decide
  | succ m ih =>
    rw [show 2 * (m + 1) + 1 = 2 * m + 1 + 1 + 1 by omega, List.range_succ, List.range_succ, List.filter_append,
      List.filter_append, ih, List.range_succ, List.map_append]
    have h1 : kindAt (2 * m + 1) = .periphery := by unfold kindAt; rw [if_neg (by omega), if_pos (by omega)]
    have h2 : kindAt (2 * m + 1 + 1) = .subcenter := by unfold kindAt; rw [if_neg (by omega), if_neg (by omega)]
    simp [h1, h2]

theorem range_filter_periphery (n : Nat) :
    (List.range (2 * n + 1)).filter (fun j => kindAt j = .periphery) = (List.range n).map fun i => 2 * i + 1 := by
  induction n with
  | zero => decide
  | succ m ih =>
    rw [show 2 * (m + 1) + 1 = 2 * m + 1 + 1 + 1 by omega, List.range_succ, List.range_succ, List.filter_append,
      List.filter_append, ih, List.range_succ, List.map_append]
    have h1 : kindAt (2 * m + 1) = .periphery := by unfold kindAt; rw [if_neg (by omega), if_pos (by omega)]
    have h2 : kindAt (2 * m + 1 + 1) = .subcenter := by unfold kindAt; rw [if_neg (by omega), if_neg (by omega)]
    simp [h1, h2]

theorem range_filter_cbd (n : Nat) : (List.range (2 * n + 1)).filter (fun j => kindAt j = .cbd) = [0] := by
  rw [List.range_succ_eq_map, List.filter_cons_of_pos (p := fun j => decide (kindAt j = .cbd)) (by rfl)]
  congr 1
  rw [List.filter_eq_nil_iff]
  intro j hj
  simp only [List.mem_map] at hj
  obtain ⟨i, _, rfl⟩ := hj
  have : kindAt (Nat.succ i) ≠ .cbd := by unfold kindAt; rw [if_neg (by omega)]; split <;> simp
  simp [this]

/-- the three kinds of nodes of a city -/
theorem filters_at {n : Nat} {at' : Nat → Node K}
    (h : ∀ j, j < 2 * n + 1 → (at' j).kind = kindAt j ∧ (at' j).zone = zoneAt j) :
    ((List.range (2 * n + 1)).map at').filter (fun nd => nd.kind = .cbd) = [at' 0] ∧
    peripheriesOf ((List.range (2 * n + 1)).map at') = (List.range n).map (fun i => at' (2 * i + 1)) ∧
    subcentersOf ((List.range (2 * n + 1)).map at') = (List.range n).map (fun i => at' (2 * i + 2)) := by
  have key : ∀ k : Kind, ((List.range (2 * n + 1)).map at').filter (fun nd => nd.kind = k) =
      ((List.range (2 * n + 1)).filter fun j => kindAt j = k).map at' := by
    intro k
    rw [List.filter_map]
    congr 1
    apply List.filter_congr
    intro j hj
    simp only [List.mem_range] at hj
    simp only [Function.comp, (h j hj).1]
  refine ⟨?_, ?_, ?_⟩
  · rw [key, range_filter_cbd]; rfl
  · unfold peripheriesOf; rw [key, range_filter_periphery, List.map_map]; rfl
  · unfold subcentersOf; rw [key, range_filter_subcenter, List.map_map]; rfl

theorem filter_range_eq (n i : Nat) (hi : i < n) : (List.range n).filter (fun j => j = i) = [i] := by
  induction n with
  | zero => omega
  | succ m ih =>
    rw [List.range_succ, List.filter_append]
    by_cases h : i = m
    · subst h
      have : (List.range i).filter (fun j => j = i) = [] := by
        rw [List.filter_eq_nil_iff]; intro a ha; simp at ha ⊢; omega
      simp [this]
    · rw [ih (by omega)]
      simp [Ne.symm h]

/-- the nodes of a zone -/
theorem zone_filter_at {n : Nat} {f : Nat → Node K} (hz : ∀ i, i < n → (f i).zone = (i : Int) + 1) {i : Nat} (hi : i < n) :
    ((List.range n).map f).filter (fun nd => nd.zone = (i : Int) + 1) = [f i] := by
  rw [List.filter_map]
  have : (List.range n).filter ((fun nd : Node K => decide (nd.zone = (i : Int) + 1)) ∘ f) =
      (List.range n).filter (fun j => j = i) := by
    apply List.filter_congr
    intro j hj
    simp only [List.mem_range] at hj
    simp only [Function.comp, hz j hj]
    congr 1
    apply propext
    constructor
    · intro h; omega
    · intro h; omega
  rw [this, filter_range_eq n i hi]; rfl

theorem zoneAt_periphery (i : Nat) : zoneAt (2 * i + 1) = (i : Int) + 1 := by unfold zoneAt; omega
theorem zoneAt_subcenter (i : Nat) : zoneAt (2 * i + 2) = (i : Int) + 1 := by unfold zoneAt; omega

/-! ### what an accepted list of nodes looks like -/

variable [Field K] [LinearOrder K]

theorem foundStep_ok_one {ps scs : List (Node K)} {r a : K} {s s' : Found K} {i : Nat}
    (h : foundStep ps scs r a s i = .ok s') :
    (∃ p, ps.filter (fun p => p.zone = (i : Int) + 1) = [p]) ∧ (∃ sc, scs.filter (fun sc => sc.zone = (i : Int) + 1) = [sc]) := by
  unfold foundStep at h
  split at h
  · rename_i p sc hp hsc; exact ⟨⟨p, hp⟩, ⟨sc, hsc⟩⟩
  · cases h

theorem foundLoop_ok_one {ps scs : List (Node K)} {r a : K} {s s' : Found K} {n : Nat}
    (h : (List.range n).foldlM (foundStep ps scs r a) s = .ok s') (i : Nat) (hi : i < n) :
    (∃ p, ps.filter (fun p => p.zone = (i : Int) + 1) = [p]) ∧ (∃ sc, scs.filter (fun sc => sc.zone = (i : Int) + 1) = [sc]) := by
  have := foldlM_range_inv (foundStep ps scs r a) (fun k _ => ∀ i, i < k →
    (∃ p, ps.filter (fun p => p.zone = (i : Int) + 1) = [p]) ∧ (∃ sc, scs.filter (fun sc => sc.zone = (i : Int) + 1) = [sc])) n
    (by
      intro k s s' _ hP hs i hi
      by_cases h : i = k
      · subst h; exact foundStep_ok_one hs
      · exact hP i (by omega))
    (by intro i hi; omega) h
  exact this i hi

theorem foldl_addCbd (l : List (Node K)) (g : Graph K) : l.foldl addCbd g = { g with nodes := g.nodes ++ l } := by
  induction l generalizing g with
  | nil => simp
  | cons c t ih => rw [List.foldl_cons, ih]; simp [addCbd]

theorem importNodes_cbd {cbds ps scs : List (Node K)} {n : Nat} {g : Graph K} (hn : 0 < n)
    (h : importNodes cbds ps scs n = .ok g) : cbds ≠ [] := by
  rintro rfl
  obtain ⟨m, rfl⟩ : ∃ m, n = m + 1 := ⟨n - 1, by omega⟩
  unfold importNodes at h
  rw [List.range_succ_eq_map, foldlM_cons, py_bind_eq_ok] at h
  obtain ⟨g1, h1, _⟩ := h
  unfold importStep addZone at h1
  rw [raiseIf_bind_eq_ok] at h1
  exact h1.1 rfl

/-- the order of the rows, on nodes -/
def NodeBefore (a b : Node K) : Prop := a.zone < b.zone ∨ (a.zone = b.zone ∧ a.kind.rank ≤ b.kind.rank)

theorem before_at {j k : Nat} (h : j < k) :
    zoneAt j < zoneAt k ∨ (zoneAt j = zoneAt k ∧ (kindAt j).rank ≤ (kindAt k).rank) := by
  unfold zoneAt
  by_cases he : (j + 1) / 2 = (k + 1) / 2
  · right
    refine ⟨by exact_mod_cast he, ?_⟩
    have h1 : kindAt j = .periphery := by unfold kindAt; rw [if_neg (by omega), if_pos (by omega)]
    have h2 : kindAt k = .subcenter := by unfold kindAt; rw [if_neg (by omega), if_neg (by omega)]
    rw [h1, h2]; decide
  · left; omega

/-- a sorted list with one periphery and one subcentre per zone and a CBD is in the order of a city -/
theorem cityOrder_of_parts {ns : List (Node K)} {n : Nat} (hlen : ns.length = 2 * n + 1)
    (hcz : ∀ nd ∈ ns, nd.kind = .cbd → nd.zone = 0) (hs : ns.Pairwise NodeBefore)
    (hc : ∃ c ∈ ns, c.kind = .cbd)
    (hone : ∀ i, i < n → (∃ p ∈ ns, p.kind = .periphery ∧ p.zone = (i : Int) + 1) ∧
      (∃ sc ∈ ns, sc.kind = .subcenter ∧ sc.zone = (i : Int) + 1)) : CityOrder ns n := by
  classical
  obtain ⟨c, hcm, hck⟩ := hc
  have hp : ∀ i, ∃ p : Node K, i < n → p ∈ ns ∧ p.kind = .periphery ∧ p.zone = (i : Int) + 1 := by
    intro i
    by_cases h : i < n
    · obtain ⟨p, h1⟩ := (hone i h).1; exact ⟨p, fun _ => h1⟩
    · exact ⟨c, fun h' => absurd h' h⟩
  have hsc : ∀ i, ∃ p : Node K, i < n → p ∈ ns ∧ p.kind = .subcenter ∧ p.zone = (i : Int) + 1 := by
    intro i
    by_cases h : i < n
    · obtain ⟨p, h1⟩ := (hone i h).2; exact ⟨p, fun _ => h1⟩
    · exact ⟨c, fun h' => absurd h' h⟩
  choose P hP using hp
  choose S hS using hsc
  let at' : Nat → Node K := fun j => if j = 0 then c else if j % 2 = 1 then P ((j - 1) / 2) else S ((j - 1) / 2)
  have hat : ∀ j, j < 2 * n + 1 → at' j ∈ ns ∧ (at' j).kind = kindAt j ∧ (at' j).zone = zoneAt j := by
    intro j hj
    show (if j = 0 then c else if j % 2 = 1 then P ((j - 1) / 2) else S ((j - 1) / 2)) ∈ ns ∧ _
    simp only [at']
    by_cases h0 : j = 0
    · subst h0; simp only [if_true]; exact ⟨hcm, hck, by rw [hcz c hcm hck]; rfl⟩
    · by_cases h1 : j % 2 = 1
      · simp only [h0, h1, if_true, if_false]
        obtain ⟨a1, a2, a3⟩ := hP ((j - 1) / 2) (by omega)
        refine ⟨a1, ?_, ?_⟩
        · rw [a2]; unfold kindAt; rw [if_neg h0, if_pos h1]
        · rw [a3]; unfold zoneAt; omega
      · simp only [h0, h1, if_false]
        obtain ⟨a1, a2, a3⟩ := hS ((j - 1) / 2) (by omega)
        refine ⟨a1, ?_, ?_⟩
        · rw [a2]; unfold kindAt; rw [if_neg h0, if_neg h1]
        · rw [a3]; unfold zoneAt; omega
  have hnd : ((List.range (2 * n + 1)).map at').Nodup := by
    apply List.Nodup.map_on _ List.nodup_range
    intro j hj k hk he
    simp only [List.mem_range] at hj hk
    apply kindAt_zoneAt_inj
    · rw [← (hat j hj).2.1, ← (hat k hk).2.1, he]
    · rw [← (hat j hj).2.2, ← (hat k hk).2.2, he]
  have hsub : (List.range (2 * n + 1)).map at' ⊆ ns := by
    intro a ha
    simp only [List.mem_map, List.mem_range] at ha
    obtain ⟨j, hj, rfl⟩ := ha
    exact (hat j hj).1
  have hperm : ((List.range (2 * n + 1)).map at').Perm ns :=
    (List.subperm_of_subset hnd hsub).perm_of_length_le (by rw [hlen]; simp)
  have hsorted : ((List.range (2 * n + 1)).map at').Pairwise NodeBefore := by
    rw [List.pairwise_map]
    refine (List.pairwise_lt_range (n := 2 * n + 1)).imp_of_mem ?_
    intro j k hj hk hjk
    simp only [List.mem_range] at hj hk
    unfold NodeBefore
    rw [(hat j hj).2.1, (hat j hj).2.2, (hat k hk).2.1, (hat k hk).2.2]
    exact before_at hjk
  have : (List.range (2 * n + 1)).map at' = ns := by
    refine hperm.eq_of_pairwise ?_ hsorted hs
    intro a b ha hb hab hba
    have hb' : b ∈ (List.range (2 * n + 1)).map at' := hperm.mem_iff.2 hb
    simp only [List.mem_map, List.mem_range] at ha hb'
    obtain ⟨j, hj, rfl⟩ := ha
    obtain ⟨k, hk, rfl⟩ := hb'
    have hz : (at' j).zone = (at' k).zone ∧ (at' j).kind.rank = (at' k).kind.rank := by
      unfold NodeBefore at hab hba
      rcases hab with h | h <;> rcases hba with h' | h' <;> constructor <;> omega
    have := kindAt_zoneAt_inj (j := j) (k := k)
      (by rw [← (hat j hj).2.1, ← (hat k hk).2.1]; exact rank_inj hz.2)
      (by rw [← (hat j hj).2.2, ← (hat k hk).2.2]; exact hz.1)
    rw [this]
  rw [← this]
  exact cityOrder_of_at fun j hj => (hat j hj).2

/-- `cityFrom` accepts only lists in the order of a city -/
theorem cityFrom_order {ns : List (Node K)} {n : Nat} {g : Graph K} (hn : 0 < n) (hlen : ns.length = 2 * n + 1)
    (hcz : ∀ nd ∈ ns, nd.kind = .cbd → nd.zone = 0) (hs : ns.Pairwise NodeBefore) (h : cityFrom ns n = .ok g) :
    CityOrder ns n := by
  unfold cityFrom at h
  simp only [py_bind_eq_ok] at h
  obtain ⟨s, h1, lg, _, gi, _, hi, _, u, _, g', h2, _⟩ := h
  have hc := importNodes_cbd hn h2
  refine cityOrder_of_parts hlen hcz hs ?_ ?_
  · obtain ⟨c, hc⟩ := List.exists_mem_of_ne_nil _ hc
    rw [List.mem_filter] at hc
    exact ⟨c, hc.1, by simpa using hc.2⟩
  · intro i hi
    obtain ⟨⟨p, hp⟩, ⟨sc, hsc⟩⟩ := foundLoop_ok_one h1 i hi
    constructor
    · have : p ∈ (ns.filter fun nd => nd.kind = .periphery).filter (fun p => p.zone = (i : Int) + 1) := by rw [hp]; simp
      simp only [List.mem_filter, decide_eq_true_eq] at this
      exact ⟨p, this.1.1, this.1.2, this.2⟩
    · have : sc ∈ (ns.filter fun nd => nd.kind = .subcenter).filter (fun p => p.zone = (i : Int) + 1) := by rw [hsc]; simp
      simp only [List.mem_filter, decide_eq_true_eq] at this
      exact ⟨sc, this.1.1, this.1.2, this.2⟩

/-! ### closed form on a list in the order of a city -/

/-- the loop over the zones after `k` zones -/
def foundAt (P S : Nat → Node K) (r a : K) (k : Nat) : Found K :=
  let last := (((List.range k).map S).filter fun sc => decide (a - 1 / 1000 ≤ sc.angle ∧ sc.angle ≤ a + 1 / 1000)).getLast?
  ⟨(List.range k).map fun i => (S i).radius, (List.range k).map fun i => (P i).radius, (List.range k).map fun i => (S i).angle,
    last.map fun sc => r / sc.radius, last.map Node.zone⟩

theorem foundStep_at {n : Nat} {P S : Nat → Node K} (hP : ∀ i, i < n → (P i).zone = (i : Int) + 1)
    (hS : ∀ i, i < n → (S i).zone = (i : Int) + 1) (r a : K) (s : Found K) {i : Nat} (hi : i < n) :
    foundStep ((List.range n).map P) ((List.range n).map S) r a s i = alignStep r a ((i : Int) + 1) (S i)
      { s with rsc := s.rsc ++ [(S i).radius], rp := s.rp ++ [(P i).radius], ang := s.ang ++ [(S i).angle] } := by
  unfold foundStep
  rw [zone_filter_at hP hi, zone_filter_at hS hi]

theorem foundLoop_at {n : Nat} {P S : Nat → Node K} (hP : ∀ i, i < n → (P i).zone = (i : Int) + 1)
    (hS : ∀ i, i < n → (S i).zone = (i : Int) + 1) (r a : K)
    (hz : ∀ i, i < n → (a - 1 / 1000 ≤ (S i).angle ∧ (S i).angle ≤ a + 1 / 1000) → (S i).radius ≠ 0) :
    (List.range n).foldlM (foundStep ((List.range n).map P) ((List.range n).map S) r a) Found.empty =
      .ok (foundAt P S r a n) := by
  have := foldlM_range_ok (foundStep ((List.range n).map P) ((List.range n).map S) r a) (foundAt P S r a) n (by
    intro k hk
    rw [foundStep_at hP hS _ _ _ hk]
    unfold alignStep
    by_cases h : a - 1 / 1000 ≤ (S k).angle ∧ (S k).angle ≤ a + 1 / 1000
    · rw [if_pos h]
      have hd : pyDiv r (S k).radius = .ok (r / (S k).radius) := by unfold pyDiv; rw [if_neg (hz k hk h)]
      rw [hd]
      simp only [py_ok_bind, py_pure, foundAt, List.range_succ, List.map_append, List.map_cons, List.map_nil,
        List.filter_append]
      rw [List.filter_cons_of_pos (p := fun sc : Node K => decide (a - 1 / 1000 ≤ sc.angle ∧ sc.angle ≤ a + 1 / 1000))
        (by simpa using h)]
      simp [hS k hk]
    · rw [if_neg h]
      simp only [foundAt, List.range_succ, List.map_append, List.map_cons, List.map_nil, List.filter_append]
      rw [List.filter_cons_of_neg (p := fun sc : Node K => decide (a - 1 / 1000 ≤ sc.angle ∧ sc.angle ≤ a + 1 / 1000))
        (by simpa using h)]
      simp)
  rw [← this]
  rfl

/-- the loop raises when the CBD lies towards a subcentre at the origin -/
theorem foundLoop_radius {n : Nat} {P S : Nat → Node K} (hP : ∀ i, i < n → (P i).zone = (i : Int) + 1)
    (hS : ∀ i, i < n → (S i).zone = (i : Int) + 1) (r a : K) {s s' : Found K}
    (h : (List.range n).foldlM (foundStep ((List.range n).map P) ((List.range n).map S) r a) s = .ok s') :
    ∀ i, i < n → (a - 1 / 1000 ≤ (S i).angle ∧ (S i).angle ≤ a + 1 / 1000) → (S i).radius ≠ 0 := by
  refine foldlM_range_inv (foundStep ((List.range n).map P) ((List.range n).map S) r a) (fun k _ => ∀ i, i < k →
    (a - 1 / 1000 ≤ (S i).angle ∧ (S i).angle ≤ a + 1 / 1000) → (S i).radius ≠ 0) n ?_ ?_ h
  · intro k s s' hk hP' hs i hi ha
    by_cases hik : i = k
    · subst hik
      rw [foundStep_at hP hS _ _ _ hk] at hs
      unfold alignStep at hs
      rw [if_pos ha, py_bind_eq_ok] at hs
      obtain ⟨e, he, _⟩ := hs
      exact (pyDiv_eq_ok.1 he).1
    · exact hP' i (by omega) ha
  · intro i hi; omega

/-- the parameters of a city from the radii -/
theorem meansOf_pos {rsc rp : List K} (h1 : rsc ≠ []) (h2 : rp ≠ []) [IsStrictOrderedRing K] :
    meansOf rsc rp = (pyDiv (rp.sum / (rp.length : K) - rsc.sum / (rsc.length : K)) (rsc.sum / (rsc.length : K)) >>=
      fun g => .ok (rsc.sum / (rsc.length : K), g)) := by
  have e1 : (rsc.length : K) ≠ 0 := by exact_mod_cast (List.length_pos_iff.2 h1).ne'
  have e2 : (rp.length : K) ≠ 0 := by exact_mod_cast (List.length_pos_iff.2 h2).ne'
  unfold meansOf
  rw [if_pos ⟨(List.length_pos_iff.2 h1).ne', (List.length_pos_iff.2 h2).ne'⟩]
  have d1 : pyDiv rsc.sum (rsc.length : K) = .ok (rsc.sum / (rsc.length : K)) := by unfold pyDiv; rw [if_neg e1]
  have d2 : pyDiv rp.sum (rp.length : K) = .ok (rp.sum / (rp.length : K)) := by unfold pyDiv; rw [if_neg e2]
  rw [d1, d2]
  rfl

theorem mapM_div (l : List K) {d : K} (h : d ≠ 0) : (l.mapM fun r => pyDiv r d) = .ok (l.map fun r => r / d) := by
  induction l with
  | nil => rfl
  | cons a t ih =>
    rw [List.mapM_cons, ih]
    unfold pyDiv
    rw [if_neg h]
    rfl

variable [IsStrictOrderedRing K] [PyMath K]

/-- one zone added by the import -/
theorem addZone_at {k : Nat} {at' : Nat → Node K} (g : Graph K)
    (h : ∀ j, j < 2 * (k + 1) + 1 → (at' j).kind = kindAt j ∧ (at' j).zone = zoneAt j)
    (hn : g.nodes = (List.range (2 * k + 1)).map at') (hz : g.zones = cityZones k) :
    addZone g (some (at' (2 * k + 1))) (some (at' (2 * k + 2))) none =
      (raiseIf ((at' (2 * k + 1)).id ∈ g.nodes.map Node.id ∨ (at' (2 * k + 2)).id ∈ g.nodes.map Node.id) .NodeIdDuplicated >>=
        fun _ => .ok { g with nodes := (List.range (2 * (k + 1) + 1)).map at', zones := cityZones (k + 1),
                              edges := cityEdges (k + 1) }) := by
  have kp : (at' (2 * k + 1)).kind = .periphery := by
    rw [(h _ (by omega)).1]; unfold kindAt; rw [if_neg (by omega), if_pos (by omega)]
  have ks : (at' (2 * k + 2)).kind = .subcenter := by
    rw [(h _ (by omega)).1]; unfold kindAt; rw [if_neg (by omega), if_neg (by omega)]
  have zp : (at' (2 * k + 1)).zone = (k : Int) + 1 := by rw [(h _ (by omega)).2, zoneAt_periphery]
  have zs : (at' (2 * k + 2)).zone = (k : Int) + 1 := by rw [(h _ (by omega)).2, zoneAt_subcenter]
  unfold addZone
  rw [raiseIf_neg (by rw [hn]; simp)]
  simp only [py_ok_bind, Option.getD_none, hz, length_cityZones]
  have hmk : mkZone ((k : Int) + 1) (some (at' (2 * k + 1))) (some (at' (2 * k + 2))) g.nodes.length (g.nodes.length + 1) =
      .ok ⟨(k : Int) + 1, g.nodes.length, g.nodes.length + 1⟩ := by
    unfold mkZone
    rw [raiseIf_neg (by omega)]
    simp only [py_ok_bind, kp, ks, zp, zs, ne_eq, not_true_eq_false, raiseIf_false, or_self, py_pure]
  rw [hmk]
  simp only [py_ok_bind]
  unfold addNodes
  simp only [bind_assoc]
  congr 1
  funext _
  simp only [py_ok_bind, py_pure]
  have hr : (List.range (2 * (k + 1) + 1)).map at' = (List.range (2 * k + 1)).map at' ++ [at' (2 * k + 1), at' (2 * k + 2)] := by
    rw [show 2 * (k + 1) + 1 = 2 * k + 1 + 1 + 1 by omega, List.range_succ, List.range_succ]; simp
  have hl : g.nodes.length = 2 * k + 1 := by rw [hn]; simp
  rw [buildEdges_city _ (k + 1)]
  · simp [hr, hn, cityZones_succ]
  · simp only [hn, ← hr]
    exact (cityOrder_of_at h).kind
  · simp [hl, cityZones_succ]

theorem find_at {n : Nat} {f : Nat → Node K} (hz : ∀ i, i < n → (f i).zone = (i : Int) + 1) {i : Nat} (hi : i < n) :
    ((List.range n).map f).find? (fun nd => nd.zone = (i : Int) + 1) = some (f i) := by
  rw [← List.head?_filter, zone_filter_at hz hi]; rfl

/-- the nodes of zone `k` do not have the id of an earlier node -/
def FreshAt (at' : Nat → Node K) (k : Nat) : Prop :=
  (at' (2 * k + 1)).id ∉ ((List.range (2 * k + 1)).map at').map Node.id ∧
    (at' (2 * k + 2)).id ∉ ((List.range (2 * k + 1)).map at').map Node.id

/-- the graph after `k` zones -/
def importedAt (at' : Nat → Node K) (k : Nat) : Graph K :=
  { (Graph.empty : Graph K) with nodes := (List.range (2 * k + 1)).map at', zones := cityZones k, edges := cityEdges k }

theorem importStep_at {n : Nat} {at' : Nat → Node K}
    (h : ∀ j, j < 2 * n + 1 → (at' j).kind = kindAt j ∧ (at' j).zone = zoneAt j) {k : Nat} (hk : k < n) :
    importStep ((List.range n).map fun i => at' (2 * i + 1)) ((List.range n).map fun i => at' (2 * i + 2)) (importedAt at' k) k =
      (raiseIf ((at' (2 * k + 1)).id ∈ (importedAt at' k).nodes.map Node.id ∨
        (at' (2 * k + 2)).id ∈ (importedAt at' k).nodes.map Node.id) .NodeIdDuplicated >>= fun _ => .ok (importedAt at' (k + 1))) := by
  unfold importStep
  rw [find_at (f := fun i => at' (2 * i + 1)) (fun i hi => by rw [(h _ (by omega)).2, zoneAt_periphery]) hk,
    find_at (f := fun i => at' (2 * i + 2)) (fun i hi => by rw [(h _ (by omega)).2, zoneAt_subcenter]) hk,
    addZone_at (k := k) _ (fun j hj => h j (by omega)) rfl rfl]
  rfl

theorem importNodes_at {n : Nat} {at' : Nat → Node K}
    (h : ∀ j, j < 2 * n + 1 → (at' j).kind = kindAt j ∧ (at' j).zone = zoneAt j) (g : Graph K) :
    importNodes [at' 0] ((List.range n).map fun i => at' (2 * i + 1)) ((List.range n).map fun i => at' (2 * i + 2)) n = .ok g ↔
      (∀ k, k < n → FreshAt at' k) ∧ g = importedAt at' n := by
  have h0 : ([at' 0].foldl addCbd Graph.empty : Graph K) = importedAt at' 0 := by
    rw [foldl_addCbd]; rfl
  unfold importNodes
  rw [h0]
  constructor
  · intro hok
    have := foldlM_range_inv (importStep ((List.range n).map fun i => at' (2 * i + 1)) ((List.range n).map fun i => at' (2 * i + 2)))
      (fun k g => (∀ i, i < k → FreshAt at' i) ∧ g = importedAt at' k) n (by
        rintro k s s' hk ⟨hf, rfl⟩ hs
        rw [importStep_at h hk, raiseIf_bind_eq_ok] at hs
        refine ⟨?_, (Except.ok.inj hs.2).symm⟩
        intro i hi
        by_cases hik : i = k
        · subst hik
          exact not_or.1 hs.1
        · exact hf i (by omega)) ⟨by intro i hi; omega, rfl⟩ hok
    exact this
  · rintro ⟨hf, rfl⟩
    apply foldlM_range_ok _ (importedAt at') n
    intro k hk
    rw [importStep_at h hk]
    exact raiseIf_bind_eq_ok.2 ⟨not_or.2 (hf k hk), rfl⟩

theorem freshAt_iff {n : Nat} {at' : Nat → Node K}
    (h : ∀ j, j < 2 * n + 1 → (at' j).kind = kindAt j ∧ (at' j).zone = zoneAt j) :
    (∀ k, k < n → FreshAt at' k) ↔ IdsAcrossZones ((List.range (2 * n + 1)).map at') := by
  unfold IdsAcrossZones FreshAt
  rw [List.pairwise_map]
  constructor
  · intro hf
    refine (List.pairwise_lt_range (n := 2 * n + 1)).imp_of_mem ?_
    intro j k hj hk hjk hz he
    simp only [List.mem_range] at hj hk
    rw [(h j hj).2, (h k hk).2] at hz
    obtain ⟨h1, h2⟩ := hf ((k - 1) / 2) (by omega)
    have hz' : (j + 1) / 2 ≠ (k + 1) / 2 := by unfold zoneAt at hz; exact_mod_cast hz
    have hm : (at' j).id ∈ ((List.range (2 * ((k - 1) / 2) + 1)).map at').map Node.id := by
      simp only [List.mem_map, List.mem_range]
      exact ⟨at' j, ⟨j, by omega, rfl⟩, rfl⟩
    rcases Nat.even_or_odd' ((k - 1)) with ⟨m, hm' | hm'⟩
    · have : k = 2 * ((k - 1) / 2) + 1 := by omega
      apply h1; rw [← this, ← he]; rw [← this] at hm; exact hm
    · have : k = 2 * ((k - 1) / 2) + 2 := by omega
      apply h2; rw [← this, ← he]; exact hm
  · intro hp k hk
    have key : ∀ m, m = 2 * k + 1 ∨ m = 2 * k + 2 → (at' m).id ∉ ((List.range (2 * k + 1)).map at').map Node.id := by
      intro m hm hin
      simp only [List.mem_map, List.mem_range] at hin
      obtain ⟨_, ⟨j, hj, rfl⟩, he⟩ := hin
      have := List.pairwise_iff_getElem.1 hp j m (by simp; omega) (by simp; omega) (by omega)
      simp only [List.getElem_range] at this
      refine this ?_ he
      rw [(h j (by omega)).2, (h m (by omega)).2]
      unfold zoneAt
      intro hz
      have : (j + 1) / 2 = (m + 1) / 2 := by exact_mod_cast hz
      omega
    exact ⟨key _ (Or.inl rfl), key _ (Or.inr rfl)⟩

/-- the parameters found are those that describe the nodes -/
theorem foundAt_eq {n : Nat} {at' : Nat → Node K} {ns : List (Node K)} (hns : ns = (List.range (2 * n + 1)).map at')
    (h : ∀ j, j < 2 * n + 1 → (at' j).kind = kindAt j ∧ (at' j).zone = zoneAt j) :
    centerOf ns = ((at' 0).radius, (at' 0).angle) ∧
    foundAt (fun i => at' (2 * i + 1)) (fun i => at' (2 * i + 2)) (at' 0).radius (at' 0).angle n =
      ⟨(subcentersOf ns).map Node.radius, (peripheriesOf ns).map Node.radius, (subcentersOf ns).map Node.angle,
        (towards ns).map fun sc => (centerOf ns).1 / sc.radius, (towards ns).map Node.zone⟩ := by
  obtain ⟨h1, h2, h3⟩ := filters_at h
  have hc : centerOf ns = ((at' 0).radius, (at' 0).angle) := by
    unfold centerOf
    rw [← List.head?_filter, hns, h1]
    rfl
  refine ⟨hc, ?_⟩
  have ht : towards ns = (((List.range n).map fun i => at' (2 * i + 2)).filter fun sc =>
      decide ((at' 0).angle - 1 / 1000 ≤ sc.angle ∧ sc.angle ≤ (at' 0).angle + 1 / 1000)).getLast? := by
    unfold towards
    rw [hns, h3]
    congr 1
    apply List.filter_congr
    intro sc _
    apply decide_eq_decide.2
    rw [← hns]
    unfold Aligned
    rw [hc]
  unfold foundAt
  rw [ht, hc, hns, h2, h3]
  simp [List.map_map, Function.comp_def]

theorem sum_nonneg_of {l : List K} (h : ∀ x ∈ l, 0 ≤ x) : 0 ≤ l.sum := List.sum_nonneg h

theorem towards_mem {ns : List (Node K)} {sc : Node K} (h : towards ns = some sc) :
    sc ∈ subcentersOf ns ∧ Aligned ns sc := by
  unfold towards at h
  have := List.mem_of_getLast? h
  simpa [List.mem_filter] using this

theorem sum_div' (l : List K) (d : K) : (l.map fun r => r / d).sum = l.sum / d := by
  induction l with
  | nil => simp
  | cons a t ih => simp [ih, add_div]

/-- **Closed form of the construction** on a list in the order of a city. -/
theorem cityFrom_iff {ns : List (Node K)} {n : Nat} (ho : CityOrder ns n) (hok : ∀ nd ∈ ns, NodeOk nd) (g : Graph K) :
    cityFrom ns n = .ok g ↔ IdsAcrossZones ns ∧ Describable ns ∧ g = describedCity ns n := by
  obtain ⟨at', hns, h⟩ := ho.exists_at
  obtain ⟨hc, hf⟩ := foundAt_eq hns h
  obtain ⟨f1, f2, f3⟩ := filters_at h
  have hP : ∀ i, i < n → (at' (2 * i + 1)).zone = (i : Int) + 1 := fun i hi => by rw [(h _ (by omega)).2, zoneAt_periphery]
  have hS : ∀ i, i < n → (at' (2 * i + 2)).zone = (i : Int) + 1 := fun i hi => by rw [(h _ (by omega)).2, zoneAt_subcenter]
  have hlsc : (subcentersOf ns).length = n := by rw [hns, f3]; simp
  have hlp : (peripheriesOf ns).length = n := by rw [hns, f2]; simp
  have hrsc : ∀ x ∈ (subcentersOf ns).map Node.radius, 0 ≤ x := by
    intro x hx
    obtain ⟨nd, hnd, rfl⟩ := List.mem_map.1 hx
    exact (hok nd (List.mem_filter.1 hnd).1).radius
  have hrp : ∀ x ∈ (peripheriesOf ns).map Node.radius, 0 ≤ x := by
    intro x hx
    obtain ⟨nd, hnd, rfl⟩ := List.mem_map.1 hx
    exact (hok nd (List.mem_filter.1 hnd).1).radius
  have hal : (∀ i, i < n → ((at' 0).angle - 1 / 1000 ≤ (at' (2 * i + 2)).angle ∧ (at' (2 * i + 2)).angle ≤ (at' 0).angle + 1 / 1000) →
      (at' (2 * i + 2)).radius ≠ 0) ↔ ∀ sc ∈ subcentersOf ns, Aligned ns sc → sc.radius ≠ 0 := by
    rw [hns, f3, ← hns]
    unfold Aligned
    rw [hc]
    simp only [List.mem_map, List.mem_range, forall_exists_index, and_imp]
    constructor
    · rintro hh sc i hi rfl h1 h2; exact hh i hi h1 h2
    · intro hh i hi h1 h2; exact hh _ i hi rfl h1 h2
  have hids := freshAt_iff (n := n) h
  rw [← hns] at hids
  have hwid : 0 ≤ (ns.getLast?.map Node.width).getD 0 := by
    cases hl : ns.getLast? with
    | none => simp
    | some nd => exact (hok nd (List.mem_of_getLast? hl)).width
  have hzone : ∀ sc, towards ns = some sc → 1 ≤ sc.zone ∧ sc.zone ≤ n := by
    intro sc hsc
    have := (towards_mem hsc).1
    rw [hns, f3] at this
    simp only [List.mem_map, List.mem_range] at this
    obtain ⟨i, hi, rfl⟩ := this
    rw [hS i hi]; omega
  have hang : ∀ x ∈ (subcentersOf ns).map Node.angle, 0 ≤ x ∧ x ≤ 360 := by
    intro x hx
    obtain ⟨nd, hnd, rfl⟩ := List.mem_map.1 hx
    exact (hok nd (List.mem_filter.1 hnd).1).angle
  have hrc : 0 ≤ (centerOf ns).1 := by
    rw [hc]
    have : at' 0 ∈ ns := by rw [hns]; exact List.mem_map.2 ⟨0, by simp, rfl⟩
    exact (hok _ this).radius
  have hscok : ∀ sc, towards ns = some sc → 0 ≤ sc.radius := fun sc hsc =>
    (hok sc (List.mem_filter.1 (towards_mem hsc).1).1).radius
  have hL0 : 0 ≤ meanSc ns := div_nonneg (List.sum_nonneg hrsc) (Nat.cast_nonneg _)
  -- the parameters after the loop
  have key : ∀ (u : Unit) , (∀ sc ∈ subcentersOf ns, Aligned ns sc → sc.radius ≠ 0) →
      ((∃ lg gi hi, meansOf ((subcentersOf ns).map Node.radius) ((peripheriesOf ns).map Node.radius) = .ok lg ∧
        (((subcentersOf ns).map Node.radius).mapM fun r => pyDiv r lg.1) = .ok gi ∧
        (((peripheriesOf ns).map Node.radius).mapM fun r => pyDiv r (lg.1 + lg.2 * lg.1)) = .ok hi ∧
        parametersValidator (n : Int) lg.1 lg.2 ((ns.getLast?.map Node.width).getD 0)
          ((towards ns).map fun sc => (centerOf ns).1 / sc.radius) ((towards ns).map Node.zone)
          (some ((subcentersOf ns).map Node.angle)) (some gi) (some hi) = .ok u ∧
        g = { importedAt at' n with
            n := some (n : Int), l := some lg.1, g := some lg.2, p := some ((ns.getLast?.map Node.width).getD 0),
            etha := (towards ns).map fun sc => (centerOf ns).1 / sc.radius, ethaZone := (towards ns).map Node.zone,
            angles := some ((subcentersOf ns).map Node.angle), gi := some gi, hi := some hi }) ↔
        Describable ns ∧ g = describedCity ns n) := by
    intro u halign
    -- values when the means can be computed
    have hetha : ∀ {L G : K} {gi hi : Option (List K)}, CityParamsOk (n : Int) L G ((ns.getLast?.map Node.width).getD 0)
          ((towards ns).map fun sc => (centerOf ns).1 / sc.radius) ((towards ns).map Node.zone)
          (some ((subcentersOf ns).map Node.angle)) gi hi → ∀ sc, towards ns = some sc → (centerOf ns).1 ≤ sc.radius := by
      intro L G gi hi hp sc hsc
      have hpos : 0 < sc.radius := lt_of_le_of_ne (hscok sc hsc) (Ne.symm (halign sc (towards_mem hsc).1 (towards_mem hsc).2))
      rcases hp.etha_ok with ⟨h1, _⟩ | ⟨e, z, h1, _, h3, h4, _⟩
      · rw [hsc] at h1; cases h1
      · rw [hsc] at h1
        simp only [Option.map_some, Option.some.injEq] at h1
        rw [← h1, div_le_one hpos] at h4
        exact h4
    have hmk : ∀ {L G : K} {gi hi : List K}, 0 ≤ L → 0 ≤ G → gi.length = n → hi.length = n → (∀ x ∈ gi, 0 ≤ x) →
        (∀ x ∈ hi, 0 ≤ x) → (∀ sc, towards ns = some sc → (centerOf ns).1 ≤ sc.radius) →
        CityParamsOk (n : Int) L G ((ns.getLast?.map Node.width).getD 0)
          ((towards ns).map fun sc => (centerOf ns).1 / sc.radius) ((towards ns).map Node.zone)
          (some ((subcentersOf ns).map Node.angle)) (some gi) (some hi) := by
      intro L G gi hi h1 h2 h3 h4 h5 h6 h7
      refine ⟨by omega, h1, h2, hwid, ?_, ?_, ?_, ?_⟩
      · cases ht : towards ns with
        | none => exact Or.inl ⟨rfl, rfl⟩
        | some sc =>
          have hpos : 0 < sc.radius := lt_of_le_of_ne (hscok sc ht) (Ne.symm (halign sc (towards_mem ht).1 (towards_mem ht).2))
          refine Or.inr ⟨_, _, rfl, rfl, div_nonneg hrc hpos.le, ?_, (hzone sc ht).1, (hzone sc ht).2⟩
          rw [div_le_one hpos]; exact h7 sc ht
      · intro a ha; cases ha; exact ⟨by simp [hlsc], hang⟩
      · intro a ha; cases ha; exact ⟨by simp [h3], h5⟩
      · intro a ha; cases ha; exact ⟨by simp [h4], h6⟩
    by_cases hn : n = 0
    · subst hn
      have e1 : subcentersOf ns = [] := List.length_eq_zero_iff.1 hlsc
      have e2 : peripheriesOf ns = [] := List.length_eq_zero_iff.1 hlp
      have t : towards ns = none := by unfold towards; rw [e1]; rfl
      have m1 : meanSc ns = 0 := by unfold meanSc; rw [e1]; simp
      have m2 : meanP ns = 0 := by unfold meanP; rw [e2]; simp
      have hd : Describable ns := ⟨fun hh => absurd e1 hh, by rw [m1, m2], halign, by rw [t]; intro sc hh; cases hh⟩
      have hm0 : meansOf ([] : List K) [] = .ok (0, 0) := by unfold meansOf; rw [if_neg (by simp)]
      have e3 : describedCity ns 0 = { importedAt at' 0 with
            n := some ((0 : Nat) : Int), l := some 0, g := some 0, p := some ((ns.getLast?.map Node.width).getD 0),
            etha := none, ethaZone := none, angles := some [], gi := some [], hi := some [] } := by
        unfold describedCity importedAt
        rw [m1, m2, t, e1, e2, ← hns]
        simp
      have hv : CityParamsOk ((0 : Nat) : Int) (0 : K) 0 ((ns.getLast?.map Node.width).getD 0) none none (some []) (some []) (some []) := by
        have := hmk (L := 0) (G := 0) (gi := []) (hi := []) le_rfl le_rfl rfl rfl (by simp) (by simp) (by rw [t]; simp)
        simpa [t, e1] using this
      rw [e1, e2, t]
      simp only [List.map_nil, Option.map_none, hm0]
      constructor
      · rintro ⟨lg, gi, hi, hlg, hgi, hhi, _, hg⟩
        cases hlg
        have : gi = [] := by simpa using hgi.symm
        subst this
        have : hi = [] := by simpa using hhi.symm
        subst this
        exact ⟨hd, by rw [hg, e3]⟩
      · rintro ⟨_, hg⟩
        refine ⟨(0, 0), [], [], rfl, rfl, rfl, (parametersValidator_iff _ _ _ _ _ _ _ _ _ u).2 hv, by rw [hg, e3]⟩
    · have n1 : (subcentersOf ns).map Node.radius ≠ [] := by
        intro hh; rw [List.map_eq_nil_iff] at hh; rw [hh] at hlsc; simp at hlsc; omega
      have n2 : (peripheriesOf ns).map Node.radius ≠ [] := by
        intro hh; rw [List.map_eq_nil_iff] at hh; rw [hh] at hlp; simp at hlp; omega
      have hm := meansOf_pos n1 n2
      simp only [List.length_map] at hm
      have em1 : ((subcentersOf ns).map Node.radius).sum / ((subcentersOf ns).length : K) = meanSc ns := rfl
      have em2 : ((peripheriesOf ns).map Node.radius).sum / ((peripheriesOf ns).length : K) = meanP ns := rfl
      rw [em1, em2] at hm
      have hLM : meanSc ns ≠ 0 → meanSc ns + (meanP ns - meanSc ns) / meanSc ns * meanSc ns = meanP ns := by
        intro h0; rw [div_mul_cancel₀ _ h0]; ring
      constructor
      · rintro ⟨lg, gi, hi, hlg, hgi, hhi, hv, hg⟩
        rw [hm, py_bind_eq_ok] at hlg
        obtain ⟨G, hG, hlg⟩ := hlg
        obtain ⟨h0, hG⟩ := pyDiv_eq_ok.1 hG
        cases hlg
        have hp := (parametersValidator_iff _ _ _ _ _ _ _ _ _ u).1 hv
        have hpos : 0 < meanSc ns := lt_of_le_of_ne hL0 (Ne.symm h0)
        have hGn := hp.g_nonneg
        have hle : meanSc ns ≤ meanP ns := by
          simp only at hGn
          rw [hG] at hGn
          have := mul_nonneg hGn hpos.le
          rw [div_mul_cancel₀ _ h0] at this
          linarith
        have hMpos : 0 < meanP ns := lt_of_lt_of_le hpos hle
        simp only at hgi hhi
        rw [mapM_div _ h0] at hgi
        rw [hG, hLM h0, mapM_div _ hMpos.ne'] at hhi
        refine ⟨⟨fun _ => hpos, hle, halign, hetha hp⟩, ?_⟩
        rw [hg]
        cases hgi
        cases hhi
        rw [hG]
        unfold describedCity importedAt
        rw [← hns]
        simp [List.map_map, Function.comp_def]
      · rintro ⟨hd, hg⟩
        have hpos : 0 < meanSc ns := hd.away (by intro hh; apply n1; rw [hh]; rfl)
        have hMpos : 0 < meanP ns := lt_of_lt_of_le hpos hd.outside
        refine ⟨(meanSc ns, (meanP ns - meanSc ns) / meanSc ns), ((subcentersOf ns).map Node.radius).map (· / meanSc ns),
          ((peripheriesOf ns).map Node.radius).map (· / meanP ns), ?_, mapM_div _ hpos.ne', ?_, ?_, ?_⟩
        · rw [hm]; unfold pyDiv; rw [if_neg hpos.ne']; rfl
        · simp only; rw [hLM hpos.ne']; exact mapM_div _ hMpos.ne'
        · apply (parametersValidator_iff _ _ _ _ _ _ _ _ _ u).2
          apply hmk hL0 (div_nonneg (sub_nonneg.2 hd.outside) hL0) (by simp [hlsc]) (by simp [hlp])
          · intro x hx
            obtain ⟨r, hr, rfl⟩ := List.mem_map.1 hx
            exact div_nonneg (hrsc r hr) hL0
          · intro x hx
            obtain ⟨r, hr, rfl⟩ := List.mem_map.1 hx
            exact div_nonneg (hrp r hr) hMpos.le
          · exact hd.inside
        · rw [hg]
          unfold describedCity importedAt
          rw [← hns]
          simp [List.map_map, Function.comp_def]
  -- the whole function
  unfold cityFrom
  have eP : (ns.filter fun nd => decide (nd.kind = .periphery)) = (List.range n).map fun i => at' (2 * i + 1) := by
    rw [← f2, ← hns]; rfl
  have eS : (ns.filter fun nd => decide (nd.kind = .subcenter)) = (List.range n).map fun i => at' (2 * i + 2) := by
    rw [← f3, ← hns]; rfl
  have eC : (ns.filter fun nd => decide (nd.kind = .cbd)) = [at' 0] := by rw [hns, f1]
  rw [eP, eS, eC]
  simp only [onlyCbd]
  constructor
  · intro hg
    rw [py_bind_eq_ok] at hg
    obtain ⟨s, hs, hg⟩ := hg
    have hz := foundLoop_radius hP hS _ _ hs
    rw [foundLoop_at hP hS _ _ hz, hf] at hs
    cases hs
    simp only [py_bind_eq_ok] at hg
    obtain ⟨lg, h1, gi, h2, hi, h3, u, h4, g', h5, h6⟩ := hg
    rw [importNodes_at h] at h5
    obtain ⟨hfr, rfl⟩ := h5
    refine ⟨hids.1 hfr, ?_⟩
    exact (key u (hal.1 hz)).1 ⟨lg, gi, hi, h1, h2, h3, h4, (Except.ok.inj h6).symm⟩
  · rintro ⟨hid, hd, hg⟩
    obtain ⟨lg, gi, hi, h1, h2, h3, h4, h5⟩ := (key () hd.aligned).2 ⟨hd, hg⟩
    rw [foundLoop_at hP hS _ _ (hal.2 hd.aligned), hf]
    simp only [py_ok_bind]
    rw [h1]
    simp only [py_ok_bind]
    rw [h2]
    simp only [py_ok_bind]
    rw [h3]
    simp only [py_ok_bind]
    rw [h4]
    simp only [py_ok_bind]
    rw [(importNodes_at h _).2 ⟨hids.2 hid, rfl⟩]
    simp only [py_ok_bind, py_pure]
    rw [h5]

end Sidermit
