import Verif.Spec.Costs
import Verif.Proofs.Text
import Verif.Proofs.Dict
import Verif.Proofs.PyLemmas
import Verif.Proofs.GraphReal
import Verif.Proofs.Shares
import Mathlib.Data.Sym.Sym2
import Mathlib.Tactic.Ring
import Mathlib.Tactic.Linarith

set_option linter.unusedSectionVars false

namespace Sidermit

variable {K : Type}

/-! ### lists of streets -/

/-- all the listings of a relation have the same total -/
theorem EachOnce.sum_eq {α : Type} [AddCommMonoid K] {P : α → α → Prop} {S T : List (α × α)} (hS : EachOnce P S)
    (hT : EachOnce P T) (len : α → α → K) (hlen : ∀ a b, P a b → len a b = len b a) :
    (S.map fun p => len p.1 p.2).sum = (T.map fun p => len p.1 p.2).sum := by
  classical
  -- a symmetric length that agrees on the pairs of the relation
  let len' : α → α → K := fun a b => if P a b ∨ P b a then len a b else 0
  have hsymm : ∀ a b, len' a b = len' b a := by
    intro a b
    by_cases h : P a b ∨ P b a
    · have h1 : len' a b = len a b := if_pos h
      have h2 : len' b a = len b a := if_pos h.symm
      rw [h1, h2]
      rcases h with h | h
      · exact hlen a b h
      · exact (hlen b a h).symm
    · have h1 : len' a b = 0 := if_neg h
      have h2 : len' b a = 0 := if_neg fun h' => h h'.symm
      rw [h1, h2]
  let ℓ : Sym2 α → K := Sym2.lift ⟨len', hsymm⟩
  have key : ∀ U : List (α × α), EachOnce P U → (U.map fun p => len p.1 p.2) = (U.map fun p => s(p.1, p.2)).map ℓ := by
    intro U hU
    rw [List.map_map]
    apply List.map_congr_left
    rintro ⟨a, b⟩ hp
    change len a b = len' a b
    exact (if_pos ((hU.all a b).2 (Or.inl hp))).symm
  have hnd : ∀ U : List (α × α), EachOnce P U → (U.map fun p => s(p.1, p.2)).Nodup := by
    intro U hU
    rw [List.Nodup, List.pairwise_map]
    refine hU.once.imp ?_
    rintro ⟨a, b⟩ ⟨c, d⟩ ⟨h1, h2⟩ h
    rw [Sym2.eq_iff] at h
    rcases h with ⟨rfl, rfl⟩ | ⟨rfl, rfl⟩
    · exact h1 rfl
    · exact h2 rfl
  have hmem : ∀ U : List (α × α), EachOnce P U → ∀ a b, s(a, b) ∈ (U.map fun p => s(p.1, p.2)) ↔ P a b ∨ P b a := by
    intro U hU a b
    rw [hU.all a b, List.mem_map]
    constructor
    · rintro ⟨⟨c, d⟩, hp, h⟩
      rw [Sym2.eq_iff] at h
      rcases h with ⟨rfl, rfl⟩ | ⟨rfl, rfl⟩
      · exact Or.inl hp
      · exact Or.inr hp
    · rintro (h | h)
      · exact ⟨_, h, rfl⟩
      · exact ⟨_, h, Sym2.eq_swap⟩
  rw [key S hS, key T hT]
  refine List.Perm.sum_eq (List.Perm.map _ ?_)
  rw [List.perm_ext_iff_of_nodup (hnd S hS) (hnd T hT)]
  intro z
  induction z using Sym2.ind with
  | _ a b => rw [hmem S hS, hmem T hT]

/-- the pairs counted by a loop that keeps the list of the pairs already seen, in both orders -/
def counted {α : Type} [DecidableEq α] (used : α × α → Bool) : List (α × α) → List (α × α) → List (α × α)
  | [], _ => []
  | e :: es, seen =>
    if used e = true ∧ e ∉ seen then e :: counted used es (seen ++ [e, (e.2, e.1)]) else counted used es seen

theorem counted_spec {α : Type} [DecidableEq α] (used : α × α → Bool) (es : List (α × α)) :
    ∀ seen : List (α × α), (∀ a b, (a, b) ∈ seen → (b, a) ∈ seen) →
      (∀ p ∈ counted used es seen, p ∈ es ∧ used p = true ∧ p ∉ seen) ∧
      (∀ p ∈ es, used p = true → p ∈ seen ∨ p ∈ counted used es seen ∨ (p.2, p.1) ∈ counted used es seen) ∧
      (counted used es seen).Pairwise fun p q => p ≠ q ∧ p ≠ (q.2, q.1) := by
  induction es with
  | nil => intro seen _; simp [counted]
  | cons e es ih =>
    intro seen hsym
    rw [counted]
    by_cases hc : used e = true ∧ e ∉ seen
    · rw [if_pos hc]
      have hsym' : ∀ a b, (a, b) ∈ seen ++ [e, (e.2, e.1)] → (b, a) ∈ seen ++ [e, (e.2, e.1)] := by
        intro a b h
        rcases List.mem_append.1 h with h | h
        · exact List.mem_append_left _ (hsym a b h)
        · refine List.mem_append_right _ ?_
          simp only [List.mem_cons, List.not_mem_nil, or_false] at h ⊢
          rcases h with h | h
          · right; rw [← h]
          · left; rw [Prod.mk.injEq] at h; obtain ⟨h1, h2⟩ := h; rw [h1, h2]
      obtain ⟨h1, h2, h3⟩ := ih _ hsym'
      refine ⟨?_, ?_, ?_⟩
      · intro p hp
        rcases List.mem_cons.1 hp with rfl | hp
        · exact ⟨List.mem_cons_self .., hc⟩
        · obtain ⟨q1, q2, q3⟩ := h1 p hp
          exact ⟨List.mem_cons_of_mem _ q1, q2, fun h => q3 (List.mem_append_left _ h)⟩
      · intro p hp hu
        rcases List.mem_cons.1 hp with rfl | hp
        · exact Or.inr (Or.inl (List.mem_cons_self ..))
        · rcases h2 p hp hu with h | h | h
          · rcases List.mem_append.1 h with h | h
            · exact Or.inl h
            · simp only [List.mem_cons, List.not_mem_nil, or_false] at h
              rcases h with rfl | rfl
              · exact Or.inr (Or.inl (List.mem_cons_self ..))
              · exact Or.inr (Or.inr (List.mem_cons_self ..))
          · exact Or.inr (Or.inl (List.mem_cons_of_mem _ h))
          · exact Or.inr (Or.inr (List.mem_cons_of_mem _ h))
      · rw [List.pairwise_cons]
        refine ⟨?_, h3⟩
        intro q hq
        obtain ⟨-, -, q3⟩ := h1 q hq
        constructor
        · rintro rfl
          exact q3 (by simp)
        · intro h
          apply q3
          rw [h]
          simp
    · rw [if_neg hc]
      obtain ⟨h1, h2, h3⟩ := ih _ hsym
      refine ⟨?_, ?_, h3⟩
      · intro p hp
        obtain ⟨q1, q2, q3⟩ := h1 p hp
        exact ⟨List.mem_cons_of_mem _ q1, q2, q3⟩
      · intro p hp hu
        rcases List.mem_cons.1 hp with rfl | hp
        · left
          by_contra hns
          exact hc ⟨hu, hns⟩
        · exact h2 p hp hu

theorem eachOnce_counted {α : Type} [DecidableEq α] {P : α → α → Prop} {used : α × α → Bool} {es : List (α × α)}
    (h : ∀ a b, P a b ↔ (a, b) ∈ es ∧ used (a, b) = true) : EachOnce P (counted used es []) := by
  obtain ⟨h1, h2, h3⟩ := counted_spec used es [] (by simp)
  have hP : ∀ a b, (a, b) ∈ counted used es [] → P a b := fun a b hm => (h a b).2 ⟨(h1 _ hm).1, (h1 _ hm).2.1⟩
  have hC : ∀ a b, P a b → (a, b) ∈ counted used es [] ∨ (b, a) ∈ counted used es [] := by
    intro a b hp
    obtain ⟨q1, q2⟩ := (h a b).1 hp
    rcases h2 (a, b) q1 q2 with h | h | h
    · cases h
    · exact Or.inl h
    · exact Or.inr h
  refine ⟨h3, fun a b => ⟨?_, ?_⟩⟩
  · rintro (hp | hp)
    · exact hC a b hp
    · exact (hC b a hp).symm
  · rintro (hm | hm)
    · exact Or.inl (hP a b hm)
    · exact Or.inr (hP b a hm)

/-- a relation on a finite set can be listed -/
theorem exists_eachOnce {α : Type} {P : α → α → Prop} (L : List α) (h : ∀ a b, P a b → a ∈ L ∧ b ∈ L) :
    ∃ S, EachOnce P S := by
  classical
  refine ⟨counted (fun p => decide (P p.1 p.2)) (L.flatMap fun a => L.map fun b => (a, b)) [], eachOnce_counted ?_⟩
  intro a b
  simp only [decide_eq_true_eq, List.mem_flatMap, List.mem_map, Prod.mk.injEq]
  constructor
  · intro hp
    exact ⟨⟨a, (h a b hp).1, b, (h a b hp).2, rfl, rfl⟩, hp⟩
  · exact fun hp => hp.2

section Field

variable [Field K] [LinearOrder K]

theorem mem_pairs_crossings (r : Route K) (a b : Int) :
    0 < r.crossings a b ↔ (a, b) ∈ pairs r.nodesI ∨ (a, b) ∈ pairs r.nodesR := by
  unfold Route.crossings
  rw [Nat.add_pos_iff_pos_or_pos, List.count_pos_iff, List.count_pos_iff]

theorem sequenceUses_iff (e : Int × Int) (seen : List (Int × Int)) (nodes : List Int) :
    sequenceUses e seen nodes = true ↔ e ∈ pairs nodes ∧ e ∉ seen := by
  unfold sequenceUses
  rw [List.any_eq_true]
  constructor
  · rintro ⟨p, hp, h⟩
    obtain ⟨h1, h2, h3⟩ := of_decide_eq_true h
    have : p = e := Prod.ext h1 h2
    exact ⟨this ▸ hp, h3⟩
  · rintro ⟨h1, h2⟩
    exact ⟨e, h1, decide_eq_true ⟨rfl, rfl, h2⟩⟩

theorem uses_iff (routes : List (Route K)) (f : Dict Str K) (m : Mode K) (e : Int × Int) (seen : List (Int × Int)) :
    routes.any (routeUses m f e seen) = true ↔ Drives routes f m e.1 e.2 ∧ e ∉ seen := by
  rw [List.any_eq_true]
  unfold Drives
  constructor
  · rintro ⟨r, hr, h⟩
    simp only [routeUses, Bool.and_eq_true, Bool.or_eq_true, decide_eq_true_eq, sequenceUses_iff] at h
    obtain ⟨⟨h1, h2⟩, h3⟩ := h
    refine ⟨⟨r, hr, h1, h2, ?_⟩, ?_⟩
    · rw [mem_pairs_crossings]
      rcases h3 with h3 | h3
      · exact Or.inl h3.1
      · exact Or.inr h3.1
    · rcases h3 with h3 | h3
      · exact h3.2
      · exact h3.2
  · rintro ⟨⟨r, hr, h1, h2, h3⟩, h4⟩
    refine ⟨r, hr, ?_⟩
    rw [mem_pairs_crossings] at h3
    simp only [routeUses, Bool.and_eq_true, Bool.or_eq_true, decide_eq_true_eq, sequenceUses_iff]
    refine ⟨⟨h1, h2⟩, ?_⟩
    rcases h3 with h3 | h3
    · exact Or.inl ⟨h3, h4⟩
    · exact Or.inr ⟨h3, h4⟩

open Classical in
theorem infra_fold (dist : Dict Int (Dict Int K)) (routes : List (Route K)) (f : Dict Str K) (m : Mode K)
    (es : List (Int × Int)) : ∀ (acc : Dict (Mode K) K) (seen : List (Int × Int)),
      let C := counted (fun e => decide (Drives routes f m e.1 e.2)) es seen
      let r := (es.foldl (infraStep dist routes f m) (acc, seen)).1
      (r = acc ∧ C = [] ∨ C ≠ [] ∧ r = acc.set m (r.getD m 0)) ∧
      r.getD m 0 = acc.getD m 0 + (C.map fun p => (lookup2 dist p.1 p.2).getD 0).sum * (m.d : K) := by
  induction es with
  | nil => intro acc seen; simp [counted]
  | cons e es ih =>
    intro acc seen
    have hstep : infraStep dist routes f m (acc, seen) e =
        if Drives routes f m e.1 e.2 ∧ e ∉ seen then
          (acc.set m (acc.getD m 0 + (lookup2 dist e.1 e.2).getD 0 * (m.d : K)), seen ++ [e, (e.2, e.1)])
        else (acc, seen) := by
      unfold infraStep
      by_cases h : Drives routes f m e.1 e.2 ∧ e ∉ seen
      · rw [if_pos h, if_pos ((uses_iff routes f m e seen).2 h)]
      · rw [if_neg h, if_neg]
        intro h'
        exact h ((uses_iff routes f m e seen).1 h')
    rw [List.foldl_cons, hstep]
    by_cases h : Drives routes f m e.1 e.2 ∧ e ∉ seen
    · rw [if_pos h]
      have hC : counted (fun e => decide (Drives routes f m e.1 e.2)) (e :: es) seen =
          e :: counted (fun e => decide (Drives routes f m e.1 e.2)) es (seen ++ [e, (e.2, e.1)]) := by
        rw [counted, if_pos ⟨decide_eq_true h.1, h.2⟩]
      rw [hC]
      obtain ⟨i1, i2⟩ := ih (acc.set m (acc.getD m 0 + (lookup2 dist e.1 e.2).getD 0 * (m.d : K))) (seen ++ [e, (e.2, e.1)])
      have hself : ∀ x : K, (acc.set m x).getD m 0 = x := by
        intro x
        unfold Dict.getD
        rw [Dict.get?_set_self]
        rfl
      refine ⟨Or.inr ⟨List.cons_ne_nil _ _, ?_⟩, ?_⟩
      · rcases i1 with ⟨i1, -⟩ | ⟨-, i1⟩
        · rw [i1, hself]
        · have : ∀ (d : Dict (Mode K) K) (x y : K), (d.set m x).set m y = d.set m y := by
            intro d x y
            induction d with
            | nil => simp [Dict.set]
            | cons p t ih =>
              obtain ⟨k', v'⟩ := p
              by_cases hk : k' = m
              · simp [Dict.set, hk]
              · simp [Dict.set, hk, ih]
          exact i1.trans (this _ _ _)
      · rw [i2, hself, List.map_cons, List.sum_cons]
        ring
    · rw [if_neg h]
      have hC : counted (fun e => decide (Drives routes f m e.1 e.2)) (e :: es) seen =
          counted (fun e => decide (Drives routes f m e.1 e.2)) es seen := by
        rw [counted, if_neg]
        rintro ⟨h1, h2⟩
        exact h ⟨of_decide_eq_true h1, h2⟩
      rw [hC]
      exact ih acc seen

/-! ### infrastructure -/

theorem mem_edgeIds (g : Graph K) (i j : Int) : (i, j) ∈ g.edgeIds ↔ g.edgeExist i j = true := by
  unfold Graph.edgeIds Graph.edgeExist
  rw [List.mem_filterMap, List.any_eq_true]
  constructor
  · rintro ⟨e, he, h⟩
    refine ⟨e, he, decide_eq_true ?_⟩
    cases h1 : g.nodes[e.node1]? with
    | none => rw [h1] at h; cases h
    | some a =>
      cases h2 : g.nodes[e.node2]? with
      | none => rw [h1, h2] at h; cases h
      | some b =>
        rw [h1, h2] at h
        simp only [Option.some.injEq, Prod.mk.injEq] at h
        simp [h.1, h.2]
  · rintro ⟨e, he, h⟩
    refine ⟨e, he, ?_⟩
    obtain ⟨h1, h2⟩ := of_decide_eq_true h
    obtain ⟨a, ha, hai⟩ := Option.map_eq_some_iff.1 h1
    obtain ⟨b, hb, hbi⟩ := Option.map_eq_some_iff.1 h2
    rw [ha, hb]
    simp [hai, hbi]

theorem mem_edgeIds_iff {g : Graph K} {n : Nat} (hs : CityShape g n) (hd : DistinctIds g) (i j : Int) :
    (i, j) ∈ g.edgeIds ↔ ∃ a ∈ g.nodes, ∃ b ∈ g.nodes, a.id = i ∧ b.id = j ∧ Street n a b := by
  rw [mem_edgeIds]
  constructor
  · intro h
    obtain ⟨⟨a, ha, rfl⟩, ⟨b, hb, rfl⟩⟩ := edgeExist_nodes h
    exact ⟨a, ha, b, hb, rfl, rfl, (edgeExist_iff hs hd ha hb).1 h⟩
  · rintro ⟨a, ha, b, hb, rfl, rfl, h⟩
    exact (edgeExist_iff hs hd ha hb).2 h

theorem node_eq_of_id {g : Graph K} (hd : DistinctIds g) {a b : Node K} (ha : a ∈ g.nodes) (hb : b ∈ g.nodes)
    (h : a.id = b.id) : a = b := List.inj_on_of_nodup_map hd ha hb h

variable [IsStrictOrderedRing K] [PyMath K]

theorem nodeDistance_comm (a b : Node K) : nodeDistance a b = nodeDistance b a := by
  unfold nodeDistance
  congr 1
  ring

theorem infraMode_spec {g : Graph K} {n : Nat} (hs : CityShape g n) (hd : DistinctIds g) (routes : List (Route K))
    (f : Dict Str K) (m : Mode K) (acc : Dict (Mode K) K) {S : List (Node K × Node K)}
    (hS : EachOnce (UsedStreet g n routes f m) S) :
    (S = [] ∧ infraMode g routes f acc m = acc ∨
      S ≠ [] ∧ infraMode g routes f acc m = acc.set m (acc.getD m 0 + lengthOf S * (m.d : K))) := by
  classical
  obtain ⟨h1, h2⟩ := infra_fold g.edgesDistance routes f m g.edgeIds acc []
  set C := counted (fun e => decide (Drives routes f m e.1 e.2)) g.edgeIds [] with hC
  let P : Int → Int → Prop := fun i j => ∃ a b, UsedStreet g n routes f m a b ∧ a.id = i ∧ b.id = j
  have hCP : EachOnce P C := by
    apply eachOnce_counted
    intro i j
    rw [mem_edgeIds_iff hs hd, decide_eq_true_eq]
    constructor
    · rintro ⟨a, b, ⟨ha, hb, hst, hdr⟩, rfl, rfl⟩
      exact ⟨⟨a, ha, b, hb, rfl, rfl, hst⟩, hdr⟩
    · rintro ⟨⟨a, ha, b, hb, rfl, rfl, hst⟩, hdr⟩
      exact ⟨a, b, ⟨ha, hb, hst, hdr⟩, rfl, rfl⟩
  have hin : ∀ p ∈ S, p.1 ∈ g.nodes ∧ p.2 ∈ g.nodes ∧ Street n p.1 p.2 := by
    rintro ⟨a, b⟩ hp
    rcases (hS.all a b).2 (Or.inl hp) with ⟨ha, hb, hst, _⟩ | ⟨hb, ha, hst, _⟩
    · exact ⟨ha, hb, hst⟩
    · exact ⟨ha, hb, street_symm hst⟩
  have hSP : EachOnce P (S.map fun p => (p.1.id, p.2.id)) := by
    constructor
    · rw [List.pairwise_map]
      refine hS.once.imp_of_mem ?_
      rintro ⟨a, b⟩ ⟨c, d⟩ hp hq ⟨q1, q2⟩
      obtain ⟨ha, hb, _⟩ := hin _ hp
      obtain ⟨hc, hd', _⟩ := hin _ hq
      constructor
      · intro h
        rw [Prod.mk.injEq] at h
        exact q1 (Prod.ext (node_eq_of_id hd ha hc h.1) (node_eq_of_id hd hb hd' h.2))
      · intro h
        rw [Prod.mk.injEq] at h
        exact q2 (Prod.ext (node_eq_of_id hd ha hd' h.1) (node_eq_of_id hd hb hc h.2))
    · intro i j
      have key : ∀ i j, P i j → (i, j) ∈ (S.map fun p => (p.1.id, p.2.id)) ∨ (j, i) ∈ (S.map fun p => (p.1.id, p.2.id)) := by
        rintro _ _ ⟨a, b, hu, rfl, rfl⟩
        rcases (hS.all a b).1 (Or.inl hu) with h | h
        · exact Or.inl (List.mem_map.2 ⟨_, h, rfl⟩)
        · exact Or.inr (List.mem_map.2 ⟨_, h, rfl⟩)
      have key2 : ∀ i j, (i, j) ∈ (S.map fun p => (p.1.id, p.2.id)) → P i j ∨ P j i := by
        intro i j h
        obtain ⟨⟨a, b⟩, hp, h⟩ := List.mem_map.1 h
        rw [Prod.mk.injEq] at h
        obtain ⟨rfl, rfl⟩ := h
        rcases (hS.all a b).2 (Or.inl hp) with hu | hu
        · exact Or.inl ⟨a, b, hu, rfl, rfl⟩
        · exact Or.inr ⟨b, a, hu, rfl, rfl⟩
      constructor
      · rintro (h | h)
        · exact key _ _ h
        · exact (key _ _ h).symm
      · rintro (h | h)
        · exact key2 _ _ h
        · exact (key2 _ _ h).symm
  have hlen : ∀ i j, P i j → (lookup2 g.edgesDistance i j).getD 0 = (lookup2 g.edgesDistance j i).getD 0 := by
    rintro _ _ ⟨a, b, ⟨ha, hb, hst, _⟩, rfl, rfl⟩
    rw [(edgesDistance_iff hs hd ha hb _).2 ⟨hst, rfl⟩, (edgesDistance_iff hs hd hb ha _).2 ⟨street_symm hst, rfl⟩,
      nodeDistance_comm]
  have hsum := hCP.sum_eq hSP (fun i j => (lookup2 g.edgesDistance i j).getD 0) hlen
  rw [List.map_map] at hsum
  have hL : (S.map ((fun p : Int × Int => (lookup2 g.edgesDistance p.1 p.2).getD 0) ∘ fun p => (p.1.id, p.2.id))).sum =
      lengthOf S := by
    unfold lengthOf
    congr 1
    apply List.map_congr_left
    rintro ⟨a, b⟩ hp
    obtain ⟨ha, hb, hst⟩ := hin _ hp
    change (lookup2 g.edgesDistance a.id b.id).getD 0 = nodeDistance a b
    rw [(edgesDistance_iff hs hd ha hb _).2 ⟨hst, rfl⟩]
    rfl
  have hempty : C = [] ↔ S = [] := by
    constructor
    · intro h0
      by_contra hne
      obtain ⟨⟨a, b⟩, hp⟩ := List.exists_mem_of_ne_nil S hne
      have hm : (a.id, b.id) ∈ S.map fun p => (p.1.id, p.2.id) := List.mem_map.2 ⟨_, hp, rfl⟩
      have := (hCP.all a.id b.id).1 ((hSP.all a.id b.id).2 (Or.inl hm))
      rw [h0] at this
      simp at this
    · intro h0
      by_contra hne
      obtain ⟨⟨a, b⟩, hp⟩ := List.exists_mem_of_ne_nil C hne
      have := (hSP.all a b).1 ((hCP.all a b).2 (Or.inl hp))
      rw [h0] at this
      simp at this
  have hdef : (g.edgeIds.foldl (infraStep g.edgesDistance routes f m) (acc, [])).1 = infraMode g routes f acc m := rfl
  rw [hdef] at h1 h2
  rw [hsum, hL] at h2
  rcases h1 with ⟨h1, h0⟩ | ⟨h0, h1⟩
  · exact Or.inl ⟨hempty.1 h0, h1⟩
  · refine Or.inr ⟨fun h => h0 (hempty.2 h), ?_⟩
    rw [← h2]
    exact h1

theorem set_of_not_mem {α β : Type} [DecidableEq α] (d : Dict α β) {k : α} (v : β) (h : k ∉ Dict.keys d) :
    d.set k v = d ++ [(k, v)] := by
  induction d with
  | nil => rfl
  | cons p t ih =>
    obtain ⟨k', v'⟩ := p
    have h1 : k' ≠ k := fun e => h (by simp [Dict.keys, e])
    have h2 : k ∉ Dict.keys t := fun e => h (by simp only [Dict.keys, List.map_cons, List.mem_cons]; exact Or.inr e)
    rw [Dict.set, if_neg h1, ih h2]
    rfl

open Classical in
theorem modeDistance_fold {g : Graph K} {n : Nat} (hs : CityShape g n) (hd : DistinctIds g) (routes : List (Route K))
    (f : Dict Str K) (S : Mode K → List (Node K × Node K)) (hS : ∀ m, EachOnce (UsedStreet g n routes f m) (S m))
    (modes : List (Mode K)) : ∀ acc : Dict (Mode K) K, modes.Nodup → (∀ m ∈ modes, m ∉ Dict.keys acc) →
    modes.foldl (infraMode g routes f) acc =
      acc ++ (modes.filter fun m => S m ≠ []).map fun m => (m, lengthOf (S m) * (m.d : K)) := by
  induction modes with
  | nil => intro acc _ _; simp
  | cons m ms ih =>
    intro acc hnd hk
    rw [List.nodup_cons] at hnd
    have hm : m ∉ Dict.keys acc := hk m (List.mem_cons_self ..)
    have hget : acc.getD m 0 = 0 := by
      unfold Dict.getD
      rw [(Dict.get?_eq_none_iff acc m).2 hm]
      rfl
    rw [List.foldl_cons]
    rcases infraMode_spec hs hd routes f m acc (hS m) with ⟨h0, h1⟩ | ⟨h0, h1⟩
    · rw [h1, ih acc hnd.2 (fun m' hm' => hk m' (List.mem_cons_of_mem _ hm')), List.filter_cons]
      simp [h0]
    · rw [h1, hget, zero_add, set_of_not_mem _ _ hm, ih _ hnd.2, List.filter_cons]
      · simp [h0]
      · intro m' hm' hc
        unfold Dict.keys at hc
        rw [List.map_append, List.mem_append] at hc
        rcases hc with hc | hc
        · exact hk m' (List.mem_cons_of_mem _ hm') hc
        · simp only [List.map_cons, List.map_nil, List.mem_cons, List.not_mem_nil, or_false] at hc
          exact hnd.1 (hc ▸ hm')

omit [LinearOrder K] [IsStrictOrderedRing K] [PyMath K] in
theorem foldl_add_sum {α : Type} (l : List α) (w : α → K) : ∀ acc : K, l.foldl (fun s p => s + w p) acc = acc + (l.map w).sum := by
  induction l with
  | nil => intro acc; simp
  | cons a t ih =>
    intro acc
    rw [List.foldl_cons, ih, List.map_cons, List.sum_cons]
    ring

omit [IsStrictOrderedRing K] [PyMath K] in
theorem get?_map_of_nodup {α : Type} [DecidableEq α] (l : List α) (w : α → K) (hn : l.Nodup) (a : α) :
    Dict.get? (l.map fun x => (x, w x)) a = if a ∈ l then some (w a) else none := by
  induction l with
  | nil => simp
  | cons b t ih =>
    rw [List.nodup_cons] at hn
    rw [List.map_cons, Dict.get?_cons, ih hn.2]
    by_cases h : b = a
    · subst h; simp
    · have h' : a ≠ b := fun e => h e.symm
      simp [h, h']

/-! ### capacity of the streets -/

omit [IsStrictOrderedRing K] [PyMath K] in
theorem crossStep_fold (e : Int × Int) (q : K) (l : List (Int × Int)) : ∀ acc : K,
    l.foldl (crossStep e q) acc = acc + q * (l.count e : K) := by
  induction l with
  | nil => intro acc; simp
  | cons p t ih =>
    intro acc
    rw [List.foldl_cons, ih, List.count_cons]
    unfold crossStep
    by_cases h : p = e
    · subst h
      simp only [and_self, if_true, beq_self_eq_true, Nat.cast_add, Nat.cast_one]
      ring
    · rw [if_neg, if_neg]
      · simp
      · simpa using h
      · rintro ⟨h1, h2⟩
        exact h (Prod.ext (showInt_injective h1).symm (showInt_injective h2).symm)

omit [IsStrictOrderedRing K] [PyMath K] in
theorem flowStep_fold (m : Mode K) (f : Dict Str K) (e : Int × Int) (routes : List (Route K)) : ∀ acc : K,
    routes.foldl (flowStep m f e) acc = acc + vehicleFlow routes f m e.1 e.2 / (m.d : K) := by
  induction routes with
  | nil => intro acc; simp [vehicleFlow]
  | cons r t ih =>
    intro acc
    rw [List.foldl_cons, ih]
    unfold vehicleFlow flowStep
    rw [List.filter_cons]
    by_cases h : r.mode = m
    · rw [if_pos h, if_pos (decide_eq_true h), List.map_cons, List.sum_cons]
      by_cases h0 : f.getD r.id 0 ≠ 0
      · rw [if_pos h0, crossStep_fold, crossStep_fold]
        unfold Route.crossings
        push_cast
        ring
      · rw [if_neg h0]
        rw [not_not] at h0
        rw [h0]
        ring
    · rw [if_neg h, if_neg (by simpa using h)]

omit [PyMath K] in
theorem fmaxEntry_ok (routes : List (Route K)) (f : Dict Str K) (e : Int × Int) {m : Mode K} (hd : (m.d : K) ≠ 0) :
    fmaxEntry routes f e m = .ok ((vehicleFlow routes f m e.1 e.2 - m.fmax) / (m.d : K)) := by
  unfold fmaxEntry
  rw [pyDiv_ok hd, flowStep_fold]
  change Except.ok _ = _
  congr 1
  ring

omit [PyMath K] in
theorem mapM_pure_ok {α β : Type} (l : List α) (w : α → Py β) (u : α → β) (h : ∀ a ∈ l, w a = .ok (u a)) :
    l.mapM w = .ok (l.map u) := by
  induction l with
  | nil => rfl
  | cons a t ih =>
    rw [List.mapM_cons, h a (List.mem_cons_self ..), ih (fun b hb => h b (List.mem_cons_of_mem _ hb))]
    rfl

omit [PyMath K] in
theorem fmaxConstrains_ok (g : Graph K) (routes : List (Route K)) (modes : List (Mode K)) (f : Dict Str K)
    (hd : ∀ m ∈ modes, (m.d : K) ≠ 0) :
    fmaxConstrains g routes modes f = .ok (g.edgeIds.flatMap fun e =>
      modes.map fun m => (vehicleFlow routes f m e.1 e.2 - m.fmax) / (m.d : K)) := by
  unfold fmaxConstrains
  rw [mapM_pure_ok g.edgeIds _ (fun e => modes.map fun m => (vehicleFlow routes f m e.1 e.2 - m.fmax) / (m.d : K))]
  · rfl
  · intro e _
    exact mapM_pure_ok modes _ _ fun m hm => fmaxEntry_ok routes f e (hd m hm)

/-! ### travel time -/

omit [PyMath K] in
theorem travelStep_fold (dist : Dict Int (Dict Int K)) {v : K} (hv : v ≠ 0) (l : List (Int × Int)) : ∀ acc : K,
    l.foldlM (travelStep dist v) acc = .ok (acc + (l.map fun p => (lookup2 dist p.1 p.2).getD 0).sum / v) := by
  induction l with
  | nil => intro acc; simp
  | cons p t ih =>
    intro acc
    rw [List.foldlM_cons]
    have : travelStep dist v acc p = .ok (acc + (lookup2 dist p.1 p.2).getD 0 / v) := by
      unfold travelStep
      rw [pyDiv_ok hv]
      rfl
    rw [this, py_ok_bind, ih, List.map_cons, List.sum_cons]
    congr 1
    ring

omit [PyMath K] in
theorem lineTravelTime_ok (dist : Dict Int (Dict Int K)) (r : Route K) (hv : r.mode.v ≠ 0) :
    lineTravelTime dist r = .ok ((((pairs r.nodesI).map fun p => (lookup2 dist p.1 p.2).getD 0).sum +
      ((pairs r.nodesR).map fun p => (lookup2 dist p.1 p.2).getD 0).sum) / r.mode.v) := by
  unfold lineTravelTime
  rw [travelStep_fold dist hv, py_ok_bind, travelStep_fold dist hv]
  congr 1
  ring

/-- the dictionary filled by a loop `d[route.id] = w(route)` -/
def tableOf (w : Route K → K) (acc : Dict Str K) (r : Route K) : Dict Str K := acc.set r.id (w r)

omit [LinearOrder K] [IsStrictOrderedRing K] [PyMath K] in
theorem tableOf_fold (w : Route K → K) (routes : List (Route K)) : ∀ acc : Dict Str K,
    (routes.map Route.id).Nodup →
    (∀ r ∈ routes, (routes.foldl (tableOf w) acc).get? r.id = some (w r)) ∧
    ∀ id, id ∉ routes.map Route.id → (routes.foldl (tableOf w) acc).get? id = acc.get? id := by
  induction routes with
  | nil => intro acc _; simp
  | cons r t ih =>
    intro acc hn
    rw [List.map_cons, List.nodup_cons] at hn
    obtain ⟨h1, h2⟩ := ih (tableOf w acc r) hn.2
    rw [List.foldl_cons]
    refine ⟨?_, ?_⟩
    · intro r' hr'
      rcases List.mem_cons.1 hr' with rfl | hr'
      · rw [h2 _ hn.1]
        exact Dict.get?_set_self _ _ _
      · exact h1 r' hr'
    · intro id hid
      rw [List.map_cons, List.mem_cons, not_or] at hid
      rw [h2 id hid.2]
      exact Dict.get?_set_ne _ _ hid.1

omit [PyMath K] in
theorem linesTravelTime_fold (dist : Dict Int (Dict Int K)) (routes : List (Route K)) (hv : ∀ r ∈ routes, r.mode.v ≠ 0) :
    ∀ acc : Dict Str K, routes.foldlM (travelTimeStep dist) acc =
      .ok (routes.foldl (tableOf fun r => (((pairs r.nodesI).map fun p => (lookup2 dist p.1 p.2).getD 0).sum +
        ((pairs r.nodesR).map fun p => (lookup2 dist p.1 p.2).getD 0).sum) / r.mode.v) acc) := by
  induction routes with
  | nil => intro acc; rfl
  | cons r t ih =>
    intro acc
    rw [List.foldlM_cons, List.foldl_cons]
    have : travelTimeStep dist acc r = .ok (tableOf (fun r => (((pairs r.nodesI).map fun p =>
        (lookup2 dist p.1 p.2).getD 0).sum + ((pairs r.nodesR).map fun p => (lookup2 dist p.1 p.2).getD 0).sum) / r.mode.v)
        acc r) := by
      unfold travelTimeStep
      rw [lineTravelTime_ok dist r (hv r (List.mem_cons_self ..))]
      rfl
    rw [this, py_ok_bind]
    exact ih (fun r hr => hv r (List.mem_cons_of_mem _ hr)) _

end Field

end Sidermit
