import Verif.Spec.Clock
import Verif.Props.Costs
import Verif.Props.ExtGraph

/-!
Sums of ways, for C91.
-/

set_option linter.unusedSectionVars false

namespace Sidermit

section Ways

variable {K : Type} [Field K] [PyMath K]

theorem travelled_nil : travelled ([] : List (Node K)) = 0 := rfl

theorem offStreets_nil (g : Graph K) : offStreets g [] = 0 := rfl

theorem travelled_single (a : Node K) : travelled [a] = 0 := by simp [travelled, pairs]

theorem travelled_cons_cons (a b : Node K) (l : List (Node K)) :
    travelled (a :: b :: l) = nodeDistance a b + travelled (b :: l) := by simp [travelled, pairs]

theorem travelled_append (a b : Node K) (ns post : List (Node K)) :
    travelled (a :: (ns ++ b :: post)) = travelled (a :: (ns ++ [b])) + travelled (b :: post) := by
  induction ns generalizing a with
  | nil => rw [List.nil_append, List.nil_append, travelled_cons_cons, travelled_cons_cons, travelled_single, add_zero]
  | cons c t ih =>
    rw [List.cons_append, List.cons_append, travelled_cons_cons, travelled_cons_cons, ih c, add_assoc]

theorem sublist_skip {α : Type} {b : α} {s l1 l2 : List α} (hb : b ∉ l1) (h : (b :: s).Sublist (l1 ++ l2)) :
    (b :: s).Sublist l2 := by
  induction l1 with
  | nil => exact h
  | cons c t ih =>
    rw [List.mem_cons, not_or] at hb
    rw [List.cons_append] at h
    cases h with
    | cons _ h => exact ih hb.2 h
    | cons_cons _ h => exact absurd rfl hb.1

/-- the times between the stops of a way add up to the time of the whole way, exactly or as a bound -/
theorem sum_rides {R : K → K → Prop} (h0 : R 0 0) (hadd : ∀ a b c d, R a b → R c d → R (a + c) (b + d)) (v : K)
    {S : List Int} {A : List (Node K)} {ts : List K} (hne : S ≠ []) (hsub : S.Sublist (A.map Node.id))
    (hnd : (A.map Node.id).Nodup) (hf : S.head? = (A.map Node.id).head?) (hl : S.getLast? = (A.map Node.id).getLast?)
    (hlen : ts.length = S.length - 1)
    (H : ∀ i t na nb pre ns post, ts[i]? = some t → S[i]? = some na.id → S[i + 1]? = some nb.id →
      A = pre ++ na :: (ns ++ nb :: post) → R t (travelled (na :: (ns ++ [nb])) / v)) :
    R ts.sum (travelled A / v) := by
  induction S generalizing A ts with
  | nil => exact absurd rfl hne
  | cons a S ih =>
    cases A with
    | nil => simp at hf
    | cons na A' =>
      have hna : a = na.id := by simpa using hf
      subst hna
      cases S with
      | nil =>
        have hA' : A' = [] := by
          cases A' with
          | nil => rfl
          | cons c t =>
            exfalso
            rw [List.map_cons, List.map_cons, List.getLast?_cons_cons, List.getLast?_singleton] at hl
            rw [List.map_cons, List.nodup_cons] at hnd
            exact hnd.1 (List.mem_of_getLast? hl.symm)
        subst hA'
        have : ts = [] := List.length_eq_zero_iff.1 (by simpa using hlen)
        subst this
        rw [travelled_single, zero_div]
        exact h0
      | cons b S =>
        rw [List.map_cons, List.cons_sublist_cons] at hsub
        have hb : b ∈ A'.map Node.id := hsub.subset (List.mem_cons_self ..)
        obtain ⟨nb, hnb, rfl⟩ := List.mem_map.1 hb
        obtain ⟨ns, post, rfl⟩ := List.append_of_mem hnb
        rw [List.map_cons, List.nodup_cons, List.map_append, List.map_cons] at hnd
        have hbn : nb.id ∉ ns.map Node.id := fun hin =>
          (List.nodup_append.1 hnd.2).2.2 _ hin _ (List.mem_cons_self ..) rfl
        rw [List.map_append, List.map_cons] at hsub
        have hsub' := sublist_skip hbn hsub
        cases ts with
        | nil => simp at hlen
        | cons t ts =>
          have h1 := H 0 t na nb [] ns post rfl rfl rfl rfl
          have h2 : R ts.sum (travelled (nb :: post) / v) := by
            refine ih (List.cons_ne_nil _ _) (by simpa using hsub') ?_ rfl ?_ (by simpa using hlen) ?_
            · rw [List.map_cons]
              exact (List.nodup_append.1 hnd.2).2.1
            · rw [List.getLast?_cons_cons] at hl
              rw [hl, List.map_cons, List.map_append, List.map_cons, ← List.cons_append,
                List.getLast?_append_of_ne_nil _ (List.cons_ne_nil _ _)]
            · intro i t' na' nb' pre ns' post' h1 h2 h3 h4
              refine H (i + 1) t' na' nb' (na :: ns ++ pre) ns' post' (by simpa using h1) (by simpa using h2)
                (by simpa using h3) ?_
              rw [h4]
              simp
          rw [List.sum_cons, travelled_append, add_div]
          exact hadd _ _ _ _ h1 h2

theorem sum_steps (v : K) {A : List (Node K)} {ts : List K} (hlen : ts.length = A.length - 1)
    (H : ∀ i t na nb, ts[i]? = some t → A[i]? = some na → A[i + 1]? = some nb → t = nodeDistance na nb / v) :
    ts.sum = travelled A / v := by
  induction A generalizing ts with
  | nil =>
    have : ts = [] := List.length_eq_zero_iff.1 (by simpa using hlen)
    subst this
    simp [travelled, pairs]
  | cons a A ih =>
    cases A with
    | nil =>
      have : ts = [] := List.length_eq_zero_iff.1 (by simpa using hlen)
      subst this
      simp [travelled_single]
    | cons b A =>
      cases ts with
      | nil => simp at hlen
      | cons t ts =>
        rw [List.sum_cons, travelled_cons_cons, add_div, H 0 t a b rfl rfl rfl, ih (by simpa using hlen)]
        intro i t' na nb h1 h2 h3
        exact H (i + 1) t' na nb (by simpa using h1) (by simpa using h2) (by simpa using h3)

end Ways

section Edges

variable {K : Type} [Field K] [DecidableEq K] [PyMath K] {g : Graph K} {routes : List (Route K)} {sPTP : K}
  {freq : Option (Dict Str K)} {x : ExtGraph K}

theorem ride_ends (hg : DistinctIds g) (h : buildExtGraph g routes sPTP freq = .ok x) {e : EEdge K} (he : e ∈ x.edges)
    {p n : RouteNode K} (hi : e.i = .route p) (hj : e.j = .route n) :
    p.Wanted g routes ∧ n.Wanted g routes ∧ p.Precedes n := by
  have ht : e.type = .route := by
    obtain ⟨entries, hx⟩ := extSpec h
    rw [hx.mem_edges] at he
    rcases he with ⟨s, hs, h'⟩ | ⟨m, _, _, rfl⟩ | ⟨m, _, _, rfl⟩ | ⟨m, hm, q, hq, rfl⟩
    · rcases h' with rfl | rfl <;> cases hi
    · cases hi
    · cases hj
    · rfl
  obtain ⟨p', n', h1, h2, h3, h4, h5, _⟩ := (C36_route_edges hg h).1 e he ht
  rw [hi] at h4
  rw [hj] at h5
  cases h4
  cases h5
  exact ⟨h1, h2, h3⟩

theorem node_of_id (hg : DistinctIds g) {a b : Node K} (ha : a ∈ g.nodes) (hb : b ∈ g.nodes) (h : a.id = b.id) : a = b :=
  List.inj_on_of_nodup_map hg ha hb h

/-- there are rides from each stop to the next one -/
theorem rideTimes_exist (hg : DistinctIds g) (h : buildExtGraph g routes sPTP freq = .ok x) {k : Nat} {r : Route K}
    (hk : routes[k]? = some r) (hc : r.type ≠ .circular) (d : Dir) (hst : ∀ a ∈ r.stopsOf d, ∃ c ∈ g.nodes, c.id = a) :
    ∃ ts, RideTimes x r k d ts := by
  have hw : ∀ i, i < (r.stopsOf d).length → ∃ p : RouteNode K, p.Wanted g routes ∧ p.ridx = k ∧ p.dir = d ∧ p.pos = i ∧
      p.route = r := by
    intro i hi
    obtain ⟨c, hcg, hid⟩ := hst _ (List.getElem_mem hi)
    obtain ⟨j, hj⟩ := List.mem_iff_getElem?.1 hcg
    exact ⟨⟨k, r, d, i, ⟨r.mode, ⟨j, c⟩⟩⟩, ⟨hk, ⟨by rw [List.getElem?_eq_getElem hi, ← hid], fun hc' => absurd hc' hc⟩, rfl, hj⟩,
      rfl, rfl, rfl, rfl⟩
  have he : ∀ i, i < (r.stopsOf d).length - 1 → ∃ t, ∃ e ∈ x.edges, ∃ p n : RouteNode K, e.i = .route p ∧ e.j = .route n ∧
      e.t = t ∧ p.ridx = k ∧ n.ridx = k ∧ p.dir = d ∧ n.dir = d ∧ p.pos = i ∧ n.pos = i + 1 := by
    intro i hi
    obtain ⟨p, hp, p1, p2, p3, p4⟩ := hw i (by omega)
    obtain ⟨n, hn, n1, n2, n3, n4⟩ := hw (i + 1) (by omega)
    obtain ⟨e, ⟨h1, h2, h3⟩, _⟩ := (C36_route_edges hg h).2 p n hp hn ⟨by rw [p1, n1], by rw [p2, n2], by
      unfold Route.stopBefore
      rw [n4, if_neg hc, n3, if_neg (by omega), p3]
      rfl⟩
    exact ⟨e.t, e, h1, p, n, h2, h3, rfl, p1, n1, p2, n2, p3, n3⟩
  choose T hT using he
  refine ⟨List.ofFn fun i : Fin ((r.stopsOf d).length - 1) => T i i.2, by simp, ?_⟩
  intro i t hit
  rw [List.getElem?_ofFn] at hit
  split at hit
  · rename_i hi
    cases hit
    exact hT i hi
  · cases hit

/-- the same on a ring -/
theorem ringTimes_exist (hg : DistinctIds g) (h : buildExtGraph g routes sPTP freq = .ok x) {k : Nat} {r : Route K}
    (hk : routes[k]? = some r) (hc : r.type = .circular) (d : Dir) (hst : ∀ a ∈ r.stopsOf d, ∃ c ∈ g.nodes, c.id = a) :
    ∃ ts, RingTimes x r k d ts := by
  have hw : ∀ i, i < (r.stopsOf d).length → i ≠ 0 → ∃ p : RouteNode K, p.Wanted g routes ∧ p.ridx = k ∧ p.dir = d ∧
      p.pos = i ∧ p.route = r := by
    intro i hi h0
    obtain ⟨c, hcg, hid⟩ := hst _ (List.getElem_mem hi)
    obtain ⟨j, hj⟩ := List.mem_iff_getElem?.1 hcg
    exact ⟨⟨k, r, d, i, ⟨r.mode, ⟨j, c⟩⟩⟩, ⟨hk, ⟨by rw [List.getElem?_eq_getElem hi, ← hid], fun _ => h0⟩, rfl, hj⟩,
      rfl, rfl, rfl, rfl⟩
  have he : ∀ i, i < (r.stopsOf d).length - 1 → ∃ t, ∃ e ∈ x.edges, ∃ p n : RouteNode K, e.i = .route p ∧ e.j = .route n ∧
      e.t = t ∧ p.ridx = k ∧ n.ridx = k ∧ p.dir = d ∧ n.dir = d ∧ n.pos = i + 1 := by
    intro i hi
    obtain ⟨p, hp, p1, p2, p3, p4⟩ := hw (if i = 0 then (r.stopsOf d).length - 1 else i) (by split <;> omega)
      (by split <;> omega)
    obtain ⟨n, hn, n1, n2, n3, n4⟩ := hw (i + 1) (by omega) (by omega)
    obtain ⟨e, ⟨h1, h2, h3⟩, _⟩ := (C36_route_edges hg h).2 p n hp hn ⟨by rw [p1, n1], by rw [p2, n2], by
      unfold Route.stopBefore
      rw [n4, if_pos hc, n3, n2, p3]
      by_cases h0 : i = 0
      · simp [h0]
      · simp [h0]⟩
    exact ⟨e.t, e, h1, p, n, h2, h3, rfl, p1, n1, p2, n2, n3⟩
  choose T hT using he
  refine ⟨List.ofFn fun i : Fin ((r.stopsOf d).length - 1) => T i i.2, by simp, ?_⟩
  intro i t hit
  rw [List.getElem?_ofFn] at hit
  split at hit
  · rename_i hi
    cases hit
    exact hT i hi
  · cases hit

/-- a ride runs between two places of the way -/
theorem ride_place (hg : DistinctIds g) (h : buildExtGraph g routes sPTP freq = .ok x) {k : Nat} {r : Route K}
    (hk : routes[k]? = some r) {d : Dir} {A : List (Node K)} (hA : ∀ a ∈ A, a ∈ g.nodes) (hAr : A.map Node.id = r.nodesOf d)
    {ts : List K} (hts : RideTimes x r k d ts)
    {i : Nat} {t : K} {na nb : Node K} {pre ns post : List (Node K)} (hi : ts[i]? = some t)
    (hS : (r.stopsOf d)[i]? = some na.id) (hS' : (r.stopsOf d)[i + 1]? = some nb.id)
    (hsplit : A = pre ++ na :: (ns ++ nb :: post)) :
    ∃ (e : EEdge K) (p n : RouteNode K), e ∈ x.edges ∧ e.i = .route p ∧ e.j = .route n ∧ e.t = t ∧
      p.stop.city.node = na ∧ n.stop.city.node = nb ∧ n.stop.mode = r.mode ∧ n.route = r ∧ n.dir = d ∧
      n.route.nodesOf n.dir = pre.map Node.id ++ p.stop.city.node.id :: (ns.map Node.id ++ n.stop.city.node.id :: post.map Node.id) := by
  obtain ⟨e, he, p, n, h1, h2, h3, p1, n1, p2, n2, p3, n3⟩ := hts.each i t hi
  obtain ⟨hp, hn, _⟩ := ride_ends hg h he h1 h2
  have hpr : p.route = r := by
    have := hp.1
    rw [p1, hk] at this
    exact (Option.some.inj this).symm
  have hnr : n.route = r := by
    have := hn.1
    rw [n1, hk] at this
    exact (Option.some.inj this).symm
  have hna : p.stop.city.node = na := by
    have h4 := hp.2.1.1
    rw [hpr, p2, p3, hS] at h4
    exact (node_of_id hg (hA na (by rw [hsplit]; simp)) (List.mem_of_getElem? hp.2.2.2) (Option.some.inj h4)).symm
  have hnb : n.stop.city.node = nb := by
    have h4 := hn.2.1.1
    rw [hnr, n2, n3, hS'] at h4
    exact (node_of_id hg (hA nb (by rw [hsplit]; simp)) (List.mem_of_getElem? hn.2.2.2) (Option.some.inj h4)).symm
  refine ⟨e, p, n, he, h1, h2, h3, hna, hnb, by rw [hn.2.2.1, hnr], hnr, n2, ?_⟩
  rw [hnr, n2, ← hAr, hsplit, hna, hnb]
  simp

end Edges

section Table

variable {K : Type} [Field K] [LinearOrder K] [IsStrictOrderedRing K] [PyMath K]

/-- the table of distances knows the streets only -/
theorem lookup_offStreets {g : Graph K} {n : Nat} (hs : CityShape g n) (hd : DistinctIds g) {A : List (Node K)}
    (hA : ∀ a ∈ A, a ∈ g.nodes) :
    ((pairs (A.map Node.id)).map fun p => (lookup2 g.edgesDistance p.1 p.2).getD 0).sum + offStreets g A = travelled A := by
  induction A with
  | nil => simp [travelled, offStreets, pairs]
  | cons a t ih =>
    cases t with
    | nil => simp [travelled, offStreets, pairs]
    | cons b t =>
      have ha := hA a (List.mem_cons_self ..)
      have hb := hA b (List.mem_cons_of_mem _ (List.mem_cons_self ..))
      have ih := ih fun c hc => hA c (List.mem_cons_of_mem _ hc)
      have h1 : (lookup2 g.edgesDistance a.id b.id).getD 0 + (if g.edgeExist a.id b.id then 0 else nodeDistance a b) =
          nodeDistance a b := by
        by_cases hab : g.edgeExist a.id b.id = true
        · rw [(edgesDistance_iff hs hd ha hb _).2 ⟨(edgeExist_iff hs hd ha hb).1 hab, rfl⟩, if_pos hab, add_zero]
          rfl
        · rw [if_neg hab]
          cases hl : lookup2 g.edgesDistance a.id b.id with
          | none => exact zero_add _
          | some v => exact absurd ((edgeExist_iff hs hd ha hb).2 ((edgesDistance_iff hs hd ha hb v).1 hl).1) hab
      have e1 : offStreets g (a :: b :: t) = (if g.edgeExist a.id b.id then 0 else nodeDistance a b) + offStreets g (b :: t) := by
        simp [offStreets, pairs]
      rw [e1, travelled_cons_cons, ← ih]
      simp only [List.map_cons, pairs, List.sum_cons]
      linear_combination h1

end Table

end Sidermit
