import Verif.Spec.ExtGraph
import Verif.Proofs.Dict
import Verif.Proofs.PyLemmas
import Verif.Proofs.Network

set_option linter.unusedSectionVars false
set_option linter.unusedSimpArgs false
set_option linter.unusedVariables false

namespace Sidermit

/-! ### grouping into a nested dictionary -/

section Group

variable {α β γ : Type} [DecidableEq α] [DecidableEq β]

/-- all keys and inner keys are different, and inner lists are never empty -/
structure GroupOk (t : Dict α (Dict β (List γ))) : Prop where
  keys : (Dict.keys t).Nodup
  inner : ∀ p ∈ t, (Dict.keys p.2).Nodup

theorem flat_set_perm (d : Dict β (List γ)) (hn : (Dict.keys d).Nodup) (b : β) (x : γ) :
    ((d.set b (d.getD b [] ++ [x])).flatMap fun q => q.2).Perm ((d.flatMap fun q => q.2) ++ [x]) := by
  induction d with
  | nil => simp [Dict.set, Dict.getD]
  | cons p t ih =>
    obtain ⟨k, v⟩ := p
    simp only [Dict.keys, List.map_cons, List.nodup_cons] at hn
    by_cases h : k = b
    · subst h
      simp only [Dict.set, Dict.getD, Dict.get?, if_true, List.flatMap_cons, Option.getD_some, List.append_assoc]
      exact List.Perm.append_left _ List.perm_append_comm
    · simp only [Dict.set, Dict.getD, Dict.get?, h, if_false, List.flatMap_cons, List.append_assoc]
      exact List.Perm.append_left _ (ih hn.2)

theorem flat_setCell_perm (t : Dict α (Dict β (List γ))) (ht : GroupOk t) (a : α) (b : β) (x : γ) :
    ((setCell t a b ((t.getD a []).getD b [] ++ [x])).flatMap fun p => p.2.flatMap fun q => q.2).Perm
      ((t.flatMap fun p => p.2.flatMap fun q => q.2) ++ [x]) := by
  unfold setCell
  induction t with
  | nil => simp [Dict.set, Dict.getD]
  | cons p t ih =>
    obtain ⟨k, v⟩ := p
    have hk := ht.keys
    simp only [Dict.keys, List.map_cons, List.nodup_cons] at hk
    have hv := ht.inner (k, v) List.mem_cons_self
    by_cases h : k = a
    · subst h
      simp only [Dict.set, Dict.getD, Dict.get?, if_true, List.flatMap_cons, Option.getD_some, List.append_assoc]
      have := (flat_set_perm v hv b x)
      simp only [Dict.getD] at this
      refine (this.append_right _).trans ?_
      rw [List.append_assoc]
      exact List.Perm.append_left _ List.perm_append_comm
    · simp only [Dict.set, Dict.getD, Dict.get?, h, if_false, List.flatMap_cons, List.append_assoc]
      exact List.Perm.append_left _ (ih ⟨hk.2, fun p hp => ht.inner p (List.mem_cons_of_mem _ hp)⟩)

/-- the pairs of keys of a nested dictionary, in order -/
def keys2 (t : Dict α (Dict β γ)) : List (α × β) := t.flatMap fun p => (Dict.keys p.2).map fun b => (p.1, b)

theorem mem_keys2 (t : Dict α (Dict β γ)) (hn : (Dict.keys t).Nodup) (a : α) (b : β) :
    (a, b) ∈ keys2 t ↔ ∃ v, lookup2 t a b = some v := by
  unfold keys2 lookup2
  simp only [List.mem_flatMap, List.mem_map, Prod.mk.injEq]
  constructor
  · rintro ⟨p, hp, b', hb', rfl, rfl⟩
    have := Dict.get?_of_mem t hn (k := p.1) (v := p.2) (by simpa using hp)
    rw [this]
    simpa using (Dict.mem_keys_iff _ _).1 hb'
  · rintro ⟨v, hv⟩
    cases hg : t.get? a with
    | none => simp [hg] at hv
    | some r =>
      simp only [hg, Option.bind_some] at hv
      exact ⟨(a, r), Dict.mem_of_get? t hg, b, (Dict.mem_keys_iff _ _).2 ⟨v, hv⟩, rfl, rfl⟩

omit [DecidableEq β] in
theorem mem_set {d : Dict α β} {k : α} {v : β} {p : α × β} (h : p ∈ d.set k v) : p ∈ d ∨ p = (k, v) := by
  induction d with
  | nil => simpa [Dict.set] using h
  | cons q t ih =>
    obtain ⟨k', v'⟩ := q
    by_cases hk : k' = k
    · simp only [Dict.set, hk, if_true, List.mem_cons] at h
      rcases h with h | h
      · exact Or.inr h
      · exact Or.inl (List.mem_cons_of_mem _ h)
    · simp only [Dict.set, hk, if_false, List.mem_cons] at h
      rcases h with h | h
      · exact Or.inl (by simp [h])
      · rcases ih h with h | h
        · exact Or.inl (List.mem_cons_of_mem _ h)
        · exact Or.inr h

theorem getD_inner_nodup {t : Dict α (Dict β γ)} (h : ∀ p ∈ t, (Dict.keys p.2).Nodup) (a : α) :
    (Dict.keys (t.getD a [])).Nodup := by
  unfold Dict.getD
  cases hg : t.get? a with
  | none => simp [Dict.keys]
  | some r => exact h _ (Dict.mem_of_get? t hg)

theorem setCell_keys_nodup {t : Dict α (Dict β γ)} (h : (Dict.keys t).Nodup) (a : α) (b : β) (v : γ) :
    (Dict.keys (setCell t a b v)).Nodup := Dict.nodup_keys_set _ _ _ h

theorem setCell_inner_nodup {t : Dict α (Dict β γ)} (h : ∀ p ∈ t, (Dict.keys p.2).Nodup) (a : α) (b : β) (v : γ) :
    ∀ p ∈ setCell t a b v, (Dict.keys p.2).Nodup := by
  intro p hp
  rcases mem_set hp with hp | rfl
  · exact h p hp
  · exact Dict.nodup_keys_set _ _ _ (getD_inner_nodup h a)

theorem nodup_keys2 {t : Dict α (Dict β γ)} (h : (Dict.keys t).Nodup) (hi : ∀ p ∈ t, (Dict.keys p.2).Nodup) :
    (keys2 t).Nodup := by
  unfold keys2
  rw [List.nodup_flatMap]
  refine ⟨fun p hp => (hi p hp).map (fun a b h => by simpa using h), ?_⟩
  have : t.Pairwise (fun p q => p.1 ≠ q.1) := by
    unfold Dict.keys List.Nodup at h
    rwa [List.pairwise_map] at h
  refine this.imp ?_
  intro p q hpq x hx hy
  simp only [List.mem_map] at hx hy
  obtain ⟨_, _, rfl⟩ := hx
  obtain ⟨_, _, hy⟩ := hy
  exact hpq (congrArg Prod.fst hy).symm

end Group

/-! ### cities and stops -/

section Nodes

variable {K : Type} [DecidableEq K]

theorem mem_buildCityNodes (g : Graph K) (c : CityNode K) : c ∈ buildCityNodes g ↔ c.In g := by
  unfold buildCityNodes CityNode.In
  simp only [List.mem_map, Prod.exists]
  constructor
  · rintro ⟨n, i, h, rfl⟩
    exact (List.mk_mem_zipIdx_iff_getElem? ..).1 h
  · intro h
    exact ⟨c.node, c.idx, (List.mk_mem_zipIdx_iff_getElem? ..).2 h, rfl⟩

/-- city nodes with different ids are told apart by their ids -/
theorem CityNode.In.ext {g : Graph K} (hg : DistinctIds g) {c c' : CityNode K} (h : c.In g) (h' : c'.In g)
    (hid : c.node.id = c'.node.id) : c = c' := by
  unfold CityNode.In at h h'
  have hi : (g.nodes.map Node.id)[c.idx]? = some c.node.id := by simp [h]
  have hi' : (g.nodes.map Node.id)[c'.idx]? = some c'.node.id := by simp [h']
  obtain ⟨h1, e1⟩ := List.getElem?_eq_some_iff.1 hi
  obtain ⟨h2, e2⟩ := List.getElem?_eq_some_iff.1 hi'
  have : c.idx = c'.idx := by
    have := (List.Nodup.getElem_inj_iff hg (hi := h1) (hj := h2)).1 (by rw [e1, e2, hid])
    exact this
  have h3 : c.node = c'.node := by
    rw [this, h'] at h
    exact (Option.some.inj h).symm
  cases c; cases c'
  simp_all

/-- the tree has distinct keys and a cell for exactly the given pairs -/
structure TreeInv (P : CityNode K → Mode K → Prop) (t : TreeGraph K) : Prop where
  keys : (Dict.keys t).Nodup
  inner : ∀ p ∈ t, (Dict.keys p.2).Nodup
  cells : ∀ c m, (∃ v, lookup2 t c m = some v) ↔ P c m

theorem TreeInv.congr {P Q : CityNode K → Mode K → Prop} {t : TreeGraph K} (h : TreeInv P t)
    (hpq : ∀ c m, P c m ↔ Q c m) : TreeInv Q t :=
  ⟨h.keys, h.inner, fun c m => (h.cells c m).trans (hpq c m)⟩

theorem treeAdd_inv {P : CityNode K → Mode K → Prop} {t : TreeGraph K} (h : TreeInv P t) (c : CityNode K)
    (r : Route K) (d : Dir) : TreeInv (fun c' m' => P c' m' ∨ (c' = c ∧ m' = r.mode)) (treeAdd c r d t) := by
  unfold treeAdd
  split
  · rename_i hc
    refine h.congr fun c' m' => ⟨Or.inl, ?_⟩
    rintro (h' | ⟨rfl, rfl⟩)
    · exact h'
    · rw [← h.cells]
      have := hc.2
      unfold lookup2
      unfold Dict.getD at this
      cases hg : Dict.get? t c' with
      | none => simp [hg] at this
      | some w =>
        simp only [hg, Option.getD_some] at this
        cases hw : Dict.get? w r.mode with
        | none => simp [hw] at this
        | some v => exact ⟨v, by simp [hw]⟩
  · refine ⟨setCell_keys_nodup h.keys _ _ _, setCell_inner_nodup h.inner _ _ _, fun c' m' => ?_⟩
    rw [lookup2_setCell]
    split
    · rename_i hc; simp [hc]
    · rename_i hc; rw [h.cells]; simp [hc]

theorem treeStops_inv {P : CityNode K → Mode K → Prop} {t : TreeGraph K} (h : TreeInv P t) (c : CityNode K)
    (r : Route K) (d : Dir) :
    TreeInv (fun c' m' => P c' m' ∨ (c' = c ∧ m' = r.mode ∧ c.node.id ∈ r.stopsOf d)) (treeStops c r d t) := by
  unfold treeStops
  generalize r.stopsOf d = l
  induction l generalizing P t with
  | nil => exact h.congr (by simp)
  | cons a l ih =>
    rw [List.foldl_cons]
    split
    · rename_i hc
      refine (ih (treeAdd_inv h c r d)).congr fun c' m' => ?_
      simp only [List.mem_cons, hc, true_or, and_true]
      tauto
    · rename_i hc
      refine (ih h).congr fun c' m' => ?_
      simp [List.mem_cons, hc]

theorem treeRoute_inv {P : CityNode K → Mode K → Prop} {t : TreeGraph K} (h : TreeInv P t) (c : CityNode K)
    (r : Route K) :
    TreeInv (fun c' m' => P c' m' ∨ (c' = c ∧ m' = r.mode ∧ ∃ d, c.node.id ∈ r.stopsOf d)) (treeRoute c t r) := by
  unfold treeRoute
  refine (treeStops_inv (treeStops_inv h c r .I) c r .R).congr fun c' m' => ?_
  have : (∃ d, c.node.id ∈ r.stopsOf d) ↔ c.node.id ∈ r.stopsOf .I ∨ c.node.id ∈ r.stopsOf .R := by
    constructor
    · rintro ⟨d, hd⟩; cases d <;> simp [hd]
    · rintro (h | h); exacts [⟨_, h⟩, ⟨_, h⟩]
  rw [this]; tauto

theorem treeRoutes_inv {P : CityNode K → Mode K → Prop} {t : TreeGraph K} (h : TreeInv P t) (c : CityNode K)
    (routes : List (Route K)) :
    TreeInv (fun c' m' => P c' m' ∨ (c' = c ∧ ∃ r ∈ routes, m' = r.mode ∧ ∃ d, c.node.id ∈ r.stopsOf d))
      (routes.foldl (treeRoute c) t) := by
  induction routes generalizing P t with
  | nil => exact h.congr (by simp)
  | cons r l ih =>
    rw [List.foldl_cons]
    refine (ih (treeRoute_inv h c r)).congr fun c' m' => ?_
    simp only [List.mem_cons, exists_eq_or_imp]
    tauto

theorem buildTree_inv (cities : List (CityNode K)) (routes : List (Route K)) :
    TreeInv (fun c m => c ∈ cities ∧ ∃ r ∈ routes, m = r.mode ∧ ∃ d, c.node.id ∈ r.stopsOf d)
      (buildTreeGraph routes cities) := by
  unfold buildTreeGraph
  suffices h : ∀ (P : CityNode K → Mode K → Prop) (t : TreeGraph K), TreeInv P t →
      TreeInv (fun c m => P c m ∨ (c ∈ cities ∧ ∃ r ∈ routes, m = r.mode ∧ ∃ d, c.node.id ∈ r.stopsOf d))
        (cities.foldl (fun tree c => routes.foldl (treeRoute c) tree) t) by
    refine (h (fun _ _ => False) [] ⟨by simp [Dict.keys], by simp, by simp [lookup2]⟩).congr (by simp)
  induction cities with
  | nil => intro P t h; exact h.congr (by simp)
  | cons c l ih =>
    intro P t h
    rw [List.foldl_cons]
    refine (ih _ _ (treeRoutes_inv h c routes)).congr fun c' m' => ?_
    simp only [List.mem_cons]
    constructor
    · rintro ((h | ⟨rfl, h⟩) | h)
      exacts [Or.inl h, Or.inr ⟨Or.inl rfl, h⟩, Or.inr ⟨Or.inr h.1, h.2⟩]
    · rintro (h | ⟨rfl | h, h'⟩)
      exacts [Or.inl (Or.inl h), Or.inl (Or.inr ⟨rfl, h'⟩), Or.inr ⟨h, h'⟩]

theorem addStop_foldl (c : CityNode K) (ms : List (Mode K)) (stops : List (StopNode K)) (hn : stops.Nodup) :
    (ms.foldl (addStop c) stops).Nodup ∧
      ∀ s, s ∈ ms.foldl (addStop c) stops ↔ s ∈ stops ∨ (s.city = c ∧ s.mode ∈ ms) := by
  induction ms generalizing stops with
  | nil => simp [hn]
  | cons m l ih =>
    rw [List.foldl_cons]
    have h1 : (addStop c stops m).Nodup := by
      unfold addStop
      split
      · exact hn
      · rename_i h
        rw [List.nodup_append]
        exact ⟨hn, by simp, fun a ha b hb hab => h (by
          rw [List.mem_singleton] at hb
          rw [← hb, ← hab]; exact ha)⟩
    refine ⟨(ih _ h1).1, fun s => ?_⟩
    rw [(ih _ h1).2]
    have h2 : s ∈ addStop c stops m ↔ s ∈ stops ∨ (s.city = c ∧ s.mode = m) := by
      have he : s = (⟨m, c⟩ : StopNode K) ↔ s.city = c ∧ s.mode = m := by
        cases s; simp; tauto
      unfold addStop
      split
      · rename_i h
        rw [← he]
        exact ⟨Or.inl, fun h' => h'.elim id (fun h' => h' ▸ h)⟩
      · rw [List.mem_append, List.mem_singleton, he]
    rw [h2, List.mem_cons]
    tauto

theorem buildStopNodes_spec (tree : TreeGraph K) (hn : (Dict.keys tree).Nodup) :
    (buildStopNodes tree).Nodup ∧
      ∀ s, s ∈ buildStopNodes tree ↔ ∃ v, lookup2 tree s.city s.mode = some v := by
  have key : ∀ (tree : TreeGraph K) (stops : List (StopNode K)), stops.Nodup →
      (tree.foldl (fun stops p => (Dict.keys p.2).foldl (addStop p.1) stops) stops).Nodup ∧
      ∀ s, s ∈ tree.foldl (fun stops p => (Dict.keys p.2).foldl (addStop p.1) stops) stops ↔
        s ∈ stops ∨ (s.city, s.mode) ∈ keys2 tree := by
    intro tree
    induction tree with
    | nil => intro stops h; simp [h, keys2]
    | cons p t ih =>
      intro stops h
      rw [List.foldl_cons]
      obtain ⟨h1, h2⟩ := addStop_foldl p.1 (Dict.keys p.2) stops h
      refine ⟨(ih _ h1).1, fun s => ?_⟩
      rw [(ih _ h1).2, h2]
      unfold keys2
      simp only [List.flatMap_cons, List.mem_append, List.mem_map, Prod.mk.injEq]
      constructor
      · rintro ((h | h) | h)
        exacts [Or.inl h, Or.inr (Or.inl ⟨_, h.2, h.1.symm, rfl⟩), Or.inr (Or.inr h)]
      · rintro (h | ⟨_, h, h', rfl⟩ | h)
        exacts [Or.inl (Or.inl h), Or.inl (Or.inr ⟨h'.symm, h⟩), Or.inr h]
  unfold buildStopNodes
  refine ⟨(key tree [] List.nodup_nil).1, fun s => ?_⟩
  rw [(key tree [] List.nodup_nil).2, mem_keys2 tree hn]
  simp

/-- the stop nodes before circular routes drop their first stop -/
theorem mem_stopNodes (g : Graph K) (routes : List (Route K)) (s : StopNode K) :
    s ∈ buildStopNodes (buildTreeGraph routes (buildCityNodes g)) ↔
      s.city.In g ∧ ∃ r ∈ routes, r.mode = s.mode ∧ ∃ d, s.city.node.id ∈ r.stopsOf d := by
  have h := buildTree_inv (buildCityNodes g) routes
  rw [(buildStopNodes_spec _ h.keys).2, h.cells, mem_buildCityNodes]
  simp only [eq_comm]

theorem stopFor_some {stops : List (StopNode K)} {m : Mode K} {id : Int} {s : StopNode K}
    (h : stopFor stops m id = some s) : s ∈ stops ∧ s.mode = m ∧ s.city.node.id = id := by
  unfold stopFor at h
  exact ⟨List.mem_of_find?_eq_some h, by simpa using List.find?_some h⟩

theorem mapM_forall₂ {α β : Type} (f : α → Py β) (l : List α) (r : List β) :
    l.mapM f = .ok r ↔ List.Forall₂ (fun a b => f a = .ok b) l r := by
  induction l generalizing r with
  | nil => rw [mapM_nil]; cases r <;> simp
  | cons a t ih =>
    rw [mapM_cons]
    simp only [py_bind_eq_ok]
    constructor
    · rintro ⟨b, hb, bs, hbs, h⟩
      cases h
      exact List.Forall₂.cons hb ((ih _).1 hbs)
    · intro h
      cases h with
      | cons hb ht => exact ⟨_, hb, _, (ih _).2 ht, rfl⟩

/-- position of the first stop of a direction that has a route node -/
def firstKept (r : Route K) : Nat := if r.type = .circular then 1 else 0

theorem keptStops_get (r : Route K) (d : Dir) (k : Nat) :
    (keptStops r d)[k]? = ((r.stopsOf d)[k + firstKept r]?).map fun id => (id, k + firstKept r) := by
  unfold keptStops firstKept
  split
  · rw [List.getElem?_drop, List.getElem?_zipIdx]
    simp [Nat.add_comm]
  · rw [List.getElem?_zipIdx]; simp

theorem keptStops_length (r : Route K) (d : Dir) : (keptStops r d).length = (r.stopsOf d).length - firstKept r := by
  unfold keptStops firstKept
  split <;> simp

/-- what the route nodes of one direction are -/
structure DirSpec (stops : List (StopNode K)) (ridx : Nat) (r : Route K) (d : Dir) (l : List (RouteEntry K)) : Prop where
  owner : ∀ e ∈ l, e.node.ridx = ridx ∧ e.node.route = r ∧ e.node.dir = d
  pos : l.map (fun e => e.node.pos) = List.range' (firstKept r) (l.length)
  all : ∀ i id, r.NodeAt d i id → ∃ e ∈ l, e.node.pos = i
  at_ : ∀ e ∈ l, r.NodeAt d e.node.pos e.node.stop.city.node.id
  stop : ∀ e ∈ l, e.node.stop ∈ stops ∧ e.node.stop.mode = r.mode
  prev : ∀ e ∈ l, ∀ p, e.prev = some p → (∃ e' ∈ l, e'.node = p) ∧ r.stopBefore d e.node.pos = some p.pos
  noprev : ∀ e ∈ l, e.prev = none → r.stopBefore d e.node.pos = none

theorem directionNodes_spec {stops : List (StopNode K)} {ridx : Nat} {r : Route K} {d : Dir} {l : List (RouteEntry K)}
    (h : directionNodes stops ridx r d = .ok l) : DirSpec stops ridx r d l := by
  unfold directionNodes at h
  rw [py_bind_eq_ok] at h
  obtain ⟨ns, hns, h⟩ := h
  rw [mapM_forall₂] at hns
  have hlen : ns.length = (r.stopsOf d).length - firstKept r := by rw [← hns.length_eq, keptStops_length]
  have hget : ∀ (k : Nat) n, ns[k]? = some n → n.ridx = ridx ∧ n.route = r ∧ n.dir = d ∧ n.pos = k + firstKept r ∧
      (r.stopsOf d)[k + firstKept r]? = some n.stop.city.node.id ∧ n.stop ∈ stops ∧ n.stop.mode = r.mode := by
    intro k n hk
    obtain ⟨hk1, hk2⟩ := List.getElem?_eq_some_iff.1 hk
    have hk0 : k < (keptStops r d).length := by rw [hns.length_eq]; exact hk1
    have := (List.forall₂_iff_get.1 hns).2 k hk0 hk1
    simp only [List.get_eq_getElem, hk2] at this
    have hks := keptStops_get r d k
    rw [List.getElem?_eq_getElem hk0] at hks
    cases hs : (r.stopsOf d)[k + firstKept r]? with
    | none => simp [hs] at hks
    | some id =>
      simp only [hs, Option.map_some, Option.some.injEq] at hks
      rw [hks] at this
      unfold mkRouteNode at this
      cases hf : stopFor stops r.mode id with
      | none => simp [hf] at this
      | some s =>
        simp only [hf, Except.ok.injEq] at this
        obtain ⟨h1, h2, h3⟩ := stopFor_some hf
        subst this
        exact ⟨rfl, rfl, rfl, rfl, by simp [h3], h1, h2⟩
  simp only [py_pure, Except.ok.injEq] at h
  have hl : l.length = ns.length := by rw [← h]; simp
  have hl' : ∀ (k : Nat) e, l[k]? = some e ↔ ns[k]? = some e.node ∧
      e.prev = if k = 0 then (if r.type = .circular then ns.getLast? else none) else ns[k - 1]? := by
    intro k e
    rw [← h, List.getElem?_zipWith_eq_some]
    constructor
    · rintro ⟨a, b, ha, hb, rfl⟩
      refine ⟨ha, ?_⟩
      cases k with
      | zero => simpa using hb.symm
      | succ k =>
        simp only [List.getElem?_cons_succ, List.getElem?_map, Option.map_eq_some_iff] at hb
        obtain ⟨x, hx, rfl⟩ := hb
        simp [hx]
    · rintro ⟨ha, hb⟩
      refine ⟨e.node, e.prev, ha, ?_, rfl⟩
      rw [hb]
      cases k with
      | zero => simp
      | succ k =>
        have hk1 := (List.getElem?_eq_some_iff.1 ha).1
        have : k < ns.length := by omega
        simp [this]
  have hmem : ∀ e ∈ l, ∃ k : Nat, l[k]? = some e := fun e he => List.mem_iff_getElem?.1 he
  have hnsl : ∀ (k : Nat) n, ns[k]? = some n → ∃ e ∈ l, e.node = n := by
    intro k n hk
    exact ⟨⟨n, _⟩, List.mem_iff_getElem?.2 ⟨k, (hl' k ⟨n, _⟩).2 ⟨hk, rfl⟩⟩, rfl⟩
  refine ⟨?_, ?_, ?_, ?_, ?_, ?_, ?_⟩
  · intro e he
    obtain ⟨k, hk⟩ := hmem e he
    have := hget k _ ((hl' k e).1 hk).1
    exact ⟨this.1, this.2.1, this.2.2.1⟩
  · apply List.ext_getElem?
    intro k
    by_cases hk : k < l.length
    · have h1 := List.getElem?_eq_getElem hk
      have := hget k _ ((hl' k _).1 h1).1
      rw [List.getElem?_map, h1, List.getElem?_range' hk]
      simp [this.2.2.2.1, Nat.add_comm]
    · rw [List.getElem?_eq_none (by simpa using hk), List.getElem?_eq_none (by simpa using hk)]
  · rintro i id ⟨hi, hc⟩
    have hi1 := (List.getElem?_eq_some_iff.1 hi).1
    have hfk : firstKept r ≤ i := by
      unfold firstKept
      split
      · rename_i h'; have := hc h'; omega
      · omega
    have : i - firstKept r < ns.length := by omega
    obtain ⟨e, he, hen⟩ := hnsl _ _ (List.getElem?_eq_getElem this)
    refine ⟨e, he, ?_⟩
    have := (hget _ _ (List.getElem?_eq_getElem this)).2.2.2.1
    rw [hen, this]; omega
  · intro e he
    obtain ⟨k, hk⟩ := hmem e he
    have := hget k _ ((hl' k e).1 hk).1
    refine ⟨by rw [this.2.2.2.1]; exact this.2.2.2.2.1, fun hc => ?_⟩
    rw [this.2.2.2.1]; unfold firstKept; simp [hc]
  · intro e he
    obtain ⟨k, hk⟩ := hmem e he
    exact (hget k _ ((hl' k e).1 hk).1).2.2.2.2.2
  · intro e he p hp
    obtain ⟨k, hk⟩ := hmem e he
    obtain ⟨h1, h2⟩ := (hl' k e).1 hk
    have hpos := (hget k _ h1).2.2.2.1
    have hk1 := (List.getElem?_eq_some_iff.1 h1).1
    rw [hp] at h2
    unfold Route.stopBefore
    by_cases hk0 : k = 0
    · subst hk0
      simp only [if_true] at h2
      by_cases hc : r.type = .circular
      · rw [if_pos hc, eq_comm, List.getLast?_eq_getElem?] at h2
        refine ⟨hnsl _ _ h2, ?_⟩
        have := (hget _ _ h2).2.2.2.1
        have hfk : firstKept r = 1 := by unfold firstKept; simp [hc]
        rw [if_pos hc, hpos, this]
        simp [hfk]; omega
      · simp [hc] at h2
    · rw [if_neg hk0, eq_comm] at h2
      refine ⟨hnsl _ _ h2, ?_⟩
      have := (hget _ _ h2).2.2.2.1
      rw [hpos, this]
      unfold firstKept
      by_cases hc : r.type = .circular
      · simp [hc, hk0]; omega
      · simp [hc, hk0]
  · intro e he hp
    obtain ⟨k, hk⟩ := hmem e he
    obtain ⟨h1, h2⟩ := (hl' k e).1 hk
    have hpos := (hget k _ h1).2.2.2.1
    have hk1 := (List.getElem?_eq_some_iff.1 h1).1
    rw [hp] at h2
    unfold Route.stopBefore
    by_cases hk0 : k = 0
    · subst hk0
      simp only [if_true] at h2
      by_cases hc : r.type = .circular
      · rw [if_pos hc, eq_comm, List.getLast?_eq_none_iff] at h2
        rw [h2] at hk1; simp at hk1
      · simp [hc, hpos, firstKept]
    · rw [if_neg hk0, eq_comm, List.getElem?_eq_none_iff] at h2
      omega

theorem buildRouteNodes_dirs {routes : List (Route K)} {stops : List (StopNode K)} {entries : List (RouteEntry K)}
    (h : buildRouteNodes routes stops = .ok entries) :
    ∃ L : List (List (RouteEntry K) × List (RouteEntry K)), L.length = routes.length ∧
      entries = (L.map fun q => q.1 ++ q.2).flatten ∧
      ∀ (k : Nat) r q, routes[k]? = some r → L[k]? = some q → DirSpec stops k r .I q.1 ∧ DirSpec stops k r .R q.2 := by
  unfold buildRouteNodes at h
  rw [py_bind_eq_ok] at h
  obtain ⟨ls, hls, h⟩ := h
  simp only [py_pure, Except.ok.injEq] at h
  rw [mapM_forall₂, List.forall₂_iff_get] at hls
  obtain ⟨hlen, hls⟩ := hls
  have hlen' : routes.length = ls.length := by simpa using hlen
  have hex : ∀ k : Fin routes.length, ∃ q : List (RouteEntry K) × List (RouteEntry K),
      ls[k.1]? = some (q.1 ++ q.2) ∧ DirSpec stops k.1 routes[k.1] .I q.1 ∧ DirSpec stops k.1 routes[k.1] .R q.2 := by
    rintro ⟨k, hk⟩
    have hk2 : k < ls.length := by omega
    have := hls k (by simpa using hk) hk2
    simp only [List.get_eq_getElem, List.getElem_zipIdx, Nat.zero_add, routeNodesOf, py_bind_eq_ok, py_pure,
      Except.ok.injEq] at this
    obtain ⟨a, ha, b, hb, hab⟩ := this
    exact ⟨(a, b), by rw [List.getElem?_eq_getElem hk2, hab], directionNodes_spec ha, directionNodes_spec hb⟩
  choose q hq using hex
  refine ⟨List.ofFn q, by simp, ?_, ?_⟩
  · rw [← h]
    congr 1
    apply List.ext_getElem?
    intro k
    by_cases hk : k < routes.length
    · rw [(hq ⟨k, hk⟩).1, List.getElem?_map, List.getElem?_ofFn]
      simp [hk]
    · rw [List.getElem?_eq_none (by omega), List.getElem?_eq_none (by simp; omega)]
  · intro k r q' hr hq'
    obtain ⟨hk, hr⟩ := List.getElem?_eq_some_iff.1 hr
    rw [List.getElem?_ofFn] at hq'
    simp only [hk, dif_pos, Option.some.injEq] at hq'
    subst hr hq'
    exact (hq ⟨k, hk⟩).2

/-- what the list of all route nodes is -/
structure EntriesSpec (stops : List (StopNode K)) (routes : List (Route K)) (entries : List (RouteEntry K)) : Prop where
  nodup : (entries.map RouteEntry.node).Nodup
  owner : ∀ e ∈ entries, routes[e.node.ridx]? = some e.node.route
  inj : ∀ e ∈ entries, ∀ e' ∈ entries, e.node.ridx = e'.node.ridx → e.node.dir = e'.node.dir → e.node.pos = e'.node.pos → e = e'
  all : ∀ (k : Nat) r d i id, routes[k]? = some r → r.NodeAt d i id →
    ∃ e ∈ entries, e.node.ridx = k ∧ e.node.dir = d ∧ e.node.pos = i
  at_ : ∀ e ∈ entries, e.node.route.NodeAt e.node.dir e.node.pos e.node.stop.city.node.id
  stop : ∀ e ∈ entries, e.node.stop ∈ stops ∧ e.node.stop.mode = e.node.route.mode
  prev : ∀ e ∈ entries, ∀ p, e.prev = some p ↔ (∃ e' ∈ entries, e'.node = p) ∧ p.Precedes e.node

theorem buildRouteNodes_spec {routes : List (Route K)} {stops : List (StopNode K)} {entries : List (RouteEntry K)}
    (h : buildRouteNodes routes stops = .ok entries) : EntriesSpec stops routes entries := by
  obtain ⟨L, hlen, hE, hL⟩ := buildRouteNodes_dirs h
  -- every entry is in one direction of one route
  have hmem : ∀ e, e ∈ entries ↔ ∃ k r d l, routes[k]? = some r ∧ DirSpec stops k r d l ∧ e ∈ l ∧
      ((∃ q, L[k]? = some q ∧ l = match d with | .I => q.1 | .R => q.2)) := by
    intro e
    rw [hE, List.mem_flatten]
    constructor
    · rintro ⟨x, hx, he⟩
      obtain ⟨q, hq, rfl⟩ := List.mem_map.1 hx
      obtain ⟨k, hk⟩ := List.mem_iff_getElem?.1 hq
      have hk' : k < routes.length := by
        have := (List.getElem?_eq_some_iff.1 hk).1; omega
      have := hL k _ q (List.getElem?_eq_getElem hk') hk
      rcases List.mem_append.1 he with he | he
      · exact ⟨k, _, .I, q.1, List.getElem?_eq_getElem hk', this.1, he, q, hk, rfl⟩
      · exact ⟨k, _, .R, q.2, List.getElem?_eq_getElem hk', this.2, he, q, hk, rfl⟩
    · rintro ⟨k, r, d, l, _, _, he, q, hq, rfl⟩
      refine ⟨q.1 ++ q.2, List.mem_map.2 ⟨q, List.mem_iff_getElem?.2 ⟨k, hq⟩, rfl⟩, ?_⟩
      cases d <;> simp_all
  have hdet : ∀ (k : Nat) (r r' : Route K) (d : Dir) (l l' : List (RouteEntry K)), routes[k]? = some r → routes[k]? = some r' →
      (∃ q, L[k]? = some q ∧ l = match d with | .I => q.1 | .R => q.2) →
      (∃ q, L[k]? = some q ∧ l' = match d with | .I => q.1 | .R => q.2) → r = r' ∧ l = l' := by
    rintro k r r' d l l' h1 h2 ⟨q, hq, rfl⟩ ⟨q', hq', rfl⟩
    rw [h1] at h2; rw [hq] at hq'
    cases h2; cases hq'
    exact ⟨rfl, rfl⟩
  have hposinj : ∀ k r d l, DirSpec stops k r d l → ∀ e ∈ l, ∀ e' ∈ l, e.node.pos = e'.node.pos → e = e' := by
    intro k r d l hd e he e' he' hp
    have : (l.map fun e => e.node.pos).Nodup := by rw [hd.pos]; exact List.nodup_range'
    exact List.inj_on_of_nodup_map this he he' hp
  have hinj : ∀ e ∈ entries, ∀ e' ∈ entries, e.node.ridx = e'.node.ridx → e.node.dir = e'.node.dir →
      e.node.pos = e'.node.pos → e = e' := by
    intro e he e' he' h1 h2 h3
    obtain ⟨k, r, d, l, hr, hd, hel, hq⟩ := (hmem e).1 he
    obtain ⟨k', r', d', l', hr', hd', hel', hq'⟩ := (hmem e').1 he'
    obtain ⟨o1, o2, o3⟩ := hd.owner e hel
    obtain ⟨o1', o2', o3'⟩ := hd'.owner e' hel'
    have hk : k = k' := by rw [← o1, ← o1', h1]
    have hdd : d = d' := by rw [← o3, ← o3', h2]
    subst hk hdd
    obtain ⟨rfl, rfl⟩ := hdet _ _ _ _ _ _ hr hr' hq hq'
    exact hposinj _ _ _ _ hd e hel e' hel' h3
  refine ⟨?_, ?_, hinj, ?_, ?_, ?_, ?_⟩
  · -- no repetition
    rw [hE]
    have hnd : ∀ k r d l, DirSpec stops k r d l → (l.map RouteEntry.node).Nodup := by
      intro k r d l hd
      have : (l.map fun e => e.node.pos).Nodup := by rw [hd.pos]; exact List.nodup_range'
      have h2 : (l.map fun e => e.node.pos) = (l.map RouteEntry.node).map RouteNode.pos := by simp
      rw [h2] at this
      exact List.Nodup.of_map _ this
    rw [List.map_flatten, List.map_map, List.nodup_flatten]
    constructor
    · intro x hx
      obtain ⟨q, hq, rfl⟩ := List.mem_map.1 hx
      obtain ⟨k, hk⟩ := List.mem_iff_getElem?.1 hq
      have hk' : k < routes.length := by
        have := (List.getElem?_eq_some_iff.1 hk).1; omega
      have := hL k _ q (List.getElem?_eq_getElem hk') hk
      simp only [Function.comp, List.map_append]
      rw [List.nodup_append]
      refine ⟨hnd _ _ _ _ this.1, hnd _ _ _ _ this.2, ?_⟩
      intro a ha b hb hab
      obtain ⟨e, he, rfl⟩ := List.mem_map.1 ha
      obtain ⟨e', he', rfl⟩ := List.mem_map.1 hb
      have h1 := (this.1.owner e he).2.2
      have h2 := (this.2.owner e' he').2.2
      rw [hab, h2] at h1
      cases h1
    · rw [List.pairwise_map, List.pairwise_iff_getElem]
      intro i j hi hj hij
      have hi' : i < routes.length := by omega
      have hj' : j < routes.length := by omega
      have h1 := hL i _ _ (List.getElem?_eq_getElem hi') (List.getElem?_eq_getElem hi)
      have h2 := hL j _ _ (List.getElem?_eq_getElem hj') (List.getElem?_eq_getElem hj)
      intro a ha hb
      simp only [Function.comp, List.map_append, List.mem_append, List.mem_map] at ha hb
      have hia : a.ridx = i := by
        rcases ha with ⟨e, he, rfl⟩ | ⟨e, he, rfl⟩
        exacts [(h1.1.owner e he).1, (h1.2.owner e he).1]
      have hja : a.ridx = j := by
        rcases hb with ⟨e, he, rfl⟩ | ⟨e, he, rfl⟩
        exacts [(h2.1.owner e he).1, (h2.2.owner e he).1]
      omega
  · intro e he
    obtain ⟨k, r, d, l, hr, hd, hel, hq⟩ := (hmem e).1 he
    obtain ⟨o1, o2, o3⟩ := hd.owner e hel
    rw [o1, o2, hr]
  · intro k r d i id hr hn
    have hk : k < L.length := by rw [hlen]; exact (List.getElem?_eq_some_iff.1 hr).1
    have hLk := hL k r _ hr (List.getElem?_eq_getElem hk)
    cases d with
    | I =>
      obtain ⟨e, he, hp⟩ := hLk.1.all i id hn
      obtain ⟨o1, o2, o3⟩ := hLk.1.owner e he
      exact ⟨e, (hmem e).2 ⟨k, r, .I, _, hr, hLk.1, he, _, List.getElem?_eq_getElem hk, rfl⟩, o1, o3, hp⟩
    | R =>
      obtain ⟨e, he, hp⟩ := hLk.2.all i id hn
      obtain ⟨o1, o2, o3⟩ := hLk.2.owner e he
      exact ⟨e, (hmem e).2 ⟨k, r, .R, _, hr, hLk.2, he, _, List.getElem?_eq_getElem hk, rfl⟩, o1, o3, hp⟩
  · intro e he
    obtain ⟨k, r, d, l, hr, hd, hel, hq⟩ := (hmem e).1 he
    obtain ⟨o1, o2, o3⟩ := hd.owner e hel
    rw [o2, o3]; exact hd.at_ e hel
  · intro e he
    obtain ⟨k, r, d, l, hr, hd, hel, hq⟩ := (hmem e).1 he
    obtain ⟨o1, o2, o3⟩ := hd.owner e hel
    rw [o2]; exact hd.stop e hel
  · intro e he p
    obtain ⟨k, r, d, l, hr, hd, hel, hq⟩ := (hmem e).1 he
    obtain ⟨o1, o2, o3⟩ := hd.owner e hel
    have hfwd : ∀ p, e.prev = some p → (∃ e' ∈ entries, e'.node = p) ∧ p.Precedes e.node := by
      intro p hp
      obtain ⟨⟨e', he', hn⟩, hb⟩ := hd.prev e hel p hp
      obtain ⟨o1', o2', o3'⟩ := hd.owner e' he'
      refine ⟨⟨e', (hmem e').2 ⟨k, r, d, l, hr, hd, he', hq⟩, hn⟩, ?_, ?_, ?_⟩
      · rw [← hn, o1', o1]
      · rw [← hn, o3', o3]
      · rw [o2, o3]; exact hb
    refine ⟨hfwd p, ?_⟩
    rintro ⟨⟨e', he', rfl⟩, hp1, hp2, hp3⟩
    cases hprev : e.prev with
    | none =>
      have := hd.noprev e hel hprev
      rw [← o2, ← o3] at this
      rw [this] at hp3; cases hp3
    | some p' =>
      obtain ⟨⟨e'', he'', rfl⟩, q1, q2, q3⟩ := hfwd p' hprev
      rw [q3] at hp3
      have : e'' = e' := hinj e'' he'' e' he' (q1.trans hp1.symm) (q2.trans hp2.symm) (Option.some.inj hp3)
      rw [this]

/-- the dictionary of nodes: distinct keys, no empty list, each route node under its own stop, each stop under its own
city node, and nothing but the given route nodes -/
structure ENodesSpec (entries : List (RouteEntry K)) (nodes : ENodes K) : Prop where
  ok : GroupOk nodes
  perm : (entriesOf nodes).Perm entries
  city : ∀ p ∈ nodes, p.2 ≠ [] ∧ ∀ q ∈ p.2, q.1.city = p.1 ∧ q.2 ≠ [] ∧ ∀ e ∈ q.2, e.node.stop = q.1

theorem addRouteNode_spec {entries : List (RouteEntry K)} {nodes : ENodes K} (h : ENodesSpec entries nodes)
    (e : RouteEntry K) : ENodesSpec (entries ++ [e]) (addRouteNode nodes e) := by
  unfold addRouteNode
  refine ⟨⟨setCell_keys_nodup h.ok.keys _ _ _, setCell_inner_nodup h.ok.inner _ _ _⟩, ?_, ?_⟩
  · exact (flat_setCell_perm nodes h.ok _ _ e).trans (h.perm.append_right _)
  · intro p hp
    rcases mem_set hp with hp | rfl
    · exact h.city p hp
    · refine ⟨?_, ?_⟩
      · intro h0
        have := Dict.get?_set_self (nodes.getD e.node.stop.city []) e.node.stop
          (((nodes.getD e.node.stop.city []).getD e.node.stop []) ++ [e])
        simp only at h0
        rw [h0] at this
        simp at this
      · intro q hq
        have hin : ∀ q ∈ nodes.getD e.node.stop.city [], q.1.city = e.node.stop.city ∧ q.2 ≠ [] ∧
            ∀ e' ∈ q.2, e'.node.stop = q.1 := by
          intro q hq
          unfold Dict.getD at hq
          cases hg : Dict.get? nodes e.node.stop.city with
          | none => simp [hg] at hq
          | some w =>
            simp only [hg, Option.getD_some] at hq
            exact (h.city _ (Dict.mem_of_get? nodes hg)).2 q hq
        rcases mem_set hq with hq | rfl
        · exact hin q hq
        · refine ⟨rfl, by simp, fun e' he' => ?_⟩
          rcases List.mem_append.1 he' with he' | he'
          · generalize hw : nodes.getD e.node.stop.city [] = w at *
            unfold Dict.getD at he'
            cases hg : Dict.get? w e.node.stop with
            | none => simp [hg] at he'
            | some v =>
              simp only [hg, Option.getD_some] at he'
              exact (hin _ (Dict.mem_of_get? w hg)).2.2 e' he'
          · rw [List.mem_singleton] at he'; rw [he']

theorem buildExtendedNodes_spec (entries : List (RouteEntry K)) : ENodesSpec entries (buildExtendedNodes entries) := by
  unfold buildExtendedNodes
  suffices h : ∀ (l : List (RouteEntry K)) (done : List (RouteEntry K)) (nodes : ENodes K), ENodesSpec done nodes →
      ENodesSpec (done ++ l) (l.foldl addRouteNode nodes) by
    have := h entries [] [] ⟨⟨by simp [Dict.keys], by simp⟩, by simp [entriesOf], by simp⟩
    simpa using this
  intro l
  induction l with
  | nil => intro done nodes h; simpa using h
  | cons e l ih =>
    intro done nodes h
    rw [List.foldl_cons]
    have := ih _ _ (addRouteNode_spec h e)
    simpa using this

theorem ENodesSpec.mem_entries {entries : List (RouteEntry K)} {nodes : ENodes K} (h : ENodesSpec entries nodes)
    (e : RouteEntry K) : e ∈ entriesOf nodes ↔ e ∈ entries := h.perm.mem_iff

theorem ENodesSpec.mem_stops {entries : List (RouteEntry K)} {nodes : ENodes K} (h : ENodesSpec entries nodes)
    (s : StopNode K) : s ∈ stopsOf nodes ↔ ∃ e ∈ entries, e.node.stop = s := by
  unfold stopsOf
  simp only [List.mem_flatMap, Dict.keys, List.mem_map]
  constructor
  · rintro ⟨p, hp, q, hq, rfl⟩
    obtain ⟨h1, h2, h3⟩ := (h.city p hp).2 q hq
    obtain ⟨e, he⟩ := List.exists_mem_of_ne_nil _ h2
    refine ⟨e, ?_, h3 e he⟩
    rw [← h.mem_entries]
    exact List.mem_flatMap.2 ⟨p, hp, List.mem_flatMap.2 ⟨q, hq, he⟩⟩
  · rintro ⟨e, he, rfl⟩
    rw [← h.mem_entries] at he
    obtain ⟨p, hp, he⟩ := List.mem_flatMap.1 he
    obtain ⟨q, hq, he⟩ := List.mem_flatMap.1 he
    exact ⟨p, hp, q, hq, (((h.city p hp).2 q hq).2.2 e he).symm⟩

theorem ENodesSpec.mem_cities {entries : List (RouteEntry K)} {nodes : ENodes K} (h : ENodesSpec entries nodes)
    (c : CityNode K) : c ∈ Dict.keys nodes ↔ ∃ s ∈ stopsOf nodes, s.city = c := by
  unfold stopsOf
  simp only [List.mem_flatMap, Dict.keys, List.mem_map]
  constructor
  · rintro ⟨p, hp, rfl⟩
    obtain ⟨q, hq⟩ := List.exists_mem_of_ne_nil _ (h.city p hp).1
    exact ⟨q.1, ⟨p, hp, q, hq, rfl⟩, ((h.city p hp).2 q hq).1⟩
  · rintro ⟨s, ⟨p, hp, q, hq, rfl⟩, rfl⟩
    exact ⟨p, hp, ((h.city p hp).2 q hq).1.symm⟩

theorem ENodesSpec.nodup_stops {entries : List (RouteEntry K)} {nodes : ENodes K} (h : ENodesSpec entries nodes) :
    (stopsOf nodes).Nodup := by
  unfold stopsOf
  rw [List.nodup_flatMap]
  refine ⟨h.ok.inner, ?_⟩
  have : nodes.Pairwise (fun p q => p ∈ nodes ∧ q ∈ nodes ∧ p.1 ≠ q.1) := by
    have hk := h.ok.keys
    unfold Dict.keys List.Nodup at hk
    rw [List.pairwise_map] at hk
    exact hk.imp_of_mem (fun hp hq hpq => ⟨hp, hq, hpq⟩)
  refine this.imp ?_
  rintro p q ⟨hp, hq, hpq⟩ s hs hs'
  simp only [Dict.keys, List.mem_map] at hs hs'
  obtain ⟨x, hx, rfl⟩ := hs
  obtain ⟨y, hy, hxy⟩ := hs'
  have h1 := ((h.city p hp).2 x hx).1
  have h2 := ((h.city q hq).2 y hy).1
  rw [hxy] at h2
  exact hpq (h1.symm.trans h2)

end Nodes

end Sidermit
