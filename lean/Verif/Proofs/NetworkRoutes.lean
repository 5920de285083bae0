import Verif.Proofs.Network
import Verif.Proofs.GraphStreet
import Mathlib.Data.List.Chain

/-! Lemmas about the predefined routes. -/

set_option linter.unusedSectionVars false
set_option linter.unusedSimpArgs false
set_option linter.unusedVariables false

namespace Sidermit

variable {K : Type}

theorem pairs_forall {α : Type} (R : α → α → Prop) (l : List α) : (∀ p ∈ pairs l, R p.1 p.2) ↔ l.IsChain R := by
  induction l with
  | nil => simp [pairs]
  | cons a t ih =>
    cases t with
    | nil => simp [pairs]
    | cons b t =>
      rw [List.isChain_cons_cons, ← ih]
      simp [pairs]

theorem nodeId_idAt {g : Graph K} {n j : Nat} (hs : CityShape g n) (hj : j < 2 * n + 1) :
    Network.nodeId g j = .ok (idAt g j) := by
  have hlt : j < g.nodes.length := by rw [hs.len]; exact hj
  unfold Network.nodeId idAt
  rw [pyGet_ok (List.getElem?_eq_getElem hlt), List.getElem?_eq_getElem hlt]
  rfl

theorem idAt_get {g : Graph K} {n j : Nat} (hs : CityShape g n) (hj : j < 2 * n + 1) :
    ∃ nd, g.nodes[j]? = some nd ∧ nd.id = idAt g j := by
  have hlt : j < g.nodes.length := by rw [hs.len]; exact hj
  exact ⟨g.nodes[j], List.getElem?_eq_getElem hlt, by simp [idAt, List.getElem?_eq_getElem hlt]⟩

theorem idAt_inj {g : Graph K} {n i j : Nat} (hs : CityShape g n) (hd : DistinctIds g) (hi : i < 2 * n + 1)
    (hj : j < 2 * n + 1) (h : idAt g i = idAt g j) : i = j := by
  obtain ⟨a, ha, ha'⟩ := idAt_get hs hi
  obtain ⟨b, hb, hb'⟩ := idAt_get hs hj
  exact distinct_idx hd ha hb (by rw [ha', hb', h])

theorem edge_idAt {g : Graph K} {n i j : Nat} (hs : CityShape g n) (hi : i < 2 * n + 1)
    (hj : j < 2 * n + 1) (h : StreetIdx n i j) : g.edgeExist (idAt g i) (idAt g j) = true := by
  obtain ⟨a, ha, ha'⟩ := idAt_get hs hi
  obtain ⟨b, hb, hb'⟩ := idAt_get hs hj
  obtain ⟨e, he, h1, h2⟩ := mem_cityEdges_iff.2 h
  unfold Graph.edgeExist
  rw [List.any_eq_true]
  refine ⟨e, by rw [hs.edges]; exact he, ?_⟩
  rw [h1, h2, ha, hb]
  simp [ha', hb']

theorem streetIdx_symm {n a b : Nat} (h : StreetIdx n a b) : StreetIdx n b a := by
  rcases h with ⟨i, hi, h⟩ | ⟨i, hi, hn, h⟩
  · left; exact ⟨i, hi, by tauto⟩
  · right; exact ⟨i, hi, hn, by tauto⟩

/-- a route given by positions in the node list -/
theorem twoWay_of {g : Graph K} {n : Nat} (hs : CityShape g n) (hd : DistinctIds g) {P S : List Nat}
    (hne : P ≠ []) (hb : ∀ j ∈ P, j < 2 * n + 1) (hnd : P.Nodup) (hc : P.IsChain (StreetIdx n)) (hsub : S.Sublist P)
    (hh : S.head? = P.head?) (hl : S.getLast? = P.getLast?) {r : Route K} (h1 : r.nodesI = P.map (idAt g))
    (h2 : r.nodesR = (P.map (idAt g)).reverse) (h3 : r.stopsI = S.map (idAt g))
    (h4 : r.stopsR = (S.map (idAt g)).reverse) : TwoWay g r := by
  have hnd' : (P.map (idAt g)).Nodup :=
    hnd.map_on (fun i hi j hj h => idAt_inj hs hd (hb i hi) (hb j hj) h)
  have hch : (P.map (idAt g)).IsChain (fun a b => g.edgeExist a b = true) := by
    rw [List.isChain_map]
    refine List.IsChain.imp_of_mem_imp ?_ hc
    intro a b ha hb' h
    exact edge_idAt hs (hb a ha) (hb b hb') h
  have hch' : ((P.map (idAt g)).reverse).IsChain (fun a b => g.edgeExist a b = true) := by
    rw [List.isChain_reverse, List.isChain_map]
    refine List.IsChain.imp_of_mem_imp ?_ hc
    intro a b ha hb' h
    exact edge_idAt hs (hb b hb') (hb a ha) (streetIdx_symm h)
  have hsub' : (S.map (idAt g)).Sublist (P.map (idAt g)) := hsub.map _
  refine ⟨?_, ?_, ?_, ?_, ?_, ?_⟩
  · rw [h1, h2, h3, h4]
    refine ⟨by simpa, by simpa, by simp, by simp, fun s hs => hsub'.subset hs, fun s hs => ?_, ?_, ?_, ?_, ?_, hnd', by simpa using hnd'⟩
    · rw [List.mem_reverse] at hs ⊢; exact hsub'.subset hs
    · simp [hh]
    · simp [hl]
    · simp [hl]
    · simp [hh]
  · unfold OnStreets; rw [pairs_forall (fun a b => g.edgeExist a b = true), h1]; exact hch
  · unfold OnStreets; rw [pairs_forall (fun a b => g.edgeExist a b = true), h2]; exact hch'
  · rw [h1, h2]
  · rw [h3, h4]
  · rw [h1, h3]; exact hsub'

section

variable [DecidableEq K]

theorem addAllRoutes_aux {g : Graph K} {m : Mode K} : ∀ (rs : List (Route K)) (s : Network K), s.Wf → s.graph = g →
    s.modes = [m] → (∀ r ∈ rs, r.mode = m ∧ OnStreets g r.nodesI) → (s.routeIds ++ rs.map Route.id).Nodup →
    addAllRoutes s rs = .ok ⟨g, s.routes ++ rs, s.routeIds ++ rs.map Route.id, [m]⟩
  | [], s, _, hg, hm, _, _ => by rw [addAllRoutes, ← hg, ← hm]; simp
  | r :: t, s, hw, hg, hm, h, hnd => by
    classical
    have hr := h r List.mem_cons_self
    have hid : r.id ∉ s.routeIds := by
      intro hid
      rw [List.nodup_append] at hnd
      exact hnd.2.2 r.id hid r.id (by simp) rfl
    have hadd : s.addRoute r = ({ s with routes := s.routes ++ [r], routeIds := s.routeIds ++ [r.id] }, none) := by
      rw [addRoute_eq hw.modes, if_neg (by rw [hg]; simpa using hr.2), if_neg hid, if_pos (by rw [hm, hr.1]; simp)]
    have hw' := hw.addRoute r
    rw [hadd] at hw'
    rw [addAllRoutes, hadd]
    simp only
    rw [addAllRoutes_aux t _ hw' hg hm (fun r' hr' => h r' (List.mem_cons_of_mem _ hr')) (by simpa using hnd)]
    simp

theorem addAllRoutes_ok {g : Graph K} {m : Mode K} {rs : List (Route K)}
    (h : ∀ r ∈ rs, r.mode = m ∧ OnStreets g r.nodesI) (hnd : (rs.map Route.id).Nodup) :
    addAllRoutes (Network.init g) rs = .ok ⟨g, rs, rs.map Route.id, if rs = [] then [] else [m]⟩ := by
  classical
  cases rs with
  | nil => rfl
  | cons r t =>
    have hr := h r List.mem_cons_self
    have hw := Network.Wf.init g
    have hadd : (Network.init g).addRoute r = (⟨g, [r], [r.id], [m]⟩, none) := by
      rw [addRoute_eq hw.modes]
      simp [Network.init, hr.1, hr.2, ModesOk]
    have hw' := hw.addRoute r
    rw [hadd] at hw'
    rw [addAllRoutes, hadd]
    simp only
    rw [addAllRoutes_aux t _ hw' rfl rfl (fun r' hr' => h r' (List.mem_cons_of_mem _ hr')) (by simpa using hnd)]
    simp

theorem routeLabel_inj {pre name : Str} {i j : Nat} (h : routeLabel pre name i = routeLabel pre name j) : i = j := by
  unfold routeLabel at h
  have := showInt_injective (List.append_cancel_left h)
  omega

/-- the common shape of the generators -/
theorem family_of {g : Graph K} {n k : Nat} (hs : CityShape g n) (hd : DistinctIds g) {m : Mode K} {pre : Str}
    {P S : Nat → List Nat} (rs : List (Route K))
    (hrs : rs = (List.range k).map fun i =>
      { id := routeLabel pre m.name i, mode := m, nodesI := (P i).map (idAt g), nodesR := ((P i).map (idAt g)).reverse,
        stopsI := (S i).map (idAt g), stopsR := ((S i).map (idAt g)).reverse, type := .predefined })
    (hne : ∀ i, i < k → P i ≠ []) (hb : ∀ i, i < k → ∀ j ∈ P i, j < 2 * n + 1) (hnd : ∀ i, i < k → (P i).Nodup)
    (hc : ∀ i, i < k → (P i).IsChain (StreetIdx n)) (hsub : ∀ i, i < k → (S i).Sublist (P i))
    (hh : ∀ i, i < k → (S i).head? = (P i).head?) (hl : ∀ i, i < k → (S i).getLast? = (P i).getLast?) :
    RouteFamily g m k (routeLabel pre m.name) (fun i => (P i).map (idAt g)) (fun i => (S i).map (idAt g)) rs := by
  have htw : ∀ i, i < k → TwoWay g ⟨routeLabel pre m.name i, m, (P i).map (idAt g), ((P i).map (idAt g)).reverse,
      (S i).map (idAt g), ((S i).map (idAt g)).reverse, .predefined⟩ := fun i hi =>
    twoWay_of hs hd (hne i hi) (hb i hi) (hnd i hi) (hc i hi) (hsub i hi) (hh i hi) (hl i hi) rfl rfl rfl rfl
  have hids : (rs.map Route.id).Nodup := by
    rw [hrs, List.map_map]
    exact List.nodup_range.map_on (fun i _ j _ h => routeLabel_inj h)
  refine ⟨by rw [hrs]; simp, ?_, hids, addAllRoutes_ok ?_ hids⟩
  · intro i hi
    refine ⟨_, by rw [hrs]; simp [hi], rfl, rfl, rfl, rfl, rfl, htw i hi⟩
  · intro r hr
    rw [hrs] at hr
    obtain ⟨i, hi, rfl⟩ := List.mem_map.1 hr
    exact ⟨rfl, (htw i (by simpa using hi)).streetsI⟩

theorem routeName_eq (pre : Str) (m : Mode K) (i : Nat) :
    Network.routeName pre m ((i : Int) + 1) = routeLabel pre m.name i := by
  simp [Network.routeName, routeLabel]

theorem predefinedRoute_eq (id : Str) (m : Mode K) (ni nr si sr : List Int) :
    Network.predefinedRoute id m (Network.seqText ni) (Network.seqText nr) (Network.seqText si) (Network.seqText sr) =
      .ok { id := id, mode := m, nodesI := ni, nodesR := nr, stopsI := si, stopsR := sr, type := .predefined } :=
  mkRoute_predefined id m ni nr si sr .predefined (by decide)

theorem mapM_zones {β : Type} {n e : Nat} (he : e ≤ n) (f : Zone → Py β) (q : Nat → β)
    (h : ∀ i : Nat, i < e → f ⟨(i : Int) + 1, 2 * i + 1, 2 * i + 2⟩ = .ok (q i)) :
    ((cityZones n).take e).mapM f = .ok ((List.range e).map q) := by
  have : (cityZones n).take e = (List.range e).map fun (i : Nat) => (⟨(i : Int) + 1, 2 * i + 1, 2 * i + 2⟩ : Zone) := by
    unfold cityZones
    rw [← List.map_take, List.take_range, Nat.min_eq_left he]
  rw [this]
  clear this he
  induction e with
  | zero => rfl
  | succ k ih =>
    rw [List.range_succ, List.map_append, List.map_append, List.mapM_append, ih (fun i hi => h i (by omega))]
    simp only [py_ok_bind, List.map_cons, List.map_nil, mapM_cons, h k (by omega), mapM_nil, py_pure]

theorem cityZones_length (n : Nat) : (cityZones n).length = n := by simp [cityZones]

/-- a chain of three or more positions of one zone -/
theorem street_ps {n i : Nat} (h : i < n) : StreetIdx n (2 * i + 1) (2 * i + 2) := Or.inl ⟨i, h, by simp⟩
theorem street_sc {n i : Nat} (h : i < n) : StreetIdx n (2 * i + 2) 0 := Or.inl ⟨i, h, by simp⟩

theorem feederRoutes_eq {s : Network K} {n : Nat} (hs : CityShape s.graph n) (m : Mode K) :
    s.feederRoutes m = .ok ((List.range n).map fun i => ⟨routeLabel "F".toList m.name i, m,
      [2 * i + 1, 2 * i + 2].map (idAt s.graph), ([2 * i + 1, 2 * i + 2].map (idAt s.graph)).reverse,
      [2 * i + 1, 2 * i + 2].map (idAt s.graph), ([2 * i + 1, 2 * i + 2].map (idAt s.graph)).reverse, .predefined⟩) := by
  unfold Network.feederRoutes
  rw [hs.zones]
  have e : cityZones n = (cityZones n).take n := by rw [List.take_of_length_le]; rw [cityZones_length]
  rw [e]
  refine mapM_zones (Nat.le_refl n) _ _ ?_
  intro i hi
  unfold Network.feederRoute
  simp only
  rw [nodeId_idAt hs (by omega), nodeId_idAt hs (by omega)]
  simp only [py_ok_bind]
  rw [predefinedRoute_eq, routeName_eq]
  rfl

/-- prefix and positions of the radial routes -/
def radialPrefix (short express : Bool) : Str := if short then "RS".toList else if express then "RE".toList else "R".toList
def radialNodes (short : Bool) (i : Nat) : List Nat := if short then [2 * i + 2, 0] else [2 * i + 1, 2 * i + 2, 0]
def radialStops (short express : Bool) (i : Nat) : List Nat :=
  if short then [2 * i + 2, 0] else if express then [2 * i + 1, 0] else [2 * i + 1, 2 * i + 2, 0]

theorem cbdId_eq {g : Graph K} {n : Nat} (hs : CityShape g n) : Network.cbdId g = .ok (idAt g 0) := by
  obtain ⟨nd, h0, hid⟩ := idAt_get hs (j := 0) (by omega)
  have hk := hs.kind 0 nd h0
  unfold Network.cbdId Graph.getCbd
  have : g.nodes.find? (fun x => decide (x.kind = .cbd)) = some nd := by
    cases hn : g.nodes with
    | nil => rw [hn] at h0; simp at h0
    | cons a t =>
      rw [hn] at h0
      simp only [List.getElem?_cons_zero, Option.some.injEq] at h0
      subst h0
      rw [List.find?_cons_of_pos]
      simp [hk, kindAt]
  rw [this]; simp [hid]

theorem radialRoutes_eq {s : Network K} {n : Nat} (hs : CityShape s.graph n) (m : Mode K) (short express : Bool) :
    s.radialRoutes m short express = .ok ((List.range n).map fun i => ⟨routeLabel (radialPrefix short express) m.name i, m,
      (radialNodes short i).map (idAt s.graph), ((radialNodes short i).map (idAt s.graph)).reverse,
      (radialStops short express i).map (idAt s.graph), ((radialStops short express i).map (idAt s.graph)).reverse,
      .predefined⟩) := by
  unfold Network.radialRoutes
  rw [cbdId_eq hs, py_ok_bind, hs.zones]
  have e : cityZones n = (cityZones n).take n := by rw [List.take_of_length_le]; rw [cityZones_length]
  rw [e]
  refine mapM_zones (Nat.le_refl n) _ _ ?_
  intro i hi
  unfold Network.radialRoute
  simp only
  rw [nodeId_idAt hs (by omega), nodeId_idAt hs (by omega)]
  simp only [py_ok_bind, predefinedRoute_eq, routeName_eq]
  cases short <;> cases express <;> rfl

theorem zone2Id_eq {n i j : Nat} (hi : i < n) (hj : 1 ≤ j) (hjn : 2 * j ≤ n) :
    Network.zone2Id n ((i : Int) + 1) (j : Int) = (((i + j) % n : Nat) : Int) + 1 := by
  unfold Network.zone2Id
  by_cases h : i + j < n
  · rw [if_pos (by omega), Nat.mod_eq_of_lt h]; omega
  · rw [if_neg (by omega), Nat.mod_eq_sub_mod (by omega), Nat.mod_eq_of_lt (by omega)]; omega

theorem zoneAtIndex_eq {n k : Nat} (hk : k < n) :
    Network.zoneAtIndex (cityZones n) ((k : Int) + 1 - 1) = .ok ⟨(k : Int) + 1, 2 * k + 1, 2 * k + 2⟩ := by
  unfold Network.zoneAtIndex
  rw [if_pos (by omega)]
  have : ((k : Int) + 1 - 1).toNat = k := by omega
  rw [this, pyGet_ok]
  simp [cityZones, hk]

theorem lastZone_eq {n j : Nat} (hj : 1 ≤ j) (hjn : 2 * j ≤ n) : Network.lastZone n (j : Int) = pairsAt n j := by
  unfold Network.lastZone pairsAt
  by_cases h : 2 * j = n
  · rw [if_pos (by constructor <;> omega), if_pos h]; omega
  · rw [if_neg (by omega), if_neg h]

theorem pairsAt_le {n j : Nat} (hjn : 2 * j ≤ n) : pairsAt n j ≤ n := by unfold pairsAt; split <;> omega

def diametralPrefix (short express : Bool) : Str :=
  if short then (if express then "DSE".toList else "DS".toList) else (if express then "DE".toList else "D".toList)
def diametralNodes (short : Bool) (i i' : Nat) : List Nat :=
  if short then [2 * i + 2, 0, 2 * i' + 2] else [2 * i + 1, 2 * i + 2, 0, 2 * i' + 2, 2 * i' + 1]
def diametralStops (short express : Bool) (i i' : Nat) : List Nat :=
  if express then (if short then [2 * i + 2, 2 * i' + 2] else [2 * i + 1, 2 * i' + 1]) else diametralNodes short i i'

theorem jumpName_eq (pre : Str) (j : Int) (m : Mode K) (i : Nat) :
    Network.jumpName pre j m ((i : Int) + 1) = routeLabel (pre ++ showInt j) m.name i := by
  rw [Network.jumpName, routeName_eq]

theorem diametralRoutes_eq {s : Network K} {n j : Nat} (hs : CityShape s.graph n) (hj : 1 ≤ j) (hjn : 2 * j ≤ n) (m : Mode K)
    (short express : Bool) :
    s.diametralRoutes m j short express = .ok ((List.range (pairsAt n j)).map fun i =>
      ⟨routeLabel (diametralPrefix short express ++ showInt j) m.name i, m,
      (diametralNodes short i ((i + j) % n)).map (idAt s.graph),
      ((diametralNodes short i ((i + j) % n)).map (idAt s.graph)).reverse,
      (diametralStops short express i ((i + j) % n)).map (idAt s.graph),
      ((diametralStops short express i ((i + j) % n)).map (idAt s.graph)).reverse, .predefined⟩) := by
  unfold Network.diametralRoutes
  rw [cbdId_eq hs, py_ok_bind, hs.zones, cityZones_length, raiseIf_neg (by omega), py_ok_bind, lastZone_eq hj hjn]
  refine mapM_zones (pairsAt_le hjn) _ _ ?_
  intro i hi
  have hin : i < n := Nat.lt_of_lt_of_le hi (pairsAt_le hjn)
  have hi' : (i + j) % n < n := Nat.mod_lt _ (by omega)
  unfold Network.diametralRoute
  simp only
  rw [hs.zones, cityZones_length, zone2Id_eq hin hj hjn, zoneAtIndex_eq hi', nodeId_idAt hs (by omega),
    nodeId_idAt hs (by omega)]
  simp only [py_ok_bind]
  rw [nodeId_idAt hs (by omega), nodeId_idAt hs (by omega)]
  simp only [py_ok_bind, predefinedRoute_eq, jumpName_eq]
  cases short <;> cases express <;> rfl

/-! ### tangential routes -/

theorem betweenZones_eq {n i j : Nat} (hi : i < n) (hj : 1 ≤ j) (hjn : 2 * j ≤ n) :
    Network.betweenZones n ((i : Int) + 1) ((((i + j) % n : Nat) : Int) + 1) (j : Int) =
      (List.range (j - 1)).map fun (k : Nat) => ((((i + 1 + k) % n : Nat) : Int) + 1) := by
  unfold Network.betweenZones
  simp only
  by_cases h : i + j < n
  · rw [Nat.mod_eq_of_lt h]
    have h2 : ¬ (((i + j : Nat) : Int) + 1 < (i : Int) + 1) := by omega
    rw [if_neg h2, List.append_nil]
    by_cases hj1 : j = 1
    · subst hj1; simp
    · rw [if_pos (by constructor <;> omega)]
      unfold Network.intRange
      have : (((i + j : Nat) : Int) + 1 - ((i : Int) + 1 + 1)).toNat = j - 1 := by omega
      rw [this]
      apply List.map_congr_left
      intro k hk
      rw [List.mem_range] at hk
      rw [Nat.mod_eq_of_lt (by omega)]
      omega
  · have hm : (i + j) % n = i + j - n := by rw [Nat.mod_eq_sub_mod (by omega), Nat.mod_eq_of_lt (by omega)]
    rw [hm, if_neg (by omega), if_pos (by omega), List.nil_append]
    have hl : j - 1 = (n - 1 - i) + (i + j - n) := by omega
    rw [hl, List.range_add, List.map_append, List.map_map]
    congr 1
    · by_cases hin : ((i : Int) + 1) = n
      · have : n - 1 - i = 0 := by omega
        rw [if_neg (by omega), this]; rfl
      · rw [if_pos hin]
        unfold Network.intRange
        have : ((n : Int) + 1 - ((i : Int) + 1 + 1)).toNat = n - 1 - i := by omega
        rw [this]
        apply List.map_congr_left
        intro k hk
        rw [List.mem_range] at hk
        rw [Nat.mod_eq_of_lt (by omega)]
        omega
    · unfold Network.intRange
      have : (((i + j - n : Nat) : Int) + 1 - 1).toNat = i + j - n := by omega
      rw [this]
      apply List.map_congr_left
      intro k hk
      rw [List.mem_range] at hk
      simp only [Function.comp]
      have : (i + 1 + (n - 1 - i + k)) % n = k := by
        have e : i + 1 + (n - 1 - i + k) = n + k := by omega
        rw [e, Nat.add_mod_left, Nat.mod_eq_of_lt (by omega)]
      rw [this]
      omega

/-- positions of the subcentres strictly between the ends -/
def midPos (n i j : Nat) : List Nat := (List.range (j - 1)).map fun k => 2 * ((i + 1 + k) % n) + 2

theorem tang_fold {g : Graph K} {n i j : Nat} (hs : CityShape g n) (hi : i < n) (A B : List Int) (hA : A ≠ []) (hB : B ≠ []) :
    (List.range (j - 1)).foldlM
      (Network.tangStep g ((List.range (j - 1)).map fun (k : Nat) => ((((i + 1 + k) % n : Nat) : Int) + 1)))
      (Network.seqText A, Network.seqText B) =
      .ok (Network.seqText (A ++ (midPos n i j).map (idAt g)), Network.seqText (B ++ ((midPos n i j).map (idAt g)).reverse)) := by
  have key := foldlM_range_ok
    (Network.tangStep g ((List.range (j - 1)).map fun (k : Nat) => ((((i + 1 + k) % n : Nat) : Int) + 1)))
    (fun t => (Network.seqText (A ++ ((List.range t).map fun k => idAt g (2 * ((i + 1 + k) % n) + 2))),
      Network.seqText (B ++ ((List.range t).map fun k => idAt g (2 * ((i + 1 + (j - 1 - 1 - k)) % n) + 2))))) (j - 1) ?_
  · simp only [List.range_zero, List.map_nil, List.append_nil] at key
    rw [key]
    congr 3
    · simp [midPos]
    · congr 1
      apply List.ext_getElem
      · simp [midPos]
      · intro k h1 h2
        simp [midPos]
  · intro k hk
    have hn : 0 < n := by omega
    unfold Network.tangStep
    simp only [List.length_map, List.length_range]
    rw [pyGet_ok (a := ((((i + 1 + k) % n : Nat) : Int) + 1)) (by simp [hk]),
      pyGet_ok (a := ((((i + 1 + (j - 1 - 1 - k)) % n : Nat) : Int) + 1)) (by
        rw [List.getElem?_map, List.getElem?_range (by omega)]; rfl)]
    have h1 : (i + 1 + k) % n < n := Nat.mod_lt _ hn
    have h2 : (i + 1 + (j - 1 - 1 - k)) % n < n := Nat.mod_lt _ hn
    simp only [py_ok_bind, hs.zones]
    rw [zoneAtIndex_eq h1, zoneAtIndex_eq h2]
    simp only [py_ok_bind]
    rw [nodeId_idAt hs (by omega), nodeId_idAt hs (by omega)]
    simp only [py_ok_bind, py_pure, List.range_succ, List.map_append, List.map_cons, List.map_nil]
    rw [← seqText_singleton, ← seqText_singleton, ← seqText_append (by simp [hA]) (by simp),
      ← seqText_append (by simp [hB]) (by simp)]
    simp only [List.append_assoc]

def ringPos (n i j : Nat) : List Nat := (List.range (j + 1)).map fun k => 2 * ((i + k) % n) + 2

theorem ringPos_eq {n i j : Nat} (hi : i < n) (hj : 1 ≤ j) :
    ringPos n i j = [2 * i + 2] ++ midPos n i j ++ [2 * ((i + j) % n) + 2] := by
  unfold ringPos midPos
  obtain ⟨t, rfl⟩ : ∃ t, j = t + 1 := ⟨j - 1, by omega⟩
  rw [List.range_succ, List.range_succ_eq_map]
  simp only [List.map_append, List.map_cons, List.map_nil, List.map_map, Nat.add_zero, Nat.mod_eq_of_lt hi,
    Nat.add_sub_cancel, List.cons_append, List.nil_append, Function.comp_def]
  congr 3
  funext k
  congr 3
  omega

def tangPrefix (short express : Bool) : Str :=
  if short then (if express then "TSE".toList else "TS".toList) else (if express then "TE".toList else "T".toList)
def tangNodes (short : Bool) (n i j : Nat) : List Nat :=
  if short then ringPos n i j else [2 * i + 1] ++ ringPos n i j ++ [2 * ((i + j) % n) + 1]
def tangStops (short express : Bool) (n i j : Nat) : List Nat :=
  if express then (if short then [2 * i + 2, 2 * ((i + j) % n) + 2] else [2 * i + 1, 2 * ((i + j) % n) + 1])
  else tangNodes short n i j

theorem tangentialRoutes_eq {s : Network K} {n j : Nat} (hs : CityShape s.graph n) (hj : 1 ≤ j) (hjn : 2 * j ≤ n) (m : Mode K)
    (short express : Bool) :
    s.tangentialRoutes m j short express = .ok ((List.range (pairsAt n j)).map fun i =>
      ⟨routeLabel (tangPrefix short express ++ showInt j) m.name i, m,
      (tangNodes short n i j).map (idAt s.graph), ((tangNodes short n i j).map (idAt s.graph)).reverse,
      (tangStops short express n i j).map (idAt s.graph), ((tangStops short express n i j).map (idAt s.graph)).reverse,
      .predefined⟩) := by
  unfold Network.tangentialRoutes
  rw [hs.zones, cityZones_length, raiseIf_neg (by omega), py_ok_bind, lastZone_eq hj hjn]
  refine mapM_zones (pairsAt_le hjn) _ _ ?_
  intro i hi
  have hin : i < n := Nat.lt_of_lt_of_le hi (pairsAt_le hjn)
  have hi' : (i + j) % n < n := Nat.mod_lt _ (by omega)
  unfold Network.tangentialRoute
  simp only
  rw [hs.zones, cityZones_length, zone2Id_eq hin hj hjn, zoneAtIndex_eq hi', nodeId_idAt hs (by omega),
    nodeId_idAt hs (by omega), betweenZones_eq hin hj hjn]
  simp only [py_ok_bind, List.length_map, List.length_range]
  rw [nodeId_idAt hs (by omega), nodeId_idAt hs (by omega)]
  simp only [py_ok_bind]
  rw [tang_fold hs hin _ _ (by simp) (by simp), tang_fold hs hin _ _ (by simp) (by simp)]
  simp only [py_ok_bind]
  simp only [← seqText_append (show [_] ++ _ ≠ [] by simp) (show [_] ≠ [] by simp), jumpName_eq]
  rw [← seqText_append (by simp) (by simp), ← seqText_append (by simp) (by simp)]
  simp only [predefinedRoute_eq]
  have hr := ringPos_eq hin hj
  cases short <;> cases express <;> simp [tangNodes, tangStops, tangPrefix, hr]

/-! ### circular routes -/

theorem circular_fold {g : Graph K} {n : Nat} (hs : CityShape g n) (hn : 1 ≤ n) :
    (List.range n).foldlM (Network.circularStep g) ([], []) =
      .ok (Network.seqText ((List.range n).map (subOf g)), Network.seqText ((List.range n).map (subOf g)).reverse) := by
  have key := foldlM_range_ok (Network.circularStep g)
    (fun t => (Network.seqText ((List.range t).map (subOf g)),
      Network.seqText ((List.range t).map fun k => subOf g (n - 1 - k)))) n ?_
  · have h0 : (Network.seqText ((List.range 0).map (subOf g)),
      Network.seqText ((List.range 0).map fun k => subOf g (n - 1 - k))) = (([], []) : Str × Str) := rfl
    rw [h0] at key
    rw [key]
    congr 3
    apply List.ext_getElem
    · simp
    · intro k h1 h2
      simp
  · intro k hk
    unfold Network.circularStep
    rw [hs.zones, cityZones_length, pyGet_ok (a := ⟨(k : Int) + 1, 2 * k + 1, 2 * k + 2⟩) (by simp [cityZones, hk]),
      pyGet_ok (a := ⟨((n - 1 - k : Nat) : Int) + 1, 2 * (n - 1 - k) + 1, 2 * (n - 1 - k) + 2⟩) (by
        unfold cityZones; rw [List.getElem?_map, List.getElem?_range (by omega)]; rfl)]
    simp only [py_ok_bind]
    rw [nodeId_idAt hs (by omega), nodeId_idAt hs (by omega)]
    simp only [py_ok_bind, py_pure]
    cases k with
    | zero => simp [Network.seqText, joinWith, subOf]
    | succ t =>
      rw [if_neg (seqText_ne_nil (by simp))]
      rw [List.range_succ (n := t + 1), List.map_append, List.map_append, seqText_append (by simp) (by simp),
        seqText_append (by simp) (by simp)]
      rfl

theorem circularRoutes_eq {s : Network K} {n : Nat} (hs : CityShape s.graph n) (hn : 2 ≤ n) (m : Mode K) :
    s.circularRoutes m = .ok [
      ⟨"CIR_I_".toList ++ m.name, m, (List.range n).map (subOf s.graph) ++ [subOf s.graph 0], [],
        (List.range n).map (subOf s.graph) ++ [subOf s.graph 0], [], .circular⟩,
      ⟨"CIR_R_".toList ++ m.name, m, [], ((List.range n).map (subOf s.graph)).reverse ++ [subOf s.graph (n - 1)],
        [], ((List.range n).map (subOf s.graph)).reverse ++ [subOf s.graph (n - 1)], .circular⟩] := by
  unfold Network.circularRoutes
  rw [hs.zones, cityZones_length, raiseIf_neg (by omega), circular_fold hs (by omega),
    pyGet_ok (a := ⟨((0 : Nat) : Int) + 1, 1, 2⟩) (by
      unfold cityZones; rw [List.getElem?_map, List.getElem?_range (by omega)]; rfl),
    pyGet_ok (a := ⟨((n - 1 : Nat) : Int) + 1, 2 * (n - 1) + 1, 2 * (n - 1) + 2⟩) (by
      unfold cityZones; rw [List.getElem?_map, List.getElem?_range (by omega)]; rfl)]
  simp only [py_ok_bind]
  rw [nodeId_idAt hs (by omega), nodeId_idAt hs (by omega)]
  simp only [py_ok_bind]
  rw [← seqText_singleton, ← seqText_singleton, ← seqText_append (by simp; omega) (by simp),
    ← seqText_append (by simp; omega) (by simp)]
  have e : ([] : Str) = Network.seqText [] := rfl
  simp only [e]
  rw [mkRoute_predefined _ _ _ _ _ _ _ (by decide), mkRoute_predefined _ _ _ _ _ _ _ (by decide)]
  rfl

/-! ### the ring -/

theorem streetIdx_ring {n x : Nat} (hn : 2 ≤ n) : StreetIdx n (2 * (x % n) + 2) (2 * ((x + 1) % n) + 2) := by
  right
  have hx : x % n < n := Nat.mod_lt _ (by omega)
  refine ⟨x % n, hx, hn, Or.inl ⟨rfl, ?_⟩⟩
  rw [Nat.add_mod, Nat.mod_eq_of_lt (show 1 < n by omega)]
  split
  · next h => rw [h]; have : n - 1 + 1 = n := by omega
              rw [this, Nat.mod_self]
  · next h => rw [Nat.mod_eq_of_lt (show x % n + 1 < n by omega)]

theorem isChain_range_map {α : Type} (R : α → α → Prop) (f : Nat → α) (h : ∀ k, R (f k) (f (k + 1))) (k : Nat) :
    ((List.range k).map f).IsChain R := by
  induction k with
  | zero => simp
  | succ k ih =>
    rw [List.range_succ, List.map_append]
    refine List.IsChain.append ih (by simp) ?_
    intro x hx y hy
    cases k with
    | zero => simp at hx
    | succ t =>
      rw [List.range_succ, List.map_append] at hx
      simp at hx hy
      rw [← hx, ← hy]
      exact h t

theorem ringPos_chain {n i j : Nat} (hn : 2 ≤ n) : (ringPos n i j).IsChain (StreetIdx n) := by
  refine isChain_range_map _ _ ?_ _
  intro k
  have := streetIdx_ring (n := n) (x := i + k) hn
  rwa [show i + k + 1 = i + (k + 1) by omega] at this

theorem mod_eq_ite {n a : Nat} (h : a < 2 * n) : a % n = if a < n then a else a - n := by
  split
  · next h1 => exact Nat.mod_eq_of_lt h1
  · next h1 => rw [Nat.mod_eq_sub_mod (by omega), Nat.mod_eq_of_lt (by omega)]

theorem ringPos_nodup {n i j : Nat} (hi : i < n) (hj : j < n) : (ringPos n i j).Nodup := by
  unfold ringPos
  refine List.nodup_range.map_on ?_
  intro a ha b hb h
  rw [List.mem_range] at ha hb
  have h2 : (i + a) % n = (i + b) % n := by omega
  rw [mod_eq_ite (by omega), mod_eq_ite (by omega)] at h2
  split at h2 <;> split at h2 <;> omega

theorem ringPos_mem {n i j x : Nat} (hn : 0 < n) (h : x ∈ ringPos n i j) : ∃ k, k ≤ j ∧ x = 2 * ((i + k) % n) + 2 ∧ x < 2 * n + 1 := by
  obtain ⟨k, hk, rfl⟩ := List.mem_map.1 h
  rw [List.mem_range] at hk
  have := Nat.mod_lt (i + k) hn
  exact ⟨k, by omega, rfl, by omega⟩

theorem ringPos_head {n i j : Nat} (hi : i < n) : (ringPos n i j).head? = some (2 * i + 2) := by
  unfold ringPos
  rw [List.range_succ_eq_map]
  simp [Nat.mod_eq_of_lt hi]

theorem ringPos_last {n i j : Nat} : (ringPos n i j).getLast? = some (2 * ((i + j) % n) + 2) := by
  unfold ringPos
  rw [List.range_succ]
  simp

theorem pairsAt_lt {n i j : Nat} (hjn : 2 * j ≤ n) (h : i < pairsAt n j) : i < n := Nat.lt_of_lt_of_le h (pairsAt_le hjn)

theorem family_feeder {g : Graph K} {n : Nat} (hs : CityShape g n) (hd : DistinctIds g) (s : Network K) (hg : s.graph = g)
    (m : Mode K) : ∃ rs, s.feederRoutes m = .ok rs ∧
      RouteFamily g m n (routeLabel "F".toList m.name) (fun i => [2 * i + 1, 2 * i + 2].map (idAt g))
        (fun i => [2 * i + 1, 2 * i + 2].map (idAt g)) rs := by
  subst hg
  refine ⟨_, feederRoutes_eq hs m, family_of hs hd _ rfl ?_ ?_ ?_ ?_ ?_ ?_ ?_⟩
  · simp
  · intro i hi j hj; simp at hj; omega
  · intro i hi; simp
  · intro i hi; simpa using street_ps hi
  · simp
  · simp
  · simp

theorem family_radial {g : Graph K} {n : Nat} (hs : CityShape g n) (hd : DistinctIds g) (s : Network K) (hg : s.graph = g)
    (m : Mode K) (short express : Bool) : ∃ rs, s.radialRoutes m short express = .ok rs ∧
      RouteFamily g m n (routeLabel (radialPrefix short express) m.name) (fun i => (radialNodes short i).map (idAt g))
        (fun i => (radialStops short express i).map (idAt g)) rs := by
  subst hg
  refine ⟨_, radialRoutes_eq hs m short express, family_of hs hd _ rfl ?_ ?_ ?_ ?_ ?_ ?_ ?_⟩
  · intro i _; unfold radialNodes; split <;> simp
  · intro i hi j hj; unfold radialNodes at hj; split at hj <;> simp at hj <;> omega
  · intro i hi; unfold radialNodes; split <;> simp
  · intro i hi; unfold radialNodes; split
    · simpa using street_sc hi
    · simpa using ⟨street_ps hi, street_sc hi⟩
  · intro i hi; cases short <;> cases express <;> simp [radialNodes, radialStops]
  · intro i hi; cases short <;> cases express <;> simp [radialNodes, radialStops]
  · intro i hi; cases short <;> cases express <;> simp [radialNodes, radialStops]

theorem add_mod_ne {n i j : Nat} (hi : i < n) (hj : 1 ≤ j) (hjn : 2 * j ≤ n) : (i + j) % n ≠ i := by
  rw [mod_eq_ite (by omega)]
  split <;> omega

theorem family_diametral {g : Graph K} {n j : Nat} (hs : CityShape g n) (hd : DistinctIds g) (s : Network K) (hg : s.graph = g)
    (hj : 1 ≤ j) (hjn : 2 * j ≤ n) (m : Mode K) (short express : Bool) :
    ∃ rs, s.diametralRoutes m j short express = .ok rs ∧
      RouteFamily g m (pairsAt n j) (routeLabel (diametralPrefix short express ++ showInt j) m.name)
        (fun i => (diametralNodes short i ((i + j) % n)).map (idAt g))
        (fun i => (diametralStops short express i ((i + j) % n)).map (idAt g)) rs := by
  subst hg
  refine ⟨_, diametralRoutes_eq hs hj hjn m short express,
    family_of (P := fun i => diametralNodes short i ((i + j) % n)) (S := fun i => diametralStops short express i ((i + j) % n))
      hs hd _ rfl ?_ ?_ ?_ ?_ ?_ ?_ ?_⟩
  all_goals intro i hi'; have hi := pairsAt_lt hjn hi'; have hne := add_mod_ne hi hj hjn
            have hlt : (i + j) % n < n := Nat.mod_lt _ (by omega)
            generalize (i + j) % n = i' at *
            clear hi'
  · unfold diametralNodes; split <;> simp
  · intro k hk; unfold diametralNodes at hk; split at hk <;> simp at hk <;> omega
  · unfold diametralNodes; split <;> simp <;> omega
  · unfold diametralNodes; split
    · simpa using ⟨street_sc hi, streetIdx_symm (street_sc hlt)⟩
    · simpa using ⟨street_ps hi, street_sc hi, streetIdx_symm (street_sc hlt), streetIdx_symm (street_ps hlt)⟩
  · cases short <;> cases express <;> simp [diametralNodes, diametralStops]
  · cases short <;> cases express <;> simp [diametralNodes, diametralStops]
  · cases short <;> cases express <;> simp [diametralNodes, diametralStops]

theorem sublist_ends {α : Type} {l : List α} {a b : α} (hab : ∃ t, l = a :: t ∧ b ∈ t) : [a, b].Sublist l := by
  obtain ⟨t, rfl, hb⟩ := hab
  exact (List.singleton_sublist.2 hb).cons_cons a

theorem family_tangential {g : Graph K} {n j : Nat} (hs : CityShape g n) (hd : DistinctIds g) (s : Network K) (hg : s.graph = g)
    (hj : 1 ≤ j) (hjn : 2 * j ≤ n) (m : Mode K) (short express : Bool) :
    ∃ rs, s.tangentialRoutes m j short express = .ok rs ∧
      RouteFamily g m (pairsAt n j) (routeLabel (tangPrefix short express ++ showInt j) m.name)
        (fun i => (tangNodes short n i j).map (idAt g)) (fun i => (tangStops short express n i j).map (idAt g)) rs := by
  subst hg
  have hn : 0 < n := by omega
  refine ⟨_, tangentialRoutes_eq hs hj hjn m short express,
    family_of (P := fun i => tangNodes short n i j) (S := fun i => tangStops short express n i j)
      hs hd _ rfl ?_ ?_ ?_ ?_ ?_ ?_ ?_⟩
  all_goals intro i hi'; have hi := pairsAt_lt hjn hi'; have hne := add_mod_ne hi hj hjn
            have hlt : (i + j) % n < n := Nat.mod_lt _ (by omega)
  · unfold tangNodes; split
    · intro h; have := ringPos_head (j := j) hi; rw [h] at this; simp at this
    · simp
  · intro k hk
    unfold tangNodes at hk
    split at hk
    · exact (ringPos_mem hn hk).choose_spec.2.2
    · simp only [List.mem_append, List.mem_singleton] at hk
      rcases hk with (rfl | hk) | rfl
      · omega
      · exact (ringPos_mem hn hk).choose_spec.2.2
      · omega
  · unfold tangNodes
    split
    · exact ringPos_nodup hi (by omega)
    · rw [List.nodup_append, List.nodup_append]
      refine ⟨⟨by simp, ringPos_nodup hi (by omega), ?_⟩, by simp, ?_⟩
      · intro a ha b hb
        obtain ⟨k, _, h, _⟩ := ringPos_mem hn hb
        simp at ha; omega
      · intro a ha b hb
        simp only [List.mem_append, List.mem_singleton] at ha hb
        rcases ha with rfl | ha
        · omega
        · obtain ⟨k, _, h, _⟩ := ringPos_mem hn ha
          omega
  · unfold tangNodes
    split
    · exact ringPos_chain (by omega)
    · refine List.IsChain.append (List.IsChain.append (by simp) (ringPos_chain (by omega)) ?_) (by simp) ?_
      · intro x hx y hy
        rw [ringPos_head hi] at hy
        simp at hx hy
        subst hx hy
        exact street_ps hi
      · intro x hx y hy
        rw [List.getLast?_append, ringPos_last] at hx
        simp at hx hy
        subst hx hy
        exact streetIdx_symm (street_ps hlt)
  · unfold tangStops
    split
    · unfold tangNodes
      split
      · rw [ringPos_eq hi hj]
        exact sublist_ends ⟨_, rfl, by simp⟩
      · exact sublist_ends ⟨_, rfl, by simp⟩
    · exact List.Sublist.refl _
  · unfold tangStops
    split
    · unfold tangNodes
      split
      · rw [ringPos_head hi]; rfl
      · rfl
    · rfl
  · unfold tangStops
    split
    · unfold tangNodes
      split
      · rw [ringPos_last]; rfl
      · rw [List.getLast?_append]; rfl
    · rfl

/-- the routes of a diametral or tangential family join each pair of zones at that distance once -/
theorem pairs_covered {n j a b : Nat} (hj : 1 ≤ j) (hjn : 2 * j ≤ n) (ha : a < n) (hb : b < n)
    (h : (a + j) % n = b ∨ (b + j) % n = a) :
    ∃ i, (i < pairsAt n j ∧ ((i = a ∧ (i + j) % n = b) ∨ (i = b ∧ (i + j) % n = a))) ∧
      ∀ i', i' < pairsAt n j → ((i' = a ∧ (i' + j) % n = b) ∨ (i' = b ∧ (i' + j) % n = a)) → i' = i := by
  have ea := mod_eq_ite (n := n) (a := a + j) (by omega)
  have eb := mod_eq_ite (n := n) (a := b + j) (by omega)
  by_cases hn : 2 * j = n
  · simp only [pairsAt, if_pos hn]
    by_cases hlt : a < j
    · refine ⟨a, ⟨hlt, Or.inl ⟨rfl, ?_⟩⟩, ?_⟩
      · rw [ea] at h ⊢; rw [eb] at h; split at h <;> split at h <;> split <;> omega
      · rintro i' hi' (⟨rfl, _⟩ | ⟨rfl, h'⟩)
        · rfl
        · rw [eb] at h'; split at h' <;> omega
    · refine ⟨b, ⟨?_, Or.inr ⟨rfl, ?_⟩⟩, ?_⟩
      · rw [ea, eb] at h; split at h <;> split at h <;> omega
      · rw [eb] at h ⊢; rw [ea] at h; split at h <;> split at h <;> split <;> omega
      · rintro i' hi' (⟨rfl, _⟩ | ⟨rfl, h'⟩)
        · omega
        · rfl
  · simp only [pairsAt, if_neg hn]
    have hnot : ¬ ((a + j) % n = b ∧ (b + j) % n = a) := by
      rintro ⟨h1, h2⟩
      rw [ea] at h1; rw [eb] at h2
      split at h1 <;> split at h2 <;> omega
    rcases h with h | h
    · refine ⟨a, ⟨ha, Or.inl ⟨rfl, h⟩⟩, ?_⟩
      rintro i' hi' (⟨rfl, _⟩ | ⟨rfl, h'⟩)
      · rfl
      · exact absurd ⟨h, h'⟩ hnot
    · refine ⟨b, ⟨hb, Or.inr ⟨rfl, h⟩⟩, ?_⟩
      rintro i' hi' (⟨rfl, h'⟩ | ⟨rfl, _⟩)
      · exact absurd ⟨h', h⟩ hnot
      · rfl

/-- streets of the ring, in terms of ids -/
theorem ring_streets {g : Graph K} {n i j : Nat} (hs : CityShape g n) (hn : 2 ≤ n) :
    OnStreets g ((ringPos n i j).map (idAt g)) ∧ OnStreets g ((ringPos n i j).map (idAt g)).reverse := by
  unfold OnStreets
  rw [pairs_forall (fun a b => g.edgeExist a b = true), pairs_forall (fun a b => g.edgeExist a b = true),
    List.isChain_reverse, List.isChain_map, List.isChain_map]
  have hb : ∀ x ∈ ringPos n i j, x < 2 * n + 1 := fun x hx => (ringPos_mem (by omega) hx).choose_spec.2.2
  constructor
  · refine List.IsChain.imp_of_mem_imp ?_ (ringPos_chain hn)
    intro a b ha hb' h
    exact edge_idAt hs (hb a ha) (hb b hb') h
  · refine List.IsChain.imp_of_mem_imp ?_ (ringPos_chain hn)
    intro a b ha hb' h
    exact edge_idAt hs (hb b hb') (hb a ha) (streetIdx_symm h)

theorem ring_full {g : Graph K} {n : Nat} (hn : 2 ≤ n) :
    (ringPos n 0 n).map (idAt g) = (List.range n).map (subOf g) ++ [subOf g 0] := by
  unfold ringPos
  rw [List.range_succ]
  simp only [List.map_append, List.map_cons, List.map_nil, List.map_map, Nat.zero_add, Nat.mod_self]
  congr 1
  apply List.map_congr_left
  intro k hk
  rw [List.mem_range] at hk
  simp [Nat.mod_eq_of_lt hk, subOf]

theorem ring_full_back {g : Graph K} {n : Nat} (hn : 2 ≤ n) :
    ((ringPos n (n - 1) n).map (idAt g)).reverse = ((List.range n).map (subOf g)).reverse ++ [subOf g (n - 1)] := by
  unfold ringPos
  rw [List.range_succ_eq_map]
  simp only [List.map_cons, List.map_map, List.reverse_cons, Nat.add_zero]
  rw [Nat.mod_eq_of_lt (show n - 1 < n by omega)]
  congr 2
  apply List.map_congr_left
  intro k hk
  rw [List.mem_range] at hk
  have : (n - 1 + (k + 1)) % n = k := by
    have e : n - 1 + (k + 1) = n + k := by omega
    rw [e, Nat.add_mod_left, Nat.mod_eq_of_lt hk]
  simp [Function.comp, this, subOf]

end

end Sidermit
