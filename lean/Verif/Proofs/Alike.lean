import Verif.Proofs.Symmetry
import Verif.Props.Families

/-!
Lemmas for C82: the families of predefined routes look the same from every zone.
-/

set_option linter.unusedSectionVars false
set_option linter.unusedVariables false

namespace Sidermit

variable {K : Type} [Field K] [LinearOrder K] [IsStrictOrderedRing K] [PyMath K] {g : Graph K} {n : Nat} {f : Int → Int} {φ : Nat → Nat}

/-- the lines look the same in the image -/
def Alike (f : Int → Int) (rs : List (Route K)) : Prop := ∃ rs', rs'.Perm rs ∧ List.Forall₂ (LooksLike f) rs rs'

theorem Alike.append {l l' : List (Route K)} (h : Alike f l) (h' : Alike f l') : Alike f (l ++ l') := by
  obtain ⟨a, p, q⟩ := h
  obtain ⟨a', p', q'⟩ := h'
  exact ⟨a ++ a', p.append p', List.rel_append q q'⟩

/-- numbers below `k` mapped to each other one to one -/
theorem range_perm {k : Nat} {π : Nat → Nat} (hlt : ∀ i < k, π i < k) (hinj : ∀ i < k, ∀ j < k, π i = π j → i = j) :
    ((List.range k).map π).Perm (List.range k) := by
  have hnd : ((List.range k).map π).Nodup := by
    refine List.Nodup.map_on ?_ List.nodup_range
    intro i hi j hj
    exact hinj i (List.mem_range.1 hi) j (List.mem_range.1 hj)
  refine (List.subperm_of_subset hnd ?_).perm_of_length_le (by simp)
  intro a ha
  obtain ⟨i, hi, rfl⟩ := List.mem_map.1 ha
  exact List.mem_range.2 (hlt i (List.mem_range.1 hi))

theorem family_alike {m : Mode K} {k : Nat} {name : Nat → Str} {nodes stops : Nat → List Int} {rs : List (Route K)}
    (hf : RouteFamily g m k name nodes stops rs) {π : Nat → Nat} (hlt : ∀ i < k, π i < k)
    (hinj : ∀ i < k, ∀ j < k, π i = π j → i = j)
    (himg : ∀ i < k, (nodes (π i) = (nodes i).map f ∧ stops (π i) = (stops i).map f) ∨
      (nodes (π i) = ((nodes i).map f).reverse ∧ stops (π i) = ((stops i).map f).reverse)) : Alike f rs := by
  have hlen := hf.count
  have hat : ∀ i (hi : i < k), rs[i]? = some (rs[i]'(by rw [hlen]; exact hi)) := fun i hi => List.getElem?_eq_getElem _
  refine ⟨(List.range k).map (fun i => (rs[π i]?).getD ⟨[], m, [], [], [], [], .custom⟩), ?_, ?_⟩
  · have h1 : (List.range k).map (fun i => (rs[π i]?).getD (⟨[], m, [], [], [], [], .custom⟩ : Route K)) =
        ((List.range k).map π).map (fun i => (rs[i]?).getD ⟨[], m, [], [], [], [], .custom⟩) := by
      rw [List.map_map]; rfl
    have h2 : rs = (List.range k).map (fun i => (rs[i]?).getD ⟨[], m, [], [], [], [], .custom⟩) := by
      refine List.ext_getElem? fun i => ?_
      rw [List.getElem?_map]
      by_cases hi : i < k
      · rw [List.getElem?_range hi, Option.map_some, hat i hi]; rfl
      · rw [List.getElem?_eq_none_iff.2 (by rw [hlen]; omega), List.getElem?_eq_none_iff.2 (by rw [List.length_range]; omega)]; rfl
    rw [h1]
    conv_rhs => rw [h2]
    exact (range_perm hlt hinj).map _
  · refine List.forall₂_of_length_eq_of_get (by simp [hlen]) fun i l1 l2 => ?_
    have hi : i < k := by rw [← hlen]; exact l1
    obtain ⟨r, h1, _, h3, h4, h5, h6, h7⟩ := hf.each i hi
    obtain ⟨r', h1', _, h3', h4', h5', h6', h7'⟩ := hf.each (π i) (hlt i hi)
    have e1 : rs.get ⟨i, l1⟩ = r := by
      have := hat i hi
      rw [h1] at this
      exact (Option.some.inj this).symm
    have e2 : ((List.range k).map (fun i => (rs[π i]?).getD (⟨[], m, [], [], [], [], .custom⟩ : Route K))).get ⟨i, l2⟩ = r' := by
      rw [List.get_eq_getElem, List.getElem_map, List.getElem_range, h1']
      rfl
    rw [e1, e2]
    rcases himg i hi with ⟨g1, g2⟩ | ⟨g1, g2⟩
    · refine ⟨false, r', ⟨h3'.trans h3.symm, by rw [h4, h4'], fun d => ?_⟩, Or.inl rfl⟩
      cases d
      · change r'.nodesI = r.nodesI.map f ∧ r'.stopsI = r.stopsI.map f
        rw [h5, h5', h6, h6', g1, g2]
        exact ⟨rfl, rfl⟩
      · change r'.nodesR = r.nodesR.map f ∧ r'.stopsR = r.stopsR.map f
        rw [h7.reversed, h7'.reversed, h7.stops_reversed, h7'.stops_reversed, h5, h5', h6, h6', g1, g2, List.map_reverse, List.map_reverse]
        exact ⟨rfl, rfl⟩
    · refine ⟨true, r', ⟨h3'.trans h3.symm, by rw [h4, h4'], fun d => ?_⟩, Or.inl rfl⟩
      cases d
      · change r'.nodesR = r.nodesI.map f ∧ r'.stopsR = r.stopsI.map f
        rw [h7'.reversed, h7'.stops_reversed, h5, h5', h6, h6', g1, g2, List.reverse_reverse, List.reverse_reverse]
        exact ⟨rfl, rfl⟩
      · change r'.nodesI = r.nodesR.map f ∧ r'.stopsI = r.stopsR.map f
        rw [h7.reversed, h7.stops_reversed, h5, h5', h6, h6', g1, g2, List.map_reverse, List.map_reverse]
        exact ⟨rfl, rfl⟩

/-- `f` maps the zones to zones, in the same order round the city or in the opposite one -/
structure ZoneMap (g : Graph K) (n : Nat) (f : Int → Int) (φ : Nat → Nat) : Prop where
  lt : ∀ a < n, φ a < n
  inj : ∀ a < n, ∀ b < n, φ a = φ b → a = b
  sub : ∀ a < n, f (subOf g a) = subOf g (φ a)
  per : ∀ a < n, f (perOf g a) = perOf g (φ a)
  cbd : f (cbdOf g) = cbdOf g
  order : (∀ a < n, ∀ t, φ ((a + t) % n) = (φ a + t) % n) ∨ (∀ a < n, ∀ t, (φ ((a + t) % n) + t) % n = φ a)

theorem ZoneMap.ring (h : ZoneMap g n f φ) {i j : Nat} (hi : i < n) :
    (∀ a < n, ∀ t, φ ((a + t) % n) = (φ a + t) % n) → ringFrom g n (φ i) j = (ringFrom g n i j).map f := by
  intro hs
  unfold ringFrom
  rw [List.map_map]
  refine List.map_congr_left fun t _ => ?_
  rw [Function.comp_apply, h.sub _ (Nat.mod_lt _ (by omega)), hs i hi]

theorem ZoneMap.ring_back (h : ZoneMap g n f φ) {i j : Nat} (hi : i < n) :
    (∀ a < n, ∀ t, (φ ((a + t) % n) + t) % n = φ a) → ringFrom g n (φ ((i + j) % n)) j = ((ringFrom g n i j).map f).reverse := by
  intro hs
  unfold ringFrom
  rw [List.map_map]
  refine List.ext_getElem (by simp) fun t h1 h2 => ?_
  rw [List.getElem_reverse]
  simp only [List.getElem_map, List.getElem_range, List.length_map, List.length_range, Function.comp_apply]
  have ht : t ≤ j := by simp at h1; omega
  rw [show j + 1 - 1 - t = j - t by omega, h.sub _ (Nat.mod_lt _ (by omega))]
  congr 1
  have h3 := hs ((i + (j - t)) % n) (Nat.mod_lt _ (by omega)) t
  rw [← h3, Nat.mod_add_mod, show i + (j - t) + t = i + j by omega]

/-- the line asked for are not the tangential ones half way round the city -/
def FamilyRequest.AllRound (n : Nat) : FamilyRequest K → Prop
  | .tangential _ jump _ _ => 2 * jump ≠ n
  | _ => True

theorem feeder_alike {m : Mode K} {name : Nat → Str} {rs : List (Route K)} (h : ZoneMap g n f φ)
    (hf : RouteFamily g m n name (fun i => [perOf g i, subOf g i]) (fun i => [perOf g i, subOf g i]) rs) : Alike f rs :=
  family_alike hf h.lt h.inj fun i hi => Or.inl (by simp [h.per i hi, h.sub i hi])

/-- lines between two zones that do not depend on the zones between them -/
theorem pairs_alike {m : Mode K} {name : Nat → Str} {N S : Nat → Nat → List Int} {rs : List (Route K)} {j : Nat} (hj : 1 ≤ j) (hjn : 2 * j ≤ n)
    (h : ZoneMap g n f φ) (hN : ∀ a < n, ∀ b < n, N (φ a) (φ b) = (N a b).map f) (hS : ∀ a < n, ∀ b < n, S (φ a) (φ b) = (S a b).map f)
    (hN' : ∀ a b, N b a = (N a b).reverse) (hS' : ∀ a b, S b a = (S a b).reverse)
    (hf : RouteFamily g m (pairsAt n j) name (fun i => N i ((i + j) % n)) (fun i => S i ((i + j) % n)) rs) : Alike f rs := by
  have hn : 0 < n := by omega
  have hmod : ∀ a, a % n < n := fun a => Nat.mod_lt _ hn
  by_cases h2 : 2 * j = n
  · have hk : pairsAt n j = j := by unfold pairsAt; rw [if_pos h2]
    have hstep : ∀ i < n, φ ((i + j) % n) = (φ i + j) % n := by
      intro i hi
      rcases h.order with ho | ho
      · exact ho i hi j
      · have h1 := ho i hi j
        have h3 := h.lt _ (hmod (i + j))
        rw [← h1, Nat.mod_add_mod, show φ ((i + j) % n) + j + j = φ ((i + j) % n) + n by omega, Nat.add_mod_right, Nat.mod_eq_of_lt h3]
    have hval : ∀ i < j, (φ i % j = φ i ∧ φ i < j) ∨ (φ i % j + j = φ i ∧ j ≤ φ i) := by
      intro i hi
      have h3 := h.lt i (by omega)
      rcases Nat.lt_or_ge (φ i) j with h4 | h4
      · exact Or.inl ⟨Nat.mod_eq_of_lt h4, h4⟩
      · refine Or.inr ⟨?_, h4⟩
        rw [Nat.mod_eq_sub_mod h4, Nat.mod_eq_of_lt (by omega)]
        omega
    have hhalf : ∀ i < j, (φ i < j → (φ i + j) % n = φ i + j) ∧ (j ≤ φ i → (φ i + j) % n = φ i - j) := by
      intro i hi
      have h3 := h.lt i (by omega)
      refine ⟨fun h4 => Nat.mod_eq_of_lt (by omega), fun h4 => ?_⟩
      rw [show φ i + j = φ i - j + n by omega, Nat.add_mod_right, Nat.mod_eq_of_lt (by omega)]
    refine family_alike hf (π := fun i => φ i % j) ?_ ?_ ?_
    · rw [hk]; intro i _; exact Nat.mod_lt _ (by omega)
    · rw [hk]
      intro i hi i' hi' he
      have hsame : ∀ {a b : Nat}, a < j → b < j → φ a + j = φ b → False := by
        intro a b ha hb e
        have h3 := h.lt b (by omega)
        have h4 := hstep a (by omega)
        rw [(hhalf a ha).1 (by omega), e] at h4
        have := h.inj _ (hmod _) _ (by omega) h4
        rw [Nat.mod_eq_of_lt (by omega)] at this
        omega
      rcases hval i hi with ⟨e1, l1⟩ | ⟨e1, l1⟩ <;> rcases hval i' hi' with ⟨e2, l2⟩ | ⟨e2, l2⟩
      · exact h.inj i (by omega) i' (by omega) (by omega)
      · exact (hsame hi hi' (by omega)).elim
      · exact (hsame hi' hi (by omega)).elim
      · exact h.inj i (by omega) i' (by omega) (by omega)
    · rw [hk]
      intro i hi
      rcases hval i hi with ⟨e1, l1⟩ | ⟨e1, l1⟩
      · left
        rw [e1, ← hstep i (by omega)]
        exact ⟨hN i (by omega) _ (hmod _), hS i (by omega) _ (hmod _)⟩
      · right
        have e2 : φ i % j = φ ((i + j) % n) := by
          rw [hstep i (by omega), (hhalf i hi).2 l1]; omega
        have e3 : (φ i % j + j) % n = φ i := by rw [e1, Nat.mod_eq_of_lt (h.lt i (by omega))]
        rw [e3, e2, hN _ (hmod _) i (by omega), hS _ (hmod _) i (by omega), ← List.map_reverse, ← List.map_reverse, ← hN', ← hS']
        exact ⟨rfl, rfl⟩
  · have hk : pairsAt n j = n := by unfold pairsAt; rw [if_neg h2]
    rcases h.order with ho | ho
    · refine family_alike hf (π := φ) (by rw [hk]; exact h.lt) (by rw [hk]; exact h.inj) ?_
      rw [hk]
      intro i hi
      left
      rw [← ho i hi j]
      exact ⟨hN i hi _ (hmod _), hS i hi _ (hmod _)⟩
    · refine family_alike hf (π := fun i => φ ((i + j) % n)) ?_ ?_ ?_
      · rw [hk]; intro i _; exact h.lt _ (hmod _)
      · rw [hk]
        intro i hi i' hi' he
        refine h.inj i hi i' hi' ?_
        rw [← ho i hi j, he, ho i' hi' j]
      · rw [hk]
        intro i hi
        right
        rw [ho i hi j, hN _ (hmod _) i hi, hS _ (hmod _) i hi, ← List.map_reverse, ← List.map_reverse, ← hN', ← hS']
        exact ⟨rfl, rfl⟩

theorem radial_alike {m : Mode K} {name : Nat → Str} {short express : Bool} {rs : List (Route K)} (h : ZoneMap g n f φ)
    (hf : RouteFamily g m n name (fun i => if short then [subOf g i, cbdOf g] else [perOf g i, subOf g i, cbdOf g])
        (fun i => if short then [subOf g i, cbdOf g] else if express then [perOf g i, cbdOf g]
          else [perOf g i, subOf g i, cbdOf g]) rs) : Alike f rs := by
  refine family_alike hf h.lt h.inj fun i hi => Or.inl ?_
  cases short <;> cases express <;> simp [h.per i hi, h.sub i hi, h.cbd]

theorem diametral_alike {m : Mode K} {name : Nat → Str} {short express : Bool} {rs : List (Route K)} {j : Nat} (hj : 1 ≤ j)
    (hjn : 2 * j ≤ n) (h : ZoneMap g n f φ)
    (hf : RouteFamily g m (pairsAt n j) name (fun i => if short then [subOf g i, cbdOf g, subOf g ((i + j) % n)]
          else [perOf g i, subOf g i, cbdOf g, subOf g ((i + j) % n), perOf g ((i + j) % n)])
        (fun i => if express then (if short then [subOf g i, subOf g ((i + j) % n)] else [perOf g i, perOf g ((i + j) % n)])
          else if short then [subOf g i, cbdOf g, subOf g ((i + j) % n)]
          else [perOf g i, subOf g i, cbdOf g, subOf g ((i + j) % n), perOf g ((i + j) % n)]) rs) : Alike f rs := by
  refine pairs_alike (N := fun a b => if short then [subOf g a, cbdOf g, subOf g b] else [perOf g a, subOf g a, cbdOf g, subOf g b, perOf g b])
    (S := fun a b => if express then (if short then [subOf g a, subOf g b] else [perOf g a, perOf g b])
      else if short then [subOf g a, cbdOf g, subOf g b] else [perOf g a, subOf g a, cbdOf g, subOf g b, perOf g b]) hj hjn h ?_ ?_ ?_ ?_ hf
  · intro a ha b hb
    cases short <;> simp [h.per a ha, h.sub a ha, h.per b hb, h.sub b hb, h.cbd]
  · intro a ha b hb
    cases short <;> cases express <;> simp [h.per a ha, h.sub a ha, h.per b hb, h.sub b hb, h.cbd]
  · intro a b
    cases short <;> simp
  · intro a b
    cases short <;> cases express <;> simp

theorem tangential_alike {m : Mode K} {name : Nat → Str} {short express : Bool} {rs : List (Route K)} {j : Nat} (hj : 1 ≤ j)
    (hjn : 2 * j < n) (h : ZoneMap g n f φ)
    (hf : RouteFamily g m (pairsAt n j) name
        (fun i => if short then ringFrom g n i j else [perOf g i] ++ ringFrom g n i j ++ [perOf g ((i + j) % n)])
        (fun i => if express then (if short then [subOf g i, subOf g ((i + j) % n)] else [perOf g i, perOf g ((i + j) % n)])
          else if short then ringFrom g n i j else [perOf g i] ++ ringFrom g n i j ++ [perOf g ((i + j) % n)]) rs) : Alike f rs := by
  have hn : 0 < n := by omega
  have hmod : ∀ a, a % n < n := fun a => Nat.mod_lt _ hn
  have hk : pairsAt n j = n := by unfold pairsAt; rw [if_neg (by omega)]
  rcases h.order with ho | ho
  · refine family_alike hf (π := φ) (by rw [hk]; exact h.lt) (by rw [hk]; exact h.inj) ?_
    rw [hk]
    intro i hi
    left
    rw [← ho i hi j, h.ring hi ho]
    cases short <;> cases express <;>
      simp [h.per i hi, h.sub i hi, h.per _ (hmod (i + j)), h.sub _ (hmod (i + j))]
  · refine family_alike hf (π := fun i => φ ((i + j) % n)) ?_ ?_ ?_
    · rw [hk]; intro i _; exact h.lt _ (hmod _)
    · rw [hk]
      intro i hi i' hi' he
      refine h.inj i hi i' hi' ?_
      rw [← ho i hi j, he, ho i' hi' j]
    · rw [hk]
      intro i hi
      right
      rw [ho i hi j, h.ring_back hi ho]
      cases short <;> cases express <;>
        simp [h.per i hi, h.sub i hi, h.per _ (hmod (i + j)), h.sub _ (hmod (i + j))]

/-- the subcentres in order -/
def ringOf (g : Graph K) (n : Nat) : List Int := (List.range n).map (subOf g)

theorem ringOf_nodup (hs : CityShape g n) (hd : DistinctIds g) : (ringOf g n).Nodup := by
  refine List.Nodup.map_on ?_ List.nodup_range
  intro a ha b hb e
  rw [List.mem_range] at ha hb
  have := idAt_inj hs hd (i := 2 * a + 2) (j := 2 * b + 2) (by omega) (by omega) e
  omega

theorem ringOf_rotate (hn : 0 < n) (c : Nat) : (ringOf g n).rotate c = (List.range n).map fun t => subOf g ((t + c) % n) := by
  refine List.ext_getElem (by simp [ringOf]) fun t h1 h2 => ?_
  rw [List.getElem_rotate]
  simp [ringOf]

theorem ring_image (hn : 0 < n) (h : ZoneMap g n f φ) :
    ((ringOf g n).map f).IsRotated (ringOf g n) ∨ ((ringOf g n).map f).IsRotated (ringOf g n).reverse := by
  rcases h.order with ho | ho
  · left
    refine List.IsRotated.symm ⟨φ 0, ?_⟩
    rw [ringOf_rotate hn, ringOf, List.map_map]
    refine List.map_congr_left fun t ht => ?_
    rw [List.mem_range] at ht
    rw [Function.comp_apply, h.sub t ht]
    have := ho 0 hn t
    rw [Nat.zero_add, Nat.mod_eq_of_lt ht] at this
    rw [this, Nat.add_comm]
  · right
    refine List.IsRotated.symm ?_
    rw [← List.reverse_reverse ((ringOf g n).map f)]
    refine List.IsRotated.reverse ⟨φ (n - 1), ?_⟩
    rw [ringOf_rotate hn, ringOf, List.map_map]
    refine List.ext_getElem (by simp) fun t h1 h2 => ?_
    rw [List.getElem_reverse]
    have ht : t < n := by simpa using h1
    simp only [List.getElem_map, List.getElem_range, List.length_map, List.length_range, Function.comp_apply]
    rw [h.sub _ (by omega)]
    have := ho (n - 1 - t) (by omega) t
    rw [show n - 1 - t + t = n - 1 by omega, Nat.mod_eq_of_lt (by omega : n - 1 < n)] at this
    rw [← this, Nat.add_comm]

theorem closed_map (f : Int → Int) (l : List Int) : closed (l.map f) = (closed l).map f := by
  cases l <;> simp [closed]

/-- a line in one direction round the city -/
def roundRoute (id : Str) (m : Mode K) (ring : List Int) : Dir → Route K
  | .I => ⟨id, m, closed ring, [], closed ring, [], .circular⟩
  | .R => ⟨id, m, [], closed ring, [], closed ring, .circular⟩

theorem round_looks {id id' : Str} {m : Mode K} {ring ring' : List Int} {d d' : Dir} (hnd : ring'.Nodup)
    (h : (ring.map f).IsRotated ring') : LooksLike f (roundRoute id m ring d) (roundRoute id' m ring' d') := by
  obtain ⟨k, hk⟩ := h
  have hnd' : (ring.map f).Nodup := (List.IsRotated.nodup_iff ⟨k, hk⟩).2 hnd
  refine ⟨decide (d ≠ d'), roundRoute id' m (ring.map f) d', ⟨?_, ?_, ?_⟩, Or.inr ⟨?_, ?_, ?_, ?_, ?_⟩⟩
  · cases d <;> cases d' <;> rfl
  · cases d <;> cases d' <;> exact Iff.rfl
  · intro e
    cases d <;> cases d' <;> cases e <;> refine ⟨?_, ?_⟩ <;>
      simp [roundRoute, Dir.flip, Route.nodesOf, Route.stopsOf, closed_map]
  · cases d' <;> rfl
  · cases d' <;> rfl
  · cases d' <;> rfl
  · cases d' <;> rfl
  · intro e
    cases d' <;> cases e
    · exact ⟨ring.map f, k, hnd', rfl, rfl, by rw [hk]; rfl, by rw [hk]; rfl⟩
    · exact ⟨[], 0, List.nodup_nil, rfl, rfl, rfl, rfl⟩
    · exact ⟨[], 0, List.nodup_nil, rfl, rfl, rfl, rfl⟩
    · exact ⟨ring.map f, k, hnd', rfl, rfl, by rw [hk]; rfl, by rw [hk]; rfl⟩

theorem circular_alike (hs : CityShape g n) (hd : DistinctIds g) (hn : 2 ≤ n) (h : ZoneMap g n f φ) {s : Network K} (hg : s.graph = g)
    {m : Mode K} {rs : List (Route K)} (hr : s.circularRoutes m = .ok rs) : Alike f rs := by
  subst hg
  rw [circularRoutes_eq hs hn m] at hr
  have hnd := ringOf_nodup hs hd
  have e1 : closed (ringOf s.graph n) = (List.range n).map (subOf s.graph) ++ [subOf s.graph 0] := by
    unfold closed ringOf
    congr 1
    rw [List.head?_map, List.head?_range, if_neg (by omega)]
    rfl
  have e2 : closed (ringOf s.graph n).reverse = ((List.range n).map (subOf s.graph)).reverse ++ [subOf s.graph (n - 1)] := by
    unfold closed ringOf
    congr 1
    rw [List.head?_reverse, List.getLast?_map, List.getLast?_range, if_neg (by omega)]
    rfl
  rw [← e1, ← e2] at hr
  have hr : rs = [roundRoute ("CIR_I_".toList ++ m.name) m (ringOf s.graph n) .I,
      roundRoute ("CIR_R_".toList ++ m.name) m (ringOf s.graph n).reverse .R] := (Except.ok.inj hr).symm
  rw [hr]
  rcases ring_image (by omega) h with hi | hi
  · refine ⟨_, List.Perm.refl _, .cons (round_looks hnd hi) (.cons (round_looks (List.nodup_reverse.2 hnd) ?_) .nil)⟩
    rw [List.map_reverse]
    exact hi.reverse
  · refine ⟨_, List.Perm.swap _ _ _, .cons (round_looks (List.nodup_reverse.2 hnd) hi) (.cons (round_looks hnd ?_) .nil)⟩
    rw [List.map_reverse]
    have := hi.reverse
    rwa [List.reverse_reverse] at this

/-- every family asked for, but the tangential lines half way round the city -/
theorem request_alike (hs : CityShape g n) (hd : DistinctIds g) (hn : 1 ≤ n) (h : ZoneMap g n f φ) {s : Network K} (hg : s.graph = g)
    {q : FamilyRequest K} (hq : q.Possible n) (hr : q.AllRound n) {rs : List (Route K)} (hrun : q.run s = .ok rs) : Alike f rs := by
  cases q with
  | circular m => exact circular_alike hs hd hq h hg hrun
  | feeder m =>
    obtain ⟨rs', h1, h2⟩ := C30_feeder_routes hs hd s hg m
    cases h1.symm.trans hrun
    exact feeder_alike h h2
  | radial m short express =>
    obtain ⟨rs', h1, h2⟩ := C31_radial_routes hs hd s hg m short express
    cases h1.symm.trans hrun
    exact radial_alike h h2
  | diametral m jump short express =>
    obtain ⟨h3, h4⟩ := hq
    obtain ⟨j, rfl⟩ := Int.eq_ofNat_of_zero_le (by omega : 0 ≤ jump)
    obtain ⟨rs', h1, h2⟩ := C32_diametral_routes hs hd s hg m short express (j := j) (by omega) (by omega)
    cases h1.symm.trans hrun
    exact diametral_alike (by omega) (by omega) h h2
  | tangential m jump short express =>
    obtain ⟨h3, h4⟩ := hq
    obtain ⟨j, rfl⟩ := Int.eq_ofNat_of_zero_le (by omega : 0 ≤ jump)
    obtain ⟨rs', h1, h2⟩ := C33_tangential_routes hs hd s hg m short express (j := j) (by omega) (by omega)
    cases h1.symm.trans hrun
    have hr : 2 * (j : Int) ≠ n := hr
    exact tangential_alike (by omega) (by omega) h h2

end Sidermit
