import Verif.Props.ExpressClock

/-!
C91 for the remaining express lines: radial and tangential.
-/

set_option linter.unusedSectionVars false

namespace Sidermit

section Generic

variable {K : Type} [Field K] [LinearOrder K] [IsStrictOrderedRing K] [PyMath K] {g : Graph K} {n : Nat}

/-- every zone is an end of a line between zones `j` apart -/
theorem end_of_some {n j z : Nat} (hz : z < n) : ∃ i, i < pairsAt n j ∧ (z = i ∨ z = (i + j) % n) := by
  unfold pairsAt
  split_ifs with h
  · rcases Nat.lt_or_ge z j with hz' | hz'
    · exact ⟨z, hz', Or.inl rfl⟩
    · refine ⟨z - j, by omega, Or.inr ?_⟩
      rw [Nat.sub_add_cancel hz', Nat.mod_eq_of_lt hz]
  · exact ⟨z, hz, Or.inl rfl⟩

/-- C91 holds for short tangential express lines, in every city: the subcentres which a line passes are ends of other lines
of the family. -/
theorem C91_express_tangential_short (hs : CityShape g n) (hd : DistinctIds g) {m : Mode K} (hmd : (m.d : K) ≠ 0)
    (hmv : m.v ≠ 0) {j : Nat} (hj : 1 ≤ j) (hjn : 2 * j ≤ n) (sPTP : K) (freq : Option (Dict Str K)) :
    ∃ rs x t, (Network.init g).tangentialRoutes m j true true = .ok rs ∧ buildExtGraph g rs sPTP freq = .ok x ∧
      linesTravelTime rs g.edgesDistance = .ok t ∧
      ∀ (k : Nat) (r : Route K), rs[k]? = some r → (∀ d, ∃ ts, RideTimes x r k d ts) ∧
        ∀ ts : Dir → List K, (∀ d, RideTimes x r k d (ts d)) → (ts .I).sum + (ts .R).sum = t.getD r.id 0 := by
  obtain ⟨rs, hrs, hf⟩ := C33_tangential_routes hs hd (Network.init g) rfl m true true hj hjn
  simp only [if_true] at hf
  obtain ⟨x, t, hx, ht, hv, hall⟩ := family_built hd hmd hmv hf (fun i _ => by simp [ringFrom]; omega) sPTP freq
  refine ⟨rs, x, t, hrs, hx, ht, fun k r hk => ?_⟩
  obtain ⟨_, _, hnc, h3, _, h5, h6, _⟩ := hall k r hk
  refine C91_two_way hs hd hx hf.distinct hv ht hk hnc h5 h6 ?_
  intro a ha hin
  obtain ⟨q, hq⟩ := List.mem_iff_getElem?.1 ha
  rw [h3] at hin
  obtain ⟨z, _, hz⟩ := List.mem_map.1 hin
  obtain ⟨i, hi, hzi⟩ := end_of_some (j := j) (Nat.mod_lt (k + z) (show 0 < n by omega))
  have hlt : i < rs.length := by rw [hf.count]; exact hi
  have hi' := List.getElem?_eq_getElem hlt
  obtain ⟨_, _, hnc', _, h4', _⟩ := hall i _ hi'
  have hmem : a.id ∈ rs[i].stopsI := by
    rw [h4', ← hz]
    rcases hzi with h | h <;> rw [h] <;> simp
  obtain ⟨p, hp⟩ := List.mem_iff_getElem?.1 hmem
  exact ⟨⟨rs[i].mode, ⟨q, a⟩⟩, ⟨hq, rs[i], List.mem_of_getElem? hi', rfl, .I, p, hp, fun h => absurd h hnc'⟩, rfl⟩

end Generic

/-! ## the symmetric city -/

theorem travelled_two (ns : List (Node ℝ)) (a b : Node ℝ) : travelled (ns ++ [a, b]) = travelled (ns ++ [a]) + nodeDistance a b := by
  cases ns with
  | nil => rw [List.nil_append, List.nil_append, travelled_cons_cons, travelled_single, travelled_single, add_comm]
  | cons c ns =>
    rw [List.cons_append, List.cons_append, travelled_append, travelled_cons_cons, travelled_single, add_zero]

theorem travelled_back : ∀ ns : List (Node ℝ), travelled ns.reverse = travelled ns
  | [] => rfl
  | [_] => rfl
  | a :: b :: ns => by
    have ih := travelled_back (b :: ns)
    rw [List.reverse_cons] at ih
    rw [List.reverse_cons, List.reverse_cons, List.append_assoc, List.cons_append, List.nil_append, travelled_two, ih,
      travelled_cons_cons, nodeDistance_symm b a, add_comm]

variable {n : Nat} {l gg p : ℝ} {city : Graph ℝ}

/-- the subcentres of a part of the ring -/
noncomputable def ringNodes (n : Nat) (l gg p : ℝ) (s j : Nat) : List (Node ℝ) :=
  (List.range (j + 1)).map fun k => evenNode n l gg p (2 * ((s + k) % n) + 2)

theorem ringNodes_succ (s j : Nat) :
    ringNodes n l gg p s (j + 1) = evenNode n l gg p (2 * (s % n) + 2) :: ringNodes n l gg p (s + 1) j := by
  unfold ringNodes
  rw [List.range_succ_eq_map, List.map_cons, List.map_map, Nat.add_zero]
  congr 1
  refine List.map_congr_left fun k _ => ?_
  simp only [Function.comp_apply, Nat.succ_eq_add_one, Nat.add_comm k 1, Nat.add_assoc]

theorem ringNodes_head (s j : Nat) : ∃ ns, ringNodes n l gg p s j = evenNode n l gg p (2 * (s % n) + 2) :: ns := by
  cases j with
  | zero => exact ⟨[], by simp [ringNodes]⟩
  | succ j => exact ⟨_, ringNodes_succ s j⟩

theorem even_ring (hl : 0 ≤ l) (hn : 1 ≤ n) (q : Node ℝ) (s j : Nat) :
    travelled (ringNodes n l gg p s j ++ [q]) =
      j * (2 * l * Real.sin (Real.pi / n)) + nodeDistance (evenNode n l gg p (2 * ((s + j) % n) + 2)) q := by
  induction j generalizing s with
  | zero => simp [ringNodes, travelled_cons_cons, travelled_single]
  | succ j ih =>
    have h := ih (s + 1)
    obtain ⟨ns, hns⟩ := ringNodes_head (n := n) (l := l) (gg := gg) (p := p) (s + 1) j
    rw [hns] at h
    rw [ringNodes_succ, hns, List.cons_append, List.cons_append, travelled_cons_cons, ← List.cons_append, h]
    have hd := even_sub_sub (gg := gg) (p := p) hl (Nat.mod_lt s hn) hn
    rw [show (s % n + 1) % n = (s + 1) % n by simp [Nat.add_mod]] at hd
    rw [Nat.cast_one, mul_one] at hd
    rw [hd, show s + 1 + j = s + (j + 1) by omega]
    push_cast
    ring

/-- C91 holds for radial express lines in a symmetric city: the subcentre which they pass lies on the straight line. -/
theorem C91_express_radial (hb : buildFromParameters (n : Int) l gg p none none none none none = .ok city) {m : Mode ℝ}
    (hmd : (m.d : ℝ) ≠ 0) (hmv : m.v ≠ 0) (sPTP : ℝ) (freq : Option (Dict Str ℝ)) :
    ∃ rs x t, (Network.init city).radialRoutes m false true = .ok rs ∧ buildExtGraph city rs sPTP freq = .ok x ∧
      linesTravelTime rs city.edgesDistance = .ok t ∧
      ∀ (k : Nat) (r : Route ℝ), rs[k]? = some r → (∀ d, ∃ ts, RideTimes x r k d ts) ∧
        t.getD r.id 0 = 2 * (l + gg * l) / m.v ∧
        ∀ ts : Dir → List ℝ, (∀ d, RideTimes x r k d (ts d)) → (ts .I).sum + (ts .R).sum = t.getD r.id 0 := by
  obtain ⟨hs, hd, hl, hg, hnode⟩ := even_nodes hb
  obtain ⟨rs, hrs, hf⟩ := C31_radial_routes hs hd (Network.init city) rfl m false true
  simp only [Bool.false_eq_true, if_false, if_true] at hf
  have hf' : RouteFamily city m n (routeLabel "RE".toList m.name)
      (fun i => (evenNode n l gg p (2 * i + 1) :: ([evenNode n l gg p (2 * i + 2)] ++ [evenNode n l gg p 0])).map Node.id)
      (fun i => [(evenNode n l gg p (2 * i + 1)).id, (evenNode n l gg p 0).id]) rs := by
    refine ⟨hf.count, fun i hi => ?_, hf.distinct, hf.accepted⟩
    obtain ⟨r, h1, h2, h3, h4, h5, h6, h7⟩ := hf.each i hi
    refine ⟨r, h1, h2, h3, h4, h5.trans ?_, h6.trans ?_, h7⟩ <;>
    simp only [List.map_cons, List.map_nil, List.cons_append, List.nil_append, (hnode (2 * i + 1) (by omega)).2,
      (hnode (2 * i + 2) (by omega)).2, (hnode 0 (by omega)).2] <;> rfl
  obtain ⟨x, t, hx, ht, hall⟩ := C91_express hs hd hmd hmv hf' (fun i hi q hq => by
    simp only [List.cons_append, List.nil_append, List.mem_cons, List.not_mem_nil, or_false] at hq
    rcases hq with rfl | rfl | rfl
    exacts [(hnode _ (by omega)).1, (hnode _ (by omega)).1, (hnode _ (by omega)).1]) (fun i hi q hq i' hi' => by
    rw [List.mem_singleton] at hq
    subst hq
    simp only [nodeAt_id]
    omega) sPTP freq
  refine ⟨rs, x, t, hrs, hx, ht, fun k r hk => ?_⟩
  obtain ⟨h1, h2, h3⟩ := hall k r hk
  have hd' : nodeDistance (evenNode n l gg p (2 * k + 1)) (evenNode n l gg p 0) = l + gg * l := by
    have h := along_ray (l + gg * l) 0 (360 / (n : ℝ) * (k : ℝ) * Real.pi / 180)
    rw [sub_zero, abs_of_nonneg (by positivity)] at h
    conv_rhs => rw [← h]
    have e1 : (2 * k) / 2 = k := by omega
    have e2 : (2 * k + 1) % 2 = 1 := by omega
    simp [nodeDistance, evenNode, nodeAt, evenGeo, docGeo, PyMath.sqrt, PyMath.cosDeg, PyMath.sinDeg, e1, e2]
  have h2' : t.getD r.id 0 = 2 * (l + gg * l) / m.v := by
    rw [h2, travelled_back]
    simp only [List.cons_append, List.nil_append, travelled_cons_cons, travelled_single, even_sub_cbd hl, even_per_sub hl hg]
    ring
  refine ⟨h1, h2', fun ts hts => ?_⟩
  obtain ⟨h4, h5⟩ := h3 ts hts
  rw [h4, h5, h2', nodeDistance_symm (evenNode n l gg p 0), hd']
  ring

/-- C91, tangential express lines from periphery to periphery in a symmetric city: the passengers fly along the chord, the
vehicle goes in to the ring, along it and out again. -/
theorem C91_express_tangential (hb : buildFromParameters (n : Int) l gg p none none none none none = .ok city) {m : Mode ℝ}
    (hmd : (m.d : ℝ) ≠ 0) (hmv : m.v ≠ 0) {j : Nat} (hj : 1 ≤ j) (hjn : 2 * j ≤ n) (sPTP : ℝ)
    (freq : Option (Dict Str ℝ)) :
    ∃ rs x t, (Network.init city).tangentialRoutes m j false true = .ok rs ∧ buildExtGraph city rs sPTP freq = .ok x ∧
      linesTravelTime rs city.edgesDistance = .ok t ∧
      ∀ (k : Nat) (r : Route ℝ), rs[k]? = some r → (∀ d, ∃ ts, RideTimes x r k d ts) ∧
        t.getD r.id 0 = 4 * (gg * l + j * (l * Real.sin (Real.pi / n))) / m.v ∧
        ∀ ts : Dir → List ℝ, (∀ d, RideTimes x r k d (ts d)) →
          (ts .I).sum + (ts .R).sum = 4 * ((l + gg * l) * Real.sin (Real.pi * j / n)) / m.v := by
  obtain ⟨hs, hd, hl, hg, hnode⟩ := even_nodes hb
  obtain ⟨rs, hrs, hf⟩ := C33_tangential_routes hs hd (Network.init city) rfl m false true hj hjn
  simp only [Bool.false_eq_true, if_false, if_true] at hf
  have hle : ∀ {i}, i < pairsAt n j → i < n := by
    intro i hi
    unfold pairsAt at hi
    split_ifs at hi <;> omega
  have hmod : ∀ i, i % n < n := fun i => Nat.mod_lt _ (by omega)
  have hring : ∀ i, (ringNodes n l gg p i j).map Node.id = ringFrom city n i j := by
    intro i
    unfold ringNodes ringFrom
    rw [List.map_map]
    refine List.map_congr_left fun k _ => ?_
    have := hmod (i + k)
    exact (hnode (2 * ((i + k) % n) + 2) (by omega)).2
  have hf' : RouteFamily city m (pairsAt n j) (routeLabel ("T".toList ++ [] ++ "E".toList ++ showInt j) m.name)
      (fun i => (evenNode n l gg p (2 * i + 1) :: (ringNodes n l gg p i j ++ [evenNode n l gg p (2 * ((i + j) % n) + 1)])).map Node.id)
      (fun i => [(evenNode n l gg p (2 * i + 1)).id, (evenNode n l gg p (2 * ((i + j) % n) + 1)).id]) rs := by
    refine ⟨hf.count, fun i hi => ?_, hf.distinct, hf.accepted⟩
    obtain ⟨r, h1, h2, h3, h4, h5, h6, h7⟩ := hf.each i hi
    have hi' := hle hi
    have hm := hmod (i + j)
    refine ⟨r, h1, h2, h3, h4, h5.trans ?_, h6.trans ?_, h7⟩
    · simp only [List.map_cons, List.map_append, List.map_nil, hring, (hnode (2 * i + 1) (by omega)).2,
        (hnode (2 * ((i + j) % n) + 1) (by omega)).2]
      rfl
    · simp only [(hnode (2 * i + 1) (by omega)).2, (hnode (2 * ((i + j) % n) + 1) (by omega)).2]
      rfl
  obtain ⟨x, t, hx, ht, hall⟩ := C91_express hs hd hmd hmv hf' (fun i hi q hq => by
    have hi' := hle hi
    have hm := hmod (i + j)
    rcases List.mem_cons.1 hq with rfl | hq
    · exact (hnode _ (by omega)).1
    rcases List.mem_append.1 hq with hq | hq
    · obtain ⟨z, _, rfl⟩ := List.mem_map.1 hq
      have := hmod (i + z)
      exact (hnode _ (by omega)).1
    · rw [List.mem_singleton.1 hq]
      exact (hnode _ (by omega)).1) (fun i hi q hq i' hi' => by
    obtain ⟨z, _, rfl⟩ := List.mem_map.1 hq
    simp only [nodeAt_id]
    omega) sPTP freq
  refine ⟨rs, x, t, hrs, hx, ht, fun k r hk => ?_⟩
  obtain ⟨h1, h2, h3⟩ := hall k r hk
  have hkn : k < n := by
    have := (List.getElem?_eq_some_iff.1 hk).1
    rw [hf.count] at this
    exact hle this
  have hw : travelled (evenNode n l gg p (2 * k + 1) :: (ringNodes n l gg p k j ++ [evenNode n l gg p (2 * ((k + j) % n) + 1)])) =
      2 * (gg * l + j * (l * Real.sin (Real.pi / n))) := by
    have h := even_ring (gg := gg) (p := p) hl (show 1 ≤ n by omega) (evenNode n l gg p (2 * ((k + j) % n) + 1)) k j
    obtain ⟨ns, hns⟩ := ringNodes_head (n := n) (l := l) (gg := gg) (p := p) k j
    rw [hns, List.cons_append] at h
    rw [hns, List.cons_append, travelled_cons_cons, h, Nat.mod_eq_of_lt hkn, even_per_sub hl hg,
      nodeDistance_symm _ (evenNode n l gg p (2 * ((k + j) % n) + 1)), even_per_sub hl hg]
    ring
  refine ⟨h1, by rw [h2, travelled_back, hw]; ring, fun ts hts => ?_⟩
  obtain ⟨h4, h5⟩ := h3 ts hts
  rw [h4, h5, nodeDistance_symm (evenNode n l gg p (2 * ((k + j) % n) + 1)), even_per_per hl hg hkn (by omega)]
  ring

/-! ## examples -/

/-- a city with six zones: between neighbouring zones the vehicle of a tangential express line needs `40 / v`, its passengers
`30 / v`; on radial express lines both need `30 / v` -/
example (m : Mode ℝ) (hmd : (m.d : ℝ) ≠ 0) (hmv : m.v ≠ 0) : ∃ city,
    buildFromParameters (K := ℝ) ((6 : Nat) : Int) 10 (1/2) 2 none none none none none = .ok city ∧
    (∃ rs x t, (Network.init city).tangentialRoutes m (1 : Nat) false true = .ok rs ∧ buildExtGraph city rs 2 none = .ok x ∧
      linesTravelTime rs city.edgesDistance = .ok t ∧
      ∀ (k : Nat) (r : Route ℝ), rs[k]? = some r → ∃ ts : Dir → List ℝ, (∀ d, RideTimes x r k d (ts d)) ∧
        t.getD r.id 0 = 40 / m.v ∧ (ts .I).sum + (ts .R).sum = 30 / m.v) ∧
    ∃ rs x t, (Network.init city).radialRoutes m false true = .ok rs ∧ buildExtGraph city rs 2 none = .ok x ∧
      linesTravelTime rs city.edgesDistance = .ok t ∧
      ∀ (k : Nat) (r : Route ℝ), rs[k]? = some r → ∃ ts : Dir → List ℝ, (∀ d, RideTimes x r k d (ts d)) ∧
        t.getD r.id 0 = 30 / m.v ∧ (ts .I).sum + (ts .R).sum = 30 / m.v := by
  have hok : CityParamsOk (K := ℝ) ((6 : Nat) : Int) 10 (1/2) 2 none none none none none :=
    ⟨by omega, by norm_num, by norm_num, by norm_num, Or.inl ⟨rfl, rfl⟩, by simp, by simp, by simp⟩
  obtain ⟨city, hb⟩ := buildFromParameters_ok_iff.2 hok
  have e1 : Real.sin (Real.pi / ((6 : Nat) : ℝ)) = 1 / 2 := by
    rw [← Real.sin_pi_div_six]
    norm_num
  have e2 : Real.sin (Real.pi * ((1 : Nat) : ℝ) / ((6 : Nat) : ℝ)) = 1 / 2 := by
    rw [Nat.cast_one, mul_one, e1]
  refine ⟨city, hb, ?_, ?_⟩
  · obtain ⟨rs, x, t, h1, h2, h3, h4⟩ := C91_express_tangential hb hmd hmv (j := 1) (le_refl 1) (by norm_num) 2 none
    refine ⟨rs, x, t, h1, h2, h3, fun k r hk => ?_⟩
    obtain ⟨h5, h6, h7⟩ := h4 k r hk
    choose ts hts using h5
    refine ⟨ts, hts, ?_, ?_⟩
    · rw [h6, e1]; norm_num
    · rw [h7 ts hts, e2]; norm_num
  · obtain ⟨rs, x, t, h1, h2, h3, h4⟩ := C91_express_radial hb hmd hmv 2 none
    refine ⟨rs, x, t, h1, h2, h3, fun k r hk => ?_⟩
    obtain ⟨h5, h6, h7⟩ := h4 k r hk
    choose ts hts using h5
    have e : t.getD r.id 0 = 30 / m.v := by rw [h6]; norm_num
    exact ⟨ts, hts, e, by rw [h7 ts hts, e]⟩

/-- the hypotheses of `C91_express_tangential_short` for a city with six zones and lines over two of them, six in number -/
example (m : Mode ℝ) : ∃ city : Graph ℝ,
    buildFromParameters (K := ℝ) ((6 : Nat) : Int) 10 (1/2) 2 none none none none none = .ok city ∧ CityShape city 6 ∧
    DistinctIds city ∧ ∃ rs, (Network.init city).tangentialRoutes m (2 : Nat) true true = .ok rs ∧ rs.length = 6 := by
  have hok : CityParamsOk (K := ℝ) ((6 : Nat) : Int) 10 (1/2) 2 none none none none none :=
    ⟨by omega, by norm_num, by norm_num, by norm_num, Or.inl ⟨rfl, rfl⟩, by simp, by simp, by simp⟩
  obtain ⟨city, hb⟩ := buildFromParameters_ok_iff.2 hok
  obtain ⟨hs, hd, _⟩ := even_nodes hb
  obtain ⟨rs, h1, h2⟩ := C33_tangential_routes hs hd (Network.init city) rfl m true true (j := 2) (by norm_num) (by norm_num)
  exact ⟨city, hb, hs, hd, rs, h1, h2.count⟩

end Sidermit
