import Verif.Props.ClockFamilies
import Verif.Props.Symmetry

/-!
C91 for express lines.
-/

set_option linter.unusedSectionVars false

namespace Sidermit

section Generic

variable {K : Type} [Field K] [LinearOrder K] [IsStrictOrderedRing K] [PyMath K] {g : Graph K} {n : Nat}
  {routes : List (Route K)} {sPTP : K} {freq : Option (Dict Str K)} {x : ExtGraph K}

theorem served_stop {a : Node K} (h : Served g routes a) : ∃ r ∈ routes, ∃ d, a.id ∈ r.stopsOf d := by
  obtain ⟨s, ⟨_, r, hr, _, d, i, hi, _⟩, rfl⟩ := h
  exact ⟨r, hr, d, List.mem_of_getElem? hi⟩

/-- passengers of a line that only stops at its ends, and whose other nodes are not served, travel as the crow flies -/
theorem express_ride (hd : DistinctIds g) (h : buildExtGraph g routes sPTP freq = .ok x) {k : Nat} {r : Route K}
    (hk : routes[k]? = some r) {d : Dir} {a b : Node K} {ns : List (Node K)} (hA : ∀ q ∈ a :: (ns ++ [b]), q ∈ g.nodes)
    (hAr : (a :: (ns ++ [b])).map Node.id = r.nodesOf d) (hst : r.stopsOf d = [a.id, b.id]) (hnd : (r.nodesOf d).Nodup)
    (hun : ∀ q ∈ ns, ¬ Served g routes q) {ts : List K} (hts : RideTimes x r k d ts) :
    ts.sum = nodeDistance a b / r.mode.v := by
  classical
  have hlen := hts.length
  rw [hst] at hlen
  obtain ⟨t, rfl⟩ := List.length_eq_one_iff.1 hlen
  obtain ⟨e, p, m, he, hi, hj, het, hna, hnb, hm, hmr, hmd, hseq⟩ :=
    ride_place hd h hk hA hAr hts (i := 0) (t := t) (na := a) (nb := b) (pre := []) (ns := ns) (post := []) rfl
      (by rw [hst]; rfl) (by rw [hst]; rfl) rfl
  have := C36_leg_time_served_nodes hd h he hi hj (fun q hq => hA q (by simp [hq])) hseq (by rw [hmr, hmd]; exact hnd)
  rw [List.sum_singleton, ← het, this, hna, hnb, hm, List.filter_eq_nil_iff.2 (by simpa using hun), List.nil_append,
    travelled_cons_cons, travelled_single, add_zero]

/-- C91 for express lines alone: the passengers' time is that of the straight line between the ends, the running time of
the vehicle is that of the way. -/
theorem C91_express (hs : CityShape g n) (hd : DistinctIds g) {m : Mode K} (hmd : (m.d : K) ≠ 0) (hmv : m.v ≠ 0) {j : Nat}
    {name : Nat → Str} {a b : Nat → Node K} {inner : Nat → List (Node K)} {rs : List (Route K)}
    (hf : RouteFamily g m j name (fun i => (a i :: (inner i ++ [b i])).map Node.id) (fun i => [(a i).id, (b i).id]) rs)
    (hin : ∀ i, i < j → ∀ q ∈ a i :: (inner i ++ [b i]), q ∈ g.nodes)
    (hun : ∀ i, i < j → ∀ q ∈ inner i, ∀ i', i' < j → q.id ≠ (a i').id ∧ q.id ≠ (b i').id) (sPTP : K)
    (freq : Option (Dict Str K)) :
    ∃ x t, buildExtGraph g rs sPTP freq = .ok x ∧ linesTravelTime rs g.edgesDistance = .ok t ∧
      ∀ (k : Nat) (r : Route K), rs[k]? = some r → (∀ d, ∃ ts, RideTimes x r k d ts) ∧
        t.getD r.id 0 = (travelled (a k :: (inner k ++ [b k])) + travelled (a k :: (inner k ++ [b k])).reverse) / m.v ∧
        ∀ ts : Dir → List K, (∀ d, RideTimes x r k d (ts d)) →
          (ts .I).sum = nodeDistance (a k) (b k) / m.v ∧ (ts .R).sum = nodeDistance (b k) (a k) / m.v := by
  obtain ⟨x, t, hx, ht, hv, hall⟩ := family_built hd hmd hmv hf (fun i _ => by simp) sPTP freq
  refine ⟨x, t, hx, ht, ?_⟩
  have hstops : ∀ r ∈ rs, ∀ d, ∀ z ∈ r.stopsOf d, ∃ i, i < j ∧ (z = (a i).id ∨ z = (b i).id) := by
    intro r hr d z hz
    obtain ⟨k, hk⟩ := List.mem_iff_getElem?.1 hr
    obtain ⟨h0, _, _, _, h4, h5, _⟩ := hall k r hk
    have hz' : z ∈ r.stopsI := by
      cases d with
      | I => exact hz
      | R => exact List.mem_reverse.1 (by rw [← h5.stops_reversed]; exact hz)
    rw [h4] at hz'
    exact ⟨k, h0, by simpa using hz'⟩
  intro k r hk
  obtain ⟨h0, h1, _, h3, h4, h5, _, h7⟩ := hall k r hk
  have hunserved : ∀ q ∈ inner k, ¬ Served g rs q := by
    intro q hq hse
    obtain ⟨r', hr', d, hz⟩ := served_stop hse
    obtain ⟨i, hi, hz⟩ := hstops r' hr' d _ hz
    have := hun k h0 q hq i hi
    rcases hz with hz | hz
    · exact this.1 hz
    · exact this.2 hz
  have hrev : (a k :: (inner k ++ [b k])).reverse = b k :: ((inner k).reverse ++ [a k]) := by simp
  have hAI : (a k :: (inner k ++ [b k])).map Node.id = r.nodesI := h3.symm
  have hAR : (b k :: ((inner k).reverse ++ [a k])).map Node.id = r.nodesR := by
    rw [h5.reversed, ← hAI, ← List.map_reverse, hrev]
  have hinR : ∀ q ∈ b k :: ((inner k).reverse ++ [a k]), q ∈ g.nodes := by
    intro q hq
    rw [← hrev] at hq
    exact hin k h0 q (List.mem_reverse.1 hq)
  refine ⟨h7, ?_, ?_⟩
  · obtain ⟨A, hI, hR⟩ : ∃ A : Dir → List (Node K), A .I = a k :: (inner k ++ [b k]) ∧
        A .R = b k :: ((inner k).reverse ++ [a k]) := ⟨outAndBack _ _, rfl, rfl⟩
    have hA : ∀ d, ∀ q ∈ A d, q ∈ g.nodes := by
      intro d
      cases d
      · rw [hI]; exact hin k h0
      · rw [hR]; exact hinR
    have hAr : ∀ d, (A d).map Node.id = r.nodesOf d := by
      intro d
      cases d
      · rw [hI]; exact hAI
      · rw [hR]; exact hAR
    have hoff : ∀ d, offStreets g (A d) = 0 := by
      intro d
      have e := lookup_offStreets hs hd (hA d)
      rw [travelled_lookup hs hd (hA d) (by rw [hAr]; cases d; exacts [h5.streetsI, h5.streetsR])] at e
      simpa using e
    rw [C91_vehicle_time hs hd hf.distinct hv ht (List.mem_of_getElem? hk) hA hAr, hoff, hoff, add_zero, sub_zero, h1, hrev,
      hI, hR]
  · intro ts hts
    have hI := express_ride hd hx hk (d := .I) (hin k h0) hAI (show r.stopsI = _ from h4) h5.valid.noloopI hunserved (hts .I)
    have hR := express_ride hd hx hk (d := .R) hinR hAR
      (show r.stopsR = _ by rw [h5.stops_reversed, h4]; rfl) h5.valid.noloopR
      (fun q hq => hunserved q (List.mem_reverse.1 hq)) (hts .R)
    rw [h1] at hI hR
    exact ⟨hI, hR⟩

end Generic

/-! ## the symmetric city -/

/-- the distance of two points of a circle -/
theorem chord (R a b : ℝ) (hR : 0 ≤ R) :
    Real.sqrt ((R * Real.cos a - R * Real.cos b) ^ 2 + (R * Real.sin a - R * Real.sin b) ^ 2) =
      2 * R * |Real.sin ((a - b) / 2)| := by
  have h : (R * Real.cos a - R * Real.cos b) ^ 2 + (R * Real.sin a - R * Real.sin b) ^ 2 =
      (2 * R * |Real.sin ((a - b) / 2)|) ^ 2 := by
    rw [mul_pow, sq_abs]
    have h1 := Real.sin_sq_add_cos_sq a
    have h2 := Real.sin_sq_add_cos_sq b
    have h3 := Real.cos_sub a b
    have h4 := Real.cos_two_mul ((a - b) / 2)
    have h5 := Real.sin_sq_add_cos_sq ((a - b) / 2)
    rw [mul_div_cancel₀ _ two_ne_zero, h3] at h4
    nlinarith [h1, h2, h4, h5]
  rw [h, Real.sqrt_sq (by positivity)]

/-- the distance of two points on one ray -/
theorem along_ray (R S a : ℝ) :
    Real.sqrt ((R * Real.cos a - S * Real.cos a) ^ 2 + (R * Real.sin a - S * Real.sin a) ^ 2) = |R - S| := by
  have h : (R * Real.cos a - S * Real.cos a) ^ 2 + (R * Real.sin a - S * Real.sin a) ^ 2 = (R - S) ^ 2 := by
    have h1 := Real.sin_sq_add_cos_sq a
    linear_combination (R - S) ^ 2 * h1
  rw [h, Real.sqrt_sq_eq_abs]

variable {n : Nat} {l gg p : ℝ} {city : Graph ℝ}

/-- the node at a position of the symmetric city -/
noncomputable abbrev evenNode (n : Nat) (l gg p : ℝ) (j : Nat) : Node ℝ := nodeAt (evenGeo n l gg) p j

theorem half_turn {n i j : Nat} (hj : j ≤ n) (hi : i < n) :
    |Real.sin ((360 / (n : ℝ) * (i : ℝ) * Real.pi / 180 - 360 / (n : ℝ) * ((i + j) % n : Nat) * Real.pi / 180) / 2)| =
      Real.sin (Real.pi * j / n) := by
  have hn : (0 : ℝ) < n := by
    have : 0 < n := by omega
    exact_mod_cast this
  have hpos : 0 ≤ Real.sin (Real.pi * j / n) := by
    apply Real.sin_nonneg_of_nonneg_of_le_pi
    · positivity
    · rw [div_le_iff₀ hn]
      have : (j : ℝ) ≤ n := by exact_mod_cast hj
      exact mul_le_mul_of_nonneg_left this Real.pi_pos.le
  rcases Nat.lt_or_ge (i + j) n with h | h
  · rw [Nat.mod_eq_of_lt h]
    have e : (360 / (n : ℝ) * (i : ℝ) * Real.pi / 180 - 360 / (n : ℝ) * ((i + j : Nat) : ℝ) * Real.pi / 180) / 2 =
        -(Real.pi * j / n) := by
      push_cast
      field_simp
      ring
    rw [e, Real.sin_neg, abs_neg, abs_of_nonneg hpos]
  · have hm : (i + j) % n = i + j - n := by
      rcases Nat.lt_or_ge (i + j - n) n with h' | h'
      · rw [Nat.mod_eq_sub_mod h, Nat.mod_eq_of_lt h']
      · omega
    have e : (360 / (n : ℝ) * (i : ℝ) * Real.pi / 180 - 360 / (n : ℝ) * ((i + j - n : Nat) : ℝ) * Real.pi / 180) / 2 =
        Real.pi - Real.pi * j / n := by
      rw [Nat.cast_sub h]
      push_cast
      field_simp
      ring
    rw [hm, e, Real.sin_pi_sub, abs_of_nonneg hpos]

theorem even_sub_sub (hl : 0 ≤ l) {i j : Nat} (hi : i < n) (hj : j ≤ n) :
    nodeDistance (evenNode n l gg p (2 * i + 2)) (evenNode n l gg p (2 * ((i + j) % n) + 2)) = 2 * l * Real.sin (Real.pi * j / n) := by
  have h := chord l (360 / (n : ℝ) * (i : ℝ) * Real.pi / 180) (360 / (n : ℝ) * ((i + j) % n : Nat) * Real.pi / 180) hl
  rw [half_turn hj hi] at h
  rw [← h]
  have e1 : (2 * i + 1) / 2 = i := by omega
  have e2 : (2 * ((i + j) % n) + 1) / 2 = (i + j) % n := by omega
  simp [nodeDistance, evenNode, nodeAt, evenGeo, docGeo, PyMath.sqrt, PyMath.cosDeg, PyMath.sinDeg, e1, e2]

theorem even_per_per (hl : 0 ≤ l) (hg : 0 ≤ gg) {i j : Nat} (hi : i < n) (hj : j ≤ n) :
    nodeDistance (evenNode n l gg p (2 * i + 1)) (evenNode n l gg p (2 * ((i + j) % n) + 1)) =
      2 * (l + gg * l) * Real.sin (Real.pi * j / n) := by
  have h := chord (l + gg * l) (360 / (n : ℝ) * (i : ℝ) * Real.pi / 180) (360 / (n : ℝ) * ((i + j) % n : Nat) * Real.pi / 180)
    (by positivity)
  rw [half_turn hj hi] at h
  rw [← h]
  have e1 : (2 * i) / 2 = i := by omega
  have e2 : (2 * ((i + j) % n)) / 2 = (i + j) % n := by omega
  have e3 : (2 * i + 1) % 2 = 1 := by omega
  have e4 : (2 * ((i + j) % n) + 1) % 2 = 1 := by omega
  simp [nodeDistance, evenNode, nodeAt, evenGeo, docGeo, PyMath.sqrt, PyMath.cosDeg, PyMath.sinDeg, e1, e2, e3, e4]

theorem even_per_sub (hl : 0 ≤ l) (hg : 0 ≤ gg) (i : Nat) :
    nodeDistance (evenNode n l gg p (2 * i + 1)) (evenNode n l gg p (2 * i + 2)) = gg * l := by
  have h := along_ray (l + gg * l) l (360 / (n : ℝ) * (i : ℝ) * Real.pi / 180)
  rw [show l + gg * l - l = gg * l by ring, abs_of_nonneg (by positivity)] at h
  rw [← h]
  have e1 : (2 * i + 1) / 2 = i := by omega
  have e3 : (2 * i + 1) % 2 = 1 := by omega
  have e4 : (2 * i) / 2 = i := by omega
  simp [nodeDistance, evenNode, nodeAt, evenGeo, docGeo, PyMath.sqrt, PyMath.cosDeg, PyMath.sinDeg, e1, e3, e4]

theorem even_sub_cbd (hl : 0 ≤ l) (i : Nat) :
    nodeDistance (evenNode n l gg p (2 * i + 2)) (evenNode n l gg p 0) = l := by
  have h := along_ray l 0 (360 / (n : ℝ) * (i : ℝ) * Real.pi / 180)
  rw [sub_zero, abs_of_nonneg hl] at h
  conv_rhs => rw [← h]
  have e1 : (2 * i + 1) / 2 = i := by omega
  simp [nodeDistance, evenNode, nodeAt, evenGeo, docGeo, PyMath.sqrt, PyMath.cosDeg, PyMath.sinDeg, e1]

theorem nodeDistance_symm (a b : Node ℝ) : nodeDistance a b = nodeDistance b a := by
  unfold nodeDistance
  congr 1
  ring

theorem even_nodes (hb : buildFromParameters (n : Int) l gg p none none none none none = .ok city) :
    CityShape city n ∧ DistinctIds city ∧ 0 ≤ l ∧ 0 ≤ gg ∧ ∀ j, j ≤ 2 * n → evenNode n l gg p j ∈ city.nodes ∧
      (evenNode n l gg p j).id = idAt city j := by
  have hok := (buildFromParameters_ok_iff).1 ⟨city, hb⟩
  obtain ⟨_, hs, hd⟩ := buildFromParameters_shape hb
  rw [Int.toNat_natCast] at hs
  have hnodes : city.nodes = cityNodes (evenGeo n l gg) p n := by
    have := (C13_asymmetries_only_move_nodes hb).1
    rwa [Int.toNat_natCast] at this
  refine ⟨hs, hd, hok.l_nonneg, hok.g_nonneg, fun j hj => ⟨?_, ?_⟩⟩
  · rw [hnodes]
    exact List.mem_map.2 ⟨j, List.mem_range.2 (by omega), rfl⟩
  · rw [idAt_city hb hj, nodeAt_id]

/-- C91, diametral express lines alone in a symmetric city: the passengers' times over a cycle are `sin (π j / n)`
times the running time of the vehicle, where `j` is the number of zones from one end to the other. -/
theorem C91_express_diametral (hb : buildFromParameters (n : Int) l gg p none none none none none = .ok city) {m : Mode ℝ}
    (hmd : (m.d : ℝ) ≠ 0) (hmv : m.v ≠ 0) (short : Bool) {j : Nat} (hj : 1 ≤ j) (hjn : 2 * j ≤ n) (sPTP : ℝ)
    (freq : Option (Dict Str ℝ)) :
    ∃ rs x t, (Network.init city).diametralRoutes m j short true = .ok rs ∧ buildExtGraph city rs sPTP freq = .ok x ∧
      linesTravelTime rs city.edgesDistance = .ok t ∧
      ∀ (k : Nat) (r : Route ℝ), rs[k]? = some r → (∀ d, ∃ ts, RideTimes x r k d ts) ∧
        t.getD r.id 0 = 4 * (if short then l else l + gg * l) / m.v ∧
        ∀ ts : Dir → List ℝ, (∀ d, RideTimes x r k d (ts d)) →
          (ts .I).sum + (ts .R).sum = Real.sin (Real.pi * j / n) * t.getD r.id 0 := by
  obtain ⟨hs, hd, hl, hg, hnode⟩ := even_nodes hb
  obtain ⟨rs, hrs, hf⟩ := C32_diametral_routes hs hd (Network.init city) rfl m short true hj hjn
  have hle : ∀ {i}, i < pairsAt n j → i < n := by
    intro i hi
    unfold pairsAt at hi
    split_ifs at hi <;> omega
  have hmod : ∀ i, (i + j) % n < n := fun i => Nat.mod_lt _ (by omega)
  cases short with
  | true =>
    simp only [if_true] at hf
    have hf' : RouteFamily city m (pairsAt n j)
        (routeLabel ("D".toList ++ "S".toList ++ "E".toList ++ showInt j) m.name)
        (fun i => (evenNode n l gg p (2 * i + 2) :: ([evenNode n l gg p 0] ++ [evenNode n l gg p (2 * ((i + j) % n) + 2)])).map Node.id)
        (fun i => [(evenNode n l gg p (2 * i + 2)).id, (evenNode n l gg p (2 * ((i + j) % n) + 2)).id]) rs := by
      refine ⟨hf.count, fun i hi => ?_, hf.distinct, hf.accepted⟩
      obtain ⟨r, h1, h2, h3, h4, h5, h6, h7⟩ := hf.each i hi
      have hi' := hle hi
      have hm := hmod i
      refine ⟨r, h1, h2, h3, h4, h5.trans ?_, h6.trans ?_, h7⟩ <;>
      simp only [List.map_cons, List.map_nil, List.cons_append, List.nil_append, (hnode (2 * i + 2) (by omega)).2, (hnode 0 (by omega)).2,
        (hnode (2 * ((i + j) % n) + 2) (by omega)).2] <;> rfl
    obtain ⟨x, t, hx, ht, hall⟩ := C91_express hs hd hmd hmv hf' (fun i hi q hq => by
      have hi' := hle hi
      have hm := hmod i
      simp only [List.cons_append, List.nil_append, List.mem_cons, List.not_mem_nil, or_false] at hq
      rcases hq with rfl | rfl | rfl
      exacts [(hnode _ (by omega)).1, (hnode _ (by omega)).1, (hnode _ (by omega)).1]) (fun i hi q hq i' hi' => by
      have h1 := hle hi'
      have h2 := hmod i'
      rw [List.mem_singleton] at hq
      subst hq
      simp only [nodeAt_id]
      omega) sPTP freq
    refine ⟨rs, x, t, hrs, hx, ht, fun k r hk => ?_⟩
    obtain ⟨h1, h2, h3⟩ := hall k r hk
    have hkn : k < n := by
      have := (List.getElem?_eq_some_iff.1 hk).1
      rw [hf.count] at this
      exact hle this
    simp only [List.cons_append, List.nil_append, List.reverse_cons, List.reverse_nil, travelled_cons_cons, travelled_single,
      nodeDistance_symm (evenNode n l gg p 0), even_sub_cbd hl,
      fun i => nodeDistance_symm (evenNode n l gg p (2 * i + 2)) (evenNode n l gg p (2 * i + 1)), even_per_sub hl hg] at h2
    refine ⟨h1, by rw [h2]; simp; ring, fun ts hts => ?_⟩
    obtain ⟨h4, h5⟩ := h3 ts hts
    rw [h4, h5, h2, nodeDistance_symm (evenNode n l gg p (2 * ((k + j) % n) + 2)), even_sub_sub hl hkn (by omega)]
    ring
  | false =>
    simp only [Bool.false_eq_true, if_false, if_true] at hf
    have hf' : RouteFamily city m (pairsAt n j)
        (routeLabel ("D".toList ++ [] ++ "E".toList ++ showInt j) m.name)
        (fun i => (evenNode n l gg p (2 * i + 1) :: ([evenNode n l gg p (2 * i + 2), evenNode n l gg p 0, evenNode n l gg p (2 * ((i + j) % n) + 2)] ++
          [evenNode n l gg p (2 * ((i + j) % n) + 1)])).map Node.id)
        (fun i => [(evenNode n l gg p (2 * i + 1)).id, (evenNode n l gg p (2 * ((i + j) % n) + 1)).id]) rs := by
      refine ⟨hf.count, fun i hi => ?_, hf.distinct, hf.accepted⟩
      obtain ⟨r, h1, h2, h3, h4, h5, h6, h7⟩ := hf.each i hi
      have hi' := hle hi
      have hm := hmod i
      refine ⟨r, h1, h2, h3, h4, h5.trans ?_, h6.trans ?_, h7⟩ <;>
      simp only [List.map_cons, List.map_nil, List.cons_append, List.nil_append, (hnode (2 * i + 1) (by omega)).2,
        (hnode (2 * i + 2) (by omega)).2, (hnode 0 (by omega)).2,
        (hnode (2 * ((i + j) % n) + 1) (by omega)).2, (hnode (2 * ((i + j) % n) + 2) (by omega)).2] <;> rfl
    obtain ⟨x, t, hx, ht, hall⟩ := C91_express hs hd hmd hmv hf' (fun i hi q hq => by
      have hi' := hle hi
      have hm := hmod i
      simp only [List.cons_append, List.nil_append, List.mem_cons, List.not_mem_nil, or_false] at hq
      rcases hq with rfl | rfl | rfl | rfl | rfl
      exacts [(hnode _ (by omega)).1, (hnode _ (by omega)).1, (hnode _ (by omega)).1, (hnode _ (by omega)).1,
        (hnode _ (by omega)).1]) (fun i hi q hq i' hi' => by
      simp only [List.mem_cons, List.not_mem_nil, or_false] at hq
      rcases hq with rfl | rfl | rfl <;> simp only [nodeAt_id] <;> omega) sPTP freq
    refine ⟨rs, x, t, hrs, hx, ht, fun k r hk => ?_⟩
    obtain ⟨h1, h2, h3⟩ := hall k r hk
    have hkn : k < n := by
      have := (List.getElem?_eq_some_iff.1 hk).1
      rw [hf.count] at this
      exact hle this
    simp only [List.cons_append, List.nil_append, List.reverse_cons, List.reverse_nil, travelled_cons_cons, travelled_single,
      nodeDistance_symm (evenNode n l gg p 0), even_sub_cbd hl,
      fun i => nodeDistance_symm (evenNode n l gg p (2 * i + 2)) (evenNode n l gg p (2 * i + 1)), even_per_sub hl hg] at h2
    refine ⟨h1, by rw [h2]; simp; ring, fun ts hts => ?_⟩
    obtain ⟨h4, h5⟩ := h3 ts hts
    rw [h4, h5, h2, nodeDistance_symm (evenNode n l gg p (2 * ((k + j) % n) + 1)), even_per_per hl hg hkn (by omega)]
    ring

/-- C91 fails for express lines: when the ends are not opposite, the passengers are faster than their vehicle. -/
theorem C91_express_faster (hb : buildFromParameters (n : Int) l gg p none none none none none = .ok city) (hl : 0 < l)
    {m : Mode ℝ} (hmd : (m.d : ℝ) ≠ 0) (hmv : 0 < m.v) (short : Bool) {j : Nat} (hj : 1 ≤ j) (hjn : 2 * j < n) (sPTP : ℝ)
    (freq : Option (Dict Str ℝ)) :
    ∃ rs x t, (Network.init city).diametralRoutes m j short true = .ok rs ∧ rs ≠ [] ∧ buildExtGraph city rs sPTP freq = .ok x ∧
      linesTravelTime rs city.edgesDistance = .ok t ∧
      ∀ (k : Nat) (r : Route ℝ), rs[k]? = some r → ∃ ts : Dir → List ℝ, (∀ d, RideTimes x r k d (ts d)) ∧
        (ts .I).sum + (ts .R).sum < t.getD r.id 0 := by
  obtain ⟨rs, x, t, h1, h2, h3, h4⟩ := C91_express_diametral hb hmd hmv.ne' short hj hjn.le sPTP freq
  obtain ⟨hs, hd, _, hg, _⟩ := even_nodes hb
  obtain ⟨rs', h1', hf⟩ := C32_diametral_routes hs hd (Network.init city) rfl m short true hj hjn.le
  rw [h1] at h1'
  cases h1'
  refine ⟨rs, x, t, h1, ?_, h2, h3, fun k r hk => ?_⟩
  · rintro rfl
    have := hf.count
    rw [List.length_nil] at this
    unfold pairsAt at this
    split_ifs at this <;> omega
  obtain ⟨h5, h6, h7⟩ := h4 k r hk
  choose ts hts using h5
  refine ⟨ts, hts, ?_⟩
  rw [h7 ts hts]
  have hn : (0 : ℝ) < n := by
    have : 0 < n := by omega
    exact_mod_cast this
  have hsin : Real.sin (Real.pi * j / n) < 1 := by
    rw [← Real.sin_pi_div_two]
    apply Real.sin_lt_sin_of_lt_of_le_pi_div_two
    · have : 0 ≤ Real.pi * j / n := by positivity
      linarith [Real.pi_pos]
    · exact le_refl _
    · rw [div_lt_div_iff₀ hn two_pos, mul_assoc]
      refine mul_lt_mul_of_pos_left ?_ Real.pi_pos
      have : ((2 * j : Nat) : ℝ) < n := by exact_mod_cast hjn
      push_cast at this
      linarith
  have hpos : 0 < t.getD r.id 0 := by
    rw [h6]
    split_ifs <;> positivity
  exact mul_lt_of_lt_one_left hpos hsin

/-- in a city with six zones the passengers of express lines between neighbouring zones need half the time of their vehicle -/
example (m : Mode ℝ) (hmd : (m.d : ℝ) ≠ 0) (hmv : m.v ≠ 0) : ∃ city rs x t,
    buildFromParameters (K := ℝ) ((6 : Nat) : Int) 10 (1/2) 2 none none none none none = .ok city ∧
    (Network.init city).diametralRoutes m (1 : Nat) false true = .ok rs ∧ buildExtGraph city rs 2 none = .ok x ∧
    linesTravelTime rs city.edgesDistance = .ok t ∧
    ∀ (k : Nat) (r : Route ℝ), rs[k]? = some r → ∃ ts : Dir → List ℝ, (∀ d, RideTimes x r k d (ts d)) ∧
      t.getD r.id 0 = 60 / m.v ∧ (ts .I).sum + (ts .R).sum = 30 / m.v := by
  have hok : CityParamsOk (K := ℝ) ((6 : Nat) : Int) 10 (1/2) 2 none none none none none :=
    ⟨by omega, by norm_num, by norm_num, by norm_num, Or.inl ⟨rfl, rfl⟩, by simp, by simp, by simp⟩
  obtain ⟨city, hb⟩ := buildFromParameters_ok_iff.2 hok
  obtain ⟨rs, x, t, h1, h2, h3, h4⟩ := C91_express_diametral hb hmd hmv false (j := 1) (le_refl 1) (by norm_num) 2 none
  refine ⟨city, rs, x, t, hb, h1, h2, h3, fun k r hk => ?_⟩
  obtain ⟨h5, h6, h7⟩ := h4 k r hk
  choose ts hts using h5
  have e : t.getD r.id 0 = 60 / m.v := by
    rw [h6]
    norm_num
  refine ⟨ts, hts, e, ?_⟩
  rw [h7 ts hts, e]
  have : Real.pi * ((1 : Nat) : ℝ) / ((6 : Nat) : ℝ) = Real.pi / 6 := by norm_num
  rw [this, Real.sin_pi_div_six]
  ring

end Sidermit
