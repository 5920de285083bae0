import Verif.Proofs.Symmetry
import Verif.Proofs.Turn
import Verif.Proofs.Alike

/-!
C82: in a symmetric city with a symmetric network, trips that correspond to each other take the same time.
-/

set_option linter.unusedSectionVars false

namespace Sidermit

section Generic

variable {K : Type} [Field K] [LinearOrder K] [IsStrictOrderedRing K] [PyMath K] {g : Graph K}
  {routes rs : List (Route K)} {sPTP : K} {freq : Option (Dict Str K)} {x : ExtGraph K} {pas : Passenger K} {f : Int → Int}

/-- C82: if a symmetry of the city maps each line to one of the lines, with the same frequency, then corresponding trips take the
same time. -/
theorem C82_symmetric (hg : DistinctIds g) (hs : Symmetry g f) (hids : (routes.map Route.id).Nodup) (hfits : ∀ r ∈ routes, r.Fits g)
    (ha : Admissible routes sPTP freq pas) (hp : rs.Perm routes) (hl : List.Forall₂ (LooksLike f) routes rs)
    (hfreq : List.Forall₂ (fun r r' => (frequencies routes freq).getD r'.id 0 = (frequencies routes freq).getD r.id 0) routes rs)
    (hx : buildExtGraph g routes sPTP freq = .ok x) {o d o' d' : CityNode K} (ho : o.In g) (hd : d.In g) (ho' : o'.In g) (hd' : d'.In g)
    (eo : o'.node.id = f o.node.id) (ed : d'.node.id = f d.node.id) {r r' : HResult K}
    (hr : buildHyperpath ⟨x.nodes, x.edges, pas, some o, some d⟩ = .ok r)
    (hr' : buildHyperpath ⟨x.nodes, x.edges, pas, some o', some d'⟩ = .ok r') :
    (∀ s s' : StopNode K, s ∈ stopsOf x.nodes → s'.city.In g → s'.mode = s.mode → s'.city.node.id = f s.city.node.id →
      s' ∈ stopsOf x.nodes ∧ r'.label (.stop s') = r.label (.stop s)) ∧
    (∀ c c' : CityNode K, c ∈ Dict.keys x.nodes → c'.In g → c'.node.id = f c.node.id →
      c' ∈ Dict.keys x.nodes ∧ r'.label (.city c') = r.label (.city c)) := by
  obtain ⟨mids, h1, h2⟩ := mids_exist hl
  obtain ⟨k, hk⟩ := sameLines h2
  have hids' : (rs.map Route.id).Nodup := (hp.map Route.id).nodup_iff.2 hids
  have hidsm : (mids.map Route.id).Nodup := by rw [← sameLine_ids h2]; exact hids'
  have hfm : List.Forall₂ (fun r m => (frequencies mids freq).getD m.id 0 = (frequencies routes freq).getD r.id 0) routes mids := by
    refine List.forall₂_of_length_eq_of_get h1.length_eq fun i l1 l2 => ?_
    have l3 : i < rs.length := by rw [← h2.length_eq]; exact l2
    have e1 : SameLine mids[i] rs[i] := h2.get l2 l3
    have e2 : (frequencies routes freq).getD rs[i].id 0 = (frequencies routes freq).getD routes[i].id 0 := hfreq.get l1 l3
    change (frequencies mids freq).getD mids[i].id 0 = (frequencies routes freq).getD routes[i].id 0
    rw [← e2, ← hk.frequencies_eq freq, ← e1.facts.1]
    exact frequencies_perm hp hids (hp.mem_iff.1 (List.getElem_mem l3))
  have hren := image_renames hg hs hids hidsm h1 hfm
  have ham := hren.admissible ha
  have har := hk.admissible ham
  have hfitm : ∀ m ∈ mids, m.Fits g := by
    intro m hm
    obtain ⟨i, hi⟩ := List.mem_iff_getElem?.1 hm
    obtain ⟨l2, e2⟩ := List.getElem?_eq_some_iff.1 hi
    have l1 : i < routes.length := by rw [h1.length_eq]; exact l2
    obtain ⟨b, hb⟩ : ∃ b, ImageLine f b routes[i] mids[i] := h1.get l1 l2
    rw [← e2]
    exact fits_image hs hb (hfits _ (List.getElem_mem l1))
  obtain ⟨x₁, hx₁⟩ := C34_accepted hfitm sPTP freq
  obtain ⟨x₂, hx₂⟩ := C34_accepted (fits_perm hp hfits) sPTP freq
  have eqo : (some o : Option (CityNode K)).map (imageNode g f) = some o' := by
    rw [Option.map_some, CityNode.In.ext hg (hs.image ho).1 ho' ((hs.image ho).2.trans eo.symm)]
  have eqd : (some d : Option (CityNode K)).map (imageNode g f) = some d' := by
    rw [Option.map_some, CityNode.In.ext hg (hs.image hd).1 hd' ((hs.image hd).2.trans ed.symm)]
  obtain ⟨r₁, hr₁⟩ := C37_terminates ham hx₁ (some o') (some d')
  obtain ⟨r₂, hr₂⟩ := C37_terminates har hx₂ (some o') (some d')
  have hsome : ∀ {c c' : CityNode K}, c.In g → c' ∈ (some c : Option (CityNode K)) → c'.In g := by
    intro c c' hc h; cases h; exact hc
  have t1 := C81_names hg hg hren ha hx hx₁ (o := some o) (d := some d) (fun c h => hsome ho h) (fun c h => hsome hd h) hr
    (r' := r₁) (by rw [eqo, eqd]; exact hr₁)
  have t2 := C81_any_first_stop hg h2 ham hx₁ hx₂ hr₁ hr₂
  have t3 := C81_names hg hg (perm_renames hids hp) har hx₂ hx (o := some o') (d := some d') (fun c h => hsome ho' h)
    (fun c h => hsome hd' h) hr₂ (r' := r') hr'
  obtain ⟨_, s1, _, s2, _⟩ := C34_stop_nodes hg hx
  constructor
  · intro s s' hs' hin hm he
    have hsw := (s1 s).1 hs'
    have : (⟨s.mode, imageNode g f s.city⟩ : StopNode K) = s' := by
      have := CityNode.In.ext hg (hs.image hsw.1).1 hin ((hs.image hsw.1).2.trans he.symm)
      rw [this, ← hm]
    obtain ⟨a1, a2⟩ := t1.1 s hs'
    have e1 : r₁.label (.stop s') = r.label (.stop s) := by rw [← this]; exact a2
    have m1 : s' ∈ stopsOf x₁.nodes := by rw [← this]; exact a1
    have m2 := (t2.1 s').2 m1
    have e2 := t2.2.2.1 s' m1
    obtain ⟨m3, e3⟩ := t3.1 s' m2
    exact ⟨m3, e3.trans (e2.trans e1)⟩
  · intro c c' hc hin he
    have hcin : c.In g := by
      obtain ⟨s, hs, rfl⟩ := (s2 c).1 hc
      exact hs.1
    have : imageNode g f c = c' := CityNode.In.ext hg (hs.image hcin).1 hin ((hs.image hcin).2.trans he.symm)
    obtain ⟨a1, a2⟩ := t1.2.1 c hc
    have e1 : r₁.label (.city c') = r.label (.city c) := by rw [← this]; exact a2
    have m1 : c' ∈ Dict.keys x₁.nodes := by rw [← this]; exact a1
    have m2 := (t2.2.1 c').2 m1
    have e2 := t2.2.2.2 c' m1
    obtain ⟨m3, e3⟩ := t3.2.1 c' m2
    exact ⟨m3, e3.trans (e2.trans e1)⟩

end Generic

section City

variable {n : Nat} {l gg p : ℝ} {city : Graph ℝ}

/-- turning by some zones, or mirroring -/
def RoundCity (n : Nat) (f : Int → Int) : Prop := (∃ k ≤ n, f = turnId n k) ∨ f = mirrorId n

theorem symmetry_of {f : Int → Int} {τ τ' : Nat → Nat} (hb : buildFromParameters (n : Int) l gg p none none none none none = .ok city)
    (hinj : ∀ a b, f a = f b → a = b) (honto : ∀ b, ∃ a, f a = b) (hid : ∀ j : Nat, ((τ j : Nat) : Int) = f j)
    (hle : ∀ j ≤ 2 * n, τ j ≤ 2 * n) (hle' : ∀ j ≤ 2 * n, τ' j ≤ 2 * n) (hback : ∀ j, τ (τ' j) = j)
    (hdist : ∀ i ≤ 2 * n, ∀ j ≤ 2 * n, nodeDistance (nodeAt (evenGeo n l gg) p (τ i)) (nodeAt (evenGeo n l gg) p (τ j)) =
      nodeDistance (nodeAt (evenGeo n l gg) p i) (nodeAt (evenGeo n l gg) p j)) : Symmetry city f := by
  have hnodes : city.nodes = cityNodes (evenGeo n l gg) p n := by
    have := (C13_asymmetries_only_move_nodes hb).1
    rwa [Int.toNat_natCast] at this
  have hin : ∀ c : CityNode ℝ, c.In city ↔ c.idx ≤ 2 * n ∧ c.node = nodeAt (evenGeo n l gg) p c.idx := by
    intro c
    unfold CityNode.In
    rw [hnodes, getElem?_cityNodes]
    split_ifs with h
    · rw [Option.some.injEq]
      exact ⟨fun e => ⟨by omega, e.symm⟩, fun e => e.2.symm⟩
    · exact ⟨fun e => (by cases e), fun e => absurd e.1 (by omega)⟩
  have hids : ∀ c : CityNode ℝ, c.In city → c.node.id = c.idx := by
    intro c hc
    rw [((hin c).1 hc).2, nodeAt_id]
  refine ⟨hinj, honto, fun c hc => ?_, fun c hc => ?_, fun a b a' b' ha hb' ha' hb'' ea eb => ?_⟩
  · obtain ⟨h1, _⟩ := (hin c).1 hc
    exact ⟨⟨τ c.idx, nodeAt (evenGeo n l gg) p (τ c.idx)⟩, (hin _).2 ⟨hle _ h1, rfl⟩, by rw [nodeAt_id, hids c hc, hid]⟩
  · obtain ⟨h1, _⟩ := (hin c).1 hc
    refine ⟨⟨τ' c.idx, nodeAt (evenGeo n l gg) p (τ' c.idx)⟩, (hin _).2 ⟨hle' _ h1, rfl⟩, ?_⟩
    rw [nodeAt_id, hids c hc, ← hid, hback]
  · obtain ⟨h1, h2⟩ := (hin a).1 ha
    obtain ⟨h3, h4⟩ := (hin b).1 hb'
    obtain ⟨h5, h6⟩ := (hin a').1 ha'
    obtain ⟨h7, h8⟩ := (hin b').1 hb''
    rw [hids _ ha', hids _ ha, ← hid] at ea
    rw [hids _ hb'', hids _ hb', ← hid] at eb
    rw [h2, h4, h6, h8, Int.ofNat_inj.1 ea, Int.ofNat_inj.1 eb]
    exact hdist _ h1 _ h3

/-- C82: a city described by the number of zones and the distances alone looks the same from every zone, and in the mirror. -/
theorem C82_city (hb : buildFromParameters (n : Int) l gg p none none none none none = .ok city) {f : Int → Int} (hf : RoundCity n f) :
    Symmetry city f := by
  rcases hf with ⟨k, hk, rfl⟩ | rfl
  · exact symmetry_of hb (fun a b => turnId_inj hk) (turnId_onto hk) (fun j => turnIdx_id) (fun j => turnIdx_le hk)
      (τ' := turnIdx n (n - k)) (fun j => turnIdx_le (Nat.sub_le n k)) (fun j => turnIdx_back hk)
      (fun i hi j hj => nodeDistance_turned hk hi hj l gg p)
  · exact symmetry_of hb (fun a b e => by rw [← mirrorId_back (n := n) a, e, mirrorId_back]) (fun b => ⟨mirrorId n b, mirrorId_back b⟩)
      (fun j => mirrorIdx_id) (fun j => mirrorIdx_le) (τ' := mirrorIdx n) (fun j => mirrorIdx_le) (fun j => mirrorIdx_back j)
      (fun i hi j hj => nodeDistance_mirrored hi hj l gg p)

theorem idAt_city (hb : buildFromParameters (n : Int) l gg p none none none none none = .ok city) {j : Nat} (hj : j ≤ 2 * n) :
    idAt city j = j := by
  have hnodes : city.nodes = cityNodes (evenGeo n l gg) p n := by
    have := (C13_asymmetries_only_move_nodes hb).1
    rwa [Int.toNat_natCast] at this
  unfold idAt
  rw [hnodes, getElem?_cityNodes, if_pos (by omega), Option.map_some, nodeAt_id]
  rfl

theorem zoneMap_of (hb : buildFromParameters (n : Int) l gg p none none none none none = .ok city) {f : Int → Int} (hf : RoundCity n f) :
    ∃ φ, ZoneMap city n f φ := by
  rcases hf with ⟨k, hk, rfl⟩ | rfl
  · refine ⟨fun a => (a + k) % n, fun a ha => Nat.mod_lt _ (by omega), fun a ha b hb' e => ?_, fun a ha => ?_, fun a ha => ?_, ?_, Or.inl ?_⟩
    · have : turnId n k (2 * a + 2 : Nat) = turnId n k (2 * b + 2 : Nat) := by
        have key : ∀ c < n, turnId n k (2 * c + 2 : Nat) = ((2 * ((c + k) % n) + 2 : Nat) : Int) := by
          intro c hc
          rcases Nat.lt_or_ge (c + k) n with h | h
          · rw [Nat.mod_eq_of_lt h]; unfold turnId; push_cast; split_ifs <;> omega
          · rw [Nat.mod_eq_sub_mod h, Nat.mod_eq_of_lt (by omega)]; unfold turnId; push_cast; split_ifs <;> omega
        rw [key a ha, key b hb']
        rw [e]
      have := turnId_inj hk this
      omega
    · have h3 : (a + k) % n < n := Nat.mod_lt _ (by omega)
      unfold subOf
      rw [idAt_city hb (by omega), idAt_city hb (by omega)]
      rcases Nat.lt_or_ge (a + k) n with h | h
      · rw [Nat.mod_eq_of_lt h]; unfold turnId; push_cast; split_ifs <;> omega
      · rw [Nat.mod_eq_sub_mod h, Nat.mod_eq_of_lt (by omega)]; unfold turnId; push_cast; split_ifs <;> omega
    · have h3 : (a + k) % n < n := Nat.mod_lt _ (by omega)
      unfold perOf
      rw [idAt_city hb (by omega), idAt_city hb (by omega)]
      rcases Nat.lt_or_ge (a + k) n with h | h
      · rw [Nat.mod_eq_of_lt h]; unfold turnId; push_cast; split_ifs <;> omega
      · rw [Nat.mod_eq_sub_mod h, Nat.mod_eq_of_lt (by omega)]; unfold turnId; push_cast; split_ifs <;> omega
    · unfold cbdOf
      rw [idAt_city hb (by omega)]
      unfold turnId
      split_ifs <;> omega
    · intro a _ t
      rw [Nat.mod_add_mod, Nat.mod_add_mod]
      congr 1
      omega
  · refine ⟨fun a => (n - a) % n, fun a ha => Nat.mod_lt _ (by omega), fun a ha b hb' e => ?_, fun a ha => ?_, fun a ha => ?_, ?_, Or.inr ?_⟩
    · rcases Nat.eq_zero_or_pos a with rfl | h1 <;> rcases Nat.eq_zero_or_pos b with rfl | h2
      · rfl
      · simp only [Nat.sub_zero, Nat.mod_self] at e
        rw [Nat.mod_eq_of_lt (by omega)] at e; omega
      · simp only [Nat.sub_zero, Nat.mod_self] at e
        rw [Nat.mod_eq_of_lt (by omega)] at e; omega
      · rw [Nat.mod_eq_of_lt (by omega), Nat.mod_eq_of_lt (by omega)] at e; omega
    · have h3 : (n - a) % n < n := Nat.mod_lt _ (by omega)
      unfold subOf
      rw [idAt_city hb (by omega), idAt_city hb (by omega)]
      rcases Nat.eq_zero_or_pos a with rfl | h
      · have h0 : (n - 0) % n = 0 := by rw [Nat.sub_zero, Nat.mod_self]
        unfold mirrorId; rw [h0]; simp
      · rw [Nat.mod_eq_of_lt (by omega)]; unfold mirrorId; push_cast; split_ifs <;> omega
    · have h3 : (n - a) % n < n := Nat.mod_lt _ (by omega)
      unfold perOf
      rw [idAt_city hb (by omega), idAt_city hb (by omega)]
      rcases Nat.eq_zero_or_pos a with rfl | h
      · have h0 : (n - 0) % n = 0 := by rw [Nat.sub_zero, Nat.mod_self]
        unfold mirrorId; rw [h0]; simp
      · rw [Nat.mod_eq_of_lt (by omega)]; unfold mirrorId; push_cast; split_ifs <;> omega
    · unfold cbdOf
      rw [idAt_city hb (by omega)]
      unfold mirrorId
      split_ifs <;> omega
    · intro a ha t
      have h1 : (a + t) % n < n := Nat.mod_lt _ (by omega)
      have h2 : a + t = (a + t) % n + n * ((a + t) / n) := (Nat.mod_add_div (a + t) n).symm
      rw [Nat.mod_add_mod]
      generalize (a + t) % n = c at *
      generalize (a + t) / n = e at *
      have h4 : n - c + t = (n - a) + n * e := by omega
      rw [h4, Nat.add_mul_mod_self_left]

theorem fits_of_built {K : Type} [Field K] [LinearOrder K] [IsStrictOrderedRing K] [PyMath K] {g : Graph K} {routes : List (Route K)} {sPTP : K}
    {freq : Option (Dict Str K)} {x : ExtGraph K} {pas : Passenger K} (ha : Admissible routes sPTP freq pas)
    (hx : buildExtGraph g routes sPTP freq = .ok x) (hne : ∀ r ∈ routes, r.type ≠ .circular → ∀ d, r.nodesOf d ≠ []) :
    ∀ r ∈ routes, r.Fits g := by
  intro r hr
  refine ⟨fun d i id hn => ?_, fun hc d i id _ => hne r hr hc d, ?_, ne_of_gt (ha.modes r hr).speed⟩
  · by_contra hno
    exact C34_unknown_stop_rejected hr hn (fun c hc e => hno ⟨c, hc, e⟩) sPTP freq x hx
  · have := (ha.modes r hr).lines
    exact_mod_cast ne_of_gt this

theorem request_nodes {K : Type} [Field K] [LinearOrder K] {g : Graph K} {n : Nat} (hs : CityShape g n) (hd : DistinctIds g) {s : Network K}
    (hg : s.graph = g) {q : FamilyRequest K} (hq : q.Possible n) {rs : List (Route K)} (hrun : q.run s = .ok rs) :
    ∀ r ∈ rs, r.mode = q.mode ∧ (r.type ≠ .circular → ∀ d, r.nodesOf d ≠ []) := by
  have fam : ∀ {m : Mode K} {k : Nat} {name : Nat → Str} {nodes stops : Nat → List Int} {rs : List (Route K)},
      RouteFamily g m k name nodes stops rs → ∀ r ∈ rs, r.mode = m ∧ (r.type ≠ .circular → ∀ d, r.nodesOf d ≠ []) := by
    intro m k name nodes stops rs hf r hr
    obtain ⟨i, hi⟩ := List.mem_iff_getElem?.1 hr
    have hik : i < k := by rw [← hf.count]; exact (List.getElem?_eq_some_iff.1 hi).1
    obtain ⟨r', h1, _, h3, _, _, _, h7⟩ := hf.each i hik
    rw [hi] at h1
    cases h1
    refine ⟨h3, fun _ d => ?_⟩
    cases d
    · exact h7.valid.nonemptyI
    · exact h7.valid.nonemptyR
  cases q with
  | circular m =>
    obtain ⟨r1, r2, h1, h2, h3, h4, h5, _⟩ := (C29_circular_routes hs s hg m).1 hq
    cases h1.symm.trans hrun
    intro r hr
    simp only [List.mem_cons, List.not_mem_nil, or_false] at hr
    rcases hr with rfl | rfl
    · exact ⟨h2, fun h => absurd h4 h⟩
    · exact ⟨h3, fun h => absurd h5 h⟩
  | feeder m =>
    obtain ⟨rs', h1, h2⟩ := C30_feeder_routes hs hd s hg m
    cases h1.symm.trans hrun
    exact fam h2
  | radial m short express =>
    obtain ⟨rs', h1, h2⟩ := C31_radial_routes hs hd s hg m short express
    cases h1.symm.trans hrun
    exact fam h2
  | diametral m jump short express =>
    obtain ⟨h3, h4⟩ := hq
    obtain ⟨j, rfl⟩ := Int.eq_ofNat_of_zero_le (by omega : 0 ≤ jump)
    obtain ⟨rs', h1, h2⟩ := C32_diametral_routes hs hd s hg m short express (j := j) (by omega) (by omega)
    cases h1.symm.trans hrun
    exact fam h2
  | tangential m jump short express =>
    obtain ⟨h3, h4⟩ := hq
    obtain ⟨j, rfl⟩ := Int.eq_ofNat_of_zero_le (by omega : 0 ≤ jump)
    obtain ⟨rs', h1, h2⟩ := C33_tangential_routes hs hd s hg m short express (j := j) (by omega) (by omega)
    cases h1.symm.trans hrun
    exact fam h2

theorem flatten_alike {K : Type} [Field K] [LinearOrder K] [IsStrictOrderedRing K] [PyMath K] {f : Int → Int} {F : Route K → K}
    (rss : List (List (Route K))) (h : ∀ rs ∈ rss, Alike f rs ∧ ∀ r ∈ rs, ∀ r' ∈ rs, F r' = F r) :
    ∃ rs', rs'.Perm rss.flatten ∧ List.Forall₂ (LooksLike f) rss.flatten rs' ∧ List.Forall₂ (fun r r' => F r' = F r) rss.flatten rs' := by
  induction rss with
  | nil => exact ⟨[], .nil, .nil, .nil⟩
  | cons rs t ih =>
    obtain ⟨a, p1, p2, p3⟩ := ih fun rs hr => h rs (List.mem_cons_of_mem _ hr)
    obtain ⟨⟨b, q1, q2⟩, q3⟩ := h rs List.mem_cons_self
    refine ⟨b ++ a, ?_, ?_, ?_⟩
    · rw [List.flatten_cons]; exact q1.append p1
    · rw [List.flatten_cons]; exact List.rel_append q2 p2
    · rw [List.flatten_cons]
      refine List.rel_append ?_ p3
      refine List.forall₂_of_length_eq_of_get q2.length_eq fun i l1 l2 => ?_
      exact q3 _ (List.get_mem _ _) _ (q1.mem_iff.1 (List.get_mem _ _))

variable {s : Network ℝ} {qs : List (FamilyRequest ℝ)} {rss : List (List (Route ℝ))} {sPTP : ℝ} {freq : Option (Dict Str ℝ)}
  {x : ExtGraph ℝ} {pas : Passenger ℝ}

/-- C82: in a city described by the number of zones and the distances alone, with any families of predefined lines, the same
frequency for all lines of a family, and no tangential lines that go half way round, all zones are alike: after turning the city by
some zones, or mirroring it, corresponding trips take the same time. -/
theorem C82_zones (hb : buildFromParameters (n : Int) l gg p none none none none none = .ok city) (hn : 1 ≤ n) (hg : s.graph = city)
    (hrun : List.Forall₂ (fun (q : FamilyRequest ℝ) rs => q.run s = .ok rs) qs rss) (hq : ∀ q ∈ qs, q.Possible n ∧ q.AllRound n)
    (hids : (rss.flatten.map Route.id).Nodup)
    (hfreq : ∀ rs ∈ rss, ∀ r ∈ rs, ∀ r' ∈ rs, (frequencies rss.flatten freq).getD r'.id 0 = (frequencies rss.flatten freq).getD r.id 0)
    (ha : Admissible rss.flatten sPTP freq pas) (hx : buildExtGraph city rss.flatten sPTP freq = .ok x)
    {f : Int → Int} (hf : RoundCity n f) {o d o' d' : CityNode ℝ} (ho : o.In city) (hd : d.In city) (ho' : o'.In city) (hd' : d'.In city)
    (eo : o'.node.id = f o.node.id) (ed : d'.node.id = f d.node.id) {r r' : HResult ℝ}
    (hr : buildHyperpath ⟨x.nodes, x.edges, pas, some o, some d⟩ = .ok r)
    (hr' : buildHyperpath ⟨x.nodes, x.edges, pas, some o', some d'⟩ = .ok r') :
    (∀ s s' : StopNode ℝ, s ∈ stopsOf x.nodes → s'.city.In city → s'.mode = s.mode → s'.city.node.id = f s.city.node.id →
      s' ∈ stopsOf x.nodes ∧ r'.label (.stop s') = r.label (.stop s)) ∧
    (∀ c c' : CityNode ℝ, c ∈ Dict.keys x.nodes → c'.In city → c'.node.id = f c.node.id →
      c' ∈ Dict.keys x.nodes ∧ r'.label (.city c') = r.label (.city c)) := by
  obtain ⟨_, hs, hdist⟩ := buildFromParameters_shape hb
  rw [Int.toNat_natCast] at hs
  obtain ⟨φ, hφ⟩ := zoneMap_of hb hf
  have hall : ∀ rs ∈ rss, ∃ q ∈ qs, q.run s = .ok rs := by
    clear hq hids hfreq ha hx
    induction hrun with
    | nil => intro rs h; cases h
    | cons h1 _ ih =>
      intro rs h
      rcases List.mem_cons.1 h with rfl | h
      · exact ⟨_, List.mem_cons_self, h1⟩
      · obtain ⟨q, h2, h3⟩ := ih rs h
        exact ⟨q, List.mem_cons_of_mem _ h2, h3⟩
  obtain ⟨rs', p1, p2, p3⟩ := flatten_alike (f := f) (F := fun r => (frequencies rss.flatten freq).getD r.id 0) rss fun rs hrs => by
    obtain ⟨q, h1, h2⟩ := hall rs hrs
    exact ⟨request_alike hs hdist hn hφ hg (hq q h1).1 (hq q h1).2 h2, hfreq rs hrs⟩
  refine C82_symmetric hdist (C82_city hb hf) hids (fits_of_built ha hx ?_) ha p1 p2 p3 hx ho hd ho' hd' eo ed hr hr'
  intro r hr
  obtain ⟨rs, h1, h2⟩ := List.mem_flatten.1 hr
  obtain ⟨q, h3, h4⟩ := hall rs h1
  exact (request_nodes hs hdist hg (hq q h3).1 h4 r h2).2

/-- C82: with the frequencies of the modes all lines of a family have the same frequency. -/
theorem C82_default_frequencies (hb : buildFromParameters (n : Int) l gg p none none none none none = .ok city) (hg : s.graph = city)
    (hrun : List.Forall₂ (fun (q : FamilyRequest ℝ) rs => q.run s = .ok rs) qs rss) (hq : ∀ q ∈ qs, q.Possible n)
    (hids : (rss.flatten.map Route.id).Nodup) : ∀ rs ∈ rss, ∀ r ∈ rs, ∀ r' ∈ rs,
    (frequencies rss.flatten none).getD r'.id 0 = (frequencies rss.flatten none).getD r.id 0 := by
  obtain ⟨_, hs, hdist⟩ := buildFromParameters_shape hb
  rw [Int.toNat_natCast] at hs
  intro rs hrs r hr r' hr'
  obtain ⟨i, hi⟩ := List.mem_iff_getElem?.1 hrs
  obtain ⟨l2, e2⟩ := List.getElem?_eq_some_iff.1 hi
  have l1 : i < qs.length := by rw [hrun.length_eq]; exact l2
  have h1 : qs[i].run s = .ok rss[i] := hrun.get l1 l2
  rw [e2] at h1
  have hn := request_nodes hs hdist hg (hq _ (List.getElem_mem l1)) h1
  simp only [frequencies]
  rw [defaultFrequencies_getD hids (List.mem_flatten.2 ⟨rs, hrs, hr⟩), defaultFrequencies_getD hids (List.mem_flatten.2 ⟨rs, hrs, hr'⟩),
    (hn r hr).1, (hn r' hr').1]

theorem mod_cases {n u v : Nat} (hu : u < 2 * n) (hv : v < 2 * n) (h : u % n = v % n) : u = v ∨ u = v + n ∨ v = u + n := by
  rcases Nat.lt_or_ge u n with h1 | h1 <;> rcases Nat.lt_or_ge v n with h2 | h2
  · rw [Nat.mod_eq_of_lt h1, Nat.mod_eq_of_lt h2] at h; omega
  · rw [Nat.mod_eq_of_lt h1, Nat.mod_eq_sub_mod h2, Nat.mod_eq_of_lt (by omega)] at h; omega
  · rw [Nat.mod_eq_of_lt h2, Nat.mod_eq_sub_mod h1, Nat.mod_eq_of_lt (by omega)] at h; omega
  · rw [Nat.mod_eq_sub_mod h1, Nat.mod_eq_of_lt (by omega), Nat.mod_eq_sub_mod h2, Nat.mod_eq_of_lt (by omega)] at h; omega

/-- C82: the time between two zones depends only on how far apart they are round the city: zones `a` and `b` are as far apart as
`a'` and `b'`, in the same sense or in the opposite one; `e` is 1 for peripheries and 2 for subcentres. -/
theorem C82_distance (hb : buildFromParameters (n : Int) l gg p none none none none none = .ok city) (hg : s.graph = city)
    (hrun : List.Forall₂ (fun (q : FamilyRequest ℝ) rs => q.run s = .ok rs) qs rss) (hq : ∀ q ∈ qs, q.Possible n ∧ q.AllRound n)
    (hids : (rss.flatten.map Route.id).Nodup)
    (hfreq : ∀ rs ∈ rss, ∀ r ∈ rs, ∀ r' ∈ rs, (frequencies rss.flatten freq).getD r'.id 0 = (frequencies rss.flatten freq).getD r.id 0)
    (ha : Admissible rss.flatten sPTP freq pas) (hx : buildExtGraph city rss.flatten sPTP freq = .ok x)
    {a b a' b' : Nat} (la : a < n) (lb : b < n) (la' : a' < n) (lb' : b' < n)
    (hab : (a' + b) % n = (a + b') % n ∨ (a' + a) % n = (b' + b) % n) {e e' : Int} (he : e = 1 ∨ e = 2) (he' : e' = 1 ∨ e' = 2)
    {o d o' d' : CityNode ℝ} (ho : o.In city) (hd : d.In city) (ho' : o'.In city) (hd' : d'.In city)
    (eo : o.node.id = 2 * a + e) (ed : d.node.id = 2 * b + e') (eo' : o'.node.id = 2 * a' + e) (ed' : d'.node.id = 2 * b' + e')
    {r r' : HResult ℝ} (hr : buildHyperpath ⟨x.nodes, x.edges, pas, some o, some d⟩ = .ok r)
    (hr' : buildHyperpath ⟨x.nodes, x.edges, pas, some o', some d'⟩ = .ok r') (m : Mode ℝ) (hm : ⟨m, o⟩ ∈ stopsOf x.nodes) :
    ⟨m, o'⟩ ∈ stopsOf x.nodes ∧ r'.label (.stop ⟨m, o'⟩) = r.label (.stop ⟨m, o⟩) := by
  have turned : ∀ {a b a' b' : Nat}, a < n → b < n → a' < n → b' < n → (a' + b) % n = (a + b') % n →
      ∀ {o d o' d' : CityNode ℝ}, o.In city → d.In city → o'.In city → d'.In city →
      o.node.id = 2 * a + e → d.node.id = 2 * b + e' → o'.node.id = 2 * a' + e → d'.node.id = 2 * b' + e' →
      ∀ {r r' : HResult ℝ}, buildHyperpath ⟨x.nodes, x.edges, pas, some o, some d⟩ = .ok r →
      buildHyperpath ⟨x.nodes, x.edges, pas, some o', some d'⟩ = .ok r' → ⟨m, o⟩ ∈ stopsOf x.nodes →
      ⟨m, o'⟩ ∈ stopsOf x.nodes ∧ r'.label (.stop ⟨m, o'⟩) = r.label (.stop ⟨m, o⟩) := by
    intro a b a' b' la lb la' lb' hab o d o' d' ho hd ho' hd' eo ed eo' ed' r r' hr hr' hm
    have hc := mod_cases (by omega) (by omega) hab
    have key : ∃ k ≤ n, turnId n k (2 * a + e) = 2 * a' + e ∧ turnId n k (2 * b + e') = 2 * b' + e' := by
      rcases Nat.lt_or_ge a' a with h | h
      · refine ⟨n + a' - a, by omega, ?_, ?_⟩ <;> unfold turnId <;> rcases he with rfl | rfl <;> rcases he' with rfl | rfl <;> split_ifs <;> omega
      · refine ⟨a' - a, by omega, ?_, ?_⟩ <;> unfold turnId <;> rcases he with rfl | rfl <;> rcases he' with rfl | rfl <;> split_ifs <;> omega
    obtain ⟨k, hk, k1, k2⟩ := key
    have hoo : o'.node.id = turnId n k o.node.id := by rw [eo, eo', k1]
    exact (C82_zones hb (by omega) hg hrun hq hids hfreq ha hx (Or.inl ⟨k, hk, rfl⟩) ho hd ho' hd' hoo (by rw [ed, ed', k2]) hr hr').1
      ⟨m, o⟩ ⟨m, o'⟩ hm ho' rfl hoo
  rcases hab with hab | hab
  · exact turned la lb la' lb' hab ho hd ho' hd' eo ed eo' ed' hr hr' hm
  · have hsym := C82_city hb (Or.inr rfl : RoundCity n (mirrorId n))
    obtain ⟨o₁, i1, j1⟩ := hsym.inside o ho
    obtain ⟨d₁, i2, j2⟩ := hsym.inside d hd
    obtain ⟨r₁, hr₁⟩ := C37_terminates ha hx (some o₁) (some d₁)
    obtain ⟨m1, e1⟩ := (C82_zones hb (by omega) hg hrun hq hids hfreq ha hx (Or.inr rfl) ho hd i1 i2 j1 j2 hr hr₁).1
      ⟨m, o⟩ ⟨m, o₁⟩ hm i1 rfl j1
    have hc := mod_cases (by omega) (by omega) hab
    have hmir : ∀ {a : Nat} {e : Int}, a < n → (e = 1 ∨ e = 2) → mirrorId n (2 * a + e) = 2 * ((if a = 0 then 0 else n - a : Nat) : Int) + e := by
      intro a e la he
      unfold mirrorId
      rcases he with rfl | rfl <;> split_ifs <;> omega
    rw [eo, hmir la he] at j1
    rw [ed, hmir lb he'] at j2
    have hab' : (a' + if b = 0 then 0 else n - b) % n = ((if a = 0 then 0 else n - a) + b') % n := by
      have hn0 : ∀ u v : Nat, (u = v ∨ u = v + n ∨ v = u + n) → u % n = v % n := by
        rintro u v (rfl | rfl | rfl)
        · rfl
        · rw [Nat.add_mod_right]
        · rw [Nat.add_mod_right]
      refine hn0 _ _ ?_
      split_ifs <;> omega
    obtain ⟨m2, e2⟩ := turned (by split_ifs <;> omega) (by split_ifs <;> omega) la' lb' hab' i1 i2 ho' hd' j1 j2 eo' ed' hr₁ hr' m1
    exact ⟨m2, e2.trans e1⟩

/-- the stops of predefined lines are nodes of the city -/
theorem request_stops {K : Type} [Field K] [LinearOrder K] {g : Graph K} {n : Nat} (hs : CityShape g n) (hd : DistinctIds g) (hn : 1 ≤ n)
    {s : Network K} (hg : s.graph = g) {q : FamilyRequest K} (hq : q.Possible n) {rs : List (Route K)} (hrun : q.run s = .ok rs) :
    ∀ r ∈ rs, ∀ d, ∀ a ∈ r.stopsOf d, ∃ c ∈ g.nodes, c.id = a := by
  have hat : ∀ j, j < 2 * n + 1 → ∃ c ∈ g.nodes, c.id = idAt g j := by
    intro j hj
    obtain ⟨nd, h1, h2⟩ := idAt_get hs hj
    exact ⟨nd, List.mem_of_getElem? h1, h2⟩
  have hcbd : ∃ c ∈ g.nodes, c.id = cbdOf g := hat 0 (by omega)
  have hsub : ∀ i < n, ∃ c ∈ g.nodes, c.id = subOf g i := fun i hi => hat (2 * i + 2) (by omega)
  have hper : ∀ i < n, ∃ c ∈ g.nodes, c.id = perOf g i := fun i hi => hat (2 * i + 1) (by omega)
  have hring : ∀ i j : Nat, ∀ a ∈ ringFrom g n i j, ∃ c ∈ g.nodes, c.id = a := by
    intro i j a ha
    obtain ⟨k, _, rfl⟩ := List.mem_map.1 ha
    exact hsub _ (Nat.mod_lt _ hn)
  have fam : ∀ {m : Mode K} {k : Nat} {name : Nat → Str} {nodes stops : Nat → List Int} {rs : List (Route K)},
      RouteFamily g m k name nodes stops rs → (∀ i < k, ∀ a ∈ nodes i, ∃ c ∈ g.nodes, c.id = a) →
      ∀ r ∈ rs, ∀ d, ∀ a ∈ r.stopsOf d, ∃ c ∈ g.nodes, c.id = a := by
    intro m k name nodes stops rs hf hall r hr
    obtain ⟨i, hi⟩ := List.mem_iff_getElem?.1 hr
    have hik : i < k := by rw [← hf.count]; exact (List.getElem?_eq_some_iff.1 hi).1
    obtain ⟨r', h1, _, _, _, h5, h6, h7⟩ := hf.each i hik
    rw [hi] at h1
    cases h1
    have hI : ∀ a ∈ r.stopsI, ∃ c ∈ g.nodes, c.id = a := fun a ha => hall i hik a (h5 ▸ h7.stops_in_order.subset ha)
    intro d a ha
    cases d
    · exact hI a ha
    · have : a ∈ r.stopsR := ha
      rw [h7.stops_reversed, List.mem_reverse] at this
      exact hI a this
  have hpk : ∀ {j i : Nat}, 2 * j ≤ n → i < pairsAt n j → i < n := by
    intro j i h1 h2
    unfold pairsAt at h2
    split_ifs at h2 <;> omega
  cases q with
  | circular m =>
    obtain ⟨r1, r2, h1, h2, h3, h4, h5, _, h6, h7, h8, h9, h10, h11, h12, h13, _⟩ := (C29_circular_routes hs s hg m).1 hq
    cases h1.symm.trans hrun
    have hr : ∀ a ∈ (List.range n).map (subOf g), ∃ c ∈ g.nodes, c.id = a := by
      intro a ha
      obtain ⟨k, hk, rfl⟩ := List.mem_map.1 ha
      exact hsub k (List.mem_range.1 hk)
    intro r hr' d a ha
    simp only [List.mem_cons, List.not_mem_nil, or_false] at hr'
    rcases hr' with rfl | rfl <;> cases d <;> simp only [Route.stopsOf, h10, h11, h12, h13, h6, h7, h8, h9, List.mem_append, List.mem_singleton, List.mem_reverse, List.not_mem_nil] at ha
    · rcases ha with ha | rfl
      · exact hr a ha
      · exact hsub 0 (by omega)
    · rcases ha with ha | rfl
      · exact hr a ha
      · exact hsub _ (by omega)
  | feeder m =>
    obtain ⟨rs', h1, h2⟩ := C30_feeder_routes hs hd s hg m
    cases h1.symm.trans hrun
    refine fam h2 fun i hi a ha => ?_
    simp only [List.mem_cons, List.not_mem_nil, or_false] at ha
    rcases ha with rfl | rfl
    · exact hper i hi
    · exact hsub i hi
  | radial m short express =>
    obtain ⟨rs', h1, h2⟩ := C31_radial_routes hs hd s hg m short express
    cases h1.symm.trans hrun
    refine fam h2 fun i hi a ha => ?_
    cases short <;> simp only [if_true, Bool.false_eq_true, if_false, List.mem_cons, List.not_mem_nil, or_false] at ha
    · rcases ha with rfl | rfl | rfl
      · exact hper i hi
      · exact hsub i hi
      · exact hcbd
    · rcases ha with rfl | rfl
      · exact hsub i hi
      · exact hcbd
  | diametral m jump short express =>
    obtain ⟨h3, h4⟩ := hq
    obtain ⟨j, rfl⟩ := Int.eq_ofNat_of_zero_le (by omega : 0 ≤ jump)
    obtain ⟨rs', h1, h2⟩ := C32_diametral_routes hs hd s hg m short express (j := j) (by omega) (by omega)
    cases h1.symm.trans hrun
    refine fam h2 fun i hi a ha => ?_
    have hi' := hpk (by omega) hi
    have hm : (i + j) % n < n := Nat.mod_lt _ hn
    cases short <;> simp only [if_true, Bool.false_eq_true, if_false, List.mem_cons, List.not_mem_nil, or_false] at ha
    · rcases ha with rfl | rfl | rfl | rfl | rfl
      · exact hper i hi'
      · exact hsub i hi'
      · exact hcbd
      · exact hsub _ hm
      · exact hper _ hm
    · rcases ha with rfl | rfl | rfl
      · exact hsub i hi'
      · exact hcbd
      · exact hsub _ hm
  | tangential m jump short express =>
    obtain ⟨h3, h4⟩ := hq
    obtain ⟨j, rfl⟩ := Int.eq_ofNat_of_zero_le (by omega : 0 ≤ jump)
    obtain ⟨rs', h1, h2⟩ := C33_tangential_routes hs hd s hg m short express (j := j) (by omega) (by omega)
    cases h1.symm.trans hrun
    refine fam h2 fun i hi a ha => ?_
    have hi' := hpk (by omega) hi
    have hm : (i + j) % n < n := Nat.mod_lt _ hn
    cases short <;> simp only [if_true, Bool.false_eq_true, if_false, List.mem_append, List.mem_singleton] at ha
    · rcases ha with (rfl | ha) | rfl
      · exact hper i hi'
      · exact hring _ _ a ha
      · exact hper _ hm
    · exact hring _ _ a ha

theorem addAllRoutes_wf {K : Type} [DecidableEq K] : ∀ (rs : List (Route K)) {s s' : Network K}, s.Wf → addAllRoutes s rs = .ok s' → s'.Wf
  | [], _, _, h, e => by cases e; exact h
  | r :: t, s, s', h, e => by
    rw [addAllRoutes] at e
    split at e
    · next s₁ h1 =>
      have := h.addRoute r
      rw [h1] at this
      exact addAllRoutes_wf t this e
    · cases e

/-- C82: whatever families of predefined lines are asked for, of modes that can run together and no lines twice, there are such a
city, network and searches as the other theorems speak of. -/
theorem C82_all_requests (n : Nat) (hn : 1 ≤ n) {ms : List (Mode ℝ)} (hms : ModesOk ms) (hmr : ∀ m ∈ ms, m.Runs ∧ 0 ≤ m.fini)
    (qs : List (FamilyRequest ℝ)) (hq : ∀ q ∈ qs, q.mode ∈ ms ∧ q.Possible n) (hnd : (qs.map FamilyRequest.lines).Nodup)
    (hsPTP : 0 ≤ sPTP) (hpv : 0 < pas.pv) (hpw : 0 < pas.pw) (hpa : 0 ≤ pas.pa) (hl : 0 ≤ l) (hgg : 0 ≤ gg) (hp : 0 ≤ p) :
    ∃ city s rss x, buildFromParameters (n : Int) l gg p none none none none none = .ok city ∧
      addAllRoutes (Network.init city) (List.flatten rss) = .ok s ∧ s.graph = city ∧
      List.Forall₂ (fun (q : FamilyRequest ℝ) rs => q.run s = .ok rs) qs rss ∧ (rss.flatten.map Route.id).Nodup ∧
      Admissible rss.flatten sPTP none pas ∧ buildExtGraph city rss.flatten sPTP none = .ok x ∧
      ∀ o d : CityNode ℝ, ∃ r, buildHyperpath ⟨x.nodes, x.edges, pas, some o, some d⟩ = .ok r := by
  have hok : CityParamsOk (K := ℝ) (n : Int) l gg p none none none none none :=
    ⟨by omega, hl, hgg, hp, Or.inl ⟨rfl, rfl⟩, by simp, by simp, by simp⟩
  obtain ⟨city, hb⟩ : ∃ city, buildFromParameters (K := ℝ) (n : Int) l gg p none none none none none = .ok city :=
    ⟨_, buildFromParameters_eq hok⟩
  obtain ⟨_, hs, hdist⟩ := buildFromParameters_shape hb
  rw [Int.toNat_natCast] at hs
  obtain ⟨rss, h1, h2, _⟩ := C63_together hs hdist hn hms qs hq
  obtain ⟨s, h3, h4, h5, h6, _⟩ := h2 hnd
  have hrun : List.Forall₂ (fun (q : FamilyRequest ℝ) rs => q.run s = .ok rs) qs rss := h1.imp fun _ _ h => h s h4
  have hids : (rss.flatten.map Route.id).Nodup := by
    have hw := addAllRoutes_wf _ (Network.Wf.init city) h3
    rw [← h5, ← hw.ids]
    exact hw.nodup
  have hall : ∀ r ∈ rss.flatten, ∃ q ∈ qs, ∃ rs, q.run s = .ok rs ∧ r ∈ rs := by
    intro r hr
    obtain ⟨rs, h7, h8⟩ := List.mem_flatten.1 hr
    obtain ⟨i, hi⟩ := List.mem_iff_getElem?.1 h7
    obtain ⟨l2, e2⟩ := List.getElem?_eq_some_iff.1 hi
    have l1 : i < qs.length := by rw [hrun.length_eq]; exact l2
    exact ⟨qs[i], List.getElem_mem l1, rss[i], hrun.get l1 l2, e2 ▸ h8⟩
  have hmode : ∀ r ∈ rss.flatten, r.mode ∈ ms := by
    intro r hr
    obtain ⟨q, h7, rs, h8, h9⟩ := hall r hr
    rw [(request_nodes hs hdist h4 (hq q h7).2 h8 r h9).1]
    exact (hq q h7).1
  have ha : Admissible rss.flatten sPTP none pas := by
    refine ⟨fun r hr => (hmr _ (hmode r hr)).1, fun r hr => ?_, hsPTP, fun y => Real.sqrt_nonneg y, hpv, hpw, hpa⟩
    simp only [frequencies]
    rw [defaultFrequencies_getD hids hr]
    exact (hmr _ (hmode r hr)).2
  have hfits : ∀ r ∈ rss.flatten, r.Fits city := by
    intro r hr
    obtain ⟨q, h7, rs, h8, h9⟩ := hall r hr
    refine ⟨fun d i a ha => ?_, fun hc d i _ _ => (request_nodes hs hdist h4 (hq q h7).2 h8 r h9).2 hc d, ?_, ?_⟩
    · exact request_stops hs hdist hn h4 (hq q h7).2 h8 r h9 d a (List.mem_of_getElem? ha.1)
    · exact ne_of_gt (hmr _ (hmode r hr)).1.lines
    · exact ne_of_gt (hmr _ (hmode r hr)).1.speed
  obtain ⟨x, hx⟩ := C34_accepted hfits sPTP none
  exact ⟨city, s, rss, x, hb, h3, h4, hrun, hids, ha, hx, fun o d => C37_terminates ha hx (some o) (some d)⟩

/-- feeders, diametral and circular lines of buses in a city with six zones meet the hypotheses -/
example (m : Mode ℝ) (hm : m.Runs ∧ 0 ≤ m.fini) : ∃ city s rss x, buildFromParameters ((6 : Nat) : Int) (10 : ℝ) (1/2) 2 none none none none none = .ok city ∧
    addAllRoutes (Network.init city) (List.flatten rss) = .ok s ∧ s.graph = city ∧
    List.Forall₂ (fun (q : FamilyRequest ℝ) rs => q.run s = .ok rs) [.feeder m, .diametral m 3 true false, .circular m, .tangential m 2 false false] rss ∧
    (rss.flatten.map Route.id).Nodup ∧ Admissible rss.flatten 2 none (⟨4, 2, 4, 6, 16, 2, 4, 6, 16⟩ : Passenger ℝ) ∧
    buildExtGraph city rss.flatten 2 none = .ok x ∧
    ∀ o d : CityNode ℝ, ∃ r, buildHyperpath ⟨x.nodes, x.edges, ⟨4, 2, 4, 6, 16, 2, 4, 6, 16⟩, some o, some d⟩ = .ok r := by
  refine C82_all_requests 6 (by omega) (ms := [m]) (Or.inl (by simp)) (fun m' h => (List.mem_singleton.1 h) ▸ hm) _ ?_ ?_ (by norm_num)
    (by norm_num) (by norm_num) (by norm_num) (by norm_num) (by norm_num) (by norm_num)
  · intro q hq
    simp only [List.mem_cons, List.not_mem_nil, or_false] at hq
    rcases hq with rfl | rfl | rfl | rfl <;> simp [FamilyRequest.mode, FamilyRequest.Possible]
  · simp [FamilyRequest.lines]

example (m : Mode ℝ) : ∀ q ∈ [FamilyRequest.feeder m, .diametral m 3 true false, .circular m, .tangential m 2 false false], q.AllRound 6 := by
  intro q hq
  simp only [List.mem_cons, List.not_mem_nil, or_false] at hq
  rcases hq with rfl | rfl | rfl | rfl <;> simp [FamilyRequest.AllRound]

end City

section Examples

attribute [local instance] ratMath

/-- tangential lines in a city with four zones -/
def tangentLines (jump : Int) : List (Route ℚ) :=
  (((FamilyRequest.tangential demoMode jump false false).run (Network.init (demoCity 4))).toOption).getD []

/-- neighbouring subcentres are equally far apart by tangential lines between neighbours, all round the city -/
example : serviceLabels (demoCity 4) (tangentLines 1) 2 none demoPassenger 2 4 =
    serviceLabels (demoCity 4) (tangentLines 1) 2 none demoPassenger 8 2 := by decide +kernel

/-- C82 needs that no tangential lines go half way round: of those there are only half as many, so that some street of the ring is not
used.  In a city with four zones the trip from the first subcentre to the second takes less time than the one from the fourth to the
first, though both pairs are neighbours. -/
theorem C82_half_way_tangential_lines_differ :
    (FamilyRequest.tangential demoMode 2 false false).Possible 4 ∧
    (tangentLines 2).map (fun r => r.nodesI) = [[1, 2, 4, 6, 5], [3, 4, 6, 8, 7]] ∧
    serviceLabels (demoCity 4) (tangentLines 2) 2 none demoPassenger 2 4 = some [some (44/25)] ∧
    serviceLabels (demoCity 4) (tangentLines 2) 2 none demoPassenger 8 2 = some [some (322/75)] :=
  ⟨⟨by decide, by decide⟩, by decide +kernel, by decide +kernel, by decide +kernel⟩

end Examples

end Sidermit
