import Verif.Props.TimeOnBoard
import Verif.Proofs.Charges

/-!
C58 for circular lines: exactly which waiting on board the users cost leaves out, `users_cost.py`.
-/

set_option linter.unusedSectionVars false

namespace Sidermit

section Generic

variable {K : Type} [Field K] [LinearOrder K] [IsStrictOrderedRing K] [PyMath K] {g : Graph K} {routes : List (Route K)}
  {sPTP : K} {freq : Option (Dict Str K)} {x : ExtGraph K} {pas : Passenger K} {N : Nat} {f : Dict Str K}
  {l : List (ODResult K × Dict (StopNode K) K)} {z v : Dict (LoadKey K) K} {vp : K} {u : Resources K} {r : Loads K}

/-- the last occurrence of a node that comes once after the first place -/
theorem lastIndex_tail {l : List Int} (h : l.tail.Nodup) {id : Int} {j : Nat} (hj : l[j]? = some id) (h0 : j ≠ 0) :
    lastIndex l id = j := by
  cases l with
  | nil => simp at hj
  | cons a l =>
    obtain ⟨j, rfl⟩ : ∃ i, j = i + 1 := ⟨j - 1, by omega⟩
    rw [List.getElem?_cons_succ] at hj
    unfold lastIndex
    rw [List.zipIdx_cons, List.foldl_cons, (lastIndex_aux l (0 + 1) _).2 h j hj]
    omega

/-- the direction that is found for the leg to a stop of a circular line -/
theorem guessDir_ring (ho : StopsOnce routes) {p n : RouteNode K} (hp : p.Wanted g routes) (hn : n.Wanted g routes)
    (h : p.Precedes n) (hc : n.route.type = .circular) (hdir : n.dir = .I) :
    guessDir n.route p.stop.city.node.id n.stop.city.node.id = if n.pos = 1 then .R else .I := by
  have hr := precedes_route hp hn h
  have hmem := List.mem_of_getElem? hn.1
  have htail : n.route.stopsI.tail.Nodup := by
    rw [List.nodup_iff_getElem?_ne_getElem?]
    intro i j hij hj he
    rw [List.getElem?_tail, List.getElem?_tail] at he
    have hj' : (n.route.stopsI)[j + 1]? = some ((n.route.stopsI)[j + 1]'(by rw [List.length_tail] at hj; omega)) :=
      List.getElem?_eq_getElem _
    have := ho.once _ hmem .I (i + 1) (j + 1) _ ⟨by rw [Route.stopsOf, he]; exact hj', fun _ => by omega⟩ ⟨hj', fun _ => by omega⟩
    omega
  obtain ⟨h1, h2, h3⟩ := h
  unfold Route.stopBefore at h3
  rw [if_pos hc] at h3
  have h3 := Option.some.inj h3
  have hp1 := hp.2.1
  have hn1 := hn.2.1
  rw [hr, h2, hdir] at hp1
  rw [hdir] at hn1 h3
  obtain ⟨hp1, hp0⟩ := hp1
  obtain ⟨hn1, hn0⟩ := hn1
  have hp0 := hp0 hc
  have hn0 := hn0 hc
  simp only [Route.stopsOf] at hp1 hn1 h3
  unfold guessDir
  rw [lastIndex_tail htail hp1 hp0, lastIndex_tail htail hn1 hn0]
  by_cases hpos : n.pos = 1
  · rw [if_pos hpos]
    exact if_neg (by omega)
  · rw [if_neg hpos] at h3 ⊢
    exact if_pos (by omega)

theorem afterStart_iff (ho : StopsOnce routes) {n : RouteNode K} (hn : n.Wanted g routes) :
    afterStart routes n.key = true ↔ n.route.type = .circular ∧ n.dir = .I ∧ n.pos = 1 := by
  unfold afterStart
  rw [List.any_eq_true]
  have hmem := List.mem_of_getElem? hn.1
  constructor
  · rintro ⟨r, hr, h⟩
    obtain ⟨h1, h2, h3, h4⟩ := of_decide_eq_true h
    have hrr : r = n.route := route_of_id ho.ids hr hmem h1
    subst hrr
    simp only [RouteNode.key] at h3 h4
    refine ⟨h2, h3, ?_⟩
    have hn1 := hn.2.1
    rw [h3] at hn1
    exact ho.once _ hmem .I _ 1 _ hn1 ⟨h4, fun _ => by omega⟩
  · rintro ⟨h1, h2, h3⟩
    refine ⟨n.route, hmem, decide_eq_true ⟨rfl, h1, h2, ?_⟩⟩
    have := hn.2.1.1
    rw [h2, h3] at this
    exact this

/-- what is read at a stop: the delay there, none at the second stop of a circular line -/
theorem readAs_butAfterStart (ho : StopsOnce routes)
    (h2 : ∀ r ∈ routes, r.TwoWay ∨ r.stopsI = [] ∨ r.type = .circular ∧ r.stopsR = []) {χ : LoadKey K → K}
    (hχ : ∀ r ∈ routes, r.stopsR = [] → ∀ s, χ (r.id, .R, s) = 0) : ReadAs g routes χ (butAfterStart routes χ) := by
  intro p n hp hn hpn
  have hmem := List.mem_of_getElem? hn.1
  have hn1 := hn.2.1.1
  unfold butAfterStart
  rcases h2 _ hmem with h | h | ⟨hc, h⟩
  · rw [(guessDir_eq hp hn hpn h).2, if_neg]
    · rfl
    · rw [afterStart_iff ho hn]
      exact fun h' => h.type h'.1
  · have hdir : n.dir = .R := by
      cases hdir : n.dir with
      | R => rfl
      | I => rw [hdir, Route.stopsOf, h] at hn1; simp at hn1
    rw [if_neg, RouteNode.key, hdir]
    · unfold guessDir
      rw [h]
      rfl
    · rw [afterStart_iff ho hn, hdir]
      simp
  · have hdir : n.dir = .I := by
      cases hdir : n.dir with
      | I => rfl
      | R => rw [hdir, Route.stopsOf, h] at hn1; simp at hn1
    rw [guessDir_ring ho hp hn hpn hc hdir]
    by_cases hpos : n.pos = 1
    · rw [if_pos hpos, if_pos ((afterStart_iff ho hn).2 ⟨hc, hdir, hpos⟩)]
      exact hχ _ hmem h _
    · rw [if_neg hpos, if_neg (by rw [afterStart_iff ho hn]; exact fun h' => hpos h'.2.2), RouteNode.key, hdir]

/-- C58 (lines that go back over the same stops, circular lines, and lines without stops in direction I): the time on board is
what the tables of the loading tell, without the waiting at the second stop of each circular line that runs in direction I -/
theorem C58_circular_exact (ha : Admissible routes sPTP freq pas) (hd : DistinctIds g) (ho : StopsOnce routes)
    (hx : buildExtGraph g routes sPTP freq = .ok x) (hl : Loading x pas N f l) (hvp : vp ≠ 0)
    (h2 : ∀ r ∈ routes, r.TwoWay ∨ r.stopsI = [] ∨ r.type = .circular ∧ r.stopsR = [])
    (hb : ∀ r ∈ routes, r.mode.bya = 0 ∨ r.mode.bya = 1) (hu : resourcesConsumer N f x vp z v l = .ok u)
    (hr : getLoads N f l = .ok r) (hz : ∀ k, z.getD k 0 = r.z.getD k 0) (hv : ∀ k, v.getD k 0 = r.v.getD k 0) :
    u.tv = movingTime f x.edges r.load + weigh f r.v (butAfterStart routes (alightingDelay r.v)) +
      (weigh f r.load (butAfterStart routes (stopDelay r.z r.v)) - weigh f r.z (butAfterStart routes (stopDelay r.z r.v))) := by
  obtain ⟨kz, kv, _⟩ := table_keys ha hd hx hl hr
  have none : ∀ r ∈ routes, r.stopsR = [] → ∀ s, ¬ ∃ n : RouteNode K, n.Wanted g routes ∧ n.key = (r.id, .R, s) := by
    rintro r hr h s ⟨n, hn, hk⟩
    simp only [RouteNode.key, Prod.mk.injEq] at hk
    have hrr := route_of_id ho.ids (List.mem_of_getElem? hn.1) hr hk.1
    have hn1 := hn.2.1.1
    rw [hk.2.1, Route.stopsOf, hrr, h] at hn1
    simp at hn1
  have hz0 : ∀ q ∈ routes, q.stopsR = [] → ∀ s, r.z.getD (q.id, .R, s) 0 = 0 :=
    fun q hq h s => getD_of_not_mem _ fun hk => none q hq h s (kz _ hk)
  have hv0 : ∀ q ∈ routes, q.stopsR = [] → ∀ s, r.v.getD (q.id, .R, s) 0 = 0 :=
    fun q hq h s => getD_of_not_mem _ fun hk => none q hq h s (kv _ hk)
  have hα : alightingDelay v = alightingDelay r.v := by
    funext k
    unfold alightingDelay
    rw [hv]
  have hδ : stopDelay z v = stopDelay r.z r.v := by
    funext k
    unfold stopDelay
    rw [hv, hz]
  refine onBoard_read ha hd ho hx hl hb hvp hu hr ?_ ?_
  · rw [hα]
    refine readAs_butAfterStart ho h2 fun q hq h s => ?_
    unfold alightingDelay
    rw [hv0 q hq h s, zero_mul, zero_mul]
  · rw [hδ]
    refine readAs_butAfterStart ho h2 fun q hq h s => ?_
    unfold stopDelay
    rw [hv0 q hq h s, hz0 q hq h s]
    simp

/-! ## all lines -/

theorem lastIndex_spec (id : Int) : ∀ (l : List Int) (k i : Nat),
    ((l.zipIdx k).foldl (fun i p => if p.1 = id then p.2 else i) i = i ∧ id ∉ l) ∨
    ∃ j, (l.zipIdx k).foldl (fun i p => if p.1 = id then p.2 else i) i = k + j ∧ l[j]? = some id ∧
      ∀ m, j < m → l[m]? ≠ some id
  | [], k, i => .inl ⟨rfl, by simp⟩
  | a :: l, k, i => by
    rw [List.zipIdx_cons, List.foldl_cons]
    rcases lastIndex_spec id l (k + 1) (if a = id then k else i) with ⟨h1, h2⟩ | ⟨j, h1, h2, h3⟩
    · rw [h1]
      by_cases ha : a = id
      · refine .inr ⟨0, by rw [if_pos ha, Nat.add_zero], by rw [ha]; rfl, ?_⟩
        intro m hm hm'
        obtain ⟨m, rfl⟩ : ∃ i, m = i + 1 := ⟨m - 1, by omega⟩
        rw [List.getElem?_cons_succ] at hm'
        exact h2 (List.mem_of_getElem? hm')
      · refine .inl ⟨if_neg ha, ?_⟩
        rw [List.mem_cons, not_or]
        exact ⟨Ne.symm ha, h2⟩
    · refine .inr ⟨j + 1, by rw [h1]; omega, by rw [List.getElem?_cons_succ]; exact h2, ?_⟩
      intro m hm hm'
      obtain ⟨m, rfl⟩ : ∃ i, m = i + 1 := ⟨m - 1, by omega⟩
      rw [List.getElem?_cons_succ] at hm'
      exact h3 m (by omega) hm'

theorem lastIndex_lt_iff (l : List Int) (a b : Int) : lastIndex l a < lastIndex l b ↔ comesAfter l a b := by
  have ha := lastIndex_spec a l 0 0
  have hb := lastIndex_spec b l 0 0
  change (lastIndex l a = 0 ∧ a ∉ l) ∨ ∃ j, lastIndex l a = 0 + j ∧ l[j]? = some a ∧ ∀ m, j < m → l[m]? ≠ some a at ha
  change (lastIndex l b = 0 ∧ b ∉ l) ∨ ∃ j, lastIndex l b = 0 + j ∧ l[j]? = some b ∧ ∀ m, j < m → l[m]? ≠ some b at hb
  constructor
  · intro h
    rcases hb with ⟨h1, h2⟩ | ⟨j, h1, h2, h3⟩
    · omega
    refine ⟨j, by omega, h2, ?_⟩
    intro i hi hi'
    rcases ha with ⟨h4, h5⟩ | ⟨j', h4, h5, h6⟩
    · exact h5 (List.mem_of_getElem? hi')
    · exact h6 i (by omega) hi'
  · rintro ⟨j, h0, h1, h2⟩
    have hjb : j ≤ lastIndex l b := by
      rcases hb with ⟨h3, h4⟩ | ⟨j', h3, h4, h5⟩
      · exact absurd (List.mem_of_getElem? h1) h4
      · by_contra hlt
        exact h5 j (by omega) h1
    rcases ha with ⟨h3, h4⟩ | ⟨j', h3, h4, h5⟩
    · omega
    · by_contra hle
      exact h2 j' (by omega) h4

theorem misled_iff (ho : StopsOnce routes) {p n : RouteNode K} (hp : p.Wanted g routes) (hn : n.Wanted g routes)
    (h : p.Precedes n) :
    Misled routes n.key ↔ guessDir n.route p.stop.city.node.id n.stop.city.node.id ≠ n.dir := by
  have hmem := List.mem_of_getElem? hn.1
  have hr := precedes_route hp hn h
  have hp1 := hp.2.1
  rw [hr, h.2.1] at hp1
  have hguess : guessDir n.route p.stop.city.node.id n.stop.city.node.id ≠ n.dir ↔
      (comesAfter n.route.stopsI p.stop.city.node.id n.stop.city.node.id ↔ n.dir = .R) := by
    unfold guessDir
    rw [← lastIndex_lt_iff]
    by_cases hl : lastIndex n.route.stopsI p.stop.city.node.id < lastIndex n.route.stopsI n.stop.city.node.id
    · cases n.dir <;> simp [hl]
    · cases n.dir <;> simp [hl]
  rw [hguess]
  constructor
  · rintro ⟨r, hr', hid, i, j, a, h1, h2, h3, h4⟩
    have hrr : r = n.route := route_of_id ho.ids hr' hmem hid
    subst hrr
    simp only [RouteNode.key] at h1 h2 h3 h4
    have hi := ho.once _ hmem _ _ _ _ h1 hn.2.1
    subst hi
    have hj := h.2.2
    rw [h2, Option.some.injEq] at hj
    subst hj
    have ha := h3.1
    rw [hp1.1, Option.some.injEq] at ha
    rw [ha]
    exact h4
  · intro h'
    exact ⟨n.route, hmem, rfl, n.pos, p.pos, p.stop.city.node.id, hn.2.1, h.2.2, hp1, h'⟩

theorem readAs_readKey (ho : StopsOnce routes) (χ : LoadKey K → K) : ReadAs g routes χ fun k => χ (readKey routes k) := by
  intro p n hp hn hpn
  change _ = χ (readKey routes n.key)
  unfold readKey
  split
  · next h =>
    rw [misled_iff ho hp hn hpn] at h
    congr 2
    simp only [RouteNode.key, Prod.mk.injEq, and_true]
    revert h
    cases guessDir n.route p.stop.city.node.id n.stop.city.node.id <;> cases n.dir <;> simp [Dir.other]
  · next h =>
    rw [misled_iff ho hp hn hpn, not_not] at h
    rw [h]
    rfl

/-- C58 (all networks; the exact value, which differs from the property where an entry is misled): the time on board is the load of
every section times the time of it; those who alight wait for half of those who alight there; and those who stay on board wait until
all have boarded and alighted; but at the stops that are misled, those of the other direction of the line are taken -/
theorem C58_exact (ha : Admissible routes sPTP freq pas) (hd : DistinctIds g) (ho : StopsOnce routes)
    (hx : buildExtGraph g routes sPTP freq = .ok x) (hl : Loading x pas N f l) (hvp : vp ≠ 0)
    (hb : ∀ r ∈ routes, r.mode.bya = 0 ∨ r.mode.bya = 1) (hu : resourcesConsumer N f x vp z v l = .ok u)
    (hr : getLoads N f l = .ok r) :
    u.tv = movingTime f x.edges r.load + weigh f r.v (fun k => alightingDelay v (readKey routes k)) +
      (weigh f r.load (fun k => stopDelay z v (readKey routes k)) - weigh f r.z fun k => stopDelay z v (readKey routes k)) :=
  onBoard_read ha hd ho hx hl hb hvp hu hr (readAs_readKey ho _) (readAs_readKey ho _)

end Generic

section Examples

attribute [local instance] ratMath ratText

/-- the time on board from the tables, without the waiting at the second stop of circular lines -/
def demoShown (rs : List (Route ℚ)) (od : Dict Int (Dict Int ℚ)) (f : Dict Str ℚ) : Py ℚ := do
  let x ← buildExtGraph (demoCity 3) rs 2 none
  let r ← demoPipeline rs od f
  let t ← r.2.2
  return movingTime f x.edges t.load + weigh f t.v (butAfterStart rs (alightingDelay t.v)) +
      (weigh f t.load (butAfterStart rs (stopDelay t.z t.v)) - weigh f t.z (butAfterStart rs (stopDelay t.z t.v)))

/-- trips that board, alight and stay on board at the second stop of the circular line -/
def circularOD : Dict Int (Dict Int ℚ) := [(1, [(4, 5)]), (2, [(4, 6), (6, 3)]), (4, [(6, 2), (2, 4)])]

def circularExt : ExtGraph ℚ := ((buildExtGraph (demoCity 3) demoRoutes 2 none).toOption).getD ⟨[], []⟩

/-- the hypotheses -/
example : Admissible demoRoutes 2 none demoPassenger ∧ DistinctIds (demoCity 3) ∧ StopsOnce demoRoutes ∧
    (∀ r ∈ demoRoutes, r.TwoWay ∨ r.stopsI = [] ∨ r.type = .circular ∧ r.stopsR = []) ∧
    (∀ r ∈ demoRoutes, r.mode.bya = 0 ∨ r.mode.bya = 1) ∧ buildExtGraph (demoCity 3) demoRoutes 2 none = .ok circularExt ∧
    ∃ res, allHyperpaths circularExt.nodes circularExt.edges demoPassenger circularOD = .ok res ∧ ∀ shares,
      Loading circularExt demoPassenger (allNodes circularExt.nodes).length (frequencies demoRoutes none) (res.zip shares) := by
  have hd : DistinctIds (demoCity 3) := by unfold DistinctIds; decide +kernel
  have hx : buildExtGraph (demoCity 3) demoRoutes 2 none = .ok circularExt := by decide +kernel
  have h2 : ∀ r ∈ demoRoutes, (r.type ≠ .circular ∧ r.stopsI.Nodup ∧ r.stopsR = r.stopsI.reverse) ∨
      r.type = .circular ∧ r.stopsR = [] := by decide +kernel
  refine ⟨demoAdmissible, hd, StopsOnce.of_nodup (by decide +kernel) ?_, fun r hr => ?_, by decide +kernel, hx, ?_⟩
  · have : ∀ r ∈ demoRoutes, ∀ d ∈ [Dir.I, Dir.R],
        if r.type = .circular then (r.stopsOf d).tail.Nodup else (r.stopsOf d).Nodup := by decide +kernel
    exact fun r hr d => this r hr d (by cases d <;> simp)
  · rcases h2 r hr with ⟨a, b, c⟩ | h
    · exact .inl ⟨a, b, c⟩
    · exact .inr (.inr h)
  · have hv : networkValidator circularExt.nodes circularExt.edges demoPassenger circularOD = .ok true := by decide +kernel
    obtain ⟨res, hres, _⟩ := (C41_all_pairs demoAdmissible hd hx circularOD).1 hv
    refine ⟨res, hres, fun shares => C44_applies demoAdmissible hd hx ?_ hres shares⟩
    exact getD_nonneg (by decide +kernel)

/-- what the code gives, what the theorem says, and what the tables tell -/
example : (demoResources demoRoutes circularOD (defaultFrequencies demoRoutes)).map Resources.tv = .ok (23974189 / 2332800) ∧
    demoShown demoRoutes circularOD (defaultFrequencies demoRoutes) = .ok (23974189 / 2332800) ∧
    demoOnBoard demoRoutes circularOD (defaultFrequencies demoRoutes) = .ok (3207773 / 311040) := by decide +kernel

/-- a line that goes back another way -/
def otherWay : List (Route ℚ) := [⟨"a".toList, demoMode, [1, 2, 0], [0, 4, 2, 1], [1, 2, 0], [0, 4, 2, 1], .custom⟩]

def otherWayOD : Dict Int (Dict Int ℚ) := [(0, [(2, 6), (1, 3)]), (4, [(2, 2), (1, 4)]), (1, [(2, 5)])]

/-- C58 fails for lines that go back another way: of the leg from node 4 to node 2, direction I has node 2 but not node 4 -/
theorem C58_other_way_fails :
    (demoResources otherWay otherWayOD (defaultFrequencies otherWay)).map Resources.tv = .ok (9523 / 900) ∧
    demoOnBoard otherWay otherWayOD (defaultFrequencies otherWay) = .ok (19079 / 1800) := by decide +kernel

/-- the constructor accepts the line -/
example : [mkRoute (some "a".toList) demoMode (some "1,2,0".toList) (some "0,4,2,1".toList) (some "1,2,0".toList)
    (some "0,4,2,1".toList)].map Except.toOption = otherWay.map some := by decide +kernel

/-- the entry of node 2 in direction R is misled, that of node 4 is not -/
example {s t : StopNode ℚ} (hs : s.city.node.id = 2) (ht : t.city.node.id = 4) :
    Misled otherWay ("a".toList, .R, s) ∧ ¬ Misled otherWay ("a".toList, .R, t) := by
  constructor
  · refine ⟨_, List.mem_singleton_self _, rfl, 2, 1, 4, ?_, rfl, ⟨rfl, by simp⟩, ?_⟩
    · rw [hs]
      exact ⟨rfl, by simp⟩
    · rw [hs]
      refine iff_of_true ⟨1, by omega, rfl, ?_⟩ rfl
      intro i hi h
      have := List.mem_of_getElem? h
      revert this
      decide
  · rintro ⟨r, hr, -, i, j, a, h1, h2, h3, h4⟩
    rw [List.mem_singleton.1 hr, ht] at h4
    obtain ⟨j, -, h5, -⟩ := h4.2 rfl
    have := List.mem_of_getElem? h5
    revert this
    decide

end Examples

end Sidermit
