import Verif.Spec.Families
import Verif.Props.Network

/-! Lemmas about the ids of the predefined routes, and about adding several families to one network. -/

set_option linter.unusedSectionVars false
set_option linter.unusedVariables false

namespace Sidermit

variable {K : Type}

theorem split_first {c : Char} {a b x y : Str} (ha : c ∉ a) (hb : c ∉ b) (h : a ++ c :: x = b ++ c :: y) :
    a = b ∧ x = y := by
  induction a generalizing b with
  | nil =>
    cases b with
    | nil => simpa using h
    | cons d t => simp at h; exact absurd h.1 (by rintro rfl; simp at hb)
  | cons e s ih =>
    cases b with
    | nil => simp at h; exact absurd h.1 (by rintro rfl; simp at ha)
    | cons d t =>
      simp only [List.cons_append, List.cons.injEq] at h
      have := ih (b := t) (by simp at ha; exact ha.2) (by simp at hb; exact hb.2) h.2
      exact ⟨by rw [h.1, this.1], this.2⟩

theorem split_last {c : Char} {a b x y : Str} (hx : c ∉ x) (hy : c ∉ y) (h : a ++ c :: x = b ++ c :: y) :
    a = b ∧ x = y := by
  have h' := congrArg List.reverse h
  simp only [List.reverse_append, List.reverse_cons, List.append_assoc, List.singleton_append] at h'
  have := split_first (by simpa using hx) (by simpa using hy) h'
  exact ⟨List.reverse_injective this.2, List.reverse_injective this.1⟩

theorem digitChar_ne {d : Nat} (hd : d < 10) :
    digitChar d ≠ '_' ∧ digitChar d ≠ 'S' ∧ digitChar d ≠ 'E' := by
  have : ∀ d < 10, digitChar d ≠ '_' ∧ digitChar d ≠ 'S' ∧ digitChar d ≠ 'E' := by decide
  exact this d hd

theorem showInt_ne_marks (i : Int) (c : Char) (h : c ∈ showInt i) : c ≠ '_' ∧ c ≠ 'S' ∧ c ≠ 'E' := by
  rcases showInt_chars i c h with rfl | ⟨d, hd, rfl⟩
  · decide
  · exact digitChar_ne hd

theorem showInt_no_underscore (i : Int) : '_' ∉ showInt i := fun h => (showInt_ne_marks i _ h).1 rfl

/-- the letters before the number of a diametral or tangential route -/
def marks (short express : Bool) : Str := (if short then "S".toList else []) ++ (if express then "E".toList else [])

theorem marks_inj {s e s' e' : Bool} {i j : Int} (h : marks s e ++ showInt i = marks s' e' ++ showInt j) :
    s = s' ∧ e = e' ∧ i = j := by
  have key : ∀ k : Int, ∃ c t, showInt k = c :: t ∧ c ≠ 'S' ∧ c ≠ 'E' := by
    intro k
    cases hk : showInt k with
    | nil => exact absurd hk (showInt_ne_nil k)
    | cons c t => exact ⟨c, t, rfl, (showInt_ne_marks k c (by rw [hk]; simp)).2⟩
  obtain ⟨c, t, hc, c1, c2⟩ := key i
  obtain ⟨d, u, hd, d1, d2⟩ := key j
  have c1' := c1.symm
  have c2' := c2.symm
  have d1' := d1.symm
  have d2' := d2.symm
  rw [hc, hd] at h
  cases s <;> cases e <;> cases s' <;> cases e' <;>
    simp_all [marks] <;>
    exact showInt_injective (by rw [hc, hd])

namespace FamilyRequest

/-- the first part of the ids of a family -/
def tag : FamilyRequest K → Str
  | circular _ => "CIR".toList
  | feeder _ => "F".toList
  | radial _ short express => if short then "RS".toList else if express then "RE".toList else "R".toList
  | diametral _ jump short express => 'D' :: (marks short express ++ showInt jump)
  | tangential _ jump short express => 'T' :: (marks short express ++ showInt jump)

theorem tag_no_underscore (q : FamilyRequest K) : '_' ∉ q.tag := by
  have hm : ∀ s e : Bool, '_' ∉ marks s e := by decide
  cases q with
  | circular m => simp [tag]
  | feeder m => simp [tag]
  | radial m s e => cases s <;> cases e <;> simp [tag]
  | diametral m j s e =>
    simp only [tag, List.mem_cons, List.mem_append, not_or]
    exact ⟨by decide, hm s e, showInt_no_underscore j⟩
  | tangential m j s e =>
    simp only [tag, List.mem_cons, List.mem_append, not_or]
    exact ⟨by decide, hm s e, showInt_no_underscore j⟩

theorem lines_of_tag {q q' : FamilyRequest K} (ht : q.tag = q'.tag) (hm : q.mode = q'.mode) : q.lines = q'.lines := by
  cases q with
  | circular m =>
    cases q' with
    | circular m' => simp only [mode] at hm; rw [hm]
    | feeder m' => simp [tag] at ht
    | radial m' s e => cases s <;> cases e <;> simp [tag] at ht
    | diametral m' j s e => simp [tag] at ht
    | tangential m' j s e => simp [tag] at ht
  | feeder m =>
    cases q' with
    | circular m' => simp [tag] at ht
    | feeder m' => simp only [mode] at hm; rw [hm]
    | radial m' s e => cases s <;> cases e <;> simp [tag] at ht
    | diametral m' j s e => simp [tag] at ht
    | tangential m' j s e => simp [tag] at ht
  | radial m s0 e0 =>
    cases q' with
    | circular m' => cases s0 <;> cases e0 <;> simp [tag] at ht
    | feeder m' => cases s0 <;> cases e0 <;> simp [tag] at ht
    | radial m' s e =>
      simp only [mode] at hm; subst hm
      revert ht
      cases s0 <;> cases e0 <;> cases s <;> cases e <;> simp [tag, lines]
    | diametral m' j s e => revert ht; cases s0 <;> cases e0 <;> simp [tag]
    | tangential m' j s e => revert ht; cases s0 <;> cases e0 <;> simp [tag]
  | diametral m j s e =>
    cases q' with
    | circular m' => simp [tag] at ht
    | feeder m' => simp [tag] at ht
    | radial m' s0 e0 => revert ht; cases s0 <;> cases e0 <;> simp [tag]
    | diametral m' j' s' e' =>
      simp only [tag, List.cons.injEq, true_and] at ht
      obtain ⟨rfl, rfl, rfl⟩ := marks_inj ht
      simp only [mode] at hm; subst hm; rfl
    | tangential m' j' s' e' => simp [tag] at ht
  | tangential m j s e =>
    cases q' with
    | circular m' => simp [tag] at ht
    | feeder m' => simp [tag] at ht
    | radial m' s0 e0 => revert ht; cases s0 <;> cases e0 <;> simp [tag]
    | diametral m' j' s' e' => simp [tag] at ht
    | tangential m' j' s' e' =>
      simp only [tag, List.cons.injEq, true_and] at ht
      obtain ⟨rfl, rfl, rfl⟩ := marks_inj ht
      simp only [mode] at hm; subst hm; rfl

/-- the form of the ids of a family -/
def HasForm (q : FamilyRequest K) (id : Str) : Prop :=
  match q with
  | circular m => ∃ c, id = "CIR".toList ++ '_' :: c :: '_' :: m.name
  | q => ∃ z : Int, id = q.tag ++ '_' :: (q.mode.name ++ '_' :: showInt z)

theorem HasForm.starts {q : FamilyRequest K} {id : Str} (h : q.HasForm id) : ∃ x, id = q.tag ++ '_' :: x := by
  cases q <;> (obtain ⟨z, hz⟩ := h; exact ⟨_, hz⟩)

theorem form_inj {q q' : FamilyRequest K} {id : Str} (h : q.HasForm id) (h' : q'.HasForm id) :
    q.tag = q'.tag ∧ q.mode.name = q'.mode.name := by
  obtain ⟨x, hx⟩ := h.starts
  obtain ⟨y, hy⟩ := h'.starts
  have ht := (split_first q.tag_no_underscore q'.tag_no_underscore (hx ▸ hy)).1
  refine ⟨ht, ?_⟩
  have two : ∀ (q q' : FamilyRequest K), q.tag = q'.tag →
      (∃ z : Int, id = q.tag ++ '_' :: (q.mode.name ++ '_' :: showInt z)) →
      (∃ z : Int, id = q'.tag ++ '_' :: (q'.mode.name ++ '_' :: showInt z)) → q.mode.name = q'.mode.name := by
    rintro q q' ht ⟨z, hz⟩ ⟨w, hw⟩
    have h2 := (split_first q.tag_no_underscore q'.tag_no_underscore (hz ▸ hw)).2
    exact (split_last (showInt_no_underscore z) (showInt_no_underscore w) h2).1
  cases q with
  | circular m =>
    cases q' with
    | circular m' =>
      obtain ⟨c, hc⟩ := h
      obtain ⟨c', hc'⟩ := h'
      rw [hc] at hc'
      simp only [List.append_cancel_left_eq, List.cons.injEq, true_and] at hc'
      exact hc'.2
    | feeder m' => simp [tag] at ht
    | radial m' s e => clear h h' hx hy; cases s <;> cases e <;> simp [tag] at ht
    | diametral m' j s e => simp [tag] at ht
    | tangential m' j s e => simp [tag] at ht
  | feeder m =>
    cases q' with
    | circular m' => simp [tag] at ht
    | _ => exact two _ _ ht h h'
  | radial m s e =>
    cases q' with
    | circular m' => clear h h' hx hy; cases s <;> cases e <;> simp [tag] at ht
    | _ => exact two _ _ ht h h'
  | diametral m j s e =>
    cases q' with
    | circular m' => simp [tag] at ht
    | _ => exact two _ _ ht h h'
  | tangential m j s e =>
    cases q' with
    | circular m' => simp [tag] at ht
    | _ => exact two _ _ ht h h'

theorem run_lines (s : Network K) (q : FamilyRequest K) : q.lines.run s = q.run s := by
  cases q with
  | radial m short express =>
    cases short with
    | false => rfl
    | true => cases express <;> rfl
  | _ => rfl

variable [DecidableEq K]

theorem family_facts {g : Graph K} {m : Mode K} {k : Nat} {name : Nat → Str} {nodes stops : Nat → List Int}
    {rs : List (Route K)} (h : RouteFamily g m k name nodes stops rs) {r : Route K} (hr : r ∈ rs) :
    r.mode = m ∧ OnStreets g r.nodesI ∧ ∃ i, r.id = name i := by
  obtain ⟨i, hi⟩ := List.getElem?_of_mem hr
  have hlt : i < k := by rw [← h.count]; exact (List.getElem?_eq_some_iff.1 hi).1
  obtain ⟨r', h1, h2, h3, h4, h5, h6, h7⟩ := h.each i hlt
  rw [hi] at h1
  cases h1
  exact ⟨h3, h7.streetsI, i, h2⟩

theorem pairsAt_pos {n j : Nat} (hj : 1 ≤ j) (hjn : 2 * j ≤ n) : 1 ≤ pairsAt n j := by unfold pairsAt; split <;> omega

/-- what a generator returns -/
theorem run_facts {g : Graph K} {n : Nat} (hs : CityShape g n) (hd : DistinctIds g) (hn : 1 ≤ n) (q : FamilyRequest K)
    (hq : q.Possible n) :
    ∃ rs, (∀ s : Network K, s.graph = g → q.run s = .ok rs) ∧ rs ≠ [] ∧ (rs.map Route.id).Nodup ∧
      ∀ r ∈ rs, r.mode = q.mode ∧ OnStreets g r.nodesI ∧ q.HasForm r.id := by
  have fam : ∀ (q : FamilyRequest K) (k : Nat) (nodes stops : Nat → List Int) (rs : List (Route K)), 1 ≤ k →
      (∀ s : Network K, s.graph = g → q.run s = q.run (Network.init g)) →
      q.run (Network.init g) = .ok rs →
      RouteFamily g q.mode k (routeLabel q.tag q.mode.name) nodes stops rs →
      (∀ id, (∃ z : Int, id = q.tag ++ '_' :: (q.mode.name ++ '_' :: showInt z)) → q.HasForm id) →
      ∃ rs, (∀ s : Network K, s.graph = g → q.run s = .ok rs) ∧ rs ≠ [] ∧ (rs.map Route.id).Nodup ∧
        ∀ r ∈ rs, r.mode = q.mode ∧ OnStreets g r.nodesI ∧ q.HasForm r.id := by
    intro q k nodes stops rs hk hrun h0 hf hform
    refine ⟨rs, fun s hg => (hrun s hg).trans h0, ?_, hf.distinct, ?_⟩
    · rintro rfl
      have := hf.count
      simp at this
      omega
    · intro r hr
      obtain ⟨h1, h2, i, h3⟩ := family_facts hf hr
      exact ⟨h1, h2, hform _ ⟨(i : Int) + 1, by rw [h3]; simp [routeLabel]⟩⟩
  cases q with
  | circular m =>
    have h2 : 2 ≤ n := hq
    refine ⟨_, fun s hg => (show s.circularRoutes m = (Network.init g).circularRoutes m by subst hg; rfl).trans
      (circularRoutes_eq (s := Network.init g) hs h2 m), by simp, ?_, ?_⟩
    · simp only [List.map_cons, List.map_nil, List.nodup_cons, List.mem_singleton, List.not_mem_nil, not_false_eq_true,
        List.nodup_nil, and_true]
      intro h
      have := List.append_cancel_right h
      revert this
      decide +kernel
    · intro r hr
      have h1 := (ring_streets (i := 0) (j := n) hs h2).1
      rw [ring_full h2] at h1
      simp only [List.mem_cons, List.not_mem_nil, or_false] at hr
      rcases hr with rfl | rfl
      · exact ⟨rfl, h1, 'I', rfl⟩
      · exact ⟨rfl, by intro p hp; simp [pairs] at hp, 'R', rfl⟩
  | feeder m =>
    obtain ⟨rs, h0, hf⟩ := C30_feeder_routes hs hd (Network.init g) rfl m
    exact fam (feeder m) n _ _ rs hn (fun s hg => by subst hg; rfl) h0 hf (fun id h => h)
  | radial m short express =>
    obtain ⟨rs, h0, hf⟩ := C31_radial_routes hs hd (Network.init g) rfl m short express
    exact fam (radial m short express) n _ _ rs hn (fun s hg => by subst hg; rfl) h0 hf (fun id h => h)
  | diametral m jump short express =>
    obtain ⟨j, rfl⟩ : ∃ j : Nat, jump = (j : Int) := ⟨jump.toNat, by have := hq.1; omega⟩
    have h1 : 1 ≤ j := by have := hq.1; omega
    have h2 : 2 * j ≤ n := by have := hq.2; omega
    obtain ⟨rs, h0, hf⟩ := C32_diametral_routes hs hd (Network.init g) rfl m short express h1 h2
    exact fam (diametral m j short express) _ _ _ rs (pairsAt_pos h1 h2) (fun s hg => by subst hg; rfl) h0
      (by simpa [tag, mode, marks] using hf) (fun id h => h)
  | tangential m jump short express =>
    obtain ⟨j, rfl⟩ : ∃ j : Nat, jump = (j : Int) := ⟨jump.toNat, by have := hq.1; omega⟩
    have h1 : 1 ≤ j := by have := hq.1; omega
    have h2 : 2 * j ≤ n := by have := hq.2; omega
    obtain ⟨rs, h0, hf⟩ := C33_tangential_routes hs hd (Network.init g) rfl m short express h1 h2
    exact fam (tangential m j short express) _ _ _ rs (pairsAt_pos h1 h2) (fun s hg => by subst hg; rfl) h0
      (by simpa [tag, mode, marks] using hf) (fun id h => h)

end FamilyRequest

/-! ### adding many routes -/

theorem modesOk_of_subset {ms l : List (Mode K)} {m : Mode K} (hms : ModesOk ms) (hl : ModesOk l) (hsub : ∀ x ∈ l, x ∈ ms)
    (hm : m ∈ ms) (hml : m ∉ l) : ModesOk (l ++ [m]) := by
  rcases hl with hl | ⟨a, b, rfl, hab, hd⟩
  · cases l with
    | nil => exact Or.inl (by simp)
    | cons x t =>
      have ht : t = [] := by cases t with
        | nil => rfl
        | cons y u => simp at hl
      subst ht
      have hx := hsub x (by simp)
      have hne : x ≠ m := by rintro rfl; simp at hml
      right
      rcases hms with hms | ⟨a, b, rfl, hab, hd⟩
      · cases ms with
        | nil => simp at hx
        | cons y u =>
          have hu : u = [] := by cases u with
            | nil => rfl
            | cons y u => simp at hms
          subst hu
          simp at hx hm
          exact absurd (hx.trans hm.symm) hne
      · simp only [List.mem_cons, List.not_mem_nil, or_false] at hx hm
        rcases hx with rfl | rfl <;> rcases hm with rfl | rfl
        · exact absurd rfl hne
        · exact ⟨_, _, rfl, hab, hd⟩
        · exact ⟨_, _, rfl, hab.symm, hd.symm⟩
        · exact absurd rfl hne
  · exfalso
    have ha := hsub a (by simp)
    have hb := hsub b (by simp)
    have hne : a ≠ b := by rintro rfl; exact hab rfl
    have hma : m ≠ a := by rintro rfl; simp at hml
    have hmb : m ≠ b := by rintro rfl; simp at hml
    rcases hms with hms | ⟨c, d, rfl, _, _⟩
    · cases ms with
      | nil => simp at ha
      | cons y u =>
        have hu : u = [] := by cases u with
          | nil => rfl
          | cons y u => simp at hms
        subst hu
        simp at ha hb
        exact hne (ha.trans hb.symm)
    · simp only [List.mem_cons, List.not_mem_nil, or_false] at ha hb hm
      rcases ha with rfl | rfl <;> rcases hb with rfl | rfl <;> rcases hm with rfl | rfl <;> simp_all

variable [DecidableEq K]

/-- routes on streets, of modes that can be registered together, are all accepted exactly when no id is repeated -/
theorem addAllRoutes_decided {g : Graph K} {ms : List (Mode K)} (hms : ModesOk ms) : ∀ (rs : List (Route K)) (s : Network K),
    s.Wf → s.graph = g → (∀ m ∈ s.modes, m ∈ ms) → (∀ r ∈ rs, r.mode ∈ ms ∧ OnStreets g r.nodesI) → s.routeIds.Nodup →
    ((s.routeIds ++ rs.map Route.id).Nodup → ∃ s', addAllRoutes s rs = .ok s' ∧ s'.Wf ∧ s'.graph = g ∧
      s'.routes = s.routes ++ rs ∧ ∀ m, m ∈ s'.modes ↔ m ∈ s.modes ∨ ∃ r ∈ rs, r.mode = m) ∧
    (¬ (s.routeIds ++ rs.map Route.id).Nodup → addAllRoutes s rs = .error .RouteIdDuplicated)
  | [], s, hw, hg, hm, _, hnd => by
    refine ⟨fun _ => ⟨s, rfl, hw, hg, by simp, by simp⟩, fun h => absurd (by simpa using hnd) h⟩
  | r :: t, s, hw, hg, hm, h, hnd => by
    classical
    have hr := h r List.mem_cons_self
    by_cases hid : r.id ∈ s.routeIds
    · refine ⟨fun hn => ?_, fun _ => ?_⟩
      · rw [List.nodup_append] at hn
        exact absurd rfl (hn.2.2 r.id hid r.id (by simp))
      · have hadd : s.addRoute r = (s, some .RouteIdDuplicated) := by
          rw [addRoute_eq hw.modes, if_neg (by rw [hg]; simpa using hr.2), if_pos hid]
        rw [addAllRoutes, hadd]
    · have hw' := hw.addRoute r
      obtain ⟨s1, hadd, hg1, hr1, hi1, hm1⟩ : ∃ s1, s.addRoute r = (s1, none) ∧ s1.graph = g ∧
          s1.routes = s.routes ++ [r] ∧ s1.routeIds = s.routeIds ++ [r.id] ∧
          ∀ m, m ∈ s1.modes ↔ m ∈ s.modes ∨ r.mode = m := by
        rw [addRoute_eq hw.modes, if_neg (by rw [hg]; simpa using hr.2), if_neg hid]
        by_cases hmm : r.mode ∈ s.modes
        · rw [if_pos hmm]
          refine ⟨_, rfl, hg, rfl, rfl, fun m => ⟨Or.inl, ?_⟩⟩
          rintro (h | rfl)
          · exact h
          · exact hmm
        · rw [if_neg hmm, if_pos (modesOk_of_subset hms hw.modes hm hr.1 hmm)]
          exact ⟨_, rfl, hg, rfl, rfl, fun m => by simp [eq_comm]⟩
      rw [hadd] at hw'
      have hsplit : (s.routeIds ++ (r :: t).map Route.id) = s1.routeIds ++ t.map Route.id := by rw [hi1]; simp
      have ih := addAllRoutes_decided hms t s1 hw' hg1 (by
          intro m h1
          rcases (hm1 m).1 h1 with h2 | rfl
          · exact hm m h2
          · exact hr.1) (fun r' h1 => h r' (List.mem_cons_of_mem _ h1)) (by
          rw [hi1, List.nodup_append]
          refine ⟨hnd, by simp, ?_⟩
          intro a ha b hb hab
          simp at hb
          subst hb; subst hab
          exact hid ha)
      rw [hsplit]
      refine ⟨fun hn => ?_, fun hn => ?_⟩
      · obtain ⟨s', h1, h2, h3, h4, h5⟩ := ih.1 hn
        refine ⟨s', by rw [addAllRoutes, hadd]; exact h1, h2, h3, by rw [h4, hr1]; simp, ?_⟩
        intro m
        rw [h5, hm1]
        simp only [List.mem_cons, exists_eq_or_imp]
        tauto
      · rw [addAllRoutes, hadd]
        exact ih.2 hn

end Sidermit
