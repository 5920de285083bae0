import Verif.Proofs.Costs
import Mathlib.Algebra.BigOperators.Group.Finset.Basic

set_option linter.unusedSectionVars false

namespace Sidermit

variable {K : Type} [Field K] [LinearOrder K] [IsStrictOrderedRing K]

/-- sum over the keys of a list with a property -/
def sumOver (S : List (LoadKey K)) (P : LoadKey K → Prop) [DecidablePred P] (w : LoadKey K → K) : K :=
  ((S.filter fun k => P k).map w).sum

/-- keys of a table: each once, and all in `S` -/
def KeysIn (S : List (LoadKey K)) (d : Dict (LoadKey K) K) : Prop := (Dict.keys d).Nodup ∧ ∀ k ∈ Dict.keys d, k ∈ S

theorem sum_sublist {S L : List (LoadKey K)} (P : LoadKey K → Prop) [DecidablePred P] (w : LoadKey K → K) (hS : S.Nodup)
    (hL : L.Nodup) (hsub : ∀ k ∈ L, k ∈ S ∧ P k) (h0 : ∀ k ∈ S, P k → k ∉ L → w k = 0) :
    (L.map w).sum = sumOver S P w := by
  unfold sumOver
  have hS' : (S.filter fun k => P k).Nodup := hS.filter _
  rw [← List.sum_toFinset w hL, ← List.sum_toFinset w hS']
  apply Finset.sum_subset
  · intro k hk
    rw [List.mem_toFinset] at hk ⊢
    rw [List.mem_filter]
    exact ⟨(hsub k hk).1, decide_eq_true (hsub k hk).2⟩
  · intro k hk hk'
    rw [List.mem_toFinset] at hk hk'
    rw [List.mem_filter] at hk
    exact h0 k hk.1 (of_decide_eq_true hk.2) hk'

omit [IsStrictOrderedRing K] in
theorem getD_of_not_mem (d : Dict (LoadKey K) K) {k : LoadKey K} (h : k ∉ Dict.keys d) : d.getD k 0 = 0 := by
  unfold Dict.getD
  rw [(Dict.get?_eq_none_iff d k).2 h]
  rfl

theorem total_eq_sumOver {S : List (LoadKey K)} (hS : S.Nodup) {d : Dict (LoadKey K) K} (hd : KeysIn S d)
    (P : LoadKey K → Prop) [DecidablePred P] : total d P = sumOver S P fun k => d.getD k 0 := by
  rw [← sum_sublist (L := (Dict.keys d).filter fun k => P k) P _ hS (hd.1.filter _)]
  · unfold total Dict.keys
    rw [List.filter_map, List.map_map]
    congr 1
    apply List.map_congr_left
    rintro ⟨k, x⟩ hp
    have := Dict.get?_of_mem d hd.1 (List.mem_filter.1 hp).1
    change x = d.getD k 0
    unfold Dict.getD
    rw [this]
    rfl
  · intro k hk
    rw [List.mem_filter] at hk
    exact ⟨hd.2 k hk.1, of_decide_eq_true hk.2⟩
  · intro k _ hP hk
    apply getD_of_not_mem
    intro hk'
    exact hk (List.mem_filter.2 ⟨hk', decide_eq_true hP⟩)

omit [IsStrictOrderedRing K] in
theorem mem_stopsIn (d : Dict (LoadKey K) K) (id : Str) (dir : Dir) (s : StopNode K) :
    s ∈ stopsIn d id dir ↔ (id, dir, s) ∈ Dict.keys d := by
  unfold stopsIn
  rw [List.mem_filterMap]
  constructor
  · rintro ⟨⟨a, b, c⟩, hk, h⟩
    by_cases hc : a = id ∧ b = dir
    · rw [if_pos hc] at h
      cases h
      rw [← hc.1, ← hc.2]
      exact hk
    · rw [if_neg hc] at h
      cases h
  · intro h
    exact ⟨_, h, if_pos ⟨rfl, rfl⟩⟩

omit [IsStrictOrderedRing K] in
theorem nodup_stopsIn {d : Dict (LoadKey K) K} (h : (Dict.keys d).Nodup) (id : Str) (dir : Dir) : (stopsIn d id dir).Nodup := by
  unfold stopsIn
  refine List.Nodup.filterMap ?_ h
  rintro ⟨a, b, c⟩ ⟨a', b', c'⟩ s h1 h2
  rw [Option.mem_def] at h1 h2
  by_cases hc : a = id ∧ b = dir
  · by_cases hc' : a' = id ∧ b' = dir
    · rw [if_pos hc] at h1
      rw [if_pos hc'] at h2
      have e1 : c = s := Option.some.inj h1
      have e2 : c' = s := Option.some.inj h2
      rw [hc.1, hc.2, hc'.1, hc'.2, e1, e2]
    · rw [if_neg hc'] at h2
      cases h2
  · rw [if_neg hc] at h1
    cases h1

omit [IsStrictOrderedRing K] in
theorem touch_getD (d : Dict (LoadKey K) K) (j k : LoadKey K) : (touch d j).getD k 0 = d.getD k 0 := by
  unfold touch
  by_cases h : j ∈ Dict.keys d
  · rw [if_pos h]
  · rw [if_neg h]
    unfold Dict.getD
    by_cases hk : k = j
    · subst hk
      rw [Dict.get?_set_self, (Dict.get?_eq_none_iff d k).2 h]
      rfl
    · rw [Dict.get?_set_ne _ _ hk]

omit [IsStrictOrderedRing K] in
theorem touch_keysIn {S : List (LoadKey K)} {d : Dict (LoadKey K) K} (h : KeysIn S d) {k : LoadKey K} (hk : k ∈ S) :
    KeysIn S (touch d k) := by
  unfold touch
  by_cases hm : k ∈ Dict.keys d
  · rw [if_pos hm]; exact h
  · rw [if_neg hm]
    refine ⟨Dict.nodup_keys_set _ _ _ h.1, ?_⟩
    intro j hj
    rw [set_of_not_mem _ _ hm] at hj
    unfold Dict.keys at hj
    rw [List.map_append, List.mem_append] at hj
    rcases hj with hj | hj
    · exact h.2 j hj
    · simp only [List.map_cons, List.map_nil, List.mem_cons, List.not_mem_nil, or_false] at hj
      exact hj ▸ hk

omit [IsStrictOrderedRing K] in
theorem mem_keys_touch (d : Dict (LoadKey K) K) (j k : LoadKey K) : k ∈ Dict.keys (touch d j) ↔ k ∈ Dict.keys d ∨ k = j := by
  unfold touch
  by_cases hm : j ∈ Dict.keys d
  · rw [if_pos hm]
    constructor
    · exact Or.inl
    · rintro (h | h)
      · exact h
      · exact h ▸ hm
  · rw [if_neg hm, set_of_not_mem _ _ hm]
    unfold Dict.keys
    rw [List.map_append, List.mem_append]
    simp

/-! ### sequential modes -/

omit [IsStrictOrderedRing K] in
theorem seqBoard_fold (t : K) (id : Str) (dir : Dir) (l : List (StopNode K)) : ∀ s : Dwell K,
    l.foldl (seqBoard t id dir) s = { s with tc := s.tc + t * (l.map fun p => s.z.getD (id, dir, p) 0).sum } := by
  induction l with
  | nil => intro s; simp
  | cons a l ih =>
    intro s
    rw [List.foldl_cons, ih]
    simp only [seqBoard, List.map_cons, List.sum_cons]
    congr 1
    ring

omit [IsStrictOrderedRing K] in
theorem seqAlight_fold (t : K) (id : Str) (dir : Dir) (l : List (StopNode K)) : ∀ s : Dwell K,
    l.foldl (seqAlight t id dir) s = { s with tc := s.tc + t * (l.map fun p => s.v.getD (id, dir, p) 0).sum } := by
  induction l with
  | nil => intro s; simp
  | cons a l ih =>
    intro s
    rw [List.foldl_cons, ih]
    simp only [seqAlight, List.map_cons, List.sum_cons]
    congr 1
    ring

theorem sum_stopsIn {S : List (LoadKey K)} (hS : S.Nodup) {d : Dict (LoadKey K) K} (hd : KeysIn S d) (id : Str) (dir : Dir) :
    ((stopsIn d id dir).map fun p => d.getD (id, dir, p) 0).sum =
      sumOver S (fun k => k.1 = id ∧ k.2.1 = dir) fun k => d.getD k 0 := by
  rw [← sum_sublist (L := (stopsIn d id dir).map fun p => (id, dir, p)) _ _ hS]
  · rw [List.map_map]
    rfl
  · refine (nodup_stopsIn hd.1 id dir).map ?_
    intro a b h
    rw [Prod.mk.injEq, Prod.mk.injEq] at h
    exact h.2.2
  · intro k hk
    obtain ⟨p, hp, rfl⟩ := List.mem_map.1 hk
    rw [mem_stopsIn] at hp
    exact ⟨hd.2 _ hp, rfl, rfl⟩
  · rintro ⟨a, b, c⟩ _ ⟨rfl, rfl⟩ hk
    apply getD_of_not_mem
    intro hm
    exact hk (List.mem_map.2 ⟨c, (mem_stopsIn d _ _ _).2 hm, rfl⟩)

theorem sumOver_dirs (S : List (LoadKey K)) (id : Str) (w : LoadKey K → K) :
    sumOver S (fun k => k.1 = id ∧ k.2.1 = .I) w + sumOver S (fun k => k.1 = id ∧ k.2.1 = .R) w =
      sumOver S (fun k => k.1 = id) w := by
  unfold sumOver
  induction S with
  | nil => simp
  | cons k t ih =>
    obtain ⟨a, d, s⟩ := k
    by_cases h : a = id
    · cases d
      · simp only [List.filter_cons, h, and_self, reduceCtorEq, and_false, decide_true, decide_false, if_true,
          Bool.false_eq_true, if_false, List.map_cons, List.sum_cons]
        rw [← ih]
        ring
      · simp only [List.filter_cons, h, and_self, reduceCtorEq, and_false, decide_true, decide_false, if_true,
          Bool.false_eq_true, if_false, List.map_cons, List.sum_cons]
        rw [← ih]
        ring
    · simp only [List.filter_cons, h, false_and, decide_false, Bool.false_eq_true, if_false]
      exact ih

theorem sequentialDwell_spec {S : List (LoadKey K)} (hS : S.Nodup) (t : K) (id : Str) (s : Dwell K) (hz : KeysIn S s.z)
    (hv : KeysIn S s.v) :
    sequentialDwell t id s = { s with tc := s.tc + t * (sumOver S (fun k => k.1 = id) (fun k => s.z.getD k 0) +
      sumOver S (fun k => k.1 = id) fun k => s.v.getD k 0) } := by
  unfold sequentialDwell
  simp only [seqBoard_fold, seqAlight_fold]
  rw [sum_stopsIn hS hz, sum_stopsIn hS hz, sum_stopsIn hS hv, sum_stopsIn hS hv, ← sumOver_dirs S id,
    ← sumOver_dirs S id fun k => s.v.getD k 0]
  congr 1
  ring

/-! ### simultaneous modes -/

/-- the tables of `s'` read the same as those of `s` -/
structure SameTables (S : List (LoadKey K)) (s s' : Dwell K) : Prop where
  z : ∀ k, s'.z.getD k 0 = s.z.getD k 0
  v : ∀ k, s'.v.getD k 0 = s.v.getD k 0
  keysZ : KeysIn S s'.z
  keysV : KeysIn S s'.v

theorem simBoard_fold {S : List (LoadKey K)} (t : K) (id : Str) (dir : Dir) (l : List (StopNode K)) :
    ∀ s : Dwell K, (∀ p ∈ l, (id, dir, p) ∈ S) → KeysIn S s.z → KeysIn S s.v →
      let s' := l.foldl (simBoard t id dir) s
      SameTables S s s' ∧ s'.z = s.z ∧ s'.done = s.done ++ l ∧
      s'.tc = s.tc + t * (l.map fun p => max (s.z.getD (id, dir, p) 0) (s.v.getD (id, dir, p) 0)).sum ∧
      ∀ k, k ∈ Dict.keys s'.v ↔ k ∈ Dict.keys s.v ∨ ∃ p ∈ l, k = (id, dir, p) := by
  induction l with
  | nil =>
    intro s _ hz hv
    exact ⟨⟨fun _ => rfl, fun _ => rfl, hz, hv⟩, rfl, by simp, by simp, by simp⟩
  | cons a l ih =>
    intro s hl hz hv
    obtain ⟨h1, h2, h3, h4, h5⟩ := ih (simBoard t id dir s a) (fun p hp => hl p (List.mem_cons_of_mem _ hp)) hz
      (touch_keysIn hv (hl a (List.mem_cons_self ..)))
    rw [List.foldl_cons]
    refine ⟨⟨h1.z, ?_, h1.keysZ, h1.keysV⟩, h2, ?_, ?_, ?_⟩
    · intro k
      rw [h1.v]
      exact touch_getD _ _ _
    · rw [h3]
      simp [simBoard]
    · rw [h4]
      simp only [simBoard, touch_getD, List.map_cons, List.sum_cons]
      ring
    · intro k
      rw [h5]
      simp only [simBoard, mem_keys_touch, List.mem_cons]
      constructor
      · rintro ((h | h) | ⟨p, hp, h⟩)
        · exact Or.inl h
        · exact Or.inr ⟨a, Or.inl rfl, h⟩
        · exact Or.inr ⟨p, Or.inr hp, h⟩
      · rintro (h | ⟨p, rfl | hp, h⟩)
        · exact Or.inl (Or.inl h)
        · exact Or.inl (Or.inr h)
        · exact Or.inr ⟨p, hp, h⟩

theorem simAlight_fold {S : List (LoadKey K)} (t : K) (id : Str) (dir : Dir) (l : List (StopNode K)) :
    ∀ s : Dwell K, (∀ p ∈ l, (id, dir, p) ∈ S) → KeysIn S s.z → KeysIn S s.v →
      let s' := l.foldl (simAlight t id dir) s
      SameTables S s s' ∧ s'.done = s.done ∧
      s'.tc = s.tc + t * ((l.filter fun p => p ∉ s.done).map fun p =>
        max (s.z.getD (id, dir, p) 0) (s.v.getD (id, dir, p) 0)).sum := by
  induction l with
  | nil =>
    intro s _ hz hv
    exact ⟨⟨fun _ => rfl, fun _ => rfl, hz, hv⟩, rfl, by simp⟩
  | cons a l ih =>
    intro s hl hz hv
    rw [List.foldl_cons]
    by_cases h : a ∈ s.done
    · have hs : simAlight t id dir s a = s := if_pos h
      rw [hs, List.filter_cons, if_neg (by simpa using h)]
      exact ih s (fun p hp => hl p (List.mem_cons_of_mem _ hp)) hz hv
    · have hs : simAlight t id dir s a = { s with
          tc := s.tc + t * max (s.z.getD (id, dir, a) 0) (s.v.getD (id, dir, a) 0)
          z := touch s.z (id, dir, a) } := if_neg h
      rw [hs, List.filter_cons, if_pos (by simpa using h)]
      obtain ⟨h1, h2, h3⟩ := ih { s with
          tc := s.tc + t * max (s.z.getD (id, dir, a) 0) (s.v.getD (id, dir, a) 0)
          z := touch s.z (id, dir, a) } (fun p hp => hl p (List.mem_cons_of_mem _ hp))
          (touch_keysIn hz (hl a (List.mem_cons_self ..))) hv
      refine ⟨⟨?_, h1.v, h1.keysZ, h1.keysV⟩, h2, ?_⟩
      · intro k
        rw [h1.z]
        exact touch_getD _ _ _
      · rw [h3]
        simp only [touch_getD, List.map_cons, List.sum_cons]
        ring

theorem simDirection_spec {S : List (LoadKey K)} (hS : S.Nodup) (t : K) (id : Str) (dir : Dir) (s : Dwell K)
    (hz : KeysIn S s.z) (hv : KeysIn S s.v) :
    SameTables S s (simDirection t id dir s) ∧
    (simDirection t id dir s).tc = s.tc + t * sumOver S (fun k => k.1 = id ∧ k.2.1 = dir)
      fun k => max (s.z.getD k 0) (s.v.getD k 0) := by
  unfold simDirection
  set s0 : Dwell K := { s with done := [] } with hs0
  set L := stopsIn s0.z id dir with hL
  have hLS : ∀ p ∈ L, (id, dir, p) ∈ S := fun p hp => hz.2 _ ((mem_stopsIn _ _ _ _).1 hp)
  obtain ⟨a1, a2, a3, a4, a5⟩ := simBoard_fold (S := S) t id dir L s0 hLS hz hv
  set s1 := L.foldl (simBoard t id dir) s0 with hs1
  have hMS : ∀ p ∈ stopsIn s1.v id dir, (id, dir, p) ∈ S := fun p hp => a1.keysV.2 _ ((mem_stopsIn _ _ _ _).1 hp)
  obtain ⟨b1, b2, b3⟩ := simAlight_fold (S := S) t id dir (stopsIn s1.v id dir) s1 hMS a1.keysZ a1.keysV
  set s2 := (stopsIn s1.v id dir).foldl (simAlight t id dir) s1 with hs2
  refine ⟨⟨fun k => (b1.z k).trans (a1.z k), fun k => (b1.v k).trans (a1.v k), b1.keysZ, b1.keysV⟩, ?_⟩
  rw [b3, a4]
  have hd : s1.done = L := by rw [a3]; rfl
  rw [hd]
  set M := (stopsIn s1.v id dir).filter fun p => p ∉ L with hM
  have hsum : ((L ++ M).map fun p => max (s.z.getD (id, dir, p) 0) (s.v.getD (id, dir, p) 0)).sum =
      sumOver S (fun k => k.1 = id ∧ k.2.1 = dir) fun k => max (s.z.getD k 0) (s.v.getD k 0) := by
    rw [← sum_sublist (L := (L ++ M).map fun p => (id, dir, p)) _ _ hS]
    · rw [List.map_map]
      rfl
    · refine List.Nodup.map ?_ ?_
      · intro a b h
        rw [Prod.mk.injEq, Prod.mk.injEq] at h
        exact h.2.2
      · rw [List.nodup_append]
        refine ⟨nodup_stopsIn hz.1 id dir, (nodup_stopsIn a1.keysV.1 id dir).filter _, ?_⟩
        rintro a ha b hb rfl
        rw [hM, List.mem_filter] at hb
        exact (of_decide_eq_true hb.2) ha
    · intro k hk
      obtain ⟨p, hp, rfl⟩ := List.mem_map.1 hk
      refine ⟨?_, rfl, rfl⟩
      rcases List.mem_append.1 hp with hp | hp
      · exact hLS p hp
      · exact hMS p (List.mem_filter.1 hp).1
    · rintro ⟨a, b, c⟩ _ ⟨rfl, rfl⟩ hk
      have hzk : (a, b, c) ∉ Dict.keys s.z := fun h =>
        hk (List.mem_map.2 ⟨c, List.mem_append_left _ ((mem_stopsIn _ _ _ _).2 h), rfl⟩)
      have hvk : (a, b, c) ∉ Dict.keys s.v := by
        intro h
        by_cases hc : c ∈ L
        · exact hk (List.mem_map.2 ⟨c, List.mem_append_left _ hc, rfl⟩)
        · refine hk (List.mem_map.2 ⟨c, List.mem_append_right _ (List.mem_filter.2 ⟨?_, decide_eq_true hc⟩), rfl⟩)
          rw [mem_stopsIn, a5]
          exact Or.inl h
      rw [getD_of_not_mem _ hzk, getD_of_not_mem _ hvk, max_self]
  rw [← hsum, List.map_append, List.sum_append]
  have e : ∀ p, max (s1.z.getD (id, dir, p) 0) (s1.v.getD (id, dir, p) 0) =
      max (s.z.getD (id, dir, p) 0) (s.v.getD (id, dir, p) 0) := fun p => by rw [a1.z, a1.v]
  simp only [e]
  change s.tc + _ + _ = s.tc + _
  ring

theorem simultaneousDwell_spec {S : List (LoadKey K)} (hS : S.Nodup) (t : K) (id : Str) (s : Dwell K)
    (hz : KeysIn S s.z) (hv : KeysIn S s.v) :
    SameTables S s (simultaneousDwell t id s) ∧
    (simultaneousDwell t id s).tc = s.tc + t * sumOver S (fun k => k.1 = id) fun k => max (s.z.getD k 0) (s.v.getD k 0) := by
  unfold simultaneousDwell
  obtain ⟨h1, h2⟩ := simDirection_spec hS t id .I s hz hv
  obtain ⟨h3, h4⟩ := simDirection_spec hS t id .R (simDirection t id .I s) h1.keysZ h1.keysV
  refine ⟨⟨fun k => (h3.z k).trans (h1.z k), fun k => (h3.v k).trans (h1.v k), h3.keysZ, h3.keysV⟩, ?_⟩
  rw [h4, h2, ← sumOver_dirs S id]
  have e : (fun k => max ((simDirection t id .I s).z.getD k 0) ((simDirection t id .I s).v.getD k 0)) =
      fun k => max (s.z.getD k 0) (s.v.getD k 0) := by
    funext k
    rw [h1.z, h1.v]
  rw [e]
  ring

/-! ### all the routes -/

/-- time spent at the stops in a cycle -/
def dwell (S : List (LoadKey K)) (z v : Dict (LoadKey K) K) (r : Route K) : K :=
  if r.mode.bya = 0 then sumOver S (fun k => k.1 = r.id) (fun k => z.getD k 0) +
    sumOver S (fun k => k.1 = r.id) fun k => v.getD k 0
  else if r.mode.bya = 1 then sumOver S (fun k => k.1 = r.id) fun k => max (z.getD k 0) (v.getD k 0)
  else 0

theorem routeCycle_spec {S : List (LoadKey K)} (hS : S.Nodup) (times : Dict Str K) (r : Route K)
    {z v : Dict (LoadKey K) K} (hz : KeysIn S z) (hv : KeysIn S v) :
    SameTables S ⟨0, z, v, []⟩ (routeCycle times r z v) ∧
    (routeCycle times r z v).tc = times.getD r.id 0 + r.mode.t / 3600 * dwell S z v r := by
  unfold routeCycle dwell
  by_cases h0 : r.mode.bya = 0
  · have h1 : ¬ r.mode.bya = 1 := by rw [h0]; decide
    simp only [if_pos h0, if_neg h1]
    rw [sequentialDwell_spec hS _ _ _ hz hv]
    exact ⟨⟨fun _ => rfl, fun _ => rfl, hz, hv⟩, rfl⟩
  · simp only [if_neg h0]
    by_cases h1 : r.mode.bya = 1
    · simp only [if_pos h1]
      obtain ⟨h, h'⟩ := simultaneousDwell_spec hS (r.mode.t / 3600) r.id ⟨times.getD r.id 0, z, v, []⟩ hz hv
      exact ⟨⟨h.z, h.v, h.keysZ, h.keysV⟩, h'⟩
    · simp only [if_neg h1, mul_zero, add_zero]
      exact ⟨⟨fun _ => rfl, fun _ => rfl, hz, hv⟩, trivial⟩

theorem cycle_fold {S : List (LoadKey K)} (hS : S.Nodup) (times : Dict Str K) (z v : Dict (LoadKey K) K)
    (routes : List (Route K)) : ∀ c : Cycles K, SameTables S ⟨0, z, v, []⟩ ⟨0, c.z, c.v, []⟩ →
      SameTables S ⟨0, z, v, []⟩ ⟨0, (routes.foldl (cycleStep times) c).z, (routes.foldl (cycleStep times) c).v, []⟩ ∧
      (routes.foldl (cycleStep times) c).time = routes.foldl
        (tableOf fun r => times.getD r.id 0 + r.mode.t / 3600 * dwell S z v r) c.time := by
  induction routes with
  | nil => intro c hc; exact ⟨hc, rfl⟩
  | cons r l ih =>
    intro c hc
    rw [List.foldl_cons, List.foldl_cons]
    obtain ⟨h1, h2⟩ := routeCycle_spec hS times r hc.keysZ hc.keysV
    have hsame : SameTables S ⟨0, z, v, []⟩ ⟨0, (cycleStep times c r).z, (cycleStep times c r).v, []⟩ :=
      ⟨fun k => (h1.z k).trans (hc.z k), fun k => (h1.v k).trans (hc.v k), h1.keysZ, h1.keysV⟩
    obtain ⟨i1, i2⟩ := ih (cycleStep times c r) hsame
    refine ⟨i1, ?_⟩
    rw [i2]
    congr 1
    change c.time.set r.id (routeCycle times r c.z c.v).tc = tableOf _ c.time r
    rw [h2]
    have e : dwell S c.z c.v r = dwell S z v r := by
      unfold dwell
      have ez : (fun k => c.z.getD k 0) = fun k => z.getD k 0 := funext hc.z
      have ev : (fun k => c.v.getD k 0) = fun k => v.getD k 0 := funext hc.v
      have em : (fun k => max (c.z.getD k 0) (c.v.getD k 0)) = fun k => max (z.getD k 0) (v.getD k 0) := by
        funext k
        rw [hc.z k, hc.v k]
      rw [ez, ev, em]
    rw [e]
    rfl

end Sidermit
