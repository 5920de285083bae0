import Verif.Model.Results
import Verif.Proofs.Cycle
import Verif.Proofs.Shares
import Verif.Proofs.PyLemmas

/-!
Lemmas about the tables of results.
-/

set_option linter.unusedSectionVars false

namespace Sidermit

variable {K : Type} [Field K] [LinearOrder K] [IsStrictOrderedRing K]

/-! ### entries of the tables after the computation of the cycle times -/

theorem seqBoard_tables (t : K) (id : Str) (dir : Dir) (l : List (StopNode K)) (s : Dwell K) :
    (l.foldl (seqBoard t id dir) s).z = s.z ∧ (l.foldl (seqBoard t id dir) s).v = s.v := by
  rw [seqBoard_fold]; exact ⟨rfl, rfl⟩

theorem seqAlight_tables (t : K) (id : Str) (dir : Dir) (l : List (StopNode K)) (s : Dwell K) :
    (l.foldl (seqAlight t id dir) s).z = s.z ∧ (l.foldl (seqAlight t id dir) s).v = s.v := by
  rw [seqAlight_fold]; exact ⟨rfl, rfl⟩

theorem simBoard_tables (t : K) (id : Str) (dir : Dir) : ∀ (l : List (StopNode K)) (s : Dwell K),
    (l.foldl (simBoard t id dir) s).z = s.z ∧ (∀ k ∈ Dict.keys s.v, k ∈ Dict.keys (l.foldl (simBoard t id dir) s).v) ∧
    (l.foldl (simBoard t id dir) s).done = s.done ++ l
  | [], s => ⟨rfl, fun _ h => h, by simp⟩
  | a :: l, s => by
    rw [List.foldl_cons]
    obtain ⟨h1, h2, h3⟩ := simBoard_tables t id dir l (simBoard t id dir s a)
    refine ⟨h1, fun k hk => h2 k ((mem_keys_touch _ _ _).2 (Or.inl hk)), ?_⟩
    rw [h3]
    simp [simBoard]

theorem simAlight_tables (t : K) (id : Str) (dir : Dir) : ∀ (l : List (StopNode K)) (s : Dwell K),
    (l.foldl (simAlight t id dir) s).v = s.v ∧ (∀ k ∈ Dict.keys s.z, k ∈ Dict.keys (l.foldl (simAlight t id dir) s).z) ∧
    ∀ p ∈ l, p ∉ s.done → (id, dir, p) ∈ Dict.keys (l.foldl (simAlight t id dir) s).z
  | [], s => ⟨rfl, fun _ h => h, fun _ h => by cases h⟩
  | a :: l, s => by
    rw [List.foldl_cons]
    obtain ⟨h1, h2, h3⟩ := simAlight_tables t id dir l (simAlight t id dir s a)
    by_cases ha : a ∈ s.done
    · have e : simAlight t id dir s a = s := if_pos ha
      rw [e] at h1 h2 h3 ⊢
      refine ⟨h1, h2, fun p hp hd => ?_⟩
      rcases List.mem_cons.1 hp with rfl | hp
      · exact absurd ha hd
      · exact h3 p hp hd
    · have e : simAlight t id dir s a = { s with
          tc := s.tc + t * max (s.z.getD (id, dir, a) 0) (s.v.getD (id, dir, a) 0)
          z := touch s.z (id, dir, a) } := if_neg ha
      rw [e] at h1 h2 h3 ⊢
      refine ⟨h1, fun k hk => h2 k ((mem_keys_touch _ _ _).2 (Or.inl hk)), fun p hp hd => ?_⟩
      rcases List.mem_cons.1 hp with rfl | hp
      · exact h2 _ ((mem_keys_touch _ _ _).2 (Or.inr rfl))
      · exact h3 p hp hd

theorem simDirection_tables (t : K) (id : Str) (dir : Dir) (s : Dwell K) :
    (∀ k ∈ Dict.keys s.z, k ∈ Dict.keys (simDirection t id dir s).z) ∧
    (∀ k ∈ Dict.keys s.v, k ∈ Dict.keys (simDirection t id dir s).v) ∧
    ∀ p, (id, dir, p) ∈ Dict.keys s.v → (id, dir, p) ∈ Dict.keys (simDirection t id dir s).z := by
  unfold simDirection
  simp only
  obtain ⟨h1, h2, h3⟩ := simBoard_tables t id dir (stopsIn s.z id dir) { s with done := [] }
  obtain ⟨h4, h5, h6⟩ := simAlight_tables t id dir
    (stopsIn ((stopsIn s.z id dir).foldl (simBoard t id dir) { s with done := [] }).v id dir)
    ((stopsIn s.z id dir).foldl (simBoard t id dir) { s with done := [] })
  refine ⟨fun k hk => h5 k (by rw [h1]; exact hk), fun k hk => by rw [h4]; exact h2 k hk, fun p hp => ?_⟩
  by_cases hz : (id, dir, p) ∈ Dict.keys s.z
  · exact h5 _ (by rw [h1]; exact hz)
  · refine h6 p ((mem_stopsIn _ _ _ _).2 (h2 _ hp)) ?_
    rw [h3, List.nil_append, mem_stopsIn]
    exact hz

theorem routeCycle_tables (times : Dict Str K) (r : Route K) (z v : Dict (LoadKey K) K) :
    (∀ k ∈ Dict.keys z, k ∈ Dict.keys (routeCycle times r z v).z) ∧
    (∀ k ∈ Dict.keys v, k ∈ Dict.keys (routeCycle times r z v).v) ∧
    (r.mode.bya = 1 → ∀ d p, (r.id, d, p) ∈ Dict.keys v → (r.id, d, p) ∈ Dict.keys (routeCycle times r z v).z) := by
  unfold routeCycle
  by_cases h0 : r.mode.bya = 0
  · have h1 : ¬ r.mode.bya = 1 := by rw [h0]; decide
    simp only [if_pos h0, if_neg h1]
    unfold sequentialDwell
    simp only [seqBoard_fold, seqAlight_fold]
    exact ⟨fun _ h => h, fun _ h => h, fun h => absurd h h1⟩
  · simp only [if_neg h0]
    by_cases h1 : r.mode.bya = 1
    · simp only [if_pos h1]
      unfold simultaneousDwell
      obtain ⟨a1, a2, a3⟩ := simDirection_tables (r.mode.t / 3600) r.id .I ⟨times.getD r.id 0, z, v, []⟩
      obtain ⟨b1, b2, b3⟩ := simDirection_tables (r.mode.t / 3600) r.id .R
        (simDirection (r.mode.t / 3600) r.id .I ⟨times.getD r.id 0, z, v, []⟩)
      refine ⟨fun k hk => b1 k (a1 k hk), fun k hk => b2 k (a2 k hk), fun _ d p hp => ?_⟩
      cases d with
      | I => exact b1 _ (a3 p hp)
      | R => exact b3 p (a2 _ hp)
    · simp only [if_neg h1]
      exact ⟨fun _ h => h, fun _ h => h, fun h => absurd h h1⟩

theorem getCycleTime_tables (times : Dict Str K) : ∀ (routes : List (Route K)) (c : Cycles K),
    (∀ k ∈ Dict.keys c.z, k ∈ Dict.keys (routes.foldl (cycleStep times) c).z) ∧
    (∀ k ∈ Dict.keys c.v, k ∈ Dict.keys (routes.foldl (cycleStep times) c).v) ∧
    ∀ r ∈ routes, r.mode.bya = 1 → ∀ d p, (r.id, d, p) ∈ Dict.keys c.v →
      (r.id, d, p) ∈ Dict.keys (routes.foldl (cycleStep times) c).z
  | [], c => ⟨fun _ h => h, fun _ h => h, fun _ h => by cases h⟩
  | r :: l, c => by
    rw [List.foldl_cons]
    obtain ⟨a1, a2, a3⟩ := routeCycle_tables times r c.z c.v
    obtain ⟨b1, b2, b3⟩ := getCycleTime_tables times l (cycleStep times c r)
    refine ⟨fun k hk => b1 k (a1 k hk), fun k hk => b2 k (a2 k hk), fun r' hr hb d p hp => ?_⟩
    rcases List.mem_cons.1 hr with rfl | hr
    · exact b1 _ (a3 hb d p hp)
    · exact b3 r' hr hb d p (a2 _ hp)

/-- nothing else is in the tables afterwards -/
theorem getCycleTime_keys {z v : Dict (LoadKey K) K} (hz : (Dict.keys z).Nodup) (hv : (Dict.keys v).Nodup)
    (routes : List (Route K)) (times : Dict Str K) :
    (Dict.keys (getCycleTime z v routes times).z).Nodup ∧
    ∀ k ∈ Dict.keys (getCycleTime z v routes times).z, k ∈ Dict.keys z ∨ k ∈ Dict.keys v := by
  classical
  obtain ⟨S, hS, hmem⟩ : ∃ S : List (LoadKey K), S.Nodup ∧ ∀ k, k ∈ S ↔ k ∈ Dict.keys z ∨ k ∈ Dict.keys v :=
    ⟨(Dict.keys z ++ Dict.keys v).dedup, List.nodup_dedup _, fun k => by rw [List.mem_dedup, List.mem_append]⟩
  obtain ⟨h, _⟩ := cycle_fold hS times z v routes ⟨[], z, v⟩
    ⟨fun _ => rfl, fun _ => rfl, ⟨hz, fun k hk => (hmem k).2 (Or.inl hk)⟩, ⟨hv, fun k hk => (hmem k).2 (Or.inr hk)⟩⟩
  exact ⟨h.keysZ.1, fun k hk => (hmem k).1 (h.keysZ.2 k hk)⟩

/-! ### the stop at a node -/

theorem stopAt_some {d : Dict (LoadKey K) K} {id : Str} {dir : Dir} {node : Int} {s : StopNode K}
    (h : stopAt d id dir node = some s) : (id, dir, s) ∈ Dict.keys d ∧ s.city.node.id = node := by
  unfold stopAt at h
  exact ⟨(mem_stopsIn _ _ _ _).1 (List.mem_of_find?_eq_some h), by simpa using List.find?_some h⟩

theorem stopAt_none {d : Dict (LoadKey K) K} {id : Str} {dir : Dir} {node : Int} (h : stopAt d id dir node = none)
    {s : StopNode K} (hs : (id, dir, s) ∈ Dict.keys d) : s.city.node.id ≠ node := by
  unfold stopAt at h
  have := List.find?_eq_none.1 h s ((mem_stopsIn _ _ _ _).2 hs)
  simpa using this

/-! ### charges of the nodes -/

/-- passengers gained at a node -/
def gainAt (z v : Dict (LoadKey K) K) (id : Str) (dir : Dir) (node : Int) : K :=
  match stopAt z id dir node with
  | some s => z.getD (id, dir, s) 0 - v.getD (id, dir, s) 0
  | none => 0

theorem chargeStep_eq (z v : Dict (LoadKey K) K) (id : Str) (dir : Dir) (k : K) (s : Charged K) (node : Int) :
    chargeStep z v id dir k s node = do
      let q ← pyDiv (s.pax + gainAt z v id dir node) k
      return ⟨s.pax + gainAt z v id dir node, s.board + boardAt z id dir node, s.charges ++ [q]⟩ := by
  unfold chargeStep gainAt boardAt
  cases stopAt z id dir node with
  | none => simp
  | some st => rfl

theorem charge_fold (z v : Dict (LoadKey K) K) (id : Str) (dir : Dir) {k : K} (hk : k ≠ 0) : ∀ (nodes : List Int) (s : Charged K),
    nodes.foldlM (chargeStep z v id dir k) s = .ok ⟨s.pax + (nodes.map (gainAt z v id dir)).sum,
      s.board + (nodes.map (boardAt z id dir)).sum,
      s.charges ++ (List.range nodes.length).map fun i => (s.pax + ((nodes.take (i + 1)).map (gainAt z v id dir)).sum) / k⟩
  | [], s => by simp [py_pure]
  | a :: l, s => by
    rw [List.foldlM_cons, chargeStep_eq, pyDiv_ok hk]
    simp only [py_ok_bind, py_pure]
    rw [charge_fold z v id dir hk l]
    simp only [List.map_cons, List.sum_cons, List.length_cons, List.range_succ_eq_map, List.take_succ_cons, List.map_map]
    congr 1
    have e : ((fun i => (s.pax + (gainAt z v id dir a + ((l.take i).map (gainAt z v id dir)).sum)) / k) ∘ Nat.succ) =
        fun i => (s.pax + gainAt z v id dir a + ((l.take (i + 1)).map (gainAt z v id dir)).sum) / k := by
      funext i
      simp only [Function.comp, Nat.succ_eq_add_one]
      rw [add_assoc]
    rw [e]
    simp [add_assoc]

theorem charge_fold_zero (z v : Dict (LoadKey K) K) (id : Str) (dir : Dir) {nodes : List Int} (hn : nodes ≠ []) (s : Charged K) :
    nodes.foldlM (chargeStep z v id dir 0) s = .error .ZeroDivisionError := by
  cases nodes with
  | nil => exact absurd rfl hn
  | cons a l =>
    rw [List.foldlM_cons, chargeStep_eq]
    have : pyDiv (s.pax + gainAt z v id dir a) (0 : K) = .error .ZeroDivisionError := by simp [pyDiv]
    rw [this]
    rfl

/-! ### lists -/

theorem filter_of_sublist {s l : List Int} (hn : l.Nodup) (h : s.Sublist l) : (l.filter fun a => decide (a ∈ s)) = s := by
  induction h with
  | slnil => rfl
  | @cons s l a h ih =>
    rw [List.nodup_cons] at hn
    rw [List.filter_cons, if_neg, ih hn.2]
    simpa using fun hm => hn.1 (h.subset hm)
  | @cons_cons s l a h ih =>
    rw [List.nodup_cons] at hn
    rw [List.filter_cons, if_pos (by simp)]
    congr 1
    conv_rhs => rw [← ih hn.2]
    apply List.filter_congr
    intro b hb
    have : b ≠ a := fun e => hn.1 (e ▸ hb)
    simp [this]

/-- the stops among the first nodes are the first stops -/
theorem filter_take {s l : List Int} (hn : l.Nodup) (h : s.Sublist l) (i : Nat) :
    ((l.take i).filter fun a => decide (a ∈ s)) = s.take ((l.take i).filter fun a => decide (a ∈ s)).length := by
  have h1 : ((l.take i).filter fun a => decide (a ∈ s)) ++ ((l.drop i).filter fun a => decide (a ∈ s)) = s := by
    rw [← List.filter_append, List.take_append_drop, filter_of_sublist hn h]
  have h2 : ∀ a b c : List Int, a ++ b = c → a = c.take a.length := by rintro a b _ rfl; simp
  exact h2 _ _ _ h1

theorem sum_filter_gain (s : List Int) (w : Int → K) (h0 : ∀ a, a ∉ s → w a = 0) : ∀ l : List Int,
    (l.map w).sum = ((l.filter fun a => decide (a ∈ s)).map w).sum
  | [] => rfl
  | a :: l => by
    rw [List.map_cons, List.sum_cons, sum_filter_gain s w h0 l, List.filter_cons]
    by_cases ha : a ∈ s
    · simp [ha]
    · simp [ha, h0 a ha]

/-- a sum over nodes is a sum over the stops at them -/
theorem sum_find {A : List (StopNode K)} {nodes : List Int} (hn : nodes.Nodup) (hA : A.Nodup)
    (hinj : ∀ s ∈ A, ∀ s' ∈ A, s.city.node.id = s'.city.node.id → s = s') (hmem : ∀ s ∈ A, s.city.node.id ∈ nodes)
    (w : StopNode K → K) :
    (nodes.map fun i => ((A.find? fun s => decide (s.city.node.id = i)).map w).getD 0).sum = (A.map w).sum := by
  have hfind : ∀ s ∈ A, (A.find? fun s' => decide (s'.city.node.id = s.city.node.id)) = some s := by
    intro s hs
    cases h : A.find? fun s' => decide (s'.city.node.id = s.city.node.id) with
    | none =>
      have := List.find?_eq_none.1 h s hs
      simp at this
    | some s' =>
      have h1 := List.mem_of_find?_eq_some h
      have h2 : s'.city.node.id = s.city.node.id := by simpa using List.find?_some h
      rw [hinj s' h1 s hs h2]
  have hperm : (nodes.filter fun a => decide (a ∈ A.map fun s => s.city.node.id)).Perm (A.map fun s => s.city.node.id) := by
    refine (List.perm_ext_iff_of_nodup (hn.filter _) (hA.map_on fun s hs s' hs' e => hinj s hs s' hs' e)).2 fun a => ?_
    rw [List.mem_filter]
    constructor
    · intro h; simpa using h.2
    · intro h
      refine ⟨?_, by simpa using h⟩
      obtain ⟨s, hs, rfl⟩ := List.mem_map.1 h
      exact hmem s hs
  rw [sum_filter_gain (A.map fun s => s.city.node.id) _ ?_ nodes, (hperm.map _).sum_eq, List.map_map]
  · congr 1
    apply List.map_congr_left
    intro s hs
    simp only [Function.comp]
    rw [hfind s hs]
    rfl
  · intro a ha
    cases h : A.find? fun s => decide (s.city.node.id = a) with
    | none => rfl
    | some s =>
      refine absurd (List.mem_map.2 ⟨s, List.mem_of_find?_eq_some h, ?_⟩) ha
      simpa using List.find?_some h

theorem boardAt_eq (z : Dict (LoadKey K) K) (id : Str) (dir : Dir) (node : Int) :
    boardAt z id dir node = (((stopsIn z id dir).find? fun s => decide (s.city.node.id = node)).map
      fun s => z.getD (id, dir, s) 0).getD 0 := by
  unfold boardAt stopAt
  cases (stopsIn z id dir).find? fun s => decide (s.city.node.id = node) <;> rfl

end Sidermit
