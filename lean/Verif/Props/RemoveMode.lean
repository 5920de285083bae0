import Verif.Props.Network

/-!
C28, exactly when removing a mode removes all its lines, and how often it must be called.
-/

namespace Sidermit

variable {K : Type} [DecidableEq K]

theorem survivors_clean_iff (m : Mode K) (l : List (Route K)) :
    (∀ r ∈ survivors m l, r.mode ≠ m) ↔ l.IsChain (fun r r' => ¬ (r.mode = m ∧ r'.mode = m)) := by
  induction l using survivors.induct m with
  | case1 => simp [survivors]
  | case2 r h => simp [survivors, h]
  | case3 r h => simp [survivors, h]
  | case4 r r' t h ih =>
    rw [survivors, if_pos h, List.isChain_cons_cons, List.forall_mem_cons, ih]
    constructor
    · rintro ⟨h1, h2⟩
      refine ⟨fun e => h1 e.2, ?_⟩
      cases t with
      | nil => simp
      | cons x t => exact List.isChain_cons_cons.2 ⟨fun e => h1 e.1, h2⟩
    · rintro ⟨h1, h2⟩
      exact ⟨fun e => h1 ⟨h, e⟩, h2.tail⟩
  | case5 r r' t h ih =>
    rw [survivors, if_neg h, List.isChain_cons_cons, List.forall_mem_cons, ih]
    constructor
    · rintro ⟨_, h2⟩
      exact ⟨fun e => h e.1, h2⟩
    · rintro ⟨_, h2⟩
      exact ⟨h, h2⟩

/-- C28, exactly when it holds: all lines of the mode go if and only if no two of them were added one right after the
other (with no line of another mode between them). -/
theorem C28_remove_mode_iff {g : Graph K} {s : Network K} (h : Network.Reachable g s) (m : Mode K) :
    (∀ r ∈ (s.removeTransportMode m).1.routes, r.mode ≠ m) ↔ s.routes.IsChain (fun r r' => ¬ (r.mode = m ∧ r'.mode = m)) := by
  rw [C28_remove_mode_effect h]
  exact survivors_clean_iff m _

/-- the number of lines of a mode -/
def linesOf (m : Mode K) (l : List (Route K)) : Nat := (l.filter (·.mode = m)).length

theorem survivors_half (m : Mode K) (l : List (Route K)) : 2 * linesOf m (survivors m l) ≤ linesOf m l := by
  induction l using survivors.induct m with
  | case1 => simp [survivors, linesOf]
  | case2 r h => simp [survivors, linesOf, h]
  | case3 r h => simp [survivors, linesOf, h]
  | case4 r r' t h ih =>
    rw [survivors, if_pos h]
    unfold linesOf at ih ⊢
    by_cases h' : r'.mode = m <;> simp [h, h'] <;> omega
  | case5 r r' t h ih =>
    rw [survivors, if_neg h]
    unfold linesOf at ih ⊢
    simpa [List.filter_cons, h] using ih

/-- calling `remove_transport_mode(m)` several times -/
def removeTimes (m : Mode K) : Nat → Network K → Network K
  | 0, s => s
  | k + 1, s => removeTimes m k (s.removeTransportMode m).1

/-- C28, what a call does for sure: at least half of the lines of the mode go.  So the call must be repeated, and `k` calls
leave no line of the mode when it had less than `2 ^ k`; the other lines are untouched. -/
theorem C28_repeated_calls {g : Graph K} {s : Network K} (h : Network.Reachable g s) (m : Mode K) :
    2 * linesOf m (s.removeTransportMode m).1.routes ≤ linesOf m s.routes ∧
    ∀ k, linesOf m s.routes < 2 ^ k → (removeTimes m k s).routes = s.routes.filter (·.mode ≠ m) := by
  constructor
  · rw [C28_remove_mode_effect h]
    exact survivors_half m _
  · intro k
    induction k generalizing s with
    | zero =>
      intro hk
      have h0 : linesOf m s.routes = 0 := by simpa using hk
      have h1 := List.length_eq_zero_iff.1 h0
      show s.routes = _
      rw [List.filter_eq_self.2]
      intro r hr
      have := List.filter_eq_nil_iff.1 h1 r hr
      simpa using this
    | succ k ih =>
      intro hk
      have hr : Network.Reachable g (s.removeTransportMode m).1 := h.call (.removeMode m)
      have hhalf : 2 * linesOf m (s.removeTransportMode m).1.routes ≤ linesOf m s.routes := by
        rw [C28_remove_mode_effect h]
        exact survivors_half m _
      have := ih hr (by rw [pow_succ] at hk; omega)
      show (removeTimes m k _).routes = _
      rw [this]
      exact (C28_remove_mode_partial h m).2.2.1

/-- a line that never leaves a node, for the cases below -/
private def stay (id : Str) (m : Mode K) : Route K := ⟨id, m, [0], [0], [0], [0], .custom⟩

/-- in any city, three lines of a mode in a row: one call leaves the second, two calls leave none -/
example (g : Graph K) (m : Mode K) : ∃ s, Network.Reachable g s ∧ linesOf m s.routes = 3 ∧
    (s.removeTransportMode m).1.routes = [stay "b".toList m] ∧ (removeTimes m 2 s).routes = [] := by
  have hon : ∀ id, OnStreets g (stay id m).nodesI := fun id p hp => by simp [stay, pairs] at hp
  have h0 : Network.Reachable g (Network.init g) := .init
  have a1 := C26_add_route h0 (stay "a".toList m)
  have n1 := a1.1.2 ⟨hon _, by simp [Network.init], Or.inr (Or.inl (by simp [Network.init]))⟩
  have h1 : Network.Reachable g ((Network.init g).addRoute (stay "a".toList m)).1 := h0.call (.addRoute _)
  obtain ⟨_, _, r1, m1, _⟩ := a1.2.1 n1
  generalize ((Network.init g).addRoute (stay "a".toList m)).1 = s1 at h1 r1 m1
  have a2 := C26_add_route h1 (stay "b".toList m)
  have n2 := a2.1.2 ⟨hon _, by rw [h1.wf.ids, r1]; simp [Network.init, stay], Or.inl m1⟩
  have h2 : Network.Reachable g (s1.addRoute (stay "b".toList m)).1 := h1.call (.addRoute _)
  obtain ⟨_, _, r2, m2, _⟩ := a2.2.1 n2
  generalize (s1.addRoute (stay "b".toList m)).1 = s2 at h2 r2 m2
  have a3 := C26_add_route h2 (stay "c".toList m)
  have n3 := a3.1.2 ⟨hon _, by rw [h2.wf.ids, r2, r1]; simp [Network.init, stay], Or.inl m2⟩
  have h3 : Network.Reachable g (s2.addRoute (stay "c".toList m)).1 := h2.call (.addRoute _)
  obtain ⟨_, _, r3, _, _⟩ := a3.2.1 n3
  generalize (s2.addRoute (stay "c".toList m)).1 = s3 at h3 r3
  have e : s3.routes = [stay "a".toList m, stay "b".toList m, stay "c".toList m] := by
    rw [r3, r2, r1]; simp [Network.init]
  have c3 : linesOf m s3.routes = 3 := by rw [e]; simp [linesOf, stay]
  refine ⟨s3, h3, c3, ?_, ?_⟩
  · rw [C28_remove_mode_effect h3, e]
    simp [survivors, stay]
  · rw [(C28_repeated_calls h3 m).2 2 (by rw [c3]; decide), e]
    simp [stay]

end Sidermit
