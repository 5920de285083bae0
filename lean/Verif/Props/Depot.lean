import Verif.Spec.Depot
import Verif.Props.Assigned

/-!
C99: what assignments to the attributes of routes do to a network that has them.
-/

set_option linter.unusedSectionVars false

namespace Sidermit

section Generic

variable {K : Type} [Field K] [LinearOrder K] {g : Graph K}

/-! ## calls on objects and calls on values -/

theorem removeRoute_shown (s : Depot K) (n : Str) :
    (s.removeRoute n).1.shown = (s.shown.removeRoute n).1 ∧ (s.removeRoute n).2 = (s.shown.removeRoute n).2 ∧
    (s.removeRoute n).1.objects = s.objects := by
  unfold Depot.removeRoute Network.removeRoute
  have h1 : s.shown.routeIds = s.routeIds := rfl
  have h2 : s.shown.routes.length = s.refs.length := List.length_map _
  rw [h1, h2]
  split
  · dsimp only
    split
    · refine ⟨?_, rfl, rfl⟩
      have h3 : s.shown.routes.eraseIdx (s.routeIds.idxOf n) = (s.refs.eraseIdx (s.routeIds.idxOf n)).map s.objects := List.eraseIdx_map ..
      rw [h3]
      rfl
    · exact ⟨rfl, rfl, rfl⟩
  · exact ⟨rfl, rfl, rfl⟩

theorem removeLoop_shown (m : Mode K) : ∀ (fuel i : Nat) (s : Depot K),
    (Depot.removeLoop m fuel i s).1.shown = (Network.removeLoop m fuel i s.shown).1 ∧
    (Depot.removeLoop m fuel i s).2 = (Network.removeLoop m fuel i s.shown).2 ∧
    (Depot.removeLoop m fuel i s).1.objects = s.objects := by
  intro fuel
  induction fuel with
  | zero => exact fun i s => ⟨rfl, rfl, rfl⟩
  | succ fuel ih =>
    intro i s
    rw [Depot.removeLoop, Network.removeLoop]
    have h1 : s.shown.routes[i]? = s.refs[i]?.map s.objects := List.getElem?_map
    rw [h1]
    cases s.refs[i]? with
    | none => exact ⟨rfl, rfl, rfl⟩
    | some k =>
      dsimp only [Option.map_some]
      by_cases h : (s.objects k).mode = m
      · rw [if_pos h, if_pos h]
        obtain ⟨h2, h3, h4⟩ := removeRoute_shown s (s.objects k).id
        generalize s.removeRoute (s.objects k).id = q at h2 h3 h4
        generalize s.shown.removeRoute (s.objects k).id = q' at h2 h3
        obtain ⟨a, e⟩ := q
        obtain ⟨a', e'⟩ := q'
        dsimp only at h2 h3 h4
        subst h2 h3
        cases e with
        | none => exact ⟨(ih (i + 1) a).1, (ih (i + 1) a).2.1, (ih (i + 1) a).2.2.trans h4⟩
        | some e => exact ⟨rfl, rfl, h4⟩
      · rw [if_neg h, if_neg h]
        exact ih (i + 1) s

theorem addTransportMode_shown (s : Depot K) (m : Mode K) :
    s.addTransportMode m = ({ s with modes := (s.shown.addTransportMode m).1.modes }, (s.shown.addTransportMode m).2) ∧
    (s.shown.addTransportMode m).1 = { s.shown with modes := (s.shown.addTransportMode m).1.modes } := by
  unfold Depot.addTransportMode Network.addTransportMode
  have h1 : s.shown.modes = s.modes := rfl
  rw [h1]
  split
  · cases Network.checkModes s.modes m with
    | error e => exact ⟨rfl, rfl⟩
    | ok b => cases b <;> exact ⟨rfl, rfl⟩
  · exact ⟨rfl, rfl⟩

theorem addRoute_shown (s : Depot K) (k : Nat) :
    (s.addRoute k).1.shown = (s.shown.addRoute (s.objects k)).1 ∧ (s.addRoute k).2 = (s.shown.addRoute (s.objects k)).2 ∧
    (s.addRoute k).1.objects = s.objects := by
  unfold Depot.addRoute Network.addRoute
  have h1 : s.shown.graph = s.graph := rfl
  rw [h1]
  cases Network.pyOr (Network.edgesValidator s.graph (s.objects k).nodesI) (Network.edgesValidator s.graph (s.objects k).nodesR) with
  | error e => exact ⟨rfl, rfl, rfl⟩
  | ok b =>
    cases b with
    | false => exact ⟨rfl, rfl, rfl⟩
    | true =>
      dsimp only
      unfold Depot.register Network.register
      have h2 : s.shown.routeIds = s.routeIds := rfl
      rw [h2]
      split
      · obtain ⟨h3, h4⟩ := addTransportMode_shown s (s.objects k).mode
        rw [h3]
        generalize s.shown.addTransportMode (s.objects k).mode = q at h4
        obtain ⟨a, e⟩ := q
        dsimp only at h4 ⊢
        cases e with
        | none =>
          refine ⟨?_, rfl, rfl⟩
          rw [h4]
          show (⟨_, _, _, _⟩ : Network K) = ⟨_, _, _, _⟩
          simp only [List.map_append, List.map_cons, List.map_nil]
          rfl
        | some e => exact ⟨h4.symm, rfl, rfl⟩
      · exact ⟨rfl, rfl, rfl⟩

/-- **C99**: a call on a network does what it does to a network whose routes have had their present values from the beginning and were added
under the names that are registered; it assigns nothing. -/
theorem C99_calls_act_on_present_values (s : Depot K) (c : DepotStep K) (c' : NetCall K) (h : c.call s.objects = some c') :
    (c.run s).1.shown = (c'.run s.shown).1 ∧ (c.run s).2 = (c'.run s.shown).2 ∧ (c.run s).1.objects = s.objects := by
  cases c <;> cases h
  · exact addRoute_shown s _
  · exact removeRoute_shown s _
  · rename_i m
    obtain ⟨h1, h2⟩ := addTransportMode_shown s m
    show (s.addTransportMode m).1.shown = (s.shown.addTransportMode m).1 ∧ (s.addTransportMode m).2 = _ ∧ (s.addTransportMode m).1.objects = _
    rw [h1]
    exact ⟨h2.symm, rfl, rfl⟩
  · rename_i m
    show (s.removeTransportMode m).1.shown = (s.shown.removeTransportMode m).1 ∧
      (s.removeTransportMode m).2 = (s.shown.removeTransportMode m).2 ∧ (s.removeTransportMode m).1.objects = s.objects
    have := removeLoop_shown m s.refs.length 0 { s with modes := s.modes.filter (· ≠ m) }
    unfold Depot.removeTransportMode Network.removeTransportMode
    have h2 : s.shown.routes.length = s.refs.length := List.length_map _
    rw [h2]
    exact this

/-! ## the names under which routes are found -/

/-- what `get_route` and `remove_route` rely on, whatever is assigned -/
structure Depot.Kept (g : Graph K) (s : Depot K) : Prop where
  graph : s.graph = g
  nodup : s.routeIds.Nodup
  length : s.routeIds.length = s.refs.length

theorem kept_removeRoute {s : Depot K} (h : s.Kept g) (n : Str) : (s.removeRoute n).1.Kept g ∧
    (n ∈ s.routeIds → s.removeRoute n =
      ({ s with routeIds := s.routeIds.eraseIdx (s.routeIds.idxOf n), refs := s.refs.eraseIdx (s.routeIds.idxOf n) }, none)) := by
  unfold Depot.removeRoute
  by_cases hn : n ∈ s.routeIds
  · have hlt := List.idxOf_lt_length_of_mem hn
    rw [if_pos hn]
    dsimp only
    rw [if_pos (h.length ▸ hlt)]
    refine ⟨⟨h.graph, h.nodup.sublist (List.eraseIdx_sublist _ _), ?_⟩, fun _ => rfl⟩
    dsimp only
    rw [List.length_eraseIdx_of_lt hlt, List.length_eraseIdx_of_lt (h.length ▸ hlt), h.length]
  · rw [if_neg hn]
    exact ⟨h, fun h' => absurd h' hn⟩

theorem kept_removeLoop (m : Mode K) : ∀ (fuel i : Nat) {s : Depot K}, s.Kept g → (Depot.removeLoop m fuel i s).1.Kept g := by
  intro fuel
  induction fuel with
  | zero => exact fun i s h => h
  | succ fuel ih =>
    intro i s h
    rw [Depot.removeLoop]
    cases s.refs[i]? with
    | none => exact h
    | some k =>
      dsimp only
      split
      · have h' := (kept_removeRoute h (s.objects k).id).1
        generalize s.removeRoute (s.objects k).id = q at h'
        obtain ⟨a, _ | e⟩ := q
        · exact ih (i + 1) h'
        · exact h'
      · exact ih (i + 1) h

/-- a route is added, or the call raises and changes at most nothing that matters here -/
theorem addRoute_cases (s : Depot K) (k : Nat) :
    ((s.addRoute k).2 = none ∧ OnStreets s.graph (s.objects k).nodesI ∧ (s.objects k).id ∉ s.routeIds ∧
      ∃ ms, (s.addRoute k).1 = { s with refs := s.refs ++ [k], routeIds := s.routeIds ++ [(s.objects k).id], modes := ms }) ∨
    ((s.addRoute k).2 ≠ none ∧ (s.addRoute k).1 = s) := by
  classical
  unfold Depot.addRoute
  rw [edgesValidator_eq]
  by_cases h1 : OnStreets s.graph (s.objects k).nodesI
  · rw [if_pos h1]
    simp only [Network.pyOr, Depot.register]
    by_cases h2 : (s.objects k).id ∈ s.routeIds
    · rw [if_neg (not_not_intro h2)]
      exact .inr ⟨by simp, rfl⟩
    · rw [if_pos h2]
      unfold Depot.addTransportMode
      by_cases h3 : (s.objects k).mode ∉ s.modes
      · rw [if_pos h3]
        cases Network.checkModes s.modes (s.objects k).mode with
        | error e => exact .inr ⟨by simp, rfl⟩
        | ok b =>
          cases b with
          | true => exact .inl ⟨rfl, h1, h2, _, rfl⟩
          | false => exact .inr ⟨by simp, rfl⟩
      · rw [if_neg h3]
        exact .inl ⟨rfl, h1, h2, _, rfl⟩
  · rw [if_neg h1]
    exact .inr ⟨by simp [Network.pyOr], by simp [Network.pyOr]⟩

theorem depot_kept {P : DepotStep K → Prop} {s : Depot K} (h : Depot.Reachable g P s) : s.Kept g := by
  induction h with
  | init objects => exact ⟨rfl, List.nodup_nil, rfl⟩
  | @step s h c hP ih =>
    cases c with
    | addRoute k =>
      rcases addRoute_cases s k with ⟨_, _, h2, ms, h3⟩ | ⟨_, h3⟩
      · show (s.addRoute k).1.Kept g
        rw [h3]
        refine ⟨ih.graph, ?_, ?_⟩
        · show (s.routeIds ++ [_]).Nodup
          rw [List.nodup_append]
          refine ⟨ih.nodup, by simp, ?_⟩
          rintro a ha b hb rfl
          rw [List.mem_singleton] at hb
          exact h2 (hb ▸ ha)
        · show (s.routeIds ++ [_]).length = (s.refs ++ [_]).length
          rw [List.length_append, List.length_append, ih.length]
          rfl
      · show (s.addRoute k).1.Kept g
        rw [h3]
        exact ih
    | removeRoute n => exact (kept_removeRoute ih n).1
    | addMode m =>
      show (s.addTransportMode m).1.Kept g
      rw [(addTransportMode_shown s m).1]
      exact ⟨ih.graph, ih.nodup, ih.length⟩
    | removeMode m => exact kept_removeLoop m _ _ (s := { s with modes := _ }) ⟨ih.graph, ih.nodup, ih.length⟩
    | assign k a => exact ⟨ih.graph, ih.nodup, ih.length⟩

/-- the reference at the place of a name -/
def refAt (ids : List Str) (refs : List Nat) (n : Str) : Py Nat :=
  if n ∈ ids then pyGet refs (ids.idxOf n) else .error .RouteIdNotFound

theorem refAt_cons (a : Str) (t : List Str) (b : Nat) (u : List Nat) (n : Str) :
    refAt (a :: t) (b :: u) n = if a = n then .ok b else refAt t u n := by
  unfold refAt
  by_cases h : a = n
  · subst h
    simp [pyGet]
  · rw [if_neg h]
    have : n ∈ a :: t ↔ n ∈ t := by simp [Ne.symm h]
    simp only [this]
    split
    · rw [List.idxOf_cons_ne _ h]
      simp [pyGet]
    · rfl

theorem refAt_erase {m n : Str} (hne : n ≠ m) : ∀ (ids : List Str) (refs : List Nat), ids.length = refs.length →
    refAt (ids.eraseIdx (ids.idxOf m)) (refs.eraseIdx (ids.idxOf m)) n = refAt ids refs n := by
  intro ids
  induction ids with
  | nil => intro refs _; simp [refAt]
  | cons a t ih =>
    intro refs hl
    cases refs with
    | nil => simp at hl
    | cons b u =>
      by_cases h : a = m
      · subst h
        rw [List.idxOf_cons_self, List.eraseIdx_cons_zero, List.eraseIdx_cons_zero, refAt_cons, if_neg (Ne.symm hne)]
      · rw [List.idxOf_cons_ne _ h, List.eraseIdx_cons_succ, List.eraseIdx_cons_succ, refAt_cons, refAt_cons,
          ih u (by simpa using hl)]

theorem refAt_append {n m : Str} {k : Nat} : ∀ (ids : List Str) (refs : List Nat), ids.length = refs.length → m ∉ ids →
    refAt (ids ++ [m]) (refs ++ [k]) n = if n = m then .ok k else refAt ids refs n := by
  intro ids
  induction ids with
  | nil =>
    intro refs hl _
    cases refs with
    | nil =>
      show refAt [m] [k] n = _
      rw [refAt_cons]
      by_cases h : n = m
      · rw [if_pos h, if_pos h.symm]
      · rw [if_neg h, if_neg (Ne.symm h)]
    | cons b u => simp at hl
  | cons a t ih =>
    intro refs hl hm
    cases refs with
    | nil => simp at hl
    | cons b u =>
      rw [List.cons_append, List.cons_append, refAt_cons, refAt_cons, ih u (by simpa using hl) (by simp at hm; exact hm.2)]
      by_cases h : a = n
      · subst h
        rw [if_pos rfl, if_pos rfl, if_neg]
        rintro rfl
        simp at hm
      · rw [if_neg h, if_neg h]

theorem getRoute_registered {s : Depot K} (h : s.Kept g) (n : Str) :
    (n ∈ s.routeIds ∧ ∃ k ∈ s.refs, s.getRoute n = .ok k) ∨ (n ∉ s.routeIds ∧ s.getRoute n = .error .RouteIdNotFound) := by
  unfold Depot.getRoute
  by_cases hn : n ∈ s.routeIds
  · have hlt := List.idxOf_lt_length_of_mem hn
    rw [h.length] at hlt
    refine .inl ⟨hn, s.refs[s.routeIds.idxOf n], List.getElem_mem hlt, ?_⟩
    rw [if_pos hn]
    simp [pyGet, List.getElem?_eq_getElem hlt]
  · exact .inr ⟨hn, if_neg hn⟩

/-- **C99**: a route is found, and can be removed, under the name that it had when it was added, whatever was assigned since, until it is
removed under this name; nothing is found under any other name. -/
theorem C99_found_by_the_name_it_had {P : DepotStep K → Prop} {s : Depot K} (h : Depot.Reachable g P s) (n : Str) :
    (∀ k, (s.addRoute k).2 = none →
      (s.addRoute k).1.getRoute n = if n = (s.objects k).id then .ok k else s.getRoute n) ∧
    (∀ k, (s.addRoute k).2 ≠ none → (s.addRoute k).1 = s) ∧
    (∀ k a, (s.assign k a).getRoute n = s.getRoute n) ∧
    (∀ m, (s.addTransportMode m).1.getRoute n = s.getRoute n) ∧
    (∀ n', (s.removeRoute n').1.getRoute n = if n = n' then .error .RouteIdNotFound else s.getRoute n) ∧
    ((s.removeRoute n).2 = none ↔ ∃ k, s.getRoute n = .ok k) ∧
    ((s.removeRoute n).2 ≠ none → s.removeRoute n = (s, some .RouteIdNotFound) ∧ s.getRoute n = .error .RouteIdNotFound) := by
  have hk := depot_kept h
  refine ⟨fun k h1 => ?_, fun k h1 => ?_, fun k a => rfl, fun m => ?_, fun n' => ?_, ?_, ?_⟩
  · rcases addRoute_cases s k with ⟨_, _, h2, ms, h3⟩ | ⟨h2, _⟩
    · rw [h3]
      exact refAt_append s.routeIds s.refs hk.length h2
    · exact absurd h1 h2
  · rcases addRoute_cases s k with ⟨h2, _⟩ | ⟨_, h2⟩
    · exact absurd h2 h1
    · exact h2
  · rw [(addTransportMode_shown s m).1]
    rfl
  · by_cases hn : n' ∈ s.routeIds
    · rw [(kept_removeRoute hk n').2 hn]
      by_cases hne : n = n'
      · subst hne
        rw [if_pos rfl]
        refine if_neg ?_
        rw [← List.erase_eq_eraseIdx_of_idxOf rfl]
        exact hk.nodup.not_mem_erase
      · rw [if_neg hne]
        exact refAt_erase hne s.routeIds s.refs hk.length
    · have : s.removeRoute n' = (s, some .RouteIdNotFound) := if_neg hn
      rw [this]
      by_cases hne : n = n'
      · subst hne
        rw [if_pos rfl]
        exact if_neg hn
      · rw [if_neg hne]
  · rcases getRoute_registered hk n with ⟨h1, k, _, h2⟩ | ⟨h1, h2⟩
    · rw [(kept_removeRoute hk n).2 h1, h2]
      exact ⟨fun _ => ⟨k, rfl⟩, fun _ => rfl⟩
    · have : s.removeRoute n = (s, some .RouteIdNotFound) := if_neg h1
      rw [this, h2]
      simp
  · intro h0
    rcases getRoute_registered hk n with ⟨h1, k, _, h2⟩ | ⟨h1, h2⟩
    · rw [(kept_removeRoute hk n).2 h1] at h0
      exact absurd rfl h0
    · exact ⟨if_neg h1, h2⟩

/-! ## renaming -/

/-- **C99**: as long as no name is assigned, the names that the lines show are the registered ones, all different. -/
theorem C99_names_shown_without_renaming {s : Depot K} (h : Depot.Reachable g (fun c => ¬ c.Renames) s) :
    s.shown.routeIds = s.shown.routes.map Route.id ∧ s.shown.routeIds.Nodup ∧
    ∀ n k, s.getRoute n = .ok k → (s.objects k).id = n := by
  have key : s.shown.routeIds = s.shown.routes.map Route.id := by
    induction h with
    | init objects => rfl
    | @step s h c hP ih =>
      have hk := depot_kept h
      cases c with
      | addRoute k =>
        show (s.addRoute k).1.shown.routeIds = (s.addRoute k).1.shown.routes.map Route.id
        rcases addRoute_cases s k with ⟨_, _, h2, ms, h3⟩ | ⟨_, h3⟩
        · rw [h3]
          show s.routeIds ++ [_] = ((s.refs ++ [k]).map s.objects).map Route.id
          rw [List.map_append, List.map_append]
          have ih' : s.routeIds = (s.refs.map s.objects).map Route.id := ih
          rw [← ih']
          rfl
        · rw [h3]
          exact ih
      | removeRoute n =>
        show (s.removeRoute n).1.shown.routeIds = (s.removeRoute n).1.shown.routes.map Route.id
        by_cases hn : n ∈ s.routeIds
        · rw [(kept_removeRoute hk n).2 hn]
          show s.routeIds.eraseIdx _ = ((s.refs.eraseIdx _).map s.objects).map Route.id
          rw [← List.eraseIdx_map, ← List.eraseIdx_map]
          exact congrArg (fun x => x.eraseIdx (s.routeIds.idxOf n)) ih
        · have : s.removeRoute n = (s, some .RouteIdNotFound) := if_neg hn
          rw [this]
          exact ih
      | addMode m =>
        show (s.addTransportMode m).1.shown.routeIds = (s.addTransportMode m).1.shown.routes.map Route.id
        rw [(addTransportMode_shown s m).1]
        exact ih
      | removeMode m =>
        have h1 := (C99_calls_act_on_present_values s (.removeMode m) _ rfl).1
        rw [h1]
        show (s.shown.removeTransportMode m).1.routeIds = (s.shown.removeTransportMode m).1.routes.map Route.id
        rw [removeTransportMode_any ih hk.nodup m]
      | assign k a =>
        show s.routeIds = (s.refs.map (s.assign k a).objects).map Route.id
        have ih' : s.routeIds = (s.refs.map s.objects).map Route.id := ih
        rw [ih', List.map_map, List.map_map]
        refine List.map_congr_left fun i _ => ?_
        show (s.objects i).id = (if i = k then a.on (s.objects i) else s.objects i).id
        split
        · cases a with
          | id n => exact absurd trivial hP
          | _ => rfl
        · rfl
  have hk := depot_kept h
  refine ⟨key, hk.nodup, fun n k h1 => ?_⟩
  rcases getRoute_registered hk n with ⟨h2, _⟩ | ⟨_, h2⟩
  · unfold Depot.getRoute at h1
    rw [if_pos h2] at h1
    have hlt := List.idxOf_lt_length_of_mem h2
    have e1 : s.refs[s.routeIds.idxOf n]? = some k := by
      unfold pyGet at h1
      generalize s.refs[s.routeIds.idxOf n]? = q at h1
      cases q with
      | none => cases h1
      | some a => cases h1; rfl
    have e2 : s.routeIds[s.routeIds.idxOf n]? = some n := by
      rw [List.getElem?_eq_getElem hlt, List.getElem_idxOf]
    have e3 : s.routeIds = (s.refs.map s.objects).map Route.id := key
    have e4 : ((s.refs.map s.objects).map Route.id)[s.routeIds.idxOf n]? = some n := e3 ▸ e2
    rw [List.getElem?_map, List.getElem?_map, e1] at e4
    simpa using e4
  · rw [h2] at h1
    cases h1

theorem getRoute_ok {s : Depot K} {n : Str} {k : Nat} (h : s.getRoute n = .ok k) : n ∈ s.routeIds ∧ k ∈ s.refs := by
  unfold Depot.getRoute at h
  by_cases hn : n ∈ s.routeIds
  · rw [if_pos hn] at h
    unfold pyGet at h
    refine ⟨hn, ?_⟩
    cases h2 : s.refs[s.routeIds.idxOf n]? with
    | none => rw [h2] at h; cases h
    | some a =>
      rw [h2] at h
      cases h
      exact List.mem_of_getElem? h2
  · rw [if_neg hn] at h
    cases h

/-- **C99**: a line `n` of the network gets the name `new` that no line has been added under: it shows the new name and is found by the old
one only; the old name stays taken although the line does not show it, and the new one is free although it does, so that a further line can
be added, or the same line once more, and two lines show one name. -/
theorem C99_renamed_line {P : DepotStep K → Prop} {s : Depot K} (h : Depot.Reachable g P s) {n new : Str} {k : Nat}
    (hn : s.getRoute n = .ok k) (hnew : s.getRoute new = .error .RouteIdNotFound) :
    (s.objects k ∈ s.shown.routes ∧ { s.objects k with id := new } ∈ (s.assign k (.id new)).shown.routes) ∧
    (s.assign k (.id new)).getRoute n = .ok k ∧
    (s.assign k (.id new)).getRoute new = .error .RouteIdNotFound ∧
    (s.assign k (.id new)).removeRoute new = (s.assign k (.id new), some .RouteIdNotFound) ∧
    (∀ j, OnStreets g ((s.assign k (.id new)).objects j).nodesI → ((s.assign k (.id new)).objects j).id = n →
      (s.assign k (.id new)).addRoute j = (s.assign k (.id new), some .RouteIdDuplicated)) ∧
    (∀ j, OnStreets g ((s.assign k (.id new)).objects j).nodesI → ((s.assign k (.id new)).objects j).id = new →
      ((s.assign k (.id new)).objects j).mode ∈ s.modes →
      ((s.assign k (.id new)).addRoute j).2 = none ∧
      2 ≤ (((s.assign k (.id new)).addRoute j).1.shown.routes.map Route.id).count new) := by
  classical
  have hk := depot_kept h
  obtain ⟨h1, h2⟩ := getRoute_ok hn
  have h3 : new ∉ s.routeIds := by
    rcases getRoute_registered hk new with ⟨_, k', _, h4⟩ | ⟨h4, _⟩
    · rw [h4] at hnew
      cases hnew
    · exact h4
  have hobj : (s.assign k (.id new)).objects k = { s.objects k with id := new } := if_pos rfl
  refine ⟨⟨List.mem_map_of_mem h2, ?_⟩, hn, hnew, if_neg h3, fun j hj hid => ?_, fun j hj hid hm => ?_⟩
  · rw [← hobj]
    exact List.mem_map_of_mem h2
  · have hg : (s.assign k (.id new)).graph = g := hk.graph
    unfold Depot.addRoute
    rw [hg, edgesValidator_eq, if_pos hj]
    show (s.assign k (.id new)).register j = _
    unfold Depot.register
    exact if_neg (not_not_intro (hid ▸ h1))
  · have hg : (s.assign k (.id new)).graph = g := hk.graph
    have : (s.assign k (.id new)).addRoute j =
        ({ s.assign k (.id new) with refs := s.refs ++ [j], routeIds := s.routeIds ++ [new] }, none) := by
      unfold Depot.addRoute
      rw [hg, edgesValidator_eq, if_pos hj]
      show (s.assign k (.id new)).register j = _
      unfold Depot.register
      rw [hid]
      have h4 : new ∉ (s.assign k (.id new)).routeIds := h3
      rw [if_pos h4]
      unfold Depot.addTransportMode
      have h5 : ¬ ((s.assign k (.id new)).objects j).mode ∉ (s.assign k (.id new)).modes := not_not_intro hm
      rw [if_neg h5]
      rfl
    rw [this]
    refine ⟨rfl, ?_⟩
    show 2 ≤ (((s.refs ++ [j]).map (s.assign k (.id new)).objects).map Route.id).count new
    rw [List.map_append, List.map_append, List.count_append]
    have e1 : 1 ≤ ((s.refs.map (s.assign k (.id new)).objects).map Route.id).count new := by
      refine List.one_le_count_iff.2 (List.mem_map.2 ⟨_, List.mem_map_of_mem h2, ?_⟩)
      rw [hobj]
    have e2 : (([j].map (s.assign k (.id new)).objects).map Route.id).count new = 1 := by
      show [((s.assign k (.id new)).objects j).id].count new = 1
      rw [hid]
      simp
    omega

theorem removeLoop_stops {s : Depot K} {m : Mode K} {pre post : List Nat} {k : Nat} (hs : s.refs = pre ++ k :: post)
    (hpre : ∀ j ∈ pre, (s.objects j).mode ≠ m) (hm : (s.objects k).mode = m) (hn : (s.objects k).id ∉ s.routeIds) :
    ∀ (fuel i : Nat), i ≤ pre.length → pre.length < i + fuel → Depot.removeLoop m fuel i s = (s, some .RouteIdNotFound) := by
  intro fuel
  induction fuel with
  | zero => intro i h1 h2; omega
  | succ fuel ih =>
    intro i h1 h2
    rw [Depot.removeLoop]
    by_cases hi : i = pre.length
    · have : s.refs[i]? = some k := by rw [hs, hi]; simp
      rw [this]
      dsimp only
      rw [if_pos hm]
      have : s.removeRoute (s.objects k).id = (s, some .RouteIdNotFound) := if_neg hn
      rw [this]
    · have hlt : i < pre.length := by omega
      have : s.refs[i]? = some pre[i] := by rw [hs, List.getElem?_append_left hlt, List.getElem?_eq_getElem hlt]
      rw [this]
      dsimp only
      rw [if_neg (hpre _ (List.getElem_mem hlt))]
      exact ih (i + 1) (by omega) (by omega)

/-- **C99**: removing a mode whose first line was renamed raises an exception, and by then the mode is out of the list of modes, while all
its lines are still there. -/
theorem C99_removing_the_mode_of_a_renamed_line {P : DepotStep K → Prop} {s : Depot K} (h : Depot.Reachable g P s) {m : Mode K}
    {pre post : List Nat} {k : Nat} (hs : s.refs = pre ++ k :: post) (hpre : ∀ j ∈ pre, (s.objects j).mode ≠ m)
    (hm : (s.objects k).mode = m) (hn : s.getRoute (s.objects k).id = .error .RouteIdNotFound) :
    (s.removeTransportMode m).2 = some .RouteIdNotFound ∧ m ∉ (s.removeTransportMode m).1.modes ∧
    (s.removeTransportMode m).1.shown.routes = s.shown.routes ∧ s.objects k ∈ s.shown.routes := by
  have h3 : (s.objects k).id ∉ s.routeIds := by
    rcases getRoute_registered (depot_kept h) (s.objects k).id with ⟨_, k', _, h4⟩ | ⟨h4, _⟩
    · rw [h4] at hn
      cases hn
    · exact h4
  have : s.removeTransportMode m = ({ s with modes := s.modes.filter (· ≠ m) }, some .RouteIdNotFound) :=
    removeLoop_stops (s := { s with modes := s.modes.filter (· ≠ m) }) hs hpre hm h3 _ _ (Nat.zero_le _) (by
      show pre.length < 0 + s.refs.length
      rw [hs, List.length_append, List.length_cons]
      omega)
  rw [this]
  refine ⟨rfl, by simp, rfl, List.mem_map_of_mem ?_⟩
  rw [hs]
  simp

/-! ## the other attributes -/

/-- **C99**: assignments are not checked and nothing else changes: all lines that are this object show the assigned value, also a way where
there are no streets or a mode that is not registered. Assigning the return way or the stops before or after the line is added is all the
same, exceptions included; so is the forward way, provided the line is accepted with both. -/
theorem C99_not_checked (s : Depot K) (k : Nat) :
    (∀ a, ((DepotStep.assign k a).run s).2 = none ∧ (s.assign k a).modes = s.modes ∧
      (s.assign k a).shown.routes = s.refs.map fun i => if i = k then a.on (s.objects i) else s.objects i) ∧
    (∀ l, (s.assign k (.nodesR l)).addRoute k = ((s.addRoute k).1.assign k (.nodesR l), (s.addRoute k).2)) ∧
    (∀ l, (s.assign k (.stopsI l)).addRoute k = ((s.addRoute k).1.assign k (.stopsI l), (s.addRoute k).2)) ∧
    (∀ l, (s.assign k (.stopsR l)).addRoute k = ((s.addRoute k).1.assign k (.stopsR l), (s.addRoute k).2)) ∧
    (∀ l, (s.addRoute k).2 = none → OnStreets s.graph l →
      (s.assign k (.nodesI l)).addRoute k = ((s.addRoute k).1.assign k (.nodesI l), none)) ∧
    (∀ l, ¬ OnStreets s.graph l → (s.assign k (.nodesI l)).addRoute k = (s.assign k (.nodesI l), some .NodeSequencesIsNotValid)) := by
  classical
  have reg : ∀ a : RouteAssign K, (a.on (s.objects k)).id = (s.objects k).id → (a.on (s.objects k)).mode = (s.objects k).mode →
      (s.assign k a).register k = ((s.register k).1.assign k a, (s.register k).2) := by
    intro a h1 h2
    have hobj : (s.assign k a).objects k = a.on (s.objects k) := if_pos rfl
    unfold Depot.register
    rw [hobj, h1, h2]
    have h3 : (s.assign k a).routeIds = s.routeIds := rfl
    rw [h3]
    split
    · have h4 : (s.assign k a).addTransportMode (s.objects k).mode =
          ((s.addTransportMode (s.objects k).mode).1.assign k a, (s.addTransportMode (s.objects k).mode).2) := by
        unfold Depot.addTransportMode
        have h5 : (s.assign k a).modes = s.modes := rfl
        rw [h5]
        split
        · cases Network.checkModes s.modes (s.objects k).mode with
          | error e => rfl
          | ok b => cases b <;> rfl
        · rfl
      rw [h4]
      generalize s.addTransportMode (s.objects k).mode = q
      obtain ⟨q, _ | e⟩ := q <;> rfl
    · rfl
  have add : ∀ a : RouteAssign K, (a.on (s.objects k)).id = (s.objects k).id → (a.on (s.objects k)).mode = (s.objects k).mode →
      (OnStreets s.graph (a.on (s.objects k)).nodesI ↔ OnStreets s.graph (s.objects k).nodesI) →
      (s.assign k a).addRoute k = ((s.addRoute k).1.assign k a, (s.addRoute k).2) := by
    intro a h1 h2 h3
    have hobj : (s.assign k a).objects k = a.on (s.objects k) := if_pos rfl
    have hg : (s.assign k a).graph = s.graph := rfl
    unfold Depot.addRoute
    rw [hobj, hg, edgesValidator_eq, edgesValidator_eq s.graph (s.objects k).nodesI]
    by_cases h4 : OnStreets s.graph (s.objects k).nodesI
    · rw [if_pos h4, if_pos (h3.2 h4)]
      exact reg a h1 h2
    · rw [if_neg h4, if_neg (fun h => h4 (h3.1 h))]
      rfl
  refine ⟨fun a => ⟨rfl, rfl, rfl⟩, fun l => add _ rfl rfl Iff.rfl, fun l => add _ rfl rfl Iff.rfl, fun l => add _ rfl rfl Iff.rfl,
    fun l h1 h2 => ?_, fun l h2 => ?_⟩
  · rcases addRoute_cases s k with ⟨_, h3, _⟩ | ⟨h3, _⟩
    · rw [add (.nodesI l) rfl rfl ⟨fun _ => h3, fun _ => h2⟩, h1]
    · exact absurd h1 h3
  · have hobj : (s.assign k (.nodesI l)).objects k = { s.objects k with nodesI := l } := if_pos rfl
    have hg : (s.assign k (.nodesI l)).graph = s.graph := rfl
    unfold Depot.addRoute
    rw [hobj, hg, edgesValidator_eq, if_neg h2]
    rfl

end Generic

/-! ## examples -/

section Examples

/-- a line of buses `a`, a line of metros `b`, and further lines of buses -/
def depotObjects (k : Nat) : Route ℚ := if k = 1 then fleetBus else if k = 2 then fleetMetro else { fleetBus with id := "c".toList }

/-- both lines are added -/
def demoDepot : Depot ℚ :=
  ((DepotStep.addRoute 2).run ((DepotStep.addRoute 1).run ⟨depotObjects, demoCity 3, [], [], []⟩).1).1

theorem demoDepot_reachable : Depot.Reachable (demoCity 3) (fun c => ¬ c.Renames) demoDepot :=
  .step (.step (.init depotObjects) _ id) _ id

example : demoDepot.refs = [1, 2] ∧ demoDepot.routeIds = ["a".toList, "b".toList] ∧ demoDepot.modes = [demoMode, demoMetro] ∧
    demoDepot.getRoute "a".toList = .ok 1 ∧ demoDepot.getRoute "c".toList = .error .RouteIdNotFound := by decide +kernel

/-- the hypotheses of `C99_renamed_line` hold: line 1 gets the name `c`, and line 3 has it as well -/
example : 2 ≤ (((demoDepot.assign 1 (.id "c".toList)).addRoute 3).1.shown.routes.map Route.id).count "c".toList :=
  ((C99_renamed_line demoDepot_reachable (n := "a".toList) (k := 1) (by decide +kernel) (by decide +kernel)).2.2.2.2.2 3
    (by unfold OnStreets; decide +kernel) (by decide +kernel) (by decide +kernel)).2

/-- the hypotheses of `C99_removing_the_mode_of_a_renamed_line` hold -/
example : ((demoDepot.assign 2 (.id "c".toList)).removeTransportMode demoMetro).2 = some .RouteIdNotFound :=
  (C99_removing_the_mode_of_a_renamed_line (P := fun _ => True) (pre := [1]) (post := []) (k := 2)
    (.step (.step (.step (.init depotObjects) (.addRoute 1) trivial) (.addRoute 2) trivial) (.assign 2 (.id "c".toList)) trivial)
    (by decide +kernel) (by decide +kernel) (by decide +kernel) (by decide +kernel)).1

/-- the forward way is assigned, on the streets and off the streets -/
example : (demoDepot.addRoute 3).2 = none ∧ OnStreets (demoCity 3) [1, 2] ∧ ¬ OnStreets (demoCity 3) [1, 4] := by
  unfold OnStreets
  decide +kernel

/-- **C99**: when two lines exchange their names, removing the mode of the one removes the other line, without an exception: afterwards the
mode that was removed has a line and the mode that is left has none. -/
theorem C99_wrong_line_removed : ∃ s : Depot ℚ, Depot.Reachable (demoCity 3) (fun _ => True) s ∧
    s.shown.routes.map (fun r => (r.id, r.mode)) = [("b".toList, demoMode), ("a".toList, demoMetro)] ∧
    (s.removeTransportMode demoMode).2 = none ∧
    (s.removeTransportMode demoMode).1.shown.routes.map (fun r => (r.id, r.mode)) = [("b".toList, demoMode)] ∧
    (s.removeTransportMode demoMode).1.modes = [demoMetro] :=
  ⟨(demoDepot.assign 1 (.id "b".toList)).assign 2 (.id "a".toList),
    .step (.step (.step (.step (.init depotObjects) (.addRoute 1) trivial) (.addRoute 2) trivial) (.assign 1 (.id "b".toList)) trivial)
      (.assign 2 (.id "a".toList)) trivial,
    by decide +kernel⟩

end Examples

end Sidermit
