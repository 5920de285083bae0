import Verif.Spec.Network
import Verif.Proofs.Text
import Verif.Proofs.PyLemmas
import Verif.Proofs.Mode

/-! Lemmas about routes and networks. -/

set_option linter.unusedSectionVars false
set_option linter.unusedSimpArgs false

namespace Sidermit

variable {K : Type}

theorem mapM_nil {α β : Type} (f : α → Py β) : List.mapM f [] = .ok [] := rfl

theorem mapM_cons {α β : Type} (f : α → Py β) (a : α) (t : List α) :
    List.mapM f (a :: t) = (f a >>= fun b => List.mapM f t >>= fun bs => .ok (b :: bs)) := by
  simp only [List.mapM_cons]; rfl

theorem mapM_ok {α β : Type} (f : α → Py β) (g : α → β) (l : List α) (h : ∀ a ∈ l, f a = .ok (g a)) :
    l.mapM f = .ok (l.map g) := by
  induction l with
  | nil => rfl
  | cons a t ih =>
    rw [mapM_cons, h a List.mem_cons_self, py_ok_bind, ih (fun b hb => h b (List.mem_cons_of_mem _ hb))]
    rfl

/-! ### text of sequences -/

theorem joinWith_append {sep : Char} (ws vs : List Str) (hw : ws ≠ []) (hv : vs ≠ []) :
    joinWith sep (ws ++ vs) = joinWith sep ws ++ sep :: joinWith sep vs := by
  induction ws with
  | nil => exact absurd rfl hw
  | cons w t ih =>
    cases t with
    | nil =>
      cases vs with
      | nil => exact absurd rfl hv
      | cons v vt => simp [joinWith]
    | cons w' t' =>
      have := ih (by simp)
      simp only [List.cons_append] at this ⊢
      rw [joinWith]
      · rw [this]
        have h2 : joinWith sep (w :: w' :: t') = w ++ sep :: joinWith sep (w' :: t') := by
          rw [joinWith]; simp
        rw [h2]
        simp
      · simp

theorem seqText_append {l m : List Int} (hl : l ≠ []) (hm : m ≠ []) :
    Network.seqText (l ++ m) = Network.seqText l ++ ',' :: Network.seqText m := by
  unfold Network.seqText
  rw [List.map_append, joinWith_append _ _ (by simpa) (by simpa)]

theorem seqText_singleton (x : Int) : Network.seqText [x] = showInt x := rfl

theorem seqText_ne_nil {l : List Int} (hl : l ≠ []) : Network.seqText l ≠ [] := by
  cases l with
  | nil => exact absurd rfl hl
  | cons a t =>
    cases t with
    | nil => exact showInt_ne_nil a
    | cons b t => simp [Network.seqText, joinWith]

theorem sequencesToString_eq (l : List Int) : sequencesToString l = Network.seqText l := by
  suffices h : ∀ (t l : List Int), l ≠ [] → t.foldl addToSequence (Network.seqText l) = Network.seqText (l ++ t) by
    cases l with
    | nil => rfl
    | cons a t =>
      unfold sequencesToString
      rw [List.foldl_cons]
      have : addToSequence [] a = Network.seqText [a] := by simp [addToSequence, seqText_singleton]
      rw [this, h t [a] (by simp)]
      rfl
  intro t
  induction t with
  | nil => intro l _; simp
  | cons b t ih =>
    intro l hl
    rw [List.foldl_cons]
    have : addToSequence (Network.seqText l) b = Network.seqText (l ++ [b]) := by
      rw [seqText_append hl (by simp), seqText_singleton, addToSequence, if_neg (seqText_ne_nil hl)]
    rw [this, ih _ (by simp)]
    simp

theorem parseNode_showInt (i : Int) : parseNode (showInt i) = .ok i := by
  unfold parseNode
  rw [rstripNewline_eq_self (fun c hc => showInt_ne_newline i c hc), pyInt_showInt]

theorem sequencesToList_seqText (l : List Int) : sequencesToList (some (Network.seqText l)) = .ok l := by
  cases l with
  | nil => rfl
  | cons a t =>
    have hne : Network.seqText (a :: t) ≠ [] := seqText_ne_nil (by simp)
    have : sequencesToList (some (Network.seqText (a :: t))) = (splitOn ',' (Network.seqText (a :: t))).mapM parseNode := by
      cases h : Network.seqText (a :: t) with
      | nil => exact absurd h hne
      | cons c cs => rfl
    rw [this, Network.seqText, splitOn_joinWith _ (by simp) (by
      intro w hw c hc
      obtain ⟨i, _, rfl⟩ := List.mem_map.1 hw
      exact showInt_ne_comma i c hc)]
    rw [mapM_ok parseNode (fun s => ((pyInt s).getD 0)) _ (by
      intro w hw
      obtain ⟨i, _, rfl⟩ := List.mem_map.1 hw
      rw [parseNode_showInt, pyInt_showInt]; rfl)]
    congr 1
    rw [List.map_map]
    conv_rhs => rw [← List.map_id (a :: t)]
    apply List.map_congr_left
    intro i _
    simp [pyInt_showInt]

/-! ### validators -/

theorem stopsValidator_eq_ok {nodes stops : List Int} (hn : nodes ≠ []) {u : Unit} :
    stopsValidator nodes stops = .ok u ↔
      (∀ s ∈ stops, s ∈ nodes) ∧ stops.head? = nodes.head? ∧ stops.getLast? = nodes.getLast? := by
  unfold stopsValidator
  simp only [raiseIf_bind_eq_ok, raiseIf_eq_ok, not_exists, not_and, not_not, ne_eq]
  constructor
  · rintro ⟨_, h1, h2, h3⟩; exact ⟨h1, h2.symm, h3.symm⟩
  · rintro ⟨h1, h2, h3⟩
    refine ⟨?_, h1, h2.symm, h3.symm⟩
    rintro rfl
    cases nodes with
    | nil => exact hn rfl
    | cons a t => simp at h2

theorem directionValidator_eq_ok {ni nr : List Int} {u : Unit} :
    directionValidator ni nr = .ok u ↔ ni ≠ [] ∧ nr ≠ [] ∧ ni.head? = nr.getLast? ∧ nr.head? = ni.getLast? := by
  unfold directionValidator
  simp only [raiseIf_bind_eq_ok, raiseIf_eq_ok, not_or, ne_eq, not_not]
  tauto

theorem sequencesValidator_eq_ok {l : List Int} {u : Unit} : sequencesValidator l = .ok u ↔ l.Nodup := by
  unfold sequencesValidator
  simp only [raiseIf_eq_ok, not_exists, not_and, gt_iff_lt, not_lt, List.nodup_iff_count_le_one]
  constructor
  · intro h a
    by_cases ha : a ∈ l
    · exact h a ha
    · rw [List.count_eq_zero_of_not_mem ha]; omega
  · intro h a _; exact h a

theorem routeValidator_eq_ok {nodesI nodesR stopsI stopsR : Option Str} {ni nr si sr : List Int} :
    routeValidator nodesI nodesR stopsI stopsR = .ok (ni, nr, si, sr) ↔
      sequencesToList nodesI = .ok ni ∧ sequencesToList nodesR = .ok nr ∧ sequencesToList stopsI = .ok si ∧
      sequencesToList stopsR = .ok sr ∧ CustomOk ni nr si sr := by
  unfold routeValidator
  simp only [py_bind_eq_ok, directionValidator_eq_ok, sequencesValidator_eq_ok, py_pure, Except.ok.injEq,
    Prod.mk.injEq]
  constructor
  · rintro ⟨ni', h1, nr', h2, si', h3, sr', h4, _, ⟨d1, d2, d3, d4⟩, _, h5, _, h6, _, h7, _, h8, rfl, rfl, rfl, rfl⟩
    rw [stopsValidator_eq_ok d1] at h5
    rw [stopsValidator_eq_ok d2] at h6
    exact ⟨h1, h2, h3, h4, ⟨d1, d2, d3, d4, h5.1, h6.1, h5.2.1, h5.2.2, h6.2.1, h6.2.2, h7, h8⟩⟩
  · rintro ⟨h1, h2, h3, h4, h⟩
    exact ⟨ni, h1, nr, h2, si, h3, sr, h4, (), ⟨h.nonemptyI, h.nonemptyR, h.cycle_start, h.cycle_end⟩, (),
      (stopsValidator_eq_ok h.nonemptyI).2 ⟨h.stopsI_on, h.firstI, h.lastI⟩, (),
      (stopsValidator_eq_ok h.nonemptyR).2 ⟨h.stopsR_on, h.firstR, h.lastR⟩, (), h.noloopI, (), h.noloopR,
      rfl, rfl, rfl, rfl⟩

theorem sequencesToList_noText {s : Option Str} (h : noText s) : sequencesToList s = .ok [] := by
  rcases h with rfl | rfl <;> rfl

/-- construction of a custom route -/
theorem mkRoute_custom_eq_ok {id : Option Str} {mode : Mode K} {nodesI nodesR stopsI stopsR : Option Str}
    {r : Route K} : mkRoute id mode nodesI nodesR stopsI stopsR .custom = .ok r ↔
      id = some r.id ∧ r.mode = mode ∧ r.type = .custom ∧ sequencesToList nodesI = .ok r.nodesI ∧
      sequencesToList nodesR = .ok r.nodesR ∧ sequencesToList stopsI = .ok r.stopsI ∧
      sequencesToList stopsR = .ok r.stopsR ∧ CustomOk r.nodesI r.nodesR r.stopsI r.stopsR := by
  unfold mkRoute mkCustom
  simp only [raiseIf_eq_ok, py_bind_eq_ok, true_and, reduceCtorEq, or_self, if_false, py_pure, Except.ok.injEq]
  constructor
  · rintro ⟨_, _, _, _, id', hid, ⟨ni, nr, si, sr⟩, h, rfl⟩
    cases id with
    | none => simp [routeIdOf] at hid
    | some i =>
      simp only [routeIdOf, Except.ok.injEq] at hid
      subst hid
      have := routeValidator_eq_ok.1 h
      exact ⟨rfl, rfl, rfl, this⟩
  · rintro ⟨rfl, rfl, h3, h4, h5, h6, h7, h⟩
    refine ⟨(), ?_, (), ?_, r.id, rfl, (r.nodesI, r.nodesR, r.stopsI, r.stopsR), routeValidator_eq_ok.2 ⟨h4, h5, h6, h7, h⟩, ?_⟩
    · rintro (h' | h')
      · rw [sequencesToList_noText h'] at h4; exact h.nonemptyI (by simpa using h4.symm)
      · rw [sequencesToList_noText h'] at h5; exact h.nonemptyR (by simpa using h5.symm)
    · rintro (h' | h')
      · rw [sequencesToList_noText h'] at h6
        have e : r.stopsI = [] := by simpa using h6.symm
        have := h.firstI; rw [e] at this
        exact h.nonemptyI (List.head?_eq_none_iff.1 this.symm)
      · rw [sequencesToList_noText h'] at h7
        have e : r.stopsR = [] := by simpa using h7.symm
        have := h.firstR; rw [e] at this
        exact h.nonemptyR (List.head?_eq_none_iff.1 this.symm)
    · cases r; simp_all

theorem mkRoute_predefined (id : Str) (mode : Mode K) (ni nr si sr : List Int) (t : RouteType) (ht : t ≠ .custom) :
    mkRoute (some id) mode (some (Network.seqText ni)) (some (Network.seqText nr)) (some (Network.seqText si))
      (some (Network.seqText sr)) t =
      .ok { id, mode, nodesI := ni, nodesR := nr, stopsI := si, stopsR := sr, type := t } := by
  have : t = .predefined ∨ t = .circular := by cases t <;> simp_all
  unfold mkRoute mkPredefined
  simp only [ht, false_and, raiseIf_false, py_ok_bind, routeIdOf, this, if_true, sequencesToList_seqText, py_pure]

/-! ### modes of a network -/

section

variable [DecidableEq K]

theorem foldl_collectMode (l acc : List (Mode K)) (h : (acc ++ l).Nodup) :
    l.foldl Network.collectMode acc = acc ++ l := by
  induction l generalizing acc with
  | nil => simp
  | cons m t ih =>
    have hm : m ∉ acc := by
      intro hm
      rw [List.nodup_append] at h
      exact h.2.2 m hm m (by simp) rfl
    rw [List.foldl_cons, Network.collectMode, if_neg hm, ih (acc ++ [m]) (by simpa using h)]
    simp

/-- adding modes one by one to a manager -/
theorem addAll_nodup (l : List (Mode K)) (mgr : ModeManager K) (h : (mgr.names ++ l.map Mode.name).Nodup) :
    Network.addAll mgr l = .ok ⟨mgr.names ++ l.map Mode.name, mgr.modes ++ l⟩ := by
  induction l generalizing mgr with
  | nil => simp [Network.addAll]
  | cons m t ih =>
    have hm : m.name ∉ mgr.names := by
      intro hm
      rw [List.nodup_append] at h
      exact h.2.2 m.name hm m.name (by simp) rfl
    rw [Network.addAll, ModeManager.addMode, if_neg hm]
    simp only
    rw [ih ⟨mgr.names ++ [m.name], mgr.modes ++ [m]⟩ (by simpa using h)]
    simp

theorem addAll_dup (l : List (Mode K)) (mgr : ModeManager K) (hn : mgr.names.Nodup)
    (h : ¬ (mgr.names ++ l.map Mode.name).Nodup) : Network.addAll mgr l = .error .AddMode := by
  induction l generalizing mgr with
  | nil => simp [hn] at h
  | cons m t ih =>
    by_cases hm : m.name ∈ mgr.names
    · rw [Network.addAll, ModeManager.addMode, if_pos hm]
    · rw [Network.addAll, ModeManager.addMode, if_neg hm]
      simp only
      apply ih
      · simp only [List.nodup_append, hn, true_and]
        refine ⟨by simp, ?_⟩
        rintro a ha b hb rfl
        exact hm (by simpa using (by simpa using hb) ▸ ha)
      · simpa using h

theorem checkModes_eq {modes : List (Mode K)} {m : Mode K} (hm : m ∉ modes) (hn : (modes.map Mode.name).Nodup) :
    Network.checkModes modes m =
      if m.name ∈ modes.map Mode.name then .error .AddMode
      else if modes = [] then .ok true
      else if modes.length = 1 ∧ (m.d = 1 ∨ ∃ m' ∈ modes, m'.d = 1) then .ok true
      else .error .TransportNetwork := by
  have hnd : ([m] ++ modes).Nodup := by simpa [hm] using List.Nodup.of_map _ hn
  unfold Network.checkModes
  rw [foldl_collectMode _ _ hnd]
  by_cases hname : m.name ∈ modes.map Mode.name
  · rw [if_pos hname, addAll_dup _ _ (by simp) (by simpa [hn] using hname)]
    rfl
  · rw [if_neg hname, addAll_nodup _ _ (by simpa [hn] using hname), py_ok_bind]
    unfold ModeManager.isValidToAssignmentStep
    rcases modes with _ | ⟨a, _ | ⟨b, t⟩⟩
    · simp
    · simp
    · simp

theorem ModesOk.names_nodup {l : List (Mode K)} (h : ModesOk l) : (l.map Mode.name).Nodup := by
  rcases h with h | ⟨m, m', rfl, h, _⟩
  · rcases l with _ | ⟨a, _ | ⟨b, t⟩⟩
    · simp
    · simp
    · simp at h
  · simpa using h

/-- when a mode can be registered besides the registered ones -/
theorem modesOk_append {modes : List (Mode K)} {m : Mode K} (h : ModesOk modes) :
    ModesOk (modes ++ [m]) ↔ m.name ∉ modes.map Mode.name ∧
      (modes = [] ∨ modes.length = 1 ∧ (m.d = 1 ∨ ∃ m' ∈ modes, m'.d = 1)) := by
  rcases h with h | ⟨a, b, rfl, h, _⟩
  · rcases modes with _ | ⟨a, _ | ⟨b, t⟩⟩
    · simp [ModesOk]
    · simp only [ModesOk, List.cons_append, List.nil_append, List.length_cons, List.length_nil]
      constructor
      · rintro (h | ⟨x, y, hxy, h1, h2⟩)
        · omega
        · simp only [List.cons.injEq, and_true] at hxy
          obtain ⟨rfl, rfl⟩ := hxy
          exact ⟨by simpa using Ne.symm h1, Or.inr ⟨trivial, by simpa using h2.symm⟩⟩
      · rintro ⟨h1, h2 | ⟨_, h2⟩⟩
        · simp at h2
        · exact Or.inr ⟨a, m, rfl, by simpa using Ne.symm (by simpa using h1), by simpa using h2.symm⟩
    · simp at h
  · simp [ModesOk]

open Classical in
theorem addTransportMode_eq {s : Network K} (h : ModesOk s.modes) (m : Mode K) :
    s.addTransportMode m =
      if m ∈ s.modes then (s, none)
      else if ModesOk (s.modes ++ [m]) then ({ s with modes := s.modes ++ [m] }, none)
      else if m.name ∈ s.modes.map Mode.name then (s, some .AddMode) else (s, some .TransportNetwork) := by
  unfold Network.addTransportMode
  by_cases hm : m ∈ s.modes
  · simp [hm]
  · rw [if_pos hm, checkModes_eq hm h.names_nodup, if_neg hm]
    simp only [modesOk_append h]
    by_cases h1 : m.name ∈ s.modes.map Mode.name
    · simp only [h1, if_true, not_true, false_and, if_false]
    · simp only [h1, if_false, not_false_iff, true_and]
      by_cases h2 : s.modes = []
      · simp only [h2, if_true, true_or]
      · by_cases h3 : s.modes.length = 1 ∧ (m.d = 1 ∨ ∃ m' ∈ s.modes, m'.d = 1)
        · rw [if_neg h2, if_pos h3, if_pos (Or.inr h3)]
        · rw [if_neg h2, if_neg h3, if_neg (by rintro (h | h) <;> contradiction)]

theorem edgesValidator_eq (g : Graph K) (nodes : List Int) [Decidable (OnStreets g nodes)] :
    Network.edgesValidator g nodes = if OnStreets g nodes then .ok true else .error .NodeSequencesIsNotValid := by
  unfold Network.edgesValidator
  by_cases h : OnStreets g nodes
  · rw [if_pos h, if_pos (by rw [List.all_eq_true]; exact h)]
  · rw [if_neg h, if_neg (by rw [List.all_eq_true]; exact h)]

instance (g : Graph K) (nodes : List Int) : Decidable (OnStreets g nodes) :=
  inferInstanceAs (Decidable (∀ p ∈ pairs nodes, g.edgeExist p.1 p.2 = true))

open Classical in
/-- `add_route`, decided -/
theorem addRoute_eq {s : Network K} (h : ModesOk s.modes) (r : Route K) :
    s.addRoute r =
      if ¬ OnStreets s.graph r.nodesI then (s, some .NodeSequencesIsNotValid)
      else if r.id ∈ s.routeIds then (s, some .RouteIdDuplicated)
      else if r.mode ∈ s.modes then ({ s with routes := s.routes ++ [r], routeIds := s.routeIds ++ [r.id] }, none)
      else if ModesOk (s.modes ++ [r.mode]) then
        ({ s with routes := s.routes ++ [r], routeIds := s.routeIds ++ [r.id], modes := s.modes ++ [r.mode] }, none)
      else if r.mode.name ∈ s.modes.map Mode.name then (s, some .AddMode) else (s, some .TransportNetwork) := by
  unfold Network.addRoute
  rw [edgesValidator_eq]
  by_cases h1 : OnStreets s.graph r.nodesI
  · rw [if_pos h1, if_neg (by simpa using h1)]
    simp only [Network.pyOr, Network.register]
    by_cases h2 : r.id ∈ s.routeIds
    · simp [h2]
    · rw [if_pos h2, if_neg h2, addTransportMode_eq h]
      by_cases h3 : r.mode ∈ s.modes
      · simp [h3]
      · by_cases h4 : ModesOk (s.modes ++ [r.mode])
        · simp [h3, h4]
        · by_cases h5 : r.mode.name ∈ s.modes.map Mode.name
          · simp only [h3, h4, h5, if_false, if_true]
          · simp only [h3, h4, h5, if_false, if_true]
  · rw [if_neg h1, if_pos h1]
    rfl

/-- the two parallel lists of a network -/
structure Network.Wf (s : Network K) : Prop where
  ids : s.routeIds = s.routes.map Route.id
  nodup : s.routeIds.Nodup
  modes : ModesOk s.modes

theorem eraseIdx_idxOf_routes (l : List (Route K)) (id : Str) (hnd : (l.map Route.id).Nodup) :
    (l.map Route.id).eraseIdx ((l.map Route.id).idxOf id) = (l.filter (·.id ≠ id)).map Route.id ∧
      l.eraseIdx ((l.map Route.id).idxOf id) = l.filter (·.id ≠ id) := by
  have := eraseIdx_idxOf_fst (l.map fun r => (r.id, r)) id (by simpa [Function.comp_def] using hnd)
  simpa [Function.comp_def, List.filter_map] using this

theorem removeRoute_eq {s : Network K} (h : s.Wf) (id : Str) :
    s.removeRoute id = if id ∈ s.routeIds then
      ({ s with routeIds := (s.routes.filter (·.id ≠ id)).map Route.id, routes := s.routes.filter (·.id ≠ id) }, none)
      else (s, some .RouteIdNotFound) := by
  unfold Network.removeRoute
  by_cases hid : id ∈ s.routeIds
  · have hlt : s.routeIds.idxOf id < s.routes.length := by
      have := List.idxOf_lt_length_iff.2 hid
      rw [h.ids] at this ⊢
      simpa using this
    have := eraseIdx_idxOf_routes s.routes id (h.ids ▸ h.nodup)
    rw [← h.ids] at this
    simp only [hid, if_true, hlt, this]
  · simp [hid]

theorem filter_id_split {pre t : List (Route K)} {r : Route K} (hnd : ((pre ++ r :: t).map Route.id).Nodup) :
    (pre ++ r :: t).filter (·.id ≠ r.id) = pre ++ t := by
  rw [List.map_append, List.nodup_append, List.map_cons, List.nodup_cons] at hnd
  obtain ⟨_, ⟨h2, _⟩, h3⟩ := hnd
  rw [List.filter_append, List.filter_cons_of_neg (by simp)]
  congr 1
  · rw [List.filter_eq_self]
    intro a ha
    simpa using h3 a.id (List.mem_map_of_mem ha) r.id (by simp)
  · rw [List.filter_eq_self]
    intro a ha
    simp only [ne_eq, decide_not, Bool.not_eq_eq_eq_not, Bool.not_true, decide_eq_false_iff_not]
    intro e
    exact h2 (e ▸ List.mem_map_of_mem ha)

theorem removeLoop_eq (m : Mode K) : ∀ (fuel : Nat) (pre rest : List (Route K)) (s : Network K), s.Wf →
    s.routes = pre ++ rest → rest.length ≤ fuel →
    Network.removeLoop m fuel pre.length s =
      ({ s with routes := pre ++ survivors m rest, routeIds := (pre ++ survivors m rest).map Route.id }, none) := by
  intro fuel
  induction fuel with
  | zero =>
    intro pre rest s h hs hf
    have : rest = [] := List.length_eq_zero_iff.1 (by omega)
    subst this
    rw [Network.removeLoop, survivors, ← hs, ← h.ids]
  | succ fuel ih =>
    intro pre rest s h hs hf
    cases rest with
    | nil =>
      rw [Network.removeLoop, hs]
      simp only [List.append_nil, List.getElem?_eq_none (Nat.le_refl _)]
      have e : pre = s.routes := by simpa using hs.symm
      rw [survivors, List.append_nil, e, ← h.ids]
    | cons r t =>
      have hget : s.routes[pre.length]? = some r := by rw [hs]; simp
      rw [Network.removeLoop, hget]
      simp only
      by_cases hm : r.mode = m
      · have hmem : r.id ∈ s.routeIds := by rw [h.ids, hs]; simp
        have hfil := filter_id_split (pre := pre) (r := r) (t := t) (by rw [← hs, ← h.ids]; exact h.nodup)
        rw [if_pos hm, removeRoute_eq h, if_pos hmem, hs, hfil]
        simp only
        have hwf : Network.Wf (K := K)
            { graph := s.graph, routes := pre ++ t, routeIds := (pre ++ t).map Route.id, modes := s.modes } := by
          refine ⟨rfl, ?_, h.modes⟩
          have h3 : (s.routes.map Route.id).Nodup := h.ids ▸ h.nodup
          rw [hs] at h3
          refine h3.sublist ?_
          exact List.Sublist.map _ (List.Sublist.append_left (List.sublist_cons_self r t) pre)
        cases t with
        | nil =>
          have : Network.removeLoop m fuel (pre.length + 1)
              { graph := s.graph, routes := pre ++ [], routeIds := (pre ++ []).map Route.id, modes := s.modes } =
              ({ graph := s.graph, routes := pre ++ [], routeIds := (pre ++ []).map Route.id, modes := s.modes }, none) := by
            cases fuel with
            | zero => rfl
            | succ f =>
              rw [Network.removeLoop]
              have : (pre ++ ([] : List (Route K)))[pre.length + 1]? = none := by simp
              simp only [this]
          rw [this]
          simp [survivors, hm]
        | cons r2 t2 =>
          have := ih (pre ++ [r2]) t2 _ hwf (by simp) (by simp at hf; omega)
          simp only [List.length_append, List.length_cons, List.length_nil, Nat.zero_add] at this
          rw [this]
          simp [survivors, hm]
      · rw [if_neg hm]
        have := ih (pre ++ [r]) t s h (by simp [hs]) (by simp at hf; omega)
        simp only [List.length_append, List.length_cons, List.length_nil, Nat.zero_add] at this
        rw [this]
        cases t <;> simp [survivors, hm]

theorem ModesOk.filter {l : List (Mode K)} (h : ModesOk l) (m : Mode K) : ModesOk (l.filter (· ≠ m)) := by
  rcases h with h | ⟨a, b, rfl, h1, h2⟩
  · exact Or.inl (Nat.le_trans (List.length_filter_le _ _) h)
  · by_cases ha : a = m
    · left
      rw [List.filter_cons_of_neg (by simpa using ha)]
      exact Nat.le_trans (List.length_filter_le _ _) (by simp)
    · rw [List.filter_cons_of_pos (by simpa using ha)]
      by_cases hb : b = m
      · left
        rw [List.filter_cons_of_neg (by simpa using hb)]
        simp
      · rw [List.filter_cons_of_pos (by simpa using hb)]
        exact Or.inr ⟨a, b, rfl, h1, h2⟩

theorem removeTransportMode_eq {s : Network K} (h : s.Wf) (m : Mode K) :
    s.removeTransportMode m =
      ({ s with modes := s.modes.filter (· ≠ m), routes := survivors m s.routes,
                routeIds := (survivors m s.routes).map Route.id }, none) := by
  unfold Network.removeTransportMode
  have := removeLoop_eq m s.routes.length [] s.routes { s with modes := s.modes.filter (· ≠ m) }
    ⟨h.ids, h.nodup, h.modes.filter m⟩ rfl (Nat.le_refl _)
  simpa using this

theorem survivors_sublist (m : Mode K) (l : List (Route K)) : (survivors m l).Sublist l := by
  induction l using survivors.induct m with
  | case1 => simp [survivors]
  | case2 r h => simp [survivors, h]
  | case3 r h => simp [survivors, h]
  | case4 r r' t h ih => rw [survivors, if_pos h]; exact (ih.cons_cons _).cons _
  | case5 r r' t h ih => rw [survivors, if_neg h]; exact ih.cons_cons _

theorem Network.Wf.init (g : Graph K) : (Network.init g).Wf := ⟨rfl, by simp [Network.init], Or.inl (by simp [Network.init])⟩

theorem Network.Wf.addMode {s : Network K} (h : s.Wf) (m : Mode K) : (s.addTransportMode m).1.Wf := by
  classical
  rw [addTransportMode_eq h.modes]
  split
  · exact h
  · split
    · next h1 => exact ⟨h.ids, h.nodup, h1⟩
    · split <;> exact h

theorem Network.Wf.addRoute {s : Network K} (h : s.Wf) (r : Route K) : (s.addRoute r).1.Wf := by
  classical
  rw [addRoute_eq h.modes]
  split
  · exact h
  · split
    · exact h
    · next hid =>
      have hids : s.routeIds ++ [r.id] = (s.routes ++ [r]).map Route.id := by simp [h.ids]
      have hnd : (s.routeIds ++ [r.id]).Nodup := by
        rw [List.nodup_append]
        refine ⟨h.nodup, by simp, ?_⟩
        rintro a ha b hb rfl
        exact hid (by simpa using (List.mem_singleton.1 hb) ▸ ha)
      split
      · exact ⟨hids, hnd, h.modes⟩
      · split
        · next h1 => exact ⟨hids, hnd, h1⟩
        · split <;> exact h

theorem Network.Wf.removeRoute {s : Network K} (h : s.Wf) (id : Str) : (s.removeRoute id).1.Wf := by
  rw [removeRoute_eq h]
  split
  · refine ⟨rfl, ?_, h.modes⟩
    have h3 : (s.routes.map Route.id).Nodup := h.ids ▸ h.nodup
    exact h3.sublist (List.Sublist.map _ List.filter_sublist)
  · exact h

theorem Network.Wf.removeMode {s : Network K} (h : s.Wf) (m : Mode K) : (s.removeTransportMode m).1.Wf := by
  rw [removeTransportMode_eq h]
  refine ⟨rfl, ?_, h.modes.filter m⟩
  have h3 : (s.routes.map Route.id).Nodup := h.ids ▸ h.nodup
  exact h3.sublist (List.Sublist.map _ (survivors_sublist m _))

theorem Network.Reachable.wf {g : Graph K} {s : Network K} (h : Network.Reachable g s) : s.Wf := by
  induction h with
  | init => exact Network.Wf.init g
  | call _ c ih =>
    cases c with
    | addRoute r => exact ih.addRoute r
    | removeRoute id => exact ih.removeRoute id
    | addMode m => exact ih.addMode m
    | removeMode m => exact ih.removeMode m

theorem Network.Reachable.graph {g : Graph K} {s : Network K} (h : Network.Reachable g s) : s.graph = g := by
  classical
  induction h with
  | init => rfl
  | call hs c ih =>
    have hw := hs.wf
    cases c with
    | addRoute r =>
      simp only [NetCall.run]
      rw [addRoute_eq hw.modes]
      repeat' split
      all_goals exact ih
    | removeRoute id =>
      simp only [NetCall.run]
      rw [removeRoute_eq hw]
      split <;> exact ih
    | addMode m =>
      simp only [NetCall.run]
      rw [addTransportMode_eq hw.modes]
      repeat' split
      all_goals exact ih
    | removeMode m =>
      simp only [NetCall.run]
      rw [removeTransportMode_eq hw]
      exact ih

end

end Sidermit
