import Verif.Proofs.HyperPaths
import Verif.Proofs.ExtEdges
import Verif.Proofs.Mode

/-!
The extended graph suits the hyperpath search; the validation of the network; all pairs.
-/

set_option linter.unusedSectionVars false

namespace Sidermit

variable {K : Type} [Field K] [LinearOrder K]

/-! ### nodes of the extended graph -/

theorem mem_allNodes {nodes : ENodes K} (x : ENode K) : x ∈ allNodes nodes ↔
    (∃ c ∈ Dict.keys nodes, x = .city c) ∨ (∃ s ∈ stopsOf nodes, x = .stop s) ∨
    (∃ e ∈ entriesOf nodes, x = .route e.node) := by
  unfold allNodes stopsOf entriesOf Dict.keys
  simp only [List.mem_flatMap, List.mem_cons, List.mem_map]
  constructor
  · rintro ⟨p, hp, rfl | ⟨q, hq, rfl | ⟨e, he, rfl⟩⟩⟩
    · exact Or.inl ⟨_, ⟨p, hp, rfl⟩, rfl⟩
    · exact Or.inr (Or.inl ⟨_, ⟨p, hp, q, hq, rfl⟩, rfl⟩)
    · exact Or.inr (Or.inr ⟨e, ⟨p, hp, q, hq, he⟩, rfl⟩)
  · rintro (⟨_, ⟨p, hp, rfl⟩, rfl⟩ | ⟨_, ⟨p, hp, q, hq, rfl⟩, rfl⟩ | ⟨e, ⟨p, hp, q, hq, he⟩, rfl⟩)
    · exact ⟨p, hp, Or.inl rfl⟩
    · exact ⟨p, hp, Or.inr ⟨q, hq, Or.inl rfl⟩⟩
    · exact ⟨p, hp, Or.inr ⟨q, hq, Or.inr ⟨e, he, rfl⟩⟩⟩

/-- the three kinds of nodes apart -/
theorem allNodes_perm (nodes : ENodes K) : (allNodes nodes).Perm
    ((Dict.keys nodes).map .city ++ ((stopsOf nodes).map .stop ++ (entriesOf nodes).map fun e => .route e.node)) := by
  unfold allNodes stopsOf entriesOf
  have hin : ∀ l : List (StopNode K × List (RouteEntry K)), (l.flatMap fun q => .stop q.1 :: q.2.map fun e => .route e.node).Perm
      ((Dict.keys l).map (ENode.stop (K := K)) ++ (l.flatMap fun q => q.2).map fun e => .route e.node) := by
    intro l
    induction l with
    | nil => simp [Dict.keys]
    | cons a t ih =>
      unfold Dict.keys at ih ⊢
      simp only [List.flatMap_cons, List.map_cons, List.map_append, List.cons_append]
      refine List.Perm.cons _ ?_
      refine (List.Perm.append_left _ ih).trans ?_
      rw [← List.append_assoc, ← List.append_assoc]
      exact List.Perm.append_right _ List.perm_append_comm
  induction nodes with
  | nil => simp [Dict.keys]
  | cons a t ih =>
    unfold Dict.keys at ih hin ⊢
    simp only [List.flatMap_cons, List.map_cons, List.map_append, List.cons_append]
    refine List.Perm.cons _ ?_
    refine (List.Perm.append (hin a.2) ih).trans ?_
    rw [List.append_assoc]
    generalize List.map ENode.stop (List.map Prod.fst a.2) = A
    generalize List.map (fun e : RouteEntry K => ENode.route e.node) (List.flatMap (fun q => q.2) a.2) = B
    generalize List.map ENode.city (List.map Prod.fst t) = C
    generalize List.map (ENode.stop (K := K)) (List.flatMap _ t) = D
    generalize List.map _ (List.flatMap _ t) = E
    calc A ++ (B ++ (C ++ (D ++ E)))
        _ = A ++ ((B ++ C) ++ (D ++ E)) := by simp
        _ |>.Perm (A ++ ((C ++ B) ++ (D ++ E))) := List.Perm.append_left _ (List.Perm.append_right _ List.perm_append_comm)
        _ = (A ++ C) ++ ((B ++ D) ++ E) := by simp
        _ |>.Perm ((C ++ A) ++ ((D ++ B) ++ E)) :=
          List.Perm.append List.perm_append_comm (List.Perm.append_right _ List.perm_append_comm)
        _ = C ++ (A ++ D ++ (B ++ E)) := by simp

theorem allNodes_nodup {nodes : ENodes K} (h1 : (Dict.keys nodes).Nodup) (h2 : (stopsOf nodes).Nodup)
    (h3 : ((entriesOf nodes).map RouteEntry.node).Nodup) : (allNodes nodes).Nodup := by
  rw [(allNodes_perm nodes).nodup_iff, List.nodup_append, List.nodup_append]
  refine ⟨h1.map (fun a b hab => by cases hab; rfl), ⟨h2.map (fun a b hab => by cases hab; rfl), ?_, ?_⟩, ?_⟩
  · have : (entriesOf nodes).map (fun e => ENode.route e.node) = ((entriesOf nodes).map RouteEntry.node).map .route := by
      rw [List.map_map]; rfl
    rw [this]
    exact h3.map (fun a b hab => by cases hab; rfl)
  · intro a ha b hb hab
    simp only [List.mem_map] at ha hb
    obtain ⟨_, _, rfl⟩ := ha
    obtain ⟨_, _, rfl⟩ := hb
    cases hab
  · intro a ha b hb hab
    simp only [List.mem_append, List.mem_map] at ha hb
    obtain ⟨_, _, rfl⟩ := ha
    rcases hb with ⟨_, _, rfl⟩ | ⟨_, _, rfl⟩ <;> cases hab

variable [IsStrictOrderedRing K]

theorem legLoop_nonneg [PyMath K] (hsqrt : ∀ y : K, 0 ≤ PyMath.sqrt y) (nodes : List (Node K)) (a b : Int) (final : K × K) :
    ∀ (l : List Int) (c : Bool) (prev : K × K) (dist : K), 0 ≤ dist → 0 ≤ legLoop nodes a b final l c prev dist := by
  intro l
  induction l with
  | nil => intro c prev dist h; exact h
  | cons n t ih =>
    intro c prev dist h
    have hseg : ∀ p q : K × K, 0 ≤ segment p q := fun p q => hsqrt _
    unfold legLoop
    split
    · exact ih _ _ _ h
    · split
      · exact add_nonneg h (hseg _ _)
      · split
        · split
          · exact ih _ _ _ (add_nonneg h (hseg _ _))
          · exact ih _ _ _ h
        · exact ih _ _ _ h

/-- the extended graph suits the search -/
theorem ExtSpec.searchable [PyMath K] {g : Graph K} {routes : List (Route K)} {sPTP : K} {freq : Dict Str K} {x : ExtGraph K}
    {entries : List (RouteEntry K)} (h : ExtSpec g routes sPTP freq x entries) (hm : ∀ r ∈ routes, r.mode.Runs)
    (hf : ∀ r ∈ routes, 0 ≤ freq.getD r.id 0) (hp : 0 ≤ sPTP) (hsqrt : ∀ y : K, 0 ≤ PyMath.sqrt y) {pas : Passenger K}
    (hpv : 0 < pas.pv) (hpw : 0 < pas.pw) (hpa : 0 ≤ pas.pa) : Searchable (allNodes x.nodes) x.edges pas := by
  have hroute : ∀ e ∈ entries, e.node.route ∈ routes ∧ e.node.stop.mode = e.node.route.mode := fun e he =>
    ⟨List.mem_of_getElem? (h.ents.owner e he), (h.ents.stop e he).2⟩
  have hstop : ∀ s ∈ stopsOf x.nodes, s.mode.Runs := by
    intro s hs
    obtain ⟨e, he, rfl⟩ := (h.nodes.mem_stops s).1 hs
    rw [(hroute e he).2]
    exact hm _ (hroute e he).1
  have hes : ∀ e ∈ entries, e.node.stop ∈ stopsOf x.nodes := fun e he => (h.nodes.mem_stops _).2 ⟨e, he, rfl⟩
  have hin : ∀ e ∈ entries, e ∈ entriesOf x.nodes := fun e he => (h.nodes.mem_entries e).2 he
  constructor
  · exact allNodes_nodup h.nodes.ok.keys h.nodes.nodup_stops ((h.nodes.perm.map RouteEntry.node).nodup_iff.2 h.ents.nodup)
  · intro e he
    rw [h.mem_edges] at he
    rw [mem_allNodes, mem_allNodes]
    rcases he with ⟨s, hs, rfl | rfl⟩ | ⟨n, hn, _, rfl⟩ | ⟨n, hn, _, rfl⟩ | ⟨n, hn, p, hpr, rfl⟩
    · exact ⟨Or.inl ⟨_, (h.nodes.mem_cities _).2 ⟨s, hs, rfl⟩, rfl⟩, Or.inr (Or.inl ⟨s, hs, rfl⟩)⟩
    · exact ⟨Or.inr (Or.inl ⟨s, hs, rfl⟩), Or.inl ⟨_, (h.nodes.mem_cities _).2 ⟨s, hs, rfl⟩, rfl⟩⟩
    · exact ⟨Or.inr (Or.inl ⟨_, hes n hn, rfl⟩), Or.inr (Or.inr ⟨n, hin n hn, rfl⟩)⟩
    · exact ⟨Or.inr (Or.inr ⟨n, hin n hn, rfl⟩), Or.inr (Or.inl ⟨_, hes n hn, rfl⟩)⟩
    · obtain ⟨⟨e', he', rfl⟩, _⟩ := (h.ents.prev n hn p).1 hpr
      exact ⟨Or.inr (Or.inr ⟨e', hin e' he', rfl⟩), Or.inr (Or.inr ⟨n, hin n hn, rfl⟩)⟩
  · exact h.edges_nodup
  · intro e he
    rw [h.mem_edges] at he
    rcases he with ⟨s, hs, rfl | rfl⟩ | ⟨n, hn, _, rfl⟩ | ⟨n, hn, _, rfl⟩ | ⟨n, hn, p, hpr, rfl⟩ <;> simp
  · intro e he hb
    rw [h.mem_edges] at he
    rcases he with ⟨s, hs, rfl | rfl⟩ | ⟨n, hn, _, rfl⟩ | ⟨n, hn, _, rfl⟩ | ⟨n, hn, p, hpr, rfl⟩
    · cases hb
    · cases hb
    · obtain ⟨h1, h2⟩ := hroute n hn
      refine ⟨rfl, ?_, _, rfl, (hstop _ (hes n hn)).theta⟩
      simp only [lineFreq, Option.getD_some]
      exact div_nonneg (hf _ h1) (hm _ h1).lines.le
    · cases hb
    · cases hb
  · intro e he hb
    rw [h.mem_edges] at he
    rcases he with ⟨s, hs, rfl | rfl⟩ | ⟨n, hn, _, rfl⟩ | ⟨n, hn, _, rfl⟩ | ⟨n, hn, p, hpr, rfl⟩
    · cases hb
    · cases hb
    · exact ⟨_, rfl⟩
    · cases hb
    · cases hb
  · intro e he hb
    rw [h.mem_edges] at he
    rcases he with ⟨s, hs, rfl | rfl⟩ | ⟨n, hn, _, rfl⟩ | ⟨n, hn, _, rfl⟩ | ⟨n, hn, p, hpr, rfl⟩
    · cases hb
    · cases hb
    · cases hb
    · exact ⟨_, rfl⟩
    · cases hb
  · intro e he
    rw [h.mem_edges] at he
    rcases he with ⟨s, hs, rfl | rfl⟩ | ⟨n, hn, _, rfl⟩ | ⟨n, hn, _, rfl⟩ | ⟨n, hn, p, hpr, rfl⟩
    · exact div_nonneg (hstop s hs).tat (by norm_num)
    · exact div_nonneg (hstop s hs).tat (by norm_num)
    · exact le_refl _
    · exact div_nonneg hp (by norm_num)
    · exact div_nonneg (legLoop_nonneg hsqrt _ _ _ _ _ _ _ _ (le_refl _)) (hstop _ (hes n hn)).speed.le
  · exact hpv
  · exact hpw
  · exact hpa

/-! ### city nodes by id -/

theorem cityOf_aux (id : Int) : ∀ (l : List (CityNode K)) (acc : Option (CityNode K)),
    (∃ c ∈ l, c.node.id = id ∧ l.foldl (fun acc c => if id = c.node.id then some c else acc) acc = some c) ∨
    ((∀ c ∈ l, c.node.id ≠ id) ∧ l.foldl (fun acc c => if id = c.node.id then some c else acc) acc = acc) := by
  intro l
  induction l with
  | nil => intro acc; right; simp
  | cons a t ih =>
    intro acc
    rw [List.foldl_cons]
    rcases ih (if id = a.node.id then some a else acc) with ⟨c, hc, h1, h2⟩ | ⟨h1, h2⟩
    · exact Or.inl ⟨c, List.mem_cons_of_mem _ hc, h1, h2⟩
    · by_cases ha : id = a.node.id
      · left
        refine ⟨a, List.mem_cons_self, ha.symm, ?_⟩
        rw [h2, if_pos ha]
      · right
        refine ⟨?_, ?_⟩
        · intro c hc
          rcases List.mem_cons.1 hc with rfl | hc
          · exact fun hh => ha hh.symm
          · exact h1 c hc
        · rw [h2, if_neg ha]

/-- the city nodes of the graph have different ids -/
def CityIds (nodes : ENodes K) : Prop := ∀ c ∈ Dict.keys nodes, ∀ c' ∈ Dict.keys nodes, c.node.id = c'.node.id → c = c'

theorem cityOf_eq_some {nodes : ENodes K} (hn : CityIds nodes) (id : Int) (c : CityNode K) :
    cityOf nodes id = some c ↔ c ∈ Dict.keys nodes ∧ c.node.id = id := by
  unfold cityOf
  rcases cityOf_aux id (Dict.keys nodes) none with ⟨c', h1, h2, h3⟩ | ⟨h1, h2⟩
  · rw [h3]
    constructor
    · intro h; cases h; exact ⟨h1, h2⟩
    · rintro ⟨h4, h5⟩
      rw [hn c' h1 c h4 (h2.trans h5.symm)]
  · rw [h2]
    constructor
    · intro h; cases h
    · rintro ⟨h4, h5⟩; exact absurd h5 (h1 c h4)

/-- the dictionary of nodes holds each stop under its own city node -/
structure NodesOk (nodes : ENodes K) : Prop where
  keys : (Dict.keys nodes).Nodup
  ids : CityIds nodes
  city : ∀ p ∈ nodes, ∀ q ∈ p.2, q.1.city = p.1

theorem mem_stopsAt {nodes : ENodes K} (hn : NodesOk nodes) {c : CityNode K} (s : StopNode K) :
    s ∈ stopsAt nodes (some c) ↔ s ∈ stopsOf nodes ∧ s.city = c := by
  unfold stopsAt stopsOf Dict.getD
  simp only [List.mem_flatMap]
  constructor
  · intro hs
    cases hc : Dict.get? nodes c with
    | none => rw [hc] at hs; simp [Dict.keys] at hs
    | some v =>
      rw [hc] at hs
      simp only [Option.getD_some] at hs
      have hm := Dict.mem_of_get? _ hc
      refine ⟨⟨_, hm, hs⟩, ?_⟩
      unfold Dict.keys at hs
      obtain ⟨q, hq, rfl⟩ := List.mem_map.1 hs
      exact hn.city _ hm q hq
  · rintro ⟨⟨p, hp, hs⟩, rfl⟩
    have h1 : p.1 = s.city := by
      have hs' := hs
      unfold Dict.keys at hs'
      obtain ⟨q, hq, rfl⟩ := List.mem_map.1 hs'
      exact (hn.city p hp q hq).symm
    rw [Dict.get?_of_mem nodes hn.keys (k := s.city) (v := p.2) (by rw [← h1]; exact hp)]
    exact hs

/-! ### validation -/

theorem no_strategy_without_dest {edges : List (EEdge K)} {pas : Passenger K} {o : Option (CityNode K)} {x : ENode K} {c : K}
    (h : Strategy edges pas o none x c) : False := by
  induction h with
  | arrive d hd => cases hd
  | go _ _ _ _ _ _ _ ih => exact ih
  | wait s l hne _ _ _ ih =>
    obtain ⟨p, hp⟩ := List.exists_mem_of_ne_nil _ hne
    exact ih p hp

theorem checkPair_eq {nodes : ENodes K} {edges : List (EEdge K)} {pas : Passenger K}
    (hg : Searchable (allNodes nodes) edges pas) (hn : NodesOk nodes) (o d : Int) :
    checkPair nodes edges pas o d = .ok () ∧ Connected nodes edges pas o d ∨
    checkPair nodes edges pas o d = .error .TransportNetwork ∧ ¬ Connected nodes edges pas o d := by
  have hg' : HInput.Good ⟨nodes, edges, pas, cityOf nodes o, cityOf nodes d⟩ := hg
  obtain ⟨st, Q, hF, hb⟩ := buildHyperpath_spec hg'
  unfold checkPair
  simp only [hb, py_ok_bind]
  have hfin : ∀ s, (finalLabel ⟨nodes, edges, pas, cityOf nodes o, cityOf nodes d⟩ st (.stop s) ≠ ⊤ ↔ st.best (.stop s) ≠ ⊤) := by
    intro s
    rw [finalLabel_eq, WithTop.add_ne_top]
    simp
  simp only [hfin]
  by_cases hc : ∃ s ∈ stopsAt nodes (cityOf nodes o), st.best (.stop s) ≠ ⊤
  · left
    refine ⟨by unfold raiseIf; rw [if_neg (not_not.2 hc)], ?_⟩
    obtain ⟨s, hs, hbest⟩ := hc
    cases ho : cityOf nodes o with
    | none => rw [ho] at hs; simp [stopsAt] at hs
    | some co =>
      rw [ho] at hs
      obtain ⟨h1, h2⟩ := (mem_stopsAt hn s).1 hs
      have hin := hF.all (.stop s) (mem_allNodes_stop hs) hbest
      have hstr := strategy_of_best hg' hF _ _ (le_refl _) hin
      simp only [ho] at hstr
      cases hd : cityOf nodes d with
      | none =>
        rw [hd] at hstr
        exact (no_strategy_without_dest hstr).elim
      | some cd =>
        rw [hd] at hstr
        obtain ⟨a1, a2⟩ := (cityOf_eq_some hn.ids o co).1 ho
        obtain ⟨b1, b2⟩ := (cityOf_eq_some hn.ids d cd).1 hd
        exact ⟨co, a1, a2, cd, b1, b2, s, h1, h2, _, hstr⟩
  · right
    refine ⟨by unfold raiseIf; rw [if_pos hc], ?_⟩
    rintro ⟨co, a1, a2, cd, b1, b2, s, h1, h2, c, hstr⟩
    apply hc
    rw [(cityOf_eq_some hn.ids o co).2 ⟨a1, a2⟩]
    refine ⟨s, (mem_stopsAt hn s).2 ⟨h1, h2⟩, ?_⟩
    have := best_le_strategy (h := ⟨nodes, edges, pas, cityOf nodes o, cityOf nodes d⟩) hg' hF (x := .stop s) (c := c) (by
      simp only [(cityOf_eq_some hn.ids o co).2 ⟨a1, a2⟩, (cityOf_eq_some hn.ids d cd).2 ⟨b1, b2⟩]
      exact hstr)
    intro hh
    rw [hh] at this
    simp at this

theorem forM_dichotomy {α : Type} {f : α → Py Unit} {P : α → Prop} {err : PyErr}
    (hf : ∀ a, f a = .ok () ∧ P a ∨ f a = .error err ∧ ¬ P a) (l : List α) :
    l.forM f = .ok () ∧ (∀ a ∈ l, P a) ∨ l.forM f = .error err ∧ ¬ ∀ a ∈ l, P a := by
  induction l with
  | nil => left; exact ⟨rfl, by simp⟩
  | cons a t ih =>
    have hstep : (a :: t).forM f = (f a >>= fun _ => t.forM f) := rfl
    rw [hstep]
    rcases hf a with ⟨h1, h2⟩ | ⟨h1, h2⟩
    · rw [h1, py_ok_bind]
      rcases ih with ⟨h3, h4⟩ | ⟨h3, h4⟩
      · left
        refine ⟨h3, ?_⟩
        intro b hb
        rcases List.mem_cons.1 hb with rfl | hb
        · exact h2
        · exact h4 b hb
      · right
        exact ⟨h3, fun hh => h4 fun b hb => hh b (List.mem_cons_of_mem _ hb)⟩
    · right
      rw [h1]
      exact ⟨rfl, fun hh => h2 (hh a List.mem_cons_self)⟩

theorem checkAll_eq {nodes : ENodes K} {edges : List (EEdge K)} {pas : Passenger K}
    (hg : Searchable (allNodes nodes) edges pas) (hn : NodesOk nodes) (od : Dict Int (Dict Int K)) :
    od.forM (checkRow nodes edges pas) = .ok () ∧ (∀ p ∈ od, ∀ q ∈ p.2, q.2 ≠ 0 → Connected nodes edges pas p.1 q.1) ∨
    od.forM (checkRow nodes edges pas) = .error .TransportNetwork ∧
      ¬ ∀ p ∈ od, ∀ q ∈ p.2, q.2 ≠ 0 → Connected nodes edges pas p.1 q.1 := by
  apply forM_dichotomy
  intro p
  unfold checkRow
  apply forM_dichotomy
  intro q
  unfold checkCell
  split
  · rename_i hq
    rcases checkPair_eq hg hn p.1 q.1 with ⟨h1, h2⟩ | ⟨h1, h2⟩
    · exact Or.inl ⟨h1, fun _ => h2⟩
    · exact Or.inr ⟨h1, fun hh => h2 (hh hq)⟩
  · rename_i hq
    exact Or.inl ⟨rfl, fun hh => absurd hh hq⟩

theorem addModes_eq : ∀ (l : List (Mode K)) (s : ModeManager K),
    ((s.names ++ l.map Mode.name).Nodup →
      l.foldlM addModePy s = .ok { names := s.names ++ l.map Mode.name, modes := s.modes ++ l }) ∧
    (s.names.Nodup → ¬ (s.names ++ l.map Mode.name).Nodup → l.foldlM addModePy s = .error .AddMode) := by
  intro l
  induction l with
  | nil =>
    intro s
    simp only [List.map_nil, List.append_nil, List.foldlM_nil]
    exact ⟨fun _ => rfl, fun h1 h2 => absurd h1 h2⟩
  | cons m t ih =>
    intro s
    rw [List.foldlM_cons]
    by_cases hm : m.name ∈ s.names
    · have h1 : addModePy s m = .error .AddMode := by
        unfold addModePy ModeManager.addMode
        rw [if_pos hm]
      rw [h1]
      refine ⟨?_, fun _ _ => rfl⟩
      intro hnd
      rw [List.nodup_append] at hnd
      exact absurd rfl (hnd.2.2 m.name hm m.name (by simp))
    · have h1 : addModePy s m = .ok { names := s.names ++ [m.name], modes := s.modes ++ [m] } := by
        unfold addModePy ModeManager.addMode
        rw [if_neg hm]
      rw [h1, py_ok_bind]
      obtain ⟨h2, h3⟩ := ih { names := s.names ++ [m.name], modes := s.modes ++ [m] }
      simp only [List.append_assoc, List.singleton_append] at h2 h3
      constructor
      · intro hnd
        exact h2 (by simpa using hnd)
      · intro hs hnd
        apply h3
        · rw [List.nodup_append]
          refine ⟨hs, by simp, ?_⟩
          intro a ha b hb hab
          rw [List.mem_singleton] at hb
          exact hm (hb ▸ hab ▸ ha)
        · simpa using hnd

theorem modesOf_aux : ∀ (l : List (StopNode K)) (acc : List (Mode K)), acc.Nodup →
    (l.foldl (fun l s => if s.mode ∈ l then l else l ++ [s.mode]) acc).Nodup ∧
    ∀ m, m ∈ l.foldl (fun l s => if s.mode ∈ l then l else l ++ [s.mode]) acc ↔ m ∈ acc ∨ ∃ s ∈ l, s.mode = m := by
  intro l
  induction l with
  | nil => intro acc h; simpa using h
  | cons s t ih =>
    intro acc h
    rw [List.foldl_cons]
    have hacc : (if s.mode ∈ acc then acc else acc ++ [s.mode]).Nodup := by
      split
      · exact h
      · rename_i hs
        rw [List.nodup_append]
        refine ⟨h, by simp, ?_⟩
        intro a ha b hb hab
        rw [List.mem_singleton] at hb
        exact hs (hb ▸ hab ▸ ha)
    obtain ⟨h1, h2⟩ := ih _ hacc
    refine ⟨h1, ?_⟩
    intro m
    rw [h2]
    simp only [List.mem_cons, exists_eq_or_imp]
    split
    · rename_i hs
      constructor
      · rintro (h | h)
        · exact Or.inl h
        · exact Or.inr (Or.inr h)
      · rintro (h | h | h)
        · exact Or.inl h
        · exact Or.inl (h ▸ hs)
        · exact Or.inr h
    · rw [List.mem_append, List.mem_singleton]
      constructor
      · rintro ((h | h) | h)
        · exact Or.inl h
        · exact Or.inr (Or.inl h.symm)
        · exact Or.inr (Or.inr h)
      · rintro (h | h | h)
        · exact Or.inl (Or.inl h)
        · exact Or.inl (Or.inr h.symm)
        · exact Or.inr h

theorem modesOf_spec (nodes : ENodes K) : (modesOf nodes).Nodup ∧ ∀ m, m ∈ modesOf nodes ↔ ∃ s ∈ stopsOf nodes, s.mode = m := by
  have := modesOf_aux (stopsOf nodes) [] List.nodup_nil
  simpa [modesOf] using this

/-- the validation of the modes -/
theorem modes_check (nodes : ENodes K) :
    ((modesOf nodes).foldlM addModePy { names := [], modes := [] } >>= fun m => m.isValidToAssignmentStep) = .ok true ∧
      ModesAssignable (stopsOf nodes) ∨
    (∃ err, err ∈ [PyErr.AddMode, PyErr.TransportNetwork] ∧
      ((modesOf nodes).foldlM addModePy { names := [], modes := [] } >>= fun m => m.isValidToAssignmentStep) = .error err) ∧
      ¬ ModesAssignable (stopsOf nodes) := by
  obtain ⟨hnd, hmem⟩ := modesOf_spec nodes
  obtain ⟨h1, h2⟩ := addModes_eq (modesOf nodes) { names := [], modes := [] }
  simp only [List.nil_append] at h1 h2
  generalize hL : modesOf nodes = L at *
  have hiff : ModesAssignable (stopsOf nodes) ↔ (L.map Mode.name).Nodup ∧
      ((∃ m, L = [m]) ∨ (∃ m m', L = [m, m'] ∧ (m.d = 1 ∨ m'.d = 1))) := by
    unfold ModesAssignable
    simp only [← hmem]
    have hstops : ∀ P : Mode K → Prop, (∀ s ∈ stopsOf nodes, P s.mode) ↔ ∀ m ∈ L, P m := by
      intro P
      constructor
      · intro h m hm
        obtain ⟨s, hs, rfl⟩ := (hmem m).1 hm
        exact h s hs
      · intro h s hs
        exact h _ ((hmem _).2 ⟨s, hs, rfl⟩)
    constructor
    · rintro (⟨m, h1, h2⟩ | ⟨m, m', h1, h2, h3, h4, h5⟩)
      · rw [hstops (fun x => x = m)] at h2
        have : L = [m] := by
          rcases L with _ | ⟨a, _ | ⟨b, t⟩⟩
          · simp at h1
          · rw [h2 a (by simp)]
          · have ha := h2 a (by simp)
            have hb := h2 b (by simp)
            rw [ha, hb] at hnd
            simp at hnd
        subst this
        exact ⟨by simp, Or.inl ⟨m, rfl⟩⟩
      · rw [hstops (fun x => x = m ∨ x = m')] at h4
        have hne : m ≠ m' := fun h => h1 (h ▸ rfl)
        have hlen : L.length ≤ 2 := by
          have := (hnd.subperm (l₂ := [m, m']) (by intro x hx; simpa using h4 x hx)).length_le
          simpa using this
        rcases L with _ | ⟨a, _ | ⟨b, _ | ⟨c, t⟩⟩⟩
        · simp at h2
        · simp only [List.mem_singleton] at h2 h3
          exact absurd (h2.trans h3.symm) hne
        · have ha := h4 a (by simp)
          have hb := h4 b (by simp)
          have hab : a ≠ b := by simpa using hnd
          refine ⟨?_, Or.inr ⟨a, b, rfl, ?_⟩⟩
          · rcases ha with rfl | rfl <;> rcases hb with rfl | rfl
            · exact absurd rfl hab
            · simpa using h1
            · simpa using Ne.symm h1
            · exact absurd rfl hab
          · rcases ha with rfl | rfl <;> rcases hb with rfl | rfl
            · exact absurd rfl hab
            · exact h5
            · exact h5.symm
            · exact absurd rfl hab
        · simp at hlen
    · rintro ⟨g1, ⟨m, rfl⟩ | ⟨m, m', rfl, g2⟩⟩
      · left
        refine ⟨m, by simp, ?_⟩
        rw [hstops (fun x => x = m)]
        simp
      · right
        refine ⟨m, m', by simpa using g1, by simp, by simp, ?_, g2⟩
        rw [hstops (fun x => x = m ∨ x = m')]
        simp
  by_cases hn : (L.map Mode.name).Nodup
  · rw [h1 hn, py_ok_bind]
    have hv : ((∃ m, L = [m]) ∨ (∃ m m', L = [m, m'] ∧ (m.d = 1 ∨ m'.d = 1))) ∧
        ModeManager.isValidToAssignmentStep { names := L.map Mode.name, modes := L } = .ok true ∨
        ¬ ((∃ m, L = [m]) ∨ (∃ m m', L = [m, m'] ∧ (m.d = 1 ∨ m'.d = 1))) ∧
        ModeManager.isValidToAssignmentStep { names := L.map Mode.name, modes := L } = .error .TransportNetwork := by
      unfold ModeManager.isValidToAssignmentStep
      clear * -
      rcases L with _ | ⟨a, _ | ⟨b, _ | ⟨c, t⟩⟩⟩
      · simp
      · simp
      · by_cases ha : a.d = 1
        · simp [ha]
        · by_cases hb : b.d = 1
          · simp [hb]
          · simp [ha, hb]
      · simp
    rcases hv with ⟨hv1, hv2⟩ | ⟨hv1, hv2⟩
    · left
      exact ⟨hv2, hiff.2 ⟨hn, hv1⟩⟩
    · right
      exact ⟨⟨.TransportNetwork, by simp, hv2⟩, fun hh => hv1 (hiff.1 hh).2⟩
  · right
    rw [h2 List.nodup_nil hn]
    exact ⟨⟨.AddMode, by simp, rfl⟩, fun hh => hn (hiff.1 hh).1⟩

/-- the validation of the network -/
theorem networkValidator_eq {nodes : ENodes K} {edges : List (EEdge K)} {pas : Passenger K}
    (hg : Searchable (allNodes nodes) edges pas) (hn : NodesOk nodes) (od : Dict Int (Dict Int K)) :
    networkValidator nodes edges pas od = .ok true ∧ ((∀ p ∈ od, ∀ q ∈ p.2, q.2 ≠ 0 → Connected nodes edges pas p.1 q.1) ∧
      ModesAssignable (stopsOf nodes)) ∨
    (∃ err, err ∈ [PyErr.AddMode, PyErr.TransportNetwork] ∧ networkValidator nodes edges pas od = .error err) ∧
      ¬ ((∀ p ∈ od, ∀ q ∈ p.2, q.2 ≠ 0 → Connected nodes edges pas p.1 q.1) ∧ ModesAssignable (stopsOf nodes)) := by
  unfold networkValidator
  rcases checkAll_eq hg hn od with ⟨h1, h2⟩ | ⟨h1, h2⟩
  · rw [h1, py_ok_bind]
    rcases modes_check nodes with ⟨h3, h4⟩ | ⟨⟨err, h3, h4⟩, h5⟩
    · exact Or.inl ⟨h3, h2, h4⟩
    · exact Or.inr ⟨⟨err, h3, h4⟩, fun hh => h5 hh.2⟩
  · right
    rw [h1]
    exact ⟨⟨.TransportNetwork, by simp, rfl⟩, fun hh => h2 hh.1⟩

/-! ### all pairs -/

/-- the cells of the matrix with trips, in order -/
def odTrips (od : Dict Int (Dict Int K)) : List (Int × Int × K) :=
  od.flatMap fun p => (p.2.filter fun q => decide (q.2 ≠ 0)).map fun q => (p.1, q.1, q.2)

/-- the result belongs to the cell -/
def CellResult (nodes : ENodes K) (edges : List (EEdge K)) (pas : Passenger K) (q : Int × Int × K) (e : ODResult K) : Prop :=
  e.origin ∈ Dict.keys nodes ∧ e.origin.node.id = q.1 ∧ e.dest ∈ Dict.keys nodes ∧ e.dest.node.id = q.2.1 ∧ e.vij = q.2.2 ∧
    hyperpathOD ⟨nodes, edges, pas, none, none⟩ e.origin e.dest = .ok (e.res, e.paths)

theorem forall₂_flatten {α β γ : Type} {R : α → β → Prop} {P : γ → List β → Prop} {f : γ → List α}
    (hP : ∀ c l, P c l → List.Forall₂ R (f c) l) {l : List γ} {m : List (List β)} (h : List.Forall₂ P l m) :
    List.Forall₂ R (l.flatMap f) m.flatten := by
  induction h with
  | nil => exact List.Forall₂.nil
  | cons h1 _ ih =>
    rw [List.flatMap_cons, List.flatten_cons]
    exact List.rel_append (hP _ _ h1) ih

theorem allHyperpaths_eq {nodes : ENodes K} {edges : List (EEdge K)} {pas : Passenger K}
    (hg : Searchable (allNodes nodes) edges pas) (hn : NodesOk nodes) (od : Dict Int (Dict Int K)) :
    (networkValidator nodes edges pas od = .ok true → ∃ l, allHyperpaths nodes edges pas od = .ok l ∧
      List.Forall₂ (CellResult nodes edges pas) (odTrips od) l) ∧
    (∀ err, networkValidator nodes edges pas od = .error err → allHyperpaths nodes edges pas od = .error err) := by
  unfold allHyperpaths
  constructor
  · intro hv
    rw [hv, py_ok_bind, if_pos rfl]
    have hconn : ∀ p ∈ od, ∀ q ∈ p.2, q.2 ≠ 0 → Connected nodes edges pas p.1 q.1 := by
      rcases networkValidator_eq hg hn od with ⟨_, h, _⟩ | ⟨⟨err, _, h⟩, _⟩
      · exact h
      · rw [hv] at h; cases h
    have hcell : ∀ p ∈ od, ∀ q ∈ p.2, ∃ l, odCell nodes edges pas p.1 q = .ok l ∧
        List.Forall₂ (CellResult nodes edges pas) (if q.2 ≠ 0 then [(p.1, q.1, q.2)] else []) l := by
      intro p hp q hq
      unfold odCell
      split
      · rename_i hq0
        obtain ⟨co, a1, a2, cd, b1, b2, _⟩ := hconn p hp q hq hq0
        unfold odResult
        rw [(cityOf_eq_some hn.ids _ co).2 ⟨a1, a2⟩, (cityOf_eq_some hn.ids _ cd).2 ⟨b1, b2⟩]
        have hg' : HInput.Good (⟨nodes, edges, pas, none, none⟩ : HInput K) := hg
        obtain ⟨r, paths, h1, _⟩ := hyperpathOD_spec hg' co cd
        simp only [h1, py_ok_bind]
        exact ⟨_, rfl, List.Forall₂.cons ⟨a1, a2, b1, b2, rfl, h1⟩ List.Forall₂.nil⟩
      · exact ⟨_, rfl, List.Forall₂.nil⟩
    have hrow : ∀ p ∈ od, ∃ l, odRow nodes edges pas p = .ok l ∧
        List.Forall₂ (CellResult nodes edges pas) ((p.2.filter fun q => decide (q.2 ≠ 0)).map fun q => (p.1, q.1, q.2)) l := by
      intro p hp
      obtain ⟨m, h1, h2⟩ := mapM_exists (f := odCell nodes edges pas p.1) p.2 (hcell p hp)
      refine ⟨m.flatten, by unfold odRow; rw [h1]; rfl, ?_⟩
      have := forall₂_flatten (f := fun q : Int × K => if q.2 ≠ 0 then [(p.1, q.1, q.2)] else []) (fun _ _ h => h) h2
      have he : (p.2.flatMap fun q : Int × K => if q.2 ≠ 0 then [(p.1, q.1, q.2)] else []) =
          (p.2.filter fun q => decide (q.2 ≠ 0)).map fun q => (p.1, q.1, q.2) := by
        generalize p.2 = l
        clear * -
        induction l with
        | nil => rfl
        | cons a t ih =>
          rw [List.flatMap_cons, ih]
          by_cases ha : a.2 = 0
          · simp [ha]
          · simp [ha]
      rw [← he]
      exact this
    obtain ⟨m, h1, h2⟩ := mapM_exists (f := odRow nodes edges pas) od hrow
    refine ⟨m.flatten, by unfold odAll; rw [h1]; rfl, ?_⟩
    unfold odTrips
    exact forall₂_flatten (fun _ _ h => h) h2
  · intro err herr
    rw [herr]
    rfl

end Sidermit
