import Verif.Proofs.UnitsNet
import Verif.Proofs.Behaviour

/-!
The search of paths in the second description (Spec/Units).
-/

set_option linter.unusedSectionVars false

namespace Sidermit

variable {K : Type} [Field K] [LinearOrder K] [PyMath K] {u : Terms K}

/-- what the search reads -/
def Terms.input (u : Terms K) (h : HInput K) : HInput K :=
  ⟨u.enodes h.nodes, h.edges.map u.edge, u.passenger h.pas, h.origin.map u.city, h.dest.map u.city⟩

/-- the variables of the search -/
structure Terms.State (u : Terms K) (st st' : HState K) : Prop where
  lab : ∀ x, st'.lab (u.enode x) = st.lab x
  labInf : ∀ x, st'.labInf (u.enode x) = st.labInf x
  suc : ∀ x, st'.suc (u.enode x) = (st.suc x).map u.edge
  sucInf : ∀ x, st'.sucInf (u.enode x) = (st.sucInf x).map u.edge
  freq : ∀ x, st'.freq (u.enode x) = st.freq x
  done : st'.done = st.done.map (Option.map u.enode)

/-- the result of the search -/
structure Terms.Found (u : Terms K) (r r' : HResult K) : Prop where
  succ : ∀ x, r'.succ (u.enode x) = (r.succ x).map u.edge
  label : ∀ x, r'.label (u.enode x) = r.label x
  freq : ∀ x, r'.freq (u.enode x) = r.freq x

theorem update_terms {β γ : Type} {φ : β → γ} (h : u.Shape) {f : ENode K → β} {f' : ENode K → γ} (hf : ∀ x, f' (u.enode x) = φ (f x))
    (a : ENode K) (v : β) (x : ENode K) : Function.update f' (u.enode a) (φ v) (u.enode x) = φ (Function.update f a v x) := by
  by_cases hx : x = a
  · subst hx; simp
  · rw [Function.update_of_ne (fun e => hx (h.enode_inj e)), Function.update_of_ne hx, hf]

theorem State.best {st st' : HState K} (hs : u.State st st') (x : ENode K) : st'.best (u.enode x) = st.best x := by
  unfold HState.best
  rw [hs.lab, hs.labInf]

theorem allNodes_terms (x : ENodes K) : allNodes (u.enodes x) = (allNodes x).map u.enode := by
  unfold allNodes Terms.enodes
  conv_lhs => unfold Dict.via
  rw [List.flatMap_map, List.map_flatMap]
  congr 1
  funext p
  simp only [List.map_cons, List.flatMap_map, List.map_flatMap, List.map_map]
  rfl

theorem some_city (h : u.Shape) (c : CityNode K) (o : Option (CityNode K)) : some (u.city c) = o.map u.city ↔ some c = o := by
  cases o with
  | none => simp
  | some b => simp [h.city_inj.eq_iff]

theorem some_node (h : u.Shape) (x : ENode K) (o : Option (CityNode K)) :
    some (u.enode x) = (o.map u.city).map .city ↔ some x = o.map .city := by
  cases o with
  | none => simp
  | some b =>
    have : u.enode (.city b) = .city (u.city b) := rfl
    simp only [Option.map_some, Option.some.injEq, ← this, h.enode_inj.eq_iff]

theorem mem_done (h : u.Shape) (x : ENode K) (l : List (Option (ENode K))) :
    some (u.enode x) ∈ l.map (Option.map u.enode) ↔ some x ∈ l :=
  List.mem_map_of_injective (Option.map_injective h.enode_inj) (a := some x)

theorem initState_terms (h : u.Shape) (d : Option (CityNode K)) : u.State (initState d) (initState (d.map u.city)) := by
  constructor
  · intro x; show (if _ then _ else _) = if _ then _ else _; simp only [some_node h]
  · intro x; show (if _ then _ else _) = if _ then _ else _; simp only [some_node h]
  · intro x; rfl
  · intro x; rfl
  · intro x; rfl
  · rfl

theorem pick_terms (h : u.Shape) {st st' : HState K} (hs : u.State st st') (l : List (ENode K)) :
    pick (l.map u.enode) st' = ((pick l st).1.map u.enode, (pick l st).2) := by
  unfold pick
  refine foldl_image (φ := fun a : Option (ENode K) × WithTop K => (a.1.map u.enode, a.2)) (s := (none, ⊤)) ?_ l
  intro acc x
  unfold pickStep
  rw [State.best hs, hs.done]
  simp only [mem_done h]
  split <;> rfl

theorem edgeTime_terms (h : u.Shape) (i : HInput K) (e : EEdge K) (x : ENode K) :
    edgeTime (u.input i) (u.edge e) (u.enode x) = edgeTime i e x := by
  unfold edgeTime
  show (match e.type with
    | .alighting => match u.enode x with
      | .stop s => if some s.city = i.dest.map u.city then (.ok 0 : Py K) else .ok e.t
      | _ => .error .AttributeError
    | .access => pyDiv (e.t * i.pas.pa) i.pas.pv
    | _ => .ok e.t) = _
  cases e.type with
  | alighting =>
    cases x with
    | stop s =>
      show (if some (u.city s.city) = i.dest.map u.city then _ else _) = _
      simp only [some_city h]
    | _ => rfl
  | _ => rfl

theorem relaxInf_terms (h : u.Shape) (e : EEdge K) (t : K) {st st' : HState K} (hs : u.State st st') :
    u.State (relaxInf e t st) (relaxInf (u.edge e) t st') := by
  unfold relaxInf
  show u.State _ (if e.f = none ∧ (t : WithTop K) < st'.labInf (u.enode e.i) then
    { st' with sucInf := Function.update st'.sucInf (u.enode e.i) ((some e).map u.edge),
               labInf := Function.update st'.labInf (u.enode e.i) (t : WithTop K) } else st')
  rw [hs.labInf]
  split
  · exact ⟨hs.lab, fun x => update_terms (φ := fun y => y) h hs.labInf _ _ x, hs.suc,
      fun x => update_terms h hs.sucInf _ _ x, hs.freq, hs.done⟩
  · exact hs

theorem putLine_terms (h : u.Shape) (e : EEdge K) (l f : K) {st st' : HState K} (hs : u.State st st') :
    u.State (putLine st e l f) (putLine st' (u.edge e) l f) := by
  unfold putLine
  constructor
  · intro x; exact update_terms (φ := fun y => y) h hs.lab _ _ x
  · exact hs.labInf
  · intro x
    have := update_terms (φ := List.map u.edge) h hs.suc e.i (st.suc e.i ++ [e]) x
    rw [List.map_append, ← hs.suc] at this
    exact this
  · exact hs.sucInf
  · intro x
    have := update_terms (φ := fun y => y) h hs.freq e.i (st.freq e.i + f) x
    refine Eq.trans ?_ this
    show Function.update st'.freq (u.enode e.i) (st'.freq (u.enode e.i) + f) _ = _
    rw [hs.freq]
  · exact hs.done

theorem firstLine_terms (h : u.Shape) (i : HInput K) (e : EEdge K) (t f th : K) {st st' : HState K} (hs : u.State st st') :
    PyRel u.State (firstLine i e t f th st) (firstLine (u.input i) (u.edge e) t f th st') := by
  unfold firstLine
  refine (PyRel.refl _).bind ?_
  rintro _ w rfl
  refine (PyRel.refl _).bind ?_
  rintro _ l rfl
  exact .ok (putLine_terms h e l f hs)

theorem moreLine_terms (h : u.Shape) (e : EEdge K) (t f : K) {st st' : HState K} (hs : u.State st st') :
    PyRel u.State (moreLine e t f st) (moreLine (u.edge e) t f st') := by
  unfold moreLine
  show PyRel _ _ (match st'.lab (u.enode e.i) with
    | ⊤ => .error .NotANumber
    | .some l => do
      let l' ← pyDiv (st'.freq (u.enode e.i) * l + f * t) (st'.freq (u.enode e.i) + f)
      return putLine st' (u.edge e) l' f)
  rw [hs.lab, hs.freq]
  cases st.lab e.i with
  | top => exact .error _
  | coe l =>
    refine PyRel.bind (PyRel.refl _) ?_
    rintro _ l' rfl
    exact .ok (putLine_terms h e l' f hs)

theorem relaxLine_terms (h : u.Shape) (i : HInput K) (e : EEdge K) (t : K) {st st' : HState K} (hs : u.State st st') :
    PyRel u.State (relaxLine i e t st) (relaxLine (u.input i) (u.edge e) t st') := by
  unfold relaxLine
  have hth : thetaOf (u.enode e.i) = thetaOf e.i := by
    cases e.i with
    | stop s => exact congrArg Except.ok (h.theta s.mode)
    | _ => rfl
  show PyRel _ _ (match e.f with
    | none => .ok st'
    | some f =>
      if (t : WithTop K) < st'.lab (u.enode e.i) then do
        let theta ← thetaOf (u.enode e.i)
        if st'.freq (u.enode e.i) = 0 ∧ st'.lab (u.enode e.i) = ⊤ ∧ f ≠ 0 then firstLine (u.input i) (u.edge e) t f theta st'
        else if f ≠ 0 then moreLine (u.edge e) t f st'
        else .ok st'
      else .ok st')
  rw [hs.lab, hs.freq, hth]
  cases e.f with
  | none => exact .ok hs
  | some f =>
    simp only
    split
    · refine (PyRel.refl _).bind ?_
      rintro _ th rfl
      split
      · exact firstLine_terms h i e t f _ hs
      · split
        · exact moreLine_terms h e t f hs
        · exact .ok hs
    · exact .ok hs

theorem dropLine_terms (h : u.Shape) (x : ENode K) (b : EEdge K) (t : WithTop K) {st st' : HState K} (hs : u.State st st') :
    PyRel u.State (dropLine x b t st) (dropLine (u.enode x) (u.edge b) t st') := by
  unfold dropLine
  rw [hs.lab, hs.freq]
  show PyRel _ _ (match t, st.lab x, b.f with
    | .some t, .some l, some f => _
    | _, _, _ => _)
  cases t with
  | top => exact .error _
  | coe t =>
    cases st.lab x with
    | top => exact .error _
    | coe l =>
      cases b.f with
      | none => exact .error _
      | some f =>
        refine PyRel.bind (PyRel.refl _) ?_
        rintro _ l' rfl
        refine .ok ⟨?_, hs.labInf, ?_, hs.sucInf, ?_, hs.done⟩
        · intro y; exact update_terms (φ := fun y => y) h hs.lab _ _ y
        · intro y
          have := update_terms (φ := List.map u.edge) h hs.suc x ((st.suc x).erase b) y
          rw [List.map_erase h.edge_inj, ← hs.suc] at this
          exact this
        · intro y; exact update_terms (φ := fun y => y) h hs.freq _ _ y

theorem checkLine_terms (h : u.Shape) (i : HInput K) (e b : EEdge K) {st st' : HState K} (hs : u.State st st') :
    PyRel u.State (checkLine i e b st) (checkLine (u.input i) (u.edge e) (u.edge b) st') := by
  unfold checkLine
  simp only [h.edge_inj.eq_iff]
  split
  · exact .ok hs
  · refine PyRel.bind (PyRel.of_eq (edgeTime_terms h i b e.j)) ?_
    rintro _ tb rfl
    show PyRel _ _ (if st'.best (u.enode b.j) + (tb : WithTop K) ≥ st'.lab (u.enode e.i) then
      dropLine (u.enode e.i) (u.edge b) (st'.best (u.enode b.j) + (tb : WithTop K)) st' else .ok st')
    rw [State.best hs, hs.lab]
    split
    · exact dropLine_terms h _ _ _ hs
    · exact .ok hs

theorem verifyLoop_terms (h : u.Shape) (i : HInput K) (e : EEdge K) : ∀ (fuel k : Nat) {st st' : HState K}, u.State st st' →
    PyRel u.State (verifyLoop i e fuel k st) (verifyLoop (u.input i) (u.edge e) fuel k st') := by
  intro fuel
  induction fuel with
  | zero => intro k st st' hs; exact .ok hs
  | succ n ih =>
    intro k st st' hs
    unfold verifyLoop
    show PyRel _ _ (match (st'.suc (u.enode e.i))[k]? with
      | none => .ok st'
      | some b => do
        let st'' ← checkLine (u.input i) (u.edge e) b st'
        verifyLoop (u.input i) (u.edge e) n (k + 1) st'')
    rw [hs.suc, List.getElem?_map]
    cases (st.suc e.i)[k]? with
    | none => exact .ok hs
    | some b => exact PyRel.bind (checkLine_terms h i e b hs) fun _ _ h' => ih (k + 1) h'

theorem relaxEdge_terms (h : u.Shape) (i : HInput K) (v : K) (e : EEdge K) {st st' : HState K} (hs : u.State st st') :
    PyRel u.State (relaxEdge i v st e) (relaxEdge (u.input i) v st' (u.edge e)) := by
  unfold relaxEdge
  refine PyRel.bind (PyRel.of_eq (edgeTime_terms h i e e.j)) ?_
  rintro _ te rfl
  refine PyRel.bind (relaxLine_terms h i e _ (relaxInf_terms h e _ hs)) ?_
  intro st2 st2' hs2
  have hl : (st2'.suc (u.edge e).i).length = (st2.suc e.i).length := by
    show (st2'.suc (u.enode e.i)).length = _
    rw [hs2.suc, List.length_map]
  rw [hl]
  exact verifyLoop_terms h i e _ 0 hs2

theorem inEdges_terms (h : u.Shape) (i : HInput K) {st st' : HState K} (hs : u.State st st') (j : ENode K) :
    inEdges (u.input i) st' (u.enode j) = (inEdges i st j).map u.edge := by
  unfold inEdges
  show (i.edges.map u.edge).filter _ = _
  rw [List.filter_map]
  congr 1
  refine List.filter_congr fun e _ => ?_
  refine decide_eq_decide.2 ?_
  refine and_congr ?_ (and_congr ?_ h.enode_inj.eq_iff)
  · exact and_congr (not_congr (some_node h _ _)) (not_congr (some_node h _ _))
  · rw [hs.done]
    exact not_congr (mem_done h _ _)

theorem popStep_terms (h : u.Shape) (i : HInput K) (k : Nat) {st st' : HState K} (hs : u.State st st') :
    PyRel u.State (popStep i st k) (popStep (u.input i) st' k) := by
  unfold popStep
  show PyRel _ _ (match pick (allNodes (u.enodes i.nodes)) st' with
    | (none, _) => .ok { st' with done := st'.done ++ [none] }
    | (some j, v) => process (u.input i) st' j v)
  rw [allNodes_terms, pick_terms h hs]
  cases pick (allNodes i.nodes) st with
  | mk o v =>
    cases o with
    | none =>
      refine .ok ⟨hs.lab, hs.labInf, hs.suc, hs.sucInf, hs.freq, ?_⟩
      show st'.done ++ [none] = (st.done ++ [none]).map _
      rw [hs.done, List.map_append]; rfl
    | some j =>
      show PyRel _ (process i st j v) (process (u.input i) st' (u.enode j) v)
      cases v with
      | top => exact .error _
      | coe v =>
        have h1 : u.State { st with done := st.done ++ [some j] } { st' with done := st'.done ++ [some (u.enode j)] } := by
          refine ⟨hs.lab, hs.labInf, hs.suc, hs.sucInf, hs.freq, ?_⟩
          show st'.done ++ [_] = (st.done ++ [some j]).map _
          rw [hs.done, List.map_append]; rfl
        show PyRel _ ((inEdges i { st with done := st.done ++ [some j] } j).foldlM (relaxEdge i v) _)
          ((inEdges (u.input i) { st' with done := st'.done ++ [some (u.enode j)] } (u.enode j)).foldlM (relaxEdge (u.input i) v) _)
        rw [inEdges_terms h i h1]
        refine PyRel.foldlM ?_ (forall₂_image u.edge _) h1
        rintro s s' e _ hr rfl
        exact relaxEdge_terms h i v e hr

theorem mainLoop_terms (h : u.Shape) (i : HInput K) : PyRel u.State (mainLoop i) (mainLoop (u.input i)) := by
  unfold mainLoop
  show PyRel _ _ ((List.range (allNodes (u.enodes i.nodes)).length).foldlM (popStep (u.input i)) (initState (i.dest.map u.city)))
  rw [allNodes_terms, List.length_map]
  refine PyRel.foldlM (Q := fun a b => b = a) ?_ (List.forall₂_same.2 fun _ _ => rfl) (initState_terms h i.dest)
  rintro s s' k _ hr rfl
  exact popStep_terms h i _ hr

theorem stopsAt_terms (h : u.Shape) (x : ENodes K) (c : Option (CityNode K)) :
    stopsAt (u.enodes x) (c.map u.city) = (stopsAt x c).map u.stop := by
  cases c with
  | none => rfl
  | some c =>
    show Dict.keys ((u.enodes x).getD (u.city c) []) = _
    have : (u.enodes x).getD (u.city c) [] = Dict.via u.stop (List.map u.entry) (x.getD c []) :=
      Dict.getD_via (ψ := Dict.via u.stop (List.map u.entry)) h.city_inj x c []
    rw [this, Dict.keys_via]
    rfl

theorem finish_terms (h : u.Shape) (i : HInput K) {st st' : HState K} (hs : u.State st st') :
    PyRel u.Found (finish i st) (finish (u.input i) st') := by
  unfold finish
  show PyRel _ _ ((stopsAt (u.enodes i.nodes) (i.origin.map u.city)).mapM (fun s => pyDiv (s.mode.tat / 60 * i.pas.pa) i.pas.pv) >>= _)
  rw [stopsAt_terms h]
  refine PyRel.bind (PyRel.mapM (S := fun a b => b = a) ?_ (forall₂_image u.stop _)) ?_
  · rintro s _ rfl
    show PyRel _ _ (pyDiv ((u.mode s.mode).tat / 60 * i.pas.pa) i.pas.pv)
    rw [h.tat]
    exact PyRel.refl _
  · intro _ _ _
    refine .ok ⟨?_, ?_, hs.freq⟩
    · intro x
      show finalSucc st' (u.enode x) = (finalSucc st x).map u.edge
      unfold finalSucc
      rw [hs.lab, hs.labInf, hs.suc, hs.sucInf]
      split
      · rfl
      · cases st.sucInf x <;> rfl
    · intro x
      show finalLabel (u.input i) st' (u.enode x) = finalLabel i st x
      unfold finalLabel
      rw [hs.lab, hs.labInf]
      cases x with
      | stop s =>
        show (if some (u.city s.city) = i.origin.map u.city then
          (if st.lab (.stop s) < st.labInf (.stop s) then st.lab (.stop s) else st.labInf (.stop s)) +
            (((u.mode s.mode).tat / 60 * i.pas.pa / i.pas.pv : K) : WithTop K)
          else (if st.lab (.stop s) < st.labInf (.stop s) then st.lab (.stop s) else st.labInf (.stop s))) = _
        rw [h.tat]
        simp only [some_city h]
      | _ => rfl

theorem buildHyperpath_terms (h : u.Shape) (i : HInput K) : PyRel u.Found (buildHyperpath i) (buildHyperpath (u.input i)) := by
  unfold buildHyperpath
  exact (mainLoop_terms h i).bind fun _ _ hs => finish_terms h i hs

/-! ### elementary paths -/

theorem extendPath_terms (h : u.Shape) {succ succ' : ENode K → List (EEdge K)} (hs : ∀ x, succ' (u.enode x) = (succ x).map u.edge)
    (dest : ENode K) (path : List (ENode K)) :
    extendPath succ' (u.enode dest) (path.map u.enode) = (extendPath succ dest path).map (List.map u.enode) := by
  unfold extendPath
  rw [List.getLast?_map]
  cases path.getLast? with
  | none => rfl
  | some x =>
    simp only [Option.map_some, ne_eq, h.enode_inj.eq_iff]
    split
    · rw [hs, List.map_map, List.map_map]
      refine List.map_congr_left fun e _ => ?_
      simp only [Function.comp_apply, List.map_append]
      rfl
    · rfl

theorem pathsLoop_terms (h : u.Shape) {succ succ' : ENode K → List (EEdge K)} (hs : ∀ x, succ' (u.enode x) = (succ x).map u.edge)
    (dest : ENode K) : ∀ (fuel : Nat) (paths : List (List (ENode K))),
    pathsLoop succ' (u.enode dest) fuel (paths.map (List.map u.enode)) =
      (pathsLoop succ dest fuel paths).map (List.map (List.map u.enode)) := by
  have hall : ∀ paths : List (List (ENode K)), (paths.map (List.map u.enode)).all (fun p => p.getLast? = some (u.enode dest)) =
      paths.all (fun p => p.getLast? = some dest) := by
    intro paths
    rw [List.all_map]
    congr 1
    funext p
    simp only [Function.comp_apply, List.getLast?_map]
    refine decide_eq_decide.2 ?_
    rw [show some (u.enode dest) = (some dest).map u.enode from rfl, (Option.map_injective h.enode_inj).eq_iff]
  intro fuel
  induction fuel with
  | zero =>
    intro paths
    unfold pathsLoop
    rw [hall]
    split <;> rfl
  | succ n ih =>
    intro paths
    unfold pathsLoop
    rw [hall]
    split
    · rfl
    · have : (paths.map (List.map u.enode)).flatMap (extendPath succ' (u.enode dest)) =
          (paths.flatMap (extendPath succ dest)).map (List.map u.enode) := by
        rw [List.flatMap_map, List.map_flatMap]
        congr 1
        funext p
        exact extendPath_terms h hs dest p
      simp only [this]
      exact ih _

/-- the paths of the stops -/
def Terms.paths (u : Terms K) (l : Dict (StopNode K) (List (List (ENode K)))) : Dict (StopNode K) (List (List (ENode K))) :=
  Dict.via u.stop (List.map (List.map u.enode)) l

theorem hyperpathOD_terms (h : u.Shape) (i : HInput K) (o d : CityNode K) :
    PyRel (fun a b => u.Found a.1 b.1 ∧ b.2 = u.paths a.2) (hyperpathOD i o d) (hyperpathOD (u.input i) (u.city o) (u.city d)) := by
  unfold hyperpathOD
  refine PyRel.bind (buildHyperpath_terms h { i with origin := some o, dest := some d }) ?_
  intro r r' hr
  have hst : stopsAt (u.input i).nodes (some (u.city o)) = (stopsAt i.nodes (some o)).map u.stop := stopsAt_terms h i.nodes (some o)
  rw [hst]
  refine PyRel.bind (PyRel.mapM (S := fun a b => b = (u.stop a.1, a.2.map (List.map u.enode))) ?_ (forall₂_image u.stop _)) ?_
  · rintro s _ rfl
    unfold pathsEntry pathsOfStop
    have := pathsLoop_terms h hr.succ (.city d) (allNodes i.nodes).length [[.city o, .stop s]]
    show PyRel _ _ ((match pathsLoop r'.succ (.city (u.city d)) (allNodes (u.enodes i.nodes)).length [[.city (u.city o), .stop (u.stop s)]] with
      | none => .error .Diverges
      | some l => .ok l) >>= _)
    rw [allNodes_terms, List.length_map]
    have e : pathsLoop r'.succ (.city (u.city d)) (allNodes i.nodes).length [[.city (u.city o), .stop (u.stop s)]] = _ := this
    rw [e]
    cases pathsLoop r.succ (.city d) (allNodes i.nodes).length [[.city o, .stop s]] with
    | none => exact .error _
    | some l => exact .ok rfl
  · intro l l' hl
    rw [eq_of_forall₂_image hl]
    refine .ok ⟨hr, ?_⟩
    show (l.map fun a => (u.stop a.1, a.2.map (List.map u.enode))).filter (fun p => decide (p.2 ≠ [])) =
      (l.filter fun p => decide (p.2 ≠ [])).map fun a => (u.stop a.1, a.2.map (List.map u.enode))
    rw [List.filter_map]
    congr 1
    refine List.filter_congr fun p _ => ?_
    refine decide_eq_decide.2 ?_
    simp

/-! ### validation and all pairs -/

theorem cityOf_terms (h : u.Shape) (x : ENodes K) (id : Int) : cityOf (u.enodes x) (u.nodeId id) = (cityOf x id).map u.city := by
  unfold cityOf
  have hk : Dict.keys (u.enodes x) = (Dict.keys x).map u.city := Dict.keys_via x
  rw [hk]
  refine foldl_image (φ := Option.map u.city) (s := none) ?_ _
  intro acc c
  have : u.nodeId id = (u.city c).node.id ↔ id = c.node.id := by
    show u.nodeId id = (u.node c.node).id ↔ _
    rw [h.id]
    exact h.nodeIds.eq_iff
  simp only [this]
  split <;> rfl

theorem checkPair_terms (h : u.Shape) (x : ENodes K) (edges : List (EEdge K)) (pas : Passenger K) (o d : Int) :
    PyRel (fun _ _ => True) (checkPair x edges pas o d)
      (checkPair (u.enodes x) (edges.map u.edge) (u.passenger pas) (u.nodeId o) (u.nodeId d)) := by
  unfold checkPair
  rw [cityOf_terms h, cityOf_terms h]
  refine PyRel.bind (buildHyperpath_terms h ⟨x, edges, pas, cityOf x o, cityOf x d⟩) ?_
  intro r r' hr
  refine PyRel.raiseIf ?_ _
  refine not_congr ?_
  rw [stopsAt_terms h]
  constructor
  · rintro ⟨s, hs, hl⟩
    obtain ⟨s0, hs0, rfl⟩ := List.mem_map.1 hs
    refine ⟨s0, hs0, ?_⟩
    rw [← hr.label]
    exact hl
  · rintro ⟨s, hs, hl⟩
    refine ⟨u.stop s, List.mem_map_of_mem hs, ?_⟩
    have := hr.label (.stop s)
    rw [← this] at hl
    exact hl

theorem modesOf_terms (h : u.Shape) (x : ENodes K) : modesOf (u.enodes x) = (modesOf x).map u.mode := by
  unfold modesOf
  rw [stopsOf_terms]
  refine foldl_image (φ := List.map u.mode) (s := []) ?_ _
  intro l s
  have : (u.stop s).mode ∈ l.map u.mode ↔ s.mode ∈ l := List.mem_map_of_injective h.modes
  simp only [this]
  split
  · rfl
  · rw [List.map_append]; rfl

/-- the managers of modes -/
structure Terms.Managers (u : Terms K) (a b : ModeManager K) : Prop where
  left : a.names = a.modes.map Mode.name
  right : b.names = b.modes.map Mode.name
  modes : b.modes = a.modes.map u.mode

theorem addModePy_terms (h : u.Shape) {a b : ModeManager K} (hm : u.Managers a b) (m : Mode K) :
    PyRel u.Managers (addModePy a m) (addModePy b (u.mode m)) := by
  have hn : (u.mode m).name ∈ b.names ↔ m.name ∈ a.names := by
    rw [hm.left, hm.right, hm.modes]
    simp only [List.mem_map]
    constructor
    · rintro ⟨_, ⟨m', hm', rfl⟩, e⟩
      exact ⟨m', hm', (h.name _ _).1 e⟩
    · rintro ⟨m', hm', e⟩
      exact ⟨_, ⟨m', hm', rfl⟩, (h.name _ _).2 e⟩
  unfold addModePy ModeManager.addMode
  by_cases hc : m.name ∈ a.names
  · rw [if_pos hc, if_pos (hn.2 hc)]; exact .error _
  · rw [if_neg hc, if_neg (fun h' => hc (hn.1 h'))]
    refine .ok ⟨?_, ?_, ?_⟩
    · simp [hm.left]
    · simp [hm.right]
    · simp [hm.modes]

theorem isValid_terms (h : u.Shape) {a b : ModeManager K} (hm : u.Managers a b) :
    b.isValidToAssignmentStep = a.isValidToAssignmentStep := by
  unfold ModeManager.isValidToAssignmentStep
  rw [hm.modes, List.length_map, List.any_map]
  have : ((fun m : Mode K => m.d == 1) ∘ u.mode) = fun m : Mode K => m.d == 1 := by
    funext m
    simp only [Function.comp_apply, h.d]
  rw [this]

theorem networkValidator_terms (h : u.Shape) (x : ENodes K) (edges : List (EEdge K)) (pas : Passenger K) (od : Dict Int (Dict Int K)) :
    networkValidator (u.enodes x) (edges.map u.edge) (u.passenger pas) (u.trips od) = networkValidator x edges pas od := by
  refine PyRel.to_eq ?_
  unfold networkValidator
  refine PyRel.bind (PyRel.forM ?_ (forall₂_image (fun p : Int × Dict Int K => (u.nodeId p.1, p.2.map fun q => (u.nodeId q.1, q.2))) od)) ?_
  · rintro p _ rfl
    unfold checkRow
    refine PyRel.forM ?_ (forall₂_image (fun q : Int × K => (u.nodeId q.1, q.2)) p.2)
    rintro q _ rfl
    unfold checkCell
    by_cases hq : q.2 ≠ 0
    · rw [if_pos hq, if_pos hq]; exact checkPair_terms h x edges pas p.1 q.1
    · rw [if_neg hq, if_neg hq]; exact .ok trivial
  · intro _ _ _
    rw [modesOf_terms h]
    refine PyRel.bind (PyRel.foldlM (T := u.Managers) ?_ (forall₂_image u.mode _) ⟨rfl, rfl, rfl⟩) ?_
    · rintro a b m _ hm rfl
      exact addModePy_terms h hm m
    · intro a b hm
      rw [isValid_terms h hm]
      exact PyRel.refl _

/-- the results for a pair -/
structure Terms.Pair (u : Terms K) (e e' : ODResult K) : Prop where
  origin : e'.origin = u.city e.origin
  dest : e'.dest = u.city e.dest
  res : u.Found e.res e'.res
  paths : e'.paths = u.paths e.paths
  vij : e'.vij = e.vij

theorem pairs_flatten {α β : Type} {R : α → β → Prop} {l : List (List α)} {l' : List (List β)}
    (h : List.Forall₂ (List.Forall₂ R) l l') : List.Forall₂ R l.flatten l'.flatten := by
  induction h with
  | nil => exact .nil
  | cons h _ ih => exact List.rel_append h ih

theorem odResult_terms (h : u.Shape) (x : ENodes K) (edges : List (EEdge K)) (pas : Passenger K) (o d : Int) (v : K) :
    PyRel (List.Forall₂ u.Pair) (odResult x edges pas o d v)
      (odResult (u.enodes x) (edges.map u.edge) (u.passenger pas) (u.nodeId o) (u.nodeId d) v) := by
  unfold odResult
  rw [cityOf_terms h, cityOf_terms h]
  cases cityOf x o with
  | none => exact .ok .nil
  | some a =>
    cases cityOf x d with
    | none => exact .ok .nil
    | some b =>
      refine PyRel.bind (hyperpathOD_terms h ⟨x, edges, pas, none, none⟩ a b) ?_
      rintro r r' ⟨h1, h2⟩
      exact .ok (.cons ⟨rfl, rfl, h1, h2, rfl⟩ .nil)

theorem odAll_terms (h : u.Shape) (x : ENodes K) (edges : List (EEdge K)) (pas : Passenger K) (od : Dict Int (Dict Int K)) :
    PyRel (List.Forall₂ u.Pair) (odAll x edges pas od) (odAll (u.enodes x) (edges.map u.edge) (u.passenger pas) (u.trips od)) := by
  unfold odAll
  refine PyRel.bind (PyRel.mapM (S := List.Forall₂ u.Pair) ?_
    (forall₂_image (fun p : Int × Dict Int K => (u.nodeId p.1, p.2.map fun q => (u.nodeId q.1, q.2))) od)) ?_
  · rintro p _ rfl
    unfold odRow
    refine PyRel.bind (PyRel.mapM (S := List.Forall₂ u.Pair) ?_ (forall₂_image (fun q : Int × K => (u.nodeId q.1, q.2)) p.2)) ?_
    · rintro q _ rfl
      unfold odCell
      by_cases hq : q.2 ≠ 0
      · rw [if_pos hq, if_pos hq]; exact odResult_terms h x edges pas p.1 q.1 q.2
      · rw [if_neg hq, if_neg hq]; exact .ok .nil
    · intro l l' hl
      exact .ok (pairs_flatten hl)
  · intro l l' hl
    exact .ok (pairs_flatten hl)

theorem allHyperpaths_terms (h : u.Shape) (x : ENodes K) (edges : List (EEdge K)) (pas : Passenger K) (od : Dict Int (Dict Int K)) :
    PyRel (List.Forall₂ u.Pair) (allHyperpaths x edges pas od)
      (allHyperpaths (u.enodes x) (edges.map u.edge) (u.passenger pas) (u.trips od)) := by
  unfold allHyperpaths
  rw [networkValidator_terms h]
  refine (PyRel.refl _).bind ?_
  rintro _ b rfl
  cases b with
  | true => exact odAll_terms h x edges pas od
  | false => exact .error _

end Sidermit
