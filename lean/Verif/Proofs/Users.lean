import Verif.Model.UsersCost
import Verif.Proofs.Loading
import Mathlib.Tactic.LinearCombination

/-!
The totals of `resources_consumer` as weighted sums over the elements visited by the loading.
-/

set_option linter.unusedSectionVars false

namespace Sidermit

variable {K : Type} [Field K] [LinearOrder K]

/-! ### weights -/

/-- accumulated frequency of the lines boarded at a node -/
def boardSum (f : Dict Str K) (succ : ENode K → List (EEdge K)) (x : ENode K) : K := ((succ x).map fun e => lineF f e.j).sum

/-- waiting time per passenger -/
def teW (f : Dict Str K) (succ : ENode K → List (EEdge K)) (i j : ENode K) : K :=
  match i, j with
  | .stop s, .route n => s.mode.theta / (boardSum f succ (.stop s) / (n.route.mode.d : K))
  | _, _ => 0

/-- time between two stops -/
def rideW (edges : List (EEdge K)) (i j : ENode K) : K :=
  match i, j with
  | .route _, .route _ => ((edges.find? fun e => decide (e.i = i ∧ e.j = j)).map EEdge.t).getD 0
  | _, _ => 0

/-- waiting for those who alight -/
def alightW (nodes : ENodes K) (v : Dict (LoadKey K) K) (i j : ENode K) : K :=
  match i, j with
  | .route n, .stop s =>
    match prevOf nodes n with
    | none => 0
    | some p => v.getD (n.route.id, guessDir n.route p.stop.city.node.id n.stop.city.node.id, s) 0 * (1 / 2) *
        (n.route.mode.t / 3600)
  | _, _ => 0

/-- waiting at a stop in between, for one successor -/
def stayW (z v : Dict (LoadKey K) K) (i j k : ENode K) : K :=
  match i, j, k with
  | .route p, .route n, .route _ =>
    passing p.route.mode (z.getD (p.route.id, guessDir p.route p.stop.city.node.id n.stop.city.node.id, n.stop) 0)
      (v.getD (p.route.id, guessDir p.route p.stop.city.node.id n.stop.city.node.id, n.stop) 0) * (p.route.mode.t / 3600)
  | _, _, _ => 0

def throughW (z v : Dict (LoadKey K) K) (succ : ENode K → List (EEdge K)) (i j : ENode K) : K :=
  ((succ j).map fun e => stayW z v i j e.j).sum

def tvW (x : ExtGraph K) (z v : Dict (LoadKey K) K) (succ : ENode K → List (EEdge K)) (i j : ENode K) : K :=
  rideW x.edges i j + alightW x.nodes v i j + throughW z v succ i j

/-- a transfer -/
def trW (dest : CityNode K) (i j : ENode K) : K :=
  match i, j with
  | .route _, .stop s => if s.city ≠ dest then 1 else 0
  | _, _ => 0

/-- access time, without the passengers -/
def walkW (i j : ENode K) : K :=
  match i, j with
  | .stop s, .city _ => s.mode.tat / 60
  | .city _, .stop s => s.mode.tat / 60
  | _, _ => 0

/-- the totals after some elements; `vs` holds the passengers `dis_pax` -/
def spend (f : Dict Str K) (x : ExtGraph K) (z v : Dict (LoadKey K) K) (succ : ENode K → List (EEdge K)) (dest : CityNode K)
    (u : Resources K) (vs : List (Item K)) : Resources K :=
  ⟨u.ta + (vs.map fun w => walkW w.i w.j).sum, u.te + flow (teW f succ) vs, u.tv + flow (tvW x z v succ) vs,
    u.t + flow (trW dest) vs⟩

theorem spend_nil (f : Dict Str K) (x : ExtGraph K) (z v : Dict (LoadKey K) K) (succ : ENode K → List (EEdge K))
    (dest : CityNode K) (u : Resources K) : spend f x z v succ dest u [] = u := by
  simp [spend]

theorem spend_append (f : Dict Str K) (x : ExtGraph K) (z v : Dict (LoadKey K) K) (succ : ENode K → List (EEdge K))
    (dest : CityNode K) (u : Resources K) (a b : List (Item K)) :
    spend f x z v succ dest u (a ++ b) = spend f x z v succ dest (spend f x z v succ dest u a) b := by
  simp only [spend, flow_append, List.map_append, List.sum_append, add_assoc]

/-! ### one element -/

theorem throughFold (z v : Dict (LoadKey K) K) (w : Item K) (dis : K) : ∀ (l : List (EEdge K)) (u : Resources K),
    l.foldl (throughStep z v w dis) u = { u with tv := u.tv + (l.map fun e => stayW z v w.i w.j e.j).sum * dis }
  | [], u => by simp
  | e :: l, u => by
    rw [List.foldl_cons, throughFold z v w dis l, List.map_cons, List.sum_cons]
    unfold throughStep stayW
    obtain ⟨i, j, pax⟩ := w
    cases i <;> cases j <;> cases hk : e.j <;> simp [add_mul, add_assoc]

variable {f : Dict Str K} {x : ExtGraph K} {z v : Dict (LoadKey K) K} {succ : ENode K → List (EEdge K)} {dest : CityNode K}
  {Live : ENode K → Prop}

/-- what the costing needs beyond the balance: a route node where somebody alights has a previous one, and numbers of lines
are not zero -/
structure Rides (x : ExtGraph K) (succ : ENode K → List (EEdge K)) (Live : ENode K → Prop) : Prop where
  prev : ∀ n, Live (.route n) → ∀ e ∈ succ (.route n), ∀ s, e.j = .stop s → prevOf x.nodes n ≠ none
  lines : ∀ s, ∀ e ∈ succ (.stop s), ∀ n, e.j = .route n → (n.route.mode.d : K) ≠ 0

theorem userVisit_ok (hN : Net f succ dest Live) (hR : Rides x succ Live) {w : Item K} (hw : w.On succ Live) (u : Resources K) :
    userVisit f x z v succ dest u w = .ok (spend f x z v succ dest u [out f succ w], disOf f succ w) := by
  obtain ⟨i, j, pax⟩ := w
  obtain ⟨hl, e, he, hj⟩ := hw
  simp only at hl he hj
  have h1 : waitPart f succ u ⟨i, j, pax⟩ =
      .ok ({ u with te := u.te + teW f succ i j * disOf f succ ⟨i, j, pax⟩ }, disOf f succ ⟨i, j, pax⟩) := by
    unfold waitPart
    cases i with
    | city c => simp [teW, disOf]
    | route n => simp [teW, disOf]
    | stop s =>
      cases j with
      | city c => simp [teW, disOf]
      | stop s' => simp [teW, disOf]
      | route n =>
        obtain ⟨g1, g2⟩ := hN.board s hl e he n hj
        have hd := hR.lines s e he n hj
        have g3 : boardSum f succ (.stop s) ≠ 0 := g2
        simp only
        rw [accumulated_ok f g1, py_ok_bind, (pyDiv_eq_ok).2 ⟨g2, rfl⟩, py_ok_bind, (pyDiv_eq_ok).2 ⟨hd, rfl⟩, py_ok_bind,
          (pyDiv_eq_ok).2 ⟨div_ne_zero g2 hd, rfl⟩, py_ok_bind]
        simp only [teW, disOf, boardSum, pure, Except.pure]
        congr 4
        ring
  have h2 : ∀ (u' : Resources K) (dis : K), ridePart x.edges u' ⟨i, j, pax⟩ dis = { u' with tv := u'.tv + rideW x.edges i j * dis } := by
    intro u' dis
    unfold ridePart rideW
    cases i <;> cases j <;> simp only
    case route.route n m =>
      cases hf : x.edges.find? fun e => decide (e.i = .route n ∧ e.j = .route m) with
      | none => simp
      | some e => simp [mul_comm]
    all_goals simp
  have h3 : ∀ (u' : Resources K) (dis : K), alightPart x.nodes dest v u' ⟨i, j, pax⟩ dis =
      .ok { u' with t := u'.t + trW dest i j * dis, tv := u'.tv + alightW x.nodes v i j * dis } := by
    intro u' dis
    unfold alightPart alightW trW
    cases i with
    | city c => simp
    | stop s => simp
    | route n =>
      cases j with
      | city c => simp
      | route m => simp
      | stop s =>
        have hp := hR.prev n hl e he s hj
        simp only
        cases hpv : prevOf x.nodes n with
        | none => exact absurd hpv hp
        | some p =>
          simp only
          congr 2
          split <;> simp
  have h4 : ∀ u' : Resources K, walkPart u' ⟨i, j, pax⟩ = { u' with ta := u'.ta + walkW i j } := by
    intro u'
    unfold walkPart walkW
    cases i <;> cases j <;> simp
  unfold userVisit
  rw [h1, py_ok_bind]
  simp only [h2]
  rw [h3, py_ok_bind, h4, throughFold]
  simp only [pure, Except.pure, spend, out, flow_cons, flow_nil, List.map_cons, List.map_nil, List.sum_cons, List.sum_nil,
    add_zero, tvW, throughW, add_mul, add_assoc]

/-! ### the list of elements -/

/-- the elements appended by an element -/
def userKids (f : Dict Str K) (succ : ENode K → List (EEdge K)) (dest : CityNode K) (w : Item K) : List (Item K) :=
  if stopOf dest w.i then [] else follow succ w.j (disOf f succ w)

def userEff (f : Dict Str K) (x : ExtGraph K) (z v : Dict (LoadKey K) K) (succ : ENode K → List (EEdge K))
    (dest : CityNode K) (u : Resources K) (w : Item K) : Py (Resources K) :=
  if stopOf dest w.i then .ok u
  else do
    let r ← userVisit f x z v succ dest u w
    return r.1

theorem waitPart_dis {u u' : Resources K} {w : Item K} {a : K} (h : waitPart f succ u w = .ok (u', a)) :
    a = disOf f succ w := by
  obtain ⟨i, j, pax⟩ := w
  unfold waitPart at h
  unfold disOf
  cases i <;> cases j <;> simp only at h ⊢
  case stop.route s n =>
    rw [py_bind_eq_ok] at h
    obtain ⟨acum, h1, h⟩ := h
    rw [py_bind_eq_ok] at h
    obtain ⟨q, h2, h⟩ := h
    rw [py_bind_eq_ok] at h
    obtain ⟨q', _, h⟩ := h
    rw [py_bind_eq_ok] at h
    obtain ⟨q'', _, h⟩ := h
    cases h
    rw [pyDiv_eq_ok] at h2
    have hr : ∀ e ∈ succ (.stop s), ∃ n, e.j = .route n := accumulated_routes f _ _ _ h1
    rw [accumulated_ok f hr] at h1
    cases h1
    rw [h2.2]
  all_goals (cases h; rfl)

theorem userStep_eq (u : Resources K) (w : Item K) : userStep f x z v succ dest u w =
    (do let u' ← userEff f x z v succ dest u w; return (u', userKids f succ dest w)) := by
  unfold userStep userEff userKids
  split
  · rfl
  · unfold userVisit
    cases h : waitPart f succ u w with
    | error e => rfl
    | ok r =>
      obtain ⟨u', a⟩ := r
      rw [waitPart_dis h]
      simp only [py_ok_bind]
      cases h' : alightPart x.nodes dest v (ridePart x.edges u' w (disOf f succ w)) w (disOf f succ w) with
      | error e => rfl
      | ok u'' => rfl

theorem userKids_filter : ∀ l : List (Item K), (l.flatMap (userKids f succ dest)).filter (fun w => !stopOf dest w.i) =
    (l.filter fun w => !stopOf dest w.i).flatMap (loadKids f succ dest)
  | [] => rfl
  | w :: l => by
    rw [List.flatMap_cons, List.filter_append, userKids_filter l, List.filter_cons]
    unfold userKids
    by_cases h : stopOf dest w.i = true
    · simp [h]
    · rw [if_neg h, if_pos (by simpa using h), List.flatMap_cons]
      congr 1
      unfold loadKids follow
      rw [List.filter_map]
      by_cases hj : stopOf dest w.j = true
      · rw [if_pos hj]
        have : ((fun w : Item K => !stopOf dest w.i) ∘ fun e : EEdge K => (⟨w.j, e.j, disOf f succ w⟩ : Item K)) = fun _ => false := by
          funext e
          simp [hj]
        rw [this]
        simp
      · rw [if_neg hj]
        have : ((fun w : Item K => !stopOf dest w.i) ∘ fun e : EEdge K => (⟨w.j, e.j, disOf f succ w⟩ : Item K)) = fun _ => true := by
          funext e
          simpa using hj
        rw [this]
        simp

theorem gens_user : ∀ (n : Nat) (l : List (Item K)), (gens (userKids f succ dest) n l).filter (fun w => !stopOf dest w.i) =
    gens (loadKids f succ dest) n (l.filter fun w => !stopOf dest w.i)
  | 0, _ => rfl
  | n + 1, l => by
    rw [gens, gens, List.filter_append, gens_user n, userKids_filter]

theorem genN_user_nil {rank : ENode K → Nat} (hr : ∀ x, ∀ e ∈ succ x, rank e.j < rank x) : ∀ (n : Nat) (l : List (Item K)),
    (∀ w ∈ l, rank w.j < n) → genN (userKids f succ dest) n l = []
  | 0, l, h => by
    cases l with
    | nil => rfl
    | cons w l => exact absurd (h w (by simp)) (by omega)
  | n + 1, l, h => by
    rw [genN]
    refine genN_user_nil hr n _ ?_
    intro w hw
    obtain ⟨u, hu, hw⟩ := List.mem_flatMap.1 hw
    unfold userKids at hw
    split at hw
    · simp at hw
    · unfold follow at hw
      rw [List.mem_map] at hw
      obtain ⟨e, he, rfl⟩ := hw
      have := hr _ e he
      have := h u hu
      simp only
      omega

theorem userFold_filter : ∀ (l : List (Item K)) (u : Resources K), l.foldlM (userEff f x z v succ dest) u =
    (l.filter fun w => !stopOf dest w.i).foldlM (userEff f x z v succ dest) u
  | [], _ => rfl
  | w :: l, u => by
    rw [List.foldlM_cons, List.filter_cons]
    by_cases h : stopOf dest w.i = true
    · rw [if_neg (by simp [h])]
      unfold userEff
      rw [if_pos h, py_ok_bind]
      exact userFold_filter l u
    · rw [if_pos (by simpa using h), List.foldlM_cons]
      cases userEff f x z v succ dest u w with
      | error e => rfl
      | ok u' => exact userFold_filter l u'

theorem userFold_ok (hN : Net f succ dest Live) (hR : Rides x succ Live) : ∀ (l : List (Item K)) (u : Resources K),
    (∀ w ∈ l, w.On succ Live ∧ stopOf dest w.i = false) →
    l.foldlM (userEff f x z v succ dest) u = .ok (spend f x z v succ dest u (l.map (out f succ)))
  | [], u, _ => by rw [List.map_nil, spend_nil]; rfl
  | w :: l, u, h => by
    obtain ⟨h1, h2⟩ := h w (by simp)
    rw [List.foldlM_cons]
    have : userEff f x z v succ dest u w = .ok (spend f x z v succ dest u [out f succ w]) := by
      unfold userEff
      rw [if_neg (by simp [h2]), userVisit_ok hN hR h1]
      rfl
    rw [this, py_ok_bind, userFold_ok hN hR l _ fun w hw => h w (List.mem_cons_of_mem _ hw), ← spend_append]
    rfl

/-- a node that is not a stop of the destination is `Live` -/
theorem gens_live (hN : Net f succ dest Live) : ∀ (n : Nat) (l : List (Item K)),
    (∀ w ∈ l, stopOf dest w.i = false) → ∀ w ∈ gens (loadKids f succ dest) n l, stopOf dest w.i = false
  | 0, _, _ => by simp [gens]
  | n + 1, l, hl => by
    intro w hw
    unfold gens at hw
    rcases List.mem_append.1 hw with hw | hw
    · exact hl w hw
    · refine gens_live hN n _ ?_ w hw
      intro w' hw'
      obtain ⟨u, hu, hu'⟩ := List.mem_flatMap.1 hw'
      unfold loadKids at hu'
      split at hu'
      · simp at hu'
      · next hs =>
        unfold follow at hu'
        obtain ⟨e, _, rfl⟩ := List.mem_map.1 hu'
        simpa using hs

/-! ### scaling -/

def Item.scale (c : K) (w : Item K) : Item K := ⟨w.i, w.j, c * w.pax⟩

theorem disOf_scale (c : K) (w : Item K) : disOf f succ (w.scale c) = c * disOf f succ w := by
  obtain ⟨i, j, pax⟩ := w
  unfold Item.scale disOf
  cases i <;> cases j <;> simp only [mul_assoc]

theorem follow_scale (c a : K) (y : ENode K) : follow succ y (c * a) = (follow succ y a).map (Item.scale c) := by
  unfold follow
  rw [List.map_map]
  rfl

theorem loadKids_scale (c : K) (w : Item K) : loadKids f succ dest (w.scale c) = (loadKids f succ dest w).map (Item.scale c) := by
  have h : (w.scale c).j = w.j := rfl
  unfold loadKids
  rw [h, disOf_scale]
  split
  · rfl
  · exact follow_scale c _ _

theorem gens_scale (c : K) : ∀ (n : Nat) (l : List (Item K)), gens (loadKids f succ dest) n (l.map (Item.scale c)) =
    (gens (loadKids f succ dest) n l).map (Item.scale c)
  | 0, _ => rfl
  | n + 1, l => by
    rw [gens, gens, List.map_append, ← gens_scale c n, List.flatMap_map, List.map_flatMap]
    simp only [loadKids_scale]

theorem flow_scale (c : K) (ψ : ENode K → ENode K → K) (vs : List (Item K)) : flow ψ (vs.map (Item.scale c)) = c * flow ψ vs := by
  unfold flow
  rw [List.map_map, ← List.sum_map_mul_left]
  congr 1
  apply List.map_congr_left
  intro w _
  simp only [Function.comp, Item.scale]
  ring

/-- `c` times the trips of a pair -/
def ODResult.scale (c : K) (e : ODResult K) : ODResult K := ⟨e.origin, e.dest, e.res, e.paths, c * e.vij⟩

theorem stopTrace_scale {N : Nat} {c : K} (hc : c ≠ 0) (p : ODResult K × Dict (StopNode K) K) (s : StopNode K) :
    stopTrace N f (p.1.scale c, p.2) s = (stopTrace N f p s).map (Item.scale c) := by
  have ht : stopTrips (p.1.scale c, p.2) s = c * stopTrips p s := by
    unfold stopTrips ODResult.scale
    simp only
    ring
  unfold stopTrace
  rw [ht]
  by_cases h0 : stopTrips p s = 0
  · rw [if_pos h0, if_pos (by rw [h0, mul_zero]), List.map_nil]
  · rw [if_neg h0, if_neg (mul_ne_zero hc h0), follow_scale, gens_scale, List.map_map, List.map_map]
    apply List.map_congr_left
    intro w _
    simp only [Function.comp, out, disOf_scale]
    rfl

theorem stopsTrace_scale {N : Nat} {c : K} (hc : c ≠ 0) (p : ODResult K × Dict (StopNode K) K) (l : List (StopNode K)) :
    stopsTrace N f (p.1.scale c, p.2) l = (stopsTrace N f p l).map (Item.scale c) := by
  unfold stopsTrace
  rw [List.map_flatMap]
  congr 1
  funext s
  exact stopTrace_scale hc p s

theorem stopsTrace_zero {N : Nat} {p : ODResult K × Dict (StopNode K) K} {l : List (StopNode K)}
    (h : ∀ s ∈ l, stopTrips p s = 0) : stopsTrace N f p l = [] := by
  unfold stopsTrace
  rw [List.flatMap_eq_nil_iff]
  intro s hs
  unfold stopTrace
  rw [if_pos (h s hs)]

/-- the elements visited, with what is known of their nodes -/
theorem stopTrace_on {N : Nat} {p : ODResult K × Dict (StopNode K) K} {s : StopNode K} {Live : ENode K → Prop}
    (hN : Net f p.1.res.succ p.1.dest Live) (hs : stopTrips p s ≠ 0 → Live (.stop s)) (hs' : stopOf p.1.dest (.stop s) = false) {w : Item K}
    (hw : w ∈ stopTrace N f p s) : w.On p.1.res.succ Live ∧ stopOf p.1.dest w.i = false := by
  unfold stopTrace at hw
  split at hw
  · cases hw
  · next h0 =>
    obtain ⟨w0, hw0, rfl⟩ := List.mem_map.1 hw
    refine ⟨gens_on hN N _ (follow_on (hs h0) _) w0 hw0, gens_live hN N _ ?_ w0 hw0⟩
    intro w hw
    unfold follow at hw
    obtain ⟨e, he, rfl⟩ := List.mem_map.1 hw
    exact hs'

variable [IsStrictOrderedRing K]

/-! ### sums over the elements, node by node -/

theorem flow_follow_eq (ψ : ENode K → ENode K → K) (y : ENode K) (a : K) : flow ψ ((follow succ y a).map (out f succ)) =
    ((succ y).map fun e => ψ y e.j * disOf f succ ⟨y, e.j, a⟩).sum := by
  unfold flow follow
  rw [List.map_map, List.map_map]
  rfl

theorem gens_blocks (hN : Net f succ dest Live) {ψ : ENode K → ENode K → K}
    (hψ : ∀ y, Live y → ∀ a, ((succ y).map fun e => ψ y e.j * disOf f succ ⟨y, e.j, a⟩).sum = 0) : ∀ (n : Nat) (l : List (Item K)),
    (∀ w ∈ l, w.On succ Live) → flow ψ (l.map (out f succ)) = 0 →
    flow ψ ((gens (loadKids f succ dest) n l).map (out f succ)) = 0
  | 0, _, _, _ => rfl
  | n + 1, l, hl, h0 => by
    rw [gens, List.map_append, flow_append, h0, zero_add]
    refine gens_blocks hN hψ n _ ?_ ?_
    · intro w' hw'
      obtain ⟨u, hu, hu'⟩ := List.mem_flatMap.1 hw'
      exact loadKids_on hN (hl u hu) w' hu'
    · rw [List.map_flatMap, flow_flatMap]
      apply List.sum_eq_zero
      intro y hy
      obtain ⟨w, hw, rfl⟩ := List.mem_map.1 hy
      unfold loadKids
      split
      · rfl
      · next hns =>
        rw [flow_follow_eq]
        obtain ⟨h1, e, h2, h3⟩ := hl w hw
        have := hN.next _ h1 e h2 (by rw [h3]; simpa using hns)
        rw [h3] at this
        exact hψ _ this _

/-- costs that are differences of a potential, on the average at each node, add up to the difference of the ends -/
theorem stopTrace_potential {N : Nat} {p : ODResult K × Dict (StopNode K) K} {s : StopNode K} {Live : ENode K → Prop}
    (hN : Net f p.1.res.succ p.1.dest Live) (hs : stopTrips p s ≠ 0 → Live (.stop s)) {rank : ENode K → Nat}
    (hr : ∀ y, ∀ e' ∈ p.1.res.succ y, rank e'.j < rank y) (hrN : rank (.stop s) < N) {c : ENode K → ENode K → K} {h : ENode K → K}
    (hψ : ∀ y, Live y → ∀ a, ((p.1.res.succ y).map fun e => (c y e.j + (h e.j - h y)) * disOf f p.1.res.succ ⟨y, e.j, a⟩).sum = 0) :
    flow c (stopTrace N f p s) + flow (fun _ j => if stopOf p.1.dest j then h j else 0) (stopTrace N f p s) =
      h (.stop s) * stopTrips p s := by
  unfold stopTrace
  split
  · next h0 => rw [h0, mul_zero, flow_nil, flow_nil, add_zero]
  · next h0 =>
    have hs := hs h0
    have hon := follow_on (succ := p.1.res.succ) hs (stopTrips p s)
    have hb := gens_balance hN h N _ hon
    have hz := gens_blocks hN (ψ := fun i j => c i j + (h j - h i)) hψ N _ hon (by
      rw [flow_follow_eq]
      exact hψ _ hs _)
    have hnil : genN (loadKids f p.1.res.succ p.1.dest) N (follow p.1.res.succ (.stop s) (stopTrips p s)) = [] := by
      refine genN_eq_nil hr N _ ?_
      intro w hw
      rw [follow, List.mem_map] at hw
      obtain ⟨e, he, rfl⟩ := hw
      exact (hr _ e he).trans hrN
    rw [hnil, List.map_nil, flow_nil, flow_follow hN hs, zero_sub] at hb
    rw [flow_add] at hz
    have hsplit : flow (fun i j => h j - h i) ((gens (loadKids f p.1.res.succ p.1.dest) N
        (follow p.1.res.succ (.stop s) (stopTrips p s))).map (out f p.1.res.succ)) =
        flow (fun i j => ((if stopOf p.1.dest j then 0 else h j) - h i) + (if stopOf p.1.dest j then h j else 0)) ((gens
        (loadKids f p.1.res.succ p.1.dest) N (follow p.1.res.succ (.stop s) (stopTrips p s))).map (out f p.1.res.succ)) := by
      apply flow_congr
      intro w _
      split <;> ring
    rw [hsplit, flow_add, hb] at hz
    linear_combination hz

/-! ### all pairs -/

/-- what the costing needs of the result of a pair; `N` is the number of rounds -/
structure UserOk (N : Nat) (f : Dict Str K) (x : ExtGraph K) (vp : K) (p : ODResult K × Dict (StopNode K) K) : Prop where
  net : ∃ Live, Net f p.1.res.succ p.1.dest Live ∧ Rides x p.1.res.succ Live ∧
    ∀ s ∈ Dict.keys p.1.paths, (stopTrips p s ≠ 0 → Live (.stop s)) ∧ stopOf p.1.dest (.stop s) = false
  rank : ∃ rank : ENode K → Nat, (∀ y, ∀ e' ∈ p.1.res.succ y, rank e'.j < rank y) ∧
    ∀ s ∈ Dict.keys p.1.paths, rank (.stop s) < N
  width : ∀ s ∈ Dict.keys p.1.paths, 4 * vp * (s.mode.d : K) ≠ 0

/-- access time at the origin, of all the passengers of a stop -/
def accessOf (vp : K) (p : ODResult K × Dict (StopNode K) K) (s : StopNode K) : K :=
  stopTrips p s * (s.mode.tat / 60 + p.2.getD s 0 / 100 * p.1.origin.node.width / (4 * vp * (s.mode.d : K)))

theorem userStop_spec {N : Nat} {vp : K} {p : ODResult K × Dict (StopNode K) K} (hp : UserOk N f x vp p)
    {s : StopNode K} (hs : s ∈ Dict.keys p.1.paths) (u : Resources K) :
    userStop N f x vp z v p.1 p.2 u s = .ok (spend f x z v p.1.res.succ p.1.dest { u with ta := u.ta + accessOf vp p s }
      (stopTrace N f p s)) := by
  obtain ⟨⟨Live, hN, hR, hlive⟩, ⟨rank, hr, hrN⟩, hw⟩ := hp
  unfold userStop stopTrace
  change (if stopTrips p s = 0 then _ else _) = _
  by_cases h0 : stopTrips p s = 0
  · rw [if_pos h0, if_pos h0, spend_nil]
    unfold accessOf
    rw [h0, zero_mul, add_zero]
  · rw [if_neg h0, if_neg h0]
    have ha : firstAccess vp p.1 p.2 s =
        .ok (s.mode.tat / 60 + p.2.getD s 0 / 100 * p.1.origin.node.width / (4 * vp * (s.mode.d : K))) := by
      unfold firstAccess
      rw [(pyDiv_eq_ok).2 ⟨hw s hs, rfl⟩, py_ok_bind]
      rfl
    rw [ha, py_ok_bind]
    change levels _ N _ (follow p.1.res.succ (.stop s) (stopTrips p s)) = _
    set a := stopTrips p s with hadef
    have hon := follow_on (succ := p.1.res.succ) ((hlive s hs).1 h0) a
    set l0 := follow p.1.res.succ (.stop s) a with hl0
    have hi : ∀ w ∈ l0, stopOf p.1.dest w.i = false := by
      intro w hw
      rw [hl0, follow, List.mem_map] at hw
      obtain ⟨e, he, rfl⟩ := hw
      exact (hlive s hs).2
    have hnil : genN (userKids f p.1.res.succ p.1.dest) N l0 = [] := by
      refine genN_user_nil hr N l0 ?_
      intro w hw
      rw [hl0, follow, List.mem_map] at hw
      obtain ⟨e, he, rfl⟩ := hw
      exact (hr _ e he).trans (hrN s hs)
    have hfil : l0.filter (fun w => !stopOf p.1.dest w.i) = l0 := by
      rw [List.filter_eq_self]
      intro w hw
      simp [hi w hw]
    rw [levels_eq (userStep_eq (f := f) (x := x) (z := z) (v := v) (succ := p.1.res.succ) (dest := p.1.dest)), userFold_filter,
      gens_user, hfil, userFold_ok hN hR _ _ fun w hw => ⟨gens_on hN N l0 hon w hw, gens_live hN N l0 hi w hw⟩, py_ok_bind,
      if_pos hnil]
    rfl

/-- the totals of one pair -/
def pairSpend (N : Nat) (f : Dict Str K) (x : ExtGraph K) (vp : K) (z v : Dict (LoadKey K) K) (p : ODResult K × Dict (StopNode K) K)
    (l : List (StopNode K)) (u : Resources K) : Resources K :=
  spend f x z v p.1.res.succ p.1.dest { u with ta := u.ta + (l.map (accessOf vp p)).sum } (stopsTrace N f p l)

theorem userPair_aux {N : Nat} {vp : K} {p : ODResult K × Dict (StopNode K) K} (hp : UserOk N f x vp p) :
    ∀ (l : List (StopNode K)), (∀ s ∈ l, s ∈ Dict.keys p.1.paths) → ∀ u : Resources K,
    l.foldlM (userStop N f x vp z v p.1 p.2) u = .ok (pairSpend N f x vp z v p l u)
  | [], _, u => by
    unfold pairSpend stopsTrace
    simp [spend_nil, pure, Except.pure]
  | s :: l, hl, u => by
    rw [List.foldlM_cons, userStop_spec hp (hl s (by simp)), py_ok_bind,
      userPair_aux hp l fun s hs => hl s (List.mem_cons_of_mem _ hs)]
    congr 1
    unfold pairSpend stopsTrace
    rw [List.flatMap_cons, spend_append]
    unfold spend
    simp only [List.map_cons, List.sum_cons, Resources.mk.injEq, and_true]
    ring

/-- the totals of all the pairs -/
theorem resources_spec {N : Nat} {vp : K} {l : List (ODResult K × Dict (StopNode K) K)} (hl : ∀ p ∈ l, UserOk N f x vp p) :
    resourcesConsumer N f x vp z v l = .ok
      ⟨(l.map fun p => ((Dict.keys p.1.paths).map (accessOf vp p)).sum +
          ((stopsTrace N f p (Dict.keys p.1.paths)).map fun w => walkW w.i w.j).sum).sum,
        (l.map fun p => flow (teW f p.1.res.succ) (stopsTrace N f p (Dict.keys p.1.paths))).sum,
        (l.map fun p => flow (tvW x z v p.1.res.succ) (stopsTrace N f p (Dict.keys p.1.paths))).sum,
        (l.map fun p => flow (trW p.1.dest) (stopsTrace N f p (Dict.keys p.1.paths))).sum⟩ := by
  unfold resourcesConsumer
  have key : ∀ (l : List (ODResult K × Dict (StopNode K) K)), (∀ p ∈ l, UserOk N f x vp p) → ∀ u : Resources K,
      l.foldlM (userPair N f x vp z v) u = .ok
      ⟨u.ta + (l.map fun p => ((Dict.keys p.1.paths).map (accessOf vp p)).sum +
          ((stopsTrace N f p (Dict.keys p.1.paths)).map fun w => walkW w.i w.j).sum).sum,
        u.te + (l.map fun p => flow (teW f p.1.res.succ) (stopsTrace N f p (Dict.keys p.1.paths))).sum,
        u.tv + (l.map fun p => flow (tvW x z v p.1.res.succ) (stopsTrace N f p (Dict.keys p.1.paths))).sum,
        u.t + (l.map fun p => flow (trW p.1.dest) (stopsTrace N f p (Dict.keys p.1.paths))).sum⟩ := by
    intro l
    induction l with
    | nil => intro _ u; simp [pure, Except.pure]
    | cons p t ih =>
      intro h u
      rw [List.foldlM_cons]
      unfold userPair
      rw [userPair_aux (h p (by simp)) _ fun s hs => hs, py_ok_bind]
      have := ih (fun q hq => h q (List.mem_cons_of_mem _ hq)) (pairSpend N f x vp z v p (Dict.keys p.1.paths) u)
      unfold userPair at this
      rw [this]
      unfold pairSpend spend
      simp only [List.map_cons, List.sum_cons, add_assoc]
  rw [key l hl]
  simp only [zero_add]

end Sidermit
