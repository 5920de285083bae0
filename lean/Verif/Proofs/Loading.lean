import Verif.Model.Assignment
import Verif.Proofs.Dict
import Verif.Proofs.PyLemmas
import Verif.Proofs.HyperPaths
import Verif.Proofs.ExtEdges
import Mathlib.Algebra.BigOperators.Group.List.Basic
import Mathlib.Algebra.BigOperators.Ring.List
import Mathlib.Tactic.Ring
import Mathlib.Tactic.FieldSimp

/-!
The traversal of the hyperpaths: the elements visited, and the balance of the passengers.
-/

set_option linter.unusedSectionVars false

namespace Sidermit

variable {K : Type} [Field K] [LinearOrder K]

/-! ### sums over a table -/

/-- weighted sum of the entries of a table -/
def tally {α : Type} (χ : α → K) (d : Dict α K) : K := (d.map fun p => χ p.1 * p.2).sum

theorem tally_addTo (χ : LoadKey K → K) (d : Dict (LoadKey K) K) (k : LoadKey K) (x : K) :
    tally χ (addTo d k x) = tally χ d + χ k * x := by
  unfold addTo
  induction d with
  | nil => simp [tally, Dict.set, Dict.getD]
  | cons p t ih =>
    obtain ⟨k', v⟩ := p
    by_cases h : k' = k
    · subst h
      simp only [Dict.set, Dict.getD, Dict.get?_cons, if_true, Option.getD_some, tally, List.map_cons, List.sum_cons]
      ring
    · have hg : Dict.getD ((k', v) :: t) k 0 = Dict.getD t k 0 := by
        unfold Dict.getD
        rw [Dict.get?_cons, if_neg h]
      rw [hg]
      simp only [Dict.set, h, if_false]
      have : ∀ (l : Dict (LoadKey K) K), tally χ ((k', v) :: l) = χ k' * v + tally χ l := by
        intro l
        simp [tally]
      rw [this, this, ih]
      ring

theorem getD_eq_tally (d : Dict (LoadKey K) K) (hn : (Dict.keys d).Nodup) (k : LoadKey K) :
    d.getD k 0 = tally (fun j => if j = k then 1 else 0) d := by
  induction d with
  | nil => simp [tally, Dict.getD]
  | cons p t ih =>
    obtain ⟨k', v⟩ := p
    simp only [Dict.keys, List.map_cons, List.nodup_cons] at hn
    have ih := ih hn.2
    unfold Dict.getD at ih ⊢
    rw [Dict.get?_cons]
    by_cases h : k' = k
    · subst h
      have h0 : (Dict.get? t k') = none := (Dict.get?_eq_none_iff t k').2 hn.1
      rw [h0] at ih
      simp only [Option.getD_none] at ih
      simp only [if_true, Option.getD_some, tally, List.map_cons, List.sum_cons, one_mul]
      unfold tally at ih
      rw [← ih, add_zero]
    · rw [if_neg h, ih]
      simp [tally, h]

/-! ### the elements visited -/

/-- frequency of the line boarded -/
def lineF (f : Dict Str K) (x : ENode K) : K :=
  match x with
  | .route n => f.getD n.route.id 0
  | _ => 0

/-- `dis_pax` -/
def disOf (f : Dict Str K) (succ : ENode K → List (EEdge K)) (w : Item K) : K :=
  match w.i, w.j with
  | .stop s, .route n => w.pax * (f.getD n.route.id 0 / ((succ (.stop s)).map fun e => lineF f e.j).sum)
  | _, _ => w.pax

theorem accStep_route (f : Dict Str K) (a : K) {e : EEdge K} {n : RouteNode K} (hn : e.j = .route n) :
    accStep f a e = .ok (a + lineF f e.j) := by
  unfold accStep
  rw [hn]
  rfl

theorem accumulated_aux (f : Dict Str K) : ∀ (l : List (EEdge K)) (a : K),
    (∀ e ∈ l, ∃ n, e.j = .route n) → l.foldlM (accStep f) a = .ok (a + (l.map fun e => lineF f e.j).sum)
  | [], a, _ => by simp [pure, Except.pure]
  | e :: l, a, h => by
    obtain ⟨n, hn⟩ := h e (by simp)
    rw [List.foldlM_cons, accStep_route f a hn, py_ok_bind,
      accumulated_aux f l _ (fun e he => h e (List.mem_cons_of_mem _ he))]
    simp [add_assoc]

theorem accumulated_ok (f : Dict Str K) {l : List (EEdge K)} (h : ∀ e ∈ l, ∃ n, e.j = .route n) :
    accumulated f l = .ok (l.map fun e => lineF f e.j).sum := by
  unfold accumulated
  rw [accumulated_aux f l 0 h, zero_add]

theorem accumulated_routes (f : Dict Str K) : ∀ (l : List (EEdge K)) (a b : K), l.foldlM (accStep f) a = .ok b →
    ∀ e ∈ l, ∃ n, e.j = .route n
  | [], _, _, _ => by simp
  | e :: l, a, b, h => by
    rw [List.foldlM_cons] at h
    cases hj : e.j with
    | city c => simp [accStep, hj, lineId, bind, Except.bind] at h
    | stop s => simp [accStep, hj, lineId, bind, Except.bind] at h
    | route n =>
      rw [accStep_route f a hj, py_ok_bind] at h
      intro e' he'
      rcases List.mem_cons.1 he' with rfl | he'
      · exact ⟨n, hj⟩
      · exact accumulated_routes f l _ b h e' he'

theorem takeLine_eq {f : Dict Str K} {succ : ENode K → List (EEdge K)} {s : StopNode K} {n : RouteNode K} {pax a : K}
    (h : takeLine f succ s n pax = .ok a) : a = disOf f succ ⟨.stop s, .route n, pax⟩ := by
  unfold takeLine at h
  rw [py_bind_eq_ok] at h
  obtain ⟨acum, h1, h⟩ := h
  rw [py_bind_eq_ok] at h
  obtain ⟨q, h2, h⟩ := h
  rw [pyDiv_eq_ok] at h2
  have hr : ∀ e ∈ succ (.stop s), ∃ n, e.j = .route n := accumulated_routes f _ _ _ h1
  rw [accumulated_ok f hr] at h1
  cases h1
  cases h
  rw [h2.2]
  rfl

theorem takeLine_ok {f : Dict Str K} {succ : ENode K → List (EEdge K)} {s : StopNode K} {n : RouteNode K} (pax : K)
    (hr : ∀ e ∈ succ (.stop s), ∃ n, e.j = .route n) (h0 : ((succ (.stop s)).map fun e => lineF f e.j).sum ≠ 0) :
    takeLine f succ s n pax = .ok (disOf f succ ⟨.stop s, .route n, pax⟩) := by
  unfold takeLine
  rw [accumulated_ok f hr, py_ok_bind, (pyDiv_eq_ok).2 ⟨h0, rfl⟩, py_ok_bind]
  rfl

/-- weights of the edges in the three tables -/
def zW (χ : LoadKey K → K) (i j : ENode K) : K :=
  match i, j with
  | .stop s, .route n => χ (n.route.id, n.dir, s)
  | _, _ => 0

def vW (χ : LoadKey K → K) (i j : ENode K) : K :=
  match i, j with
  | .route n, .stop s => χ (n.route.id, n.dir, s)
  | _, _ => 0

def lW (χ : LoadKey K → K) (i j : ENode K) : K :=
  match i, j with
  | .route n, .route _ => χ (n.route.id, n.dir, n.stop)
  | _, _ => 0

/-- weighted sum over elements -/
def flow (ψ : ENode K → ENode K → K) (vs : List (Item K)) : K := (vs.map fun w => ψ w.i w.j * w.pax).sum

@[simp] theorem flow_nil (ψ : ENode K → ENode K → K) : flow ψ [] = 0 := rfl

theorem flow_append (ψ : ENode K → ENode K → K) (a b : List (Item K)) : flow ψ (a ++ b) = flow ψ a + flow ψ b := by
  simp [flow]

theorem flow_cons (ψ : ENode K → ENode K → K) (a : Item K) (b : List (Item K)) :
    flow ψ (a :: b) = ψ a.i a.j * a.pax + flow ψ b := by
  simp [flow]

/-- the tables hold exactly the elements `vs` -/
structure Traced (t : Loads K) (vs : List (Item K)) : Prop where
  kz : (Dict.keys t.z).Nodup
  kv : (Dict.keys t.v).Nodup
  kl : (Dict.keys t.load).Nodup
  z : ∀ χ, tally χ t.z = flow (zW χ) vs
  v : ∀ χ, tally χ t.v = flow (vW χ) vs
  load : ∀ χ, tally χ t.load = flow (lW χ) vs
  mz : ∀ k ∈ Dict.keys t.z, ∃ w ∈ vs, ∃ n, w.i = .stop k.2.2 ∧ w.j = .route n ∧ k = (n.route.id, n.dir, k.2.2)
  mv : ∀ k ∈ Dict.keys t.v, ∃ w ∈ vs, ∃ n, w.i = .route n ∧ w.j = .stop k.2.2 ∧ k = (n.route.id, n.dir, k.2.2)
  ml : ∀ k ∈ Dict.keys t.load, ∃ w ∈ vs, ∃ n m, w.i = .route n ∧ w.j = .route m ∧ k = (n.route.id, n.dir, n.stop)

theorem Traced.empty : Traced (⟨[], [], []⟩ : Loads K) [] := by
  constructor <;> simp [tally, Dict.keys]

theorem addTo_nodup {d : Dict (LoadKey K) K} (h : (Dict.keys d).Nodup) (k : LoadKey K) (x : K) :
    (Dict.keys (addTo d k x)).Nodup := Dict.nodup_keys_set _ _ _ h

theorem mem_keys_addTo {d : Dict (LoadKey K) K} {k j : LoadKey K} {x : K} (h : j ∈ Dict.keys (addTo d k x)) :
    j ∈ Dict.keys d ∨ j = k := by
  unfold addTo at h
  rw [Dict.mem_keys_iff] at h
  obtain ⟨v, hv⟩ := h
  by_cases hj : j = k
  · exact Or.inr hj
  · rw [Dict.get?_set_ne _ _ hj] at hv
    exact Or.inl ((Dict.mem_keys_iff _ _).2 ⟨v, hv⟩)

theorem visit_traced {f : Dict Str K} {succ : ENode K → List (EEdge K)} {t t' : Loads K} {w : Item K} {a : K}
    {vs : List (Item K)} (h : visit f succ t w = .ok (t', a)) (ht : Traced t vs) :
    a = disOf f succ w ∧ Traced t' (vs ++ [⟨w.i, w.j, a⟩]) := by
  obtain ⟨i, j, pax⟩ := w
  have up : ∀ {P : Item K → Prop}, (∃ w ∈ vs, P w) → ∃ w ∈ vs ++ [(⟨i, j, a⟩ : Item K)], P w := by
    rintro P ⟨w, hw, hp⟩
    exact ⟨w, List.mem_append_left _ hw, hp⟩
  have self : ∀ {P : Item K → Prop}, P ⟨i, j, a⟩ → ∃ w ∈ vs ++ [(⟨i, j, a⟩ : Item K)], P w := 
    fun hp => ⟨_, List.mem_append_right _ (List.mem_singleton.2 rfl), hp⟩
  have same : ∀ (hz : ∀ χ, zW χ i j = 0) (hv : ∀ χ, vW χ i j = 0) (hl : ∀ χ, lW χ i j = 0), Traced t (vs ++ [⟨i, j, a⟩]) := by
    intro hz hv hl
    refine ⟨ht.kz, ht.kv, ht.kl, ?_, ?_, ?_, fun k hk => up (ht.mz k hk), fun k hk => up (ht.mv k hk), fun k hk => up (ht.ml k hk)⟩
    · intro χ; rw [ht.z, flow_append, flow_cons, hz]; simp
    · intro χ; rw [ht.v, flow_append, flow_cons, hv]; simp
    · intro χ; rw [ht.load, flow_append, flow_cons, hl]; simp
  cases i with
  | city c =>
    simp only [visit, Except.ok.injEq, Prod.mk.injEq] at h
    obtain ⟨rfl, rfl⟩ := h
    exact ⟨rfl, same (fun _ => rfl) (fun _ => rfl) (fun _ => rfl)⟩
  | stop s =>
    cases j with
    | city c =>
      simp only [visit, Except.ok.injEq, Prod.mk.injEq] at h
      obtain ⟨rfl, rfl⟩ := h
      exact ⟨rfl, same (fun _ => rfl) (fun _ => rfl) (fun _ => rfl)⟩
    | stop s' =>
      simp only [visit, Except.ok.injEq, Prod.mk.injEq] at h
      obtain ⟨rfl, rfl⟩ := h
      exact ⟨rfl, same (fun _ => rfl) (fun _ => rfl) (fun _ => rfl)⟩
    | route n =>
      simp only [visit] at h
      rw [py_bind_eq_ok] at h
      obtain ⟨dis, h1, h⟩ := h
      cases h
      refine ⟨takeLine_eq h1, addTo_nodup ht.kz _ _, ht.kv, ht.kl, ?_, ?_, ?_, ?_, fun k hk => up (ht.mv k hk),
        fun k hk => up (ht.ml k hk)⟩
      · intro χ
        rw [tally_addTo, ht.z, flow_append, flow_cons, flow_nil]
        simp [zW]
      · intro χ; rw [ht.v, flow_append, flow_cons]; simp [vW]
      · intro χ; rw [ht.load, flow_append, flow_cons]; simp [lW]
      · intro k hk
        rcases mem_keys_addTo hk with hk | rfl
        · exact up (ht.mz k hk)
        · exact self ⟨n, rfl, rfl, rfl⟩
  | route n =>
    cases j with
    | city c =>
      simp only [visit, Except.ok.injEq, Prod.mk.injEq] at h
      obtain ⟨rfl, rfl⟩ := h
      exact ⟨rfl, same (fun _ => rfl) (fun _ => rfl) (fun _ => rfl)⟩
    | stop s =>
      simp only [visit, Except.ok.injEq, Prod.mk.injEq] at h
      obtain ⟨rfl, rfl⟩ := h
      refine ⟨rfl, ht.kz, addTo_nodup ht.kv _ _, ht.kl, ?_, ?_, ?_, fun k hk => up (ht.mz k hk), ?_,
        fun k hk => up (ht.ml k hk)⟩
      · intro χ; rw [ht.z, flow_append, flow_cons]; simp [zW]
      · intro χ
        rw [tally_addTo, ht.v, flow_append, flow_cons, flow_nil]
        simp [vW]
      · intro χ; rw [ht.load, flow_append, flow_cons]; simp [lW]
      · intro k hk
        rcases mem_keys_addTo hk with hk | rfl
        · exact up (ht.mv k hk)
        · exact self ⟨n, rfl, rfl, rfl⟩
    | route m =>
      simp only [visit, Except.ok.injEq, Prod.mk.injEq] at h
      obtain ⟨rfl, rfl⟩ := h
      refine ⟨rfl, ht.kz, ht.kv, addTo_nodup ht.kl _ _, ?_, ?_, ?_, fun k hk => up (ht.mz k hk),
        fun k hk => up (ht.mv k hk), ?_⟩
      · intro χ; rw [ht.z, flow_append, flow_cons]; simp [zW]
      · intro χ; rw [ht.v, flow_append, flow_cons]; simp [vW]
      · intro χ
        rw [tally_addTo, ht.load, flow_append, flow_cons, flow_nil]
        simp [lW]
      · intro k hk
        rcases mem_keys_addTo hk with hk | rfl
        · exact up (ht.ml k hk)
        · exact self ⟨n, m, rfl, rfl, rfl⟩

/-! ### generations -/

/-- the first `n` generations -/
def gens (kids : Item K → List (Item K)) : Nat → List (Item K) → List (Item K)
  | 0, _ => []
  | n + 1, l => l ++ gens kids n (l.flatMap kids)

/-- the generation number `n` -/
def genN (kids : Item K → List (Item K)) : Nat → List (Item K) → List (Item K)
  | 0, l => l
  | n + 1, l => genN kids n (l.flatMap kids)

theorem gens_nil (kids : Item K → List (Item K)) : ∀ n, gens kids n [] = []
  | 0 => rfl
  | n + 1 => by simp [gens, gens_nil kids n]

theorem genN_nil (kids : Item K → List (Item K)) : ∀ n, genN kids n [] = []
  | 0 => rfl
  | n + 1 => by simp [genN, genN_nil kids n]

theorem level_fold {σ : Type} {step : σ → Item K → Py (σ × List (Item K))} {eff : σ → Item K → Py σ}
    {kids : Item K → List (Item K)} (h : ∀ st w, step st w = (do let st' ← eff st w; return (st', kids w))) :
    ∀ (l : List (Item K)) (st : σ) (acc : List (Item K)), l.foldlM (levelStep step) (st, acc) =
      (do let st' ← l.foldlM eff st; return (st', acc ++ l.flatMap kids))
  | [], st, acc => by
    simp only [List.foldlM_nil, List.flatMap_nil, List.append_nil]
    rfl
  | w :: l, st, acc => by
    rw [List.foldlM_cons, List.foldlM_cons]
    unfold levelStep
    rw [h]
    cases he : eff st w with
    | error e => rfl
    | ok st' =>
      simp only [py_ok_bind, pure, Except.pure]
      have := level_fold h l st' (acc ++ kids w)
      simp only [pure, Except.pure] at this
      rw [List.flatMap_cons, ← List.append_assoc]
      exact this

theorem levels_eq {σ : Type} {step : σ → Item K → Py (σ × List (Item K))} {eff : σ → Item K → Py σ}
    {kids : Item K → List (Item K)} (h : ∀ st w, step st w = (do let st' ← eff st w; return (st', kids w))) :
    ∀ (n : Nat) (l : List (Item K)) (st : σ), levels step n st l =
      (do let st' ← (gens kids n l).foldlM eff st; if genN kids n l = [] then .ok st' else .error .Diverges)
  | n, [], st => by
    rw [gens_nil, genN_nil, levels]
    rfl
  | 0, w :: l, st => by
    unfold levels gens genN
    rfl
  | n + 1, w :: l, st => by
    unfold levels gens genN
    rw [level_fold h, List.foldlM_append]
    cases he : List.foldlM eff st (w :: l) with
    | error e => rfl
    | ok st' =>
      simp only [py_ok_bind, pure, Except.pure, List.nil_append]
      exact levels_eq h n _ st'

/-- `dis_pax` in place of the passengers -/
def out (f : Dict Str K) (succ : ENode K → List (EEdge K)) (w : Item K) : Item K := ⟨w.i, w.j, disOf f succ w⟩

/-- the elements appended by an element -/
def loadKids (f : Dict Str K) (succ : ENode K → List (EEdge K)) (dest : CityNode K) (w : Item K) : List (Item K) :=
  if stopOf dest w.j then [] else follow succ w.j (disOf f succ w)

/-- the effect of an element on the tables -/
def loadEff (f : Dict Str K) (succ : ENode K → List (EEdge K)) (t : Loads K) (w : Item K) : Py (Loads K) := do
  let r ← visit f succ t w
  return r.1

theorem visit_dis {f : Dict Str K} {succ : ENode K → List (EEdge K)} {t t' : Loads K} {w : Item K} {a : K}
    (h : visit f succ t w = .ok (t', a)) : a = disOf f succ w := by
  obtain ⟨i, j, pax⟩ := w
  unfold visit at h
  unfold disOf
  cases i <;> cases j <;> simp only at h ⊢
  all_goals first
    | (cases h; rfl)
    | (rw [py_bind_eq_ok] at h
       obtain ⟨dis, h1, h⟩ := h
       cases h
       exact takeLine_eq h1)

theorem loadStep_eq (f : Dict Str K) (succ : ENode K → List (EEdge K)) (dest : CityNode K) (t : Loads K) (w : Item K) :
    loadStep f succ dest t w = (do let t' ← loadEff f succ t w; return (t', loadKids f succ dest w)) := by
  unfold loadStep loadEff loadKids
  cases h : visit f succ t w with
  | error e => rfl
  | ok r =>
    obtain ⟨t', a⟩ := r
    rw [visit_dis h]
    rfl

theorem loadFold_traced {f : Dict Str K} {succ : ENode K → List (EEdge K)} : ∀ (l : List (Item K)) {t t' : Loads K}
    {vs : List (Item K)}, l.foldlM (loadEff f succ) t = .ok t' → Traced t vs → Traced t' (vs ++ l.map (out f succ))
  | [], t, t', vs, h, ht => by
    rw [List.foldlM_nil] at h
    cases h
    simpa using ht
  | w :: l, t, t', vs, h, ht => by
    rw [List.foldlM_cons, py_bind_eq_ok] at h
    obtain ⟨t1, h1, h⟩ := h
    unfold loadEff at h1
    rw [py_bind_eq_ok] at h1
    obtain ⟨⟨t2, a⟩, h2, h1⟩ := h1
    cases h1
    obtain ⟨ha, ht2⟩ := visit_traced h2 ht
    have := loadFold_traced l h ht2
    rw [List.map_cons]
    have ho : out f succ w = ⟨w.i, w.j, a⟩ := by rw [ha]; rfl
    rw [ho]
    simpa using this

/-- what the balance of the traversal needs -/
structure Net (f : Dict Str K) (succ : ENode K → List (EEdge K)) (dest : CityNode K) (Live : ENode K → Prop) : Prop where
  next : ∀ x, Live x → ∀ e ∈ succ x, stopOf dest e.j = false → Live e.j
  split : ∀ x, Live x → ∀ a, ((succ x).map fun e => disOf f succ ⟨x, e.j, a⟩).sum = a
  board : ∀ s, Live (.stop s) → ∀ e ∈ succ (.stop s), ∀ n, e.j = .route n →
    (∀ b ∈ succ (.stop s), ∃ m, b.j = .route m) ∧ ((succ (.stop s)).map fun b => lineF f b.j).sum ≠ 0

/-- an element that the traversal can have -/
def Item.On (succ : ENode K → List (EEdge K)) (Live : ENode K → Prop) (w : Item K) : Prop :=
  Live w.i ∧ ∃ e ∈ succ w.i, e.j = w.j

variable {f : Dict Str K} {succ : ENode K → List (EEdge K)} {dest : CityNode K} {Live : ENode K → Prop}

theorem follow_on {x : ENode K} (hx : Live x) (a : K) : ∀ w ∈ follow succ x a, w.On succ Live := by
  intro w hw
  unfold follow at hw
  rw [List.mem_map] at hw
  obtain ⟨e, he, rfl⟩ := hw
  exact ⟨hx, e, he, rfl⟩

theorem loadKids_on (hN : Net f succ dest Live) {w : Item K} (hw : w.On succ Live) :
    ∀ w' ∈ loadKids f succ dest w, w'.On succ Live := by
  intro w' hw'
  unfold loadKids at hw'
  split at hw'
  · simp at hw'
  · next hs =>
    obtain ⟨hl, e, he, hj⟩ := hw
    refine follow_on ?_ _ w' hw'
    rw [← hj]
    exact hN.next _ hl e he (by rw [hj]; simpa using hs)

theorem gens_on (hN : Net f succ dest Live) : ∀ (n : Nat) (l : List (Item K)), (∀ w ∈ l, w.On succ Live) →
    ∀ w ∈ gens (loadKids f succ dest) n l, w.On succ Live
  | 0, _, _ => by simp [gens]
  | n + 1, l, hl => by
    intro w hw
    unfold gens at hw
    rcases List.mem_append.1 hw with hw | hw
    · exact hl w hw
    · refine gens_on hN n _ ?_ w hw
      intro w' hw'
      obtain ⟨u, hu, hu'⟩ := List.mem_flatMap.1 hw'
      exact loadKids_on hN (hl u hu) w' hu'

theorem flow_follow (hN : Net f succ dest Live) {x : ENode K} (hx : Live x) (a : K) (φ : ENode K → K) :
    flow (fun i _ => φ i) ((follow succ x a).map (out f succ)) = φ x * a := by
  have h : flow (fun i _ => φ i) ((follow succ x a).map (out f succ)) =
      ((succ x).map fun e => φ x * disOf f succ ⟨x, e.j, a⟩).sum := by
    unfold flow follow
    rw [List.map_map, List.map_map]
    rfl
  rw [h, List.sum_map_mul_left, hN.split x hx a]

theorem flow_kids (hN : Net f succ dest Live) (φ : ENode K → K) : ∀ (l : List (Item K)), (∀ w ∈ l, w.On succ Live) →
    flow (fun i _ => φ i) ((l.flatMap (loadKids f succ dest)).map (out f succ)) =
      flow (fun _ j => if stopOf dest j then 0 else φ j) (l.map (out f succ))
  | [], _ => rfl
  | w :: l, hl => by
    rw [List.flatMap_cons, List.map_append, flow_append, List.map_cons, flow_cons,
      flow_kids hN φ l (fun w hw => hl w (List.mem_cons_of_mem _ hw))]
    congr 1
    unfold loadKids
    have hj : (out f succ w).j = w.j := rfl
    rw [hj]
    split
    · simp
    · next hs =>
      obtain ⟨hx, e, he, hj⟩ := hl w (by simp)
      rw [flow_follow hN (hj ▸ hN.next _ hx e he (by rw [hj]; simpa using hs))]
      rfl

theorem flow_sub (ψ ψ' : ENode K → ENode K → K) (vs : List (Item K)) :
    flow (fun i j => ψ i j - ψ' i j) vs = flow ψ vs - flow ψ' vs := by
  induction vs with
  | nil => simp
  | cons w l ih => rw [flow_cons, flow_cons, flow_cons, ih]; ring

theorem flow_add (ψ ψ' : ENode K → ENode K → K) (vs : List (Item K)) :
    flow (fun i j => ψ i j + ψ' i j) vs = flow ψ vs + flow ψ' vs := by
  induction vs with
  | nil => simp
  | cons w l ih => rw [flow_cons, flow_cons, flow_cons, ih]; ring

theorem flow_congr {ψ ψ' : ENode K → ENode K → K} {vs : List (Item K)} (h : ∀ w ∈ vs, ψ w.i w.j = ψ' w.i w.j) :
    flow ψ vs = flow ψ' vs := by
  unfold flow
  congr 1
  exact List.map_congr_left fun w hw => by rw [h w hw]

theorem gens_balance (hN : Net f succ dest Live) (φ : ENode K → K) : ∀ (n : Nat) (l : List (Item K)),
    (∀ w ∈ l, w.On succ Live) →
    flow (fun i j => (if stopOf dest j then 0 else φ j) - φ i) ((gens (loadKids f succ dest) n l).map (out f succ)) =
      flow (fun i _ => φ i) ((genN (loadKids f succ dest) n l).map (out f succ)) -
        flow (fun i _ => φ i) (l.map (out f succ))
  | 0, l, _ => by simp [gens, genN]
  | n + 1, l, hl => by
    have hl' : ∀ w ∈ l.flatMap (loadKids f succ dest), w.On succ Live := by
      intro w' hw'
      obtain ⟨u, hu, hu'⟩ := List.mem_flatMap.1 hw'
      exact loadKids_on hN (hl u hu) w' hu'
    rw [gens, genN, List.map_append, flow_append, gens_balance hN φ n _ hl', flow_kids hN φ l hl, flow_sub]
    ring

theorem genN_eq_nil {rank : ENode K → Nat} (hr : ∀ x, ∀ e ∈ succ x, rank e.j < rank x) : ∀ (n : Nat) (l : List (Item K)),
    (∀ w ∈ l, rank w.j < n) → genN (loadKids f succ dest) n l = []
  | 0, l, h => by
    cases l with
    | nil => rfl
    | cons w l => exact absurd (h w (by simp)) (by omega)
  | n + 1, l, h => by
    rw [genN]
    refine genN_eq_nil hr n _ ?_
    intro w hw
    obtain ⟨u, hu, hw⟩ := List.mem_flatMap.1 hw
    unfold loadKids at hw
    split at hw
    · simp at hw
    · unfold follow at hw
      rw [List.mem_map] at hw
      obtain ⟨e, he, rfl⟩ := hw
      have := hr _ e he
      have := h u hu
      simp only
      omega

/-! ### all pairs -/

theorem visit_ok (hN : Net f succ dest Live) {w : Item K} (hw : w.On succ Live) (t : Loads K) :
    ∃ t', loadEff f succ t w = .ok t' := by
  obtain ⟨i, j, pax⟩ := w
  obtain ⟨hl, e, he, hj⟩ := hw
  simp only at hl he hj
  unfold loadEff visit
  cases i with
  | city c => cases j <;> exact ⟨_, rfl⟩
  | route n => cases j <;> exact ⟨_, rfl⟩
  | stop s =>
    cases j with
    | city c => exact ⟨_, rfl⟩
    | stop s' => exact ⟨_, rfl⟩
    | route n =>
      obtain ⟨h1, h2⟩ := hN.board s hl e he n hj
      simp only [takeLine_ok pax h1 h2, py_ok_bind]
      exact ⟨_, rfl⟩

theorem loadFold_ok (hN : Net f succ dest Live) : ∀ (l : List (Item K)), (∀ w ∈ l, w.On succ Live) → ∀ t : Loads K,
    ∃ t', l.foldlM (loadEff f succ) t = .ok t'
  | [], _, t => ⟨t, rfl⟩
  | w :: l, hl, t => by
    obtain ⟨t1, h1⟩ := visit_ok hN (hl w (by simp)) t
    rw [List.foldlM_cons, h1, py_ok_bind]
    exact loadFold_ok hN l (fun w hw => hl w (List.mem_cons_of_mem _ hw)) t1

variable [IsStrictOrderedRing K]

theorem disOf_nonneg (hf : ∀ k, 0 ≤ f.getD k 0) {w : Item K} (hw : 0 ≤ w.pax) : 0 ≤ disOf f succ w := by
  obtain ⟨i, j, pax⟩ := w
  unfold disOf
  cases i with
  | city c => exact hw
  | route n => exact hw
  | stop s =>
    cases j with
    | city c => exact hw
    | stop s' => exact hw
    | route n =>
      refine mul_nonneg hw (div_nonneg (hf _) (List.sum_nonneg ?_))
      intro x hx
      obtain ⟨e, _, rfl⟩ := List.mem_map.1 hx
      unfold lineF
      split
      · exact hf _
      · exact le_refl _

theorem gens_nonneg (hf : ∀ k, 0 ≤ f.getD k 0) : ∀ (n : Nat) (l : List (Item K)), (∀ w ∈ l, 0 ≤ w.pax) →
    ∀ w ∈ gens (loadKids f succ dest) n l, 0 ≤ w.pax
  | 0, _, _ => by simp [gens]
  | n + 1, l, hl => by
    intro w hw
    unfold gens at hw
    rcases List.mem_append.1 hw with hw | hw
    · exact hl w hw
    · refine gens_nonneg hf n _ ?_ w hw
      intro w' hw'
      obtain ⟨u, hu, hu'⟩ := List.mem_flatMap.1 hw'
      unfold loadKids at hu'
      split at hu'
      · simp at hu'
      · unfold follow at hu'
        obtain ⟨e, _, rfl⟩ := List.mem_map.1 hu'
        exact disOf_nonneg hf (hl u hu)

/-- the trips from a stop -/
def stopTrips (p : ODResult K × Dict (StopNode K) K) (s : StopNode K) : K := p.1.vij * p.2.getD s 0 / 100

/-- what the loading needs of the result of a pair; `N` is the number of rounds -/
structure PairOk (N : Nat) (f : Dict Str K) (edges : List (EEdge K)) (p : ODResult K × Dict (StopNode K) K) : Prop where
  net : ∃ Live, Net f p.1.res.succ p.1.dest Live ∧ ∀ s ∈ Dict.keys p.1.paths, stopTrips p s ≠ 0 → Live (.stop s)
  origin : ∀ s ∈ Dict.keys p.1.paths, s.city = p.1.origin
  edge : ∀ x, ∀ e' ∈ p.1.res.succ x, e' ∈ edges ∧ e'.i = x
  rank : ∃ rank : ENode K → Nat, (∀ x, ∀ e' ∈ p.1.res.succ x, rank e'.j < rank x) ∧
    ∀ s ∈ Dict.keys p.1.paths, rank (.stop s) < N

/-- what is known of the elements visited -/
structure Visited (f : Dict Str K) (edges : List (EEdge K)) (vs : List (Item K)) (trips : (CityNode K → K) → K) : Prop where
  edge : ∀ w ∈ vs, ∃ e ∈ edges, e.i = w.i ∧ e.j = w.j
  balance : ∀ (φ : ENode K → K) (ψ : CityNode K → K), (∀ s, φ (.stop s) = ψ s.city) →
    flow (fun i j => φ j - φ i) vs = trips ψ

/-- the elements visited from a stop of the origin -/
def stopTrace (N : Nat) (f : Dict Str K) (p : ODResult K × Dict (StopNode K) K) (s : StopNode K) : List (Item K) :=
  if stopTrips p s = 0 then []
  else (gens (loadKids f p.1.res.succ p.1.dest) N (follow p.1.res.succ (.stop s) (stopTrips p s))).map (out f p.1.res.succ)

theorem loadStop_spec {N : Nat} {edges : List (EEdge K)} {p : ODResult K × Dict (StopNode K) K} (hp : PairOk N f edges p)
    {s : StopNode K} (hs : s ∈ Dict.keys p.1.paths) {t : Loads K} {vs : List (Item K)} (ht : Traced t vs) :
    ∃ t', loadStop N f p.1 p.2 t s = .ok t' ∧ Traced t' (vs ++ stopTrace N f p s) ∧
      Visited f edges (stopTrace N f p s) (fun ψ => stopTrips p s * (ψ p.1.dest - ψ p.1.origin)) ∧
      ((∀ k, 0 ≤ f.getD k 0) → 0 ≤ stopTrips p s → ∀ w ∈ stopTrace N f p s, 0 ≤ w.pax) := by
  obtain ⟨⟨Live, hN, hlive⟩, horig, hedge, rank, hr, hrN⟩ := hp
  unfold loadStop stopTrace
  change ∃ t', (if stopTrips p s = 0 then _ else _) = _ ∧ _
  by_cases h0 : stopTrips p s = 0
  · rw [if_pos h0, if_pos h0]
    refine ⟨t, rfl, by simpa using ht, ⟨by simp, ?_⟩, by simp⟩
    intro φ ψ _
    simp [h0]
  · rw [if_neg h0, if_neg h0]
    change ∃ t', levels _ N t (follow p.1.res.succ (.stop s) (stopTrips p s)) = _ ∧ _
    set a := stopTrips p s with ha
    have hon := follow_on (succ := p.1.res.succ) (hlive s hs h0) a
    set l0 := follow p.1.res.succ (.stop s) a with hl0
    have hnil : genN (loadKids f p.1.res.succ p.1.dest) N l0 = [] := by
      refine genN_eq_nil hr N l0 ?_
      intro w hw
      rw [hl0, follow, List.mem_map] at hw
      obtain ⟨e, he, rfl⟩ := hw
      exact (hr _ e he).trans (hrN s hs)
    obtain ⟨t', ht'⟩ := loadFold_ok hN _ (gens_on hN N l0 hon) t
    rw [levels_eq (loadStep_eq f p.1.res.succ p.1.dest), ht', py_ok_bind, if_pos hnil]
    refine ⟨t', rfl, loadFold_traced _ ht' ht, ⟨?_, ?_⟩, ?_⟩
    · intro w hw
      obtain ⟨u, hu, rfl⟩ := List.mem_map.1 hw
      obtain ⟨_, e, he, hj⟩ := gens_on hN N l0 hon u hu
      exact ⟨e, (hedge _ e he).1, (hedge _ e he).2, hj⟩
    · intro φ ψ hφ
      have h1 := gens_balance hN φ N l0 hon
      have h2 := gens_balance hN (fun _ => 1) N l0 hon
      rw [hnil] at h1 h2
      rw [hl0, flow_follow hN (hlive s hs h0)] at h1 h2
      rw [← hl0] at h1 h2
      have h3 : flow (fun i j => φ j - φ i) (List.map (out f p.1.res.succ) (gens (loadKids f p.1.res.succ p.1.dest) N l0)) =
          flow (fun i j => (if stopOf p.1.dest j then 0 else φ j) - φ i)
            (List.map (out f p.1.res.succ) (gens (loadKids f p.1.res.succ p.1.dest) N l0)) -
          flow (fun i j => ψ p.1.dest * ((if stopOf p.1.dest j then 0 else 1) - 1))
            (List.map (out f p.1.res.succ) (gens (loadKids f p.1.res.succ p.1.dest) N l0)) := by
        rw [← flow_sub]
        apply flow_congr
        intro w _
        by_cases hst : stopOf p.1.dest w.j
        · have hw : φ w.j = ψ p.1.dest := by
            unfold stopOf at hst
            split at hst
            · next x hx =>
              rw [hx, hφ, of_decide_eq_true hst]
            · exact absurd hst (by simp)
          simp only [hst, if_true, hw]
          ring
        · simp only [hst]
          simp
      have h4 : flow (fun i j => ψ p.1.dest * ((if stopOf p.1.dest j then 0 else 1) - 1))
            (List.map (out f p.1.res.succ) (gens (loadKids f p.1.res.succ p.1.dest) N l0)) =
          ψ p.1.dest * flow (fun i j => (if stopOf p.1.dest j then 0 else 1) - 1)
            (List.map (out f p.1.res.succ) (gens (loadKids f p.1.res.succ p.1.dest) N l0)) := by
        unfold flow
        rw [← List.sum_map_mul_left]
        congr 1
        apply List.map_congr_left
        intro w _
        ring
      rw [h3, h4, h1, h2, hφ, horig s hs]
      simp only [List.map_nil, flow_nil]
      ring
    · intro hf hn w hw
      obtain ⟨u, hu, rfl⟩ := List.mem_map.1 hw
      refine disOf_nonneg hf (gens_nonneg hf N l0 ?_ u hu)
      intro w hw
      rw [hl0, follow, List.mem_map] at hw
      obtain ⟨e, he, rfl⟩ := hw
      exact hn

theorem Visited.append {edges : List (EEdge K)} {a b : List (Item K)} {T U : (CityNode K → K) → K}
    (ha : Visited f edges a T) (hb : Visited f edges b U) : Visited f edges (a ++ b) (fun ψ => T ψ + U ψ) := by
  refine ⟨?_, ?_⟩
  · intro w hw
    rcases List.mem_append.1 hw with hw | hw
    · exact ha.edge w hw
    · exact hb.edge w hw
  · intro φ ψ h
    rw [flow_append, ha.balance φ ψ h, hb.balance φ ψ h]

/-- the elements visited from some stops -/
def stopsTrace (N : Nat) (f : Dict Str K) (p : ODResult K × Dict (StopNode K) K) (l : List (StopNode K)) : List (Item K) :=
  l.flatMap (stopTrace N f p)

theorem loadPair_aux {N : Nat} {edges : List (EEdge K)} {p : ODResult K × Dict (StopNode K) K} (hp : PairOk N f edges p) :
    ∀ (l : List (StopNode K)), (∀ s ∈ l, s ∈ Dict.keys p.1.paths) → ∀ {t : Loads K} {vs : List (Item K)}, Traced t vs →
    ∃ t', l.foldlM (loadStop N f p.1 p.2) t = .ok t' ∧ Traced t' (vs ++ stopsTrace N f p l) ∧
      Visited f edges (stopsTrace N f p l) (fun ψ => (l.map (stopTrips p)).sum * (ψ p.1.dest - ψ p.1.origin)) ∧
      ((∀ k, 0 ≤ f.getD k 0) → (∀ s ∈ l, 0 ≤ stopTrips p s) → ∀ w ∈ stopsTrace N f p l, 0 ≤ w.pax)
  | [], _, t, vs, ht => ⟨t, rfl, by simpa [stopsTrace] using ht, ⟨by simp [stopsTrace], by simp [stopsTrace]⟩, by simp [stopsTrace]⟩
  | s :: l, hl, t, vs, ht => by
    obtain ⟨t1, h1, h2, h3, h4⟩ := loadStop_spec hp (hl s (by simp)) ht
    obtain ⟨t2, g1, g2, g3, g4⟩ := loadPair_aux hp l (fun s hs => hl s (List.mem_cons_of_mem _ hs)) h2
    have heq : stopsTrace N f p (s :: l) = stopTrace N f p s ++ stopsTrace N f p l := by simp [stopsTrace]
    rw [heq]
    refine ⟨t2, ?_, by simpa using g2, ?_, ?_⟩
    · rw [List.foldlM_cons, h1, py_ok_bind, g1]
    · have := h3.append g3
      refine ⟨this.edge, fun φ ψ hφ => ?_⟩
      rw [this.balance φ ψ hφ, List.map_cons, List.sum_cons]
      ring
    · intro hf hn w hw
      rcases List.mem_append.1 hw with hw | hw
      · exact h4 hf (hn s (by simp)) w hw
      · exact g4 hf (fun s hs => hn s (List.mem_cons_of_mem _ hs)) w hw

/-- the trips of a pair that are assigned to stops -/
def pairTrips (p : ODResult K × Dict (StopNode K) K) : K := ((Dict.keys p.1.paths).map (stopTrips p)).sum

/-- the elements visited from all the stops of the origins of some pairs -/
def trace (N : Nat) (f : Dict Str K) (l : List (ODResult K × Dict (StopNode K) K)) : List (Item K) :=
  l.flatMap fun p => stopsTrace N f p (Dict.keys p.1.paths)

theorem loadAll_aux {N : Nat} {edges : List (EEdge K)} : ∀ (l : List (ODResult K × Dict (StopNode K) K)),
    (∀ p ∈ l, PairOk N f edges p) → ∀ {t : Loads K} {vs : List (Item K)}, Traced t vs →
    ∃ t', l.foldlM (loadPair N f) t = .ok t' ∧ Traced t' (vs ++ trace N f l) ∧
      Visited f edges (trace N f l) (fun ψ => (l.map fun p => pairTrips p * (ψ p.1.dest - ψ p.1.origin)).sum) ∧
      ((∀ k, 0 ≤ f.getD k 0) → (∀ p ∈ l, ∀ s ∈ Dict.keys p.1.paths, 0 ≤ stopTrips p s) → ∀ w ∈ trace N f l, 0 ≤ w.pax)
  | [], _, t, vs, ht => ⟨t, rfl, by simpa [trace] using ht, ⟨by simp [trace], by simp [trace]⟩, by simp [trace]⟩
  | p :: l, hl, t, vs, ht => by
    obtain ⟨t1, h1, h2, h3, h4⟩ := loadPair_aux (hl p (by simp)) _ (fun s hs => hs) ht
    obtain ⟨t2, g1, g2, g3, g4⟩ := loadAll_aux l (fun p hp => hl p (List.mem_cons_of_mem _ hp)) h2
    have heq : trace N f (p :: l) = stopsTrace N f p (Dict.keys p.1.paths) ++ trace N f l := by simp [trace]
    rw [heq]
    refine ⟨t2, ?_, by simpa using g2, ?_, ?_⟩
    · rw [List.foldlM_cons]
      unfold loadPair
      rw [h1, py_ok_bind]
      exact g1
    · have := h3.append g3
      refine ⟨this.edge, fun φ ψ hφ => ?_⟩
      rw [this.balance φ ψ hφ, List.map_cons, List.sum_cons]
      rfl
    · intro hf hn w hw
      rcases List.mem_append.1 hw with hw | hw
      · exact h4 hf (hn p (by simp)) w hw
      · exact g4 hf (fun p hp => hn p (List.mem_cons_of_mem _ hp)) w hw

/-- the factor of `perVehicle` -/
def vehicleFactor (f : Dict Str K) (k : LoadKey K) : K := if f.getD k.1 0 = 0 then 1 else (f.getD k.1 0)⁻¹

theorem tally_perVehicle (χ : LoadKey K → K) (d : Dict (LoadKey K) K) :
    tally χ (perVehicle f d) = tally (fun k => χ k * vehicleFactor f k) d := by
  unfold tally perVehicle
  rw [List.map_map]
  congr 1
  apply List.map_congr_left
  intro p _
  simp only [Function.comp, vehicleFactor]
  split
  · next h => rw [mul_one]
  · next h =>
    simp only
    rw [div_eq_mul_inv]
    ring

theorem keys_perVehicle (d : Dict (LoadKey K) K) : Dict.keys (perVehicle f d) = Dict.keys d := by
  unfold Dict.keys perVehicle
  rw [List.map_map]
  apply List.map_congr_left
  intro p _
  simp only [Function.comp]
  split <;> rfl

/-- the loading: no exception, and tables that hold exactly the elements visited -/
theorem getLoads_spec {N : Nat} {edges : List (EEdge K)} {l : List (ODResult K × Dict (StopNode K) K)}
    (hl : ∀ p ∈ l, PairOk N f edges p) : ∃ t r, getLoads N f l = .ok r ∧ Traced t (trace N f l) ∧
      r = ⟨perVehicle f t.z, perVehicle f t.v, perVehicle f t.load⟩ ∧
      Visited f edges (trace N f l) (fun ψ => (l.map fun p => pairTrips p * (ψ p.1.dest - ψ p.1.origin)).sum) ∧
      ((∀ k, 0 ≤ f.getD k 0) → (∀ p ∈ l, ∀ s ∈ Dict.keys p.1.paths, 0 ≤ stopTrips p s) →
        ∀ w ∈ trace N f l, 0 ≤ w.pax) := by
  obtain ⟨t, h1, h2, h3, h4⟩ := loadAll_aux l hl Traced.empty
  rw [List.nil_append] at h2
  refine ⟨t, _, ?_, h2, rfl, h3, h4⟩
  unfold getLoads
  rw [h1, py_ok_bind]
  rfl

/-! ### how the passengers at a stop divide -/

/-- the passengers who go from `y` to `z` -/
def between (y z : ENode K) : ENode K → ENode K → K := fun i j => if i = y ∧ j = z then 1 else 0

theorem flow_between_follow {succ : ENode K → List (EEdge K)} {y : ENode K} (hnd : ((succ y).map EEdge.j).Nodup) {b : EEdge K}
    (hb : b ∈ succ y) (x : ENode K) (a : K) : flow (between y b.j) (follow succ x a) = if x = y then a else 0 := by
  unfold flow follow
  rw [List.map_map]
  by_cases hx : x = y
  · subst hx
    rw [if_pos rfl]
    have key : ∀ (l : List (EEdge K)), (l.map EEdge.j).Nodup → b ∈ l →
        (l.map ((fun w : Item K => between x b.j w.i w.j * w.pax) ∘ fun e : EEdge K => (⟨x, e.j, a⟩ : Item K))).sum = a := by
      intro l
      induction l with
      | nil => intro _ h; cases h
      | cons e l ih =>
        intro hn h
        rw [List.map_cons, List.nodup_cons] at hn
        rw [List.map_cons, List.sum_cons]
        rcases List.mem_cons.1 h with rfl | h
        · have h0 : (l.map ((fun w : Item K => between x b.j w.i w.j * w.pax) ∘ fun e : EEdge K => (⟨x, e.j, a⟩ : Item K))).sum = 0 := by
            apply List.sum_eq_zero
            intro z hz
            obtain ⟨e, he, rfl⟩ := List.mem_map.1 hz
            have : e.j ≠ b.j := fun h => hn.1 (List.mem_map.2 ⟨e, he, h⟩)
            simp [between, this]
          rw [h0]
          simp [between]
        · have : e.j ≠ b.j := fun he => hn.1 (List.mem_map.2 ⟨b, h, he.symm⟩)
          rw [ih hn.2 h]
          simp [between, this]
    exact key _ hnd hb
  · rw [if_neg hx]
    apply List.sum_eq_zero
    intro z hz
    obtain ⟨e, _, rfl⟩ := List.mem_map.1 hz
    simp [between, hx]

theorem flow_flatMap {α : Type} (ψ : ENode K → ENode K → K) (h : α → List (Item K)) : ∀ (l : List α),
    flow ψ (l.flatMap h) = (l.map fun a => flow ψ (h a)).sum
  | [] => rfl
  | a :: l => by rw [List.flatMap_cons, flow_append, flow_flatMap ψ h l]; rfl

/-- elements that come from nodes, all the successors of a node together -/
def Grouped (succ : ENode K → List (EEdge K)) (l : List (Item K)) : Prop :=
  ∃ L : List (ENode K × K), l = L.flatMap fun q => follow succ q.1 q.2

theorem Grouped.kids (f : Dict Str K) (succ : ENode K → List (EEdge K)) (dest : CityNode K) : ∀ (l : List (Item K)),
    Grouped succ (l.flatMap (loadKids f succ dest))
  | [] => ⟨[], rfl⟩
  | w :: l => by
    obtain ⟨L, hL⟩ := Grouped.kids f succ dest l
    rw [List.flatMap_cons, hL]
    unfold loadKids
    split
    · exact ⟨L, rfl⟩
    · exact ⟨(w.j, disOf f succ w) :: L, rfl⟩

theorem Grouped.flow_eq {succ : ENode K → List (EEdge K)} {y : ENode K} (hnd : ((succ y).map EEdge.j).Nodup) {b c : EEdge K}
    (hb : b ∈ succ y) (hc : c ∈ succ y) {l : List (Item K)} (hl : Grouped succ l) :
    flow (between y b.j) l = flow (between y c.j) l := by
  obtain ⟨L, rfl⟩ := hl
  rw [flow_flatMap, flow_flatMap]
  congr 1
  apply List.map_congr_left
  intro q _
  rw [flow_between_follow hnd hb, flow_between_follow hnd hc]

theorem Grouped.gens_flow_eq {succ : ENode K → List (EEdge K)} {y : ENode K} (hnd : ((succ y).map EEdge.j).Nodup) {b c : EEdge K}
    (hb : b ∈ succ y) (hc : c ∈ succ y) : ∀ (n : Nat) {l : List (Item K)}, Grouped succ l →
    flow (between y b.j) (gens (loadKids f succ dest) n l) = flow (between y c.j) (gens (loadKids f succ dest) n l)
  | 0, _, _ => rfl
  | n + 1, l, hl => by
    unfold gens
    rw [flow_append, flow_append, hl.flow_eq hnd hb hc, Grouped.gens_flow_eq hnd hb hc n (Grouped.kids f succ dest l)]

/-- the passengers at a stop take the lines in proportion to the frequencies -/
theorem stopTrace_split {N : Nat} {p : ODResult K × Dict (StopNode K) K} (s0 : StopNode K) {s : StopNode K}
    (hnd : ((p.1.res.succ (.stop s)).map EEdge.j).Nodup) {b c : EEdge K} (hb : b ∈ p.1.res.succ (.stop s))
    (hc : c ∈ p.1.res.succ (.stop s)) {n m : RouteNode K} (hn : b.j = .route n) (hm : c.j = .route m) :
    flow (between (.stop s) (.route n)) (stopTrace N f p s0) * f.getD m.route.id 0 =
      flow (between (.stop s) (.route m)) (stopTrace N f p s0) * f.getD n.route.id 0 := by
  unfold stopTrace
  split
  · simp
  · have h := Grouped.gens_flow_eq (f := f) (dest := p.1.dest) hnd hb hc N
      (l := follow p.1.res.succ (.stop s0) (stopTrips p s0)) ⟨[(.stop s0, stopTrips p s0)], by simp⟩
    rw [hn, hm] at h
    have key : ∀ (q : RouteNode K) (l : List (Item K)), flow (between (.stop s) (.route q)) (l.map (out f p.1.res.succ)) =
        flow (between (.stop s) (.route q)) l *
          (f.getD q.route.id 0 / ((p.1.res.succ (.stop s)).map fun e => lineF f e.j).sum) := by
      intro q l
      unfold flow
      rw [List.map_map, ← List.sum_map_mul_right]
      congr 1
      apply List.map_congr_left
      intro w _
      change between (.stop s) (.route q) w.i w.j * disOf f p.1.res.succ w = between (.stop s) (.route q) w.i w.j * w.pax * _
      by_cases hw : w.i = .stop s ∧ w.j = .route q
      · unfold disOf
        rw [hw.1, hw.2]
        ring
      · have : between (.stop s) (.route q) w.i w.j = (0 : K) := if_neg hw
        rw [this]
        simp
    rw [key, key, h]
    ring

theorem trace_split {N : Nat} {l : List (ODResult K × Dict (StopNode K) K)} {s : StopNode K} {n m : RouteNode K}
    (h : ∀ p ∈ l, ((p.1.res.succ (.stop s)).map EEdge.j).Nodup ∧ (∃ b ∈ p.1.res.succ (.stop s), b.j = .route n) ∧
      ∃ c ∈ p.1.res.succ (.stop s), c.j = .route m) :
    flow (between (.stop s) (.route n)) (trace N f l) * f.getD m.route.id 0 =
      flow (between (.stop s) (.route m)) (trace N f l) * f.getD n.route.id 0 := by
  unfold trace stopsTrace
  rw [flow_flatMap, flow_flatMap, ← List.sum_map_mul_right, ← List.sum_map_mul_right]
  congr 1
  apply List.map_congr_left
  intro p hp
  rw [flow_flatMap, flow_flatMap, ← List.sum_map_mul_right, ← List.sum_map_mul_right]
  congr 1
  apply List.map_congr_left
  intro s0 _
  obtain ⟨h1, ⟨b, hb, hn⟩, c, hc, hm⟩ := h p hp
  exact stopTrace_split s0 h1 hb hc hn hm

end Sidermit
