import Verif.Spec.PathPlot
import Verif.Props.Assignment
import Verif.Props.PathText
import Verif.Proofs.Charges
import Verif.Proofs.NetworkRoutes

/-!
C86: the picture of the itineraries of a pair.
-/

set_option linter.unusedSectionVars false

namespace Sidermit

section Lists

variable {K : Type}

/-! ### what is collected -/

def cityName : ENode K → Option Str | .city c => some (plotName (.city c)) | _ => none
def stopName : ENode K → Option Str | .stop s => some (plotName (.stop s)) | _ => none
def lineName : ENode K → Option Str | .route n => some (plotName (.route n)) | _ => none

theorem plotNode_fold : ∀ (p : List (ENode K)) (l : PathLists) (prev : Option Str),
    (p.foldl plotNode (l, prev)).1 = ⟨l.cities ++ p.filterMap cityName, l.stops ++ p.filterMap stopName,
      l.lines ++ p.filterMap lineName, l.edges ++ pairs (prev.toList ++ p.map plotName)⟩
  | [], l, prev => by
    cases prev <;> simp [pairs]
  | x :: p, l, prev => by
    rw [List.foldl_cons, plotNode, plotNode_fold p]
    cases prev with
    | none => cases x <;> simp [addArrow, addName, cityName, stopName, lineName, List.filterMap_cons]
    | some a => cases x <;> simp [addArrow, addName, cityName, stopName, lineName, pairs, List.filterMap_cons]

theorem plotPath_fold : ∀ (ps : List (List (ENode K))) (l : PathLists),
    ps.foldl plotPath l = ⟨l.cities ++ ps.flatten.filterMap cityName, l.stops ++ ps.flatten.filterMap stopName,
      l.lines ++ ps.flatten.filterMap lineName, l.edges ++ ps.flatMap fun p => pairs (p.map plotName)⟩
  | [], l => by simp
  | p :: ps, l => by
    rw [List.foldl_cons, plotPath_fold ps, plotPath, plotNode_fold]
    simp

theorem plotStop_fold : ∀ (d : Dict (StopNode K) (List (List (ENode K)))) (l : PathLists),
    d.foldl plotStop l = (d.flatMap Prod.snd).foldl plotPath l
  | [], l => rfl
  | q :: d, l => by
    rw [List.foldl_cons, plotStop_fold d, List.flatMap_cons, List.foldl_append]
    rfl

theorem mem_foldl_addNew (a : Str) : ∀ (l m : List Str), a ∈ l.foldl addNew m ↔ a ∈ m ∨ a ∈ l
  | [], m => by simp
  | b :: l, m => by
    rw [List.foldl_cons, mem_foldl_addNew a l]
    unfold addNew
    split
    · simp only [List.mem_cons]
      constructor
      · rintro (h | h)
        · exact .inl h
        · exact .inr (.inr h)
      · rintro (h | rfl | h)
        · exact .inl h
        · exact .inl ‹_›
        · exact .inr h
    · simp only [List.mem_append, List.mem_cons, List.not_mem_nil, or_false]
      tauto

theorem nodup_addNew {l : List Str} (h : l.Nodup) (a : Str) : (addNew l a).Nodup := by
  unfold addNew
  split
  · exact h
  · rename_i ha
    exact List.nodup_append.2 ⟨h, List.nodup_singleton a, fun x hx y hy e => ha (by
      rw [List.mem_singleton] at hy
      rw [← hy, ← e]
      exact hx)⟩

theorem nodup_foldl_addNew : ∀ (l m : List Str), m.Nodup → (l.foldl addNew m).Nodup
  | [], _, h => h
  | a :: l, _, h => nodup_foldl_addNew l _ (nodup_addNew h a)

theorem foldl_edges (l : List (Str × Str)) (m : List Str) :
    l.foldl (fun m p => addNew (addNew m p.1) p.2) m = (l.flatMap fun p => [p.1, p.2]).foldl addNew m := by
  induction l generalizing m with
  | nil => rfl
  | cons p l ih =>
    rw [List.foldl_cons, ih, List.flatMap_cons, List.foldl_append]
    rfl

theorem mem_pairs {α : Type} (a b : α) : ∀ l : List α, (a, b) ∈ pairs l ↔ Next l a b
  | [] => by
    simp only [pairs, List.not_mem_nil, false_iff]
    rintro ⟨u, v, h⟩
    simp at h
  | [x] => by
    simp only [pairs, List.not_mem_nil, false_iff]
    rintro ⟨u, v, h⟩
    cases u with
    | nil => simp at h
    | cons y u => simp at h
  | x :: y :: l => by
    rw [pairs, List.mem_cons, mem_pairs a b (y :: l)]
    constructor
    · rintro (h | ⟨u, v, h⟩)
      · cases h
        exact ⟨[], l, rfl⟩
      · exact ⟨x :: u, v, by rw [h]; rfl⟩
    · rintro ⟨u, v, h⟩
      cases u with
      | nil =>
        simp only [List.nil_append, List.cons.injEq] at h
        exact .inl (by rw [h.1, h.2.1])
      | cons z u =>
        simp only [List.cons_append, List.cons.injEq] at h
        exact .inr ⟨u, v, h.2⟩

theorem next_map {α β : Type} (φ : α → β) (p : List α) (a b : β) :
    Next (p.map φ) a b ↔ ∃ x y, Next p x y ∧ φ x = a ∧ φ y = b := by
  constructor
  · rintro ⟨u, v, h⟩
    obtain ⟨p1, p2, rfl, h1, h2⟩ := List.map_eq_append_iff.1 h
    obtain ⟨x, p3, rfl, hx, h3⟩ := List.map_eq_cons_iff.1 h2
    obtain ⟨y, p4, rfl, hy, h4⟩ := List.map_eq_cons_iff.1 h3
    exact ⟨x, y, ⟨p1, p4, rfl⟩, hx, hy⟩
  · rintro ⟨x, y, ⟨u, v, rfl⟩, rfl, rfl⟩
    exact ⟨u.map φ, v.map φ, by simp⟩

theorem mem_itinerary (paths : Dict (StopNode K) (List (List (ENode K)))) (p : List (ENode K)) :
    p ∈ paths.flatMap Prod.snd ↔ Itinerary paths p := List.mem_flatMap

/-- C86: the picture of a dictionary of itineraries shows a yellow dot for each city node, a red one for each stop and a green one
for each node of a line that are on an itinerary, and an arrow for each step of an itinerary, and nothing else.  Each text is written
once, and every dot and every end of an arrow has its text. -/
theorem C86_shows (paths : Dict (StopNode K) (List (List (ENode K)))) :
    (∀ t, t ∈ dots "yellow".toList (plotPaths paths) ↔ ∃ p, Itinerary paths p ∧ ∃ c, ENode.city c ∈ p ∧ plotName (.city c) = t) ∧
    (∀ t, t ∈ dots "red".toList (plotPaths paths) ↔ ∃ p, Itinerary paths p ∧ ∃ s, ENode.stop s ∈ p ∧ plotName (.stop s) = t) ∧
    (∀ t, t ∈ dots "green".toList (plotPaths paths) ↔ ∃ p, Itinerary paths p ∧ ∃ n, ENode.route n ∈ p ∧ plotName (.route n) = t) ∧
    (∀ a b, (a, b) ∈ arrows (plotPaths paths) ↔ ∃ p, Itinerary paths p ∧ ∃ x y, Next p x y ∧ plotName x = a ∧ plotName y = b) ∧
    (written (plotPaths paths)).Nodup ∧
    ∀ t, t ∈ written (plotPaths paths) ↔ ∃ p, Itinerary paths p ∧ ∃ x ∈ p, plotName x = t := by
  have hl : paths.foldl plotStop ⟨[], [], [], []⟩ = ⟨(paths.flatMap Prod.snd).flatten.filterMap cityName,
      (paths.flatMap Prod.snd).flatten.filterMap stopName, (paths.flatMap Prod.snd).flatten.filterMap lineName,
      (paths.flatMap Prod.snd).flatMap fun p => pairs (p.map plotName)⟩ := by
    rw [plotStop_fold, plotPath_fold]
    simp
  have hflat : ∀ x : ENode K, x ∈ (paths.flatMap Prod.snd).flatten ↔ ∃ p, Itinerary paths p ∧ x ∈ p := by
    intro x
    rw [List.mem_flatten]
    exact ⟨fun ⟨p, hp, hx⟩ => ⟨p, (mem_itinerary paths p).1 hp, hx⟩, fun ⟨p, hp, hx⟩ => ⟨p, (mem_itinerary paths p).2 hp, hx⟩⟩
  have hy : ∀ t, t ∈ (paths.flatMap Prod.snd).flatten.filterMap cityName ↔
      ∃ p, Itinerary paths p ∧ ∃ c, ENode.city c ∈ p ∧ plotName (.city c) = t := by
    intro t
    rw [List.mem_filterMap]
    constructor
    · rintro ⟨x, hx, ht⟩
      obtain ⟨p, hp, hxp⟩ := (hflat x).1 hx
      cases x with
      | city c => exact ⟨p, hp, c, hxp, by simpa [cityName] using ht⟩
      | stop s => simp [cityName] at ht
      | route n => simp [cityName] at ht
    · rintro ⟨p, hp, c, hc, rfl⟩
      exact ⟨_, (hflat _).2 ⟨p, hp, hc⟩, rfl⟩
  have hr : ∀ t, t ∈ (paths.flatMap Prod.snd).flatten.filterMap stopName ↔
      ∃ p, Itinerary paths p ∧ ∃ s, ENode.stop s ∈ p ∧ plotName (.stop s) = t := by
    intro t
    rw [List.mem_filterMap]
    constructor
    · rintro ⟨x, hx, ht⟩
      obtain ⟨p, hp, hxp⟩ := (hflat x).1 hx
      cases x with
      | stop s => exact ⟨p, hp, s, hxp, by simpa [stopName] using ht⟩
      | city c => simp [stopName] at ht
      | route n => simp [stopName] at ht
    · rintro ⟨p, hp, c, hc, rfl⟩
      exact ⟨_, (hflat _).2 ⟨p, hp, hc⟩, rfl⟩
  have hg : ∀ t, t ∈ (paths.flatMap Prod.snd).flatten.filterMap lineName ↔
      ∃ p, Itinerary paths p ∧ ∃ n, ENode.route n ∈ p ∧ plotName (.route n) = t := by
    intro t
    rw [List.mem_filterMap]
    constructor
    · rintro ⟨x, hx, ht⟩
      obtain ⟨p, hp, hxp⟩ := (hflat x).1 hx
      cases x with
      | route n => exact ⟨p, hp, n, hxp, by simpa [lineName] using ht⟩
      | city c => simp [lineName] at ht
      | stop s => simp [lineName] at ht
    · rintro ⟨p, hp, c, hc, rfl⟩
      exact ⟨_, (hflat _).2 ⟨p, hp, hc⟩, rfl⟩
  have he : ∀ a b, (a, b) ∈ ((paths.flatMap Prod.snd).flatMap fun p => pairs (p.map plotName)) ↔
      ∃ p, Itinerary paths p ∧ ∃ x y, Next p x y ∧ plotName x = a ∧ plotName y = b := by
    intro a b
    rw [List.mem_flatMap]
    constructor
    · rintro ⟨p, hp, h⟩
      exact ⟨p, (mem_itinerary paths p).1 hp, (next_map _ p a b).1 ((mem_pairs _ _ _).1 h)⟩
    · rintro ⟨p, hp, h⟩
      exact ⟨p, (mem_itinerary paths p).2 hp, (mem_pairs _ _ _).2 ((next_map _ p a b).2 h)⟩
  have hd1 : dots "yellow".toList (plotPaths paths) = (paths.flatMap Prod.snd).flatten.filterMap cityName := by
    unfold plotPaths
    rw [hl]
    simp [dots]
  have hd2 : dots "red".toList (plotPaths paths) = (paths.flatMap Prod.snd).flatten.filterMap stopName := by
    unfold plotPaths
    rw [hl]
    simp [dots]
  have hd3 : dots "green".toList (plotPaths paths) = (paths.flatMap Prod.snd).flatten.filterMap lineName := by
    unfold plotPaths
    rw [hl]
    simp [dots]
  have hd4 : arrows (plotPaths paths) = (paths.flatMap Prod.snd).flatMap fun p => pairs (p.map plotName) := by
    unfold plotPaths
    rw [hl]
    simp [arrows]
  have hd5 : written (plotPaths paths) = graphNames ⟨(paths.flatMap Prod.snd).flatten.filterMap cityName,
      (paths.flatMap Prod.snd).flatten.filterMap stopName, (paths.flatMap Prod.snd).flatten.filterMap lineName,
      (paths.flatMap Prod.snd).flatMap fun p => pairs (p.map plotName)⟩ := by
    unfold plotPaths
    rw [hl]
    simp [written]
  refine ⟨fun t => by rw [hd1]; exact hy t, fun t => by rw [hd2]; exact hr t, fun t => by rw [hd3]; exact hg t,
    fun a b => by rw [hd4]; exact he a b, ?_, ?_⟩
  · rw [hd5]
    unfold graphNames
    rw [foldl_edges]
    exact nodup_foldl_addNew _ _ (nodup_foldl_addNew _ _ (nodup_foldl_addNew _ _ (nodup_foldl_addNew _ _ List.nodup_nil)))
  · intro t
    rw [hd5]
    unfold graphNames
    rw [foldl_edges, mem_foldl_addNew, mem_foldl_addNew, mem_foldl_addNew, mem_foldl_addNew]
    simp only [List.not_mem_nil, false_or]
    rw [hy, hr, hg, List.mem_flatMap]
    constructor
    · rintro (((⟨p, hp, c, hc, rfl⟩ | ⟨p, hp, c, hc, rfl⟩) | ⟨p, hp, c, hc, rfl⟩) | ⟨⟨a, b⟩, hab, ht⟩)
      · exact ⟨p, hp, _, hc, rfl⟩
      · exact ⟨p, hp, _, hc, rfl⟩
      · exact ⟨p, hp, _, hc, rfl⟩
      · obtain ⟨p, hp, x, y, ⟨u, v, rfl⟩, rfl, rfl⟩ := (he a b).1 hab
        simp only [List.mem_cons, List.not_mem_nil, or_false] at ht
        rcases ht with rfl | rfl
        · exact ⟨_, hp, x, by simp, rfl⟩
        · exact ⟨_, hp, y, by simp, rfl⟩
    · rintro ⟨p, hp, x, hx, rfl⟩
      cases x with
      | city c => exact .inl (.inl (.inl ⟨p, hp, c, hx, rfl⟩))
      | stop c => exact .inl (.inl (.inr ⟨p, hp, c, hx, rfl⟩))
      | route c => exact .inl (.inr ⟨p, hp, c, hx, rfl⟩)

end Lists

/-! ### ways through the picture -/

section Ways

variable {K : Type} [Field K] [LinearOrder K] [IsStrictOrderedRing K] [PyMath K] {g : Graph K} {routes : List (Route K)} {sPTP : K}
  {freq : Option (Dict Str K)} {x : ExtGraph K} {pas : Passenger K}

theorem isChain_next {α : Type} (R : α → α → Prop) (l : List α) : l.IsChain R ↔ ∀ a b, Next l a b → R a b := by
  rw [← pairs_forall]
  constructor
  · intro h a b hab
    exact h (a, b) ((mem_pairs a b l).2 hab)
  · rintro h ⟨a, b⟩ hp
    exact h a b ((mem_pairs a b l).1 hp)

/-- C86: if no two nodes of the itineraries have the same text, the ways along the arrows from the origin to the destination are the
itineraries: every way is one, and every one is a way. -/
theorem C86_ways (ha : Admissible routes sPTP freq pas) (hd : DistinctIds g) (hx : buildExtGraph g routes sPTP freq = .ok x)
    {o d : CityNode K} {r : HResult K} {paths : Dict (StopNode K) (List (List (ENode K)))}
    (h : hyperpathOD ⟨x.nodes, x.edges, pas, none, none⟩ o d = .ok (r, paths)) (hod : o.node.name ≠ d.node.name)
    (hu : Unambiguous paths) (w : List Str) :
    Way (plotPaths paths) o.node.name d.node.name w ↔ ∃ p, Itinerary paths p ∧ p.map plotName = w := by
  obtain ⟨_, _, _, harr, _, _⟩ := C86_shows paths
  obtain ⟨_, hcomp⟩ := C41_paths ha hd hx h
  have hform : ∀ p, Itinerary paths p → ∃ s q, p = .city o :: .stop s :: q ∧ p.getLast? = some (.city d) ∧ p.Nodup ∧
      List.IsChain (fun a b => ∃ e ∈ x.edges, e ∈ r.succ a ∧ e.i = a ∧ e.j = b) p.tail := by
    rintro p ⟨⟨s, l⟩, hq, hp⟩
    obtain ⟨h1, h2, h3, h4⟩ := C41_well_formed ha hx h hq hp
    obtain ⟨q, rfl⟩ := h1
    exact ⟨s, q, rfl, h2, h3, h4⟩
  constructor
  · rintro ⟨h1, h2, h3⟩
    -- nodes that come one after the other
    have step : ∀ y : ENode K, (∃ p, Itinerary paths p ∧ y ∈ p) → ∀ t, (plotName y, t) ∈ arrows (plotPaths paths) →
        ∃ z p, Itinerary paths p ∧ Next p y z ∧ plotName z = t := by
      rintro y ⟨p, hp, hy⟩ t ht
      obtain ⟨p', hp', y', z, hn, e1, e2⟩ := (harr _ _).1 ht
      have : y' = y := by
        obtain ⟨u, v, e⟩ := hn
        exact hu p' p hp' hp y' (by rw [e]; simp) y hy e1
      subst this
      exact ⟨z, p', hp', hn, e2⟩
    -- after the origin, nodes follow successors
    have lead : ∀ (w : List Str) (y : ENode K), (∃ p, Itinerary paths p ∧ y ∈ p) → y ≠ .city o →
        (plotName y :: w).getLast? = some d.node.name → (plotName y :: w).IsChain (fun s t => (s, t) ∈ arrows (plotPaths paths)) →
        ∃ q, Leads r.succ (.city d) y q ∧ q.map plotName = w := by
      intro w
      induction w with
      | nil =>
        rintro y ⟨p, hp, hy⟩ _ hl _
        simp only [List.getLast?_singleton, Option.some.injEq] at hl
        obtain ⟨s, q, _, hlast, _, _⟩ := hform p hp
        have : y = .city d := hu p p hp hp y hy _ (List.mem_of_getLast? hlast) hl
        subst this
        exact ⟨[], .here, rfl⟩
      | cons t w ih =>
        intro y hy hyo hl hc
        rw [List.isChain_cons_cons] at hc
        obtain ⟨z, p, hp, ⟨u, v, e⟩, hz⟩ := step y hy t hc.1
        obtain ⟨s, q, ep, hlast, hnd, hch⟩ := hform p hp
        -- the step is not the first of `p`
        have htail : Next p.tail y z := by
          cases u with
          | nil =>
            rw [e] at ep
            simp only [List.nil_append, List.cons.injEq] at ep
            exact absurd ep.1 hyo
          | cons a u => exact ⟨u, v, by rw [e]; rfl⟩
        obtain ⟨ed, _, hes, _, hej⟩ := (isChain_next _ _).1 hch y z htail
        have hyd : y ≠ .city d := by
          rintro rfl
          rw [e] at hlast hnd
          rw [List.getLast?_append, List.getLast?_cons_cons] at hlast
          have hm : ENode.city d ∈ z :: v := by
            cases hq : (z :: v).getLast? with
            | none => simp at hq
            | some b =>
              rw [hq] at hlast
              simp only [Option.some_or, Option.some.injEq] at hlast
              rw [← hlast]
              exact List.mem_of_getLast? hq
          have := (List.nodup_append.1 hnd).2.1
          rw [List.nodup_cons] at this
          exact this.1 hm
        have hzo : z ≠ .city o := by
          rintro rfl
          rw [ep] at hnd
          rw [List.nodup_cons] at hnd
          apply hnd.1
          have : ENode.city o ∈ p.tail := by
            obtain ⟨u', v', e'⟩ := htail
            rw [e']
            simp
          rwa [ep] at this
        subst hz
        have hzp : z ∈ p := by rw [e]; simp
        rw [List.getLast?_cons_cons] at hl
        obtain ⟨q', hq', e'⟩ := ih z ⟨p, hp, hzp⟩ hzo hl hc.2
        subst hej
        exact ⟨ed.j :: q', .step hyd ed hes hq', by rw [List.map_cons, e']⟩
    cases w with
    | nil => simp at h1
    | cons a w =>
      simp only [List.head?_cons, Option.some.injEq] at h1
      subst h1
      cases w with
      | nil =>
        simp only [List.getLast?_singleton, Option.some.injEq] at h2
        exact absurd h2 hod
      | cons b w =>
        have h3' := h3
        rw [List.isChain_cons_cons] at h3
        obtain ⟨p0, hp0, _⟩ := (harr _ _).1 h3.1
        obtain ⟨s0, q0, e0, _⟩ := hform p0 hp0
        have ho : ∃ p, Itinerary paths p ∧ (ENode.city o : ENode K) ∈ p := ⟨p0, hp0, by rw [e0]; simp⟩
        obtain ⟨z, p, hp, ⟨u, v, e⟩, hz⟩ := step (.city o) ho b h3.1
        obtain ⟨s, q, ep, hlast, hnd, _⟩ := hform p hp
        have hu0 : u = [] := by
          cases u with
          | nil => rfl
          | cons c u =>
            exfalso
            rw [ep] at e
            simp only [List.cons_append, List.cons.injEq] at e
            rw [ep, List.nodup_cons] at hnd
            exact hnd.1 (by rw [e.2]; simp)
        subst hu0
        rw [ep] at e
        simp only [List.nil_append, List.cons.injEq, true_and] at e
        obtain ⟨rfl, rfl⟩ := e
        subst hz
        rw [List.getLast?_cons_cons] at h2
        obtain ⟨q', hq', e'⟩ := lead w (.stop s) ⟨p, hp, by rw [ep]; simp⟩ (by simp) h2 h3.2
        obtain ⟨⟨s1, l⟩, hmem, hpl⟩ := hp
        obtain ⟨q1, _, e1⟩ := ((hcomp s1 l hmem).2.2 p).1 hpl
        have hs1 : s1 = s := by
          rw [ep] at e1
          simp only [List.cons.injEq, ENode.stop.injEq] at e1
          exact e1.2.1.symm
        subst hs1
        refine ⟨.city o :: .stop s1 :: q', ⟨(s1, l), hmem, ((hcomp s1 l hmem).2.2 _).2 ⟨q', hq', rfl⟩⟩, ?_⟩
        rw [List.map_cons, List.map_cons, e']
        rfl
  · rintro ⟨p, hp, rfl⟩
    obtain ⟨s, q, ep, hlast, _, _⟩ := hform p hp
    refine ⟨by rw [ep]; rfl, ?_, ?_⟩
    · rw [List.getLast?_map, hlast]
      rfl
    · rw [isChain_next]
      intro a b hab
      obtain ⟨y, z, hn, e1, e2⟩ := (next_map _ _ _ _).1 hab
      exact (harr a b).2 ⟨p, hp, y, z, hn, e1, e2⟩

/-! ### names -/

/-- the part after the last dash -/
theorem dash_inj : ∀ {a b n m : Str}, '-' ∉ n → '-' ∉ m → a ++ '-' :: n = b ++ '-' :: m → a = b ∧ n = m
  | [], [], n, m, _, _, h => by simpa using h
  | [], c :: b, n, m, hn, _, h => by
    exfalso
    simp only [List.nil_append, List.cons_append, List.cons.injEq] at h
    exact hn (by rw [h.2]; simp)
  | c :: a, [], n, m, _, hm, h => by
    exfalso
    simp only [List.nil_append, List.cons_append, List.cons.injEq] at h
    exact hm (by rw [← h.2]; simp)
  | c :: a, c' :: b, n, m, hn, hm, h => by
    simp only [List.cons_append, List.cons.injEq] at h
    obtain ⟨h1, h2⟩ := dash_inj hn hm h.2
    exact ⟨by rw [h.1, h1], h2⟩

theorem before_name {a b n m : Str} (hn : '-' ∉ n) (hm : '-' ∉ m)
    (h : a ++ (" - ".toList ++ n) = b ++ (" - ".toList ++ m)) : a = b ∧ n = m := by
  have e : ∀ c k : Str, c ++ (" - ".toList ++ k) = (c ++ [' ']) ++ '-' :: (' ' :: k) := by
    intro c k
    simp
  rw [e, e] at h
  obtain ⟨h1, h2⟩ := dash_inj (by simpa using hn) (by simpa using hm) h
  exact ⟨List.append_cancel_right h1, by simpa using h2⟩

theorem dirText_inj {d e : Dir} (h : dirText d = dirText e) : d = e := by
  cases d <;> cases e <;> first | rfl | (exfalso; revert h; decide)

/-- the nodes of the itineraries are those of the network -/
theorem itinerary_wanted (ha : Admissible routes sPTP freq pas) (hd : DistinctIds g) (hx : buildExtGraph g routes sPTP freq = .ok x)
    {o d : CityNode K} {r : HResult K} {paths : Dict (StopNode K) (List (List (ENode K)))}
    (h : hyperpathOD ⟨x.nodes, x.edges, pas, none, none⟩ o d = .ok (r, paths)) {p : List (ENode K)} (hp : Itinerary paths p) :
    (∀ c, ENode.city c ∈ p → c.In g) ∧ (∀ s, ENode.stop s ∈ p → s.Wanted g routes) ∧
      ∀ n, ENode.route n ∈ p → n.Wanted g routes := by
  obtain ⟨⟨s, l⟩, hq, hpl⟩ := hp
  obtain ⟨hk, _⟩ := C41_paths ha hd hx h
  obtain ⟨hs, hso, _⟩ := (hk s).1 (List.mem_map_of_mem hq)
  have hsw := ((C34_stop_nodes hd hx).2.1 s).1 hs
  obtain ⟨⟨q, rfl⟩, _, _, hch⟩ := C41_well_formed ha hx h hq hpl
  have hj : ∀ y ∈ q, ∃ e ∈ x.edges, e.j = y := by
    have key : ∀ (q : List (ENode K)) (a : ENode K),
        List.IsChain (fun a b => ∃ e ∈ x.edges, e ∈ r.succ a ∧ e.i = a ∧ e.j = b) (a :: q) → ∀ y ∈ q, ∃ e ∈ x.edges, e.j = y := by
      intro q
      induction q with
      | nil => simp
      | cons b q ih =>
        intro a hc y hy
        rw [List.isChain_cons_cons] at hc
        rcases List.mem_cons.1 hy with rfl | hy
        · obtain ⟨e, he, _, _, hj⟩ := hc.1
          exact ⟨e, he, hj⟩
        · exact ih b hc.2 y hy
    exact key q (.stop s) hch
  have hacc : ∀ (e : EEdge K), e ∈ x.edges → e.type = .access → ∃ s : StopNode K, s.Wanted g routes ∧
      (e.j = .stop s ∨ e.j = .city s.city) := by
    intro e he ht
    obtain ⟨s, hs, rfl | rfl⟩ := ((C35_edges hd hx e).1).1 ⟨he, ht⟩
    · exact ⟨s, hs, .inl rfl⟩
    · exact ⟨s, hs, .inr rfl⟩
  have hgood : ∀ y ∈ q, (∀ c, y = .city c → c.In g) ∧ (∀ s, y = .stop s → s.Wanted g routes) ∧ ∀ n, y = .route n → n.Wanted g routes := by
    intro y hy
    obtain ⟨e, he, rfl⟩ := hj y hy
    have access : e.type = .access → (∀ c, e.j = .city c → c.In g) ∧ (∀ s, e.j = .stop s → s.Wanted g routes) ∧
        ∀ n, e.j = .route n → n.Wanted g routes := by
      intro ht
      obtain ⟨s, hs, h | h⟩ := hacc e he ht
      · rw [h]
        exact ⟨by simp, fun s' h' => by cases h'; exact hs, by simp⟩
      · rw [h]
        exact ⟨fun c h' => by cases h'; exact hs.1, by simp, by simp⟩
    rcases edge_cases hd hx he with ⟨ht, _⟩ | ⟨ht, _⟩ | ⟨_, n, hn, _, h6⟩ | ⟨_, n, hn, _, h6⟩ | ⟨_, _, n, _, hn, _, _, h6⟩
    · exact access ht
    · exact access ht
    · rw [h6]
      exact ⟨by simp, by simp, fun n' h' => by cases h'; exact hn⟩
    · rw [h6]
      refine ⟨by simp, fun s' h' => ?_, by simp⟩
      cases h'
      obtain ⟨h1, h2, h3, h4⟩ := hn
      exact ⟨h4, n.route, List.mem_of_getElem? h1, h3.symm, n.dir, n.pos, h2⟩
    · rw [h6]
      exact ⟨by simp, by simp, fun n' h' => by cases h'; exact hn⟩
  refine ⟨fun c hc => ?_, fun s' hs' => ?_, fun n hn => ?_⟩
  · simp only [List.cons_append, List.nil_append, List.mem_cons, ENode.city.injEq, reduceCtorEq, false_or] at hc
    rcases hc with rfl | hc
    · rw [← hso]
      exact hsw.1
    · exact (hgood _ hc).1 c rfl
  · simp only [List.cons_append, List.nil_append, List.mem_cons, ENode.stop.injEq, reduceCtorEq, false_or] at hs'
    rcases hs' with rfl | hc
    · exact hsw
    · exact (hgood _ hc).2.1 s' rfl
  · simp only [List.cons_append, List.nil_append, List.mem_cons, reduceCtorEq, false_or] at hn
    exact (hgood _ hn).2.2 n rfl

/-- C86: with legible names and lines that stop at most once at a node in each direction, no two nodes of the itineraries have the
same text. -/
theorem C86_unambiguous (ha : Admissible routes sPTP freq pas) (hd : DistinctIds g) (hx : buildExtGraph g routes sPTP freq = .ok x)
    {o d : CityNode K} {r : HResult K} {paths : Dict (StopNode K) (List (List (ENode K)))}
    (h : hyperpathOD ⟨x.nodes, x.edges, pas, none, none⟩ o d = .ok (r, paths)) (hl : Legible g routes) (ho : StopsOnce routes) :
    Unambiguous paths := by
  have hdash : ∀ c : CityNode K, c.In g → '-' ∉ c.node.name := fun c hc => hl.dash _ (List.mem_of_getElem? hc)
  have hcity : ∀ c c' : CityNode K, c.In g → c'.In g → c.node.name = c'.node.name → c = c' := by
    intro c c' hc hc' e
    unfold CityNode.In at hc hc'
    obtain ⟨ha, hb⟩ := List.getElem?_eq_some_iff.1 hc
    obtain ⟨ha', hb'⟩ := List.getElem?_eq_some_iff.1 hc'
    have hidx : c.idx = c'.idx := by
      refine (List.Nodup.getElem_inj_iff hl.nodes (hi := by simpa using ha) (hj := by simpa using ha')).1 ?_
      rw [List.getElem_map, List.getElem_map, hb, hb', e]
    have hnode : c.node = c'.node := by
      rw [hidx, hc'] at hc
      exact (Option.some.inj hc).symm
    cases c
    cases c'
    simp only at hidx hnode
    subst hidx hnode
    rfl
  have hdash2 : ∀ a n : Str, '-' ∈ a ++ (" - ".toList ++ n) := by
    intro a n
    simp
  intro p q hp hq y hy z hz e
  obtain ⟨p1, p2, p3⟩ := itinerary_wanted ha hd hx h hp
  obtain ⟨q1, q2, q3⟩ := itinerary_wanted ha hd hx h hq
  cases y with
  | city c =>
    have hc := hdash c (p1 c hy)
    cases z with
    | city c' => rw [hcity c c' (p1 c hy) (q1 c' hz) e]
    | stop s =>
      exfalso
      simp only [plotName] at e
      exact hc (by rw [e]; exact hdash2 _ _)
    | route n =>
      exfalso
      simp only [plotName] at e
      exact hc (by rw [e]; simp)
  | stop s =>
    have hs := p2 s hy
    obtain ⟨rs, hrs, hms, _⟩ := hs.2
    cases z with
    | city c =>
      exfalso
      have hc := hdash c (q1 c hz)
      simp only [plotName] at e
      exact hc (by rw [← e]; exact hdash2 _ _)
    | stop t =>
      have ht := q2 t hz
      obtain ⟨rt, hrt, hmt, _⟩ := ht.2
      simp only [plotName] at e
      obtain ⟨h1, h2⟩ := before_name (hdash _ hs.1) (hdash _ ht.1) e
      have hm : s.mode = t.mode := by
        rw [← hms, ← hmt] at h1 ⊢
        exact hl.modes _ hrs _ hrt h1
      have hc := hcity _ _ hs.1 ht.1 h2
      cases s
      cases t
      simp only at hm hc
      rw [hm, hc]
    | route n =>
      exfalso
      have hn := q3 n hz
      simp only [plotName] at e
      have e' : s.mode.name ++ (" - ".toList ++ s.city.node.name) =
          (n.route.id ++ ' ' :: dirText n.dir) ++ (" - ".toList ++ n.stop.city.node.name) := by
        rw [e]
        simp
      obtain ⟨h1, _⟩ := before_name (hdash _ hs.1) (hdash _ hn.2.2.2) e'
      have := hl.space _ hrs
      rw [hms, h1] at this
      exact this (by simp)
  | route n =>
    have hn := p3 n hy
    cases z with
    | city c =>
      exfalso
      have hc := hdash c (q1 c hz)
      simp only [plotName] at e
      exact hc (by rw [← e]; simp)
    | stop s =>
      exfalso
      have hs := q2 s hz
      obtain ⟨rs, hrs, hms, _⟩ := hs.2
      simp only [plotName] at e
      have e' : s.mode.name ++ (" - ".toList ++ s.city.node.name) =
          (n.route.id ++ ' ' :: dirText n.dir) ++ (" - ".toList ++ n.stop.city.node.name) := by
        rw [← e]
        simp
      obtain ⟨h1, _⟩ := before_name (hdash _ hs.1) (hdash _ hn.2.2.2) e'
      have := hl.space _ hrs
      rw [hms, h1] at this
      exact this (by simp)
    | route m =>
      have hm := q3 m hz
      have e' : (n.route.id ++ ' ' :: dirText n.dir) ++ (" - ".toList ++ n.stop.city.node.name) =
          (m.route.id ++ ' ' :: dirText m.dir) ++ (" - ".toList ++ m.stop.city.node.name) := by
        simp only [plotName] at e
        simpa using e
      obtain ⟨h1, h2⟩ := before_name (hdash _ hn.2.2.2) (hdash _ hm.2.2.2) e'
      have h3 : n.route.id = m.route.id ∧ dirText n.dir = dirText m.dir := by
        have hlen : (' ' :: dirText n.dir).length = (' ' :: dirText m.dir).length := by
          cases n.dir <;> cases m.dir <;> rfl
        obtain ⟨a, b⟩ := List.append_inj' h1 hlen
        exact ⟨a, by simpa using b⟩
      have hc := hcity _ _ hn.2.2.2 hm.2.2.2 h2
      have hk : n.key = m.key := by
        have hst := (stop_unique hd ho.ids hn hm h3.1).2 (by rw [hc])
        unfold RouteNode.key
        rw [h3.1, dirText_inj h3.2, hst]
      rw [key_inj ho hn hm hk]

/-- C86: with such names the picture can be read: each way along the arrows from the origin to the destination is one itinerary and no
other, and each itinerary is to be seen. -/
theorem C86_picture (ha : Admissible routes sPTP freq pas) (hd : DistinctIds g) (hx : buildExtGraph g routes sPTP freq = .ok x)
    {o d : CityNode K} {r : HResult K} {paths : Dict (StopNode K) (List (List (ENode K)))}
    (h : hyperpathOD ⟨x.nodes, x.edges, pas, none, none⟩ o d = .ok (r, paths)) (hod : o.node.name ≠ d.node.name)
    (hl : Legible g routes) (ho : StopsOnce routes) :
    (∀ w, Way (plotPaths paths) o.node.name d.node.name w → ∃! p, Itinerary paths p ∧ p.map plotName = w) ∧
    ∀ p, Itinerary paths p → Way (plotPaths paths) o.node.name d.node.name (p.map plotName) := by
  have hu := C86_unambiguous ha hd hx h hl ho
  refine ⟨fun w hw => ?_, fun p hp => (C86_ways ha hd hx h hod hu _).2 ⟨p, hp, rfl⟩⟩
  obtain ⟨p, hp, rfl⟩ := (C86_ways ha hd hx h hod hu w).1 hw
  refine ⟨p, ⟨hp, rfl⟩, ?_⟩
  rintro q ⟨hq, e⟩
  have key : ∀ (a b : List (ENode K)), (∀ y ∈ a, y ∈ q) → (∀ z ∈ b, z ∈ p) → a.map plotName = b.map plotName → a = b := by
    intro a
    induction a with
    | nil =>
      intro b _ _ e
      cases b with
      | nil => rfl
      | cons z b => simp at e
    | cons y a ih =>
      intro b h1 h2 e
      cases b with
      | nil => simp at e
      | cons z b =>
        simp only [List.map_cons, List.cons.injEq] at e
        rw [hu q p hq hp y (h1 y (by simp)) z (h2 z (by simp)) e.1,
          ih b (fun y hy => h1 y (by simp [hy])) (fun z hz => h2 z (by simp [hz])) e.2]
  exact key q p (fun _ h => h) (fun _ h => h) e

end Ways

/-! ### examples -/

section Examples

attribute [local instance] ratMath ratText

/-- the origin and the destination of the demonstration -/
def demoO : CityNode ℚ := (cityOf demoExt.nodes 1).getD ⟨0, ⟨0, 0, 0, 0, 0, 0, 0, [], .cbd⟩⟩
def demoD : CityNode ℚ := (cityOf demoExt.nodes 4).getD ⟨0, ⟨0, 0, 0, 0, 0, 0, 0, [], .cbd⟩⟩

/-- C86: the hypotheses hold for the itineraries from node 1 to node 4 of the demonstration -/
example : Admissible demoRoutes 2 none demoPassenger ∧ DistinctIds (demoCity 3) ∧
    buildExtGraph (demoCity 3) demoRoutes 2 none = .ok demoExt ∧ Legible (demoCity 3) demoRoutes ∧ StopsOnce demoRoutes ∧
    (∃ r paths, hyperpathOD ⟨demoExt.nodes, demoExt.edges, demoPassenger, none, none⟩ demoO demoD = .ok (r, paths)) ∧
    demoO.node.name ≠ demoD.node.name := by
  refine ⟨demoAdmissible, demoShape.2, by decide +kernel, ⟨by decide +kernel, by decide +kernel, by decide +kernel, by decide +kernel⟩,
    StopsOnce.of_nodup (by decide +kernel) ?_, ?_, by decide +kernel⟩
  · intro r hr d
    revert r
    cases d <;> decide +kernel
  · have h : (hyperpathOD ⟨demoExt.nodes, demoExt.edges, demoPassenger, none, none⟩ demoO demoD).toOption.isSome = true := by
      decide +kernel
    obtain ⟨a, _⟩ := Option.isSome_iff_exists.1 h
    exact ⟨_, _, isOk_of_toOption a h⟩

/-- C86: the picture; one itinerary by bus with a change, one by metro -/
example : demoOD14.map (fun r => plotPaths r.2) = some [
    .nodes ["P_1".toList, "SC_2".toList, "P_1".toList, "SC_2".toList] "yellow".toList,
    .nodes ["bus - P_1".toList, "bus - SC_1".toList, "bus - SC_2".toList, "metro - P_1".toList, "metro - SC_2".toList] "red".toList,
    .nodes ["a I - P_1".toList, "a I - SC_1".toList, "c I - SC_1".toList, "c I - SC_2".toList, "b I - P_1".toList,
      "b I - SC_2".toList] "green".toList,
    .labels ["P_1".toList, "SC_2".toList, "bus - P_1".toList, "bus - SC_1".toList, "bus - SC_2".toList, "metro - P_1".toList,
      "metro - SC_2".toList, "a I - P_1".toList, "a I - SC_1".toList, "c I - SC_1".toList, "c I - SC_2".toList, "b I - P_1".toList,
      "b I - SC_2".toList],
    .edges [("P_1".toList, "bus - P_1".toList), ("bus - P_1".toList, "a I - P_1".toList), ("a I - P_1".toList, "a I - SC_1".toList),
      ("a I - SC_1".toList, "bus - SC_1".toList), ("bus - SC_1".toList, "c I - SC_1".toList), ("c I - SC_1".toList, "c I - SC_2".toList),
      ("c I - SC_2".toList, "bus - SC_2".toList), ("bus - SC_2".toList, "SC_2".toList), ("P_1".toList, "metro - P_1".toList),
      ("metro - P_1".toList, "b I - P_1".toList), ("b I - P_1".toList, "b I - SC_2".toList), ("b I - SC_2".toList, "metro - SC_2".toList),
      ("metro - SC_2".toList, "SC_2".toList)] "orange".toList] := by
  decide +kernel

/-- a line whose text is that of its mode -/
def likeLine : List (Route ℚ) := [⟨"a".toList, { demoMode with name := "a I".toList }, [1, 2, 0], [0, 2, 1], [1, 2], [2, 1], .custom⟩]

def likeExt : ExtGraph ℚ := (buildExtGraph (demoCity 3) likeLine 2 none).toOption.getD ⟨[], []⟩
def likeO : CityNode ℚ := (cityOf likeExt.nodes 1).getD ⟨0, ⟨0, 0, 0, 0, 0, 0, 0, [], .cbd⟩⟩
def likeD : CityNode ℚ := (cityOf likeExt.nodes 2).getD ⟨0, ⟨0, 0, 0, 0, 0, 0, 0, [], .cbd⟩⟩
def likePaths : Dict (StopNode ℚ) (List (List (ENode ℚ))) :=
  ((hyperpathOD ⟨likeExt.nodes, likeExt.edges, demoPassenger, none, none⟩ likeO likeD).toOption.map Prod.snd).getD []

/-- C86: a mode called "a I" and a line "a": a stop and a node of the line share a dot, and there is a way through the picture that is
no itinerary -/
theorem C86_same_text : ∃ w, Way (plotPaths likePaths) likeO.node.name likeD.node.name w ∧
    ¬∃ p, Itinerary likePaths p ∧ p.map plotName = w := by
  refine ⟨["P_1".toList, "a I - P_1".toList, "a I - SC_1".toList, "SC_1".toList], ⟨by decide +kernel, by decide +kernel, ?_⟩, ?_⟩
  · simp only [List.isChain_cons_cons, List.isChain_singleton, and_true]
    exact ⟨by decide +kernel, by decide +kernel, by decide +kernel⟩
  · rintro ⟨p, ⟨q, hq, hp⟩, e⟩
    have : ∀ q ∈ likePaths, ∀ p ∈ q.2, p.map plotName ≠ ["P_1".toList, "a I - P_1".toList, "a I - SC_1".toList, "SC_1".toList] := by
      decide +kernel
    exact this q hq p hp e

end Examples

end Sidermit
