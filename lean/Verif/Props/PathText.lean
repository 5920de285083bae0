import Verif.Model.PathText
import Verif.Spec.PathText
import Verif.Spec.GraphText
import Verif.Proofs.Report
import Verif.Props.Assignment
import Mathlib.Data.Rat.Floor

/-!
C77: what the itineraries of a pair say, and the report of them.  C78: the summary of all pairs.
-/

set_option linter.unusedSectionVars false

namespace Sidermit

section Generic

variable {K : Type} [Field K] [LinearOrder K] [IsStrictOrderedRing K] [FloorRing K]

/-! ### the lines of the itineraries -/

theorem node_words (a b n l w e : Str) (ha : a = '[' :: b) (he : e = ']' :: '\n' :: w) :
    a ++ (n ++ (": ".toList ++ (l ++ e))) = '[' :: ((b ++ n) ++ ": ".toList ++ l ++ [']'] ++ '\n' :: w) := by
  subst ha he
  simp only [List.append_assoc, List.cons_append, List.nil_append]

theorem pathNodeText_eq (label : ENode K → WithTop K) (x : ENode K) :
    pathNodeText label x = '[' :: (placeText x (fixedTop 4 (label x)) ++ '\n' :: "\t\t".toList) := by
  cases x with
  | city c =>
    exact node_words "[City_node ".toList "City_node ".toList c.node.name (fixedTop 4 (label (.city c))) "\t\t".toList
      "]\n\t\t".toList (by decide) (by decide)
  | stop s =>
    refine Eq.trans ?_ (node_words "[Stop_node ".toList "Stop_node ".toList (s.mode.name ++ (" - ".toList ++ s.city.node.name))
      (fixedTop 4 (label (.stop s))) "\t\t".toList "]\n\t\t".toList (by decide) (by decide))
      |>.trans ?_
    · unfold pathNodeText
      simp only [List.append_assoc]
    · unfold placeText
      simp only [List.append_assoc]
      rfl
  | route n =>
    obtain ⟨i, r, dir, k, st⟩ := n
    refine Eq.trans ?_ (node_words "[Route_node ".toList "Route_node ".toList
      (r.id ++ (' ' :: dirText dir ++ (" - ".toList ++ st.city.node.name)))
      (fixedTop 4 (label (.route ⟨i, r, dir, k, st⟩))) "\t\t".toList "]\n\t\t".toList (by decide) (by decide))
      |>.trans ?_
    · unfold pathNodeText
      simp only [List.append_assoc, List.cons_append]
    · unfold placeText
      cases dir <;> (simp only [List.append_assoc, List.cons_append]; rfl)

theorem tabbed_lines {α : Type} (w : Str) (t : α → Str) : ∀ l : List α,
    '\n' :: (w ++ l.flatMap fun x => '[' :: (t x ++ '\n' :: w)) = broken (l.map (fun x => w ++ '[' :: t x) ++ [w]) := by
  intro l
  induction l with
  | nil => simp [broken]
  | cons x l ih =>
    rw [List.map_cons, List.cons_append, broken_cons, ← ih, List.flatMap_cons]
    simp only [List.append_assoc, List.cons_append]

/-- the lines of a path -/
def pathLines (label : ENode K → WithTop K) (p : List (ENode K)) : List Str :=
  "\tNew Path:".toList :: (p.map (fun x => "\t\t".toList ++ '[' :: placeText x (fixedTop 4 (label x))) ++ ["\t\t".toList])

theorem path_words (a b w : Str) (ha : a = '\n' :: b ++ '\n' :: w) (r : Str) : a ++ r = '\n' :: b ++ '\n' :: (w ++ r) := by
  subst ha
  simp

theorem pathText_lines (label : ENode K → WithTop K) (p : List (ENode K)) : pathText label p = broken (pathLines label p) := by
  unfold pathText pathLines
  rw [broken_cons, path_words _ "\tNew Path:".toList "\t\t".toList (by decide), ← tabbed_lines]
  congr 3
  exact List.flatMap_congr fun x _ => pathNodeText_eq label x

/-- the lines of a stop -/
def stopPathLines (label : ENode K → WithTop K) (q : StopNode K × List (List (ENode K))) : List Str :=
  (q.1.mode.name ++ " stop".toList) :: [] :: q.2.flatMap (pathLines label)

theorem pathStop_words (n a b : Str) (h : a = b ++ ['\n']) (r : Str) : '\n' :: (n ++ (a ++ r)) = '\n' :: (n ++ b) ++ '\n' :: ([] ++ r) := by
  subst h
  simp

theorem pathsText_lines (paths : Dict (StopNode K) (List (List (ENode K)))) (label : ENode K → WithTop K) :
    pathsText paths label = [] ++ broken (paths.flatMap (stopPathLines label)) := by
  rw [broken_flatMap, List.nil_append]
  refine List.flatMap_congr fun q _ => ?_
  unfold stopPathsText stopPathLines
  rw [pathStop_words _ _ " stop".toList (by decide), broken_cons, broken_cons, broken_flatMap]
  congr 3
  exact List.flatMap_congr fun p _ => pathText_lines label p

/-! ### reading the itineraries -/

theorem read_place (t : Str) (rest : List Str) : readItineraries (("\t\t".toList ++ '[' :: t) :: rest) =
    (t :: (readItineraries rest).1, (readItineraries rest).2.1, (readItineraries rest).2.2) := by
  rw [readItineraries, if_neg (fun h => ?_)]
  · have : after "\t\t[".toList ("\t\t".toList ++ '[' :: t) = some t := after_append "\t\t[".toList t
    rw [this]
  · have := congrArg (fun l => l[1]?) h
    exact absurd this (by simp)

theorem read_tabs (rest : List Str) : readItineraries ("\t\t".toList :: rest) = readItineraries rest := by
  rw [readItineraries, if_neg (by decide), show after "\t\t[".toList "\t\t".toList = none by decide]
  dsimp only
  rw [if_pos (Or.inr rfl)]

theorem read_nothing (rest : List Str) : readItineraries ([] :: rest) = readItineraries rest := by
  rw [readItineraries, if_neg (by decide), show after "\t\t[".toList [] = none by decide]
  dsimp only
  rw [if_pos (Or.inl rfl)]

theorem read_new (rest : List Str) : readItineraries ("\tNew Path:".toList :: rest) =
    ([], (readItineraries rest).1 :: (readItineraries rest).2.1, (readItineraries rest).2.2) := by
  rw [readItineraries, if_pos rfl]

theorem read_heading {n : Str} (hn : Untabbed n) (rest : List Str) : readItineraries ((n ++ " stop".toList) :: rest) =
    ([], [], (n ++ " stop".toList, (readItineraries rest).2.1) :: (readItineraries rest).2.2) := by
  have hc : ∀ c t, n ++ " stop".toList ≠ '\t' :: (c :: t : Str) := by
    intro c t h
    cases n with
    | nil =>
      have := congrArg (fun l => l[0]?) h
      exact absurd this (by simp)
    | cons a m =>
      injection h with h1 _
      exact (hn a List.mem_cons_self).2 h1
  have h3 : after "\t\t[".toList (n ++ " stop".toList) = none := by
    unfold after
    rw [if_neg]
    intro hp
    rw [List.isPrefixOf_iff_prefix] at hp
    obtain ⟨t, ht⟩ := hp
    exact hc _ _ ht.symm
  have h0 : n ++ " stop".toList ≠ "\tNew Path:".toList := fun h => hc _ _ h
  rw [readItineraries, if_neg h0, h3]
  dsimp only
  rw [if_neg]
  rintro (h | h)
  · exact absurd h (by simp)
  · exact hc _ _ h

theorem read_places {α : Type} (t : α → Str) (rest : List Str) : ∀ l : List α,
    readItineraries (l.map (fun x => "\t\t".toList ++ '[' :: t x) ++ rest) =
      (l.map t ++ (readItineraries rest).1, (readItineraries rest).2.1, (readItineraries rest).2.2) := by
  intro l
  induction l with
  | nil => rfl
  | cons x l ih => rw [List.map_cons, List.cons_append, read_place, ih]; rfl

theorem read_paths (label : ENode K → WithTop K) {rest : List Str} (hrest : (readItineraries rest).1 = []) :
    ∀ l : List (List (ENode K)), readItineraries (l.flatMap (pathLines label) ++ rest) =
      ([], l.map (fun p => p.map fun x => placeText x (fixedTop 4 (label x))) ++ (readItineraries rest).2.1,
        (readItineraries rest).2.2) := by
  intro l
  induction l with
  | nil => rw [← hrest]; rfl
  | cons p l ih =>
    rw [List.flatMap_cons, List.append_assoc]
    unfold pathLines at ih ⊢
    rw [List.cons_append, read_new, List.append_assoc, read_places, List.singleton_append, read_tabs, ih]
    simp

theorem read_stops (label : ENode K → WithTop K) : ∀ paths : Dict (StopNode K) (List (List (ENode K))),
    (∀ q ∈ paths, Untabbed q.1.mode.name) → readItineraries (paths.flatMap (stopPathLines label)) =
      ([], [], paths.map fun q => (q.1.mode.name ++ " stop".toList,
        q.2.map fun p => p.map fun x => placeText x (fixedTop 4 (label x)))) := by
  intro paths
  induction paths with
  | nil => intro _; rfl
  | cons q paths ih =>
    intro h
    have ih := ih fun a ha => h a (List.mem_cons_of_mem _ ha)
    rw [List.flatMap_cons]
    unfold stopPathLines at ih ⊢
    rw [List.cons_append, List.cons_append, read_heading (h q List.mem_cons_self), read_nothing, read_paths label (by rw [ih]), ih]
    simp

theorem fixedTop_breaks (p : Nat) (x : WithTop K) : ∀ c ∈ fixedTop p x, c ≠ '\n' := fun c hc => (fixedTop_plain p x c hc).2

theorem placeText_breaks {x : ENode K} (h : ∀ w ∈ namesOf x, Untabbed w) {l : Str} (hl : ∀ c ∈ l, c ≠ '\n') :
    ∀ c ∈ placeText x l, c ≠ '\n' := by
  have hw : ∀ w ∈ namesOf x, ∀ c ∈ w, c ≠ '\n' := fun w hw c hc => (h w hw c hc).1
  unfold placeText
  refine no_break (no_break (no_break ?_ (by decide)) hl) (by decide)
  cases x with
  | city c => exact no_break (by decide) (hw _ (by simp [namesOf]))
  | stop s => exact no_break (no_break (no_break (by decide) (hw _ (by simp [namesOf]))) (by decide)) (hw _ (by simp [namesOf]))
  | route n =>
    refine no_break (no_break (no_break (by decide) (hw _ (by simp [namesOf]))) ?_) (hw _ (by simp [namesOf]))
    cases n.dir <;> decide

/-- C77: whoever reads the report of the itineraries line by line finds, for each stop of the origin, its paths with their places
and labels -/
theorem C77_report (paths : Dict (StopNode K) (List (List (ENode K)))) (label : ENode K → WithTop K)
    (hs : ∀ q ∈ paths, Untabbed q.1.mode.name) (hn : ∀ q ∈ paths, ∀ p ∈ q.2, ∀ x ∈ p, ∀ w ∈ namesOf x, Untabbed w) :
    (readItineraries (splitOn '\n' (pathsText paths label))).2.2 = paths.map fun q =>
      (q.1.mode.name ++ " stop".toList, q.2.map fun p => p.map fun x => placeText x (fixedTop 4 (label x))) := by
  rw [pathsText_lines]
  unfold broken
  rw [split_lines [] (by simp), read_nothing, read_stops label paths hs]
  intro u hu
  obtain ⟨q, hq, hu⟩ := List.mem_flatMap.1 hu
  unfold stopPathLines at hu
  rcases List.mem_cons.1 hu with rfl | hu
  · exact no_break (fun c hc => (hs q hq c hc).1) (by decide)
  rcases List.mem_cons.1 hu with rfl | hu
  · simp
  obtain ⟨p, hp, hu⟩ := List.mem_flatMap.1 hu
  unfold pathLines at hu
  rcases List.mem_cons.1 hu with rfl | hu
  · decide
  rcases List.mem_append.1 hu with hu | hu
  · obtain ⟨x, hx, rfl⟩ := List.mem_map.1 hu
    refine no_break (by decide) fun c hc => ?_
    rcases List.mem_cons.1 hc with rfl | hc
    · decide
    · exact placeText_breaks (hn q hq p hp x hx) (fixedTop_breaks _ _) c hc
  · rw [List.mem_singleton.1 hu]
    decide

/-! ### the remaining time along an itinerary -/

variable [PyMath K] {g : Graph K} {routes : List (Route K)} {sPTP : K} {freq : Option (Dict Str K)} {x : ExtGraph K}
  {pas : Passenger K}

theorem strategy_cost_nonneg {nodes : List (ENode K)} (hs : Searchable nodes x.edges pas) {o d : Option (CityNode K)} {y : ENode K}
    {c : K} (h : Strategy x.edges pas o d y c) : 0 ≤ c := by
  have hleg : ∀ e ∈ x.edges, 0 ≤ legTime pas d e := by
    intro e he
    have := hs.time e he
    unfold legTime
    split
    · exact div_nonneg (mul_nonneg this hs.pa) hs.pv.le
    · split
      · exact le_refl _
      · exact this
    · exact this
  induction h with
  | arrive d hd => exact le_refl _
  | go e he hb hi hj c hc ih => exact add_nonneg (hleg e he) ih
  | wait s l hne hnd hl hst ih =>
    refine div_nonneg (add_nonneg ?_ ?_) ?_
    · obtain ⟨p, hp⟩ := List.exists_mem_of_ne_nil _ hne
      obtain ⟨h1, h2, h3, _⟩ := hl p hp
      obtain ⟨_, _, s', hs', hth⟩ := hs.board p.1 h1 h2
      rw [h3] at hs'
      cases hs'
      exact div_nonneg (mul_nonneg hth.le hs.pw.le) hs.pv.le
    · refine List.sum_nonneg fun y hy => ?_
      obtain ⟨p, hp, rfl⟩ := List.mem_map.1 hy
      exact mul_nonneg (hl p hp).2.2.2.le (add_nonneg (hleg _ (hl p hp).1) (ih p hp))
    · refine List.sum_nonneg fun y hy => ?_
      obtain ⟨p, hp, rfl⟩ := List.mem_map.1 hy
      exact (hl p hp).2.2.2.le

theorem label_arrived (ha : Admissible routes sPTP freq pas) (hx : buildExtGraph g routes sPTP freq = .ok x)
    {o : Option (CityNode K)} {d : CityNode K} {r : HResult K} (hr : buildHyperpath ⟨x.nodes, x.edges, pas, o, some d⟩ = .ok r)
    (hd : .city d ∈ allNodes x.nodes) : r.label (.city d) = 0 := by
  have h1 := C39_optimal ha hx hr (Strategy.arrive d rfl)
  have h0 : accessTime pas o (.city d) = 0 := rfl
  rw [h0, add_zero, WithTop.coe_zero] at h1
  refine le_antisymm h1 ?_
  obtain ⟨c, hc, hl⟩ := C38_attained ha hx hr hd (fun h => by rw [h] at h1; exact absurd h1 (by simp))
  rw [hl, h0, add_zero, ← WithTop.coe_zero, WithTop.coe_le_coe]
  exact strategy_cost_nonneg (ha.searchable hx) hc

theorem label_falls (ha : Admissible routes sPTP freq pas) (hx : buildExtGraph g routes sPTP freq = .ok x)
    {o : Option (CityNode K)} {d : CityNode K} {r : HResult K} (hr : buildHyperpath ⟨x.nodes, x.edges, pas, o, some d⟩ = .ok r)
    {a : ENode K} (had : a ≠ .city d) {e : EEdge K} (he : e ∈ r.succ a) :
    r.label e.j + ((accessTime pas o a : K) : WithTop K) ≤ r.label a + ((accessTime pas o e.j : K) : WithTop K) := by
  have hsr := ha.searchable hx
  by_cases hb : e.type = .boarding
  · obtain ⟨s, _, _, h3, _⟩ := C40_lines ha hx hr he hb
    obtain ⟨h4, _, h5, h6⟩ := h3 e he
    have h7 := (C40_attractive ha hx hr he hb h4 hb h5 h6).1 he
    obtain ⟨n, hn⟩ := hsr.boarded e h4 hb
    have h0 : accessTime pas o e.j = 0 := by rw [hn]; rfl
    rw [h0, WithTop.coe_zero, add_zero]
    exact h7.le
  · by_cases htop : r.label a = ⊤
    · rw [htop, top_add]
      exact le_top
    · obtain ⟨e', h1, h2, _, _, h5⟩ := C40_legs ha hx hr htop (fun h => had (Option.some.inj h)) (fun b hb' hbb => by
        obtain ⟨_, _, _, h3, _⟩ := C40_lines ha hx hr hb' hbb
        exact hb (h3 e he).2.1)
      rw [h1, List.mem_singleton] at he
      subst he
      rw [h5]
      have hleg : 0 ≤ legTime pas (some d) e :=
        legTime_nonneg (h := ⟨x.nodes, x.edges, pas, o, some d⟩) hsr h2
      refine add_le_add ?_ (le_refl _)
      exact le_add_of_nonneg_left (by rwa [← WithTop.coe_zero, WithTop.coe_le_coe])

/-- C77: along an itinerary the remaining time, without the walk to the first stop, never rises, and at the destination it is 0 -/
theorem C77_falls (ha : Admissible routes sPTP freq pas) (hx : buildExtGraph g routes sPTP freq = .ok x)
    {o d : CityNode K} {r : HResult K} {paths : Dict (StopNode K) (List (List (ENode K)))}
    (h : hyperpathOD ⟨x.nodes, x.edges, pas, none, none⟩ o d = .ok (r, paths)) (hd : d ∈ Dict.keys x.nodes)
    {s : StopNode K} {l : List (List (ENode K))} (hs : (s, l) ∈ paths) {p : List (ENode K)} (hp : p ∈ l) :
    List.IsChain (fun a b => r.label b + ((accessTime pas (some o) a : K) : WithTop K) ≤
      r.label a + ((accessTime pas (some o) b : K) : WithTop K)) p.tail ∧ p.getLast?.map r.label = some 0 := by
  have hlast := (C41_well_formed ha hx h hs hp).2.1
  obtain ⟨r', paths', h1, h2, h3, h4⟩ := hyperpathOD_spec (h := ⟨x.nodes, x.edges, pas, none, none⟩) (ha.searchable hx) o d
  rw [h1] at h
  cases h
  simp only at h2
  obtain ⟨q, hq, rfl⟩ := ((h4 s l hs).2.2 p).1 hp
  constructor
  · rw [List.tail_cons]
    clear hlast hp
    generalize ENode.stop s = a at hq
    induction hq with
    | here => exact List.isChain_singleton _
    | step hx' e he hq ih => exact List.IsChain.cons_cons (label_falls ha hx h2 hx' he) ih
  · rw [hlast, Option.map_some, label_arrived ha hx h2]
    obtain ⟨y, hy, hy'⟩ := List.mem_map.1 hd
    unfold allNodes
    rw [List.mem_flatMap]
    exact ⟨y, hy, by rw [hy']; exact List.mem_cons_self⟩

theorem chain_reached {α : Type} {R : α → α → Prop} : ∀ {q : List α} {a : α}, List.IsChain R (a :: q) → ∀ b ∈ q, ∃ c, R c b := by
  intro q
  induction q with
  | nil => intro a _ b hb; cases hb
  | cons c q ih =>
    intro a h b hb
    rw [List.isChain_cons_cons] at h
    rcases List.mem_cons.1 hb with rfl | hb
    · exact ⟨a, h.1⟩
    · exact ih h.2 b hb

theorem chain_mono {α : Type} {R S : α → α → Prop} : ∀ {q : List α} {a : α}, (∀ c ∈ a :: q, ∀ b ∈ q, R c b → S c b) →
    List.IsChain R (a :: q) → List.IsChain S (a :: q) := by
  intro q
  induction q with
  | nil => intro a _ _; exact List.isChain_singleton _
  | cons c q ih =>
    intro a hRS h
    rw [List.isChain_cons_cons] at h ⊢
    exact ⟨hRS a List.mem_cons_self c List.mem_cons_self h.1,
      ih (fun c hc b hb => hRS c (List.mem_cons_of_mem _ hc) b (List.mem_cons_of_mem _ hb)) h.2⟩

theorem stop_of_allNodes {nodes : ENodes K} {s : StopNode K} (h : .stop s ∈ allNodes nodes) : s ∈ stopsOf nodes := by
  unfold allNodes at h
  unfold stopsOf
  simp only [List.mem_flatMap, List.mem_cons, List.mem_map, reduceCtorEq, false_or, ENode.stop.injEq, and_false, exists_false,
    or_false] at h
  obtain ⟨y, hy, z, hz, rfl⟩ := h
  exact List.mem_flatMap.2 ⟨y, hy, List.mem_map.2 ⟨z, hz, rfl⟩⟩

/-- C77: if the origin has no other stop, the labels of the itinerary themselves never rise -/
theorem C77_falls_single (ha : Admissible routes sPTP freq pas) (hi : DistinctIds g) (hx : buildExtGraph g routes sPTP freq = .ok x)
    {o d : CityNode K} {r : HResult K} {paths : Dict (StopNode K) (List (List (ENode K)))}
    (h : hyperpathOD ⟨x.nodes, x.edges, pas, none, none⟩ o d = .ok (r, paths)) (hd : d ∈ Dict.keys x.nodes)
    {s : StopNode K} {l : List (List (ENode K))} (hs : (s, l) ∈ paths) (hone : ∀ s' ∈ stopsOf x.nodes, s'.city = o → s' = s)
    {p : List (ENode K)} (hp : p ∈ l) : List.IsChain (fun a b => r.label b ≤ r.label a) p.tail := by
  obtain ⟨hpre, _, hnd, hch⟩ := C41_well_formed ha hx h hs hp
  have hf := (C77_falls ha hx h hd hs hp).1
  obtain ⟨q, rfl⟩ := hpre
  simp only [List.cons_append, List.nil_append, List.tail_cons] at hch hf hnd ⊢
  have hacc : ∀ b ∈ q, accessTime pas (some o) b = 0 := by
    intro b hb
    cases b with
    | city c => rfl
    | route n => rfl
    | stop s' =>
      obtain ⟨c, e, he, _, _, hej⟩ := chain_reached hch _ hb
      have hin := ((ha.searchable hx).ends e he).2
      rw [hej] at hin
      refine if_neg fun hc => ?_
      rw [hone s' (stop_of_allNodes hin) (Option.some.inj hc)] at hb
      exact (List.nodup_cons.1 (List.nodup_cons.1 hnd).2).1 hb
  refine chain_mono (fun c hc b hb hcb => ?_) hf
  rw [hacc b hb, WithTop.coe_zero, add_zero] at hcb
  refine le_trans (le_add_of_nonneg_right ?_) hcb
  rw [← WithTop.coe_zero, WithTop.coe_le_coe]
  rcases List.mem_cons.1 hc with rfl | hc
  · have hso := (((C41_paths ha hi hx h).1 s).1 (List.mem_map.2 ⟨_, hs, rfl⟩)).1
    obtain ⟨entries, hspec⟩ := extSpec hx
    have ht := (ha.searchable hx).time _ ((hspec.mem_edges _).2 (Or.inl ⟨s, hso, Or.inl rfl⟩))
    unfold accessTime
    dsimp only
    split
    · exact div_nonneg (mul_nonneg ht ha.pa) ha.pv.le
    · exact le_refl _
  · rw [hacc c hc]

/-- C77: every line that is waited for at a stop of the origin begins an itinerary, and every itinerary begins with such a line; so
there are at least as many itineraries as lines, and at least one -/
theorem C77_counts (ha : Admissible routes sPTP freq pas) (hi : DistinctIds g) (hx : buildExtGraph g routes sPTP freq = .ok x)
    {o d : CityNode K} {r : HResult K} {paths : Dict (StopNode K) (List (List (ENode K)))}
    (h : hyperpathOD ⟨x.nodes, x.edges, pas, none, none⟩ o d = .ok (r, paths)) {s : StopNode K} {l : List (List (ENode K))}
    (hs : (s, l) ∈ paths) :
    (∀ e ∈ r.succ (.stop s), e.type = .boarding ∧ ∃ p ∈ l, p[2]? = some e.j) ∧
    (∀ p ∈ l, ∃ e ∈ r.succ (.stop s), p[2]? = some e.j) ∧
    1 ≤ (r.succ (.stop s)).length ∧ (r.succ (.stop s)).length ≤ l.length := by
  obtain ⟨hkeys, _⟩ := C41_paths ha hi hx h
  obtain ⟨hso, hsc, hfin⟩ := (hkeys s).1 (List.mem_map.2 ⟨_, hs, rfl⟩)
  have hg : HInput.Good ⟨x.nodes, x.edges, pas, some o, some d⟩ := ha.searchable hx
  obtain ⟨r', paths', h1, h2, h3, h4⟩ := hyperpathOD_spec (h := ⟨x.nodes, x.edges, pas, none, none⟩) (ha.searchable hx) o d
  rw [h1] at h
  cases h
  simp only at h2
  obtain ⟨st, Q, hF, hb⟩ := buildHyperpath_spec hg
  rw [h2] at hb
  cases hb
  obtain ⟨hne, hnd, hmem⟩ := h4 s l hs
  simp only at hmem hfin ⊢
  have hbegin : ∀ p ∈ l, ∃ e ∈ finalSucc st (.stop s), p[2]? = some e.j := by
    intro p hp
    obtain ⟨q, hq, rfl⟩ := (hmem p).1 hp
    cases hq with
    | step _ e he hq => exact ⟨e, he, rfl⟩
  have hboard : ∀ e ∈ finalSucc st (.stop s), e.type = .boarding := by
    intro e he
    obtain ⟨hQ, hei⟩ := (finalSucc_spec hg hF _).1 e he
    obtain ⟨g1, g2, _⟩ := hF.inv.seen e hQ
    rcases edge_cases hi hx g1 with ⟨_, s', h5, _⟩ | ⟨_, s', h5, h6⟩ | ⟨ht, _⟩ | ⟨_, n, _, h5, _⟩ | ⟨_, p, n, _, _, _, h5, _⟩
    · rw [hei] at h5; cases h5
    · rw [hei] at h5
      cases h5
      exact absurd (by rw [h6, hsc]; rfl) g2.2
    · exact ht
    · rw [hei] at h5; cases h5
    · rw [hei] at h5; cases h5
  have hstart : ∀ e ∈ finalSucc st (.stop s), ∃ p ∈ l, p[2]? = some e.j := by
    intro e he
    obtain ⟨_, _, _, _, _, t, ht, _⟩ := C40_lines ha hx h2 he (hboard e he)
    have hej : finalLabel ⟨x.nodes, x.edges, pas, some o, some d⟩ st e.j = (t e : WithTop K) := ht e he
    rw [finalLabel_eq] at hej
    have hbest : st.best e.j ≠ ⊤ := fun hh => by rw [hh, top_add] at hej; exact absurd hej (by simp)
    obtain ⟨q, hq⟩ := leads_of_best hg hF rfl _ _ (le_refl _) hbest
    exact ⟨_, (hmem _).2 ⟨_, Leads.step (by simp) e he hq, rfl⟩, rfl⟩
  refine ⟨fun e he => ⟨hboard e he, hstart e he⟩, hbegin, ?_, ?_⟩
  · obtain ⟨p, hp⟩ := List.exists_mem_of_ne_nil _ hne
    obtain ⟨e, he, _⟩ := hbegin p hp
    exact List.length_pos_of_mem he
  · have hinj := finalSucc_inj hg hF (.stop s)
    have hsub : ((finalSucc st (.stop s)).map fun e => some e.j) ⊆ l.map fun p => p[2]? := by
      intro y hy
      obtain ⟨e, he, rfl⟩ := List.mem_map.1 hy
      obtain ⟨p, hp, hpe⟩ := hstart e he
      exact List.mem_map.2 ⟨p, hp, hpe⟩
    have hnd' : ((finalSucc st (.stop s)).map fun e => some e.j).Nodup := by
      have := hinj.map (Option.some_injective _)
      rwa [List.map_map] at this
    have := (hnd'.subperm hsub).length_le
    rwa [List.length_map, List.length_map] at this

/-! ### the summary of all pairs -/

omit [PyMath K] in
theorem pathTwo_lines {α : Type} (a b : α → Str) : ∀ l : List α,
    '\n' :: l.flatMap (fun x => a x ++ '\n' :: (b x ++ ['\n'])) = broken (l.flatMap (fun x => [a x, b x]) ++ [[]]) := by
  intro l
  induction l with
  | nil => rfl
  | cons x l ih =>
    rw [show (x :: l).flatMap (fun x => [a x, b x]) ++ [[]] = a x :: b x :: (l.flatMap (fun x => [a x, b x]) ++ [[]]) from rfl,
      List.flatMap_cons, broken_cons, broken_cons, ← ih]
    simp only [List.append_assoc, List.cons_append, List.nil_append]

/-- the fields of the first line of a stop -/
def firstFields (r : ODResult K) : List Str :=
  ["origin: ".toList ++ r.origin.node.name, " destination: ".toList ++ r.dest.node.name, " vij: ".toList ++ fixed 2 r.vij]

/-- the fields of the second line of a stop -/
def secondFields (r : ODResult K) (q : StopNode K × List (List (ENode K))) : List Str :=
  ["\t mode: ".toList ++ q.1.mode.name, " label: ".toList ++ (fixedTop 2 (r.res.label (.stop q.1)) ++ ' ' :: "[EIV]".toList),
    " n° elemental paths: ".toList ++ showInt q.2.length,
    " n° elemental paths (successors): ".toList ++ showInt (r.res.succ (.stop q.1)).length]

omit [PyMath K] in
theorem pair_words (a o b d c v e m f l h p i s b' c' e' f' h' k' i' : Str) (hb : b = ',' :: b') (hc : c = ',' :: c')
    (he : e = '\n' :: e') (hf : f = ',' :: f') (hh : h = k' ++ ',' :: h') (hi : i = ',' :: i') :
    a ++ (o ++ (b ++ (d ++ (c ++ (v ++ (e ++ (m ++ (f ++ (l ++ (h ++ (p ++ (i ++ (s ++ ['\n']))))))))))))) =
      joinWith ',' [a ++ o, b' ++ d, c' ++ v] ++ '\n' :: (joinWith ',' [e' ++ m, f' ++ (l ++ k'), h' ++ p, i' ++ s] ++ ['\n']) := by
  subst hb hc he hf hh hi
  simp only [joinWith, List.append_assoc, List.cons_append]

omit [PyMath K] in
theorem pairText_lines (r : ODResult K) (q : StopNode K × List (List (ENode K))) :
    pairText r q = joinWith ',' (firstFields r) ++ '\n' :: (joinWith ',' (secondFields r q) ++ ['\n']) := by
  unfold pairText firstFields secondFields
  exact pair_words _ _ _ _ _ _ _ _ _ _ _ _ _ _ _ _ _ _ _ _ _ (by decide) (by decide) (by decide) (by decide) (by decide)
    (by decide)

/-- the two lines of every stop of every pair -/
def summaryLines (l : List (ODResult K)) : List Str :=
  l.flatMap fun r => r.paths.flatMap fun q => [joinWith ',' (firstFields r), joinWith ',' (secondFields r q)]

omit [PyMath K] in
theorem summaryText_lines (l : List (ODResult K)) : summaryText l = [] ++ broken (summaryLines l ++ [[]]) := by
  have h := pathTwo_lines (fun y : ODResult K × StopNode K × List (List (ENode K)) => joinWith ',' (firstFields y.1))
    (fun y => joinWith ',' (secondFields y.1 y.2)) (l.flatMap fun r => r.paths.map fun q => (r, q))
  rw [List.flatMap_assoc, List.flatMap_assoc] at h
  unfold summaryText summaryLines
  rw [List.nil_append]
  refine Eq.trans ?_ (h.trans ?_)
  · congr 1
    refine List.flatMap_congr fun r _ => ?_
    rw [List.flatMap_map]
    exact List.flatMap_congr fun q _ => pairText_lines r q
  · congr 2
    exact List.flatMap_congr fun r _ => List.flatMap_map _ _ _

omit [PyMath K] in
theorem number_plain {c : Char} (h : c = '-' ∨ c = '.' ∨ ∃ d, d < 10 ∧ c = digitChar d) : c ≠ '\n' ∧ c ≠ ',' ∧ c ≠ ' ' := by
  rcases h with h | h | ⟨d, hd, h⟩
  · rw [h]; decide
  · rw [h]; decide
  · rw [h]
    interval_cases d <;> decide

omit [PyMath K] in
theorem fixedTop_chars (p : Nat) (y : WithTop K) : ∀ c ∈ fixedTop p y, c ≠ '\n' ∧ c ≠ ',' ∧ c ≠ ' ' := by
  cases y with
  | top => exact (by decide : ∀ c ∈ "inf".toList, c ≠ '\n' ∧ c ≠ ',' ∧ c ≠ ' ')
  | coe a => exact fun c hc => number_plain (fixed_chars p a c hc)

omit [PyMath K] in
theorem showInt_noComma (i : Int) : ∀ c ∈ showInt i, c ≠ '\n' ∧ c ≠ ',' := by
  intro c hc
  rcases showInt_chars i c hc with h | h
  · exact ⟨(number_plain (Or.inl h)).1, (number_plain (Or.inl h)).2.1⟩
  · exact ⟨(number_plain (Or.inr (Or.inr h))).1, (number_plain (Or.inr (Or.inr h))).2.1⟩

omit [PyMath K] in
theorem NoComma.append {a b : Str} (ha : NoComma a) (hb : NoComma b) : NoComma (a ++ b) := by
  intro c hc
  rcases List.mem_append.1 hc with h | h
  · exact ha c h
  · exact hb c h

theorem noComma_words : NoComma "origin: ".toList ∧ NoComma " destination: ".toList ∧ NoComma " vij: ".toList ∧
    NoComma "\t mode: ".toList ∧ NoComma " label: ".toList ∧ NoComma (' ' :: "[EIV]".toList) ∧ NoComma " n° elemental paths: ".toList ∧
    NoComma " n° elemental paths (successors): ".toList := by
  unfold NoComma
  decide

/-- the names of a pair are plain -/
def PlainPair (r : ODResult K) : Prop :=
  NoComma r.origin.node.name ∧ NoComma r.dest.node.name ∧ ∀ q ∈ r.paths, NoComma q.1.mode.name

omit [PyMath K] in
theorem firstFields_plain {r : ODResult K} (h : PlainPair r) : ∀ w ∈ firstFields r, NoComma w := by
  obtain ⟨w1, w2, w3, _⟩ := noComma_words
  intro w hw
  unfold firstFields at hw
  simp only [List.mem_cons, List.not_mem_nil, or_false] at hw
  rcases hw with rfl | rfl | rfl
  · exact w1.append h.1
  · exact w2.append h.2.1
  · exact w3.append fun c hc => ⟨(number_plain (fixed_chars _ _ c hc)).1, (number_plain (fixed_chars _ _ c hc)).2.1⟩

omit [PyMath K] in
theorem secondFields_plain {r : ODResult K} (h : PlainPair r) {q : StopNode K × List (List (ENode K))} (hq : q ∈ r.paths) :
    ∀ w ∈ secondFields r q, NoComma w := by
  obtain ⟨_, _, _, w4, w5, w6, w7, w8⟩ := noComma_words
  intro w hw
  unfold secondFields at hw
  simp only [List.mem_cons, List.not_mem_nil, or_false] at hw
  rcases hw with rfl | rfl | rfl | rfl
  · exact w4.append (h.2.2 q hq)
  · exact w5.append (NoComma.append (fun c hc => ⟨(fixedTop_chars _ _ c hc).1, (fixedTop_chars _ _ c hc).2.1⟩) w6)
  · exact w7.append (showInt_noComma _)
  · exact w8.append (showInt_noComma _)

omit [PyMath K] in
theorem join_breaks {ws : List Str} (h : ∀ w ∈ ws, NoComma w) : ∀ c ∈ joinWith ',' ws, c ≠ '\n' := by
  induction ws with
  | nil => intro c hc; cases hc
  | cons w ws ih =>
    cases ws with
    | nil => exact fun c hc => (h w List.mem_cons_self c hc).1
    | cons v t =>
      intro c hc
      rw [joinWith] at hc
      rcases List.mem_append.1 hc with hc | hc
      · exact (h w List.mem_cons_self c hc).1
      · rcases List.mem_cons.1 hc with rfl | hc
        · decide
        · exact ih (fun w hw => h w (List.mem_cons_of_mem _ hw)) c hc
      · simp

omit [PyMath K] in
theorem label_word (y : WithTop K) : (fixedTop 2 y ++ ' ' :: "[EIV]".toList).takeWhile (fun c => c ≠ ' ') = fixedTop 2 y := by
  rw [List.takeWhile_append_of_pos, List.takeWhile_cons_of_neg (by decide), List.append_nil]
  exact fun c hc => by simpa using (fixedTop_chars 2 y c hc).2.2

omit [PyMath K] in
theorem read_pair {r : ODResult K} (h : PlainPair r) {q : StopNode K × List (List (ENode K))} (hq : q ∈ r.paths) :
    ∃ s, readSummaryPair (joinWith ',' (firstFields r)) (joinWith ',' (secondFields r q)) = some s ∧ SaysPair r q s := by
  obtain ⟨v, hv, hv'⟩ := readDecimal_two r.vij
  obtain ⟨l, hl, hl'⟩ := readTop_two (r.res.label (.stop q.1))
  refine ⟨⟨r.origin.node.name, r.dest.node.name, v, q.1.mode.name, l, q.2.length, (r.res.succ (.stop q.1)).length⟩, ?_,
    ⟨rfl, rfl, hv', rfl, hl', rfl, rfl⟩⟩
  unfold readSummaryPair
  rw [splitOn_joinWith _ (by simp [firstFields]) (fun w hw c hc => (firstFields_plain h w hw c hc).2),
    splitOn_joinWith _ (by simp [secondFields]) (fun w hw c hc => (secondFields_plain h hq w hw c hc).2)]
  unfold firstFields secondFields
  dsimp only
  rw [after_append, after_append, after_append, after_append, after_append, after_append, after_append]
  simp only [Option.bind_some, hv, label_word, hl, pyInt_showInt]

omit [PyMath K] in
theorem read_summaries : ∀ l : List (ODResult K × StopNode K × List (List (ENode K))), (∀ y ∈ l, PlainPair y.1 ∧ y.2 ∈ y.1.paths) →
    ∃ seen, readSummaries (l.flatMap (fun y => [joinWith ',' (firstFields y.1), joinWith ',' (secondFields y.1 y.2)]) ++ [[]]) =
      some seen ∧ List.Forall₂ (fun y s => SaysPair y.1 y.2 s) l seen := by
  intro l
  induction l with
  | nil => intro _; exact ⟨[], rfl, .nil⟩
  | cons y l ih =>
    intro h
    obtain ⟨seen, h1, h2⟩ := ih fun z hz => h z (List.mem_cons_of_mem _ hz)
    obtain ⟨s, h3, h4⟩ := read_pair (h y List.mem_cons_self).1 (h y List.mem_cons_self).2
    refine ⟨s :: seen, ?_, .cons h4 h2⟩
    rw [List.flatMap_cons, List.append_assoc, List.cons_append, List.cons_append, List.nil_append]
    revert h1
    cases hc : l.flatMap (fun y => [joinWith ',' (firstFields y.1), joinWith ',' (secondFields y.1 y.2)]) ++ [[]] with
    | nil => exact absurd hc (by simp)
    | cons c t =>
      intro h1
      rw [readSummaries, h3, h1]

omit [PyMath K] in
/-- C78: the summary can be read back: two lines for each stop of the origin of each pair with itineraries, in order, with the names
and the numbers of itineraries and lines exactly and the trips and the label up to half a hundredth -/
theorem C78_summary (l : List (ODResult K)) (h : ∀ r ∈ l, PlainPair r) :
    ∃ seen, readSummaries ((splitOn '\n' (summaryText l)).drop 1) = some seen ∧
      List.Forall₂ (fun (y : ODResult K × StopNode K × List (List (ENode K))) s => SaysPair y.1 y.2 s)
        (l.flatMap fun r => r.paths.map fun q => (r, q)) seen := by
  obtain ⟨seen, h1, h2⟩ := read_summaries (l.flatMap fun r => r.paths.map fun q => (r, q)) (by
    intro y hy
    obtain ⟨r, hr, hy⟩ := List.mem_flatMap.1 hy
    obtain ⟨q, hq, rfl⟩ := List.mem_map.1 hy
    exact ⟨h r hr, hq⟩)
  refine ⟨seen, ?_, h2⟩
  rw [summaryText_lines]
  unfold broken
  rw [split_lines [] (by simp), List.drop_one, List.tail_cons, ← h1]
  · congr 2
    unfold summaryLines
    rw [List.flatMap_assoc]
    exact List.flatMap_congr fun r _ => by rw [List.flatMap_map]
  · intro u hu
    rcases List.mem_append.1 hu with hu | hu
    · unfold summaryLines at hu
      obtain ⟨r, hr, hu⟩ := List.mem_flatMap.1 hu
      obtain ⟨q, hq, hu⟩ := List.mem_flatMap.1 hu
      rcases List.mem_cons.1 hu with rfl | hu
      · exact join_breaks (firstFields_plain (h r hr))
      · rw [List.mem_singleton.1 hu]
        exact join_breaks (secondFields_plain (h r hr) hq)
    · rw [List.mem_singleton.1 hu]
      simp

/-! ### the graph of a pair -/

omit [PyMath K] in
theorem split_unlines : ∀ ls : List Str, (∀ w ∈ ls, ∀ c ∈ w, c ≠ '\n') → splitOn '\n' (unlines ls) = ls ++ [[]] := by
  intro ls
  induction ls with
  | nil => intro _; rfl
  | cons w ls ih =>
    intro h
    have : unlines (w :: ls) = w ++ '\n' :: unlines ls := by simp [unlines]
    rw [this, splitOn_append_sep _ (h w List.mem_cons_self), ih fun v hv => h v (List.mem_cons_of_mem _ hv)]
    rfl

/-- the lines with the name of a node -/
def headLines : ENode K → List Str
  | .city c => ["City_node".toList, "\t-Graph_node_name: ".toList ++ c.node.name]
  | .stop s => ["Stop_node".toList, "\t-Mode_name: ".toList ++ s.mode.name, "\t-Graph_node_name: ".toList ++ s.city.node.name]
  | .route n => ["Route_node".toList, "\t-route_id: ".toList ++ n.route.id, "\t-direction: ".toList ++ dirText n.dir,
      "\t-Graph_node_name: ".toList ++ n.stop.city.node.name]

/-- the lines of a node -/
def hyperLines (r : HResult K) (x : ENode K) : List Str :=
  headLines x ++ ["\t-label: ".toList ++ fixedTop 2 (r.label x), "\t-Successor: ".toList ++ (r.succ x).flatMap succText,
    "\t-Frequencies: ".toList ++ fixed 2 (r.freq x)]

omit [PyMath K] in
theorem head_city (ab a b n r : Str) (h : ab = a ++ '\n' :: b) : ab ++ n ++ '\n' :: r = unlines [a, b ++ n] ++ r := by
  subst h; simp [unlines]

omit [PyMath K] in
theorem head_stop (ab a b n c' c m r : Str) (h : ab = a ++ '\n' :: b) (h' : c' = '\n' :: c) :
    ab ++ (n ++ (c' ++ m)) ++ '\n' :: r = unlines [a, b ++ n, c ++ m] ++ r := by
  subst h h'; simp [unlines]

omit [PyMath K] in
theorem head_route (ab a b n c' c m e' e k r : Str) (h : ab = a ++ '\n' :: b) (h' : c' = '\n' :: c) (h'' : e' = '\n' :: e) :
    ab ++ (n ++ (c' ++ (m ++ (e' ++ k)))) ++ '\n' :: r = unlines [a, b ++ n, c ++ m, e ++ k] ++ r := by
  subst h h' h''; simp [unlines]

omit [PyMath K] in
theorem headText_lines (x : ENode K) (r : Str) : headText x ++ '\n' :: r = unlines (headLines x) ++ r := by
  cases x with
  | city c => exact head_city _ _ _ _ _ (by decide)
  | stop s => exact head_stop _ _ _ _ _ _ _ _ (by decide) (by decide)
  | route n => exact head_route _ _ _ _ _ _ _ _ _ _ _ (by decide) (by decide) (by decide)

omit [PyMath K] in
theorem tail_words (h l' l n s' s m f' f k : Str) (hl : l' = '\n' :: l) (hs : s' = '\n' :: s) (hf : f' = '\n' :: f) :
    h ++ (l' ++ (n ++ (s' ++ (m ++ (f' ++ (k ++ ['\n'])))))) = h ++ '\n' :: unlines [l ++ n, s ++ m, f ++ k] := by
  subst hl hs hf; simp [unlines]

omit [PyMath K] in
theorem hyperNodeText_lines (r : HResult K) (x : ENode K) : hyperNodeText r x = unlines (hyperLines r x) := by
  have h1 : hyperNodeText r x = headText x ++ '\n' :: unlines ["\t-label: ".toList ++ fixedTop 2 (r.label x),
      "\t-Successor: ".toList ++ (r.succ x).flatMap succText, "\t-Frequencies: ".toList ++ fixed 2 (r.freq x)] :=
    tail_words _ _ _ _ _ _ _ _ _ _ (by decide) (by decide) (by decide)
  rw [h1, headText_lines]
  unfold hyperLines unlines
  rw [List.flatMap_append]

omit [PyMath K] in
theorem hyperText_lines (nodes : ENodes K) (r : HResult K) : hyperText nodes r =
    unlines ("HyperPath Graph".toList :: (allNodes nodes).flatMap (hyperLines r)) := by
  have h : (allNodes nodes).flatMap (hyperNodeText r) = unlines ((allNodes nodes).flatMap (hyperLines r)) := by
    unfold unlines
    rw [List.flatMap_assoc]
    exact List.flatMap_congr fun x _ => hyperNodeText_lines r x
  unfold hyperText
  rw [h]
  rfl

omit [PyMath K] in
theorem endText_breaks {x : ENode K} (h : ∀ w ∈ namesOf x, Untabbed w) : ∀ c ∈ endText x, c ≠ '\n' := by
  have hw : ∀ w ∈ namesOf x, ∀ c ∈ w, c ≠ '\n' := fun w hw c hc => (h w hw c hc).1
  cases x with
  | city c => exact no_break (by decide) (hw _ (by simp [namesOf]))
  | stop s => exact no_break (by decide) (no_break (hw _ (by simp [namesOf])) (no_break (by decide) (hw _ (by simp [namesOf]))))
  | route n =>
    refine no_break (by decide) (no_break (hw _ (by simp [namesOf])) (no_break ?_ (no_break (by decide) (hw _ (by simp [namesOf])))))
    cases n.dir <;> decide

omit [PyMath K] in
theorem hyperLines_breaks {r : HResult K} {x : ENode K} (h : ∀ w ∈ namesOf x, Untabbed w)
    (hs : ∀ e ∈ r.succ x, ∀ w ∈ namesOf e.i ++ namesOf e.j, Untabbed w) : ∀ u ∈ hyperLines r x, ∀ c ∈ u, c ≠ '\n' := by
  have hw : ∀ w ∈ namesOf x, ∀ c ∈ w, c ≠ '\n' := fun w hw c hc => (h w hw c hc).1
  intro u hu
  unfold hyperLines at hu
  rcases List.mem_append.1 hu with hu | hu
  · cases x with
    | city c =>
      simp only [headLines, List.mem_cons, List.not_mem_nil, or_false] at hu
      rcases hu with rfl | rfl
      · decide
      · exact no_break (by decide) (hw _ (by simp [namesOf]))
    | stop s =>
      simp only [headLines, List.mem_cons, List.not_mem_nil, or_false] at hu
      rcases hu with rfl | rfl | rfl
      · decide
      · exact no_break (by decide) (hw _ (by simp [namesOf]))
      · exact no_break (by decide) (hw _ (by simp [namesOf]))
    | route n =>
      simp only [headLines, List.mem_cons, List.not_mem_nil, or_false] at hu
      rcases hu with rfl | rfl | rfl | rfl
      · decide
      · exact no_break (by decide) (hw _ (by simp [namesOf]))
      · exact no_break (by decide) (by cases n.dir <;> decide)
      · exact no_break (by decide) (hw _ (by simp [namesOf]))
  · simp only [List.mem_cons, List.not_mem_nil, or_false] at hu
    rcases hu with rfl | rfl | rfl
    · exact no_break (by decide) (fixedTop_breaks _ _)
    · refine no_break (by decide) fun c hc => ?_
      obtain ⟨e, he, hc⟩ := List.mem_flatMap.1 hc
      have h1 := endText_breaks fun w hw => hs e he w (List.mem_append_left _ hw)
      have h2 := endText_breaks fun w hw => hs e he w (List.mem_append_right _ hw)
      unfold succText at hc
      rcases List.mem_cons.1 hc with rfl | hc
      · decide
      · exact no_break (by cases e.type <;> decide) (no_break (by decide) (no_break h1 (no_break (by decide)
          (no_break h2 (by decide))))) c hc
    · exact no_break (by decide) fun c hc => (fixed_plain _ _ c hc).2

omit [PyMath K] in
theorem headLines_after (x : ENode K) : (headLines x).filterMap (after "\t-label: ".toList) = [] ∧
    (headLines x).filterMap (after "\t-Frequencies: ".toList) = [] := by
  cases x with
  | city c =>
    unfold headLines
    simp only [List.filterMap_cons, List.filterMap_nil]
    rw [after_none (by decide), after_differ (by decide), after_none (by decide), after_differ (by decide)]
    exact ⟨rfl, rfl⟩
  | stop s =>
    unfold headLines
    simp only [List.filterMap_cons, List.filterMap_nil]
    rw [after_none (by decide), after_differ (by decide), after_differ (by decide), after_none (by decide),
      after_differ (by decide), after_differ (by decide)]
    exact ⟨rfl, rfl⟩
  | route n =>
    unfold headLines
    simp only [List.filterMap_cons, List.filterMap_nil]
    rw [after_none (by decide), after_differ (by decide), after_differ (by decide), after_differ (by decide), after_none (by decide),
      after_differ (by decide), after_differ (by decide), after_differ (by decide)]
    exact ⟨rfl, rfl⟩

omit [PyMath K] in
theorem hyperLines_after (r : HResult K) (x : ENode K) :
    (hyperLines r x).filterMap (after "\t-label: ".toList) = [fixedTop 2 (r.label x)] ∧
    (hyperLines r x).filterMap (after "\t-Frequencies: ".toList) = [fixed 2 (r.freq x)] := by
  obtain ⟨h1, h2⟩ := headLines_after x
  unfold hyperLines
  rw [List.filterMap_append, List.filterMap_append, h1, h2]
  simp only [List.filterMap_cons, List.filterMap_nil, List.nil_append]
  rw [after_append, after_differ (by decide), after_differ (by decide), after_differ (by decide), after_differ (by decide),
    after_append]
  exact ⟨rfl, rfl⟩

omit [PyMath K] in
theorem filterMap_flatMap_single {α β γ : Type} (f : α → List β) (p : β → Option γ) (k : α → γ) (h : ∀ a, (f a).filterMap p = [k a]) :
    ∀ l : List α, (l.flatMap f).filterMap p = l.map k := by
  intro l
  induction l with
  | nil => rfl
  | cons a l ih => rw [List.flatMap_cons, List.filterMap_append, h, ih]; rfl

omit [PyMath K] in
/-- C77: the listing of the graph of a pair has, in the order of the nodes, one label and one frequency for each node -/
theorem C77_graph (nodes : ENodes K) (r : HResult K) (hn : ∀ x ∈ allNodes nodes, ∀ w ∈ namesOf x, Untabbed w)
    (hs : ∀ x ∈ allNodes nodes, ∀ e ∈ r.succ x, e.i ∈ allNodes nodes ∧ e.j ∈ allNodes nodes) :
    (splitOn '\n' (hyperText nodes r)).filterMap (after "\t-label: ".toList) = (allNodes nodes).map (fun x => fixedTop 2 (r.label x)) ∧
    (splitOn '\n' (hyperText nodes r)).filterMap (after "\t-Frequencies: ".toList) =
      (allNodes nodes).map fun x => fixed 2 (r.freq x) := by
  rw [hyperText_lines, split_unlines]
  · have h1 : after "\t-label: ".toList "HyperPath Graph".toList = none := after_none (by decide)
    have h2 : after "\t-Frequencies: ".toList "HyperPath Graph".toList = none := after_none (by decide)
    rw [List.filterMap_append, List.filterMap_append, List.filterMap_cons_none h1, List.filterMap_cons_none h2,
      filterMap_flatMap_single _ _ _ (fun x => (hyperLines_after r x).1), filterMap_flatMap_single _ _ _ (fun x => (hyperLines_after r x).2)]
    constructor <;> exact List.append_nil _
  · intro u hu
    rcases List.mem_cons.1 hu with rfl | hu
    · decide
    · obtain ⟨x, hx, hu⟩ := List.mem_flatMap.1 hu
      refine hyperLines_breaks (hn x hx) (fun e he w hw => ?_) u hu
      rcases List.mem_append.1 hw with hw | hw
      · exact hn _ (hs x hx e he).1 w hw
      · exact hn _ (hs x hx e he).2 w hw

/-- C77: beside the origin itself no time is printed, but `inf` -/
theorem C77_origin (ha : Admissible routes sPTP freq pas) (hx : buildExtGraph g routes sPTP freq = .ok x)
    {o d : CityNode K} {r : HResult K} (hr : buildHyperpath ⟨x.nodes, x.edges, pas, some o, some d⟩ = .ok r)
    (ho : o ∈ Dict.keys x.nodes) (hod : o ≠ d) : r.label (.city o) = ⊤ := by
  have hin : .city o ∈ allNodes x.nodes := by
    obtain ⟨y, hy, hy'⟩ := List.mem_map.1 ho
    unfold allNodes
    rw [List.mem_flatMap]
    exact ⟨y, hy, by rw [hy']; exact List.mem_cons_self⟩
  rw [C39_unreachable ha hx hr hin]
  intro c hc
  generalize hy : ENode.city o = y at hc
  cases hc with
  | arrive d' hd' =>
    injection hd' with hd'
    injection hy with hy
    exact hod (hy.trans hd'.symm)
  | go e he hb hi hj c hc =>
    rw [← hy] at hi
    exact hi rfl
  | wait s l hne hnd hl hs => cases hy

end Generic

section Examples

attribute [local instance] ratMath ratText

/-- the itineraries from node 1 to node 4 of the demonstration -/
def demoOD14 : Option (HResult ℚ × Dict (StopNode ℚ) (List (List (ENode ℚ)))) :=
  match cityOf demoExt.nodes 1, cityOf demoExt.nodes 4 with
  | some o, some d => (hyperpathOD ⟨demoExt.nodes, demoExt.edges, demoPassenger, none, none⟩ o d).toOption
  | _, _ => none

/-- C77: two stops with one itinerary each, and the report; the labels fall in both -/
example : (demoOD14.map fun r => pathsText r.2 r.1.label) = some
    ("\nbus stop\n\n\tNew Path:\n\t\t[City_node P_1: inf]".toList ++ "\n\t\t[Stop_node bus - P_1: 2.7933]".toList ++ "\n\t\t[Route_node a I - P_1: 1.7883]".toList ++
      "\n\t\t[Route_node a I - SC_1: 1.5383]".toList ++ "\n\t\t[Stop_node bus - SC_1: 1.5050]".toList ++ "\n\t\t[Route_node c I - SC_1: 0.5050]".toList ++
      "\n\t\t[Route_node c I - SC_2: 0.0050]".toList ++ "\n\t\t[Stop_node bus - SC_2: 0.0050]".toList ++ "\n\t\t[City_node SC_2: 0.0000]\n\t\t".toList ++
      "\nmetro stop\n\n\tNew Path:\n\t\t[City_node P_1: inf]".toList ++ "\n\t\t[Stop_node metro - P_1: 2.7600]".toList ++
      "\n\t\t[Route_node b I - P_1: 0.7550]".toList ++ "\n\t\t[Route_node b I - SC_2: 0.0050]".toList ++ "\n\t\t[Stop_node metro - SC_2: 0.0050]".toList ++
      "\n\t\t[City_node SC_2: 0.0000]\n\t\t".toList) := by
  decide +kernel

/-- C77: names without breaks and tabulators -/
example : demoOD14.map (fun r => r.2.all fun q => q.1.mode.name.all (fun c => c != '\n' && c != '\t') && q.2.all fun p => p.all fun x =>
    (namesOf x).all fun w => w.all fun c => c != '\n' && c != '\t') = some true ∧
    (allNodes demoExt.nodes).all (fun x => (namesOf x).all fun w => w.all fun c => c != '\n' && c != '\t') = true := by
  refine ⟨by decide +kernel, by decide +kernel⟩

/-- C77: one mode at the origin: trips from node 2, where only buses stop -/
example : ((cityOf demoExt.nodes 2).map fun o => ((stopsOf demoExt.nodes).filter fun s => decide (s.city = o)).length) = some 1 := by
  decide +kernel

/-- the pairs of the demonstration -/
def demoPairs : List (ODResult ℚ) := (allHyperpaths demoExt.nodes demoExt.edges demoPassenger [(1, [(4, 5), (2, 3)])]).toOption.getD []

/-- C78: the names are plain, and there are two pairs -/
example : (∀ r ∈ demoPairs, PlainPair r) ∧ demoPairs.length = 2 := by
  unfold PlainPair NoComma
  decide +kernel

/-- C78: the summary -/
example : summaryText demoPairs =
    ("\norigin: P_1, destination: SC_2, vij: 5.00\n\t mode: bus, label: 2.79 [EIV], n° elemental paths: 1, n° elemental paths (successors): 1".toList ++
      "\norigin: P_1, destination: SC_2, vij: 5.00\n\t mode: metro, label: 2.76 [EIV], n° elemental paths: 1, n° elemental paths (successors): 1".toList ++
      "\norigin: P_1, destination: SC_1, vij: 3.00\n\t mode: bus, label: 1.26 [EIV], n° elemental paths: 1, n° elemental paths (successors): 1".toList ++
      "\norigin: P_1, destination: SC_1, vij: 3.00".toList ++ "\n\t mode: metro, label: 4.30 [EIV], n° elemental paths: 1, n° elemental paths (successors): 1".toList ++ "\n".toList) := by
  decide +kernel

end Examples

end Sidermit
