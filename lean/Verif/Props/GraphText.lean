import Verif.Model.GraphText
import Verif.Spec.GraphText
import Verif.Spec.Report
import Verif.Proofs.Report
import Verif.Proofs.RatText
import Verif.Props.ExtGraph
import Verif.Props.Hyperpath
import Mathlib.Data.Rat.Floor

/-!
Property C74.
-/

namespace Sidermit

set_option linter.unusedSectionVars false

variable {K : Type} [Field K] [LinearOrder K] [IsStrictOrderedRing K] [FloorRing K] [NumText K] [PyMath K]
  {g : Graph K} {routes : List (Route K)} {sPTP : K} {freq : Option (Dict Str K)} {x : ExtGraph K}

theorem edgesBetween_of_mem {l : List (EEdge K)} (hn : (l.map fun e => (e.i, e.j)).Nodup) {e : EEdge K} (he : e ∈ l) :
    edgesBetween l e.i e.j = [e] := by
  induction l with
  | nil => simp at he
  | cons a l ih =>
    rw [List.map_cons, List.nodup_cons] at hn
    unfold edgesBetween
    rcases List.mem_cons.1 he with rfl | he
    · rw [List.filter_cons_of_pos (by simp)]
      congr 1
      rw [List.filter_eq_nil_iff]
      intro b hb hd
      have hd := of_decide_eq_true hd
      exact hn.1 (List.mem_map.2 ⟨b, hb, by rw [hd.1, hd.2]⟩)
    · rw [List.filter_cons_of_neg]
      · exact ih hn.2 he
      · intro hd
        have hd := of_decide_eq_true hd
        exact hn.1 (List.mem_map.2 ⟨e, he, by rw [hd.1, hd.2]⟩)

theorem edgesBetween_nil {l : List (EEdge K)} {a b : ENode K} (h : ∀ e ∈ l, ¬ (e.i = a ∧ e.j = b)) :
    edgesBetween l a b = [] := by
  unfold edgesBetween
  rw [List.filter_eq_nil_iff]
  intro e he hd
  exact h e he (of_decide_eq_true hd)

theorem find_edge {l : List (EEdge K)} (hn : (l.map fun e => (e.i, e.j)).Nodup) {e : EEdge K} (he : e ∈ l) :
    (l.find? fun b => decide (b.i = e.i ∧ b.j = e.j)) = some e := by
  have h := edgesBetween_of_mem hn he
  unfold edgesBetween at h
  rw [← List.head?_filter, h]
  rfl

theorem fixed_two_zero : fixed 2 (0 : K) = "0.00".toList := by
  unfold fixed nearest
  simp
  decide

theorem access_words : "\tAccess edge\n\t-Access time: ".toList = "\tAccess edge".toList ++ '\n' :: "\t-Access time: ".toList := by
  decide

theorem boarding_words : "\t\t\tBoarding edge\n\t\t\t-Frequency: ".toList =
    "\t\t\tBoarding edge".toList ++ '\n' :: "\t\t\t-Frequency: ".toList := by
  decide

theorem alighting_words : "\t\t\tAlighting edge\n\t\t\t-Penalty transfer: ".toList =
    "\t\t\tAlighting edge".toList ++ '\n' :: "\t\t\t-Penalty transfer: ".toList := by
  decide

theorem minutes_words : " [min]\n".toList = " [min]".toList ++ ['\n'] := by decide

theorem rate_words : " [veh/h]\n".toList = " [veh/h]".toList ++ ['\n'] := by decide

theorem hours_words : " [hrs]\n".toList = " [hrs]".toList ++ ['\n'] := by decide

theorem route_words : "\t\t\t\tRoute node\n\t\t\t\t-Route_id: ".toList =
    "\t\t\t\tRoute node".toList ++ '\n' :: "\t\t\t\t-Route_id: ".toList := by
  decide

theorem direction_words : "\n\t\t\t\t-Direction: ".toList = '\n' :: "\t\t\t\t-Direction: ".toList := by decide

theorem previous_words : "\n\t\t\t\t-Previous stop: ".toList = '\n' :: "\t\t\t\t-Previous stop: ".toList := by decide

theorem time_words : "\n\t\t\t\t-Time to previous stop: ".toList = '\n' :: "\t\t\t\t-Time to previous stop: ".toList := by
  decide

theorem stop_words : "\t\tStop node\n\t\t-Mode name: ".toList =
    "\t\tStop node".toList ++ '\n' :: "\t\t-Mode name: ".toList := by
  decide

theorem city_words : "City node\n-Graph node name: ".toList = "City node".toList ++ '\n' :: "-Graph node name: ".toList := by
  decide

theorem break_word : "\n".toList = ['\n'] := by decide

theorem access_stop_words : " [min]\n\t\tStop node\n\t\t-Mode name: ".toList =
    " [min]".toList ++ '\n' :: "\t\tStop node\n\t\t-Mode name: ".toList := by
  decide

theorem two_lines {a b c ab cn : Str} (h1 : ab = a ++ '\n' :: b) (h2 : cn = c ++ ['\n']) (w : Str) :
    ab ++ w ++ cn = unlines [a, b ++ w ++ c] := by
  subst h1 h2
  simp [unlines]

theorem five_lines {a b ab c c' e e' f f' h h' : Str} (h1 : ab = a ++ '\n' :: b) (h2 : c' = '\n' :: c) (h3 : e' = '\n' :: e)
    (h4 : f' = '\n' :: f) (h5 : h' = h ++ ['\n']) (i d p t : Str) :
    ab ++ i ++ c' ++ d ++ e' ++ p ++ f' ++ t ++ h' = unlines [a, b ++ i, c ++ d, e ++ p, f ++ t ++ h] := by
  subst h1 h2 h3 h4 h5
  simp [unlines]

theorem title_lines {a b ab l : Str} (h1 : ab = a ++ '\n' :: b) (h2 : l = ['\n']) (n : Str) (r : List Str) (r' : Str)
    (hr : r' = unlines r) : ab ++ n ++ l ++ r' = unlines ([a, b ++ n] ++ r) := by
  subst h1 h2 hr
  simp [unlines]

theorem access_lines {a b ab m s s' n : Str} (h1 : ab = a ++ '\n' :: b) (h2 : s' = m ++ '\n' :: s) (hn : n = ['\n'])
    (w name rest : Str) : unlines [a, b ++ w ++ m] ++ (s ++ name ++ n ++ rest) = ab ++ (w ++ (s' ++ (name ++ (n ++ rest)))) := by
  subst h1 h2 hn
  simp [unlines]

theorem stop_lines {a b t l n s' s1 s2 : Str} (h1 : s' = s1 ++ '\n' :: s2) (hn : n = ['\n']) (name r' : Str) (r : List Str)
    (hr : r' = unlines r) : unlines [a, b ++ t ++ l] ++ (s' ++ name ++ n ++ r') =
      unlines ([a, b ++ t ++ l, s1, s2 ++ name] ++ r) := by
  subst h1 hn hr
  simp [unlines]

theorem flatMap_one {α : Type} (f : α → Str) (a : α) : [a].flatMap f = f a := by simp

section Text

variable {entries : List (RouteEntry K)} {fr : Dict Str K}

theorem boarding_text (h : ExtSpec g routes sPTP fr x entries) {e : RouteEntry K} (he : e ∈ entries) :
    (edgesBetween x.edges (.stop e.node.stop) (.route e.node)).flatMap boardingText =
      unlines (if e.node.CanBoard then ["\t\t\tBoarding edge".toList,
        "\t\t\t-Frequency: ".toList ++ fixed 2 (fr.getD e.node.route.id 0 / (e.node.route.mode.d : K)) ++ " [veh/h]".toList]
      else []) := by
  by_cases hb : e.node.CanBoard
  · have hm := (h.mem_edges ⟨.stop e.node.stop, .route e.node, 0,
      some (fr.getD e.node.route.id 0 / (e.node.route.mode.d : K)), .boarding⟩).2 (Or.inr (Or.inl ⟨e, he, hb, rfl⟩))
    have hl := edgesBetween_of_mem h.edges_nodup hm
    dsimp only at hl
    rw [hl, if_pos hb, flatMap_one]
    unfold boardingText
    exact two_lines boarding_words rate_words _
  · rw [if_neg hb, edgesBetween_nil]
    · rfl
    · intro b hbm hd
      rcases (h.mem_edges b).1 hbm with ⟨s, _, rfl | rfl⟩ | ⟨n, _, hc, rfl⟩ | ⟨n, _, _, rfl⟩ | ⟨n, _, p, _, rfl⟩
      · exact absurd hd.1 (by simp)
      · exact absurd hd.2 (by simp)
      · have h2 := hd.2
        injection h2 with h2
        exact hb (h2 ▸ hc)
      · exact absurd hd.1 (by simp)
      · exact absurd hd.1 (by simp)

theorem alighting_text (h : ExtSpec g routes sPTP fr x entries) {e : RouteEntry K} (he : e ∈ entries) :
    (edgesBetween x.edges (.route e.node) (.stop e.node.stop)).flatMap alightingText =
      unlines (if e.node.CanAlight then ["\t\t\tAlighting edge".toList,
        "\t\t\t-Penalty transfer: ".toList ++ fixed 2 sPTP ++ " [min]".toList] else []) := by
  by_cases hb : e.node.CanAlight
  · have hm := (h.mem_edges ⟨.route e.node, .stop e.node.stop, sPTP / 60, none, .alighting⟩).2
      (Or.inr (Or.inr (Or.inl ⟨e, he, hb, rfl⟩)))
    have hl := edgesBetween_of_mem h.edges_nodup hm
    dsimp only at hl
    rw [hl, if_pos hb, flatMap_one]
    unfold alightingText
    have h60 : sPTP / 60 * 60 = sPTP := by
      have : (60 : K) ≠ 0 := by norm_num
      field_simp
    dsimp only
    rw [h60]
    exact two_lines alighting_words minutes_words _
  · rw [if_neg hb, edgesBetween_nil]
    · rfl
    · intro b hbm hd
      rcases (h.mem_edges b).1 hbm with ⟨s, _, rfl | rfl⟩ | ⟨n, _, hc, rfl⟩ | ⟨n, _, hc, rfl⟩ | ⟨n, _, p, _, rfl⟩
      · exact absurd hd.1 (by simp)
      · exact absurd hd.1 (by simp)
      · exact absurd hd.1 (by simp)
      · have h2 := hd.1
        injection h2 with h2
        exact hb (h2 ▸ hc)
      · exact absurd hd.2 (by simp)

theorem access_text (h : ExtSpec g routes sPTP fr x entries) {s : StopNode K} (hs : s ∈ stopsOf x.nodes) :
    (edgesBetween x.edges (.city s.city) (.stop s)).flatMap accessText =
      unlines ["\tAccess edge".toList, "\t-Access time: ".toList ++ fixed 2 (s.mode.tat / 60) ++ " [min]".toList] := by
  have hm := (h.mem_edges ⟨.city s.city, .stop s, s.mode.tat / 60, none, .access⟩).2 (Or.inl ⟨s, hs, Or.inl rfl⟩)
  have hl := edgesBetween_of_mem h.edges_nodup hm
  dsimp only at hl
  rw [hl, flatMap_one]
  unfold accessText
  exact two_lines access_words minutes_words _

/-- the hours of a leg -/
def legHours (x : ExtGraph K) (p n : RouteNode K) : K :=
  legDistance (x.nodes.map fun p => p.1.node) p n / n.stop.mode.v

theorem unlines_append (a b : List Str) : unlines (a ++ b) = unlines a ++ unlines b := List.flatMap_append

theorem unlines_flatMap {α : Type} (l : List α) (f : α → List Str) : unlines (l.flatMap f) = l.flatMap fun a => unlines (f a) :=
  List.flatMap_assoc

theorem entry_text (h : ExtSpec g routes sPTP fr x entries) {e : RouteEntry K} (he : e ∈ entries) :
    entryText x.edges e.node.stop e = unlines (entryLines fr sPTP (legHours x) e) := by
  unfold entryText entryLines
  rw [unlines_append, unlines_append, boarding_text h he, alighting_text h he, List.append_assoc (unlines _) (unlines _)]
  refine congrArg _ (congrArg _ ?_)
  obtain ⟨n, prev⟩ := e
  cases prev with
  | none =>
    show routeNodeText n _ _ = _
    rw [fixed_two_zero]
    unfold routeNodeText
    exact five_lines route_words direction_words previous_words time_words hours_words _ _ _ _
  | some p =>
    have hm := (h.mem_edges ⟨.route p, .route n, legHours x p n, none, .route⟩).2
      (Or.inr (Or.inr (Or.inr ⟨_, he, p, rfl, rfl⟩)))
    have hf := find_edge h.edges_nodup hm
    have hf' : previousTime x.edges p n = NumText.fmt (legHours x p n) := by
      unfold previousTime
      rw [hf]
    show routeNodeText n _ (previousTime x.edges p n) = _
    rw [hf']
    unfold routeNodeText
    exact five_lines route_words direction_words previous_words time_words hours_words _ _ _ _

theorem stop_text (h : ExtSpec g routes sPTP fr x entries) {p : CityNode K × Dict (StopNode K) (List (RouteEntry K))}
    (hp : p ∈ x.nodes) {q : StopNode K × List (RouteEntry K)} (hq : q ∈ p.2) :
    stopText x.edges p.1 q = unlines (stopLines (fun m => m.tat / 60) fr sPTP (legHours x) q) := by
  have hc := (h.nodes.city p hp).2 q hq
  have hs : q.1 ∈ stopsOf x.nodes := List.mem_flatMap.2 ⟨p, hp, List.mem_map.2 ⟨q, hq, rfl⟩⟩
  unfold stopText stopLines
  rw [← hc.1, access_text h hs]
  have he : q.2.flatMap (entryText x.edges q.1) = q.2.flatMap fun a => unlines (entryLines fr sPTP (legHours x) a) := by
    refine List.flatMap_congr fun e he => ?_
    have hent : e ∈ entries := (h.nodes.mem_entries e).1
      (List.mem_flatMap.2 ⟨p, hp, List.mem_flatMap.2 ⟨q, hq, he⟩⟩)
    rw [← hc.2.2 e he]
    exact entry_text h hent
  exact stop_lines stop_words break_word _ _ _ (by rw [he, unlines_flatMap])

/-- C74: the description lists each city node with its stops, each stop with its mode and route nodes, each route node with
the frequency of each of its parallel lines where it can be boarded, the penalty of a transfer in minutes where one can alight, and
the stop before with the hours from it.  What is missing: the access time is written in hours, not in minutes. -/
theorem C74_outline_partial (h : buildExtGraph g routes sPTP freq = .ok x) :
    ∃ time : RouteNode K → RouteNode K → K,
      (∀ e ∈ entriesOf x.nodes, ∀ p, e.prev = some p → ⟨.route p, .route e.node, time p e.node, none, .route⟩ ∈ x.edges) ∧
      x.text = unlines (outline (fun m => m.tat / 60) (frequencies routes freq) sPTP time x.nodes) := by
  obtain ⟨entries, hx⟩ := extSpec h
  refine ⟨legHours x, ?_, ?_⟩
  · intro e he p hp
    exact (hx.mem_edges _).2 (Or.inr (Or.inr (Or.inr ⟨e, (hx.nodes.mem_entries e).1 he, p, hp, rfl⟩)))
  · unfold ExtGraph.text outline
    rw [unlines_flatMap]
    refine List.flatMap_congr fun p hp => ?_
    unfold cityText
    have hs : p.2.flatMap (stopText x.edges p.1) =
        p.2.flatMap fun q => unlines (stopLines (fun m => m.tat / 60) (frequencies routes freq) sPTP (legHours x) q) :=
      List.flatMap_congr fun q hq => stop_text hx hp hq
    exact title_lines city_words break_word _ _ _ (by rw [hs, unlines_flatMap])

/-- C74: the number written as minutes of access to a stop is the one in hours; for a mode with an access time of a fiftieth of a
minute or more it is wrong -/
theorem C74_access_in_hours (h : buildExtGraph g routes sPTP freq = .ok x) {s : StopNode K} (hs : s ∈ stopsOf x.nodes)
    (ht : 1 / 50 ≤ s.mode.tat) :
    ∃ w pre post, x.text = pre ++ ("\tAccess edge\n\t-Access time: ".toList ++ w ++
        " [min]\n\t\tStop node\n\t\t-Mode name: ".toList ++ s.mode.name ++ "\n".toList) ++ post ∧
      ∃ y : K, readDecimal w = some y ∧ Near y (s.mode.tat / 60) ∧ ¬ Near y s.mode.tat := by
  obtain ⟨entries, hx⟩ := extSpec h
  obtain ⟨y, hy, hn⟩ := readDecimal_two (s.mode.tat / 60)
  obtain ⟨p, hp, hs'⟩ := List.mem_flatMap.1 hs
  obtain ⟨q, hq, rfl⟩ := List.mem_map.1 hs'
  obtain ⟨a, b, hab⟩ := List.append_of_mem hp
  obtain ⟨c, d, hcd⟩ := List.append_of_mem hq
  refine ⟨_, a.flatMap (cityText x.edges) ++ ("City node\n-Graph node name: ".toList ++ p.1.node.name ++ "\n".toList ++
    c.flatMap (stopText x.edges p.1)), q.2.flatMap (entryText x.edges q.1) ++ d.flatMap (stopText x.edges p.1) ++
      b.flatMap (cityText x.edges), ?_, y, hy, hn, ?_⟩
  · have hst : stopText x.edges p.1 q = "\tAccess edge\n\t-Access time: ".toList ++ (fixed 2 (q.1.mode.tat / 60) ++
        (" [min]\n\t\tStop node\n\t\t-Mode name: ".toList ++ (q.1.mode.name ++ ("\n".toList ++
          q.2.flatMap (entryText x.edges q.1))))) := by
      unfold stopText
      rw [← ((hx.nodes.city p hp).2 q hq).1, access_text hx hs]
      exact access_lines access_words access_stop_words break_word _ _ _
    have hct : cityText x.edges p = "City node\n-Graph node name: ".toList ++ (p.1.node.name ++ ("\n".toList ++
        (c.flatMap (stopText x.edges p.1) ++ (stopText x.edges p.1 q ++ d.flatMap (stopText x.edges p.1))))) := by
      unfold cityText
      rw [hcd, List.flatMap_append, List.flatMap_cons]
      simp only [List.append_assoc]
    unfold ExtGraph.text
    rw [hab, List.flatMap_append, List.flatMap_cons, hct, hst]
    simp only [List.append_assoc]
  · intro h2
    unfold Near at hn h2
    have h3 := abs_sub_le q.1.mode.tat y (q.1.mode.tat / 60)
    rw [abs_sub_comm q.1.mode.tat y] at h3
    have h4 : |q.1.mode.tat - q.1.mode.tat / 60| = 59 / 60 * q.1.mode.tat := by
      rw [abs_of_nonneg (by linarith)]
      ring
    linarith

end Text

section Examples

attribute [local instance] ratMath ratText

/-- three lines of two modes: the text and its first lines -/
example : buildExtGraph (demoCity 3) demoRoutes 2 none = .ok demoExt ∧ (∃ s ∈ stopsOf demoExt.nodes, 1 / 50 ≤ s.mode.tat) := by
  decide +kernel

/-- the access time of the buses is a tenth of a minute -/
example : (splitOn '\n' demoExt.text).take 10 = ["City node", "-Graph node name: P_1", "\tAccess edge",
    "\t-Access time: 0.00 [min]", "\t\tStop node", "\t\t-Mode name: bus", "\t\t\tBoarding edge",
    "\t\t\t-Frequency: 1.00 [veh/h]", "\t\t\t\tRoute node", "\t\t\t\t-Route_id: a"].map String.toList := by
  decide +kernel

end Examples

end Sidermit
