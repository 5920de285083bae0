import Verif.Model.LoadText
import Verif.Spec.LoadText
import Verif.Proofs.Report
import Verif.Props.Costs
import Mathlib.Data.Rat.Floor

/-!
Property C76: the listing of boardings and alightings.
-/

namespace Sidermit

set_option linter.unusedSectionVars false

/-! ### grouping -/

section Groups

variable {α β : Type} [DecidableEq β]

theorem firsts_append (l : List β) (a : β) : firsts (l ++ [a]) = if a ∈ firsts l then firsts l else firsts l ++ [a] := by
  unfold firsts
  rw [List.foldl_append]
  rfl

theorem mem_firsts (l : List β) (a : β) : a ∈ firsts l ↔ a ∈ l := by
  induction l using List.reverseRecOn with
  | nil => exact Iff.rfl
  | append_singleton l b ih =>
    rw [firsts_append]
    by_cases hb : b ∈ firsts l
    · rw [if_pos hb, ih, List.mem_append, List.mem_singleton]
      constructor
      · exact Or.inl
      · rintro (h | rfl)
        exacts [h, ih.1 hb]
    · rw [if_neg hb, List.mem_append, List.mem_append, ih]

theorem firsts_nodup (l : List β) : (firsts l).Nodup := by
  induction l using List.reverseRecOn with
  | nil => exact List.nodup_nil
  | append_singleton l b ih =>
    rw [firsts_append]
    by_cases hb : b ∈ firsts l
    · rwa [if_pos hb]
    · rw [if_neg hb]
      exact List.nodup_append.2 ⟨ih, by simp, fun x hx y hy => by
        rw [List.mem_singleton] at hy
        rintro rfl
        exact hb (hy ▸ hx)⟩

/-- a list is a rearrangement of its groups -/
theorem groups_perm (f : α → β) : ∀ (gs : List β), gs.Nodup → ∀ l : List α,
    (gs.flatMap fun b => l.filter fun a => decide (f a = b)).Perm (l.filter fun a => decide (f a ∈ gs)) := by
  intro gs
  induction gs with
  | nil => intro _ l; simp
  | cons b gs ih =>
    intro hn l
    rw [List.nodup_cons] at hn
    rw [List.flatMap_cons]
    refine ((ih hn.2 l).append_left _).trans ?_
    induction l with
    | nil => simp
    | cons a l ihl =>
      by_cases hb : f a = b
      · have h1 : ¬ f a ∈ gs := fun h => hn.1 (hb ▸ h)
        rw [List.filter_cons_of_pos (by simpa using hb), List.filter_cons_of_neg (by simpa using h1),
          List.filter_cons_of_pos (by simp [hb])]
        exact ihl.cons a
      · by_cases h1 : f a ∈ gs
        · rw [List.filter_cons_of_neg (by simpa using hb), List.filter_cons_of_pos (by simpa using h1),
            List.filter_cons_of_pos (by simp [h1])]
          exact List.perm_middle.trans (ihl.cons a)
        · rw [List.filter_cons_of_neg (by simpa using hb), List.filter_cons_of_neg (by simpa using h1),
            List.filter_cons_of_neg (by simp [hb, h1])]
          exact ihl

theorem groups_filter (f : α → β) (gs : List β) (hn : gs.Nodup) (l : List α) (q : α → Bool) (hq : ∀ a ∈ l, q a = true ↔ f a ∈ gs) :
    (gs.flatMap fun b => l.filter fun a => decide (f a = b)).Perm (l.filter q) := by
  have h := groups_perm f gs hn l
  rwa [List.filter_congr (q := q) fun a ha => Bool.eq_iff_iff.2 (by rw [hq a ha, decide_eq_true_iff])] at h

end Groups

variable {K : Type} [Field K] [LinearOrder K] [IsStrictOrderedRing K] [FloorRing K]

/-! ### the lines -/

/-- the line of a stop -/
def stopLine (p : LoadKey K × K) : Str :=
  "\t\t\tStop ".toList ++ (p.1.2.2.mode.name ++ ('-' :: p.1.2.2.city.node.name ++ (": ".toList ++ (fixed 2 p.2 ++ "[pax/veh]".toList))))

/-- the entries of a route and direction -/
def entriesAt (d : Dict (LoadKey K) K) (id : Str) (dir : Dir) : List (LoadKey K × K) :=
  d.filter fun p => decide (p.1.1 = id ∧ p.1.2.1 = dir)

/-- the lines of a direction -/
def dirLines (d : Dict (LoadKey K) K) (id : Str) (dir : Dir) : List Str :=
  ("\t\tDirection: ".toList ++ dirText dir) :: (entriesAt d id dir).map stopLine

/-- the lines of a route -/
def routeLines (z v : Dict (LoadKey K) K) (id : Str) : List Str :=
  ("New route: ".toList ++ id) :: "\tBoarding:".toList :: ((dirsIn z id).flatMap (dirLines z id) ++
    "\tAlighting:".toList :: (dirsIn v id).flatMap (dirLines v id))

theorem loadText_line (p : LoadKey K × K) : loadText p = broken [stopLine p] := by
  rw [broken_cons]
  exact (List.append_nil _).symm

theorem dirLoadsText_lines (d : Dict (LoadKey K) K) (id : Str) (dir : Dir) : dirLoadsText d id dir = broken (dirLines d id dir) := by
  have h : (entriesAt d id dir).flatMap loadText = broken ((entriesAt d id dir).map stopLine) := by
    unfold broken
    rw [List.flatMap_map]
    exact List.flatMap_congr fun p _ => (loadText_line p).trans (List.append_nil _)
  unfold dirLoadsText dirLines
  rw [broken_cons, ← h]
  rfl

theorem routeLoadsText_lines (z v : Dict (LoadKey K) K) (id : Str) : routeLoadsText z v id = broken (routeLines z v id) := by
  have h : ∀ d : Dict (LoadKey K) K, (dirsIn d id).flatMap (dirLoadsText d id) = broken ((dirsIn d id).flatMap (dirLines d id)) := by
    intro d
    rw [broken_flatMap]
    exact List.flatMap_congr fun dir _ => dirLoadsText_lines d id dir
  unfold routeLoadsText routeLines
  rw [h z, h v, broken_cons, broken_cons, broken_append, broken_cons]
  rfl

theorem loadsText_lines (z v : Dict (LoadKey K) K) : loadsText z v =
    [] ++ broken ("Boarding and Alighting information:".toList :: (routesIn z).flatMap (routeLines z v)) := by
  have h : (routesIn z).flatMap (routeLoadsText z v) = broken ((routesIn z).flatMap (routeLines z v)) := by
    rw [broken_flatMap]
    exact List.flatMap_congr fun id _ => routeLoadsText_lines z v id
  unfold loadsText
  rw [h, broken_cons]
  rfl

/-! ### reading -/

theorem read_stop (r d : Str) (b : Bool) (x : Str) (rest : List Str) :
    readListing r b d (("\t\t\tStop ".toList ++ x) :: rest) = ⟨r, b, d, x⟩ :: readListing r b d rest := by
  rw [readListing, after_differ (by decide)]
  dsimp only
  rw [if_neg (fun h => ?_), if_neg (fun h => ?_), after_differ (by decide), after_append]
  · have := congrArg (fun l => l[1]?) h
    exact absurd this (by simp)
  · have := congrArg (fun l => l[1]?) h
    exact absurd this (by simp)

theorem read_dir (r d : Str) (b : Bool) (x : Str) (rest : List Str) :
    readListing r b d (("\t\tDirection: ".toList ++ x) :: rest) = readListing r b x rest := by
  rw [readListing, after_differ (by decide)]
  dsimp only
  rw [if_neg (fun h => ?_), if_neg (fun h => ?_), after_append]
  · have := congrArg (fun l => l[1]?) h
    exact absurd this (by simp)
  · have := congrArg (fun l => l[1]?) h
    exact absurd this (by simp)

theorem read_route (r d : Str) (b : Bool) (x : Str) (rest : List Str) :
    readListing r b d (("New route: ".toList ++ x) :: rest) = readListing x b d rest := by
  rw [readListing, after_append]

theorem read_boarding (r d : Str) (b : Bool) (rest : List Str) :
    readListing r b d ("\tBoarding:".toList :: rest) = readListing r true d rest := by
  rw [readListing, after_none (by decide)]
  dsimp only
  rw [if_pos rfl]

theorem read_alighting (r d : Str) (b : Bool) (rest : List Str) :
    readListing r b d ("\tAlighting:".toList :: rest) = readListing r false d rest := by
  rw [readListing, after_none (by decide)]
  dsimp only
  rw [if_neg (by decide), if_pos rfl]

theorem read_title (r d : Str) (b : Bool) (rest : List Str) :
    readListing r b d ("Boarding and Alighting information:".toList :: rest) = readListing r b d rest := by
  rw [readListing, after_none (by decide)]
  dsimp only
  rw [if_neg (by decide), if_neg (by decide), after_none (by decide)]
  dsimp only
  rw [after_none (by decide)]

theorem read_empty (r d : Str) (b : Bool) (rest : List Str) : readListing r b d ([] :: rest) = readListing r b d rest := by
  rfl

theorem read_dirLines (b : Bool) (D : Dict (LoadKey K) K) (id d : Str) (dir : Dir) (rest : List Str) :
    readListing id b d (dirLines D id dir ++ rest) =
      (entriesAt D id dir).map (listed b) ++ readListing id b (dirText dir) rest := by
  unfold dirLines
  rw [List.cons_append, read_dir]
  have h : ∀ l : List (LoadKey K × K), (∀ p ∈ l, p.1.1 = id ∧ p.1.2.1 = dir) →
      readListing id b (dirText dir) (l.map stopLine ++ rest) = l.map (listed b) ++ readListing id b (dirText dir) rest := by
    intro l
    induction l with
    | nil => intro _; rfl
    | cons p l ih =>
      intro hp
      rw [List.map_cons, List.map_cons, List.cons_append, List.cons_append, ← ih fun q hq => hp q (List.mem_cons_of_mem _ hq)]
      unfold stopLine
      rw [read_stop]
      obtain ⟨h1, h2⟩ := hp p List.mem_cons_self
      congr 1
      unfold listed
      rw [h1, h2]
      simp only [List.append_assoc]
      cases dir <;> rfl
  refine h _ fun p hp => ?_
  exact of_decide_eq_true (List.mem_filter.1 hp).2

theorem read_dirs (b : Bool) (D : Dict (LoadKey K) K) (id : Str) (dirs : List Dir) : ∀ (d : Str) (rest : List Str),
    ∃ d', readListing id b d (dirs.flatMap (dirLines D id) ++ rest) =
      (dirs.flatMap fun dir => (entriesAt D id dir).map (listed b)) ++ readListing id b d' rest := by
  induction dirs with
  | nil => intro d rest; exact ⟨d, rfl⟩
  | cons dir dirs ih =>
    intro d rest
    obtain ⟨d', h⟩ := ih (dirText dir) rest
    refine ⟨d', ?_⟩
    rw [List.flatMap_cons, List.flatMap_cons, List.append_assoc, read_dirLines, h, List.append_assoc]

/-- what is read of a route -/
def routeSeen (z v : Dict (LoadKey K) K) (id : Str) : List Listed :=
  ((dirsIn z id).flatMap fun dir => (entriesAt z id dir).map (listed true)) ++
    (dirsIn v id).flatMap fun dir => (entriesAt v id dir).map (listed false)

theorem read_routes (z v : Dict (LoadKey K) K) (ids : List Str) : ∀ (r d : Str) (b : Bool),
    readListing r b d (ids.flatMap (routeLines z v)) = ids.flatMap (routeSeen z v) := by
  induction ids with
  | nil => intro r d b; rfl
  | cons id ids ih =>
    intro r d b
    rw [List.flatMap_cons, List.flatMap_cons]
    unfold routeLines
    rw [List.cons_append, read_route, List.cons_append, read_boarding, List.append_assoc]
    obtain ⟨d', h⟩ := read_dirs true z id (dirsIn z id) d (("\tAlighting:".toList :: (dirsIn v id).flatMap (dirLines v id)) ++
      ids.flatMap (routeLines z v))
    unfold routeLines at h
    rw [h, List.cons_append, read_alighting]
    obtain ⟨d'', h'⟩ := read_dirs false v id (dirsIn v id) d' (ids.flatMap (routeLines z v))
    unfold routeLines at h'
    rw [h']
    have hi := ih id d'' false
    unfold routeLines at hi
    rw [hi]
    unfold routeSeen
    rw [List.append_assoc]

theorem entriesAt_eq (d : Dict (LoadKey K) K) (id : Str) (dir : Dir) :
    entriesAt d id dir = (d.filter fun p => decide (p.1.1 = id)).filter fun p => decide (p.1.2.1 = dir) := by
  unfold entriesAt
  rw [List.filter_filter]
  congr 1
  funext p
  rw [Bool.decide_and, Bool.and_comm]

/-- the directions of a route give all its entries -/
theorem dirs_perm (b : Bool) (d : Dict (LoadKey K) K) (id : Str) :
    ((dirsIn d id).flatMap fun dir => (entriesAt d id dir).map (listed b)).Perm
      ((d.filter fun p => decide (p.1.1 = id)).map (listed b)) := by
  have h1 : ((dirsIn d id).flatMap fun dir => (entriesAt d id dir).map (listed b)) =
      ((dirsIn d id).flatMap fun dir => (d.filter fun p => decide (p.1.1 = id)).filter fun p => decide (p.1.2.1 = dir)).map
        (listed b) := by
    rw [List.map_flatMap]
    exact List.flatMap_congr fun dir _ => by rw [entriesAt_eq]
  rw [h1]
  refine ((groups_perm (fun p : LoadKey K × K => p.1.2.1) _ (firsts_nodup _) _).map _).trans ?_
  rw [List.filter_eq_self.2]
  intro p hp
  refine decide_eq_true ((mem_firsts _ _).2 ?_)
  obtain ⟨h2, h3⟩ := List.mem_filter.1 hp
  exact List.mem_map.2 ⟨p.1, List.mem_filter.2 ⟨List.mem_map.2 ⟨p, h2, rfl⟩, h3⟩, rfl⟩

theorem seen_boardings (z v : Dict (LoadKey K) K) (id : Str) : ((routeSeen z v id).filter fun s => s.boarding).Perm
    ((z.filter fun p => decide (p.1.1 = id)).map (listed true)) := by
  unfold routeSeen
  rw [List.filter_append, List.filter_eq_self.2, (List.filter_eq_nil_iff (l := List.flatMap _ (dirsIn v id))).2, List.append_nil]
  · exact dirs_perm true z id
  · intro s hs
    obtain ⟨dir, _, hs⟩ := List.mem_flatMap.1 hs
    obtain ⟨p, _, rfl⟩ := List.mem_map.1 hs
    simp [listed]
  · intro s hs
    obtain ⟨dir, _, hs⟩ := List.mem_flatMap.1 hs
    obtain ⟨p, _, rfl⟩ := List.mem_map.1 hs
    rfl

theorem seen_alightings (z v : Dict (LoadKey K) K) (id : Str) : ((routeSeen z v id).filter fun s => !s.boarding).Perm
    ((v.filter fun p => decide (p.1.1 = id)).map (listed false)) := by
  unfold routeSeen
  rw [List.filter_append, (List.filter_eq_nil_iff (l := List.flatMap _ (dirsIn z id))).2, List.nil_append, List.filter_eq_self.2]
  · exact dirs_perm false v id
  · intro s hs
    obtain ⟨dir, _, hs⟩ := List.mem_flatMap.1 hs
    obtain ⟨p, _, rfl⟩ := List.mem_map.1 hs
    rfl
  · intro s hs
    obtain ⟨dir, _, hs⟩ := List.mem_flatMap.1 hs
    obtain ⟨p, _, rfl⟩ := List.mem_map.1 hs
    simp [listed]

theorem flatMap_perm {α β : Type} {f h : α → List β} : ∀ l : List α, (∀ a ∈ l, (f a).Perm (h a)) → (l.flatMap f).Perm (l.flatMap h) := by
  intro l
  induction l with
  | nil => intro _; exact List.Perm.refl _
  | cons a l ih =>
    intro hp
    rw [List.flatMap_cons, List.flatMap_cons]
    exact (hp a List.mem_cons_self).append (ih fun b hb => hp b (List.mem_cons_of_mem _ hb))

theorem dirLines_plain {d : Dict (LoadKey K) K} (hd : PlainKeys d) (id : Str) (dir : Dir) :
    ∀ u ∈ dirLines d id dir, ∀ c ∈ u, c ≠ '\n' := by
  intro u hu
  rcases List.mem_cons.1 hu with rfl | hu
  · exact no_break (by decide) (by cases dir <;> decide)
  · obtain ⟨p, hp, rfl⟩ := List.mem_map.1 hu
    obtain ⟨_, h2, h3⟩ := hd p (List.mem_filter.1 hp).1
    refine no_break (by decide) (no_break h2 (no_break ?_ (no_break (by decide) (no_break ?_ (by decide)))))
    · exact fun c hc => by
        rcases List.mem_cons.1 hc with rfl | hc
        · decide
        · exact h3 c hc
    · exact fun c hc => (fixed_plain 2 p.2 c hc).2

theorem routeLines_plain {z v : Dict (LoadKey K) K} (hz : PlainKeys z) (hv : PlainKeys v) {id : Str} (hid : ∀ c ∈ id, c ≠ '\n') :
    ∀ u ∈ routeLines z v id, ∀ c ∈ u, c ≠ '\n' := by
  intro u hu
  unfold routeLines at hu
  rcases List.mem_cons.1 hu with rfl | hu
  · exact no_break (by decide) hid
  rcases List.mem_cons.1 hu with rfl | hu
  · decide
  rcases List.mem_append.1 hu with hu | hu
  · obtain ⟨dir, _, hu⟩ := List.mem_flatMap.1 hu
    exact dirLines_plain hz id dir u hu
  rcases List.mem_cons.1 hu with rfl | hu
  · decide
  · obtain ⟨dir, _, hu⟩ := List.mem_flatMap.1 hu
    exact dirLines_plain hv id dir u hu

theorem mem_routesIn (d : Dict (LoadKey K) K) (id : Str) : id ∈ routesIn d ↔ ∃ k ∈ Dict.keys d, k.1 = id := by
  unfold routesIn
  rw [mem_firsts, List.mem_map]

/-- C76: whoever reads the listing line by line finds every boarding of the first table exactly once, under its route and direction,
and every alighting of a route that is boarded -/
theorem C76_listing {z v : Dict (LoadKey K) K} (hz : PlainKeys z) (hv : PlainKeys v) :
    ∃ seen, readListing [] true [] (splitOn '\n' (loadsText z v)) = seen ∧
      (seen.filter fun s => s.boarding).Perm (z.map (listed true)) ∧
      (seen.filter fun s => !s.boarding).Perm
        ((v.filter fun p => decide (∃ k ∈ Dict.keys z, k.1 = p.1.1)).map (listed false)) := by
  refine ⟨(routesIn z).flatMap (routeSeen z v), ?_, ?_, ?_⟩
  · rw [loadsText_lines]
    unfold broken
    rw [split_lines [] (by simp) _ ?_, read_empty, read_title, read_routes]
    intro u hu
    rcases List.mem_cons.1 hu with rfl | hu
    · decide
    · obtain ⟨id, hid, hu⟩ := List.mem_flatMap.1 hu
      obtain ⟨k, hk, rfl⟩ := (mem_routesIn z id).1 hid
      obtain ⟨p, hp, rfl⟩ := List.mem_map.1 hk
      exact routeLines_plain hz hv (hz p hp).1 u hu
  · rw [List.filter_flatMap]
    refine (flatMap_perm _ fun id _ => seen_boardings z v id).trans ?_
    rw [← List.map_flatMap]
    refine List.Perm.map _ ((groups_filter (fun p : LoadKey K × K => p.1.1) _ (firsts_nodup _) z (fun _ => true) ?_).trans ?_)
    · exact fun p hp => ⟨fun _ => (mem_routesIn z _).2 ⟨p.1, List.mem_map.2 ⟨p, hp, rfl⟩, rfl⟩, fun _ => rfl⟩
    · rw [List.filter_eq_self.2 fun _ _ => rfl]
  · rw [List.filter_flatMap]
    refine (flatMap_perm _ fun id _ => seen_alightings z v id).trans ?_
    rw [← List.map_flatMap]
    refine List.Perm.map _ (groups_filter (fun p : LoadKey K × K => p.1.1) _ (firsts_nodup _) v _ ?_)
    intro p _
    rw [decide_eq_true_iff]
    exact (mem_routesIn z _).symm

/-- C76: no passenger alights from a line that nobody boards, so that no alighting is missing in the listing -/
theorem C76_complete [PyMath K] {g : Graph K} {routes : List (Route K)} {sPTP : K} {freq : Option (Dict Str K)} {x : ExtGraph K}
    {pas : Passenger K} {N : Nat} {f : Dict Str K} {l : List (ODResult K × Dict (StopNode K) K)} {r : Loads K}
    (ha : Admissible routes sPTP freq pas) (hd : DistinctIds g)
    (hx : buildExtGraph g routes sPTP freq = .ok x) (hl : Loading x pas N f l) (hr : getLoads N f l = .ok r)
    (hf : ∀ id, 0 ≤ f.getD id 0) (hV : ∀ p ∈ l, 0 ≤ p.1.vij ∧ ∀ s, 0 ≤ p.2.getD s 0) {p : LoadKey K × K} (hp : p ∈ r.v)
    (hpos : 0 < p.2) : ∃ k ∈ Dict.keys r.z, k.1 = p.1.1 := by
  have hbal := C44_line_balance ha hd hx hl hr p.1.1 p.1.2.1
  obtain ⟨_, kv⟩ := C50_applies ha hd hx hl hr
  have hnn := C44_nonneg ha hd hx hl hr hf hV
  have hv : 0 < total r.v fun k => k.1 = p.1.1 ∧ k.2.1 = p.1.2.1 := by
    unfold total
    refine lt_of_lt_of_le hpos (List.single_le_sum ?_ _ ?_)
    · intro y hy
      obtain ⟨q, hq, rfl⟩ := List.mem_map.1 hy
      have := (hnn q.1).2.1
      rwa [Dict.getD, Dict.get?_of_mem r.v kv (List.mem_filter.1 hq).1] at this
    · exact List.mem_map.2 ⟨p, List.mem_filter.2 ⟨hp, by simp⟩, rfl⟩
  rw [← hbal] at hv
  by_contra hno
  have h0 : (r.z.filter fun q => decide (q.1.1 = p.1.1 ∧ q.1.2.1 = p.1.2.1)) = [] := by
    rw [List.filter_eq_nil_iff]
    intro q hq hd'
    exact hno ⟨q.1, List.mem_map.2 ⟨q, hq, rfl⟩, (of_decide_eq_true hd').1⟩
  unfold total at hv
  rw [h0] at hv
  exact absurd hv (by simp)

section Examples

attribute [local instance] ratMath ratText

/-- the stops of the demonstration that somebody boards or leaves at -/
def busP1 : StopNode ℚ := ⟨demoMode, ⟨1, ⟨1, 15, 0, 15, 0, 2, 1, "P_1".toList, .periphery⟩⟩⟩
@[inherit_doc busP1] def busS1 : StopNode ℚ := ⟨demoMode, ⟨2, ⟨2, 10, 0, 10, 0, 2, 1, "SC_1".toList, .subcenter⟩⟩⟩
@[inherit_doc busP1] def busS2 : StopNode ℚ := ⟨demoMode, ⟨4, ⟨4, 0, 0, 10, 120, 2, 2, "SC_2".toList, .subcenter⟩⟩⟩
@[inherit_doc busP1] def metroP1 : StopNode ℚ := { busP1 with mode := { demoMode with oid := 2, name := "metro".toList, d := 2 } }
@[inherit_doc busP1] def metroS2 : StopNode ℚ := { busS2 with mode := { demoMode with oid := 2, name := "metro".toList, d := 2 } }

/-- the boardings of the demonstration -/
def demoZ : Dict (LoadKey ℚ) ℚ :=
  [(("a".toList, .I, busP1), 149/36), (("c".toList, .I, busS1), 41/36), (("b".toList, .I, metroP1), 139/36),
   (("b".toList, .R, metroS2), 139/45), (("c".toList, .I, busS2), 86/45), (("a".toList, .R, busS1), 41/45)]

/-- the alightings of the demonstration -/
def demoV : Dict (LoadKey ℚ) ℚ :=
  [(("a".toList, .I, busS1), 149/36), (("c".toList, .I, busS2), 41/36), (("b".toList, .I, metroS2), 139/36),
   (("b".toList, .R, metroP1), 139/45), (("c".toList, .I, busS1), 86/45), (("a".toList, .R, busP1), 41/45)]

/-- the boardings and the alightings that the demonstration ends with -/
def demoLoads : List (Dict (LoadKey ℚ) ℚ) :=
  match demoPipeline demoRoutes demoOD (defaultFrequencies demoRoutes) with
  | .ok (_, _, .ok t) => [t.z, t.v]
  | _ => []

/-- C76: they are the tables above -/
example : demoLoads.map showTable = [showTable demoZ, showTable demoV] := by decide +kernel

/-- C76: the names are plain -/
example : PlainKeys demoZ ∧ PlainKeys demoV := by
  unfold PlainKeys
  decide +kernel

/-- C76: the part of the listing about the line c -/
example : routeLoadsText demoZ demoV "c".toList =
    ("\nNew route: c\n\tBoarding:\n\t\tDirection: I".toList ++ "\n\t\t\tStop bus-SC_1: 1.14[pax/veh]".toList ++ "\n\t\t\tStop bus-SC_2: 1.91[pax/veh]".toList ++
      "\n\tAlighting:\n\t\tDirection: I".toList ++ "\n\t\t\tStop bus-SC_2: 1.14[pax/veh]".toList ++ "\n\t\t\tStop bus-SC_1: 1.91[pax/veh]".toList) := by
  decide +kernel

/-- C76: the lines follow each other as they were first boarded -/
example : routesIn demoZ = ["a".toList, "c".toList, "b".toList] := by decide +kernel

/-- C76: an alighting of a route that nobody boards is not listed -/
theorem C76_only_boarded_routes :
    let s : StopNode ℚ := ⟨demoMode, ⟨0, ⟨0, 0, 0, 0, 0, 2, 0, [], .cbd⟩⟩⟩
    loadsText [] [(("a".toList, .I, s), (1 : ℚ))] = "\nBoarding and Alighting information:".toList := by
  decide +kernel

end Examples

end Sidermit
