import Verif.Proofs.Report
import Verif.Proofs.RatText
import Verif.Proofs.Optimizer
import Verif.Proofs.ExtGraph
import Verif.Props.OverallCases
import Mathlib.Data.Rat.Floor

/-!
C72: the file of results of the lines is read back.  C73: what the report of overall results says.
-/

set_option linter.unusedSectionVars false

namespace Sidermit

section Generic

variable {K : Type} [Field K] [LinearOrder K] [IsStrictOrderedRing K] [FloorRing K] [NumText K] [PyMath K]

/-! ## the file of the lines -/

theorem sections_zero (nodes : List Int) (n : Nat) : ∀ s ∈ sections (K := K) nodes (List.replicate n 0), s.2.2 = 0 := by
  intro s hs
  unfold sections at hs
  obtain ⟨i, hi, rfl⟩ := List.getElem_of_mem hs
  rw [List.getElem_zipWith]
  simp

theorem rowOf_cases {c : Cycles K} {load : Dict (LoadKey K) K} {f k : Dict Str K} {r : Route K} {row : Row K}
    (h : rowOf c load f k r = .ok row) : row.id = r.id ∧
      (0 < row.f ∨ (∀ s ∈ row.tableI, s.2.2 = 0) ∧ ∀ s ∈ row.tableR, s.2.2 = 0) := by
  unfold rowOf at h
  split at h
  · next hf =>
    split at h
    · unfold circularRow at h
      simp only at h
      obtain ⟨_, _, h⟩ := py_bind_eq_ok.1 h
      obtain ⟨_, _, h⟩ := py_bind_eq_ok.1 h
      obtain ⟨_, _, h⟩ := py_bind_eq_ok.1 h
      obtain ⟨_, _, h⟩ := py_bind_eq_ok.1 h
      cases h
      exact ⟨rfl, Or.inl hf⟩
    · unfold twoWayRow at h
      obtain ⟨_, _, h⟩ := py_bind_eq_ok.1 h
      obtain ⟨_, _, h⟩ := py_bind_eq_ok.1 h
      obtain ⟨_, _, h⟩ := py_bind_eq_ok.1 h
      obtain ⟨_, _, h⟩ := py_bind_eq_ok.1 h
      cases h
      exact ⟨rfl, Or.inl hf⟩
  · cases h
    exact ⟨rfl, Or.inr ⟨sections_zero _ _, sections_zero _ _⟩⟩

theorem networkResults_rows {o : Optimizer K} {best : Option (Res K)} {rows : List (Row K)} (h : o.networkResults best = .ok rows) :
    List.Forall₂ (fun (r : Route K) (row : Row K) => row.id = r.id ∧
      (0 < row.f ∨ (∀ s ∈ row.tableI, s.2.2 = 0) ∧ ∀ s ∈ row.tableR, s.2.2 = 0)) o.net.routes rows := by
  cases best with
  | none => cases h
  | some res =>
    rw [Optimizer.networkResults] at h
    obtain ⟨l, hl, h⟩ := py_bind_eq_ok.1 h
    unfold Optimizer.lastIteration at hl
    obtain ⟨f, _, hl⟩ := py_bind_eq_ok.1 hl
    obtain ⟨fin, hfin, hl⟩ := py_bind_eq_ok.1 hl
    obtain ⟨t, _, hl⟩ := py_bind_eq_ok.1 hl
    cases hl
    have hnet := (prepare_fields (init_prepare hfin).1).2.2.2.1
    unfold Optimizer.rows at h
    obtain ⟨times, _, h⟩ := py_bind_eq_ok.1 h
    rw [hnet] at h
    exact ((mapM_forall₂ _ _ _).1 h).imp fun r row h => rowOf_cases h

/-- C72: whoever splits the file of results into lines and columns gets one row for each line of the network, in their order,
with its name, the numbers up to half a hundredth and the tables of the sections exactly -/
theorem C72_read_back {o : Optimizer K} {best : Option (Res K)} {rows : List (Row K)} (h : o.networkResults best = .ok rows)
    (hids : ∀ r ∈ o.net.routes, PlainName r.id) (hzero : NumText.parse (K := K) ['0'] = some 0)
    (hnum : ∀ r ∈ rows, (∀ s ∈ r.tableI, PrintsPlain s.2.2) ∧ ∀ s ∈ r.tableR, PrintsPlain s.2.2) :
    ∃ text seen, o.stringNetworkResults best = .ok text ∧ readReport text = some seen ∧ List.Forall₂ SaysSame rows seen ∧
      seen.map Row.id = o.net.routes.map Route.id := by
  have hr := networkResults_rows h
  have hcell : ∀ (r : Row K) (x : K), PrintsPlain x → (0 < r.f ∨ x = 0) → GoodCell (chargeText r) x := by
    intro r x hx hor
    unfold GoodCell chargeText
    split
    · obtain ⟨h1, h2, h3⟩ := hx
      refine ⟨h1.1, h2, fun c hc => ⟨(h1.2 c hc).1, (h3 c hc).1, ?_, (h3 c hc).2⟩⟩
      rintro rfl
      exact absurd (h1.2 _ hc).2 (by decide)
    · next hf =>
      rw [show showInt 0 = ['0'] from by decide, hor.resolve_left hf]
      exact ⟨hzero, by simp, by decide⟩
  have hread : ∀ r ∈ rows, Readable r := by
    intro row hrow
    obtain ⟨i, hi, rfl⟩ := List.getElem_of_mem hrow
    have hlen := hr.length_eq
    have := (List.forall₂_iff_get.1 hr).2 i (by omega) hi
    simp only [List.get_eq_getElem] at this
    obtain ⟨hid, hor⟩ := this
    refine ⟨?_, ?_, ?_⟩
    · rw [hid]
      exact hids _ (List.getElem_mem _)
    · intro s hs
      exact hcell _ _ ((hnum _ hrow).1 s hs) (hor.imp id fun h => h.1 s hs)
    · intro s hs
      exact hcell _ _ ((hnum _ hrow).2 s hs) (hor.imp id fun h => h.2 s hs)
  obtain ⟨seen, hs, hsame⟩ := readReport_rows hread
  refine ⟨rowsText rows, seen, ?_, hs, hsame, ?_⟩
  · rw [Optimizer.stringNetworkResults, h]
    rfl
  · have h1 : rows.map Row.id = o.net.routes.map Route.id := by
      clear hread hs hsame hnum h hids
      generalize o.net.routes = rs at hr
      induction hr with
      | nil => rfl
      | cons h _ ih => rw [List.map_cons, List.map_cons, h.1, ih]
    rw [← h1]
    clear hs hread hnum hr h1 h
    induction hsame with
    | nil => rfl
    | cons h _ ih => rw [List.map_cons, List.map_cons, h.id, ih]

/-- C72: with a line break in the name of a line the file can be the one of other results: it does not say where a row ends -/
theorem C72_line_break (a b : Row K) :
    rowsText [a, b] = rowsText [{ b with id := rowText a ++ '\n' :: b.id }] := by
  unfold rowsText
  simp only [List.flatMap_cons, List.flatMap_nil, List.append_nil]
  congr 1
  show '\n' :: rowText a ++ '\n' :: rowText b = '\n' :: rowText _
  unfold rowText
  simp only [joinWith, List.append_assoc, List.cons_append]
  rfl

/-- C72: with a semicolon in the name of a line the columns are shifted: the row is not read -/
theorem C72_semicolon (r : Row K) (a b : Str) (hr : Readable { r with id := a }) (hb : PlainName b) :
    readRow (K := K) (rowText { r with id := a ++ ';' :: b }) = none := by
  have hf := rowText_fields hr
  have hs : splitOn ';' (rowText { r with id := a ++ ';' :: b }) = a :: b :: (splitOn ';' (rowText { r with id := a })).tail := by
    have h1 : splitOn ';' (rowText { r with id := a }) = _ :=
      splitOn_joinWith _ (by simp) fun w hw c hc => (hf w hw c hc).1
    rw [h1]
    have h2 : rowText { r with id := a ++ ';' :: b } = a ++ ';' :: rowText { r with id := b } := by
      unfold rowText
      simp only [joinWith, List.append_assoc, List.cons_append]
      rfl
    rw [h2, splitOn_append_sep _ fun c hc => (hr.id c hc).1]
    congr 1
    refine (splitOn_joinWith _ (by simp) fun w hw c hc => ?_).trans rfl
    rcases List.mem_cons.1 hw with rfl | hw
    · exact (hb c hc).1
    · exact (hf w (List.mem_cons_of_mem _ hw) c hc).1
  have h1 : splitOn ';' (rowText { r with id := a }) = _ :=
    splitOn_joinWith _ (by simp) fun w hw c hc => (hf w hw c hc).1
  unfold readRow
  rw [hs, h1]
  rfl

/-! ## the report of overall results -/

/-- the lines of a mode -/
def modeLines (v : Overall K) (p : Mode K × K) : List Str :=
  [[], "\tMode name: ".toList ++ p.1.name, "\tB [veh]      : ".toList ++ fixed 2 p.2,
    "\tK [pax/veh]  : ".toList ++ fixed 2 (v.sizes.getD p.1 0), "\tL [lines]    : ".toList ++ showInt (v.lines.getD p.1 0)]

/-- the lines of the report -/
def reportLines (v : Overall K) : List Str :=
  [[], "Objective function VRC [USD$/hr-pax]: ".toList ++ fixed 2 v.vrc,
    "Operators cost [USD$/hr-pax]        : ".toList ++ fixed 2 v.operators,
    "Infrastructure cost [USD$/hr-pax]   : ".toList ++ fixed 2 v.infrastructure,
    "Users cost [USD$/hr-pax]            : ".toList ++ fixed 2 v.users, [], "Resources consumer for users".toList,
    "Time on board vehicle [min/pax]: ".toList ++ fixed 2 v.onBoard,
    "Waiting time [min/pax]         : ".toList ++ fixed 2 v.waiting,
    "Access time [min/pax]          : ".toList ++ fixed 2 v.access,
    "total travel time [min/pax]    : ".toList ++ fixed 2 (v.onBoard + v.access + v.waiting),
    "Transfers [transfers/pax]      : ".toList ++ fixed 2 v.transfers, [],
    "Transport mode information: ".toList ++ showInt v.fleet.length]

theorem plain_append {a b : Str} (ha : ∀ c ∈ a, c ≠ '\n') (hb : ∀ c ∈ b, c ≠ '\n') : ∀ c ∈ a ++ b, c ≠ '\n' := by
  intro c hc
  rcases List.mem_append.1 hc with h | h
  · exact ha c h
  · exact hb c h

theorem modeText_lines (v : Overall K) (p : Mode K × K) : modeText v p = (modeLines v p).flatMap fun u => '\n' :: u := by
  unfold modeText modeLines
  simp only [List.flatMap_cons, List.flatMap_nil, List.append_nil, List.append_assoc]
  rfl

set_option maxRecDepth 20000 in
theorem overallText_lines (v : Overall K) :
    overallText v = (reportLines v ++ v.fleet.flatMap (modeLines v)).flatMap fun u => '\n' :: u := by
  have h : v.fleet.flatMap (modeText v) = (v.fleet.flatMap (modeLines v)).flatMap fun u => '\n' :: u := by
    rw [List.flatMap_assoc]
    congr 1
    funext p
    exact modeText_lines v p
  unfold overallText
  rw [h, List.flatMap_append]
  unfold overallLines reportLines
  simp only [List.flatMap_cons, List.flatMap_nil, List.append_nil, List.append_assoc]
  rfl

theorem split_overall {v : Overall K} (hn : ∀ p ∈ v.fleet, ∀ c ∈ p.1.name, c ≠ '\n') :
    splitOn '\n' (overallText v) = [] :: (reportLines v ++ v.fleet.flatMap (modeLines v)) := by
  rw [overallText_lines]
  rw [← List.nil_append (List.flatMap _ _)]
  refine split_lines [] (by simp) _ ?_
  have hfix : ∀ (x : K), ∀ c ∈ fixed 2 x, c ≠ '\n' := fun x c hc => (fixed_plain 2 x c hc).2
  intro u hu
  rcases List.mem_append.1 hu with hu | hu
  · unfold reportLines at hu
    simp only [List.mem_cons, List.not_mem_nil, or_false] at hu
    rcases hu with rfl | rfl | rfl | rfl | rfl | rfl | rfl | rfl | rfl | rfl | rfl | rfl | rfl | rfl
    · simp
    · exact plain_append (by decide) (hfix _)
    · exact plain_append (by decide) (hfix _)
    · exact plain_append (by decide) (hfix _)
    · exact plain_append (by decide) (hfix _)
    · simp
    · decide
    · exact plain_append (by decide) (hfix _)
    · exact plain_append (by decide) (hfix _)
    · exact plain_append (by decide) (hfix _)
    · exact plain_append (by decide) (hfix _)
    · exact plain_append (by decide) (hfix _)
    · simp
    · exact plain_append (by decide) fun c hc => (showInt_plain _ c hc).2
  · obtain ⟨p, hp, hu⟩ := List.mem_flatMap.1 hu
    unfold modeLines at hu
    simp only [List.mem_cons, List.not_mem_nil, or_false] at hu
    rcases hu with rfl | rfl | rfl | rfl | rfl
    · simp
    · exact plain_append (by decide) (hn p hp)
    · exact plain_append (by decide) (hfix _)
    · exact plain_append (by decide) (hfix _)
    · exact plain_append (by decide) fun c hc => (showInt_plain _ c hc).2

theorem overall_sum {fin : Optimizer K} {f : Dict Str K} {t : Loads K} {x : Overall K} (h : fin.overall f t = .ok x) :
    x.vrc = x.operators + x.infrastructure + x.users := by
  have hdiv : ∀ {a b q : K}, pyDiv a b = .ok q → q = a / b := by
    intro a b q h
    unfold pyDiv at h
    split at h
    · cases h
    · cases h; rfl
  unfold Optimizer.overall at h
  obtain ⟨_, _, h⟩ := py_bind_eq_ok.1 h
  simp only at h
  obtain ⟨_, _, h⟩ := py_bind_eq_ok.1 h
  obtain ⟨_, _, h⟩ := py_bind_eq_ok.1 h
  obtain ⟨_, _, h⟩ := py_bind_eq_ok.1 h
  obtain ⟨_, _, h⟩ := py_bind_eq_ok.1 h
  obtain ⟨_, h1, h⟩ := py_bind_eq_ok.1 h
  obtain ⟨_, h2, h⟩ := py_bind_eq_ok.1 h
  obtain ⟨_, h3, h⟩ := py_bind_eq_ok.1 h
  obtain ⟨_, h4, h⟩ := py_bind_eq_ok.1 h
  obtain ⟨_, _, h⟩ := py_bind_eq_ok.1 h
  obtain ⟨_, _, h⟩ := py_bind_eq_ok.1 h
  obtain ⟨_, _, h⟩ := py_bind_eq_ok.1 h
  obtain ⟨_, _, h⟩ := py_bind_eq_ok.1 h
  cases h
  simp only
  rw [hdiv h1, hdiv h2, hdiv h3, hdiv h4, ← add_div, ← add_div]

/-- the nine numbers of the report with their labels, as a user reads them -/
def reportNumbers (v : Overall K) : List (String × K) :=
  [("Objective function VRC [USD$/hr-pax]: ", v.vrc), ("Operators cost [USD$/hr-pax]        : ", v.operators),
    ("Infrastructure cost [USD$/hr-pax]   : ", v.infrastructure), ("Users cost [USD$/hr-pax]            : ", v.users),
    ("Time on board vehicle [min/pax]: ", v.onBoard), ("Waiting time [min/pax]         : ", v.waiting),
    ("Access time [min/pax]          : ", v.access), ("total travel time [min/pax]    : ", v.onBoard + v.waiting + v.access),
    ("Transfers [transfers/pax]      : ", v.transfers)]

theorem skip_line {l u : Str} (h : differ l u = true) (x : Str) (t : List Str) :
    ((u ++ x) :: t).findSome? (after l) = t.findSome? (after l) := by
  rw [List.findSome?_cons, after_differ h]

theorem skip_plain {l u : Str} (h : differ l u = true) (t : List Str) : (u :: t).findSome? (after l) = t.findSome? (after l) := by
  have := skip_line h [] t
  rwa [List.append_nil] at this

theorem skip_empty {l : Str} (h : l ≠ []) (t : List Str) : ([] :: t).findSome? (after l) = t.findSome? (after l) := by
  rw [List.findSome?_cons]
  cases l with
  | nil => exact absurd rfl h
  | cons _ _ => rfl

theorem take_line (l x : Str) (t : List Str) : ((l ++ x) :: t).findSome? (after l) = some x := by
  rw [List.findSome?_cons, after_append]

theorem findSome_report {v : Overall K} (rest : List Str) (q : String × K) (hq : q ∈ reportNumbers v) :
    ([] :: (reportLines v ++ rest)).findSome? (after q.1.toList) = some (fixed 2 q.2) := by
  have hcomm : v.onBoard + v.waiting + v.access = v.onBoard + v.access + v.waiting := by ring
  unfold reportNumbers at hq
  rw [hcomm] at hq
  unfold reportLines
  simp only [List.mem_cons, List.not_mem_nil, or_false] at hq
  simp only [List.cons_append]
  rcases hq with rfl | rfl | rfl | rfl | rfl | rfl | rfl | rfl | rfl <;> dsimp only
  · rw [skip_empty, skip_empty, take_line] <;> decide +kernel
  · rw [skip_empty, skip_empty, skip_line, take_line] <;> decide +kernel
  · rw [skip_empty, skip_empty, skip_line, skip_line, take_line] <;> decide +kernel
  · rw [skip_empty, skip_empty, skip_line, skip_line, skip_line, take_line] <;> decide +kernel
  · rw [skip_empty, skip_empty, skip_line, skip_line, skip_line, skip_line, skip_empty, skip_plain, take_line] <;> decide +kernel
  · rw [skip_empty, skip_empty, skip_line, skip_line, skip_line, skip_line, skip_empty, skip_plain, skip_line,
      take_line] <;> decide +kernel
  · rw [skip_empty, skip_empty, skip_line, skip_line, skip_line, skip_line, skip_empty, skip_plain, skip_line,
      skip_line, take_line] <;> decide +kernel
  · rw [skip_empty, skip_empty, skip_line, skip_line, skip_line, skip_line, skip_empty, skip_plain, skip_line,
      skip_line, skip_line, take_line] <;> decide +kernel
  · rw [skip_empty, skip_empty, skip_line, skip_line, skip_line, skip_line, skip_empty, skip_plain, skip_line,
      skip_line, skip_line, skip_line, take_line] <;> decide +kernel

theorem readModes_lines {v : Overall K} : ∀ (l : List (Mode K × K)), ∃ seen, readModes (l.flatMap (modeLines v)) = some seen ∧
    List.Forall₂ (fun (p : Mode K × K) (s : Str × K × K × Int) => s.1 = p.1.name ∧ Near s.2.1 p.2 ∧
      Near s.2.2.1 (v.sizes.getD p.1 0) ∧ s.2.2.2 = v.lines.getD p.1 0) l seen := by
  intro l
  induction l with
  | nil => exact ⟨[], rfl, .nil⟩
  | cons p t ih =>
    obtain ⟨seen, h1, h2⟩ := ih
    obtain ⟨a, ha, ha'⟩ := readDecimal_two p.2
    obtain ⟨b, hb, hb'⟩ := readDecimal_two (v.sizes.getD p.1 0)
    refine ⟨(p.1.name, a, b, v.lines.getD p.1 0) :: seen, ?_, .cons ⟨rfl, ha', hb', rfl⟩ h2⟩
    rw [List.flatMap_cons]
    unfold modeLines
    simp only [List.cons_append, List.nil_append]
    rw [readModes]
    simp only [after_append, Option.bind_some, ha, hb, pyInt_showInt]
    have h1' : readModes (List.flatMap (modeLines v) t) = some seen := h1
    unfold modeLines at h1'
    rw [h1']

/-- C73: each number of the report of overall results, looked up by its label, is the one of the results up to half a hundredth;
then come the modes of the lines that run, with their names, vehicles, capacities and numbers of lines -/
theorem C73_numbers {o : Optimizer K} {best : Option (Res K)} {v : Overall K} (h : o.overallResults best = .ok v)
    (hn : ∀ p ∈ v.fleet, ∀ c ∈ p.1.name, c ≠ '\n') :
    ∃ text, o.stringOverallResults best = .ok text ∧
      (∀ q ∈ reportNumbers v, ∃ x, valueAfter q.1.toList text = some x ∧ Near x q.2) ∧
      ∃ seen, readModes ((splitOn '\n' text).drop 15) = some seen ∧
        List.Forall₂ (fun (p : Mode K × K) (s : Str × K × K × Int) => s.1 = p.1.name ∧ Near s.2.1 p.2 ∧
          Near s.2.2.1 (v.sizes.getD p.1 0) ∧ s.2.2.2 = v.lines.getD p.1 0) v.fleet seen := by
  refine ⟨overallText v, ?_, ?_, ?_⟩
  · rw [Optimizer.stringOverallResults, h]
    rfl
  · intro q hq
    obtain ⟨x, hx, hx'⟩ := readDecimal_two q.2
    refine ⟨x, ?_, hx'⟩
    rw [valueAfter, split_overall hn, findSome_report _ q hq]
    exact hx
  · obtain ⟨seen, h1, h2⟩ := readModes_lines (v := v) v.fleet
    refine ⟨seen, ?_, h2⟩
    rw [split_overall hn]
    exact h1

/-- C73: the costs printed add up to the objective printed, and the times to the total time, up to two hundredths -/
theorem C73_consistent {o : Optimizer K} {best : Option (Res K)} {v : Overall K} (h : o.overallResults best = .ok v)
    (hn : ∀ p ∈ v.fleet, ∀ c ∈ p.1.name, c ≠ '\n') {text : Str} (ht : o.stringOverallResults best = .ok text) :
    (∃ a b c e : K, valueAfter "Objective function VRC [USD$/hr-pax]: ".toList text = some a ∧
      valueAfter "Operators cost [USD$/hr-pax]        : ".toList text = some b ∧
      valueAfter "Infrastructure cost [USD$/hr-pax]   : ".toList text = some c ∧
      valueAfter "Users cost [USD$/hr-pax]            : ".toList text = some e ∧ |a - (b + c + e)| ≤ 1 / 50) ∧
    ∃ a b c e : K, valueAfter "total travel time [min/pax]    : ".toList text = some a ∧
      valueAfter "Time on board vehicle [min/pax]: ".toList text = some b ∧
      valueAfter "Waiting time [min/pax]         : ".toList text = some c ∧
      valueAfter "Access time [min/pax]          : ".toList text = some e ∧ |a - (b + c + e)| ≤ 1 / 50 := by
  obtain ⟨text', ht', hv, _⟩ := C73_numbers h hn
  rw [ht] at ht'
  cases ht'
  have hsum : v.vrc = v.operators + v.infrastructure + v.users := by
    cases best with
    | none => cases h
    | some res =>
      rw [Optimizer.overallResults] at h
      obtain ⟨_, _, h⟩ := py_bind_eq_ok.1 h
      exact overall_sum h
  have hfour : ∀ {a b c e a' b' c' e' : K}, Near a a' → Near b b' → Near c c' → Near e e' → a' = b' + c' + e' →
      |a - (b + c + e)| ≤ 1 / 50 := by
    intro a b c e a' b' c' e' h1 h2 h3 h4 h5
    unfold Near at h1 h2 h3 h4
    rw [abs_le] at h1 h2 h3 h4 ⊢
    constructor <;> linarith
  have hmem : ∀ {l : String} {x : K}, (l, x) ∈ reportNumbers v → ∃ y, valueAfter l.toList text = some y ∧ Near y x :=
    fun h => hv _ h
  unfold reportNumbers at hmem
  constructor
  · obtain ⟨a, h1, h1'⟩ := hmem (l := "Objective function VRC [USD$/hr-pax]: ") (x := v.vrc) (by simp)
    obtain ⟨b, h2, h2'⟩ := hmem (l := "Operators cost [USD$/hr-pax]        : ") (x := v.operators) (by simp)
    obtain ⟨c, h3, h3'⟩ := hmem (l := "Infrastructure cost [USD$/hr-pax]   : ") (x := v.infrastructure) (by simp)
    obtain ⟨e, h4, h4'⟩ := hmem (l := "Users cost [USD$/hr-pax]            : ") (x := v.users) (by simp)
    exact ⟨a, b, c, e, h1, h2, h3, h4, hfour h1' h2' h3' h4' hsum⟩
  · obtain ⟨a, h1, h1'⟩ := hmem (l := "total travel time [min/pax]    : ") (x := v.onBoard + v.waiting + v.access) (by simp)
    obtain ⟨b, h2, h2'⟩ := hmem (l := "Time on board vehicle [min/pax]: ") (x := v.onBoard) (by simp)
    obtain ⟨c, h3, h3'⟩ := hmem (l := "Waiting time [min/pax]         : ") (x := v.waiting) (by simp)
    obtain ⟨e, h4, h4'⟩ := hmem (l := "Access time [min/pax]          : ") (x := v.access) (by simp)
    exact ⟨a, b, c, e, h1, h2, h3, h4, hfour h1' h2' h3' h4' rfl⟩

/-! ## the report of the optimization -/

theorem splitOn_append {sep : Char} (a b : Str) : splitOn sep (a ++ sep :: b) = splitOn sep a ++ splitOn sep b := by
  induction a with
  | nil => simp [splitOn]
  | cons c t ih =>
    rw [List.cons_append]
    by_cases hc : c = sep
    · simp only [splitOn, if_pos hc]
      rw [ih]
      rfl
    · simp only [splitOn, if_neg hc]
      rw [ih]
      cases h : splitOn sep t with
      | nil => exact absurd h (splitOn_ne_nil _ _)
      | cons w ws => rfl

theorem split_tail (a : Str) : ∀ l : List Str, (∀ u ∈ l, ∀ c ∈ u, c ≠ '\n') →
    splitOn '\n' (a ++ l.flatMap fun u => '\n' :: u) = splitOn '\n' a ++ l := by
  intro l
  cases l with
  | nil => intro _; simp
  | cons u t =>
    intro h
    rw [List.flatMap_cons, List.cons_append, splitOn_append, split_lines u (h u List.mem_cons_self) t
      fun x hx => h x (List.mem_cons_of_mem _ hx)]

/-- C73: the report of the optimization ends with one line for each line of the network, in their order: the name and its
frequency up to half a hundredth.  The message may be any text. -/
theorem C73_frequencies {g : Graph K} {d : Demand K} {pas : Passenger K} {net : Network K} {f : Option (Dict Str K)}
    {o : Optimizer K} {res : Res K} (hp : Optimizer.prepare g d pas net f = .ok o) (hids : (net.routes.map Route.id).Nodup)
    (hlen : res.x.length = net.routes.length) (hn : ∀ r ∈ net.routes, PlainName r.id) :
    ∃ text, o.stringNetworkOptimization res = .ok text ∧ ∃ before last, splitOn '\n' text = before ++ last ∧
      List.Forall₂ (fun (p : Route K × K) (line : Str) => ∃ w x, line = '\t' :: (p.1.id ++ ':' :: ' ' :: w) ∧
        readDecimal w = some x ∧ Near x p.2) (net.routes.zip res.x) last := by
  have hl : o.lines = net.routes.map Route.id := by rw [(prepare_fields hp).2.2.2.2.2.2.1, f0_lines]
  have hf : foptToF o.lines res.x = .ok ((net.routes.map Route.id).zip res.x) := by
    rw [hl]
    exact foptToF_ok hids (by simp [hlen])
  refine ⟨resultText ((net.routes.map Route.id).zip res.x) res, by rw [Optimizer.stringNetworkOptimization, hf]; rfl, ?_⟩
  have hz : (net.routes.map Route.id).zip res.x = (net.routes.zip res.x).map fun p => (p.1.id, p.2) := by
    rw [List.zip_map_left]
    rfl
  have htail : ((net.routes.map Route.id).zip res.x).flatMap (fun p => "\n\t".toList ++ p.1 ++ ": ".toList ++ fixed 2 p.2) =
      ((net.routes.zip res.x).map fun p => '\t' :: (p.1.id ++ ':' :: ' ' :: fixed 2 p.2)).flatMap fun u => '\n' :: u := by
    rw [hz, List.flatMap_map, List.flatMap_map]
    congr 1
    funext p
    simp only [List.append_assoc]
    rfl
  unfold resultText
  rw [htail]
  refine ⟨_, _, split_tail _ _ ?_, ?_⟩
  · intro u hu c hc
    obtain ⟨p, hp, rfl⟩ := List.mem_map.1 hu
    have hr : p.1 ∈ net.routes := (List.of_mem_zip hp).1
    rcases List.mem_cons.1 hc with rfl | hc
    · decide
    · rcases List.mem_append.1 hc with hc | hc
      · exact (hn _ hr c hc).2
      · rcases List.mem_cons.1 hc with rfl | hc
        · decide
        · rcases List.mem_cons.1 hc with rfl | hc
          · decide
          · exact (fixed_plain _ _ c hc).2
  · rw [List.forall₂_map_right_iff, List.forall₂_same]
    intro p _
    obtain ⟨x, hx, hx'⟩ := readDecimal_two p.2
    exact ⟨_, x, rfl, hx, hx'⟩

end Generic

section Examples

attribute [local instance] ratMath ratText

theorem ratText_plain (q : ℚ) : PrintsPlain q := by
  refine ⟨ratText_printsWell q, ?_, ?_⟩
  · show showInt q.num ++ '/' :: showNat q.den ≠ []
    simp
  · intro c hc
    have hc' : c ∈ showInt q.num ++ '/' :: showNat q.den := hc
    rw [showNat_eq_showInt, List.mem_append, List.mem_cons] at hc'
    rcases hc' with h | rfl | h
    · exact ⟨(showInt_plain _ _ h).1, showInt_bracket _ _ h⟩
    · decide
    · exact ⟨(showInt_plain _ _ h).1, showInt_bracket _ _ h⟩

/-- C72: the numbers are printed and read in a way that meets the hypotheses -/
example : NumText.parse (K := ℚ) ['0'] = some 0 ∧ (∀ q : ℚ, PrintsPlain q) := ⟨by decide +kernel, ratText_plain⟩

/-- C72: the hypotheses hold for the network of two lines, and there are rows -/
example : (∀ r ∈ (runOpt busDemand fairNet).net.routes, PlainName r.id) ∧
    ∃ rows, (runOpt busDemand fairNet).networkResults (some (runRes [2, 3])) = .ok rows ∧ rows.length = 2 := by
  refine ⟨by unfold PlainName; decide +kernel, ?_⟩
  have h : (runOpt busDemand fairNet).lastIteration (runRes [2, 3]) = .ok (runLast busDemand fairNet [2, 3]) :=
    isOk_of_toOption _ fairFacts.1
  refine ⟨[⟨"a".toList, 2, 2, 7, 679/225, 1358/15, 7469/1800, (0 : ℚ), [(1, 2, 1), (2, 0, 5/14)], [(0, 2, 0), (2, 1, 1/7)]⟩,
      ⟨"c".toList, 3, 3, 2, 451/150, 902/15, 451/175, (1/3 : ℚ), [(2, 4, 1), (4, 6, 1/3), (6, 2, 1/3)], []⟩], ?_, rfl⟩
  rw [Optimizer.networkResults]
  show ((runOpt busDemand fairNet).lastIteration (runRes [2, 3]) >>= _) = _
  rw [h, py_ok_bind]
  exact fairFacts.2.1

/-- C72: the file of the table of `fairFacts` (with charges printed as fractions) -/
example : rowsText (K := ℚ)
      [⟨"a".toList, 2, 2, 7, 679/225, 1358/15, 7469/1800, (0 : ℚ), [(1, 2, 1), (2, 0, 5/14)], [(0, 2, 0), (2, 1, 1/7)]⟩,
       ⟨"c".toList, 0, 0, 0, 0, 0, 0, (0 : ℚ), [(2, 4, 0), (4, 2, 0)], []⟩] =
    ("route_id;F[veh/hr];f[veh/hr-line];k[pax/veh];B[veh];tc[min];CO[US$/hr-pax];load_min;sub_table_i;sub_table_r\n".toList ++
      "a;2.00;2.00;7.00;3.02;90.53;4.15;0.00;[(1, 2, 1/1), (2, 0, 5/14)];[(0, 2, 0/1), (2, 1, 1/7)]\n".toList ++
      "c;0.00;0.00;0.00;0.00;0.00;0.00;0.00;[(2, 4, 0), (4, 2, 0)];[]".toList) := by
  decide +kernel

/-- C73: there are overall results for the network of two lines, and the name of the mode has no line break -/
example : ∃ v, (runOpt busDemand fairNet).overallResults (some (runRes [2, 3])) = .ok v ∧ v.fleet.length = 1 ∧
    ∀ p ∈ v.fleet, ∀ c ∈ p.1.name, c ≠ '\n' := by
  have h : (runOpt busDemand fairNet).lastIteration (runRes [2, 3]) = .ok (runLast busDemand fairNet [2, 3]) :=
    isOk_of_toOption _ fairFacts.1
  refine ⟨⟨217423/21600, 1441/225, 7/32, 37181/10800, 14213/360, 20, 38/5, 1/2, [({ demoMode with bya := 1 }, 2711/450)],
    [({ demoMode with bya := 1 }, 9/2)], [({ demoMode with bya := 1 }, 2)]⟩, ?_, rfl, by decide +kernel⟩
  rw [Optimizer.overallResults]
  show ((runOpt busDemand fairNet).lastIteration (runRes [2, 3]) >>= _) = _
  rw [h, py_ok_bind]
  exact overallFacts

/-- C73: its report -/
example : overallText (K := ℚ) ⟨217423/21600, 1441/225, 7/32, 37181/10800, 14213/360, 20, 38/5, 1/2,
      [({ demoMode with bya := 1 }, 2711/450)], [({ demoMode with bya := 1 }, 9/2)], [({ demoMode with bya := 1 }, 2)]⟩ =
    ("\n\nObjective function VRC [USD$/hr-pax]: 10.07".toList ++ "\nOperators cost [USD$/hr-pax]        : 6.40\n".toList ++
      "Infrastructure cost [USD$/hr-pax]   : 0.22".toList ++ "\nUsers cost [USD$/hr-pax]            : 3.44\n\n".toList ++
      "Resources consumer for users".toList ++ "\nTime on board vehicle [min/pax]: 39.48".toList ++ "\nWaiting time [min/pax]         : 20.00\n".toList ++
      "Access time [min/pax]          : 7.60".toList ++ "\ntotal travel time [min/pax]    : 67.08\n".toList ++
      "Transfers [transfers/pax]      : 0.50\n".toList ++ "\nTransport mode information: 1\n\n\tMode name: bus\n".toList ++
      "\tB [veh]      : 6.02\n\tK [pax/veh]  : 4.50".toList ++ "\n\tL [lines]    : 2".toList) := by
  decide +kernel

/-- C73: the costs printed are one hundredth less than the objective printed -/
example : (10.07 : ℚ) - (6.40 + 0.22 + 3.44) = 1 / 100 := by norm_num

/-- C73: the hypotheses about the lines of the network -/
example : Optimizer.prepare (demoCity 3) busDemand demoFair fairNet none = .ok (runOpt busDemand fairNet) ∧
    (fairNet.routes.map Route.id).Nodup ∧ (runRes [2, 3]).x.length = fairNet.routes.length ∧
    (∀ r ∈ fairNet.routes, PlainName r.id) := by
  refine ⟨isOk_of_toOption _ (by decide +kernel), ?_⟩
  unfold PlainName
  decide +kernel

/-- halves are printed to even, negative numbers with their sign -/
example : fixed 2 (1 / 8 : ℚ) = "0.12".toList ∧ fixed 2 (3 / 8 : ℚ) = "0.38".toList ∧ fixed 2 (-(1 / 3) : ℚ) = "-0.33".toList ∧
    fixed 4 (1234567 / 100 : ℚ) = "12345.6700".toList ∧ fixedTop 2 (⊤ : WithTop ℚ) = "inf".toList := by
  decide +kernel

end Examples

end Sidermit
