import Verif.Props.Rebuild

/-!
# Concrete files and cities: cases of C16, C17 and C62, and files where the expected property fails
-/

namespace Sidermit

section Examples

attribute [local instance] ratMath ratText

/-- the error of a computation -/
def errorOf {α : Type} : Py α → Option PyErr
  | .ok _ => none
  | .error e => some e

/-- lines to text -/
def fileOf (ls : List String) : Str := joinWith '\n' (ls.map String.toList)

/-- build from parameters, export and import -/
def throughFile (n : Int) (l g p : ℚ) (etha : Option ℚ) (ethaZone : Option Int) (angles gi hi : Option (List ℚ)) :
    Py (Graph ℚ × Graph ℚ) := do
  let r ← buildFromParameters n l g p etha ethaZone angles gi hi
  let g' ← buildFromContent r.exportPajek
  return (r, g')

theorem toOption_eq_some {α : Type} {x : Py α} {a : α} : x.toOption = some a ↔ x = .ok a := by
  cases x <;> simp [Except.toOption]

/-- the fractions of the examples read back -/
theorem ratText_readsBack (q : ℚ) : ReadsBack q := by
  have h := ratText_printsWell q
  refine ⟨h.1, ?_, fun c hc => (h.2 c hc).2⟩
  show showInt q.num ++ '/' :: showNat q.den ≠ []
  simp

/-- A city with four zones and the CBD half way to the second subcentre goes through a file unchanged: nodes, edges, zones and
parameters. -/
example : (throughFile 4 2 (1/2) 1 (some (1/2)) (some 2) none none none).toOption.map (fun q =>
    ((decide (q.1.nodes = q.2.nodes), decide (q.1.edges = q.2.edges), decide (q.1.zones = q.2.zones)),
      [q.2.l, q.2.g, q.2.p, q.2.etha], q.2.ethaZone)) =
    some ((true, true, true), [some 2, some (1/2), some 1, some (1/2)], some 2) := by decide +kernel

/-- The hypotheses of `C16_round_trip`, `C16_kept` and `C16_text` hold for that city. -/
example : ∃ r : Graph ℚ, buildFromParameters 4 2 (1/2) 1 (some (1/2)) (some 2) none none none = .ok r ∧ CityShape r 4 ∧
    ∀ nd ∈ r.nodes, Writable nd := by
  have hok : CityParamsOk (4 : Int) (2 : ℚ) (1/2) 1 (some (1/2)) (some 2) none none none :=
    ⟨by norm_num, by norm_num, by norm_num, by norm_num,
      Or.inr ⟨1/2, 2, rfl, rfl, by norm_num, by norm_num, by norm_num, by norm_num⟩, by simp, by simp, by simp⟩
  obtain ⟨r, hr⟩ := (buildFromParameters_ok_iff (K := ℚ)).2 hok
  refine ⟨r, hr, (buildFromParameters_shape hr).2.1, ?_⟩
  intro nd hnd
  exact ⟨(params_node hr nd hnd).2.2.2, ratText_readsBack _, ratText_readsBack _, ratText_readsBack _⟩

/-- A file with unsorted rows, upper case header and text around is accepted; the nodes are put in the order of a city. -/
example : (buildFromContent (fileOf ["some text", "*VERTICES 5", "7 c -1/1 0/1 SC 2 1/1", "6 d -2/1 0/1 P 2 1/1",
      "1 a 0/1 0/1 CBD 0 1/1", "3 e 0/1 1/1 SC 1 1/1", "2 f 0/1 3/1 P 1 1/1", "not read"]) : Py (Graph ℚ)).toOption.map (fun g =>
      ((g.nodes.map Node.id, g.nodes.map Node.zone, g.nodes.map Node.radius), [g.l, g.g], g.edges.length)) =
    some (([1, 2, 3, 6, 7], [0, 1, 1, 2, 2], [0, 3, 1, 2, 1]), [some 1, some (3/2)], 10) := by decide +kernel

/-- **C17**, ids: a file whose periphery and subcentre of one zone have the same id is accepted, so the ids of an imported city
need not be different. -/
theorem C17_shared_id : ∃ (data : Str) (g : Graph ℚ), buildFromContent data = .ok g ∧ g.nodes.length = 3 ∧ ¬ DistinctIds g := by
  have h : (buildFromContent (fileOf ["*vertices 3", "1 a 0/1 0/1 CBD 0 1/1", "5 b 2/1 0/1 P 1 1/1", "5 c 1/1 0/1 SC 1 1/1"]) :
      Py (Graph ℚ)).toOption.map (fun g => g.nodes.map Node.id) = some [1, 5, 5] := by decide +kernel
  rw [Option.map_eq_some_iff] at h
  obtain ⟨g, hg, hids⟩ := h
  refine ⟨_, g, toOption_eq_some.1 hg, ?_, ?_⟩
  · rw [← List.length_map (f := Node.id), hids]; rfl
  · unfold DistinctIds; rw [hids]; decide

/-- **C17**, a file with one row that is no CBD gives a city without any node, although a city has a CBD. -/
theorem C17_no_cbd : ∃ (data : Str) (g : Graph ℚ), buildFromContent data = .ok g ∧ g.n = some 0 ∧ g.nodes = [] := by
  have h : (buildFromContent (fileOf ["*vertices 1", "5 c 1/1 0/1 SC 1 1/1"]) : Py (Graph ℚ)).toOption.map
      (fun g => (g.n, g.nodes)) = some (some 0, []) := by decide +kernel
  rw [Option.map_eq_some_iff] at h
  obtain ⟨g, hg, h2⟩ := h
  exact ⟨_, g, toOption_eq_some.1 hg, congrArg Prod.fst h2, congrArg Prod.snd h2⟩

/-- **C17**, the declared number of vertices is only an upper bound: a file with fewer lines is accepted. -/
theorem C17_short_file : ∃ (data : Str) (g : Graph ℚ), "*vertices 7".toList <+: data ∧ buildFromContent data = .ok g ∧
    g.nodes.length = 3 := by
  have h : (buildFromContent (fileOf ["*vertices 7", "1 a 0/1 0/1 CBD 0 1/1", "5 b 2/1 0/1 P 1 1/1", "6 c 1/1 0/1 SC 1 1/1"]) :
      Py (Graph ℚ)).toOption.map (fun g => g.nodes.length) = some 3 := by decide +kernel
  rw [Option.map_eq_some_iff] at h
  obtain ⟨g, hg, h2⟩ := h
  exact ⟨_, g, List.prefix_append _ _, toOption_eq_some.1 hg, h2⟩

/-- The errors of `C17_bad_line` and `C17_number_of_rows` on files. -/
example :
    [fileOf ["*vertices 1", "1 a 0/1 0/1 CBD 0"],
     fileOf ["*vertices 1", "x a 0/1 0/1 BD y 1/1"],
     fileOf ["*vertices 1", "x a 0/1 0/1 CBD y 1/1"],
     fileOf ["*vertices 1", "1 a 0/1 0/1 CBD y 1/1"],
     fileOf ["*vertices 2", "1 a 0/1 0/1 CBD 0 1/1", "2 b 1/1 0/1 P 1 1/1"],
     fileOf ["no nodes"]].map (fun d => errorOf (buildFromContent d : Py (Graph ℚ))) =
    [some .PajekFormatIsNotValid, some .NodeTypeIsNotValid, some .NodeIdIsNotAnInteger, some .ZoneIdIsNotAnInteger,
     some .LineNumberInFileIsNotValid, some .LineNumberInFileIsNotValid] := by decide +kernel

/-- The hypotheses of `C17_bad_line`: a good line, then one with a bad type. -/
example : splitOn '\n' (fileOf ["text", "*vertices 3", "1 a 0/1 0/1 CBD 0 1/1", "2 b 1/1 0/1 X 1 1/1"]) =
      ["text".toList] ++ "*vertices 3".toList :: (["1 a 0/1 0/1 CBD 0 1/1".toList] ++ "2 b 1/1 0/1 X 1 1/1".toList :: []) ∧
    isVertices "text".toList = false ∧ isVertices "*vertices 3".toList = true ∧
    (verticesCount "*vertices 3".toList).toOption = some 3 ∧ isVertices "2 b 1/1 0/1 X 1 1/1".toList = false ∧
    (splitWs "2 b 1/1 0/1 X 1 1/1".toList).length = 7 ∧ (∀ c : Kind, "X".toList ≠ c.text) := by
  refine ⟨by decide +kernel, by decide +kernel, by decide +kernel, by decide +kernel, by decide +kernel, by decide +kernel, ?_⟩
  intro c; cases c <;> decide

/-- **C16**, accepted cities whose export is refused: peripheries nearer than the subcentres, subcentres at the origin (all or
one), and the CBD beyond another subcentre in the same direction. -/
theorem C16_refused :
    [throughFile 1 1 0 1 none none none none (some [1/2]),
     throughFile 1 0 1 1 none none none none none,
     throughFile 2 1 1 1 none none (some [0, 90]) (some [1, 0]) none,
     throughFile 2 1 1 1 (some 1) (some 1) (some [0, 0]) (some [2, 1]) none].map errorOf =
      [some .GIsNotValidNumber, some .ZeroDivisionError, some .ZeroDivisionError, some .EthaValueIsNotValid] ∧
    [buildFromParameters (1 : Int) (1 : ℚ) 0 1 none none none none (some [1/2]),
     buildFromParameters (1 : Int) (0 : ℚ) 1 1 none none none none none,
     buildFromParameters (2 : Int) (1 : ℚ) 1 1 none none (some [0, 90]) (some [1, 0]) none,
     buildFromParameters (2 : Int) (1 : ℚ) 1 1 (some 1) (some 1) (some [0, 0]) (some [2, 1]) none].map errorOf =
      [none, none, none, none] := by
  constructor <;> decide +kernel

/-- **C62**, a CBD that is not in the direction of a subcentre is lost when the city is rebuilt from its parameters. -/
theorem C62_cbd_lost : ∃ (data : Str) (g r : Graph ℚ) (l gg p : ℚ), buildFromContent data = .ok g ∧ g.l = some l ∧ g.g = some gg ∧
    g.p = some p ∧ buildFromParameters 1 l gg p g.etha g.ethaZone g.angles g.gi g.hi = .ok r ∧
    g.nodes.head?.map Node.y = some 1 ∧ r.nodes.head?.map Node.y = some 0 := by
  have h : (buildFromContent (fileOf ["*vertices 3", "1 a 0/1 1/1 CBD 0 1/1", "5 b 2/1 0/1 P 1 1/1", "6 c 1/1 0/1 SC 1 1/1"]) :
      Py (Graph ℚ)).toOption.map (fun g => (g.l, g.g, g.p, g.nodes.head?.map Node.y,
        (buildFromParameters 1 1 1 1 g.etha g.ethaZone g.angles g.gi g.hi).toOption.map (fun r => r.nodes.head?.map Node.y))) =
      some (some 1, some 1, some 1, some 1, some (some 0)) := by decide +kernel
  rw [Option.map_eq_some_iff] at h
  obtain ⟨g, hg, h2⟩ := h
  simp only [Prod.mk.injEq] at h2
  obtain ⟨h3, h4, h5, h6, h7⟩ := h2
  rw [Option.map_eq_some_iff] at h7
  obtain ⟨r, hr, h8⟩ := h7
  exact ⟨_, g, r, 1, 1, 1, toOption_eq_some.1 hg, h3, h4, h5, toOption_eq_some.1 hr, h6, h8⟩

/-- Rebuilding the city of the first example from the parameters read from its file gives the same nodes. -/
example : (throughFile 4 2 (1/2) 1 (some (1/2)) (some 2) none none none).toOption.bind (fun q =>
    (buildFromParameters 4 2 (1/2) 1 q.2.etha q.2.ethaZone q.2.angles q.2.gi q.2.hi).toOption.map fun r =>
      decide (r.nodes = q.1.nodes)) = some true := by decide +kernel

end Examples

section RealExamples

/-- a printing of the real numbers that is lawful on fractions -/
@[reducible] noncomputable def realText : NumText ℝ where
  fmt v := open Classical in if h : ∃ q : ℚ, (q : ℝ) = v then ratText.fmt h.choose else []
  parse s := (ratText.parse s).map fun q : ℚ => (q : ℝ)

attribute [local instance] realText

open Classical in
theorem realText_readsBack (q : ℚ) : ReadsBack (q : ℝ) := by
  have h : ∃ q' : ℚ, (q' : ℝ) = (q : ℝ) := ⟨q, rfl⟩
  have hq : h.choose = q := Rat.cast_injective h.choose_spec
  have hf : (NumText.fmt (q : ℝ) : Str) = ratText.fmt q := by
    show (if h : ∃ q' : ℚ, (q' : ℝ) = (q : ℝ) then ratText.fmt h.choose else []) = _
    rw [dif_pos h, hq]
  have := @ratText_readsBack q
  refine ⟨?_, ?_⟩
  · rw [hf]
    have h1 : ratText.parse (ratText.fmt q) = some q := this.1
    have h2 : ∀ s, realText.parse s = (ratText.parse s).map fun q : ℚ => (q : ℝ) := fun s => rfl
    rw [h2, h1]; rfl
  · rw [hf]; exact this.2

/-- The hypotheses of `C62_symmetric` (and of `C16_centred` and `C16_parameters`) hold for the city with one zone at distances 10 and 15. -/
example : ∃ r : Graph ℝ, buildFromParameters (1 : Nat) 10 (1/2) 2 none none none none none = .ok r ∧
      (∀ nd ∈ r.nodes, ReadsBack nd.x ∧ ReadsBack nd.y) ∧ ReadsBack (2 : ℝ) := by
  have hok : CityParamsOk ((1 : Nat) : Int) (10 : ℝ) (1/2) 2 none none none none none :=
    ⟨by norm_num, by norm_num, by norm_num, by norm_num, Or.inl ⟨rfl, rfl⟩, by simp, by simp, by simp⟩
  refine ⟨_, buildFromParameters_eq hok, ?_, by have := realText_readsBack 2; simpa using this⟩
  intro nd hnd
  have h0 := realText_readsBack 0
  have h10 := realText_readsBack 10
  have h15 := realText_readsBack 15
  have e15 : (10 : ℝ) + 2⁻¹ * 10 = 15 := by norm_num
  simp only [cityNodes, List.range_succ, List.range_zero, List.map_cons, List.map_nil, List.nil_append,
    List.cons_append, List.mem_cons, List.not_mem_nil, or_false, Nat.mul_one] at hnd
  rcases hnd with rfl | rfl | rfl
  · refine ⟨?_, ?_⟩ <;> simp [nodeAt, docGeo] <;> simpa using h0
  · refine ⟨?_, ?_⟩ <;> simp [nodeAt, docGeo, PyMath.cosDeg, PyMath.sinDeg]
    · rw [e15]; simpa using h15
    · simpa using h0
  · refine ⟨?_, ?_⟩ <;> simp [nodeAt, docGeo, PyMath.cosDeg, PyMath.sinDeg]
    · simpa using h10
    · simpa using h0

theorem cos_180 : Real.cos (180 * Real.pi / 180) = -1 := by
  rw [show (180 : ℝ) * Real.pi / 180 = Real.pi by ring, Real.cos_pi]

theorem sin_180 : Real.sin (180 * Real.pi / 180) = 0 := by
  rw [show (180 : ℝ) * Real.pi / 180 = Real.pi by ring, Real.sin_pi]

/-- The hypotheses of `C16_displaced` hold for two opposite zones at distances 10 and 15 with the CBD half way to the second
subcentre. -/
example : ∃ r g' : Graph ℝ, buildFromParameters (2 : Nat) 10 (1/2) 2 (some (1/2)) (some 2) none none none = .ok r ∧
    buildFromContent r.exportPajek = .ok g' := by
  have hok : CityParamsOk ((2 : Nat) : Int) (10 : ℝ) (1/2) 2 (some (1/2)) (some 2) none none none :=
    ⟨by norm_num, by norm_num, by norm_num, by norm_num,
      Or.inr ⟨1/2, 2, rfl, rfl, by norm_num, by norm_num, by norm_num, by norm_num⟩, by simp, by simp, by simp⟩
  have hb := buildFromParameters_eq hok
  have hnodes : cityNodes (docGeo 2 (10 : ℝ) (1/2) (some (1/2)) (some 2) none none none) 2 2 =
      [⟨0, -5, 0, 5, 180, 2, 0, "CBD".toList, .cbd⟩, ⟨1, 15, 0, 15, 0, 2, 1, "P_1".toList, .periphery⟩,
       ⟨2, 10, 0, 10, 0, 2, 1, "SC_1".toList, .subcenter⟩, ⟨3, -15, 0, 15, 180, 2, 2, "P_2".toList, .periphery⟩,
       ⟨4, -10, 0, 10, 180, 2, 2, "SC_2".toList, .subcenter⟩] := by
    have hc : PyMath.cosDeg (180 : ℝ) = -1 := cos_180
    have hs : PyMath.sinDeg (180 : ℝ) = 0 := sin_180
    have hc0 : PyMath.cosDeg (0 : ℝ) = 1 := by simp [PyMath.cosDeg]
    have hs0 : PyMath.sinDeg (0 : ℝ) = 0 := by simp [PyMath.sinDeg]
    have ha : (docGeo 2 (10 : ℝ) (1/2) (some (1/2)) (some 2) none none none) =
        ⟨fun i => 180 * i, fun _ => 15, fun _ => 10, 5, 180⟩ := by
      simp only [docGeo, Geo.mk.injEq]
      refine ⟨?_, ?_, trivial, ?_, ?_⟩
      · funext i; norm_num
      · funext i; norm_num
      · norm_num
      · norm_num
    rw [ha]
    simp only [cityNodes, List.range_succ, List.range_zero, List.map_cons, List.map_nil, List.nil_append, List.cons_append]
    norm_num [nodeAt, hc, hs, hc0, hs0]
    decide
  rw [hnodes] at hb
  have r0 : ReadsBack (0 : ℝ) := by simpa using realText_readsBack 0
  have r5 : ReadsBack (-5 : ℝ) := by simpa using realText_readsBack (-5)
  have r10 : ReadsBack (10 : ℝ) := by simpa using realText_readsBack 10
  have r10' : ReadsBack (-10 : ℝ) := by simpa using realText_readsBack (-10)
  have r15 : ReadsBack (15 : ℝ) := by simpa using realText_readsBack 15
  have r15' : ReadsBack (-15 : ℝ) := by simpa using realText_readsBack (-15)
  obtain ⟨g', hg'⟩ := C16_displaced hb (by simp [r0, r5, r10, r10', r15, r15']) (by simpa using realText_readsBack 2) (by norm_num)
    (by simp) (by
      show ([10, 10] : List ℝ).sum ≤ ([15, 15] : List ℝ).sum
      norm_num) (by simp [turned]; norm_num)
  exact ⟨_, g', hb, hg'⟩

end RealExamples

end Sidermit
