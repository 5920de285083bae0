import Verif.Model.Report
import Verif.Spec.Report
import Verif.Proofs.Text
import Mathlib.Tactic.Linarith
import Mathlib.Tactic.Ring
import Mathlib.Tactic.FieldSimp
import Mathlib.Algebra.Order.Field.Basic

/-! Printed numbers and tables are read back. -/

set_option linter.unusedSectionVars false

namespace Sidermit

variable {K : Type}

/-! ### numbers -/

theorem lastDigits_digits : ∀ (p n : Nat) (c : Char), c ∈ lastDigits p n → ∃ d, d < 10 ∧ c = digitChar d := by
  intro p
  induction p with
  | zero => intro n c h; simp [lastDigits] at h
  | succ p ih =>
    intro n c h
    rcases List.mem_append.1 h with h | h
    · exact ih _ _ h
    · simp at h
      exact ⟨n % 10, Nat.mod_lt _ (by omega), h⟩

theorem length_lastDigits : ∀ p n, (lastDigits p n).length = p := by
  intro p
  induction p with
  | zero => intro n; rfl
  | succ p ih => intro n; simp [lastDigits, ih]

theorem parseDigits_lastDigits : ∀ (p n : Nat), parseDigits 0 false (lastDigits (p + 1) n) = some (n % 10 ^ (p + 1)) := by
  intro p
  induction p with
  | zero =>
    intro n
    have h : n % 10 < 10 := Nat.mod_lt _ (by omega)
    simp [lastDigits, parseDigits, digitVal_digitChar h]
  | succ p ih =>
    intro n
    have h : n % 10 < 10 := Nat.mod_lt _ (by omega)
    have hne : lastDigits (p + 1) (n / 10) ≠ [] := by
      intro h0
      have := length_lastDigits (p + 1) (n / 10)
      rw [h0] at this
      simp at this
    obtain ⟨v, h1, h2⟩ := parseDigits_append_digits (lastDigits (p + 1) (n / 10)) 0 false [digitChar (n % 10)]
      (lastDigits_digits _ _) hne
    rw [ih] at h2
    cases h2
    rw [show lastDigits (p + 1 + 1) n = lastDigits (p + 1) (n / 10) ++ [digitChar (n % 10)] from rfl, h1]
    simp only [parseDigits, digitVal_digitChar h, if_true]
    congr 1
    have e : (10 : Nat) ^ (p + 1 + 1) = 10 * 10 ^ (p + 1) := by ring
    rw [e, Nat.mod_mul]
    ring

section Field

variable [Field K] [LinearOrder K] [IsStrictOrderedRing K] [FloorRing K]

theorem nearest_close (x : K) : |(nearest x : K) - x| ≤ 1 / 2 := by
  have h1 := Int.floor_le x
  have h2 := Int.lt_floor_add_one x
  rw [abs_le]
  unfold nearest
  split
  · constructor <;> linarith
  · split
    · push_cast; constructor <;> linarith
    · split
      · constructor <;> linarith
      · push_cast; constructor <;> linarith

theorem nearest_nonneg {x : K} (h : 0 ≤ x) : 0 ≤ nearest x := by
  have := Int.floor_nonneg.2 h
  unfold nearest
  split
  · exact this
  · split
    · omega
    · split <;> omega

/-- the number that is printed -/
def printed (p : Nat) (x : K) : K :=
  (if x < 0 then -1 else 1) * (((nearest (10 ^ p * |x|)).toNat : K) / 10 ^ p)

theorem digit_ne_point {d : Nat} (h : d < 10) : digitChar d ≠ '.' := by interval_cases d <;> decide

theorem readPlain_fixed (p n : Nat) :
    readPlain (showNat (n / 10 ^ (p + 1)) ++ '.' :: lastDigits (p + 1) n) = some ((n : K) / 10 ^ (p + 1)) := by
  unfold readPlain
  rw [splitOn_append_sep _ (fun c hc => by
      obtain ⟨d, hd, rfl⟩ := showNat_digits _ _ hc
      exact digit_ne_point hd),
    splitOn_of_not_mem (fun c hc => by
      obtain ⟨d, hd, rfl⟩ := lastDigits_digits _ _ _ hc
      exact digit_ne_point hd)]
  simp only [parseDigits_showNat, parseDigits_lastDigits, length_lastDigits]
  congr 1
  have h := Nat.div_add_mod n (10 ^ (p + 1))
  have h' : (n : K) = ((10 ^ (p + 1) : Nat) : K) * ((n / 10 ^ (p + 1) : Nat) : K) + ((n % 10 ^ (p + 1) : Nat) : K) := by
    exact_mod_cast h.symm
  have hp : (10 : K) ^ (p + 1) ≠ 0 := by positivity
  rw [h']
  push_cast
  field_simp

theorem readDecimal_fixed (p : Nat) (x : K) : readDecimal (fixed (p + 1) x) = some (printed (p + 1) x) := by
  unfold fixed printed
  by_cases hx : x < 0
  · simp only [if_pos hx]
    show (readPlain (showNat _ ++ '.' :: lastDigits (p + 1) _)).map _ = _
    rw [readPlain_fixed]
    simp
  · simp only [if_neg hx, List.nil_append, one_mul]
    set n := (nearest (10 ^ (p + 1) * |x|)).toNat
    have hne := showNat_ne_nil (n / 10 ^ (p + 1))
    rw [← readPlain_fixed (K := K) p n]
    cases h : showNat (n / 10 ^ (p + 1)) with
    | nil => exact absurd h hne
    | cons c t =>
      have hc : c ≠ '-' := by
        obtain ⟨d, hd, hc⟩ := showNat_digits (n / 10 ^ (p + 1)) c (by rw [h]; exact List.mem_cons_self)
        rw [hc]
        exact digit_ne_minus hd
      show readDecimal (c :: (t ++ '.' :: lastDigits (p + 1) n)) = _
      unfold readDecimal
      split
      · next heq => cases heq; exact absurd rfl hc
      · rfl

theorem printed_close (p : Nat) (x : K) : |printed p x - x| ≤ 1 / (2 * 10 ^ p) := by
  have hp : (0 : K) < 10 ^ p := by positivity
  have hn : 0 ≤ nearest (10 ^ p * |x|) := nearest_nonneg (mul_nonneg hp.le (abs_nonneg x))
  have hc := nearest_close (10 ^ p * |x|)
  have hcast : (((nearest (10 ^ p * |x|)).toNat : Nat) : K) = ((nearest (10 ^ p * |x|) : Int) : K) := by
    have : ((nearest (10 ^ p * |x|)).toNat : Int) = nearest (10 ^ p * |x|) := Int.toNat_of_nonneg hn
    exact_mod_cast congrArg (Int.cast : Int → K) this
  unfold printed
  rw [hcast]
  have key : |(nearest (10 ^ p * |x|) : K) / 10 ^ p - abs x| ≤ 1 / (2 * 10 ^ p) := by
    have e : (nearest (10 ^ p * |x|) : K) / 10 ^ p - |x| = ((nearest (10 ^ p * |x|) : K) - 10 ^ p * |x|) / 10 ^ p := by
      field_simp
    rw [e, abs_div, abs_of_pos hp, div_le_div_iff₀ hp (by positivity)]
    nlinarith
  by_cases hx : x < 0
  · rw [if_pos hx]
    rw [abs_of_neg hx] at key ⊢
    have e : (-1 : K) * ((nearest (10 ^ p * -x) : K) / 10 ^ p) - x = -((nearest (10 ^ p * -x) : K) / 10 ^ p - -x) := by ring
    rw [e, abs_neg]
    exact key
  · rw [if_neg hx, one_mul]
    rw [abs_of_nonneg (not_lt.1 hx)] at key ⊢
    exact key

theorem near_printed (x : K) : Near (printed 2 x) x := by
  have := printed_close 2 x
  unfold Near
  norm_num at this ⊢
  exact this

theorem readDecimal_two (x : K) : ∃ y, readDecimal (fixed 2 x) = some y ∧ Near y x :=
  ⟨_, readDecimal_fixed 1 x, near_printed x⟩

/-- the characters of a printed number -/
theorem fixed_chars (p : Nat) (x : K) (c : Char) (h : c ∈ fixed p x) : c = '-' ∨ c = '.' ∨ ∃ d, d < 10 ∧ c = digitChar d := by
  unfold fixed at h
  rcases List.mem_append.1 h with h | h
  · split at h
    · simp at h; exact Or.inl h
    · simp at h
  · rcases List.mem_append.1 h with h | h
    · exact Or.inr (Or.inr (showNat_digits _ _ h))
    · rcases List.mem_cons.1 h with h | h
      · exact Or.inr (Or.inl h)
      · exact Or.inr (Or.inr (lastDigits_digits _ _ _ h))

theorem fixed_plain (p : Nat) (x : K) (c : Char) (h : c ∈ fixed p x) : c ≠ ';' ∧ c ≠ '\n' := by
  rcases fixed_chars p x c h with h | h | ⟨d, hd, h⟩
  · rw [h]; decide
  · rw [h]; decide
  · rw [h]
    interval_cases d <;> decide

theorem fixed_ne_inf (p : Nat) (x : K) : fixed p x ≠ "inf".toList := by
  intro h
  have hi : 'i' ∈ fixed p x := by rw [h]; decide
  rcases fixed_chars p x 'i' hi with h | h | ⟨d, hd, h⟩
  · exact absurd h (by decide)
  · exact absurd h (by decide)
  · revert h
    interval_cases d <;> decide

theorem readTop_two (x : WithTop K) : ∃ y, readTop (fixedTop 2 x) = some y ∧ NearTop y x := by
  cases x with
  | top => exact ⟨⊤, by unfold readTop fixedTop; exact if_pos rfl, Or.inl ⟨rfl, rfl⟩⟩
  | coe a =>
    refine ⟨((printed 2 a : K) : WithTop K), ?_, Or.inr ⟨_, _, rfl, rfl, near_printed a⟩⟩
    show readTop (fixed 2 a) = _
    unfold readTop
    rw [if_neg (fixed_ne_inf 2 a), readDecimal_fixed]
    rfl

theorem fixedTop_plain (p : Nat) (x : WithTop K) (c : Char) (h : c ∈ fixedTop p x) : c ≠ ';' ∧ c ≠ '\n' := by
  cases x with
  | top =>
    have h' : c ∈ "inf".toList := h
    revert h'
    have : ∀ c ∈ "inf".toList, c ≠ ';' ∧ c ≠ '\n' := by decide
    exact this c
  | coe a => exact fixed_plain p a c h

end Field

/-! ### tables -/

theorem filter_commaJoin (ws : List Str) :
    (commaJoin ws).filter (fun c => !bracket c) = joinWith ',' (ws.map fun w => w.filter fun c => !bracket c) := by
  induction ws with
  | nil => rfl
  | cons w t ih =>
    cases t with
    | nil => rfl
    | cons w' t' =>
      show (w ++ ',' :: ' ' :: commaJoin (w' :: t')).filter _ = _ ++ ',' :: joinWith ',' _
      rw [List.filter_append, List.filter_cons_of_pos (by decide), List.filter_cons_of_neg (by decide), ih]

theorem filter_plain {w : Str} (h : ∀ c ∈ w, bracket c = false) : w.filter (fun c => !bracket c) = w := by
  rw [List.filter_eq_self]
  intro c hc
  rw [h c hc]
  rfl

/-- the cells of a table -/
def cellsOf (num : K → Str) (l : List (Int × Int × K)) : List Str :=
  l.flatMap fun s => [showInt s.1, showInt s.2.1, num s.2.2]

theorem showInt_bracket (i : Int) (c : Char) (h : c ∈ showInt i) : bracket c = false := by
  rcases showInt_chars i c h with h | ⟨d, hd, h⟩
  · rw [h]; decide
  · rw [h]
    interval_cases d <;> decide

theorem filter_tuple {num : K → Str} {s : Int × Int × K} (h : ∀ c ∈ num s.2.2, bracket c = false) :
    (tupleText num s).filter (fun c => !bracket c) = joinWith ',' [showInt s.1, showInt s.2.1, num s.2.2] := by
  unfold tupleText
  rw [List.filter_cons_of_neg (by decide), List.filter_append, filter_commaJoin,
    show ([')'] : Str).filter (fun c => !bracket c) = [] from by decide, List.append_nil]
  simp only [List.map_cons, List.map_nil]
  rw [filter_plain (showInt_bracket s.1), filter_plain (showInt_bracket s.2.1), filter_plain h]

theorem joinWith_append {sep : Char} : ∀ (a b : List Str), a ≠ [] → b ≠ [] →
    joinWith sep (a ++ b) = joinWith sep a ++ sep :: joinWith sep b := by
  intro a
  induction a with
  | nil => intro b h; exact absurd rfl h
  | cons w t ih =>
    intro b _ hb
    cases t with
    | nil =>
      cases b with
      | nil => exact absurd rfl hb
      | cons x y => rfl
    | cons w' t' =>
      show w ++ sep :: joinWith sep (w' :: t' ++ b) = (w ++ sep :: joinWith sep (w' :: t')) ++ _
      rw [ih b (by simp) hb]
      simp

theorem joinWith_flatMap {α : Type} {sep : Char} (f : α → List Str) (hf : ∀ a, f a ≠ []) : ∀ l : List α,
    joinWith sep (l.flatMap f) = joinWith sep (l.map fun a => joinWith sep (f a)) := by
  intro l
  induction l with
  | nil => rfl
  | cons a t ih =>
    cases t with
    | nil => simp [joinWith]
    | cons b u =>
      rw [List.flatMap_cons, joinWith_append _ _ (hf a) (by simp [hf b]), ih]
      rfl

theorem filter_table {num : K → Str} {l : List (Int × Int × K)} (h : ∀ s ∈ l, ∀ c ∈ num s.2.2, bracket c = false) :
    (tableText num l).filter (fun c => !bracket c) = joinWith ',' (cellsOf num l) := by
  unfold tableText cellsOf
  rw [List.filter_cons_of_neg (by decide), List.filter_append, filter_commaJoin,
    show ([']'] : Str).filter (fun c => !bracket c) = [] from by decide, List.append_nil, List.map_map,
    joinWith_flatMap _ (fun _ => by simp)]
  congr 1
  apply List.map_congr_left
  intro s hs
  exact filter_tuple (h s hs)

theorem joinWith_ne_nil {sep : Char} {ws : List Str} (hne : ws ≠ []) (h : ∀ w ∈ ws, w ≠ []) : joinWith sep ws ≠ [] := by
  cases ws with
  | nil => exact absurd rfl hne
  | cons w t =>
    have hw := h w List.mem_cons_self
    cases t with
    | nil => exact hw
    | cons w' t' =>
      show w ++ _ ≠ []
      simp

section Tables

variable [NumText K]

theorem triples_cells {num : K → Str} : ∀ {l : List (Int × Int × K)}, (∀ s ∈ l, NumText.parse (num s.2.2) = some s.2.2) →
    triples (cellsOf num l) = some l := by
  intro l
  induction l with
  | nil => intro _; rfl
  | cons s t ih =>
    intro h
    show triples (showInt s.1 :: showInt s.2.1 :: num s.2.2 :: cellsOf num t) = _
    rw [triples, pyInt_showInt, pyInt_showInt, h s List.mem_cons_self, ih fun s hs => h s (List.mem_cons_of_mem _ hs)]

/-- what a text of a number must be like to be a cell -/
def GoodCell (num : K → Str) (x : K) : Prop :=
  NumText.parse (num x) = some x ∧ num x ≠ [] ∧ ∀ c ∈ num x, c ≠ ',' ∧ c ≠ ';' ∧ c ≠ '\n' ∧ bracket c = false

theorem readSections_table {num : K → Str} {l : List (Int × Int × K)} (h : ∀ s ∈ l, GoodCell num s.2.2) :
    readSections (tableText num l) = some l := by
  have hf := filter_table (num := num) (l := l) fun s hs c hc => ((h s hs).2.2 c hc).2.2.2
  unfold readSections
  rw [hf]
  cases l with
  | nil => rfl
  | cons s t =>
    have hcells : ∀ w ∈ cellsOf num (s :: t), w ≠ [] ∧ ∀ c ∈ w, c ≠ ',' := by
      intro w hw
      obtain ⟨u, hu, hw⟩ := List.mem_flatMap.1 hw
      rcases List.mem_cons.1 hw with rfl | hw
      · exact ⟨showInt_ne_nil _, showInt_ne_comma _⟩
      · rcases List.mem_cons.1 hw with rfl | hw
        · exact ⟨showInt_ne_nil _, showInt_ne_comma _⟩
        · rw [List.mem_singleton.1 hw]
          exact ⟨(h u hu).2.1, fun c hc => ((h u hu).2.2 c hc).1⟩
    have hne : cellsOf num (s :: t) ≠ [] := by simp [cellsOf]
    rw [if_neg (joinWith_ne_nil hne fun w hw => (hcells w hw).1), splitOn_joinWith _ hne fun w hw => (hcells w hw).2,
      triples_cells fun s hs => (h s hs).1]

theorem commaJoin_chars (P : Char → Prop) (hc : P ',') (hb : P ' ') : ∀ ws : List Str, (∀ w ∈ ws, ∀ c ∈ w, P c) →
    ∀ c ∈ commaJoin ws, P c := by
  intro ws
  induction ws with
  | nil => intro _ c h; simp [commaJoin] at h
  | cons w t ih =>
    intro h c hcm
    cases t with
    | nil => exact h w List.mem_cons_self c hcm
    | cons w' t' =>
      have hcm' : c ∈ w ++ ',' :: ' ' :: commaJoin (w' :: t') := hcm
      rcases List.mem_append.1 hcm' with h1 | h1
      · exact h w List.mem_cons_self c h1
      · rcases List.mem_cons.1 h1 with rfl | h1
        · exact hc
        · rcases List.mem_cons.1 h1 with rfl | h1
          · exact hb
          · exact ih (fun w hw => h w (List.mem_cons_of_mem _ hw)) c h1

theorem showInt_plain (i : Int) (c : Char) (h : c ∈ showInt i) : c ≠ ';' ∧ c ≠ '\n' := by
  rcases showInt_chars i c h with h | ⟨d, hd, h⟩
  · rw [h]; decide
  · rw [h]
    interval_cases d <;> decide

theorem tableText_plain {num : K → Str} {l : List (Int × Int × K)} (h : ∀ s ∈ l, GoodCell num s.2.2) (c : Char)
    (hc : c ∈ tableText num l) : c ≠ ';' ∧ c ≠ '\n' := by
  have htuple : ∀ s ∈ l, ∀ c ∈ tupleText num s, c ≠ ';' ∧ c ≠ '\n' := by
    intro s hs c hc
    rcases List.mem_cons.1 hc with rfl | hc
    · decide
    · rcases List.mem_append.1 hc with hc | hc
      · refine commaJoin_chars (fun c => c ≠ ';' ∧ c ≠ '\n') (by decide) (by decide) _ ?_ c hc
        intro w hw
        rcases List.mem_cons.1 hw with rfl | hw
        · exact showInt_plain _
        · rcases List.mem_cons.1 hw with rfl | hw
          · exact showInt_plain _
          · rw [List.mem_singleton.1 hw]
            exact fun c hc => ⟨((h s hs).2.2 c hc).2.1, ((h s hs).2.2 c hc).2.2.1⟩
      · rw [List.mem_singleton.1 hc]
        decide
  rcases List.mem_cons.1 hc with rfl | hc
  · decide
  · rcases List.mem_append.1 hc with hc | hc
    · refine commaJoin_chars (fun c => c ≠ ';' ∧ c ≠ '\n') (by decide) (by decide) _ ?_ c hc
      intro w hw
      obtain ⟨s, hs, rfl⟩ := List.mem_map.1 hw
      exact htuple s hs
    · rw [List.mem_singleton.1 hc]
      decide

end Tables

/-! ### rows -/

section Rows

variable [Field K] [LinearOrder K] [IsStrictOrderedRing K] [FloorRing K] [NumText K]

/-- what makes a row readable -/
structure Readable (r : Row K) : Prop where
  id : PlainName r.id
  tableI : ∀ s ∈ r.tableI, GoodCell (chargeText r) s.2.2
  tableR : ∀ s ∈ r.tableR, GoodCell (chargeText r) s.2.2

theorem rowText_fields {r : Row K} (h : Readable r) :
    ∀ w ∈ [r.id, fixed 2 r.f, fixed 2 r.perLine, fixed 2 r.k, fixed 2 r.fleet, fixed 2 r.minutes, fixed 2 r.co,
      fixedTop 2 r.leastLoad, tableText (chargeText r) r.tableI, tableText (chargeText r) r.tableR],
      ∀ c ∈ w, c ≠ ';' ∧ c ≠ '\n' := by
  intro w hw
  simp only [List.mem_cons, List.not_mem_nil, or_false] at hw
  rcases hw with rfl | rfl | rfl | rfl | rfl | rfl | rfl | rfl | rfl | rfl
  · exact h.id
  · exact fixed_plain _ _
  · exact fixed_plain _ _
  · exact fixed_plain _ _
  · exact fixed_plain _ _
  · exact fixed_plain _ _
  · exact fixed_plain _ _
  · exact fixedTop_plain _ _
  · exact tableText_plain h.tableI
  · exact tableText_plain h.tableR

theorem readRow_text {r : Row K} (h : Readable r) : ∃ s, readRow (rowText r) = some s ∧ SaysSame r s := by
  obtain ⟨a, ha, ha'⟩ := readDecimal_two r.f
  obtain ⟨b, hb, hb'⟩ := readDecimal_two r.perLine
  obtain ⟨c, hc, hc'⟩ := readDecimal_two r.k
  obtain ⟨d, hd, hd'⟩ := readDecimal_two r.fleet
  obtain ⟨e, he, he'⟩ := readDecimal_two r.minutes
  obtain ⟨f, hf, hf'⟩ := readDecimal_two r.co
  obtain ⟨g, hg, hg'⟩ := readTop_two r.leastLoad
  refine ⟨⟨r.id, a, b, c, d, e, f, g, r.tableI, r.tableR⟩, ?_, ⟨rfl, ha', hb', hc', hd', he', hf', hg', rfl, rfl⟩⟩
  unfold readRow rowText
  rw [splitOn_joinWith _ (by simp) fun w hw c hc => (rowText_fields h w hw c hc).1]
  simp only [ha, hb, hc, hd, he, hf, hg, readSections_table h.tableI, readSections_table h.tableR]

theorem joined_chars (P : Char → Prop) {sep : Char} (hs : P sep) : ∀ ws : List Str, (∀ w ∈ ws, ∀ c ∈ w, P c) →
    ∀ c ∈ joinWith sep ws, P c := by
  intro ws
  induction ws with
  | nil => intro _ c h; simp [joinWith] at h
  | cons w t ih =>
    intro h c hcm
    cases t with
    | nil => exact h w List.mem_cons_self c hcm
    | cons w' t' =>
      have hcm' : c ∈ w ++ sep :: joinWith sep (w' :: t') := hcm
      rcases List.mem_append.1 hcm' with h1 | h1
      · exact h w List.mem_cons_self c h1
      · rcases List.mem_cons.1 h1 with rfl | h1
        · exact hs
        · exact ih (fun w hw => h w (List.mem_cons_of_mem _ hw)) c h1

theorem rowText_newline {r : Row K} (h : Readable r) (c : Char) (hc : c ∈ rowText r) : c ≠ '\n' :=
  joined_chars (fun c => c ≠ '\n') (by decide) _ (fun w hw c hc => (rowText_fields h w hw c hc).2) c hc

theorem split_lines (w : Str) (hw : ∀ c ∈ w, c ≠ '\n') : ∀ l : List Str, (∀ u ∈ l, ∀ c ∈ u, c ≠ '\n') →
    splitOn '\n' (w ++ l.flatMap fun u => '\n' :: u) = w :: l := by
  intro l
  induction l generalizing w with
  | nil => intro _; rw [List.flatMap_nil, List.append_nil, splitOn_of_not_mem hw]
  | cons u t ih =>
    intro h
    rw [List.flatMap_cons, List.cons_append, splitOn_append_sep _ hw, ih u (h u List.mem_cons_self)
      fun x hx => h x (List.mem_cons_of_mem _ hx)]

theorem rowsHeader_newline : ∀ c ∈ rowsHeader, c ≠ '\n' := by decide

theorem readReport_rows {rows : List (Row K)} (h : ∀ r ∈ rows, Readable r) :
    ∃ seen, readReport (rowsText rows) = some seen ∧ List.Forall₂ SaysSame rows seen := by
  have hs : splitOn '\n' (rowsText rows) = rowsHeader :: rows.map rowText := by
    have := split_lines rowsHeader rowsHeader_newline (rows.map rowText) fun u hu => by
      obtain ⟨r, hr, rfl⟩ := List.mem_map.1 hu
      exact rowText_newline (h r hr)
    rw [List.flatMap_map] at this
    exact this
  unfold readReport
  rw [hs]
  show ∃ seen, (rows.map rowText).mapM readRow = some seen ∧ _
  clear hs
  induction rows with
  | nil => exact ⟨[], rfl, .nil⟩
  | cons r t ih =>
    obtain ⟨s, h1, h2⟩ := readRow_text (h r List.mem_cons_self)
    obtain ⟨l, h3, h4⟩ := ih fun r hr => h r (List.mem_cons_of_mem _ hr)
    refine ⟨s :: l, ?_, .cons h2 h4⟩
    rw [List.map_cons, List.mapM_cons, h1, h3]
    rfl

end Rows

/-! ### labels -/

theorem after_append (label t : Str) : after label (label ++ t) = some t := by
  have h : label.isPrefixOf (label ++ t) = true := by
    rw [List.isPrefixOf_iff_prefix]
    exact List.prefix_append _ _
  unfold after
  rw [if_pos h, List.drop_left]

/-- two texts differ at some place that both have -/
def differ (l u : Str) : Bool := (l.zip u).any fun p => p.1 != p.2

theorem after_differ {l u : Str} (h : differ l u = true) (x : Str) : after l (u ++ x) = none := by
  unfold after
  rw [if_neg]
  intro hp
  rw [List.isPrefixOf_iff_prefix] at hp
  obtain ⟨t, ht⟩ := hp
  unfold differ at h
  rw [List.any_eq_true] at h
  obtain ⟨p, hp, hne⟩ := h
  obtain ⟨i, hi, rfl⟩ := List.getElem_of_mem hp
  rw [List.length_zip] at hi
  rw [List.getElem_zip] at hne
  have h1 : (l ++ t)[i]? = some l[i] := by rw [List.getElem?_append_left (by omega), List.getElem?_eq_getElem (by omega)]
  have h2 : (u ++ x)[i]? = some u[i] := by rw [List.getElem?_append_left (by omega), List.getElem?_eq_getElem (by omega)]
  rw [ht, h2] at h1
  have := Option.some.inj h1
  simp only [bne_iff_ne, ne_eq] at hne
  exact hne this.symm

/-- a text of lines, each after a break -/
def broken (l : List Str) : Str := l.flatMap fun u => '\n' :: u

theorem broken_append (a b : List Str) : broken (a ++ b) = broken a ++ broken b := List.flatMap_append

theorem broken_cons (a : Str) (l : List Str) : broken (a :: l) = '\n' :: a ++ broken l := List.flatMap_cons

theorem broken_flatMap {α : Type} (l : List α) (f : α → List Str) : broken (l.flatMap f) = l.flatMap fun a => broken (f a) :=
  List.flatMap_assoc

theorem no_break {a b : Str} (ha : ∀ c ∈ a, c ≠ '\n') (hb : ∀ c ∈ b, c ≠ '\n') : ∀ c ∈ a ++ b, c ≠ '\n' := by
  intro c hc
  rcases List.mem_append.1 hc with h | h
  · exact ha c h
  · exact hb c h

theorem after_none {l u : Str} (h : differ l u = true) : after l u = none := by
  have := after_differ h []
  rwa [List.append_nil] at this

end Sidermit
