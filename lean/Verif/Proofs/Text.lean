import Verif.Text
import Mathlib.Tactic.IntervalCases

/-! Decimal printing and parsing round-trip, splitting and joining. -/

namespace Sidermit

theorem digitVal_digitChar {d : Nat} (h : d < 10) : digitVal (digitChar d) = some d := by
  interval_cases d <;> decide

theorem showNatAux_ne_nil {fuel n : Nat} : showNatAux (fuel + 1) n ≠ [] := by
  simp only [showNatAux]
  split <;> simp

/-- every character printed by `showNat` is a digit -/
theorem showNatAux_digits (fuel : Nat) : ∀ n c, c ∈ showNatAux fuel n → ∃ d, d < 10 ∧ c = digitChar d := by
  induction fuel with
  | zero => intro n c h; simp [showNatAux] at h
  | succ f ih =>
    intro n c h
    simp only [showNatAux] at h
    split at h
    · rename_i hn
      simp at h; exact ⟨n, hn, h⟩
    · rcases List.mem_append.1 h with h | h
      · exact ih _ _ h
      · simp at h; exact ⟨n % 10, Nat.mod_lt _ (by omega), h⟩

theorem parseDigits_append_digits (s : Str) : ∀ (acc : Nat) (b : Bool) (t : Str),
    (∀ c ∈ s, ∃ d, d < 10 ∧ c = digitChar d) → s ≠ [] →
    ∃ v, parseDigits acc b (s ++ t) = parseDigits v true t ∧ parseDigits acc b s = some v := by
  induction s with
  | nil => intro _ _ _ _ h; exact absurd rfl h
  | cons c cs ih =>
    intro acc b t hd _
    obtain ⟨d, hd10, rfl⟩ := hd _ (List.mem_cons_self)
    by_cases hcs : cs = []
    · subst hcs
      refine ⟨acc * 10 + d, ?_, ?_⟩
      · simp [parseDigits, digitVal_digitChar hd10]
      · simp [parseDigits, digitVal_digitChar hd10]
    · obtain ⟨v, h1, h2⟩ := ih (acc * 10 + d) true t (fun c hc => hd c (List.mem_cons_of_mem _ hc)) hcs
      refine ⟨v, ?_, ?_⟩
      · simp only [List.cons_append, parseDigits, digitVal_digitChar hd10]; exact h1
      · simp only [parseDigits, digitVal_digitChar hd10]; exact h2

theorem parseDigits_showNatAux (fuel : Nat) : ∀ n, n < fuel →
    parseDigits 0 false (showNatAux fuel n) = some n := by
  induction fuel with
  | zero => intro n h; omega
  | succ f ih =>
    intro n h
    simp only [showNatAux]
    split
    · rename_i hn
      simp [parseDigits, digitVal_digitChar hn]
    · rename_i hn
      have hlt : n / 10 < f := by omega
      have ih' := ih (n / 10) hlt
      have hne : showNatAux f (n / 10) ≠ [] := by
        cases f with
        | zero => omega
        | succ f => exact showNatAux_ne_nil
      obtain ⟨v, h1, h2⟩ := parseDigits_append_digits (showNatAux f (n / 10)) 0 false
        [digitChar (n % 10)] (fun c hc => showNatAux_digits _ _ _ hc) hne
      rw [h1]
      rw [ih'] at h2
      cases h2
      simp [parseDigits, digitVal_digitChar (Nat.mod_lt n (by omega : 10 > 0))]
      omega

theorem parseDigits_showNat (n : Nat) : parseDigits 0 false (showNat n) = some n :=
  parseDigits_showNatAux _ _ (Nat.lt_succ_self n)

theorem digit_not_space {d : Nat} (h : d < 10) : isSpace (digitChar d) = false := by
  interval_cases d <;> decide

theorem digit_ne_minus {d : Nat} (h : d < 10) : digitChar d ≠ '-' := by interval_cases d <;> decide
theorem digit_ne_plus {d : Nat} (h : d < 10) : digitChar d ≠ '+' := by interval_cases d <;> decide
theorem digit_ne_comma {d : Nat} (h : d < 10) : digitChar d ≠ ',' := by interval_cases d <;> decide
theorem digit_ne_newline {d : Nat} (h : d < 10) : digitChar d ≠ '\n' := by interval_cases d <;> decide

theorem showNat_digits (n : Nat) (c : Char) (h : c ∈ showNat n) : ∃ d, d < 10 ∧ c = digitChar d :=
  showNatAux_digits _ _ _ h

theorem showNat_ne_nil (n : Nat) : showNat n ≠ [] := showNatAux_ne_nil

/-- characters of `str(i)` -/
theorem showInt_chars (i : Int) (c : Char) (h : c ∈ showInt i) :
    c = '-' ∨ ∃ d, d < 10 ∧ c = digitChar d := by
  cases i with
  | ofNat n => exact Or.inr (showNat_digits n c h)
  | negSucc n =>
    simp only [showInt, List.mem_cons] at h
    rcases h with h | h
    · exact Or.inl h
    · exact Or.inr (showNat_digits _ c h)

theorem showInt_ne_nil (i : Int) : showInt i ≠ [] := by
  cases i with
  | ofNat n => exact showNat_ne_nil n
  | negSucc n => simp [showInt]

theorem showInt_not_space (i : Int) (c : Char) (h : c ∈ showInt i) : isSpace c = false := by
  rcases showInt_chars i c h with rfl | ⟨d, hd, rfl⟩
  · decide
  · exact digit_not_space hd

theorem showInt_ne_comma (i : Int) (c : Char) (h : c ∈ showInt i) : c ≠ ',' := by
  rcases showInt_chars i c h with rfl | ⟨d, hd, rfl⟩
  · decide
  · exact digit_ne_comma hd

theorem showInt_ne_newline (i : Int) (c : Char) (h : c ∈ showInt i) : c ≠ '\n' := by
  rcases showInt_chars i c h with rfl | ⟨d, hd, rfl⟩
  · decide
  · exact digit_ne_newline hd

theorem dropWhile_eq_self_of_forall {p : Char → Bool} {s : Str} (h : ∀ c ∈ s, p c = false) :
    s.dropWhile p = s := by
  cases s with
  | nil => rfl
  | cons c cs => simp [List.dropWhile, h c (List.mem_cons_self)]

theorem strip_eq_self {s : Str} (h : ∀ c ∈ s, isSpace c = false) : strip s = s := by
  unfold strip
  rw [dropWhile_eq_self_of_forall h, dropWhile_eq_self_of_forall (by simpa using h)]
  simp

theorem rstripNewline_eq_self {s : Str} (h : ∀ c ∈ s, c ≠ '\n') : rstripNewline s = s := by
  unfold rstripNewline
  rw [dropWhile_eq_self_of_forall]
  · simp
  · intro c hc
    simp at hc
    simpa using h c hc

/-- `int(str(i)) = i` -/
theorem pyInt_showInt (i : Int) : pyInt (showInt i) = some i := by
  unfold pyInt
  rw [strip_eq_self (showInt_not_space i)]
  cases i with
  | negSucc n =>
    show (parseDigits 0 false (showNat (n + 1))).map (fun n => -(n : Int)) = _
    rw [parseDigits_showNat]
    rfl
  | ofNat n =>
    simp only [showInt]
    have hd := showNat_digits n
    have hp := parseDigits_showNat n
    cases hs : showNat n with
    | nil => exact absurd hs (showNat_ne_nil n)
    | cons c cs =>
      rw [hs] at hd hp
      obtain ⟨d, h10, hc⟩ := hd c (List.mem_cons_self)
      have h1 : c ≠ '-' := hc ▸ digit_ne_minus h10
      have h2 : c ≠ '+' := hc ▸ digit_ne_plus h10
      split
      · rename_i heq; simp at heq; exact absurd heq.1 h1
      · rename_i heq; simp at heq; exact absurd heq.1 h2
      · rw [hp]; rfl

theorem showInt_injective {i j : Int} (h : showInt i = showInt j) : i = j := by
  have := pyInt_showInt i
  rw [h, pyInt_showInt] at this
  exact (Option.some.inj this).symm

/-! ### splitting -/

theorem splitOn_ne_nil (sep : Char) (s : Str) : splitOn sep s ≠ [] := by
  induction s with
  | nil => simp [splitOn]
  | cons c cs ih =>
    simp only [splitOn]
    split
    · simp
    · split <;> simp

theorem splitOn_of_not_mem {sep : Char} {s : Str} (h : ∀ c ∈ s, c ≠ sep) : splitOn sep s = [s] := by
  induction s with
  | nil => rfl
  | cons c cs ih =>
    simp only [splitOn, if_neg (h c List.mem_cons_self)]
    rw [ih (fun c hc => h c (List.mem_cons_of_mem _ hc))]

theorem splitOn_append_sep {sep : Char} {s : Str} (t : Str) (h : ∀ c ∈ s, c ≠ sep) :
    splitOn sep (s ++ sep :: t) = s :: splitOn sep t := by
  induction s with
  | nil => simp [splitOn]
  | cons c cs ih =>
    simp only [List.cons_append, splitOn, if_neg (h c List.mem_cons_self)]
    rw [ih (fun c hc => h c (List.mem_cons_of_mem _ hc))]

theorem splitOn_joinWith {sep : Char} (ws : List Str) (hne : ws ≠ [])
    (h : ∀ w ∈ ws, ∀ c ∈ w, c ≠ sep) : splitOn sep (joinWith sep ws) = ws := by
  induction ws with
  | nil => exact absurd rfl hne
  | cons w ws ih =>
    cases ws with
    | nil => simp only [joinWith]; exact splitOn_of_not_mem (h w List.mem_cons_self)
    | cons w' ws' =>
      simp only [joinWith]
      rw [splitOn_append_sep _ (h w List.mem_cons_self)]
      rw [ih (by simp) (fun x hx => h x (List.mem_cons_of_mem _ hx))]

theorem splitWsAux_word (w : Str) (hw : ∀ c ∈ w, isSpace c = false) : ∀ (cur s : Str),
    splitWsAux cur (w ++ s) = splitWsAux (w.reverse ++ cur) s := by
  induction w with
  | nil => intro cur s; simp
  | cons c cs ih =>
    intro cur s
    simp only [List.cons_append, splitWsAux, hw c List.mem_cons_self]
    simp only [Bool.false_eq_true, if_false]
    rw [ih (fun c hc => hw c (List.mem_cons_of_mem _ hc))]
    simp

theorem splitWs_joinWith (ws : List Str) (h : ∀ w ∈ ws, w ≠ [] ∧ ∀ c ∈ w, isSpace c = false) :
    splitWs (joinWith ' ' ws) = ws := by
  have key : ∀ (ws : List Str), (∀ w ∈ ws, w ≠ [] ∧ ∀ c ∈ w, isSpace c = false) →
      splitWsAux [] (joinWith ' ' ws) = ws := by
    intro ws
    induction ws with
    | nil => intro _; simp [joinWith, splitWsAux]
    | cons w ws ih =>
      intro h
      have hw := h w List.mem_cons_self
      cases ws with
      | nil =>
        simp only [joinWith]
        have := splitWsAux_word w hw.2 [] []
        simp only [List.append_nil] at this
        rw [this]
        simp [splitWsAux, hw.1]
      | cons w' ws' =>
        simp only [joinWith]
        rw [splitWsAux_word w hw.2]
        have hsp : isSpace ' ' = true := by decide
        simp only [List.append_nil, splitWsAux, hsp, if_true]
        have : w.reverse ≠ [] := by simpa using hw.1
        rw [if_neg this]
        rw [ih (fun x hx => h x (List.mem_cons_of_mem _ hx))]
        simp
  exact key ws h

end Sidermit
